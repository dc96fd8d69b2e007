import Verif.Json.Decode

/-!
# Decoding the configs and the entries of a file: helper lemmas
-/

namespace Verif.Json
open Verif Book Book.Spec Spec

theorem single {names : List Str} {ms : List (Str × Value)} (h : Once names ms) {n : Str}
    (hn : n ∈ names) : Single ms n := fun _ _ => h.unique hn

/-- Decoding an object, or `null`, in which nothing is given twice. -/
theorem object_iff {α γ : Type} {fields : List (Fld α)} {keep : α → γ} (hl : Lawful fields keep)
    {v : Value} (ho : ∀ ms, v = .obj ms → Once (fields.map Fld.name) ms) {a b : α} :
    struct fields v a = .ok b ↔ ∃ ms, Members v ms ∧ Once (fields.map Fld.name) ms ∧
      Known (fields.map Fld.name) ms ∧ keep b = keep a ∧
      ∀ f ∈ fields, ReadsWith f.dec ms f.name (f.get a) (f.get b) := by
  rw [struct_iff]
  have key : ∀ ms, Members v ms → Once (fields.map Fld.name) ms := by
    rintro ms (rfl | ⟨rfl, rfl⟩)
    · exact ho ms rfl
    · exact List.Pairwise.nil
  constructor
  · rintro ⟨ms, hm, h⟩
    have o := key ms hm
    obtain ⟨h1, h2, h3⟩ := (hl.members_iff o).mp h
    exact ⟨ms, hm, o, h1, h2, h3⟩
  · rintro ⟨ms, hm, o, h1, h2, h3⟩
    exact ⟨ms, hm, (hl.members_iff o).mpr ⟨h1, h2, h3⟩⟩

theorem once_of_members {names : List Str} {v : Value} {ms : List (Str × Value)} (hm : Members v ms)
    (ho : ∀ ms, v = .obj ms → Once names ms) : Once names ms := by
  rcases hm with rfl | ⟨rfl, rfl⟩
  · exact ho ms rfl
  · exact List.Pairwise.nil

theorem env_iff {v : Value} (hp : PlainEnv v) {e : Sh.Env} : struct envFields v {} = .ok e ↔ EnvOf v e := by
  rw [object_iff env_lawful fun ms h => (hp ms h).1]
  unfold EnvOf
  refine exists_congr fun ms => ⟨?_, ?_⟩
  · rintro ⟨hm, ho, hk, -, hr⟩
    simp only [envFields, List.forall_mem_cons] at hr
    have hmap : ∀ kvs, Has ms b!"Set" (.obj kvs) → (kvs.map Prod.fst).Nodup := by
      rcases hm with rfl | ⟨rfl, rfl⟩
      · exact (hp ms rfl).2
      · intro kvs h; exact absurd h has_nil
    exact ⟨hm, hk, (list_iff (single ho (by decide))).mp hr.1, (list_iff (single ho (by decide))).mp hr.2.1,
      (setting_map_iff (single ho (by decide)) hmap).mp hr.2.2.1⟩
  · rintro ⟨hm, hk, h1, h2, h3⟩
    have ho : Once envNames ms := once_of_members hm fun ms h => (hp ms h).1
    have hmap : ∀ kvs, Has ms b!"Set" (.obj kvs) → (kvs.map Prod.fst).Nodup := by
      rcases hm with rfl | ⟨rfl, rfl⟩
      · exact (hp ms rfl).2
      · intro kvs h; exact absurd h has_nil
    refine ⟨hm, ho, hk, rfl, ?_⟩
    simp only [envFields, List.forall_mem_cons]
    exact ⟨(list_iff (single ho (by decide))).mpr h1, (list_iff (single ho (by decide))).mpr h2,
      (setting_map_iff (single ho (by decide)) hmap).mpr h3, by simp⟩

theorem env_setting_iff {ms : List (Str × Value)} {n : Str}
    (hp : ∀ v, Has ms n v → PlainEnv v) {e : Sh.Env} :
    ReadsWith (struct envFields) ms n {} e ↔ EnvSetting ms n e := by
  have hnull : PlainEnv .null := fun ms h => nomatch h
  constructor
  · rintro (⟨v, hv, h⟩ | ⟨h, rfl⟩)
    · exact ⟨v, Or.inl hv, (env_iff (hp v hv)).mp h⟩
    · exact ⟨.null, Or.inr ⟨unset_of_none h, rfl⟩, (env_iff hnull).mp rfl⟩
  · rintro ⟨v, hv | ⟨hun, rfl⟩, h⟩
    · exact Or.inl ⟨v, hv, (env_iff (hp v hv)).mpr h⟩
    · have := (env_iff hnull).mpr h
      obtain rfl := Except.ok.inj this
      rcases unset_cases hun with h' | h'
      · exact Or.inl ⟨_, h', rfl⟩
      · exact Or.inr ⟨h', rfl⟩

variable {v : Value}

theorem plain_once (hp : PlainConfig v) {names : List Str}
    (hs : ∀ n ∈ names, n ∈ pgNames ++ shNames ++ demoNames ++ sqlNames ++ execNames ++ sleepNames) :
    ∀ ms, v = .obj ms → Once names ms := fun ms h => (hp ms h).1.mono hs

theorem plain_env (hp : PlainConfig v) {ms : List (Str × Value)} (hm : Members v ms) :
    ∀ e, Has ms b!"Env" e → PlainEnv e := by
  rcases hm with rfl | ⟨rfl, rfl⟩
  · exact (hp ms rfl).2
  · intro e h; exact absurd h has_nil

theorem pg_iff (hp : PlainConfig v) {basedir : Str} {t : PgTarget} :
    struct pgFields v {} = .ok t ↔ TargetConfig basedir v b!"pg" (.pg t) := by
  have hon : ∀ ms, v = .obj ms → Once pgNames ms := plain_once hp (by decide)
  rw [object_iff pg_lawful hon]
  constructor
  · rintro ⟨ms, hm, ho, hk, -, hr⟩
    simp only [pgFields, List.forall_mem_cons] at hr
    obtain ⟨r1, r2, r3, r4, r5, r6, r7, r8, -⟩ := hr
    exact .pg hm hk ((int_iff (single ho (by decide))).mp r1) ((text_iff (single ho (by decide))).mp r2)
      ((port_iff (single ho (by decide))).mp r3) ((text_iff (single ho (by decide))).mp r4)
      ((text_iff (single ho (by decide))).mp r5) ((text_iff (single ho (by decide))).mp r6)
      ((text_iff (single ho (by decide))).mp r7) ((int_iff (single ho (by decide))).mp r8)
  · intro h
    cases h with
    | @pg ms t hm hk r1 r2 r3 r4 r5 r6 r7 r8 =>
      have ho := once_of_members hm hon
      refine ⟨ms, hm, ho, hk, rfl, ?_⟩
      simp only [pgFields, List.forall_mem_cons]
      exact ⟨(int_iff (single ho (by decide))).mpr r1, (text_iff (single ho (by decide))).mpr r2,
        (port_iff (single ho (by decide))).mpr r3, (text_iff (single ho (by decide))).mpr r4,
        (text_iff (single ho (by decide))).mpr r5, (text_iff (single ho (by decide))).mpr r6,
        (text_iff (single ho (by decide))).mpr r7, (int_iff (single ho (by decide))).mpr r8, by simp⟩

theorem sh_iff (hp : PlainConfig v) {basedir : Str} {t : Sh.Target} :
    struct shFields v { basedir := basedir } = .ok t ↔ TargetConfig basedir v b!"sh" (.sh t) := by
  have hon : ∀ ms, v = .obj ms → Once shNames ms := plain_once hp (by decide)
  rw [object_iff sh_lawful hon]
  constructor
  · rintro ⟨ms, hm, ho, hk, hb, hr⟩
    simp only [shFields, List.forall_mem_cons] at hr
    obtain ⟨r1, r2, -⟩ := hr
    obtain ⟨b1, b2⟩ := Prod.mk.inj hb
    exact .sh hm hk ((int_iff (single ho (by decide))).mp r1)
      ((env_setting_iff (plain_env hp hm)).mp r2) b1 b2
  · intro h
    cases h with
    | @sh ms t hm hk r1 r2 b1 b2 =>
      have ho := once_of_members hm hon
      refine ⟨ms, hm, ho, hk, Prod.ext b1 b2, ?_⟩
      simp only [shFields, List.forall_mem_cons]
      exact ⟨(int_iff (single ho (by decide))).mpr r1,
        (env_setting_iff (plain_env hp hm)).mpr r2, by simp⟩

theorem demo_iff (hp : PlainConfig v) {basedir : Str} {t : Demo.Target} :
    struct demoFields v {} = .ok t ↔ TargetConfig basedir v b!"demo" (.demo t) := by
  have hon : ∀ ms, v = .obj ms → Once demoNames ms := plain_once hp (by decide)
  rw [object_iff demo_lawful hon]
  constructor
  · rintro ⟨ms, hm, ho, hk, hb, hr⟩
    simp only [demoFields, List.forall_mem_cons] at hr
    exact .demo hm hk ((text_iff (single ho (by decide))).mp hr.1) hb
  · intro h
    cases h with
    | @demo ms t hm hk r1 b1 =>
      have ho := once_of_members hm hon
      refine ⟨ms, hm, ho, hk, b1, ?_⟩
      simp only [demoFields, List.forall_mem_cons]
      exact ⟨(text_iff (single ho (by decide))).mpr r1, by simp⟩

theorem sql_iff (hp : PlainConfig v) {sql : Str} :
    struct sqlFields v [] = .ok sql ↔ ∃ ms, Members v ms ∧ Known sqlNames ms ∧ TextSetting ms b!"sql" [] sql := by
  have hon : ∀ ms, v = .obj ms → Once sqlNames ms := plain_once hp (by decide)
  rw [object_iff sql_lawful hon]
  refine exists_congr fun ms => ⟨?_, ?_⟩
  · rintro ⟨hm, ho, hk, -, hr⟩
    simp only [sqlFields, List.forall_mem_cons] at hr
    exact ⟨hm, hk, (text_iff (single ho (by decide))).mp hr.1⟩
  · rintro ⟨hm, hk, r1⟩
    have ho := once_of_members hm hon
    refine ⟨hm, ho, hk, rfl, ?_⟩
    simp only [sqlFields, List.forall_mem_cons]
    exact ⟨(text_iff (single ho (by decide))).mpr r1, by simp⟩

theorem exec_iff (hp : PlainConfig v) {x : Sh.Exec} :
    struct execFields v {} = .ok x ↔ ∃ ms, Members v ms ∧ Known execNames ms ∧
      ListSetting ms b!"Args" x.args ∧ EnvSetting ms b!"Env" x.env := by
  have hon : ∀ ms, v = .obj ms → Once execNames ms := plain_once hp (by decide)
  rw [object_iff exec_lawful hon]
  refine exists_congr fun ms => ⟨?_, ?_⟩
  · rintro ⟨hm, ho, hk, -, hr⟩
    simp only [execFields, List.forall_mem_cons] at hr
    exact ⟨hm, hk, (list_iff (single ho (by decide))).mp hr.1,
      (env_setting_iff (plain_env hp hm)).mp hr.2.1⟩
  · rintro ⟨hm, hk, r1, r2⟩
    have ho := once_of_members hm hon
    refine ⟨hm, ho, hk, rfl, ?_⟩
    simp only [execFields, List.forall_mem_cons]
    exact ⟨(list_iff (single ho (by decide))).mpr r1,
      (env_setting_iff (plain_env hp hm)).mpr r2, by simp⟩

theorem sleep_iff (hp : PlainConfig v) {x : Demo.Sleep} :
    struct sleepFields v ⟨0⟩ = .ok x ↔ ∃ ms, Members v ms ∧ Known sleepNames ms ∧
      IntSetting ms b!"Seconds" 0 x.seconds.toInt := by
  have hon : ∀ ms, v = .obj ms → Once sleepNames ms := plain_once hp (by decide)
  rw [object_iff sleep_lawful hon]
  refine exists_congr fun ms => ⟨?_, ?_⟩
  · rintro ⟨hm, ho, hk, -, hr⟩
    simp only [sleepFields, List.forall_mem_cons] at hr
    exact ⟨hm, hk, (int_iff (single ho (by decide))).mp hr.1⟩
  · rintro ⟨hm, hk, r1⟩
    have ho := once_of_members hm hon
    refine ⟨hm, ho, hk, rfl, ?_⟩
    simp only [sleepFields, List.forall_mem_cons]
    exact ⟨(int_iff (single ho (by decide))).mpr r1, by simp⟩

theorem no_iff : struct noFields v () = .ok () ↔ Members v [] := by
  rw [struct_iff]
  constructor
  · rintro ⟨ms, hm, h⟩
    cases ms with
    | nil => exact hm
    | cons p ms => obtain ⟨k, w⟩ := p; cases h
  · intro h; exact ⟨[], h, rfl⟩

/-- Decoding the config of a target. -/
theorem target_config_iff (hp : PlainConfig v) {basedir cls : Str} {t : Target} :
    (∃ t0, Fresh basedir cls t0 ∧ decodeTarget v t0 = .ok t) ↔ TargetConfig basedir v cls t := by
  constructor
  · rintro ⟨t0, hf, hd⟩
    cases hf with
    | pg =>
      simp only [decodeTarget] at hd
      cases h : struct pgFields v {} with
      | error e => rw [h] at hd; cases hd
      | ok u => rw [h] at hd; obtain rfl := Except.ok.inj hd; exact (pg_iff hp).mp h
    | sh =>
      simp only [decodeTarget] at hd
      cases h : struct shFields v { basedir := basedir } with
      | error e => rw [h] at hd; cases hd
      | ok u => rw [h] at hd; obtain rfl := Except.ok.inj hd; exact (sh_iff hp).mp h
    | demo =>
      simp only [decodeTarget] at hd
      cases h : struct demoFields v {} with
      | error e => rw [h] at hd; cases hd
      | ok u => rw [h] at hd; obtain rfl := Except.ok.inj hd; exact (demo_iff hp).mp h
  · intro h
    cases h with
    | pg a b c d e f g i j k =>
      refine ⟨_, .pg, ?_⟩
      have := (pg_iff hp (basedir := basedir)).mpr (.pg a b c d e f g i j k)
      simp only [decodeTarget]; rw [this]; rfl
    | sh a b c d e f =>
      refine ⟨_, .sh, ?_⟩
      have := (sh_iff hp).mpr (.sh a b c d e f)
      simp only [decodeTarget]; rw [this]; rfl
    | demo a b c d =>
      refine ⟨_, .demo, ?_⟩
      have := (demo_iff hp (basedir := basedir)).mpr (.demo a b c d)
      simp only [decodeTarget]; rw [this]; rfl

/-- Decoding the config of a task. -/
theorem task_config_iff (hp : PlainConfig v) {tgt : Target} {cls : Str} {c : Config} :
    (∃ c0, Offers tgt cls c0 ∧ decodeConfig v c0 = .ok c) ↔ TaskConfig v tgt cls c := by
  have hsql : ∀ {c : Config}, decodeConfig v (.pgExec []) = .ok c ↔ ∃ sql, c = .pgExec sql ∧
      ∃ ms, Members v ms ∧ Known sqlNames ms ∧ TextSetting ms b!"sql" [] sql := by
    intro c
    simp only [decodeConfig, ← sql_iff hp]
    cases struct sqlFields v [] <;> simp [Except.map, eq_comm]
  have hexec : ∀ {c : Config}, decodeConfig v (.shExec {}) = .ok c ↔ ∃ x, c = .shExec x ∧
      ∃ ms, Members v ms ∧ Known execNames ms ∧ ListSetting ms b!"Args" x.args ∧
        EnvSetting ms b!"Env" x.env := by
    intro c
    simp only [decodeConfig, ← exec_iff hp]
    cases struct execFields v {} <;> simp [Except.map, eq_comm]
  have hsleep : ∀ {c : Config}, decodeConfig v (.sleep ⟨0⟩) = .ok c ↔ ∃ x, c = .sleep x ∧
      ∃ ms, Members v ms ∧ Known sleepNames ms ∧ IntSetting ms b!"Seconds" 0 x.seconds.toInt := by
    intro c
    simp only [decodeConfig, ← sleep_iff hp]
    cases struct sleepFields v ⟨0⟩ <;> simp [Except.map, eq_comm]
  have hno : ∀ {c c' : Config}, ((struct noFields v ()).map fun _ => c) = .ok c' ↔ c' = c ∧ Members v [] := by
    intro c c'
    rw [← no_iff]
    cases h : struct noFields v () <;> simp [Except.map, eq_comm]
  constructor
  · rintro ⟨c0, hf, hd⟩
    cases hf with
    | pgDefault =>
      obtain ⟨sql, rfl, ms, h1, h2, h3⟩ := hsql.mp hd; exact .pgExec (Or.inl rfl) h1 h2 h3
    | pgExec =>
      obtain ⟨sql, rfl, ms, h1, h2, h3⟩ := hsql.mp hd; exact .pgExec (Or.inr rfl) h1 h2 h3
    | shDefault =>
      obtain ⟨x, rfl, ms, h1, h2, h3, h4⟩ := hexec.mp hd; exact .shExec (Or.inl rfl) h1 h2 h3 h4
    | shExec =>
      obtain ⟨x, rfl, ms, h1, h2, h3, h4⟩ := hexec.mp hd; exact .shExec (Or.inr rfl) h1 h2 h3 h4
    | echo => obtain ⟨rfl, h⟩ := hno.mp hd; exact .echo h
    | fail => obtain ⟨rfl, h⟩ := hno.mp hd; exact .fail h
    | rev => obtain ⟨rfl, h⟩ := hno.mp hd; exact .rev h
    | rot13 => obtain ⟨rfl, h⟩ := hno.mp hd; exact .rot13 h
    | sleep => obtain ⟨x, rfl, ms, h1, h2, h3⟩ := hsleep.mp hd; exact .sleep h1 h2 h3
  · intro h
    cases h with
    | pgExec hc h1 h2 h3 =>
      rcases hc with rfl | rfl
      · exact ⟨_, .pgDefault, hsql.mpr ⟨_, rfl, _, h1, h2, h3⟩⟩
      · exact ⟨_, .pgExec, hsql.mpr ⟨_, rfl, _, h1, h2, h3⟩⟩
    | shExec hc h1 h2 h3 h4 =>
      rcases hc with rfl | rfl
      · exact ⟨_, .shDefault, hexec.mpr ⟨_, rfl, _, h1, h2, h3, h4⟩⟩
      · exact ⟨_, .shExec, hexec.mpr ⟨_, rfl, _, h1, h2, h3, h4⟩⟩
    | echo h => exact ⟨_, .echo, hno.mpr ⟨rfl, h⟩⟩
    | fail h => exact ⟨_, .fail, hno.mpr ⟨rfl, h⟩⟩
    | rev h => exact ⟨_, .rev, hno.mpr ⟨rfl, h⟩⟩
    | rot13 h => exact ⟨_, .rot13, hno.mpr ⟨rfl, h⟩⟩
    | sleep h1 h2 h3 => exact ⟨_, .sleep, hsleep.mpr ⟨_, rfl, _, h1, h2, h3⟩⟩

/-! ## Entries -/

variable {tx : Text}

/-- What is kept of a `config` and what it is decoded to. -/
def Raw (tx : Text) (cfg : Value) (m : Str) : Prop := m = tx.raw cfg ∨ (m = [] ∧ cfg = .null)

theorem raw_reads {ms : List (Str × Value)} {n : Str} {m : Str} :
    ReadsWith (fun v (_ : Str) => .ok (tx.raw v)) ms n [] m → ∃ cfg, AnySetting ms n cfg ∧ Raw tx cfg m := by
  rintro (⟨v, hv, h⟩ | ⟨hno, rfl⟩)
  · exact ⟨v, Or.inl hv, Or.inl (Except.ok.inj h).symm⟩
  · exact ⟨.null, Or.inr ⟨unset_of_none hno, rfl⟩, Or.inr ⟨rfl, rfl⟩⟩

theorem raw_exists {ms : List (Str × Value)} {n : Str} {cfg : Value}
    (h : AnySetting ms n cfg) : ∃ m, ReadsWith (fun v (_ : Str) => .ok (tx.raw v)) ms n [] m ∧ Raw tx cfg m := by
  rcases h with h | ⟨hun, rfl⟩
  · exact ⟨_, Or.inl ⟨cfg, h, rfl⟩, Or.inl rfl⟩
  · rcases unset_cases hun with h | h
    · exact ⟨_, Or.inl ⟨_, h, rfl⟩, Or.inl rfl⟩
    · exact ⟨[], Or.inr ⟨h, rfl⟩, Or.inr ⟨rfl, rfl⟩⟩

theorem decodeTarget_null (t : Target) : decodeTarget .null t = .ok t := by cases t <;> rfl

theorem decodeConfig_null (c : Config) : decodeConfig .null c = .ok c := by cases c <;> rfl

theorem raw_target {cfg : Value} {m : Str} (h : Raw tx cfg m) {a b : Target} :
    Decoded (decoder tx).target m a b ↔ decodeTarget cfg a = .ok b := by
  unfold Decoded
  rcases h with rfl | ⟨rfl, rfl⟩
  · simp [tx.raw_ne, decoder, tx.read_raw]
  · simp [decodeTarget_null, eq_comm]

theorem raw_config {cfg : Value} {m : Str} (h : Raw tx cfg m) {a b : Config} :
    Decoded (decoder tx).config m a b ↔ decodeConfig cfg a = .ok b := by
  unfold Decoded
  rcases h with rfl | ⟨rfl, rfl⟩
  · simp [tx.raw_ne, decoder, tx.read_raw]
  · simp [decodeConfig_null, eq_comm]

theorem plain_any {names : List Str} (hp : PlainEntry names v) {ms : List (Str × Value)} (hm : v = .obj ms)
    {cfg : Value} (h : AnySetting ms b!"Config" cfg) : PlainConfig cfg := by
  rcases h with h | ⟨_, rfl⟩
  · exact (hp ms hm).2 cfg h
  · intro ms h; cases h

/-- A target of a file. -/
theorem target_entry (hp : PlainEntry targetNames v) {basedir : Str} {t : Target} :
    (∃ w, pointer (targetFields tx) ⟨[], []⟩ v = .ok (some w) ∧ TargetOf (decoder tx) basedir w t) ↔
      TargetIs basedir v t := by
  have hptr : ∀ w, pointer (targetFields tx) ⟨[], []⟩ v = .ok (some w) ↔
      ∃ ms, v = .obj ms ∧ struct (targetFields tx) v ⟨[], []⟩ = .ok w := by
    intro w
    cases v with
    | null => simp [pointer]
    | obj ms => simp only [pointer]; cases struct (targetFields tx) (.obj ms) ⟨[], []⟩ <;> simp [Except.map]
    | _ => simp [pointer, struct, mismatch, Except.map]
  constructor
  · rintro ⟨w, h1, t0, h2, h3, h4⟩
    obtain ⟨ms, rfl, hs⟩ := (hptr w).mp h1
    rw [object_iff (target_lawful tx) fun ms h => (hp ms h).1] at hs
    obtain ⟨ms', hm, ho, hk, -, hr⟩ := hs
    obtain rfl : ms' = ms := by
      rcases hm with e | ⟨e, _⟩
      · cases e; rfl
      · cases e
    simp only [targetFields, List.forall_mem_cons] at hr
    replace ho : Once targetNames ms' := ho
    obtain ⟨cfg, c1, c2⟩ := raw_reads hr.2.1
    exact ⟨ms', w.class_, cfg, rfl, hk, (text_iff (single ho (by decide))).mp hr.1, c1,
      (target_config_iff (plain_any hp rfl c1)).mp ⟨t0, h2, (raw_target c2).mp h3⟩, h4⟩
  · rintro ⟨ms, cls, cfg, rfl, hk, h1, h2, h3, h4⟩
    have ho := (hp ms rfl).1
    obtain ⟨m, r1, r2⟩ := raw_exists (tx := tx) h2
    obtain ⟨t0, f1, f2⟩ := (target_config_iff (plain_any hp rfl h2)).mpr h3
    refine ⟨⟨cls, m⟩, (hptr _).mpr ⟨ms, rfl, ?_⟩, t0, f1, (raw_target r2).mpr f2, h4⟩
    rw [object_iff (target_lawful tx) fun ms h => (hp ms h).1]
    refine ⟨ms, Or.inl rfl, ho, hk, rfl, ?_⟩
    simp only [targetFields, List.forall_mem_cons]
    exact ⟨(text_iff (single ho (by decide))).mpr h1, r1, by simp⟩

/-- A task of a file. -/
theorem task_entry (hp : PlainEntry taskNames v) {has : Str → Target → Prop} {t : Task} :
    (∃ w, pointer (taskFields tx) ⟨[], [], [], []⟩ v = .ok (some w) ∧ TaskOf (decoder tx) has w t) ↔
      TaskIs has v t := by
  have hptr : ∀ w, pointer (taskFields tx) ⟨[], [], [], []⟩ v = .ok (some w) ↔
      ∃ ms, v = .obj ms ∧ struct (taskFields tx) v ⟨[], [], [], []⟩ = .ok w := by
    intro w
    cases v with
    | null => simp [pointer]
    | obj ms =>
      simp only [pointer]; cases struct (taskFields tx) (.obj ms) ⟨[], [], [], []⟩ <;> simp [Except.map]
    | _ => simp [pointer, struct, mismatch, Except.map]
  constructor
  · rintro ⟨w, h1, cls, tgt, c0, c1, q1, q2, q3, q4, q5, q6, q7⟩
    obtain ⟨ms, rfl, hs⟩ := (hptr w).mp h1
    rw [object_iff (task_lawful tx) fun ms h => (hp ms h).1] at hs
    obtain ⟨ms', hm, ho, hk, -, hr⟩ := hs
    obtain rfl : ms' = ms := by
      rcases hm with e | ⟨e, _⟩
      · cases e; rfl
      · cases e
    simp only [taskFields, List.forall_mem_cons] at hr
    replace ho : Once taskNames ms' := ho
    obtain ⟨r1, r2, r3, r4, -⟩ := hr
    obtain ⟨cfg, d1, d2⟩ := raw_reads r4
    refine ⟨ms', w.target, cls, tgt, cfg, c1, rfl, hk, (text_iff (single ho (by decide))).mp r2, q1, q2, d1,
      (task_config_iff (plain_any hp rfl d1)).mp ⟨c0, q3, (raw_config d2).mp q4⟩, q5, ?_, ?_⟩
    · rw [q6]; exact (list_iff (single ho (by decide))).mp r1
    · rw [q7]; exact (text_iff (single ho (by decide))).mp r3
  · rintro ⟨ms, ref, cls, tgt, cfg, c, rfl, hk, h1, h2, h3, h4, h5, h6, h7, h8⟩
    have ho := (hp ms rfl).1
    obtain ⟨m, r1, r2⟩ := raw_exists (tx := tx) h4
    obtain ⟨c0, f1, f2⟩ := (task_config_iff (plain_any hp rfl h4)).mpr h5
    refine ⟨⟨t.after, ref, t.message, m⟩, (hptr _).mpr ⟨ms, rfl, ?_⟩, cls, tgt, c0, c, h2, h3, f1,
      (raw_config r2).mpr f2, h6, rfl, rfl⟩
    rw [object_iff (task_lawful tx) fun ms h => (hp ms h).1]
    refine ⟨ms, Or.inl rfl, ho, hk, rfl, ?_⟩
    simp only [taskFields, List.forall_mem_cons]
    exact ⟨(list_iff (single ho (by decide))).mpr h7, (text_iff (single ho (by decide))).mpr h1,
      (text_iff (single ho (by decide))).mpr h8, r1, by simp⟩

end Verif.Json
