import Verif.Json.SecretSpec
import Verif.Json.Configs

/-!
# Decoding files that differ in passwords only
-/

namespace Verif.Json.Secret
open Verif Json Spec Book

variable {α α' β ε : Type}

/-- Both fail in the same way, or both succeed with related results. -/
def Both (Q : α → α' → Prop) (x : Except ε α) (x' : Except ε α') : Prop :=
  (∃ e, x = .error e ∧ x' = .error e) ∨ ∃ a a', x = .ok a ∧ x' = .ok a' ∧ Q a a'

theorem Both.refl {Q : α → α → Prop} (h : ∀ a, Q a a) (x : Except ε α) : Both Q x x := by
  cases x with
  | error e => exact .inl ⟨e, rfl, rfl⟩
  | ok a => exact .inr ⟨a, a, rfl, rfl, h a⟩

theorem Both.map {Q : α → α → Prop} {Q' : β → β → Prop} {f : α → β} (hf : ∀ a a', Q a a' → Q' (f a) (f a'))
    {x x' : Except ε α} (h : Both Q x x') : Both Q' (x.map f) (x'.map f) := by
  rcases h with ⟨e, rfl, rfl⟩ | ⟨a, a', rfl, rfl, hq⟩
  · exact .inl ⟨e, rfl, rfl⟩
  · exact .inr ⟨_, _, rfl, rfl, hf _ _ hq⟩

theorem members_both {fields : List (Fld α)} {Q : α → α → Prop} {R : Str → Value → Value → Prop}
    (hs : ∀ key f v v' a a', findField fields key = some f → v = v' ∨ R key v v' → Q a a' →
      Both (fun b b' => Q (f.put a b) (f.put a' b')) (f.dec v (f.get a)) (f.dec v' (f.get a')))
    {ms ms' : List (Str × Value)} (h : Pairs R ms ms') {a a' : α} (hq : Q a a') :
    Both Q (members fields ms a) (members fields ms' a') := by
  induction h generalizing a a' with
  | nil => exact .inr ⟨a, a', rfl, rfl, hq⟩
  | @cons p p' ms ms' hp _ ih =>
    obtain ⟨key, v⟩ := p
    obtain ⟨key', v'⟩ := p'
    obtain ⟨hk, hv⟩ := hp
    obtain rfl : key = key' := hk
    simp only [members]
    cases hf : findField fields key with
    | none => exact .inl ⟨_, rfl, rfl⟩
    | some f =>
      rcases hs key f v v' a a' hf hv hq with ⟨e, h1, h2⟩ | ⟨b, b', h1, h2, hq'⟩
      · simp only [h1, h2]; exact .inl ⟨e, rfl, rfl⟩
      · simp only [h1, h2]; exact ih hq'

theorem pairs_refl (R : Str → Value → Value → Prop) (ms : List (Str × Value)) : Pairs R ms ms := by
  induction ms with
  | nil => exact .nil
  | cons p ms ih => exact .cons ⟨rfl, .inl rfl⟩ ih

theorem struct_both {fields : List (Fld α)} {Q : α → α → Prop} {R : Str → Value → Value → Prop}
    (hs : ∀ key f v v' a a', findField fields key = some f → v = v' ∨ R key v v' → Q a a' →
      Both (fun b b' => Q (f.put a b) (f.put a' b')) (f.dec v (f.get a)) (f.dec v' (f.get a')))
    {v v' : Value} (h : v = v' ∨ Objects R v v') {a a' : α} (hq : Q a a') :
    Both Q (struct fields v a) (struct fields v' a') := by
  rcases h with rfl | ⟨ms, ms', rfl, rfl, h⟩
  · cases v with
    | null => exact .inr ⟨a, a', rfl, rfl, hq⟩
    | obj ms => exact members_both hs (pairs_refl R ms) hq
    | _ => exact .inl ⟨_, rfl, rfl⟩
  · exact members_both hs h hq

/-! ## Targets -/

/-- Likewise for the settings of a server. -/
def SamePg (t t' : PgTarget) : Prop :=
  t' = { t with password := t'.password } ∧ (t.password = t'.password ∨ (t.password ≠ [] ∧ t'.password ≠ []))

theorem SamePg.target {t t' : PgTarget} (h : SamePg t t') : SameTarget (.pg t) (.pg t') := by
  obtain ⟨h1, h2 | ⟨h2, h3⟩⟩ := h
  · have : t' = t := by rw [h1, ← h2]
    rw [this]
    exact .refl _
  · rw [h1]
    exact .pg t _ h2 h3

theorem pg_both {v v' : Value} (h : v = v' ∨ Configs v v') {t t' : PgTarget} (hq : SamePg t t') :
    Both SamePg (struct pgFields v t) (struct pgFields v' t') := by
  refine struct_both (fun key f v v' a a' hf hv hq => ?_) h hq
  obtain ⟨hm, hs⟩ := pg_lawful.find_iff.1 hf
  obtain ⟨h1, h2⟩ := hq
  have hne : f.name ≠ b!"Password" → v = v' := by
    intro hn
    rcases hv with hv | ⟨hp, -⟩
    · exact hv
    · refine absurd ?_ hn
      have : findField pgFields key = some ⟨b!"Password", _, PgTarget.password,
          fun t x => { t with password := x }, string⟩ :=
        pg_lawful.find_iff.2 ⟨by simp [pgFields], hp⟩
      rw [hf] at this
      rw [Option.some.inj this]
  simp only [pgFields, List.mem_cons, List.not_mem_nil, or_false] at hm
  have same : ∀ {γ : Type} (get : PgTarget → γ) (put : PgTarget → γ → PgTarget)
      (dec : Value → γ → Except Str γ), get a = get a' → v = v' →
      (∀ x, SamePg (put a x) (put a' x)) →
      Both (fun b b' => SamePg (put a b) (put a' b')) (dec v (get a)) (dec v' (get a')) := by
    rintro γ get put dec hg rfl hput
    rw [hg]
    cases dec v (get a') with
    | error e => exact .inl ⟨e, rfl, rfl⟩
    | ok x => exact .inr ⟨x, x, rfl, rfl, hput x⟩
  rcases hm with rfl | rfl | rfl | rfl | rfl | rfl | rfl | rfl
  case inr.inr.inr.inr.inr.inl =>
    have put : ∀ x x', x = x' ∨ (x ≠ [] ∧ x' ≠ []) →
        SamePg { a with password := x } { a' with password := x' } := fun x x' h => ⟨by rw [h1], h⟩
    rcases hv with rfl | ⟨-, s, s', rfl, rfl, hs, hs'⟩
    · cases v with
      | null => exact .inr ⟨_, _, rfl, rfl, put _ _ h2⟩
      | str s => exact .inr ⟨_, _, rfl, rfl, put _ _ (.inl rfl)⟩
      | _ => exact .inl ⟨_, rfl, rfl⟩
    · exact .inr ⟨_, _, rfl, rfl, put _ _ (.inr ⟨hs, hs'⟩)⟩
  all_goals
    refine same _ _ _ (by rw [h1]) (hne (by decide)) fun x => ⟨?_, h2⟩
    rw [h1]

/-- Fields without a password. -/
theorem other_both {fields : List (Fld α)} (hn : ∀ key, Spells b!"Password" key → findField fields key = none)
    {v v' : Value} (h : v = v' ∨ Configs v v') (t : α) :
    Both Eq (struct fields v t) (struct fields v' t) := by
  refine struct_both (fun key f v v' a a' hf hv hq => ?_) h rfl
  subst hq
  rcases hv with rfl | ⟨hp, -⟩
  · cases f.dec v (f.get a) with
    | error e => exact .inl ⟨e, rfl, rfl⟩
    | ok x => exact .inr ⟨x, x, rfl, rfl, rfl⟩
  · rw [hn key hp] at hf
    cases hf

theorem sh_no_password (key : Str) (h : Spells b!"Password" key) : findField shFields key = none := by
  refine sh_lawful.find_none.2 fun f hf hs => ?_
  have := spells_lower h hs
  simp only [shFields, List.mem_cons, List.not_mem_nil, or_false] at hf
  rcases hf with rfl | rfl <;> revert this <;> decide

theorem demo_no_password (key : Str) (h : Spells b!"Password" key) : findField demoFields key = none := by
  refine demo_lawful.find_none.2 fun f hf hs => ?_
  have := spells_lower h hs
  simp only [demoFields, List.mem_cons, List.not_mem_nil, or_false] at hf
  subst hf
  revert this
  decide

theorem target_both {v v' : Value} (h : v = v' ∨ Configs v v') (t : Target) :
    Both SameTarget (decodeTarget v t) (decodeTarget v' t) := by
  cases t with
  | pg t => exact (pg_both h ⟨rfl, .inl rfl⟩).map fun _ _ h => h.target
  | sh t => exact (other_both sh_no_password h t).map fun a a' e => e ▸ .refl _
  | demo t => exact (other_both demo_no_password h t).map fun a a' e => e ▸ .refl _

/-! ## The file -/

section
variable (tx : Text)

/-- Decoded targets that differ in the password only. -/
def SameSrc (s s' : TargetSrc) : Prop :=
  s.class_ = s'.class_ ∧ (s.config = s'.config ∨
    ∃ v v', s.config = tx.raw v ∧ s'.config = tx.raw v' ∧ Configs v v')

theorem Maps.set {V V' : Type} {Q : V → V' → Prop} {m : GoMap Str V} {m' : GoMap Str V'} (h : Maps Q m m')
    (k : Str) {v : V} {v' : V'} (hv : Q v v') : Maps Q (m.set k v) (m'.set k v') := by
  induction h with
  | nil => exact .cons ⟨rfl, hv⟩ .nil
  | @cons p p' m m' hp ht ih =>
    obtain ⟨a, x⟩ := p
    obtain ⟨a', x'⟩ := p'
    obtain ⟨ha, hx⟩ := hp
    obtain rfl : a = a' := ha
    simp only [GoMap.set]
    split
    · exact .cons ⟨rfl, hv⟩ ht
    · exact .cons ⟨rfl, hx⟩ ih

theorem Maps.get? {V V' : Type} {Q : V → V' → Prop} {m : GoMap Str V} {m' : GoMap Str V'} (h : Maps Q m m')
    (k : Str) : (m.get? k = none ∧ m'.get? k = none) ∨
      ∃ v v', m.get? k = some v ∧ m'.get? k = some v' ∧ Q v v' := by
  induction h with
  | nil => exact .inl ⟨rfl, rfl⟩
  | @cons p p' m m' hp ht ih =>
    obtain ⟨a, x⟩ := p
    obtain ⟨a', x'⟩ := p'
    obtain ⟨ha, hx⟩ := hp
    obtain rfl : a = a' := ha
    simp only [GoMap.get?]
    split
    · exact .inr ⟨x, x', rfl, rfl, hx⟩
    · exact ih

theorem Maps.keys {V V' : Type} {Q : V → V' → Prop} {m : GoMap Str V} {m' : GoMap Str V'} (h : Maps Q m m') :
    m'.keys = m.keys := by
  induction h with
  | nil => rfl
  | cons hp _ ih => simp only [GoMap.keys, List.map_cons] at ih ⊢; rw [ih, hp.1]

theorem Maps.refl {V : Type} {Q : V → V → Prop} (hq : ∀ v, Q v v) (m : GoMap Str V) : Maps Q m m := by
  induction m with
  | nil => exact .nil
  | cons p m ih => exact .cons ⟨rfl, hq _⟩ ih

theorem source_both {v v' : Value} (h : v = v' ∨ Targets v v') {s s' : TargetSrc} (hs : SameSrc tx s s') :
    Both (SameSrc tx) (struct (targetFields tx) v s) (struct (targetFields tx) v' s') := by
  refine struct_both (fun key f v v' a a' hf hv hq => ?_) h hs
  obtain ⟨h1, h2⟩ := hq
  obtain ⟨hm, hs⟩ := (target_lawful tx).find_iff.1 hf
  simp only [targetFields, List.mem_cons, List.not_mem_nil, or_false] at hm
  rcases hm with rfl | rfl
  · have hv : v = v' := by
      rcases hv with hv | ⟨hc, -⟩
      · exact hv
      · have := spells_lower hc hs
        exact absurd this (by decide)
    subst hv
    simp only [h1]
    cases string v a'.class_ with
    | error e => exact .inl ⟨e, rfl, rfl⟩
    | ok x => exact .inr ⟨x, x, rfl, rfl, rfl, h2⟩
  · refine .inr ⟨_, _, rfl, rfl, h1, ?_⟩
    rcases hv with rfl | ⟨-, hc⟩
    · exact .inl rfl
    · exact .inr ⟨v, v', rfl, rfl, hc⟩

/-- Pointers to such targets. -/
def SamePtr : Option TargetSrc → Option TargetSrc → Prop
  | none, none => True
  | some s, some s' => SameSrc tx s s'
  | _, _ => False

theorem SameSrc.refl (s : TargetSrc) : SameSrc tx s s := ⟨rfl, .inl rfl⟩

theorem SamePtr.refl (s : Option TargetSrc) : SamePtr tx s s := by
  cases s with
  | none => trivial
  | some s => exact SameSrc.refl tx s

theorem pointer_both {v v' : Value} (h : v = v' ∨ Targets v v') :
    Both (SamePtr tx) (pointer (targetFields tx) ⟨[], []⟩ v) (pointer (targetFields tx) ⟨[], []⟩ v') := by
  rcases h with rfl | h
  · exact .refl (SamePtr.refl tx) _
  · have := source_both tx (.inr h) (SameSrc.refl tx ⟨[], []⟩)
    obtain ⟨ms, ms', rfl, rfl, hp⟩ := h
    exact Both.map (Q' := SamePtr tx) (f := some) (fun _ _ h => h) this

theorem entries_both {ms ms' : List (Str × Value)} (h : Pairs (fun _ => Targets) ms ms')
    {m m' : GoMap Str (Option TargetSrc)} (hm : Maps (SamePtr tx) m m') :
    Both (Maps (SamePtr tx)) (entries (pointer (targetFields tx) ⟨[], []⟩) ms m)
      (entries (pointer (targetFields tx) ⟨[], []⟩) ms' m') := by
  induction h generalizing m m' with
  | nil => exact .inr ⟨m, m', rfl, rfl, hm⟩
  | @cons p p' ms ms' hp _ ih =>
    obtain ⟨key, v⟩ := p
    obtain ⟨key', v'⟩ := p'
    obtain ⟨hk, hv⟩ := hp
    obtain rfl : key = key' := hk
    simp only [entries]
    rcases pointer_both tx hv with ⟨e, h1, h2⟩ | ⟨b, b', h1, h2, hq⟩
    · simp only [h1, h2]; exact .inl ⟨e, rfl, rfl⟩
    · simp only [h1, h2]; exact ih (hm.set key hq)

/-- Decoded files that differ in passwords only. -/
def SameFile (src src' : Src) : Prop := Maps (SamePtr tx) src.targets src'.targets ∧ src.tasks = src'.tasks

theorem map_both {v v' : Value} (h : v = v' ∨ Objects (fun _ => Targets) v v')
    {m m' : GoMap Str (Option TargetSrc)} (hm : Maps (SamePtr tx) m m') :
    Both (Maps (SamePtr tx)) (map (pointer (targetFields tx) ⟨[], []⟩) v m)
      (map (pointer (targetFields tx) ⟨[], []⟩) v' m') := by
  rcases h with rfl | ⟨ms, ms', rfl, rfl, h⟩
  · cases v with
    | null => exact .inr ⟨[], [], rfl, rfl, .nil⟩
    | obj ms => exact entries_both tx (pairs_refl _ ms) hm
    | _ => exact .inl ⟨_, rfl, rfl⟩
  · exact entries_both tx h hm

theorem file_both {doc doc' : Value} (h : Files doc doc') :
    Both (SameFile tx) (decodeFile tx doc) (decodeFile tx doc') := by
  refine struct_both (fun key f v v' a a' hf hv hq => ?_) (.inr h) ⟨.nil, rfl⟩
  obtain ⟨h1, h2⟩ := hq
  obtain ⟨hm, hs⟩ := (file_lawful tx).find_iff.1 hf
  simp only [fileFields, List.mem_cons, List.not_mem_nil, or_false] at hm
  rcases hm with rfl | rfl
  · have hv' : v = v' ∨ Objects (fun _ => Targets) v v' := hv.imp id fun h => h.2
    rcases map_both tx hv' h1 with ⟨e, e1, e2⟩ | ⟨m, m', e1, e2, hm⟩
    · exact .inl ⟨e, e1, e2⟩
    · exact .inr ⟨m, m', e1, e2, hm, h2⟩
  · have hv : v = v' := by
      rcases hv with hv | ⟨hc, -⟩
      · exact hv
      · have := spells_lower hc hs
        exact absurd (show List.map lowerByte b!"Targets" = List.map lowerByte b!"Tasks" from this)
          (by decide)
    subst hv
    simp only [h2]
    cases map (pointer (taskFields tx) ⟨[], [], [], []⟩) v a'.tasks with
    | error e => exact .inl ⟨e, rfl, rfl⟩
    | ok x => exact .inr ⟨x, x, rfl, rfl, h1, rfl⟩

/-! ## The runbook -/

/-- Both are refused for the same reason, or panic, or give related results. -/
inductive BothRes {γ : Type} (Q : γ → γ → Prop) : Res γ → Res γ → Prop
  | error (e : Err) : BothRes Q (.error e) (.error e)
  | panic : BothRes Q .panic .panic
  | ok {a a' : γ} : Q a a' → BothRes Q (.ok a) (.ok a')

theorem SameTarget.analyze {t t' : Target} (h : SameTarget t t') : t'.analyze = t.analyze := by
  cases h <;> rfl

theorem SameTarget.newTaskConfig {t t' : Target} (h : SameTarget t t') (c : Str) :
    t'.newTaskConfig c = t.newTaskConfig c := by
  cases h <;> rfl

theorem SameTarget.limit {t t' : Target} (h : SameTarget t t') :
    t'.concurrencyLimit = t.concurrencyLimit := by
  cases h <;> rfl

theorem decoder_both {s s' : TargetSrc} (h : SameSrc tx s s') (t : Target) :
    Both SameTarget (if s.config.length > 0 then (decoder tx).target s.config t else .ok t)
      (if s'.config.length > 0 then (decoder tx).target s'.config t else .ok t) := by
  obtain ⟨-, h | ⟨v, v', h, h', hc⟩⟩ := h
  · rw [h]
    exact .refl .refl _
  · have p : ∀ v, (tx.raw v).length > 0 := fun v => List.length_pos_of_ne_nil (tx.raw_ne v)
    rw [h, h', if_pos (p v), if_pos (p v')]
    simp only [decoder, tx.read_raw]
    exact target_both (.inr hc) t

theorem loadTarget_both (basedir : Str) {s s' : Option TargetSrc} (h : SamePtr tx s s') :
    BothRes SameTarget (loadTarget (decoder tx) basedir s) (loadTarget (decoder tx) basedir s') := by
  cases s with
  | none =>
    cases s' with
    | none => exact .panic
    | some s' => exact absurd h id
  | some s =>
    cases s' with
    | none => exact absurd h id
    | some s' =>
      have h : SameSrc tx s s' := h
      simp only [loadTarget, ← h.1]
      cases newTarget basedir s.class_ with
      | none => exact .error _
      | some t0 =>
        simp only
        rcases decoder_both tx h t0 with ⟨e, h1, h2⟩ | ⟨t, t', h1, h2, hq⟩
        · simp only [h1, h2]; exact .error _
        · simp only [h1, h2, hq.analyze]
          cases t.analyze with
          | some e => exact .error e
          | none => exact .ok hq

theorem loadTargets_both (basedir : Str) {l l' : GoMap Str (Option TargetSrc)}
    (h : Maps (SamePtr tx) l l') {m m' : GoMap Str Target} (hm : Maps SameTarget m m') :
    BothRes (Maps SameTarget) (loadTargets (decoder tx) basedir l m)
      (loadTargets (decoder tx) basedir l' m') := by
  induction h generalizing m m' with
  | nil => exact .ok hm
  | @cons p p' l l' hp _ ih =>
    obtain ⟨key, s⟩ := p
    obtain ⟨key', s'⟩ := p'
    obtain ⟨hk, hs⟩ := hp
    obtain rfl : key = key' := hk
    simp only [loadTargets]
    have := loadTarget_both tx basedir hs
    revert this
    generalize loadTarget (decoder tx) basedir s = x
    generalize loadTarget (decoder tx) basedir s' = x'
    intro hx
    cases hx with
    | error e => exact .error e
    | panic => exact .panic
    | ok hq => exact ih (hm.set key hq)

theorem loadTask_both {m m' : GoMap Str Target} (hm : Maps SameTarget m m') (s : Option TaskSrc) :
    loadTask (decoder tx) m' s = loadTask (decoder tx) m s := by
  cases s with
  | none => rfl
  | some s =>
    simp only [loadTask]
    rcases hm.get? (splitTarget s.target).1 with ⟨h1, h2⟩ | ⟨t, t', h1, h2, hq⟩
    · simp only [h1, h2]
    · simp only [h1, h2, hq.newTaskConfig]

theorem loadTasks_both {m m' : GoMap Str Target} (hm : Maps SameTarget m m')
    (l : List (Str × Option TaskSrc)) (r : GoMap Str Task) :
    loadTasks (decoder tx) m' l r = loadTasks (decoder tx) m l r := by
  induction l generalizing r with
  | nil => rfl
  | cons p l ih => simp only [loadTasks, loadTask_both tx hm, ih]

theorem book_both (basedir : Str) {src src' : Src} (h : SameFile tx src src') :
    BothRes SameBook (Book.parse (decoder tx) basedir src) (Book.parse (decoder tx) basedir src') := by
  obtain ⟨h1, h2⟩ := h
  simp only [Book.parse, ← h2]
  have := loadTargets_both tx basedir h1 (m := []) (m' := []) .nil
  revert this
  generalize loadTargets (decoder tx) basedir src.targets [] = x
  generalize loadTargets (decoder tx) basedir src'.targets [] = x'
  intro hx
  cases hx with
  | error e => exact .error e
  | panic => exact .panic
  | @ok m m' hm =>
    simp only [loadTasks_both tx hm]
    cases loadTasks (decoder tx) m src.tasks [] with
    | error e => exact .error e
    | panic => exact .panic
    | ok ts => exact .ok ⟨hm, rfl⟩

theorem parse_both (basedir : Str) {doc doc' : Value} (h : Files doc doc') :
    BothRes SameBook (Json.parse tx basedir doc) (Json.parse tx basedir doc') := by
  simp only [Json.parse]
  rcases file_both tx h with ⟨e, h1, h2⟩ | ⟨s, s', h1, h2, hq⟩
  · simp only [h1, h2]; exact .error _
  · simp only [h1, h2]; exact book_both tx basedir hq

end

end Verif.Json.Secret
