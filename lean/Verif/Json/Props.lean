import Verif.Json.Configs
import Verif.Book.Props

/-!
# C93: a runbook file is read as it is written, and strictly
-/

namespace Verif.Json
open Verif Book Book.Spec Spec

variable {tx : Text} {basedir : Str} {doc : Value} {src : Src}

theorem decodeFile_wf (h : decodeFile tx doc = .ok src) : src.targets.WF ∧ src.tasks.WF := by
  obtain ⟨ms, _, h⟩ := struct_iff.mp h
  suffices key : ∀ (ms : List (Str × Value)) (a b : Src), a.targets.WF ∧ a.tasks.WF →
      members (fileFields tx) ms a = .ok b → b.targets.WF ∧ b.tasks.WF from
    key ms _ _ ⟨GoMap.WF.nil, GoMap.WF.nil⟩ h
  intro ms
  induction ms with
  | nil => intro a b h h'; obtain rfl := Except.ok.inj h'; exact h
  | cons p ms ih =>
    obtain ⟨k, v⟩ := p
    intro a b h h'
    rw [members] at h'
    cases hf : findField (fileFields tx) k with
    | none => rw [hf] at h'; cases h'
    | some f =>
      rw [hf] at h'; simp only at h'
      cases hd : f.dec v (f.get a) with
      | error e => rw [hd] at h'; cases h'
      | ok x =>
        rw [hd] at h'
        refine ih _ _ ?_ h'
        have hm := ((file_lawful tx).find_iff.mp hf).1
        simp only [fileFields, List.mem_cons, List.not_mem_nil, or_false] at hm
        rcases hm with rfl | rfl
        · exact ⟨map_wf h.1 hd, h.2⟩
        · exact ⟨h.1, map_wf h.2 hd⟩

/-- What the first decode yields. -/
theorem file_iff (hp : Plain doc) : decodeFile tx doc = .ok src ↔
    ∃ ms, Members doc ms ∧ Known fileNames ms ∧
      ((∃ kvs, Has ms b!"Targets" (.obj kvs) ∧ List.Forall₂ (fun p q => p.1 = q.1 ∧
          pointer (targetFields tx) ⟨[], []⟩ p.2 = .ok q.2) kvs src.targets) ∨
        (Unset ms b!"Targets" ∧ src.targets = [])) ∧
      ((∃ kvs, Has ms b!"Tasks" (.obj kvs) ∧ List.Forall₂ (fun p q => p.1 = q.1 ∧
          pointer (taskFields tx) ⟨[], [], [], []⟩ p.2 = .ok q.2) kvs src.tasks) ∨
        (Unset ms b!"Tasks" ∧ src.tasks = [])) := by
  unfold decodeFile
  rw [object_iff (file_lawful tx) fun ms h => (hp ms h).1]
  refine exists_congr fun ms => ?_
  have hk : Members doc ms → (∀ kvs, Has ms b!"Targets" (.obj kvs) → (kvs.map Prod.fst).Nodup) ∧
      (∀ kvs, Has ms b!"Tasks" (.obj kvs) → (kvs.map Prod.fst).Nodup) := by
    rintro (rfl | ⟨rfl, rfl⟩)
    · exact ⟨fun kvs h => ((hp ms rfl).2.1 kvs h).1, fun kvs h => ((hp ms rfl).2.2 kvs h).1⟩
    · exact ⟨fun kvs h => absurd h has_nil, fun kvs h => absurd h has_nil⟩
  constructor
  · rintro ⟨hm, ho, hkn, -, hr⟩
    replace ho : Once fileNames ms := ho
    simp only [fileFields, List.forall_mem_cons] at hr
    exact ⟨hm, hkn, (map_iff (single ho (by decide)) (hk hm).1).mp hr.1,
      (map_iff (single ho (by decide)) (hk hm).2).mp hr.2.1⟩
  · rintro ⟨hm, hkn, h1, h2⟩
    have ho : Once fileNames ms := once_of_members hm fun ms h => (hp ms h).1
    refine ⟨hm, ho, hkn, rfl, ?_⟩
    simp only [fileFields, List.forall_mem_cons]
    exact ⟨(map_iff (single ho (by decide)) (hk hm).1).mpr h1,
      (map_iff (single ho (by decide)) (hk hm).2).mpr h2, by simp⟩

theorem forall₂_mem {α β : Type} {R : α → β → Prop} {l : List α} {m : List β} (h : List.Forall₂ R l m) :
    (∀ a ∈ l, ∃ b ∈ m, R a b) ∧ ∀ b ∈ m, ∃ a ∈ l, R a b := by
  induction h with
  | nil => simp
  | cons h _ ih =>
    refine ⟨?_, ?_⟩
    · intro a ha
      rcases List.mem_cons.mp ha with rfl | ha
      · exact ⟨_, by simp, h⟩
      · obtain ⟨b, hb, hr⟩ := ih.1 a ha; exact ⟨b, by simp [hb], hr⟩
    · intro b hb
      rcases List.mem_cons.mp hb with rfl | hb
      · exact ⟨_, by simp, h⟩
      · obtain ⟨a, ha, hr⟩ := ih.2 b hb; exact ⟨a, by simp [ha], hr⟩

theorem forall₂_of {β : Type} {P : Value → β → Prop} {l : List (Str × Value)}
    (h : ∀ id v, (id, v) ∈ l → ∃ o, P v o) :
    ∃ m : List (Str × β), List.Forall₂ (fun p q => p.1 = q.1 ∧ P p.2 q.2) l m := by
  induction l with
  | nil => exact ⟨[], .nil⟩
  | cons p l ih =>
    obtain ⟨id, v⟩ := p
    obtain ⟨o, ho⟩ := h id v (by simp)
    obtain ⟨m, hm⟩ := ih fun id v hin => h id v (by simp [hin])
    exact ⟨(id, o) :: m, .cons ⟨rfl, ho⟩ hm⟩

/-- A section and the map it is decoded to. -/
theorem section_iff {ms : List (Str × Value)} {n : Str} (hm : Members doc ms)
    (hu : Single ms n) {β : Type} {dec : Value → Except Str β} {m : GoMap Str β}
    (h : (∃ kvs, Has ms n (.obj kvs) ∧ List.Forall₂ (fun p q => p.1 = q.1 ∧ dec p.2 = .ok q.2) kvs m) ∨
      (Unset ms n ∧ m = [])) :
    (∀ id o, (id, o) ∈ m → ∃ v, Lists doc n id v ∧ dec v = .ok o) ∧
    (∀ id v, Lists doc n id v → ∃ o, (id, o) ∈ m ∧ dec v = .ok o) := by
  have hms : ∀ ms', doc = .obj ms' → ms' = ms := by
    rintro ms' rfl
    rcases hm with e | ⟨e, _⟩
    · cases e; rfl
    · cases e
  have hms' : ∀ v, Has ms n v → doc = .obj ms := by
    rintro v ⟨k, _, hk⟩
    rcases hm with e | ⟨_, rfl⟩
    · exact e
    · simp at hk
  rcases h with ⟨kvs, hv, hf⟩ | ⟨hun, rfl⟩
  · obtain ⟨f1, f2⟩ := forall₂_mem hf
    refine ⟨?_, ?_⟩
    · intro id o ho
      obtain ⟨⟨id', v⟩, h1, h2, h3⟩ := f2 _ ho
      simp only at h2 h3
      subst h2
      exact ⟨v, ⟨ms, kvs, hms' _ hv, hv, h1⟩, h3⟩
    · rintro id v ⟨ms', kvs', e, hv', hin⟩
      obtain rfl := hms ms' e
      cases hu _ _ hv hv'
      obtain ⟨⟨id', o⟩, h1, h2, h3⟩ := f1 _ hin
      simp only at h2 h3
      subst h2
      exact ⟨o, h1, h3⟩
  · refine ⟨by simp, ?_⟩
    rintro id v ⟨ms', kvs', e, hv', hin⟩
    obtain rfl := hms ms' e
    cases hun _ hv'

theorem plain_lists (hp : Plain doc) {id : Str} {v : Value} :
    (Lists doc b!"Targets" id v → PlainEntry targetNames v) ∧
    (Lists doc b!"Tasks" id v → PlainEntry taskNames v) := by
  refine ⟨?_, ?_⟩
  · rintro ⟨ms, kvs, rfl, h1, h2⟩
    exact ((hp ms rfl).2.1 kvs h1).2 id v h2
  · rintro ⟨ms, kvs, rfl, h1, h2⟩
    exact ((hp ms rfl).2.2 kvs h1).2 id v h2

theorem single_file (hp : Plain doc) {ms : List (Str × Value)} (hm : Members doc ms) :
    Single ms b!"Targets" ∧ Single ms b!"Tasks" := by
  have ho : Once fileNames ms := once_of_members hm fun ms h => (hp ms h).1
  exact ⟨single ho (by decide), single ho (by decide)⟩

/-- The targets and tasks of the file and those decoded. -/
theorem decoded_iff (hp : Plain doc) (h : decodeFile tx doc = .ok src) :
    (∀ id t, (∃ w, (id, some w) ∈ src.targets ∧ TargetOf (decoder tx) basedir w t) ↔
      ∃ v, Lists doc b!"Targets" id v ∧ TargetIs basedir v t) ∧
    (∀ has id t, (∃ w, (id, some w) ∈ src.tasks ∧ TaskOf (decoder tx) has w t) ↔
      ∃ v, Lists doc b!"Tasks" id v ∧ TaskIs has v t) := by
  obtain ⟨ms, hm, _, h1, h2⟩ := (file_iff hp).mp h
  obtain ⟨u1, u2⟩ := single_file hp hm
  obtain ⟨a1, a2⟩ := section_iff hm u1 h1
  obtain ⟨b1, b2⟩ := section_iff hm u2 h2
  refine ⟨?_, ?_⟩
  · intro id t
    constructor
    · rintro ⟨w, hin, ht⟩
      obtain ⟨v, hv, hd⟩ := a1 _ _ hin
      exact ⟨v, hv, (target_entry ((plain_lists hp).1 hv)).mp ⟨w, hd, ht⟩⟩
    · rintro ⟨v, hv, ht⟩
      obtain ⟨w, hd, ht⟩ := (target_entry (tx := tx) ((plain_lists hp).1 hv)).mpr ht
      obtain ⟨o, ho, hd'⟩ := a2 _ _ hv
      rw [hd] at hd'
      obtain rfl := Except.ok.inj hd'
      exact ⟨w, ho, ht⟩
  · intro has id t
    constructor
    · rintro ⟨w, hin, ht⟩
      obtain ⟨v, hv, hd⟩ := b1 _ _ hin
      exact ⟨v, hv, (task_entry ((plain_lists hp).2 hv)).mp ⟨w, hd, ht⟩⟩
    · rintro ⟨v, hv, ht⟩
      obtain ⟨w, hd, ht⟩ := (task_entry (tx := tx) ((plain_lists hp).2 hv)).mpr ht
      obtain ⟨o, ho, hd'⟩ := b2 _ _ hv
      rw [hd] at hd'
      obtain rfl := Except.ok.inj hd'
      exact ⟨w, ho, ht⟩

theorem parse_iff {book : Runbook} : parse tx basedir doc = .ok book ↔
    ∃ src, decodeFile tx doc = .ok src ∧ Book.parse (decoder tx) basedir src = .ok book := by
  unfold parse
  cases decodeFile tx doc <;> simp

/-- **C93.** A file in which nothing is written twice is accepted exactly if it is valid: every member
of every object in it is a setting of the right kind, every target is of a known class, and every task
is for a target of the file and of a class of that target, with an acceptable config. -/
theorem C93_accepts_iff_partial (tx : Text) (basedir : Str) (doc : Value) (hp : Plain doc) :
    (∃ book, parse tx basedir doc = .ok book) ↔ Valid basedir doc := by
  constructor
  · rintro ⟨book, h⟩
    obtain ⟨src, h1, h2⟩ := parse_iff.mp h
    obtain ⟨w1, w2⟩ := decodeFile_wf h1
    obtain ⟨k1, k2⟩ := (C35_parse_succeeds_iff _ basedir src w1 w2).mp ⟨book, h2⟩
    obtain ⟨d1, d2⟩ := decoded_iff (basedir := basedir) hp h1
    obtain ⟨ms, hm, hk, h3, h4⟩ := (file_iff hp).mp h1
    obtain ⟨u1, u2⟩ := single_file hp hm
    refine ⟨⟨ms, hm, hk, ?_⟩, ?_, ?_⟩
    · intro name hn
      simp only [fileNames, List.mem_cons, List.not_mem_nil, or_false] at hn
      rcases hn with rfl | rfl
      · rcases h3 with ⟨kvs, h, _⟩ | ⟨h, _⟩
        · exact Or.inr ⟨kvs, h⟩
        · exact Or.inl h
      · rcases h4 with ⟨kvs, h, _⟩ | ⟨h, _⟩
        · exact Or.inr ⟨kvs, h⟩
        · exact Or.inl h
    · intro id v hv
      obtain ⟨o, ho, hd⟩ := (section_iff hm u1 h3).2 id v hv
      obtain ⟨w, t, rfl, ht⟩ := k1 id o ho
      exact ⟨t, (target_entry ((plain_lists hp).1 hv)).mp ⟨w, hd, ht⟩⟩
    · intro id v hv
      obtain ⟨o, ho, hd⟩ := (section_iff hm u2 h4).2 id v hv
      obtain ⟨w, t, rfl, ht⟩ := k2 id o ho
      refine ⟨t, ?_⟩
      have := (task_entry (tx := tx) ((plain_lists hp).2 hv)).mp ⟨w, hd, ht⟩
      have e : (fun i u => ∃ w', (i, some w') ∈ src.targets ∧ TargetOf (decoder tx) basedir w' u) =
          fun i u => ∃ v', Lists doc b!"Targets" i v' ∧ TargetIs basedir v' u :=
        funext fun i => funext fun u => propext (d1 i u)
      rw [e] at this
      exact this
  · rintro ⟨⟨ms, hm, hk, hs⟩, ht, hj⟩
    obtain ⟨u1, u2⟩ := single_file hp hm
    have hlists : ∀ n id kvs v, Has ms n (.obj kvs) → (id, v) ∈ kvs → Lists doc n id v := by
      intro n id kvs v hn hv
      refine ⟨ms, kvs, ?_, hn, hv⟩
      rcases hm with e | ⟨_, rfl⟩
      · exact e
      · exact absurd hn has_nil
    have h3 : ∃ targets : GoMap Str (Option TargetSrc),
        (∃ kvs, Has ms b!"Targets" (.obj kvs) ∧ List.Forall₂ (fun p q => p.1 = q.1 ∧
          pointer (targetFields tx) ⟨[], []⟩ p.2 = .ok q.2) kvs targets) ∨
        (Unset ms b!"Targets" ∧ targets = []) := by
      rcases hs b!"Targets" (by decide) with h | ⟨kvs, h⟩
      · exact ⟨[], Or.inr ⟨h, rfl⟩⟩
      · obtain ⟨m, hm'⟩ := forall₂_of (P := fun v o => pointer (targetFields tx) ⟨[], []⟩ v = .ok o) (l := kvs)
          fun id v hv => by
            have hl := hlists _ id kvs v h hv
            obtain ⟨t, h⟩ := ht id v hl
            obtain ⟨w, hw, _⟩ := (target_entry (tx := tx) ((plain_lists hp).1 hl)).mpr h
            exact ⟨_, hw⟩
        exact ⟨m, Or.inl ⟨kvs, h, hm'⟩⟩
    have h4 : ∃ tasks : GoMap Str (Option TaskSrc),
        (∃ kvs, Has ms b!"Tasks" (.obj kvs) ∧ List.Forall₂ (fun p q => p.1 = q.1 ∧
          pointer (taskFields tx) ⟨[], [], [], []⟩ p.2 = .ok q.2) kvs tasks) ∨
        (Unset ms b!"Tasks" ∧ tasks = []) := by
      rcases hs b!"Tasks" (by decide) with h | ⟨kvs, h⟩
      · exact ⟨[], Or.inr ⟨h, rfl⟩⟩
      · obtain ⟨m, hm'⟩ := forall₂_of (P := fun v o => pointer (taskFields tx) ⟨[], [], [], []⟩ v = .ok o)
          (l := kvs) fun id v hv => by
            have hl := hlists _ id kvs v h hv
            obtain ⟨t, h⟩ := hj id v hl
            obtain ⟨w, hw, _⟩ := (task_entry (tx := tx) ((plain_lists hp).2 hl)).mpr h
            exact ⟨_, hw⟩
        exact ⟨m, Or.inl ⟨kvs, h, hm'⟩⟩
    obtain ⟨targets, h3⟩ := h3
    obtain ⟨tasks, h4⟩ := h4
    have hd : decodeFile tx doc = .ok ⟨targets, tasks⟩ := (file_iff hp).mpr ⟨ms, hm, hk, h3, h4⟩
    obtain ⟨w1, w2⟩ := decodeFile_wf hd
    obtain ⟨d1, d2⟩ := decoded_iff (basedir := basedir) hp hd
    have hacc : Acceptable (decoder tx) basedir ⟨targets, tasks⟩ := by
      refine ⟨?_, ?_⟩
      · intro id o ho
        obtain ⟨v, hv, hdv⟩ := (section_iff hm u1 h3).1 id o ho
        obtain ⟨t, h⟩ := ht id v hv
        obtain ⟨w, hw, hw'⟩ := (target_entry (tx := tx) ((plain_lists hp).1 hv)).mpr h
        rw [hw] at hdv
        obtain rfl := Except.ok.inj hdv
        exact ⟨w, t, rfl, hw'⟩
      · intro id o ho
        obtain ⟨v, hv, hdv⟩ := (section_iff hm u2 h4).1 id o ho
        obtain ⟨t, h⟩ := hj id v hv
        obtain ⟨w, hw, hw'⟩ := (task_entry (tx := tx) ((plain_lists hp).2 hv)).mpr h
        rw [hw] at hdv
        obtain rfl := Except.ok.inj hdv
        refine ⟨w, t, rfl, ?_⟩
        have e : (fun i u => ∃ v', Lists doc b!"Targets" i v' ∧ TargetIs basedir v' u) =
            fun i u => ∃ w', (i, some w') ∈ targets ∧ TargetOf (decoder tx) basedir w' u :=
          funext fun i => funext fun u => propext (d1 i u).symm
        rw [e] at hw'
        exact hw'
    obtain ⟨book, hb⟩ := (C35_parse_succeeds_iff _ basedir _ w1 w2).mpr hacc
    exact ⟨book, parse_iff.mpr ⟨_, hd, hb⟩⟩

/-- **C93.** The runbook read is the one the file describes. -/
theorem C93_reads_partial (tx : Text) (basedir : Str) (doc : Value) (hp : Plain doc) (book : Runbook)
    (h : parse tx basedir doc = .ok book) :
    Describes basedir doc book ∧ book.targets.WF ∧ book.tasks.WF := by
  obtain ⟨src, h1, h2⟩ := parse_iff.mp h
  obtain ⟨w1, w2⟩ := decodeFile_wf h1
  obtain ⟨k1, k2, b1, b2⟩ := C35_parse_result _ basedir src book w1 w2 h2
  obtain ⟨d1, d2⟩ := decoded_iff (basedir := basedir) hp h1
  exact ⟨⟨fun id t => (b1 id t).trans (d1 id t), fun id t => (b2 id t).trans (d2 _ id t)⟩,
    by unfold GoMap.WF; rw [k1]; exact w1, by unfold GoMap.WF; rw [k2]; exact w2⟩

end Verif.Json
