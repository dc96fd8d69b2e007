import Verif.Book.Classes

/-!
# C34-C36: parsing a runbook
-/

namespace Verif.Book
open Verif Spec

theorem decoded_iff {α : Type} {f : Str → α → Except Str α} {config : Str} {a b : α} :
    (if config.length > 0 then f config a else .ok a) = .ok b ↔ Decoded f config a b := by
  unfold Decoded
  cases config with
  | nil => simp [eq_comm]
  | cons c cs => simp

theorem loadTarget_ok {dec : Decoder} {basedir : Str} {o : Option TargetSrc} {t : Target} :
    loadTarget dec basedir o = .ok t ↔ ∃ w, o = some w ∧ TargetOf dec basedir w t := by
  cases o with
  | none => simp [loadTarget]
  | some w =>
    simp only [loadTarget, targetOf_iff, Option.some.injEq, exists_eq_left']
    cases h0 : newTarget basedir w.class_ with
    | none => simp
    | some t0 =>
      simp only [Option.some.injEq, exists_eq_left']
      cases h1 : (if w.config.length > 0 then dec.target w.config t0 else .ok t0) with
      | error m =>
        simp only [reduceCtorEq, false_iff, not_and]
        intro h
        rw [← decoded_iff, h1] at h; cases h
      | ok t1 =>
        simp only
        cases h2 : t1.analyze with
        | some e =>
          simp only [reduceCtorEq, false_iff, not_and]
          intro h h3
          rw [← decoded_iff, h1] at h
          obtain rfl := Except.ok.inj h
          rw [h2] at h3; cases h3
        | none =>
          simp only [Res.ok.injEq]
          constructor
          · rintro rfl; exact ⟨decoded_iff.mp h1, h2⟩
          · rintro ⟨h, _⟩
            rw [← decoded_iff, h1] at h
            exact Except.ok.inj h

theorem refersTo_iff {s id cls : Str} : RefersTo s id cls ↔ splitTarget s = (id, cls) := by
  unfold RefersTo splitTarget
  constructor
  · rintro ⟨h, ⟨rfl, rfl⟩ | rfl⟩
    · rw [Sh.indexByte_none.mpr h]
    · have := Sh.indexByte_append (t := cls) h
      rw [show id ++ b!"/" ++ cls = id ++ 47 :: cls by simp, this]
      simp
  · cases h : Sh.indexByte 47 s with
    | none =>
      simp only [Prod.mk.injEq]
      rintro ⟨rfl, rfl⟩
      exact ⟨Sh.indexByte_none.mp h, Or.inl ⟨rfl, rfl⟩⟩
    | some i =>
      simp only [Prod.mk.injEq]
      rintro ⟨rfl, rfl⟩
      obtain ⟨t, ht, hn⟩ := Sh.indexByte_some h
      refine ⟨hn, Or.inr ?_⟩
      have hl : (s.take i).length = i := by
        rw [List.length_take]
        by_contra hne
        have : s.length ≤ i := by omega
        rw [List.take_of_length_le this] at ht
        have := congrArg List.length ht
        simp at this
      have hd : s.drop (i + 1) = t := by
        conv => lhs; rw [ht]
        rw [List.drop_append]
        simp [hl]
      rw [hd]
      simpa using ht

theorem loadTask_ok {dec : Decoder} {targets : GoMap Str Target} (hw : targets.WF)
    {o : Option TaskSrc} {t : Task} :
    loadTask dec targets o = .ok t ↔
      ∃ w, o = some w ∧ TaskOf dec (fun i u => (i, u) ∈ targets) w t := by
  cases o with
  | none => simp [loadTask]
  | some w =>
    simp only [loadTask, taskOf_iff, Option.some.injEq, exists_eq_left']
    constructor
    · intro h
      cases h1 : targets.get? (splitTarget w.target).1 with
      | none => rw [h1] at h; cases h
      | some tgt =>
        rw [h1] at h; simp only at h
        cases h2 : tgt.newTaskConfig (splitTarget w.target).2 with
        | error e => rw [h2] at h; cases h
        | ok c0 =>
          rw [h2] at h; simp only at h
          cases h3 : (if w.config.length > 0 then dec.config w.config c0 else .ok c0) with
          | error m => rw [h3] at h; cases h
          | ok c1 =>
            rw [h3] at h; simp only at h
            cases h4 : c1.check with
            | error e => rw [h4] at h; cases h
            | ok c =>
              rw [h4] at h
              obtain rfl := Res.ok.inj h
              exact ⟨_, tgt, c0, c1, refersTo_iff.mpr rfl, GoMap.mem_of_get? h1, h2,
                decoded_iff.mp h3, h4, rfl, rfl⟩
    · rintro ⟨cls, tgt, c0, c1, h1, h2, h3, h4, h5, h6, h7⟩
      rw [refersTo_iff] at h1
      rw [h1]
      simp only [(GoMap.get?_iff_mem hw).mpr h2, h3, decoded_iff.mpr h4, h5]
      obtain ⟨a, b, c, d⟩ := t
      simp only at h6 h7 ⊢
      rw [h6, h7]

/-- The two loops have the same shape: a fold that stops at the first entry that is not ok. -/
def foldLoad {α β : Type} (f : α → Res β) : List (Str × α) → GoMap Str β → Res (GoMap Str β)
  | [], m => .ok m
  | (id, w) :: rest, m =>
    match f w with
    | .panic => .panic
    | .error e => .error e
    | .ok t => foldLoad f rest (m.set id t)

theorem loadTargets_eq (dec : Decoder) (basedir : Str) (l : List (Str × Option TargetSrc))
    (m : GoMap Str Target) : loadTargets dec basedir l m = foldLoad (loadTarget dec basedir) l m := by
  induction l generalizing m with
  | nil => rfl
  | cons p l ih =>
    obtain ⟨id, w⟩ := p
    rw [loadTargets, foldLoad]
    cases loadTarget dec basedir w <;> simp [ih]

theorem loadTasks_eq (dec : Decoder) (targets : GoMap Str Target)
    (l : List (Str × Option TaskSrc)) (m : GoMap Str Task) :
    loadTasks dec targets l m = foldLoad (loadTask dec targets) l m := by
  induction l generalizing m with
  | nil => rfl
  | cons p l ih =>
    obtain ⟨id, w⟩ := p
    rw [loadTasks, foldLoad]
    cases loadTask dec targets w <;> simp [ih]

theorem set_fresh {V : Type} {m : GoMap Str V} {k : Str} {v : V} (h : k ∉ m.keys) :
    m.set k v = m ++ [(k, v)] := by
  induction m with
  | nil => rfl
  | cons q m ih =>
    obtain ⟨a, u⟩ := q
    simp only [GoMap.keys, List.map_cons, List.mem_cons, not_or] at h
    have ha : ¬ a = k := fun e => h.1 e.symm
    simp only [GoMap.set, if_neg ha, List.cons_append]
    rw [ih h.2]

/-- On success the result lists the entries in the order of the source. -/
theorem foldLoad_ok {α β : Type} {f : α → Res β} {l : List (Str × α)} {m r : GoMap Str β}
    (hl : (l.map Prod.fst).Nodup) (hd : ∀ k ∈ l.map Prod.fst, k ∉ m.keys)
    (h : foldLoad f l m = .ok r) :
    ∃ r', r = m ++ r' ∧ r'.keys = l.map Prod.fst ∧
      ∀ id t, (id, t) ∈ r' ↔ ∃ w, (id, w) ∈ l ∧ f w = .ok t := by
  induction l generalizing m with
  | nil =>
    obtain rfl := Res.ok.inj h
    exact ⟨[], by simp, rfl, by simp⟩
  | cons p l ih =>
    obtain ⟨id, w⟩ := p
    rw [foldLoad] at h
    simp only [List.map_cons, List.nodup_cons] at hl
    cases hf : f w with
    | panic => rw [hf] at h; cases h
    | error e => rw [hf] at h; cases h
    | ok t =>
      rw [hf] at h
      simp only at h
      have hm : id ∉ m.keys := hd id (by simp)
      rw [set_fresh hm] at h
      obtain ⟨r', rfl, hk, hi⟩ := ih hl.2 (by
        intro k hk hin
        simp only [GoMap.keys, List.map_append, List.map_cons, List.map_nil, List.mem_append,
          List.mem_singleton] at hin
        rcases hin with hin | rfl
        · exact hd k (by simp only [List.map_cons, List.mem_cons]; exact Or.inr hk) hin
        · exact hl.1 hk) h
      refine ⟨(id, t) :: r', by simp, by simp only [GoMap.keys, List.map_cons] at hk ⊢; rw [hk], ?_⟩
      intro id' t'
      constructor
      · intro hin
        rcases List.mem_cons.mp hin with e | hin
        · obtain ⟨rfl, rfl⟩ := Prod.mk.inj e
          exact ⟨w, by simp, hf⟩
        · obtain ⟨w', h1, h2⟩ := (hi id' t').mp hin
          exact ⟨w', by simp [h1], h2⟩
      · rintro ⟨w', h1, h2⟩
        rcases List.mem_cons.mp h1 with e | h1
        · obtain ⟨rfl, rfl⟩ := Prod.mk.inj e
          rw [hf] at h2
          obtain rfl := Res.ok.inj h2
          simp
        · exact List.mem_cons_of_mem _ ((hi id' t').mpr ⟨w', h1, h2⟩)

theorem foldLoad_total {α β : Type} {f : α → Res β} {l : List (Str × α)} {m : GoMap Str β}
    (h : ∀ p ∈ l, ∃ t, f p.2 = .ok t) : ∃ r, foldLoad f l m = .ok r := by
  induction l generalizing m with
  | nil => exact ⟨m, rfl⟩
  | cons p l ih =>
    obtain ⟨id, w⟩ := p
    obtain ⟨t, ht⟩ := h (id, w) (by simp)
    simp only at ht
    rw [foldLoad, ht]
    exact ih fun q hq => h q (by simp [hq])

theorem foldLoad_ok_all {α β : Type} {f : α → Res β} {l : List (Str × α)} {m r : GoMap Str β}
    (h : foldLoad f l m = .ok r) : ∀ p ∈ l, ∃ t, f p.2 = .ok t := by
  induction l generalizing m with
  | nil => simp
  | cons p l ih =>
    obtain ⟨id, w⟩ := p
    rw [foldLoad] at h
    cases hf : f w with
    | panic => rw [hf] at h; cases h
    | error e => rw [hf] at h; cases h
    | ok t =>
      rw [hf] at h
      intro q hq
      rcases List.mem_cons.mp hq with rfl | hq
      · exact ⟨t, hf⟩
      · exact ih h q hq

theorem foldLoad_panic {α β : Type} {f : α → Res β} {l : List (Str × α)} {m : GoMap Str β}
    (h : foldLoad f l m = .panic) : ∃ p ∈ l, f p.2 = .panic := by
  induction l generalizing m with
  | nil => cases h
  | cons p l ih =>
    obtain ⟨id, w⟩ := p
    rw [foldLoad] at h
    cases hf : f w with
    | panic => exact ⟨(id, w), by simp, hf⟩
    | error e => rw [hf] at h; cases h
    | ok t =>
      rw [hf] at h
      obtain ⟨q, h1, h2⟩ := ih h
      exact ⟨q, by simp [h1], h2⟩

theorem loadTarget_panic {dec : Decoder} {basedir : Str} {o : Option TargetSrc}
    (h : loadTarget dec basedir o = .panic) : o = none := by
  cases o with
  | none => rfl
  | some w =>
    simp only [loadTarget] at h
    repeat' split at h
    all_goals cases h

theorem loadTask_panic {dec : Decoder} {targets : GoMap Str Target} {o : Option TaskSrc}
    (h : loadTask dec targets o = .panic) : o = none := by
  cases o with
  | none => rfl
  | some w =>
    simp only [loadTask] at h
    repeat' split at h
    all_goals cases h

/-- What a successful parse went through. -/
theorem parse_ok {dec : Decoder} {basedir : Str} {src : Src} {book : Runbook}
    (hw1 : src.targets.WF) (hw2 : src.tasks.WF) (h : parse dec basedir src = .ok book) :
    book.targets.keys = src.targets.keys ∧ book.tasks.keys = src.tasks.keys ∧
      foldLoad (loadTarget dec basedir) src.targets [] = .ok book.targets ∧
      foldLoad (loadTask dec book.targets) src.tasks [] = .ok book.tasks ∧
      BookOf dec basedir src book := by
  unfold parse at h
  rw [loadTargets_eq] at h
  cases h1 : foldLoad (loadTarget dec basedir) src.targets [] with
  | panic => rw [h1] at h; cases h
  | error e => rw [h1] at h; cases h
  | ok targets =>
    rw [h1] at h
    simp only [loadTasks_eq] at h
    cases h2 : foldLoad (loadTask dec targets) src.tasks [] with
    | panic => rw [h2] at h; cases h
    | error e => rw [h2] at h; cases h
    | ok tasks =>
      rw [h2] at h
      obtain rfl := Res.ok.inj h
      obtain ⟨r1, e1, k1, i1⟩ := foldLoad_ok hw1 (by simp [GoMap.keys]) h1
      obtain ⟨r2, e2, k2, i2⟩ := foldLoad_ok hw2 (by simp [GoMap.keys]) h2
      simp only [List.nil_append] at e1 e2
      subst e1 e2
      have hwf : GoMap.WF targets := by unfold GoMap.WF; rw [k1]; exact hw1
      refine ⟨k1, k2, rfl, h2, ?_, ?_⟩
      · intro id t
        rw [i1]
        constructor
        · rintro ⟨o, ho, hf⟩
          obtain ⟨w, rfl, hw⟩ := loadTarget_ok.mp hf
          exact ⟨w, ho, hw⟩
        · rintro ⟨w, hw, ht⟩
          exact ⟨some w, hw, loadTarget_ok.mpr ⟨w, rfl, ht⟩⟩
      · intro id t
        rw [i2]
        constructor
        · rintro ⟨o, ho, hf⟩
          obtain ⟨w, rfl, hw⟩ := (loadTask_ok hwf).mp hf
          exact ⟨w, ho, hw⟩
        · rintro ⟨w, hw, ht⟩
          exact ⟨some w, hw, (loadTask_ok hwf).mpr ⟨w, rfl, ht⟩⟩

/-- C34: a parsed runbook is referentially sound. -/
theorem C34_parse_sound (dec : Decoder) (basedir : Str) (src : Src) (book : Runbook)
    (hw1 : src.targets.WF) (hw2 : src.tasks.WF) (h : parse dec basedir src = .ok book) :
    (∀ id t, (id, t) ∈ book.targets → 1 ≤ t.concurrencyLimit) ∧
    (∀ id t, (id, t) ∈ book.tasks → ∃ w, (id, some w) ∈ src.tasks ∧
      ∃ cls tgt c0 c1, RefersTo w.target t.target cls ∧ (t.target, tgt) ∈ book.targets ∧
        Offers tgt cls c0 ∧ Decoded dec.config w.config c0 c1 ∧
        Checked c1 t.config ∧ t.after = w.after ∧ t.message = w.message) := by
  obtain ⟨_, _, _, _, hT, hK⟩ := parse_ok hw1 hw2 h
  refine ⟨?_, fun id t hin => (hK id t).mp hin⟩
  intro id t hin
  obtain ⟨w, _, t0, _, _, ha⟩ := (hT id t).mp hin
  exact concurrencyLimit_pos ha

/-- C34: the target id of a reference is determined by the text: what precedes the first '/'. -/
theorem C34_reference_unique (s id cls id' cls' : Str) (h : RefersTo s id cls)
    (h' : RefersTo s id' cls') : id = id' ∧ cls = cls' := by
  rw [refersTo_iff] at h h'
  rw [h] at h'
  exact Prod.mk.inj h'

/-- C35: Parse succeeds exactly on acceptable sources. -/
theorem C35_parse_succeeds_iff (dec : Decoder) (basedir : Str) (src : Src)
    (hw1 : src.targets.WF) (hw2 : src.tasks.WF) :
    (∃ book, parse dec basedir src = .ok book) ↔ Acceptable dec basedir src := by
  constructor
  · rintro ⟨book, h⟩
    obtain ⟨_, _, f1, f2, hT, hK⟩ := parse_ok hw1 hw2 h
    have hwf : book.targets.WF := by
      unfold GoMap.WF
      rw [(parse_ok hw1 hw2 h).1]
      exact hw1
    refine ⟨?_, ?_⟩
    · intro id o ho
      obtain ⟨t, ht⟩ := foldLoad_ok_all f1 (id, o) ho
      obtain ⟨w, rfl, hw⟩ := loadTarget_ok.mp ht
      exact ⟨w, t, rfl, hw⟩
    · intro id o ho
      obtain ⟨t, ht⟩ := foldLoad_ok_all f2 (id, o) ho
      obtain ⟨w, rfl, cls, tgt, c0, c1, q1, q2, q3⟩ := (loadTask_ok hwf).mp ht
      exact ⟨w, t, rfl, cls, tgt, c0, c1, q1, (hT _ _).mp q2, q3⟩
  · rintro ⟨a1, a2⟩
    obtain ⟨targets, h1⟩ := foldLoad_total (f := loadTarget dec basedir) (l := src.targets) (m := [])
      (by
        rintro ⟨id, o⟩ ho
        obtain ⟨w, t, rfl, hw⟩ := a1 id o ho
        exact ⟨t, loadTarget_ok.mpr ⟨w, rfl, hw⟩⟩)
    obtain ⟨r1, e1, k1, i1⟩ := foldLoad_ok hw1 (by simp [GoMap.keys]) h1
    simp only [List.nil_append] at e1
    subst e1
    have hwf : GoMap.WF targets := by unfold GoMap.WF; rw [k1]; exact hw1
    obtain ⟨tasks, h2⟩ := foldLoad_total (f := loadTask dec targets) (l := src.tasks) (m := [])
      (by
        rintro ⟨id, o⟩ ho
        obtain ⟨w, t, rfl, cls, tgt, c0, c1, q1, ⟨w', q2, q2'⟩, q3⟩ := a2 id o ho
        refine ⟨t, (loadTask_ok hwf).mpr ⟨w, rfl, cls, tgt, c0, c1, q1, ?_, q3⟩⟩
        exact (i1 _ _).mpr ⟨some w', q2, loadTarget_ok.mpr ⟨w', rfl, q2'⟩⟩)
    refine ⟨⟨targets, tasks⟩, ?_⟩
    simp only [parse, loadTargets_eq, h1, loadTasks_eq, h2]

/-- C35: on success the ids are exactly the source's and the contents are what it describes. -/
theorem C35_parse_result (dec : Decoder) (basedir : Str) (src : Src) (book : Runbook)
    (hw1 : src.targets.WF) (hw2 : src.tasks.WF) (h : parse dec basedir src = .ok book) :
    book.targets.keys = src.targets.keys ∧ book.tasks.keys = src.tasks.keys ∧
      BookOf dec basedir src book := by
  obtain ⟨h1, h2, _, _, h3⟩ := parse_ok hw1 hw2 h
  exact ⟨h1, h2, h3⟩

/-- C35, "never panics", for sources without null entries. -/
theorem C35_parse_never_panics_partial (dec : Decoder) (basedir : Str) (src : Src)
    (h1 : ∀ id o, (id, o) ∈ src.targets → o ≠ none)
    (h2 : ∀ id o, (id, o) ∈ src.tasks → o ≠ none) :
    parse dec basedir src ≠ .panic := by
  intro h
  unfold parse at h
  rw [loadTargets_eq] at h
  cases e1 : foldLoad (loadTarget dec basedir) src.targets [] with
  | panic =>
    obtain ⟨p, hp, hf⟩ := foldLoad_panic e1
    exact h1 p.1 p.2 hp (loadTarget_panic hf)
  | error e => rw [e1] at h; cases h
  | ok targets =>
    rw [e1] at h
    simp only [loadTasks_eq] at h
    cases e2 : foldLoad (loadTask dec targets) src.tasks [] with
    | panic =>
      obtain ⟨p, hp, hf⟩ := foldLoad_panic e2
      exact h2 p.1 p.2 hp (loadTask_panic hf)
    | error e => rw [e2] at h; cases h
    | ok tasks => rw [e2] at h; cases h

/-- C35 is false: a JSON null where a target (or task) object is expected is a nil pointer
dereference. -/
theorem C35_refuted : ∃ (src src' : Src), src.tasks = [] ∧ src.targets = [(b!"db", none)] ∧
    (∀ dec basedir, parse dec basedir src = .panic) ∧
    src'.targets = [(b!"d", some ⟨b!"demo", []⟩)] ∧ src'.tasks = [(b!"t", none)] ∧
    ∀ dec basedir, parse dec basedir src' = .panic :=
  ⟨⟨[(b!"db", none)], []⟩, ⟨[(b!"d", some ⟨b!"demo", []⟩)], [(b!"t", none)]⟩, rfl, rfl,
    fun _ _ => rfl, rfl, rfl, fun _ _ => rfl⟩

theorem TaskOf_unique {dec : Decoder} {has : Str → Target → Prop} {w : TaskSrc} {t t' : Task}
    (hu : ∀ i u u', has i u → has i u' → u = u')
    (h : TaskOf dec has w t) (h' : TaskOf dec has w t') : t = t' := by
  obtain ⟨cls, tgt, c0, c1, q1, q2, q3, q4, q5, q6, q7⟩ := taskOf_iff.mp h
  obtain ⟨cls', tgt', c0', c1', q1', q2', q3', q4', q5', q6', q7'⟩ := taskOf_iff.mp h'
  obtain ⟨e1, rfl⟩ := C34_reference_unique _ _ _ _ _ q1 q1'
  rw [← e1] at q2'
  obtain rfl := hu _ _ _ q2 q2'
  rw [q3] at q3'
  obtain rfl := Except.ok.inj q3'
  rw [← decoded_iff] at q4 q4'
  rw [q4] at q4'
  obtain rfl := Except.ok.inj q4'
  rw [q5] at q5'
  have e2 := Except.ok.inj q5'
  obtain ⟨a, b, c, d⟩ := t
  obtain ⟨a', b', c', d'⟩ := t'
  simp only at *
  subst e1 e2
  rw [q6, q7, q6', q7']

/-- C36: neither success nor the result depends on the iteration order of the decoded maps. -/
theorem C36_parse_order_independent (dec : Decoder) (basedir : Str) (src src' : Src)
    (hw1 : src.targets.WF) (hw2 : src.tasks.WF)
    (hp1 : src.targets.Perm src'.targets) (hp2 : src.tasks.Perm src'.tasks) (book : Runbook)
    (h : parse dec basedir src = .ok book) :
    ∃ book', parse dec basedir src' = .ok book' ∧ book.targets.Perm book'.targets ∧
      book.tasks.Perm book'.tasks := by
  have hw1' : src'.targets.WF := (hp1.map Prod.fst).nodup_iff.mp hw1
  have hw2' : src'.tasks.WF := (hp2.map Prod.fst).nodup_iff.mp hw2
  obtain ⟨a1, a2⟩ := (C35_parse_succeeds_iff dec basedir src hw1 hw2).mp ⟨book, h⟩
  obtain ⟨book', h'⟩ := (C35_parse_succeeds_iff dec basedir src' hw1' hw2').mpr (by
    refine ⟨fun id o ho => a1 id o (hp1.mem_iff.mpr ho), fun id o ho => ?_⟩
    obtain ⟨w, t, rfl, cls, tgt, c0, c1, q1, ⟨w', q2, q2'⟩, q3⟩ := a2 id o (hp2.mem_iff.mpr ho)
    exact ⟨w, t, rfl, cls, tgt, c0, c1, q1, ⟨w', hp1.mem_iff.mp q2, q2'⟩, q3⟩)
  obtain ⟨k1, k2, f1, f2, hT, hK⟩ := parse_ok hw1 hw2 h
  obtain ⟨k1', k2', f1', f2', hT', hK'⟩ := parse_ok hw1' hw2' h'
  have wf1 : book.targets.WF := by unfold GoMap.WF; rw [k1]; exact hw1
  have wf1' : book'.targets.WF := by unfold GoMap.WF; rw [k1']; exact hw1'
  have wf2 : book.tasks.WF := by unfold GoMap.WF; rw [k2]; exact hw2
  have wf2' : book'.tasks.WF := by unfold GoMap.WF; rw [k2']; exact hw2'
  have hmemT : ∀ id t, (id, t) ∈ book.targets ↔ (id, t) ∈ book'.targets := by
    intro id t
    rw [hT, hT']
    simp only [hp1.mem_iff]
  have pT : book.targets.Perm book'.targets :=
    (List.perm_ext_iff_of_nodup (List.Nodup.of_map _ wf1) (List.Nodup.of_map _ wf1')).mpr
      (fun ⟨id, t⟩ => hmemT id t)
  refine ⟨book', h', pT, ?_⟩
  refine (List.perm_ext_iff_of_nodup (List.Nodup.of_map _ wf2) (List.Nodup.of_map _ wf2')).mpr
    (fun ⟨id, t⟩ => ?_)
  rw [hK, hK']
  simp only [hp2.mem_iff, TaskOf, hmemT]

/-- C36: an order on which Parse fails means it fails on every order. -/
theorem C36_parse_failure_order_independent (dec : Decoder) (basedir : Str) (src src' : Src)
    (hw1 : src.targets.WF) (hw2 : src.tasks.WF)
    (hp1 : src.targets.Perm src'.targets) (hp2 : src.tasks.Perm src'.tasks)
    (h : ∀ book, parse dec basedir src ≠ .ok book) : ∀ book, parse dec basedir src' ≠ .ok book := by
  intro book hb
  obtain ⟨b, hb', _⟩ := C36_parse_order_independent dec basedir src' src
    ((hp1.map Prod.fst).nodup_iff.mp hw1) ((hp2.map Prod.fst).nodup_iff.mp hw2) hp1.symm hp2.symm
    book hb
  exact h b hb'

/-- A decoder for the examples: "n" sets the concurrency / the seconds to 3, anything else fails. -/
def exDec : Decoder where
  target m t := match t with
    | .sh t => if m = b!"3" then .ok (.sh { t with concurrency := 3 }) else .error m
    | _ => .error m
  config m c := match c with
    | .shExec _ => .ok (.shExec { args := [m] })
    | .sleep _ => if m = b!"3" then .ok (.sleep ⟨3⟩) else .error m
    | _ => .error m

def exSrc : Src where
  targets := [(b!"shell", some ⟨b!"sh", b!"3"⟩), (b!"demo", some ⟨b!"demo", []⟩)]
  tasks := [(b!"ls", some ⟨[b!"nap"], b!"shell", [], b!"ls"⟩),
    (b!"nap", some ⟨[], b!"demo/sleep", b!"zzz", []⟩)]

/-- The hypotheses are met: a runbook with two targets and two tasks parses. -/
example : (match parse exDec b!"/" exSrc with
    | .ok b => b.tasks.map (fun p => (p.1, p.2.target)) | _ => []) =
    [(b!"ls", b!"shell"), (b!"nap", b!"demo")] := by decide
example : exSrc.targets.WF ∧ exSrc.tasks.WF := by decide

end Verif.Book
