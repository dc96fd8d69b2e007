import Verif.Book.Props

/-!
# C35, exactly: which files can make `Parse` panic
-/

namespace Verif.Book
open Verif Verif.Book.Spec

/-- Go iterates over the maps of a file in any order: `src'` is `src` in some order. -/
def Reordered (src src' : Src) : Prop := src'.targets.Perm src.targets ∧ src'.tasks.Perm src.tasks

/-- **C35, exactly.** `Parse` can panic, for some order of iteration over the file's maps, if and only if a target is
null, or all targets are acceptable and a task is null. -/
theorem C35_exact (dec : Decoder) (basedir : Str) (src : Src) :
    (∃ src', Reordered src src' ∧ parse dec basedir src' = .panic) ↔
    (∃ id, (id, none) ∈ src.targets) ∨
      (∀ id o, (id, o) ∈ src.targets → ∃ w t, o = some w ∧ TargetOf dec basedir w t) ∧ ∃ id, (id, none) ∈ src.tasks := by
  have front : ∀ {α : Type} {l : List α} {x : α}, x ∈ l → ∃ r, (x :: r).Perm l := by
    intro α l x hx
    obtain ⟨a, b, rfl⟩ := List.append_of_mem hx
    exact ⟨a ++ b, List.perm_middle.symm⟩
  constructor
  · rintro ⟨src', ⟨p1, p2⟩, h⟩
    unfold parse at h
    rw [loadTargets_eq] at h
    cases e1 : foldLoad (loadTarget dec basedir) src'.targets [] with
    | panic =>
      obtain ⟨⟨id, o⟩, hp, hf⟩ := foldLoad_panic e1
      have := loadTarget_panic hf
      subst this
      exact .inl ⟨id, p1.mem_iff.mp hp⟩
    | error e => rw [e1] at h; cases h
    | ok targets =>
      rw [e1] at h
      simp only [loadTasks_eq] at h
      cases e2 : foldLoad (loadTask dec targets) src'.tasks [] with
      | panic =>
        obtain ⟨⟨id, o⟩, hp, hf⟩ := foldLoad_panic e2
        have := loadTask_panic hf
        subst this
        refine .inr ⟨fun id o ho => ?_, id, p2.mem_iff.mp hp⟩
        obtain ⟨t, ht⟩ := foldLoad_ok_all e1 (id, o) (p1.mem_iff.mpr ho)
        obtain ⟨w, h1, h2⟩ := loadTarget_ok.mp ht
        exact ⟨w, t, h1, h2⟩
      | error e => rw [e2] at h; cases h
      | ok tasks => rw [e2] at h; cases h
  · rintro (⟨id, h⟩ | ⟨ht, id, h⟩)
    · obtain ⟨r, hr⟩ := front h
      exact ⟨⟨(id, none) :: r, src.tasks⟩, ⟨hr, List.Perm.refl _⟩, rfl⟩
    · obtain ⟨r, hr⟩ := front h
      refine ⟨⟨src.targets, (id, none) :: r⟩, ⟨List.Perm.refl _, hr⟩, ?_⟩
      obtain ⟨targets, e1⟩ := foldLoad_total (f := loadTarget dec basedir) (l := src.targets) (m := [])
        fun p hp => by
          obtain ⟨w, t, h1, h2⟩ := ht p.1 p.2 hp
          exact ⟨t, loadTarget_ok.mpr ⟨w, h1, h2⟩⟩
      simp only [parse, loadTargets_eq, e1]
      rfl

/-- **C35, exactly: for certain.** Whatever the order, `Parse` panics if a target is null and no other target is refused. -/
theorem C35_certain (dec : Decoder) (basedir : Str) (src : Src) (id : Str) (hn : (id, none) ∈ src.targets)
    (ho : ∀ id w, (id, some w) ∈ src.targets → ∃ t, TargetOf dec basedir w t) (src' : Src) (hr : Reordered src src') :
    parse dec basedir src' = .panic := by
  have key : ∀ (l : List (Str × Option TargetSrc)) (m : GoMap Str Target), (∃ id, (id, none) ∈ l) →
      (∀ id w, (id, some w) ∈ l → ∃ t, TargetOf dec basedir w t) → foldLoad (loadTarget dec basedir) l m = .panic := by
    intro l
    induction l with
    | nil => rintro m ⟨_, h⟩; cases h
    | cons p l ih =>
      rintro m ⟨i, h⟩ ho
      obtain ⟨j, o⟩ := p
      cases o with
      | none => rfl
      | some w =>
        obtain ⟨t, ht⟩ := ho j w (by simp)
        rw [foldLoad, loadTarget_ok.mpr ⟨w, rfl, ht⟩]
        exact ih _ ⟨i, by simpa using h⟩ fun a b hab => ho a b (by simp [hab])
  have := key src'.targets [] ⟨id, hr.1.mem_iff.mpr hn⟩ fun a b hab => ho a b (hr.1.mem_iff.mp hab)
  simp only [parse, loadTargets_eq, this]

/-- A null task beside a demo target: there is an order of iteration for which `Parse` panics. -/
example (dec : Decoder) (h : ∃ t, TargetOf dec b!"." ⟨b!"demo", []⟩ t) :
    ∃ src', Reordered ⟨[(b!"d", some ⟨b!"demo", []⟩)], [(b!"t", none)]⟩ src' ∧ parse dec b!"." src' = .panic := by
  obtain ⟨t, ht⟩ := h
  exact (C35_exact dec b!"." _).mpr (.inr ⟨fun id o ho => by
    obtain ⟨rfl, rfl⟩ := Prod.mk.inj (List.mem_singleton.mp ho)
    exact ⟨_, t, rfl, ht⟩, b!"t", by simp⟩)

end Verif.Book
