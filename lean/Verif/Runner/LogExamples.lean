import Verif.Runner.LogProps
import Verif.Runner.Examples

/-! # Runs with a log to which C121 applies -/

namespace Verif.Runner
open Verif Dag Sched

/-- A run that succeeds: two tasks, with three lines about each. -/
example : ∃ s, LReach okTargets okTasks s ∧ s.st.main = .returned none ∧
    about b!"a" s.log = [.ready b!"a" b!"x", .routed b!"a" b!"x", .ended b!"a" false] ∧
    about b!"b" s.log = [.ready b!"b" b!"x", .routed b!"b" b!"x", .ended b!"b" false] ∧
    aboutTarget b!"x" s.log = [.starting b!"x", .started b!"x"] := by
  obtain ⟨st, h, hm, ht⟩ := ok_run
  have wf : okTargets.WF := by decide
  have wft : okTasks.WF := by decide
  obtain ⟨log, hl⟩ := exists_log wf wft h
  have hs := C121_success wf wft okTasks_deps hl hm
  obtain ⟨h1, h2, -⟩ := C121_targets wf wft hl b!"x"
  refine ⟨_, hl, hm, hs b!"a" ⟨b!"x", []⟩ (by decide), hs b!"b" ⟨b!"x", [b!"a"]⟩ (by decide), ?_⟩
  have h3 : Line.started b!"x" ∈ log := h2.2 (by simp [ht])
  have h4 : Line.started b!"x" ∈ aboutTarget b!"x" log := by simp [aboutTarget, Line.target, h3]
  obtain ⟨rest, e⟩ := h1
  match hr : aboutTarget b!"x" log with
  | [] => rw [hr] at h4; cases h4
  | [l] => rw [hr] at h4 e; simp_all
  | l :: m :: r => rw [hr] at e; simp at e; simp [e]

/-- A run in which task "a" fails: it is the one returned, and its last line says so; there is no line about "b". -/
example : ∃ s, LReach cycTargets okTasks s ∧ s.st.main = .returned (some (.task b!"a")) ∧
    about b!"a" s.log = [.ready b!"a" b!"x", .routed b!"a" b!"x", .ended b!"a" true] ∧
    errors s.log = [b!"a"] := by
  obtain ⟨st, h, hm, ht⟩ := failed_run
  have wf : cycTargets.WF := by decide
  have wft : okTasks.WF := by decide
  obtain ⟨log, hl⟩ := exists_log wf wft h
  obtain ⟨-, -, h3, h4⟩ := C121_tasks wf wft hl
  obtain ⟨h5, h6⟩ := h4 _ hm (by simp)
  obtain ⟨err, he, h7⟩ := h5 b!"x" b!"a" (by simp [ht])
  have e : err = true := by simpa [ht] using he
  subst e
  refine ⟨_, hl, hm, h7, ?_⟩
  have all : ∀ t, t ∈ errors log → t = b!"a" := by
    intro t hin
    obtain ⟨l, hl, hh⟩ := List.mem_filterMap.1 hin
    match l, hl, hh with
    | .ended t' true, hl, hh =>
      cases hh
      obtain ⟨q, hq⟩ := h3 t true hl
      exact (by simpa [ht] using hq : q = b!"x" ∧ t = b!"a").2
  have one : (errors log).length ≤ 1 := by
    have : errors log = errors (about b!"a" log) := by
      have h8 : ∀ l : List Line, (∀ t, t ∈ errors l → t = b!"a") → errors l = errors (about b!"a" l) := by
        intro l
        induction l with
        | nil => intro _; rfl
        | cons x l ih =>
          intro hx
          rw [errors, List.filterMap_cons] at hx ⊢
          by_cases e : x.task = some b!"a"
          · have : about b!"a" (x :: l) = x :: about b!"a" l := by simp [about, e]
            rw [this]
            cases x <;> try exact ih (by simpa [errors] using hx)
            case ended t b =>
              cases b
              · exact ih (by simpa [errors] using hx)
              · simp only [errors, List.filterMap_cons] at hx ih ⊢
                rw [ih (fun t h => hx t (.tail _ h))]
          · have : about b!"a" (x :: l) = about b!"a" l := by simp [about, e]
            rw [this]
            cases x <;> try exact ih (by simpa [errors] using hx)
            case ended t b =>
              cases b
              · exact ih (by simpa [errors] using hx)
              · exact absurd (by rw [hx t (.head _)]; rfl) e
      exact h8 log all
    rw [this, h7]
    decide
  match hr : errors log with
  | [] => rw [hr] at h6; cases h6
  | [t] => rw [all t (by simp [hr])]
  | _ :: _ :: _ => rw [hr] at one; simp at one

/-- The lines of a target that could not be started. -/
example : ∃ s, LReach failTargets failTasks s ∧ s.st.main = .returned (some (.start b!"y")) ∧
    aboutTarget b!"y" s.log = [.starting b!"y"] := by
  obtain ⟨st, h, hm, ht⟩ := C26_refuted
  have wf : failTargets.WF := by decide
  have wft : failTasks.WF := by decide
  obtain ⟨log, hl⟩ := exists_log wf wft h
  exact ⟨_, hl, hm, (C121_targets wf wft hl b!"y").2.2.2 hm⟩

/-- A log in which the scheduler's line comes before those about the target: the goroutines log as they go on. -/
example : ∃ s, LReach okTargets okTasks s ∧
    s.log = [.ready b!"a" b!"x", .starting b!"x", .started b!"x"] := by
  have r0 : LReach okTargets okTasks _ := .init [b!"x"] (List.Perm.refl _)
  have r1 := LReach.step r0 (.quiet (Step.schedNew _ _ _ _ rfl rfl (List.Perm.refl _)) (by simp [init]) (by simp [init])
    (by simp [init]) (by simp))
  have r2 := LReach.step r1 (.sayReady (q := b!"x") (t := b!"a") (todo := []) rfl rfl)
  have r3 := LReach.step r2 (.sayStarting (q := b!"x") (rest := []) rfl rfl)
  have r4 := LReach.step r3 (.sayStarted (q := b!"x") (rest := []) (Step.targetStart _ b!"x" [] rfl) rfl rfl rfl)
  exact ⟨_, r4, rfl⟩

end Verif.Runner
