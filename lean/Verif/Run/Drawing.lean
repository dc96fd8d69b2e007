import Verif.Run.Exact
import Verif.Run.Success
import Verif.Run.DbRuns
import Verif.Dot.Props

/-!
# C140: a run follows the drawing
-/

namespace Verif.Run
open Verif Book Spec

variable {dec : Decoder} {basedir : Str} {proc : Proc} {src : Src} {book : Runbook}
  {st : Runner.St} {w : World}

/-- There is an arrow from one to the other. -/
def Arrow (g : Dot.Graph) (a b : Str) : Prop := ∃ e ∈ g.edges, e.src = a ∧ e.dst = b

/-- Every arrow goes from a node to a node, and there is no way along the arrows back to where one was. -/
structure Drawable (g : Dot.Graph) : Prop where
  nodes : ∀ a b, Arrow g a b → a ∈ g.nodes ∧ b ∈ g.nodes
  acyclic : ∀ a, ¬ Relation.TransGen (Arrow g) a a

/-- What is written for one name of a task is not written for another, also for names of tasks that do not exist. -/
def Distinct (esc : Str → Str) (book : Runbook) : Prop :=
  ∀ a b, (∃ p ∈ book.tasks, a = p.1 ∨ a ∈ p.2.after) → (∃ p ∈ book.tasks, b = p.1 ∨ b ∈ p.2.after) →
    esc a = esc b → a = b

section lemmas

variable {esc : Str → Str} {splines : Str} {g : Dot.Graph}

theorem after_jobs (wfK : book.tasks.WF) {t m : Str} :
    Sched.After (jobs book) t m ↔ ∃ task, (t, task) ∈ book.tasks ∧ m ∈ task.after := by
  unfold Sched.After
  rw [get_jobs]
  constructor
  · rintro ⟨job, h1, h2⟩
    obtain ⟨task, h3, rfl⟩ := Option.map_eq_some_iff.1 h1
    exact ⟨task, GoMap.mem_of_get? h3, h2⟩
  · rintro ⟨task, h1, h2⟩
    exact ⟨_, Option.map_eq_some_iff.2 ⟨task, GoMap.get?_of_mem wfK h1, rfl⟩, h2⟩

theorem arrow_iff (hs : Dot.Spec.Shows esc book splines g) (wfK : book.tasks.WF) {a b : Str} :
    Arrow g a b ↔ ∃ t m, Sched.After (jobs book) t m ∧ a = esc m ∧ b = esc t := by
  unfold Arrow
  rw [hs.edges]
  constructor
  · rintro ⟨e, he, rfl, rfl⟩
    obtain ⟨p, hp, he⟩ := List.mem_flatMap.1 he
    obtain ⟨m, hm, rfl⟩ := List.mem_map.1 he
    exact ⟨p.1, m, (after_jobs wfK).2 ⟨p.2, hp, hm⟩, rfl, rfl⟩
  · rintro ⟨t, m, h, rfl, rfl⟩
    obtain ⟨task, h1, h2⟩ := (after_jobs wfK).1 h
    exact ⟨⟨esc m, esc t, true⟩, List.mem_flatMap.2 ⟨_, h1, List.mem_map.2 ⟨m, h2, rfl⟩⟩, rfl, rfl⟩

theorem node_iff (hs : Dot.Spec.Shows esc book splines g) {n : Str} :
    n ∈ g.nodes ↔ ∃ t ∈ book.tasks.keys, n = esc t := by
  rw [hs.nodes]
  simp only [GoMap.keys, List.mem_map]
  constructor
  · rintro ⟨p, hp, rfl⟩
    exact ⟨p.1, ⟨p, hp, rfl⟩, rfl⟩
  · rintro ⟨t, ⟨p, hp, rfl⟩, rfl⟩
    exact ⟨p, hp, rfl⟩

theorem named_task {t : Str} (h : t ∈ book.tasks.keys) : ∃ p ∈ book.tasks, t = p.1 ∨ t ∈ p.2.after := by
  obtain ⟨p, hp, rfl⟩ := List.mem_map.1 h
  exact ⟨p, hp, .inl rfl⟩

theorem named_after (wfK : book.tasks.WF) {t m : Str} (h : Sched.After (jobs book) t m) :
    ∃ p ∈ book.tasks, m = p.1 ∨ m ∈ p.2.after := by
  obtain ⟨task, h1, h2⟩ := (after_jobs wfK).1 h
  exact ⟨_, h1, .inr h2⟩

theorem after_task (wfK : book.tasks.WF) {t m : Str} (h : Sched.After (jobs book) t m) : t ∈ book.tasks.keys := by
  obtain ⟨task, h1, h2⟩ := (after_jobs wfK).1 h
  exact GoMap.mem_keys_of_mem h1

theorem drawable_iff (hs : Dot.Spec.Shows esc book splines g) (wfK : book.tasks.WF) (hd : Distinct esc book) :
    Drawable g ↔ Runner.ValidDeps (jobs book) := by
  constructor
  · intro h
    refine ⟨?_, ?_⟩
    · intro t m ha
      obtain ⟨h1, _⟩ := h.nodes _ _ ((arrow_iff hs wfK).2 ⟨t, m, ha, rfl, rfl⟩)
      obtain ⟨t', h2, h3⟩ := (node_iff hs).1 h1
      rw [keys_jobs, hd m t' (named_after wfK ha) (named_task h2) h3]
      exact h2
    · intro t ht
      have : ∀ a b, Relation.TransGen (Sched.After (jobs book)) a b →
          Relation.TransGen (Arrow g) (esc b) (esc a) := by
        intro a b hab
        induction hab with
        | single h => exact .single ((arrow_iff hs wfK).2 ⟨_, _, h, rfl, rfl⟩)
        | tail _ h ih => exact .head ((arrow_iff hs wfK).2 ⟨_, _, h, rfl, rfl⟩) ih
      exact h.acyclic _ (this t t ht)
  · intro h
    refine ⟨?_, ?_⟩
    · intro a b hab
      obtain ⟨t, m, ha, rfl, rfl⟩ := (arrow_iff hs wfK).1 hab
      have := h.closed t m ha
      rw [keys_jobs] at this
      exact ⟨(node_iff hs).2 ⟨m, this, rfl⟩, (node_iff hs).2 ⟨t, after_task wfK ha, rfl⟩⟩
    · intro n hn
      have : ∀ a b, Relation.TransGen (Arrow g) a b → ∃ t m, a = esc m ∧ b = esc t ∧
          (∃ p ∈ book.tasks, m = p.1 ∨ m ∈ p.2.after) ∧ t ∈ book.tasks.keys ∧
          Relation.TransGen (Sched.After (jobs book)) t m := by
        intro a b hab
        induction hab with
        | single h =>
          obtain ⟨t, m, ha, rfl, rfl⟩ := (arrow_iff hs wfK).1 h
          exact ⟨t, m, rfl, rfl, named_after wfK ha, after_task wfK ha, .single ha⟩
        | tail _ h ih =>
          obtain ⟨t, m, rfl, rfl, h1, h2, h3⟩ := ih
          obtain ⟨t', m', ha, e, rfl⟩ := (arrow_iff hs wfK).1 h
          have := hd t m' (named_task h2) (named_after wfK ha) e
          subst this
          exact ⟨t', m, rfl, rfl, h1, after_task wfK ha, .head ha h3⟩
      obtain ⟨t, m, rfl, e, h1, h2, h3⟩ := this n n hn
      have := hd m t h1 (named_task h2) e
      subst this
      exact h.acyclic _ h3

end lemmas

/-- **C140 (partial).** A file is drawn and run.  At every moment of the run: a task that has begun is a node of the
drawing, in the box of the target on which it is executed, and there is no arrow to it from a task that had not ended
without an error before it began, but for one named "".
Missing: an arrow from a task named "" (`C140_refuted`). -/
theorem C140_follows_partial (hj : Json dec) (hw1 : src.targets.WF) (hw2 : src.tasks.WF)
    (h : Reach dec basedir proc src (.running book st w)) (esc : Str → Str) (splines : Str) (g : Dot.Graph)
    (hs : Dot.Spec.Shows esc book splines g) (hd : Distinct esc book) {pre post : List Runner.Event} {q t : Str}
    (e : st.trace = pre ++ .handleStart q t :: post) :
    esc t ∈ g.nodes ∧ (esc (Dot.Spec.box q), esc t) ∈ g.relations ∧
    ∀ n, Arrow g n (esc t) → ∃ m, n = esc m ∧ (m ≠ b!"" → ∃ q', .handleEnd q' m true ∈ pre) := by
  have hp := parsed hj hw1 hw2 h.parse
  obtain ⟨job, h1, h2⟩ := (Runner.C19_run_at_most_once_one_per_target hp.wf1 hp.wf2 h.runner).2.1 q t
    (by rw [e]; simp)
  rw [get_jobs] at h1
  obtain ⟨task, h3, rfl⟩ := Option.map_eq_some_iff.1 h1
  have hk := GoMap.mem_keys_of_get? h3
  refine ⟨(node_iff hs).2 ⟨t, hk, rfl⟩, (hs.inside _ _).2 (.inr ⟨_, GoMap.mem_of_get? h3, ?_, rfl⟩), ?_⟩
  · rw [← h2]
  · intro n hn
    obtain ⟨t', m, ha, rfl, e'⟩ := (arrow_iff hs hp.wfK).1 hn
    have := hd t t' (named_task hk) (named_task (after_task hp.wfK ha)) e'
    subst this
    refine ⟨m, rfl, fun hm => ?_⟩
    obtain ⟨q', _, _, _, h5⟩ := Runner.C18_run_dependency_order_partial hp.wf1 hp.wf2 h.runner e ha hm
    exact ⟨q', h5⟩

/-- **C140: all of it, or nothing.** If all arrows of the drawing go from node to node and never in a circle, and `Run`
returns nil, then every node that is drawn is a task that has ended without an error.  If they do not, no task is ever
begun. -/
theorem C140_all_or_nothing (hj : Json dec) (hw1 : src.targets.WF) (hw2 : src.tasks.WF)
    (h : Reach dec basedir proc src (.running book st w)) (esc : Str → Str) (splines : Str) (g : Dot.Graph)
    (hs : Dot.Spec.Shows esc book splines g) (hd : Distinct esc book) :
    (Drawable g → st.main = .returned none →
      ∀ n ∈ g.nodes, ∃ t q, n = esc t ∧ .handleEnd q t true ∈ st.trace) ∧
    (¬ Drawable g → ∀ q t, .handleStart q t ∉ st.trace) := by
  have hp := parsed hj hw1 hw2 h.parse
  rw [drawable_iff hs hp.wfK hd]
  constructor
  · intro hv hret n hn
    obtain ⟨t, ht, rfl⟩ := (node_iff hs).1 hn
    obtain ⟨_, q, hq⟩ := Runner.C20_nil_means_all_succeeded_partial hp.wf1 hp.wf2 hv h.runner hret t
      (by rw [keys_jobs]; exact ht)
    exact ⟨t, q, rfl, hq⟩
  · intro hv
    exact (Runner.C20_invalid hp.wf1 hp.wf2 hp.validTargets hp.limits hv).1 st h.runner

local macro "other" t:term : term => `(Act.other $t (by simp) (by simp) (by simp) (by simp))

/-- **C140 refuted**: in the drawing there is an arrow from the task "" to "b", but "b" begins after "" has failed. -/
theorem C140_refuted : Arrow (Dot.draw id unnamedBook b!"") b!"" b!"b" ∧
    ∃ st w, Reach (pgConfig 0) b!"/" proc0 unnamedSrc (.running unnamedBook st w) ∧
      st.trace = [.started b!"x", .started b!"y", .handleStart b!"x" b!"", .handleEnd b!"x" b!"" false,
        .handleStart b!"y" b!"b"] := by
  have r0 : Reach (pgConfig 0) b!"/" proc0 unnamedSrc (.running unnamedBook _ _) :=
    Reach.start (book := unnamedBook) rfl (by decide) [b!"x", b!"y"] (List.Perm.refl _)
  have r1 := Reach.act r0 (Act.started b!"x" [b!"y"] _ _ _ _ (fun _ => true) rfl rfl
    (start_once _ rfl))
  have r2 := Reach.act r1 (Act.started b!"y" [] _ _ _ _ (fun _ => true) rfl rfl (start_once _ rfl))
  have r3 := Reach.act r2 (other (Runner.Step.targetsStarted _ rfl))
  have r4 := Reach.act r3 (other (Runner.Step.schedNew _ _ _ _ rfl rfl (List.Perm.refl _)))
  have r5 := Reach.act r4 (other (Runner.Step.schedSend _ _ (b!"x", b!"") [(b!"y", b!"b")] rfl (by decide)))
  have r6 := Reach.act r5 (other (Runner.Step.schedSend _ _ (b!"y", b!"b") [] rfl (by decide)))
  have r7 := Reach.act r6 (other (Runner.Step.routerRecv _ b!"x" b!"" [(b!"y", b!"b")] rfl rfl))
  have r8 := Reach.act r7 (other (Runner.Step.routerSend _ b!"x" b!"" rfl rfl))
  have r9 := Reach.act r8 (Act.handled b!"x" b!"" _ _ _ _ _ _ (false, []) rfl rfl rfl rfl)
  have r10 := Reach.act r9 (other (Runner.Step.routerRecv _ b!"y" b!"b" [] rfl rfl))
  have r11 := Reach.act r10 (other (Runner.Step.routerSend _ b!"y" b!"b" rfl rfl))
  exact ⟨⟨⟨b!"", b!"b", true⟩, by decide +kernel, rfl, rfl⟩, _, _, r11, rfl⟩

/-- The hypotheses of C140 on the drawing are met by the file of `C140_refuted`, if names are written as they are. -/
example (splines : Str) : Dot.Spec.Shows id unnamedBook splines (Dot.draw id unnamedBook splines) ∧ Distinct id unnamedBook :=
  ⟨Dot.C101_draws_runbook id unnamedBook splines (by decide) (by decide)
    (by refine ⟨?_, ?_, ?_, ?_⟩ <;> simp [unnamedBook, Dot.Spec.box]), fun _ _ _ _ e => e⟩

/-- A drawing along which a run goes, and one with a circle. -/
example : Drawable { nodes := [b!"a", b!"b"], edges := [⟨b!"a", b!"b", true⟩] } ∧
    ¬ Drawable { nodes := [b!"a"], edges := [⟨b!"a", b!"a", true⟩] } := by
  have ha : ∀ x y, Arrow { nodes := [b!"a", b!"b"], edges := [⟨b!"a", b!"b", true⟩] } x y → x = b!"a" ∧ y = b!"b" := by
    rintro x y ⟨e, he, rfl, rfl⟩
    simp only [List.mem_singleton] at he
    subst he
    exact ⟨rfl, rfl⟩
  constructor
  · refine ⟨fun x y h => ?_, fun x h => ?_⟩
    · obtain ⟨rfl, rfl⟩ := ha x y h
      simp
    · have : ∀ y z, Relation.TransGen (Arrow { nodes := [b!"a", b!"b"], edges := [⟨b!"a", b!"b", true⟩] }) y z →
          y = b!"a" ∧ z = b!"b" := by
        intro y z h
        induction h with
        | single h => exact ha _ _ h
        | tail _ h ih => exact ⟨ih.1, (ha _ _ h).2⟩
      obtain ⟨e1, e2⟩ := this x x h
      rw [e1] at e2
      exact absurd e2 (by decide)
  · intro h
    exact h.acyclic b!"a" (.single ⟨⟨b!"a", b!"a", true⟩, by simp, rfl, rfl⟩)

end Verif.Run
