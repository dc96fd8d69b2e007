import Verif.Run.Lines
import Verif.Run.Sequence
import Verif.Run.Drawing
import Verif.Run.DbRuns
import Verif.Runner.Chain

/-!
# C151: what a target is told to do, in two runs
-/

namespace Verif.Run
open Verif Book Spec

variable {dec : Decoder} {basedir : Str} {proc proc' : Proc} {src src' : Src} {book book' : Runbook}
  {st st' : Runner.St} {w w' : World}

/-- What has been sent or run by the tasks of the target `q`, in order, without the outcomes. -/
def doneOn (book : Runbook) (q : Str) (w : World) : List (Str × Call) :=
  (w.calls.filter fun x => (book.tasks.get? x.1).map (·.target) = some q).map fun x => (x.1, x.2.1)

/-- Of any two tasks of the target `q` one comes, directly or not, after the other. -/
def InOrder (src : Src) (book : Runbook) (q : Str) : Prop :=
  ∀ a b ta tb, (a, ta) ∈ book.tasks → (b, tb) ∈ book.tasks → ta.target = q → tb.target = q → a ≠ b →
    Follows src a b ∨ Follows src b a

theorem doneOn_ended (hj : Json dec) (hw1 : src.targets.WF) (hw2 : src.tasks.WF)
    (h : Reach dec basedir proc src (.running book st w)) (q : Str) :
    doneOn book q w = (endedOn q st.trace).flatMap fun t => (callsOf proc.environ book q t).map fun c => (t, c) := by
  have hp := parsed hj hw1 hw2 h.parse
  unfold doneOn
  rw [h.calls hj hw1 hw2]
  have own : ∀ q' t ok, .handleEnd q' t ok ∈ st.trace → (book.tasks.get? t).map (·.target) = some q' := by
    intro q' t ok hm
    obtain ⟨task, h1, h2⟩ := (Runner.C19_run_at_most_once_one_per_target hp.wf1 hp.wf2 h.runner).2.1 q' t
      ((h.runner.inv hp.wf1 hp.wf2).2.endTr q' t ok hm)
    obtain ⟨⟨id, x⟩, hx, e⟩ := List.mem_map.1 (GoMap.mem_of_get? h1)
    cases e
    rw [GoMap.get?_of_mem hp.wfK hx]
    exact congrArg some h2
  revert own
  generalize st.trace = tr
  intro own
  induction tr with
  | nil => rfl
  | cons e tr ih =>
    have e1 : endedOn q (e :: tr) = endedOn q [e] ++ endedOn q tr := endedOn_append' q [e] tr
    rw [List.flatMap_cons, List.filter_append, List.map_append, ih fun q' t ok hm => own q' t ok (List.mem_cons_of_mem _ hm),
      e1, List.flatMap_append]
    congr 1
    cases e with
    | handleEnd q' t ok =>
      have ho := own q' t ok (by simp)
      have ef : endedOn q [.handleEnd q' t ok] = if q' = q then [t] else [] := by
        by_cases e : q' = q <;> simp [endedOn, e]
      rw [ef]
      by_cases e : q' = q
      · subst e
        simp only [callsAt, if_true, List.flatMap_cons, List.flatMap_nil, List.append_nil]
        rw [List.filter_eq_self.2]
        · simp
        · intro x hx
          obtain ⟨c, -, rfl⟩ := List.mem_map.1 hx
          simpa using ho
      · simp only [callsAt, e, if_false, List.flatMap_nil]
        rw [List.filter_eq_nil_iff.2]
        · rfl
        · intro x hx
          obtain ⟨c, -, rfl⟩ := List.mem_map.1 hx
          simp [ho, e]
    | _ => rfl

theorem InOrder.chain (hw1 : src.targets.WF) (hw2 : src.tasks.WF) (hb : parse dec basedir src = .ok book)
    (hne : ∀ o, ([], o) ∉ src.tasks) (wfK : book.tasks.WF) {q : Str} (ho : InOrder src book q) :
    Runner.Chain (jobs book) q := by
  have hk : ∀ k task, (k, task) ∈ book.tasks → k ≠ b!"" := by
    rintro k task hm rfl
    have : b!"" ∈ src.tasks.keys := by
      rw [← (C35_parse_result dec basedir src book hw1 hw2 hb).2.1]
      exact List.mem_map_of_mem (f := Prod.fst) hm
    obtain ⟨⟨k, o⟩, hm, e⟩ := List.mem_map.1 this
    exact hne o ((e : k = []) ▸ hm)
  have key : ∀ {a b : Str}, Follows src a b → b ≠ b!"" → Runner.Behind (jobs book) a b := by
    intro a b hf
    induction hf with
    | single hd => exact fun hb0 => .single ⟨(after_iff hw1 hw2 hb _ _).2 hd, hb0⟩
    | @tail c b hc hd ih =>
      intro hb0
      have ha := (after_iff hw1 hw2 hb _ _).2 hd
      obtain ⟨task, hm, -⟩ := (after_jobs wfK).1 ha
      exact .tail (ih (hk _ _ hm)) ⟨ha, hb0⟩
  intro a b ta tb h1 h2 h3 h4 hab
  obtain ⟨⟨_, xa⟩, ma, ea⟩ := List.mem_map.1 (GoMap.mem_of_get? h1)
  obtain ⟨⟨_, xb⟩, mb, eb⟩ := List.mem_map.1 (GoMap.mem_of_get? h2)
  cases ea
  cases eb
  rcases ho _ _ xa xb ma mb h3 h4 hab with hf | hf
  · exact .inl (key hf (hk _ _ mb))
  · exact .inr (key hf (hk _ _ ma))

theorem ended_prefix {targets targets' : GoMap Str Int} {tasks tasks' : GoMap Str Sched.Task} {q : Str} (wf : targets.WF)
    (wft : tasks.WF) (wf' : targets'.WF) (wft' : tasks'.WF) (h : Runner.Reach targets tasks st)
    (h' : Runner.Reach targets' tasks' st')
    (hp : Runner.begunOn q st.trace <+: Runner.begunOn q st'.trace ∨ Runner.begunOn q st'.trace <+: Runner.begunOn q st.trace) :
    endedOn q st.trace <+: endedOn q st'.trace ∨ endedOn q st'.trace <+: endedOn q st.trace := by
  have p : endedOn q st.trace <+: Runner.begunOn q st.trace := ⟨_, (begunOn_ended wf wft q h).symm⟩
  have p' : endedOn q st'.trace <+: Runner.begunOn q st'.trace := ⟨_, (begunOn_ended wf' wft' q h').symm⟩
  rcases hp with hh | hh
  · exact List.prefix_or_prefix_of_prefix (p.trans hh) p'
  · exact List.prefix_or_prefix_of_prefix p (p'.trans hh)

theorem ended_begun {targets : GoMap Str Int} {tasks : GoMap Str Sched.Task} (wf : targets.WF) (wft : tasks.WF) (q : Str)
    (h : Runner.Reach targets tasks st) (hret : st.main = .returned none) :
    Runner.begunOn q st.trace = endedOn q st.trace := by
  rw [begunOn_ended wf wft q h]
  obtain ⟨hc, -⟩ := h.inv wf wft
  rcases hc.ret _ hret with ⟨q', e⟩ | ⟨hs, -⟩
  · cases e
  · rcases hc.allStopped hs q with e | e <;> simp [e]

theorem callsOf_perm (hp1 : book.targets.WF) (hp2 : book.tasks.WF) (pt : book.targets.Perm book'.targets)
    (pk : book.tasks.Perm book'.tasks) (environ : List Str) (q t : Str) :
    callsOf environ book q t = callsOf environ book' q t := by
  unfold callsOf
  rw [GoMap.get?_perm hp1 pt, configOf_perm hp2 pk]

/-- **C151, a file.** In a file the dependencies put the tasks of a target in order.  Compare two runs of it, with the same
environment, each at any moment, with any schedule and with the entries of the file's maps in any order: the statements the
tasks of this target have sent, or the commands they have run, in the one are, in the same order, the first of those of the
other, or the other way round.  If both have returned nil, they are the same. -/
theorem C151_calls (hj : Json dec) (hw1 : src.targets.WF) (hw2 : src.tasks.WF) (hne : ∀ o, ([], o) ∉ src.tasks)
    (hp1 : src.targets.Perm src'.targets) (hp2 : src.tasks.Perm src'.tasks) (henv : proc.environ = proc'.environ)
    (h : Reach dec basedir proc src (.running book st w)) (h' : Reach dec basedir proc' src' (.running book' st' w')) {q : Str}
    (ho : InOrder src book q) :
    (doneOn book q w <+: doneOn book' q w' ∨ doneOn book' q w' <+: doneOn book q w) ∧
    (st.main = .returned none → st'.main = .returned none → doneOn book q w = doneOn book' q w') := by
  have hw1' : src'.targets.WF := (hp1.map Prod.fst).nodup_iff.1 hw1
  have hw2' : src'.tasks.WF := (hp2.map Prod.fst).nodup_iff.1 hw2
  have hp := parsed hj hw1 hw2 h.parse
  have hp' := parsed hj hw1' hw2' h'.parse
  obtain ⟨book2, hb, pt, pk⟩ := C36_parse_order_independent dec basedir src src' hw1 hw2 hp1 hp2 book h.parse
  have : book2 = book' := by
    have := h'.parse
    rw [hb] at this
    cases this
    rfl
  subst this
  have pj : (jobs book).Perm (jobs book2) := pk.map _
  have hc := ho.chain hw1 hw2 h.parse hne hp.wfK
  have ec : callsOf proc'.environ book2 q = callsOf proc.environ book q := by
    funext t
    rw [← henv, callsOf_perm hp.wfT hp.wfK pt pk]
  rw [doneOn_ended hj hw1 hw2 h, doneOn_ended hj hw1' hw2' h', ec]
  refine ⟨?_, fun hret hret' => ?_⟩
  · rcases ended_prefix hp.wf1 hp.wf2 hp'.wf1 hp'.wf2 h.runner h'.runner
      (Runner.C151_same_order hp.wf1 hp.wf2 hp'.wf1 pj hc h.runner h'.runner) with ⟨z, hz⟩ | ⟨z, hz⟩
    · rw [← hz, List.flatMap_append]
      exact .inl (List.prefix_append _ _)
    · rw [← hz, List.flatMap_append]
      exact .inr (List.prefix_append _ _)
  · have := Runner.C151_success hp.wf1 hp.wf2 hp'.wf1 pj hc h.runner h'.runner hret hret'
    rw [ended_begun hp.wf1 hp.wf2 q h.runner hret, ended_begun hp'.wf1 hp'.wf2 q h'.runner hret'] at this
    rw [this]

/-- **C147, any target.** All tasks of a file are of one target.  Compare two runs of it as in C151: the statements sent or
the commands run in the one are, in the same order, the first of those of the other, or the other way round, and the same if
both have returned nil. -/
theorem C147_same_calls (hj : Json dec) (hw1 : src.targets.WF) (hw2 : src.tasks.WF)
    (hp1 : src.targets.Perm src'.targets) (hp2 : src.tasks.Perm src'.tasks) (henv : proc.environ = proc'.environ)
    (h : Reach dec basedir proc src (.running book st w)) (h' : Reach dec basedir proc' src' (.running book' st' w')) {q : Str}
    (hone : ∀ id task, (id, task) ∈ book.tasks → task.target = q) :
    (w.calls.map (fun x => (x.1, x.2.1)) <+: w'.calls.map (fun x => (x.1, x.2.1)) ∨
      w'.calls.map (fun x => (x.1, x.2.1)) <+: w.calls.map fun x => (x.1, x.2.1)) ∧
    (st.main = .returned none → st'.main = .returned none →
      w.calls.map (fun x => (x.1, x.2.1)) = w'.calls.map fun x => (x.1, x.2.1)) := by
  have hw1' : src'.targets.WF := (hp1.map Prod.fst).nodup_iff.1 hw1
  have hw2' : src'.tasks.WF := (hp2.map Prod.fst).nodup_iff.1 hw2
  have hp := parsed hj hw1 hw2 h.parse
  have hp' := parsed hj hw1' hw2' h'.parse
  obtain ⟨book2, hb, pt, pk⟩ := C36_parse_order_independent dec basedir src src' hw1 hw2 hp1 hp2 book h.parse
  have : book2 = book' := by
    have := h'.parse
    rw [hb] at this
    cases this
    rfl
  subst this
  have pj : (jobs book).Perm (jobs book2) := pk.map _
  have pl : (limits book).Perm (limits book2) := pt.map _
  have h1 : Runner.OneTarget (jobs book) q := by
    intro t task hg
    obtain ⟨⟨id, x⟩, hm, e⟩ := List.mem_map.1 (GoMap.mem_of_get? hg)
    cases e
    exact hone _ _ hm
  have h1' := Runner.oneTarget_perm hp.wf2 pj h1
  have all : ∀ {proc : Proc} {src : Src} {book : Runbook} {st : Runner.St} {w : World}, src.targets.WF → src.tasks.WF →
      Reach dec basedir proc src (.running book st w) → (∀ id task, (id, task) ∈ book.tasks → task.target = q) →
      w.calls.map (fun x => (x.1, x.2.1)) = doneOn book q w := by
    intro proc src book st w hw1 hw2 h hone
    have hp := parsed hj hw1 hw2 h.parse
    unfold doneOn
    rw [List.filter_eq_self.2]
    intro x hx
    rw [h.calls hj hw1 hw2] at hx
    obtain ⟨e, he, hxe⟩ := List.mem_flatMap.1 hx
    obtain ⟨q', rfl, -⟩ := mem_callsAt hxe
    obtain ⟨task, g1, -⟩ := (Runner.C19_run_at_most_once_one_per_target hp.wf1 hp.wf2 h.runner).2.1 _ _
      ((h.runner.inv hp.wf1 hp.wf2).2.endTr _ _ _ he)
    obtain ⟨⟨id, y⟩, hy, e⟩ := List.mem_map.1 (GoMap.mem_of_get? g1)
    simp only [Prod.mk.injEq] at e
    rw [← e.1, GoMap.get?_of_mem hp.wfK hy]
    simpa using hone _ _ hy
  have ec : callsOf proc'.environ book2 q = callsOf proc.environ book q := by
    funext t
    rw [← henv, callsOf_perm hp.wfT hp.wfK pt pk]
  rw [all hw1 hw2 h hone, all hw1' hw2' h' fun id task hm => hone id task (pk.mem_iff.2 hm), doneOn_ended hj hw1 hw2 h,
    doneOn_ended hj hw1' hw2' h', ec]
  have x : Runner.executed st.trace = Runner.begunOn q st.trace :=
    (executed_ended hp.wf1 hp.wf2 h1 h.runner).trans (begunOn_ended hp.wf1 hp.wf2 q h.runner).symm
  have x' : Runner.executed st'.trace = Runner.begunOn q st'.trace :=
    (executed_ended hp'.wf1 hp'.wf2 h1' h'.runner).trans (begunOn_ended hp'.wf1 hp'.wf2 q h'.runner).symm
  refine ⟨?_, fun hret hret' => ?_⟩
  · have := Runner.C146_same_order hp.wf1 hp.wf2 pl pj h1 h.runner h'.runner
    rw [x, x'] at this
    rcases ended_prefix hp.wf1 hp.wf2 hp'.wf1 hp'.wf2 h.runner h'.runner this with ⟨z, hz⟩ | ⟨z, hz⟩
    · rw [← hz, List.flatMap_append]
      exact .inl (List.prefix_append _ _)
    · rw [← hz, List.flatMap_append]
      exact .inr (List.prefix_append _ _)
  · have := Runner.C146_success hp.wf1 hp.wf2 pl pj h1 h.runner h'.runner hret hret'
    rw [x, x', ended_begun hp.wf1 hp.wf2 q h.runner hret, ended_begun hp'.wf1 hp'.wf2 q h'.runner hret'] at this
    rw [this]

/-- Two databases. -/
def moveSrc : Src := ⟨[(b!"x", some ⟨b!"pg", b!"up"⟩), (b!"y", some ⟨b!"pg", b!"up"⟩)],
  [(b!"a", some ⟨[], b!"x/exec", [], b!"lock"⟩), (b!"b", some ⟨[b!"a"], b!"y/exec", [], b!"copy"⟩),
    (b!"c", some ⟨[b!"b"], b!"x/exec", [], b!"drop"⟩)]⟩

def moveBook : Runbook where
  targets := [(b!"x", .pg (dbTarget 0)), (b!"y", .pg (dbTarget 0))]
  tasks := [(b!"a", ⟨b!"x", [], [], .pgExec b!"lock"⟩), (b!"b", ⟨b!"y", [b!"a"], [], .pgExec b!"copy"⟩),
    (b!"c", ⟨b!"x", [b!"b"], [], .pgExec b!"drop"⟩)]

/-- The tasks of x are in order, because of a task of y, and a run that succeeds exists. -/
example : InOrder moveSrc moveBook b!"x" ∧
    ∃ st w, Reach (pgConfig 0) b!"/" proc0 moveSrc (.running moveBook st w) ∧ st.main = .returned none := by
  have ca : Follows moveSrc b!"c" b!"a" :=
    .tail (b := b!"b") (.single ⟨_, List.mem_of_getElem (i := 2) (h := by decide) rfl, by decide⟩)
      ⟨_, List.mem_of_getElem (i := 1) (h := by decide) rfl, by decide⟩
  refine ⟨?_, ?_⟩
  · intro a b ta tb h1 h2 h3 h4 hne
    simp only [moveBook, List.mem_cons, Prod.mk.injEq, List.not_mem_nil, or_false] at h1 h2
    rcases h1 with ⟨rfl, rfl⟩ | ⟨rfl, rfl⟩ | ⟨rfl, rfl⟩ <;> rcases h2 with ⟨rfl, rfl⟩ | ⟨rfl, rfl⟩ | ⟨rfl, rfl⟩ <;>
      first
        | exact absurd h3 (by decide)
        | exact absurd h4 (by decide)
        | exact absurd rfl hne
        | exact .inl ca
        | exact .inr ca
  · refine exists_success (pgConfig_json 0) (by decide) (by decide) (by decide) rfl (by decide) ?_ ?_
    · rintro q f ⟨task, hm, -, hc⟩
      simp only [moveBook, List.mem_cons, List.not_mem_nil, or_false, Prod.mk.injEq] at hm
      rcases hm with ⟨-, rfl⟩ | ⟨-, rfl⟩ | ⟨-, rfl⟩ <;> cases hc
    · intro q t hm
      simp only [moveBook, List.mem_cons, List.not_mem_nil, or_false, Prod.mk.injEq, Target.pg.injEq] at hm
      rcases hm with ⟨-, rfl⟩ | ⟨-, rfl⟩ <;> exact ⟨⟨_, rfl⟩, by decide, by decide⟩

end Verif.Run
