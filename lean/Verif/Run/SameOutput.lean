import Verif.Run.Output
import Verif.Run.Net
import Verif.Run.Examples
import Verif.Runner.Order

/-!
# C147: a runbook with one demo target prints the same in every run
-/

namespace Verif.Run
open Verif Book Spec

variable {dec : Decoder} {basedir : Str} {proc proc' : Proc} {src src' : Src} {book book' : Runbook}
  {st st' : Runner.St} {w w' : World}

/-! ## What is printed depends on the order of the tasks alone -/

/-- What the tasks `l` print after the tasks `pre`, if the target's text is `text` at first. -/
def linesOf (book : Runbook) (text : Str) : List Str → List Str → Str
  | _, [] => []
  | pre, t :: l =>
    (if configOf book t = .echo then pre.foldl (fun s id => op (configOf book id) s) text ++ [10] else []) ++
      linesOf book text (pre ++ [t]) l

theorem linesOf_append (text : Str) (pre a b : List Str) :
    linesOf book text pre (a ++ b) = linesOf book text pre a ++ linesOf book text (pre ++ a) b := by
  induction a generalizing pre with
  | nil => simp [linesOf]
  | cons t a ih => simp [linesOf, ih]

theorem endedOn_append' (q : Str) (a b : List Runner.Event) : endedOn q (a ++ b) = endedOn q a ++ endedOn q b := by
  simp [endedOn]

theorem printed_one {q : Str} (pre tr : List Runner.Event)
    (h : ∀ q' t ok, .handleEnd q' t ok ∈ tr → q' = q) :
    printed book pre tr = linesOf book (textOf book q) (endedOn q pre) (endedOn q tr) := by
  induction tr generalizing pre with
  | nil => rfl
  | cons e tr ih =>
    have e1 : endedOn q (e :: tr) = endedOn q [e] ++ endedOn q tr := endedOn_append' q [e] tr
    rw [printed, ih _ (fun q' t ok hm => h q' t ok (List.mem_cons_of_mem _ hm)), e1, linesOf_append, endedOn_append']
    congr 1
    cases e with
    | handleEnd q' t ok =>
      have := h q' t ok (by simp)
      subst this
      simp [lineAt, endedOn, linesOf, textAt]
    | _ => rfl

/-- The tasks of the only target that have begun are those that have ended and the one being executed. -/
theorem executed_ended {targets : GoMap Str Int} {tasks : GoMap Str Sched.Task} (wf : targets.WF) (wft : tasks.WF)
    {q : Str} (h1 : Runner.OneTarget tasks q) (h : Runner.Reach targets tasks st) :
    Runner.executed st.trace = endedOn q st.trace ++ (match st.tgt q with | .running t => [t] | _ => []) := by
  induction h with
  | init order h => rfl
  | @step st st' h hs ih =>
    obtain ⟨hc, hf⟩ := h.inv wf wft
    have hns := hc.next_notStarted
    have hnew := (Runner.C19_run_at_most_once_one_per_target wf wft (.step h hs)).2.1
    have hnew' := (Runner.Reach.inv wf wft (.step h hs)).2.endTr
    cases hs with
    | targetStart q' rest hm =>
      simp only [Runner.executed_append, Runner.executed_started, endedOn_append', List.append_nil, ih]
      have := hns q' rest hm
      by_cases e : q = q'
      · subst e
        simp [endedOn, this]
      · simp [endedOn, Function.update_of_ne e]
    | routerSend q' t hr ht =>
      obtain ⟨task, h2, h3⟩ := hnew q' t (by simp)
      have := h1 t task h2
      rw [h3] at this
      subst this
      rw [ht] at ih
      simp only [Runner.executed_append, Runner.executed_start, endedOn_append', ih]
      simp [endedOn]
    | handleEnd q' t ok hr =>
      obtain ⟨task, h2, h3⟩ := hnew q' t (hnew' q' t ok (by simp))
      have := h1 t task h2
      rw [h3] at this
      subst this
      rw [hr] at ih
      simp only [Runner.executed_append, Runner.executed_end, endedOn_append', ih]
      simp [endedOn]
    | report q' t ok hr hcap =>
      by_cases e : q = q'
      · subst e
        rw [hr] at ih
        rw [ih]
        cases ok <;> simp
      · simpa [Function.update_of_ne e] using ih
    | targetClosed q' hr hrt =>
      by_cases e : q = q'
      · subst e
        rw [hr] at ih
        simpa using ih
      · simpa [Function.update_of_ne e] using ih
    | targetStop q' hr =>
      simp only [Runner.executed_append, Runner.executed_stopped, endedOn_append', List.append_nil]
      by_cases e : q = q'
      · subst e
        rw [hr] at ih
        simpa [endedOn] using ih
      · simpa [endedOn, Function.update_of_ne e] using ih
    | targetStartFail q' rest hm =>
      simpa [endedOn] using ih
    | _ => exact ih

/-! ## The property -/

theorem configOf_perm (wf : book.tasks.WF) (hp : book.tasks.Perm book'.tasks) (t : Str) :
    configOf book t = configOf book' t := by
  unfold configOf
  rw [GoMap.get?_perm wf hp]

theorem linesOf_perm (wf : book.tasks.WF) (hp : book.tasks.Perm book'.tasks) (text : Str) (pre l : List Str) :
    linesOf book text pre l = linesOf book' text pre l := by
  have e : configOf book = configOf book' := funext (configOf_perm wf hp)
  induction l generalizing pre with
  | nil => rfl
  | cons t l ih => simp only [linesOf, ih, e]

theorem Reach.keeps (hj : Json dec) (hw1 : src.targets.WF) (hw2 : src.tasks.WF)
    (hdemo : ∀ q t, (q, t) ∈ book.targets → ∃ d, t = .demo d)
    (h : Reach dec basedir proc src (.running book st w)) :
    Runner.Keeps (fun t => decide (configOf book t ≠ .fail)) st := by
  refine ⟨fun q hq => ?_, fun q t ok hm => ?_⟩
  · obtain ⟨t, ok, e, h1, -⟩ := (h.ninv hj hw1 hw2).failed q hq
    obtain ⟨d, e⟩ := hdemo _ _ (GoMap.mem_of_get? h1)
    cases e
  · obtain ⟨task, t0, d, h1, h2, h3, h4⟩ := h.outcome hj hw1 hw2 hm
    obtain ⟨d0, rfl⟩ := hdemo _ _ (GoMap.mem_of_get? h3)
    have : configOf book t = task.config := by simp [configOf, h1]
    rw [this]
    generalize task.config = c at h4
    cases h4 with
    | fail => simp
    | demo hc => simp [hc]

/-- **C147.** The targets of a file are demo targets and all tasks are of one of them.  Compare two runs of the file, in any surroundings, each at any moment, with any schedule and with the entries of the file's
maps listed in any order: what the one has printed is the beginning of what the other has printed, or the other way round.
If both have returned, they have returned the same and printed the same. -/
theorem C147_same_output (hj : Json dec) (hw1 : src.targets.WF) (hw2 : src.tasks.WF)
    (hp1 : src.targets.Perm src'.targets) (hp2 : src.tasks.Perm src'.tasks)
    (h : Reach dec basedir proc src (.running book st w)) (h' : Reach dec basedir proc' src' (.running book' st' w'))
    (hdemo : ∀ q t, (q, t) ∈ book.targets → ∃ d, t = .demo d) {q : Str} (hone : ∀ id task, (id, task) ∈ book.tasks →
      task.target = q) :
    (w.stdout <+: w'.stdout ∨ w'.stdout <+: w.stdout) ∧
    ∀ e e', st.main = .returned e → st'.main = .returned e' → e = e' ∧ w.stdout = w'.stdout := by
  have hw1' : src'.targets.WF := (hp1.map Prod.fst).nodup_iff.1 hw1
  have hw2' : src'.tasks.WF := (hp2.map Prod.fst).nodup_iff.1 hw2
  have hp := parsed hj hw1 hw2 h.parse
  have hp' := parsed hj hw1' hw2' h'.parse
  obtain ⟨book2, hb, pt, pk⟩ := C36_parse_order_independent dec basedir src src' hw1 hw2 hp1 hp2 book h.parse
  have : book2 = book' := by
    have := h'.parse
    rw [hb] at this
    cases this
    rfl
  subst this
  have hdemo' : ∀ q t, (q, t) ∈ book2.targets → ∃ d, t = .demo d := fun q t hm => hdemo q t (pt.mem_iff.2 hm)
  have h1 : Runner.OneTarget (jobs book) q := by
    intro t task hg
    obtain ⟨⟨id, x⟩, hm, e⟩ := List.mem_map.1 (GoMap.mem_of_get? hg)
    cases e
    exact hone _ _ hm
  have pj : (jobs book).Perm (jobs book2) := pk.map _
  have pl : (limits book).Perm (limits book2) := pt.map _
  have h1' := Runner.oneTarget_perm hp.wf2 pj h1
  have on : ∀ {book : Runbook} {st : Runner.St}, (limits book).WF → (jobs book).WF →
      Runner.OneTarget (jobs book) q → Runner.Reach (limits book) (jobs book) st →
      ∀ q' t ok, .handleEnd q' t ok ∈ st.trace → q' = q := by
    intro book st wf wft h1 h q' t ok hm
    obtain ⟨task, h2, h3⟩ := (Runner.C19_run_at_most_once_one_per_target wf wft h).2.1 q' t
      ((h.inv wf wft).2.endTr q' t ok hm)
    rw [← h3, h1 t task h2]
  have e : w.stdout = linesOf book (textOf book q) [] (endedOn q st.trace) := by
    rw [h.printed hj hw1 hw2 hdemo, printed_one (q := q) _ _ (on hp.wf1 hp.wf2 h1 h.runner)]
    rfl
  have e' : w'.stdout = linesOf book (textOf book q) [] (endedOn q st'.trace) := by
    rw [h'.printed hj hw1' hw2' hdemo', printed_one (q := q) _ _ (on hp'.wf1 hp'.wf2 h1' h'.runner),
      ← linesOf_perm hp.wfK pk]
    have : textOf book2 q = textOf book q := by
      unfold textOf
      rw [GoMap.get?_perm hp.wfT pt]
    rw [this]
    rfl
  have x := executed_ended hp.wf1 hp.wf2 h1 h.runner
  have x' := executed_ended hp'.wf1 hp'.wf2 h1' h'.runner
  refine ⟨?_, ?_⟩
  · have p : endedOn q st.trace <+: Runner.executed st.trace := ⟨_, x.symm⟩
    have p' : endedOn q st'.trace <+: Runner.executed st'.trace := ⟨_, x'.symm⟩
    have c : endedOn q st.trace <+: endedOn q st'.trace ∨ endedOn q st'.trace <+: endedOn q st.trace := by
      rcases Runner.C146_same_order hp.wf1 hp.wf2 pl pj h1 h.runner h'.runner with hh | hh
      · exact List.prefix_or_prefix_of_prefix (p.trans hh) p'
      · exact List.prefix_or_prefix_of_prefix p (p'.trans hh)
    rw [e, e']
    rcases c with ⟨z, hz⟩ | ⟨z, hz⟩
    · rw [← hz, linesOf_append]
      exact .inl (List.prefix_append _ _)
    · rw [← hz, linesOf_append]
      exact .inr (List.prefix_append _ _)
  · intro r r' hr hr'
    have hk := h.keeps hj hw1 hw2 hdemo
    have hk' := h'.keeps hj hw1' hw2' hdemo'
    have ef : (fun t => decide (configOf book2 t ≠ .fail)) = fun t => decide (configOf book t ≠ .fail) := by
      funext t
      rw [configOf_perm hp.wfK pk]
    rw [ef] at hk'
    obtain ⟨a, b⟩ := Runner.C146_same_run hp.wf1 hp.wf2 pl pj h1 _ h.runner
      h'.runner hk hk' hr hr'
    refine ⟨a, ?_⟩
    have none : ∀ {targets : GoMap Str Int} {tasks : GoMap Str Sched.Task} {st : Runner.St} {r : Option Runner.RunErr},
        targets.WF → tasks.WF → Runner.Reach targets tasks st → (∀ q, .startFailed q ∉ st.trace) →
        st.main = .returned r → ∀ t, st.tgt q ≠ .running t := by
      intro targets tasks st r wf wft h hn hr t ht
      obtain ⟨hc, -⟩ := h.inv wf wft
      rcases hc.ret _ hr with ⟨q', rfl⟩ | ⟨hs, -⟩
      · exact hn q' ((hc.startErr q').2 (.inr hr))
      · rcases hc.allStopped hs q with e | e <;> rw [ht] at e <;> cases e
    have y : Runner.executed st.trace = endedOn q st.trace := by
      have := none hp.wf1 hp.wf2 h.runner hk.started hr
      rw [x]
      split
      · rename_i t ht; exact absurd ht (this t)
      · rw [List.append_nil]
    have y' : Runner.executed st'.trace = endedOn q st'.trace := by
      have := none hp'.wf1 hp'.wf2 h'.runner hk'.started hr'
      rw [x']
      split
      · rename_i t ht; exact absurd ht (this t)
      · rw [List.append_nil]
    rw [e, e', ← y, ← y', b]

/-- The hypotheses are met by testdata/message.jsonnet, which two runs may take up with its entries in any order. -/
example (basedir : Str) : (∀ q t, (q, t) ∈ messageBook.targets → ∃ d, t = .demo d) ∧
    (∀ id task, (id, task) ∈ messageBook.tasks → task.target = b!"demo") ∧
    Reach textConfig basedir ⟨[], .error (), 100⟩ messageSrc
      (.running messageBook (Runner.init [b!"demo"]) { targets := messageBook.targets }) ∧
    ∃ book, parse textConfig basedir ⟨messageSrc.targets, messageSrc.tasks.reverse⟩ = .ok book ∧
      Reach textConfig basedir ⟨[], .error (), 100⟩ ⟨messageSrc.targets, messageSrc.tasks.reverse⟩
        (.running book (Runner.init [b!"demo"]) { targets := book.targets }) := by
  refine ⟨?_, ?_, .start (message_parse basedir) (by decide) _ (List.Perm.refl _), _, rfl,
    .start rfl (by decide) _ (List.Perm.refl _)⟩
  · intro q t h
    simp only [messageBook, List.mem_cons, List.not_mem_nil, or_false, Prod.mk.injEq] at h
    exact ⟨_, h.2⟩
  · intro id task h
    simp only [messageBook, List.mem_cons, List.not_mem_nil, or_false, Prod.mk.injEq] at h
    rcases h with ⟨-, rfl⟩ | ⟨-, rfl⟩ | ⟨-, rfl⟩ | ⟨-, rfl⟩ <;> rfl

end Verif.Run
