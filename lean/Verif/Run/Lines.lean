import Verif.Run.Success
import Verif.Run.SameOutput
import Verif.Runner.Names

/-!
# C150: without dependencies demo targets print the same lines in every run
-/

namespace Verif.Run
open Verif Book Spec

variable {dec : Decoder} {basedir : Str} {proc proc' : Proc} {src src' : Src} {book book' : Runbook}
  {st st' : Runner.St} {w w' : World}

/-- The lines the tasks print one after the other, on a demo target whose text is `s` at first: an echo task prints the
text, the others may change it. -/
def linesFrom (book : Runbook) : Str → List Str → List Str
  | _, [] => []
  | s, t :: l => (if configOf book t = .echo then [s ++ [10]] else []) ++ linesFrom book (op (configOf book t) s) l

/-- The names of the tasks of the target `q`, sorted. -/
def namesOf (book : Runbook) (q : Str) : List Str :=
  sortStrs ((book.tasks.filter fun p => p.2.target = q).map Prod.fst)

theorem linesFrom_append (s : Str) (a b : List Str) :
    linesFrom book s (a ++ b) = linesFrom book s a ++ linesFrom book (a.foldl (fun s id => op (configOf book id) s) s) b := by
  induction a generalizing s with
  | nil => rfl
  | cons t a ih => simp [linesFrom, ih]

/-- What an event prints, and which target printed it. -/
def saidAt (book : Runbook) (pre : List Runner.Event) : Runner.Event → List (Str × Str)
  | .handleEnd q t _ => if configOf book t = .echo then [(q, textAt book pre q ++ [10])] else []
  | _ => []

/-- What the events `tr` print after the events `pre`, line by line. -/
def said (book : Runbook) : List Runner.Event → List Runner.Event → List (Str × Str)
  | _, [] => []
  | pre, e :: tr => saidAt book pre e ++ said book (pre ++ [e]) tr

theorem said_printed (pre tr : List Runner.Event) : printed book pre tr = ((said book pre tr).map Prod.snd).flatten := by
  induction tr generalizing pre with
  | nil => rfl
  | cons e tr ih =>
    rw [printed, said, List.map_append, List.flatten_append, ih]
    congr 1
    cases e with
    | handleEnd q t ok =>
      simp only [lineAt, saidAt]
      split <;> simp
    | _ => rfl

theorem said_on (q : Str) (pre tr : List Runner.Event) :
    ((said book pre tr).filter (fun p => p.1 = q)).map Prod.snd = linesFrom book (textAt book pre q) (endedOn q tr) := by
  induction tr generalizing pre with
  | nil => rfl
  | cons e tr ih =>
    have e1 : endedOn q (e :: tr) = endedOn q [e] ++ endedOn q tr := endedOn_append' q [e] tr
    rw [said, List.filter_append, List.map_append, ih, e1, linesFrom_append]
    have e2 : textAt book (pre ++ [e]) q =
        (endedOn q [e]).foldl (fun s id => op (configOf book id) s) (textAt book pre q) := by
      unfold textAt
      rw [endedOn_append', List.foldl_append]
    rw [← e2]
    congr 1
    cases e with
    | handleEnd q' t ok =>
      by_cases h : q' = q
      · subst h
        by_cases hc : configOf book t = .echo <;> simp [saidAt, endedOn, linesFrom, hc]
      · by_cases hc : configOf book t = .echo <;> simp [saidAt, endedOn, linesFrom, hc, h]
    | _ => rfl

/-- The tasks of a target that have begun are those that have ended and the one being executed. -/
theorem begunOn_ended {targets : GoMap Str Int} {tasks : GoMap Str Sched.Task} (wf : targets.WF) (wft : tasks.WF)
    (q : Str) (h : Runner.Reach targets tasks st) :
    Runner.begunOn q st.trace = endedOn q st.trace ++ (match st.tgt q with | .running t => [t] | _ => []) := by
  have happ : ∀ a b, Runner.begunOn q (a ++ b) = Runner.begunOn q a ++ Runner.begunOn q b := by
    intro a b; simp [Runner.begunOn]
  have b1 : ∀ q', Runner.begunOn q [.started q'] = [] := fun _ => rfl
  have b2 : ∀ q', Runner.begunOn q [.startFailed q'] = [] := fun _ => rfl
  have b3 : ∀ q', Runner.begunOn q [.stopped q'] = [] := fun _ => rfl
  have b4 : ∀ q' t ok, Runner.begunOn q [.handleEnd q' t ok] = [] := fun _ _ _ => rfl
  have b5 : ∀ q' t, Runner.begunOn q [.handleStart q' t] = if q' = q then [t] else [] := by
    intro q' t; by_cases e : q' = q <;> simp [Runner.begunOn, e]
  have c1 : ∀ q', endedOn q [.started q'] = [] := fun _ => rfl
  have c2 : ∀ q', endedOn q [.startFailed q'] = [] := fun _ => rfl
  have c3 : ∀ q', endedOn q [.stopped q'] = [] := fun _ => rfl
  have c4 : ∀ q' t, endedOn q [.handleStart q' t] = [] := fun _ _ => rfl
  have c5 : ∀ q' t ok, endedOn q [.handleEnd q' t ok] = if q' = q then [t] else [] := by
    intro q' t ok; by_cases e : q' = q <;> simp [endedOn, e]
  induction h with
  | init order h => rfl
  | @step st st' h hs ih =>
    obtain ⟨hc, hf⟩ := h.inv wf wft
    have hns := hc.next_notStarted
    cases hs with
    | targetStart q' rest hm =>
      have := hns q' rest hm
      simp only [happ, endedOn_append', ih, b1, c1, List.append_nil]
      by_cases e : q = q'
      · subst e
        simp [this]
      · simp [Function.update_of_ne e]
    | routerSend q' t hr ht =>
      simp only [happ, endedOn_append', ih, b5, c4, List.append_nil]
      by_cases e : q = q'
      · subst e
        simp [ht]
      · simp [Function.update_of_ne e, Ne.symm e]
    | handleEnd q' t ok hr =>
      simp only [happ, endedOn_append', ih, b4, c5, List.append_nil]
      by_cases e : q = q'
      · subst e
        simp [hr]
      · simp [Function.update_of_ne e, Ne.symm e]
    | report q' t ok hr hcap =>
      by_cases e : q = q'
      · subst e
        rw [hr] at ih
        rw [ih]
        cases ok <;> simp
      · simpa [Function.update_of_ne e] using ih
    | targetClosed q' hr hrt =>
      by_cases e : q = q'
      · subst e
        rw [hr] at ih
        simpa using ih
      · simpa [Function.update_of_ne e] using ih
    | targetStop q' hr =>
      simp only [happ, endedOn_append', ih, b3, c3, List.append_nil]
      by_cases e : q = q'
      · subst e
        simp [hr]
      · simp [Function.update_of_ne e]
    | targetStartFail q' rest hm =>
      simp only [happ, endedOn_append', ih, b2, c2, List.append_nil]
    | _ => exact ih

theorem namesOn_jobs (q : Str) : Runner.namesOn q (jobs book) = namesOf book q := by
  unfold Runner.namesOn namesOf jobs
  congr 1
  rw [List.filter_map, List.map_map]
  rfl

/-- **C150.** The targets of a file are demo targets and no task waits for another.  At every moment of every run what has
been printed consists of lines, each printed by a target, and every target has printed, in order, the first of the lines it
prints if its tasks are executed one after the other in the order of their names.  When the run has returned nil it has
printed all of them. -/
theorem C150_lines (hj : Json dec) (hw1 : src.targets.WF) (hw2 : src.tasks.WF)
    (h : Reach dec basedir proc src (.running book st w))
    (hdemo : ∀ q t, (q, t) ∈ book.targets → ∃ d, t = .demo d)
    (hfree : ∀ id task, (id, task) ∈ book.tasks → task.after = []) :
    ∃ lines : List (Str × Str), w.stdout = (lines.map Prod.snd).flatten ∧
      (∀ q, (lines.filter (fun p => p.1 = q)).map Prod.snd <+: linesFrom book (textOf book q) (namesOf book q)) ∧
      (st.main = .returned none →
        ∀ q, (lines.filter (fun p => p.1 = q)).map Prod.snd = linesFrom book (textOf book q) (namesOf book q)) := by
  have hp := parsed hj hw1 hw2 h.parse
  have hn : Runner.NoDeps (jobs book) := by
    intro t task hg
    obtain ⟨⟨id, x⟩, hm, e⟩ := List.mem_map.1 (GoMap.mem_of_get? hg)
    cases e
    exact hfree _ _ hm
  have on : ∀ q, ((said book [] st.trace).filter (fun p => p.1 = q)).map Prod.snd =
      linesFrom book (textOf book q) (endedOn q st.trace) := by
    intro q
    rw [said_on]
    rfl
  refine ⟨said book [] st.trace, ?_, fun q => ?_, fun hret q => ?_⟩
  · rw [h.printed hj hw1 hw2 hdemo, said_printed]
  · obtain ⟨a, -⟩ := Runner.C148_by_name hp.wf1 hp.wf2 hn h.runner q
    rw [begunOn_ended hp.wf1 hp.wf2 q h.runner, namesOn_jobs] at a
    rw [on]
    obtain ⟨z, hz⟩ := (List.prefix_append _ _).trans a
    rw [← hz, linesFrom_append]
    exact List.prefix_append _ _
  · obtain ⟨-, a⟩ := Runner.C148_by_name hp.wf1 hp.wf2 hn h.runner q
    have a := a hret
    rw [begunOn_ended hp.wf1 hp.wf2 q h.runner, namesOn_jobs] at a
    rw [on, ← a]
    congr 1
    obtain ⟨hc, -⟩ := h.runner.inv hp.wf1 hp.wf2
    rcases hc.ret _ hret with ⟨q', e⟩ | ⟨hs, -⟩
    · cases e
    · rcases hc.allStopped hs q with e | e <;> simp [e]

theorem perm_of_filters {α : Type} [DecidableEq α] {l l' : List (α × Str)}
    (h : ∀ q, (l.filter (fun p => p.1 = q)).map Prod.snd = (l'.filter (fun p => p.1 = q)).map Prod.snd) : l.Perm l' := by
  rw [List.perm_iff_count]
  rintro ⟨q, x⟩
  have key : ∀ l : List (α × Str), l.count (q, x) = ((l.filter (fun p => p.1 = q)).map Prod.snd).count x := by
    intro l
    induction l with
    | nil => rfl
    | cons p l ih =>
      obtain ⟨q', y⟩ := p
      by_cases e : q' = q
      · subst e
        simp [List.count_cons, ih]
      · simp [List.count_cons, ih, e]
  rw [key, key, h]

/-- **C150, two runs.** Two runs of such a file, with any schedule, in any surroundings and with the entries of its maps in
any order, that return nil have printed the same lines, though perhaps not in the same order. -/
theorem C150_same_lines (hj : Json dec) (hw1 : src.targets.WF) (hw2 : src.tasks.WF)
    (hp1 : src.targets.Perm src'.targets) (hp2 : src.tasks.Perm src'.tasks)
    (h : Reach dec basedir proc src (.running book st w)) (h' : Reach dec basedir proc' src' (.running book' st' w'))
    (hdemo : ∀ q t, (q, t) ∈ book.targets → ∃ d, t = .demo d)
    (hfree : ∀ id task, (id, task) ∈ book.tasks → task.after = [])
    (hret : st.main = .returned none) (hret' : st'.main = .returned none) :
    ∃ lines lines' : List (Str × Str), w.stdout = (lines.map Prod.snd).flatten ∧
      w'.stdout = (lines'.map Prod.snd).flatten ∧ lines.Perm lines' ∧
      ∀ q, lines.filter (fun p => p.1 = q) = lines'.filter (fun p => p.1 = q) := by
  have hw1' : src'.targets.WF := (hp1.map Prod.fst).nodup_iff.1 hw1
  have hw2' : src'.tasks.WF := (hp2.map Prod.fst).nodup_iff.1 hw2
  have hp := parsed hj hw1 hw2 h.parse
  obtain ⟨book2, hb, pt, pk⟩ := C36_parse_order_independent dec basedir src src' hw1 hw2 hp1 hp2 book h.parse
  have : book2 = book' := by
    have := h'.parse
    rw [hb] at this
    cases this
    rfl
  subst this
  obtain ⟨l, e, -, f⟩ := C150_lines hj hw1 hw2 h hdemo hfree
  obtain ⟨l', e', -, f'⟩ := C150_lines hj hw1' hw2' h' (fun q t hm => hdemo q t (pt.mem_iff.2 hm))
    (fun id task hm => hfree id task (pk.mem_iff.2 hm))
  have ec : configOf book = configOf book2 := funext (configOf_perm hp.wfK pk)
  have es : ∀ (s : Str) (l : List Str), linesFrom book s l = linesFrom book2 s l := by
    intro s l
    induction l generalizing s with
    | nil => rfl
    | cons t l ih => simp only [linesFrom, ih, ec]
  have same : ∀ q, (l.filter (fun p => p.1 = q)).map Prod.snd = (l'.filter (fun p => p.1 = q)).map Prod.snd := by
    intro q
    rw [f hret q, f' hret' q, es]
    have e1 : textOf book q = textOf book2 q := by
      unfold textOf
      rw [GoMap.get?_perm hp.wfT pt]
    have e2 : namesOf book q = namesOf book2 q := sortStrs_congr ((pk.filter _).map _)
    rw [e1, e2]
  refine ⟨l, l', e, e', perm_of_filters same, fun q => ?_⟩
  have key : ∀ l : List (Str × Str), l.filter (fun p => p.1 = q) =
      ((l.filter (fun p => p.1 = q)).map Prod.snd).map (fun x => (q, x)) := by
    intro l
    rw [List.map_map]
    conv_lhs => rw [← List.map_id (l.filter (fun p => p.1 = q))]
    apply List.map_congr_left
    rintro ⟨a, b⟩ hm
    have : a = q := by simpa using (List.mem_filter.1 hm).2
    simp [this]
  rw [key l, key l', same]

/-- Two demo targets and no dependencies. -/
def freeSrc : Src where
  targets := [(b!"x", some ⟨b!"demo", b!"abc"⟩), (b!"y", some ⟨b!"demo", b!"hello"⟩)]
  tasks := [
    (b!"3", some ⟨[], b!"x/echo", [], []⟩),
    (b!"2", some ⟨[], b!"x/rev", [], []⟩),
    (b!"1", some ⟨[], b!"x/echo", [], []⟩),
    (b!"4", some ⟨[], b!"y/echo", [], []⟩)]

/-- Its runbook. -/
def freeBook : Runbook where
  targets := [(b!"x", .demo { string := b!"abc" }), (b!"y", .demo { string := b!"hello" })]
  tasks := [
    (b!"3", ⟨b!"x", [], [], .echo⟩),
    (b!"2", ⟨b!"x", [], [], .rev⟩),
    (b!"1", ⟨b!"x", [], [], .echo⟩),
    (b!"4", ⟨b!"y", [], [], .echo⟩)]

/-- What every run of it that returns nil prints: "abc" and "cba", and somewhere among them "hello". -/
theorem free_lines {basedir : Str} {proc : Proc} {book : Runbook} {st : Runner.St} {w : World}
    (h : Reach textConfig basedir proc freeSrc (.running book st w)) (hret : st.main = .returned none) :
    ∃ lines : List (Str × Str), w.stdout = (lines.map Prod.snd).flatten ∧
      (lines.filter (fun p => p.1 = b!"x")).map Prod.snd = [b!"abc\n", b!"cba\n"] ∧
      (lines.filter (fun p => p.1 = b!"y")).map Prod.snd = [b!"hello\n"] := by
  have hb : parse textConfig basedir freeSrc = .ok freeBook := rfl
  have hb' := h.parse
  rw [hb] at hb'
  cases hb'
  obtain ⟨l, e, -, f⟩ := C150_lines textConfig_json (by decide) (by decide) h (by
      intro q t hm
      simp only [freeBook, List.mem_cons, List.not_mem_nil, or_false, Prod.mk.injEq] at hm
      rcases hm with ⟨-, rfl⟩ | ⟨-, rfl⟩ <;> exact ⟨_, rfl⟩) (by
      intro id task hm
      simp only [freeBook, List.mem_cons, List.not_mem_nil, or_false, Prod.mk.injEq] at hm
      rcases hm with ⟨-, rfl⟩ | ⟨-, rfl⟩ | ⟨-, rfl⟩ | ⟨-, rfl⟩ <;> rfl)
  refine ⟨l, e, ?_, ?_⟩
  · rw [f hret]; decide +kernel
  · rw [f hret]; decide +kernel

/-- Such a run exists. -/
example (basedir : Str) : ∃ st w, Reach textConfig basedir ⟨[], .error (), 100⟩ freeSrc (.running freeBook st w) ∧
    st.main = .returned none :=
  exists_success textConfig_json (by decide) (by decide) (by decide) rfl (by decide)
    (by
      rintro q f ⟨task, hm, -, hc⟩
      simp only [freeBook, List.mem_cons, List.not_mem_nil, or_false, Prod.mk.injEq] at hm
      rcases hm with ⟨-, rfl⟩ | ⟨-, rfl⟩ | ⟨-, rfl⟩ | ⟨-, rfl⟩ <;> cases hc)
    (by
      intro q t hm
      simp [freeBook] at hm)

end Verif.Run
