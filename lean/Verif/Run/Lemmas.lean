import Verif.Run.Spec
import Verif.Book.Props
import Verif.Sh.Props
import Verif.Demo.Props
import Verif.Runner.Props
import Verif.Pg.ConnectProps

/-! Invariants of `runbook.Run` with the targets' effects. -/

namespace Verif.Run
open Verif Book Spec

variable {dec : Decoder} {basedir : Str} {proc : Proc} {environ : List Str} {src : Src} {book : Runbook}
  {st st' : Runner.St} {w w' : World}

theorem keys_limits : (limits book).keys = book.targets.keys := by
  simp [limits, GoMap.keys, Function.comp_def]

theorem keys_jobs : (jobs book).keys = book.tasks.keys := by
  simp [jobs, GoMap.keys, Function.comp_def]

theorem get_limits (q : Str) :
    (limits book).get? q = (book.targets.get? q).map Target.concurrencyLimit :=
  GoMap.get?_map_val (fun _ t => Target.concurrencyLimit t) book.targets q

theorem get_jobs (t : Str) :
    (jobs book).get? t = (book.tasks.get? t).map fun x => ⟨x.target, x.after⟩ :=
  GoMap.get?_map_val (fun _ (x : Task) => (⟨x.target, x.after⟩ : Sched.Task)) book.tasks t

/-- Every action is a step of the runner. -/
theorem Act.step (h : Act proc book (st, w) (st', w')) :
    Runner.Step (limits book) (jobs book) st st' := by
  cases h with
  | started q rest tgt tgt' conn net ok h hq hs => exact Runner.Step.targetStart st q rest h
  | startFailed q rest tgt net ok h hq hs => exact Runner.Step.targetStartFail st q rest h
  | handled q t task tgt tgt' ok out calls ext h ht hq hh => exact Runner.Step.handleEnd st q t ok h
  | stopped q tgt closes h hq hs => exact Runner.Step.targetStop st q h
  | other h => exact h

theorem Reach.parse (h : Reach dec basedir proc src (.running book st w)) :
    parse dec basedir src = .ok book := by
  generalize hp : Prog.running book st w = p at h
  induction h generalizing st w with
  | rejected h => cases hp
  | parsePanic h => cases hp
  | makePanic h => cases hp
  | start h => cases hp; exact h
  | act h ha ih => cases hp; exact ih rfl
  | panic => cases hp

theorem Reach.runner (h : Reach dec basedir proc src (.running book st w)) :
    Runner.Reach (limits book) (jobs book) st := by
  generalize hp : Prog.running book st w = p at h
  induction h generalizing st w with
  | rejected h => cases hp
  | parsePanic h => cases hp
  | makePanic h => cases hp
  | start h hm order ho => cases hp; exact Runner.Reach.init order ho
  | act h ha ih => cases hp; exact Runner.Reach.step (ih rfl) ha.step
  | panic => cases hp

/-- What parsing fixes about a runbook. -/
structure Parsed (basedir : Str) (book : Runbook) : Prop where
  wfT : book.targets.WF
  wfK : book.tasks.WF
  basedir : ∀ q t, book.targets.get? q = some (.sh t) → t.basedir = basedir
  limit : ∀ q t, book.targets.get? q = some t → 1 ≤ t.concurrencyLimit
  /-- the task's target exists and its config is one of that target's -/
  task : ∀ id task, book.tasks.get? id = some task → ∃ tgt,
    book.targets.get? task.target = some tgt ∧
    match tgt with
    | .pg _ => ∃ sql, task.config = .pgExec sql
    | .sh _ => ∃ arg0 rest env, task.config = .shExec ⟨arg0 :: rest, env⟩
    | .demo _ => task.config = .echo ∨ task.config = .fail ∨ task.config = .rev ∨
        task.config = .rot13 ∨ ∃ x, task.config = .sleep x

theorem parsed (hj : Json dec) (hw1 : src.targets.WF) (hw2 : src.tasks.WF)
    (h : parse dec basedir src = .ok book) : Parsed basedir book := by
  obtain ⟨k1, k2, hT, hK⟩ := C35_parse_result dec basedir src book hw1 hw2 h
  obtain ⟨hlim, _⟩ := C34_parse_sound dec basedir src book hw1 hw2 h
  have wfT : book.targets.WF := by unfold GoMap.WF; rw [k1]; exact hw1
  have wfK : book.tasks.WF := by unfold GoMap.WF; rw [k2]; exact hw2
  refine ⟨wfT, wfK, ?_, fun q t hq => hlim q t (GoMap.mem_of_get? hq), ?_⟩
  · intro q t hq
    obtain ⟨s, _, t0, hf, hd, _⟩ := (hT q _).mp (GoMap.mem_of_get? hq)
    generalize hc : s.class_ = cls at hf
    cases hf with
    | pg =>
      rcases hd with ⟨_, e⟩ | ⟨_, e⟩
      · cases e
      · obtain ⟨_, e'⟩ := hj.pg _ _ _ e; cases e'
    | sh =>
      rcases hd with ⟨_, e⟩ | ⟨_, e⟩
      · cases e; rfl
      · obtain ⟨_, e', e''⟩ := hj.sh _ _ _ e; cases e'; exact e''
    | demo =>
      rcases hd with ⟨_, e⟩ | ⟨_, e⟩
      · cases e
      · obtain ⟨_, e'⟩ := hj.demo _ _ _ e; cases e'
  · intro id task hid
    obtain ⟨s, _, cls, tgt, c0, c1, _, hin, ho, hd, hc, _⟩ := (hK id task).mp (GoMap.mem_of_get? hid)
    refine ⟨tgt, GoMap.get?_of_mem wfT hin, ?_⟩
    generalize task.config = c at hc ⊢
    cases ho with
    | pgDefault | pgExec =>
      have : ∃ x, c1 = .pgExec x := by
        rcases hd with ⟨_, e⟩ | ⟨_, e⟩
        · exact ⟨_, e⟩
        · exact hj.pgExec _ _ _ e
      obtain ⟨x, rfl⟩ := this
      cases hc with | pgExec hne => exact ⟨_, rfl⟩
    | shDefault | shExec =>
      have : ∃ x, c1 = .shExec x := by
        rcases hd with ⟨_, e⟩ | ⟨_, e⟩
        · exact ⟨_, e⟩
        · exact hj.shExec _ _ _ e
      obtain ⟨x, rfl⟩ := this
      cases hc with | shExec hne => exact ⟨_, _, _, rfl⟩
    | echo =>
      have : c1 = .echo := by
        rcases hd with ⟨_, e⟩ | ⟨_, e⟩
        · exact e
        · exact hj.echo _ _ e
      subst this; cases hc; simp
    | fail =>
      have : c1 = .fail := by
        rcases hd with ⟨_, e⟩ | ⟨_, e⟩
        · exact e
        · exact hj.fail _ _ e
      subst this; cases hc; simp
    | rev =>
      have : c1 = .rev := by
        rcases hd with ⟨_, e⟩ | ⟨_, e⟩
        · exact e
        · exact hj.rev _ _ e
      subst this; cases hc; simp
    | rot13 =>
      have : c1 = .rot13 := by
        rcases hd with ⟨_, e⟩ | ⟨_, e⟩
        · exact e
        · exact hj.rot13 _ _ e
      subst this; cases hc; simp
    | sleep =>
      have : ∃ x, c1 = .sleep x := by
        rcases hd with ⟨_, e⟩ | ⟨_, e⟩
        · exact ⟨_, e⟩
        · exact hj.sleep _ _ _ e
      obtain ⟨x, rfl⟩ := this
      cases hc <;> simp

/-! ## Effects -/

/-- The string of a demo target after a task. -/
def op : Config → Str → Str
  | .rev, s => Utf8.encode (Utf8.decode s).reverse
  | .rot13, s => Utf8.encode ((Utf8.decode s).map Demo.rot13Rune)
  | _, s => s

/-- The tasks of a demo target. -/
def IsDemo (c : Config) : Prop :=
  c = .echo ∨ c = .fail ∨ c = .rev ∨ c = .rot13 ∨ ∃ x, c = .sleep x

theorem munge_demo {d : Demo.Target} {c : Config} (hc : IsDemo c) : ∃ d',
    munge d c = some (!decide (c = .fail), d') ∧ d'.string = op c d.string ∧
    d'.stdout = if c = .echo then d.stdout ++ d.string ++ [10] else d.stdout := by
  rcases hc with rfl | rfl | rfl | rfl | ⟨x, rfl⟩
  · exact ⟨_, rfl, rfl, rfl⟩
  · exact ⟨_, rfl, rfl, rfl⟩
  · exact ⟨{ d with string := Utf8.encode (Utf8.decode d.string).reverse },
      by rw [munge, Demo.rev_eq]; rfl, rfl, rfl⟩
  · exact ⟨_, rfl, rfl, rfl⟩
  · exact ⟨_, rfl, rfl, rfl⟩

/-- The config of a task of the runbook (echo, if there is no such task). -/
def configOf (book : Runbook) (t : Str) : Config :=
  match book.tasks.get? t with
  | some task => task.config
  | none => .echo

/-- The tasks `Handle` returned for on target `q`, in order. -/
def endedOn (q : Str) (tr : List Runner.Event) : List Str :=
  tr.filterMap fun e => match e with
    | .handleEnd q' t _ => if q' = q then some t else none
    | _ => none

theorem endedOn_append (q : Str) (tr : List Runner.Event) (e : Runner.Event) :
    endedOn q (tr ++ [e]) = endedOn q tr ++ (match e with
    | .handleEnd q' t _ => if q' = q then [t] else []
    | _ => []) := by
  unfold endedOn
  rw [List.filterMap_append]
  congr 1
  cases e with
  | handleEnd q' t ok => simp only [List.filterMap_cons, List.filterMap_nil]; split <;> simp_all
  | _ => rfl

/-- What a task does outside. -/
def callsOf (environ : List Str) (book : Runbook) (q t : Str) : List Call :=
  match book.targets.get? q, configOf book t with
  | some (.pg _), .pgExec sql => [.sql q sql]
  | some (.sh s), .shExec x => ((x.command (s.start environ)).map .command).toList
  | _, _ => []

/-- What has become of a target. -/
def Now (environ : List Str) (book : Runbook) (st : Runner.St) (q : Str) : Target → Target → Prop
  | .pg t, u => u = .pg t
  | .sh t, u => u = .sh (if st.tgt q = .notStarted then t else t.start environ)
  | .demo t, u => ∃ d, u = .demo d ∧
      d.string = (endedOn q st.trace).foldl (fun s id => op (configOf book id) s) t.string

/-- The invariant of the world. -/
structure WInv (proc : Proc) (book : Runbook) (st : Runner.St) (w : World) : Prop where
  targets : ∀ q, match book.targets.get? q with
    | none => w.targets.get? q = none
    | some t => ∃ u, w.targets.get? q = some u ∧ Now proc.environ book st q t u
  conns : ∀ q t, book.targets.get? q = some (.pg t) → st.tgt q ≠ .notStarted →
    0 ≤ t.connectRetries → w.conns.get? q = some true

theorem WInv.get {q : Str} {u : Target} (h : WInv proc book st w)
    (hu : w.targets.get? q = some u) : ∃ t, book.targets.get? q = some t ∧ Now proc.environ book st q t u := by
  have := h.targets q
  cases e : book.targets.get? q with
  | none => rw [e, hu] at this; cases this
  | some t =>
    rw [e, hu] at this
    obtain ⟨u', e', hn⟩ := this
    cases e'
    exact ⟨t, rfl, hn⟩

theorem WInv.some {q : Str} {t : Target} (h : WInv proc book st w)
    (ht : book.targets.get? q = some t) : ∃ u, w.targets.get? q = some u ∧ Now proc.environ book st q t u := by
  have := h.targets q
  rw [ht] at this
  exact this

theorem Now.of_eq {q : Str} {t u : Target} (h : Now environ book st q t u)
    (h1 : st'.tgt q = .notStarted ↔ st.tgt q = .notStarted)
    (h2 : endedOn q st'.trace = endedOn q st.trace) : Now environ book st' q t u := by
  cases t with
  | pg t => exact h
  | sh t => unfold Now at *; simp only [h1]; exact h
  | demo t => unfold Now at *; rw [h2]; exact h

/-- What `Handle` does on the target of the task, if it does not panic. -/
theorem handle_own (hp : Parsed basedir book) (hi : WInv proc book st w)
    {q t : Str} {task : Task} {u u' : Target} (ht : book.tasks.get? t = some task)
    (hq : task.target = q) (hu : w.targets.get? q = some u) (hr : st.tgt q ≠ .notStarted)
    {ext : Bool × Str} {conn : Option Bool} {ok : Bool} {out : Str} {calls : List Call}
    (hh : handle q u conn task.config w.stdout ext = some (ok, u', out, calls)) :
      callsOf proc.environ book q t = calls ∧
      (∃ t0, book.targets.get? q = some t0 ∧ Succeeds t0 task.config ext.1 ok ∧
        (∀ t, t0 = .pg t → u' = u ∧ conn = some true) ∧ (∀ t, t0 = .sh t → u' = u) ∧
        (∀ t, t0 = .demo t → ∃ d d', u = .demo d ∧ u' = .demo d' ∧
          d'.string = op task.config d.string ∧
          out = if task.config = .echo then w.stdout ++ d.string ++ [10] else w.stdout)) := by
  obtain ⟨t0, h1, h2⟩ := hi.get hu
  obtain ⟨t0', h3, h4⟩ := hp.task t task ht
  rw [hq, h1] at h3
  cases h3
  have hcfg : configOf book t = task.config := by simp [configOf, ht]
  cases t0 with
  | pg p =>
    obtain ⟨sql, hc⟩ := h4
    have hu' : u = .pg p := h2
    subst hu'
    rw [hc] at hh
    simp only [handle] at hh
    split at hh
    · cases hh
      exact ⟨by unfold callsOf; rw [h1, hcfg, hc], _, h1, .pg, fun _ _ => ⟨rfl, by assumption⟩,
        (fun _ e => nomatch e), (fun _ e => nomatch e)⟩
    · cases hh
  | sh s =>
    obtain ⟨arg0, rest, env, hc⟩ := h4
    have hu' : u = .sh (s.start proc.environ) := by
      have h2' : u = .sh (if st.tgt q = .notStarted then s else s.start proc.environ) := h2
      rw [if_neg hr] at h2'; exact h2'
    subst hu'
    rw [hc] at hh
    cases hh
    exact ⟨by unfold callsOf; rw [h1, hcfg, hc]; rfl, _, h1, .sh, (fun _ e => nomatch e),
      fun _ _ => rfl, (fun _ e => nomatch e)⟩
  | demo d0 =>
    obtain ⟨d, hu', hs⟩ := h2
    subst hu'
    obtain ⟨d', hm, e1, e2⟩ := munge_demo (d := { d with stdout := w.stdout }) (c := task.config) h4
    simp only [handle, hm] at hh
    cases hh
    refine ⟨?_, _, h1, ?_, (fun _ e => nomatch e), (fun _ e => nomatch e), ?_⟩
    · unfold callsOf; rw [h1]
    · by_cases e : task.config = .fail
      · rw [e]; exact .fail
      · rw [decide_eq_false e]; exact .demo e
    · intro t e
      exact ⟨d, d', rfl, rfl, e1, e2⟩

/-- Where `Handle` does not panic. -/
theorem handle_total (hp : Parsed basedir book) (hi : WInv proc book st w)
    {q t : Str} {task : Task} {u : Target} (ht : book.tasks.get? t = some task)
    (hq : task.target = q) (hu : w.targets.get? q = some u) (hr : st.tgt q ≠ .notStarted)
    (hc : ∀ p, book.targets.get? q = some (.pg p) → 0 ≤ p.connectRetries) (ext : Bool × Str) :
    handle q u (w.conns.get? q) task.config w.stdout ext ≠ none := by
  obtain ⟨t0, h1, h2⟩ := hi.get hu
  obtain ⟨t0', h3, h4⟩ := hp.task t task ht
  rw [hq, h1] at h3
  cases h3
  cases t0 with
  | pg p =>
    obtain ⟨sql, hcf⟩ := h4
    have hu' : u = .pg p := h2
    subst hu'
    rw [hcf, hi.conns q p h1 hr (hc p h1)]
    simp [handle]
  | sh s =>
    obtain ⟨arg0, rest, env, hcf⟩ := h4
    have h2' : u = .sh (if st.tgt q = .notStarted then s else s.start proc.environ) := h2
    rw [if_neg hr] at h2'
    subst h2'
    rw [hcf]
    exact fun e => nomatch e
  | demo d0 =>
    obtain ⟨d, hu', hs⟩ := h2
    subst hu'
    obtain ⟨d', hm, e1, e2⟩ := munge_demo (d := { d with stdout := w.stdout }) (c := task.config) h4
    simp [handle, hm]

/-- Where `Stop` does not panic. -/
theorem stop_total (hi : WInv proc book st w) {q : Str} {u : Target}
    (hu : w.targets.get? q = some u) (hr : st.tgt q ≠ .notStarted)
    (hc : ∀ p, book.targets.get? q = some (.pg p) → 0 ≤ p.connectRetries) :
    stop u (w.conns.get? q) ≠ none := by
  obtain ⟨t0, h1, h2⟩ := hi.get hu
  cases t0 with
  | pg p =>
    have hu' : u = .pg p := h2
    subst hu'
    rw [hi.conns q p h1 hr (hc p h1)]
    simp [stop]
  | sh s =>
    have h2' : u = .sh _ := h2
    rw [h2']; simp [stop]
  | demo d0 =>
    obtain ⟨d, hu', hs⟩ := h2
    rw [hu']; simp [stop]

/-- With a number of retries that is not negative, `New` gives a connection or an error. -/
theorem new_not_nil (libpq : Except Unit Pg.ConnConfig) (ok : Nat → Bool) (o : Pg.Options)
    (h : 0 ≤ o.connectRetries) : (Pg.new libpq ok o).2 ≠ .nilConn := by
  cases libpq with
  | error e => simp [Pg.new]
  | ok env =>
    cases hc : Pg.configure env o with
    | error e => simp [Pg.new, hc]
    | ok cfg =>
      obtain ⟨R, hR⟩ := Int.eq_ofNat_of_zero_le h
      rw [(Pg.C54_all_attempts ok hc R hR).2]
      split <;> simp

/-- What `Start` makes of a target. -/
theorem start_now {ok : Nat → Bool} {t u u' : Target} {conn : Option Bool} {net : List Pg.Event}
    {q : Str} (hn : st.tgt q = .notStarted) (hq : Now proc.environ book st q t u)
    (hs : start proc ok u = (net, some (u', conn))) :
    (∀ p, t = .pg p → u' = .pg p ∧ ∃ c, conn = some c ∧ (0 ≤ p.connectRetries → c = true)) ∧
    (∀ s, t = .sh s → u' = .sh (s.start proc.environ) ∧ conn = none) ∧
    (∀ d, t = .demo d → u' = u ∧ conn = none) := by
  cases t with
  | pg p =>
    have hu : u = .pg p := hq
    subst hu
    refine ⟨?_, (fun _ e => nomatch e), (fun _ e => nomatch e)⟩
    rintro p' ⟨⟩
    simp only [start, Prod.mk.injEq] at hs
    obtain ⟨_, hs⟩ := hs
    have hnil := new_not_nil proc.libpq ok (options p)
    split at hs
    · cases hs; exact ⟨rfl, _, rfl, fun _ => rfl⟩
    · cases hs
      exact ⟨rfl, _, rfl, fun h => absurd (by assumption) (hnil h)⟩
    · cases hs
  | sh s =>
    have hu : u = .sh (if st.tgt q = .notStarted then s else s.start proc.environ) := hq
    rw [if_pos hn] at hu
    subst hu
    refine ⟨(fun _ e => nomatch e), ?_, (fun _ e => nomatch e)⟩
    rintro s' ⟨⟩
    simp only [start, Prod.mk.injEq] at hs
    obtain ⟨_, hs⟩ := hs
    cases hs
    exact ⟨rfl, rfl⟩
  | demo d =>
    obtain ⟨d', hu, _⟩ := hq
    subst hu
    refine ⟨(fun _ e => nomatch e), (fun _ e => nomatch e), ?_⟩
    rintro d'' ⟨⟩
    simp only [start, Prod.mk.injEq] at hs
    obtain ⟨_, hs⟩ := hs
    cases hs
    exact ⟨rfl, rfl⟩

/-- What the effects of a task need: it is the target's own and the target was started. -/
theorem running_own (hp : Parsed basedir book) (h : Runner.Reach (limits book) (jobs book) st)
    {q t : Str} (hr : st.tgt q = .running t) :
    ∃ task, book.tasks.get? t = some task ∧ task.target = q := by
  have wf1 : (limits book).WF := by unfold GoMap.WF; rw [keys_limits]; exact hp.wfT
  have wf2 : (jobs book).WF := by unfold GoMap.WF; rw [keys_jobs]; exact hp.wfK
  have hstep := Runner.Reach.step h (Runner.Step.handleEnd st q t true hr)
  have hs := ((hstep.inv wf1 wf2).2).endTr q t true (by simp)
  obtain ⟨task, h1, h2⟩ := (Runner.C19_run_at_most_once_one_per_target wf1 wf2 hstep).2.1 q t hs
  rw [get_jobs] at h1
  cases e : book.tasks.get? t with
  | none => rw [e] at h1; cases h1
  | some x => rw [e] at h1; cases h1; exact ⟨x, rfl, h2⟩

/-- Nothing changes for targets that nothing happens to. -/
theorem WInv.keep (hi : WInv proc book st w) (h1 : w'.targets = w.targets) (h2 : w'.conns = w.conns)
    (h3 : ∀ q, st'.tgt q = .notStarted ↔ st.tgt q = .notStarted)
    (h4 : ∀ q, endedOn q st'.trace = endedOn q st.trace) : WInv proc book st' w' := by
  constructor
  · intro q
    rw [h1]
    have hq := hi.targets q
    cases ht : book.targets.get? q with
    | none => rw [ht] at hq; exact hq
    | some t =>
      rw [ht] at hq
      obtain ⟨u, e1, e2⟩ := hq
      exact ⟨u, e1, e2.of_eq (h3 q) (h4 q)⟩
  · intro q t ht hn hr
    rw [h2]
    exact hi.conns q t ht (fun e => hn ((h3 q).mpr e)) hr

theorem winv_act (hp : Parsed basedir book) (h : Runner.Reach (limits book) (jobs book) st)
    (hi : WInv proc book st w) (ha : Act proc book (st, w) (st', w')) :
    WInv proc book st' w' := by
  have wf1 : (limits book).WF := by unfold GoMap.WF; rw [keys_limits]; exact hp.wfT
  have wf2 : (jobs book).WF := by unfold GoMap.WF; rw [keys_jobs]; exact hp.wfK
  have hctl := (h.inv wf1 wf2).1
  cases ha with
  | started q rest tgt tgt' conn net ok hm hq hs =>
    have hn := hctl.next_notStarted q rest hm
    obtain ⟨t, ht, hnow⟩ := hi.get hq
    obtain ⟨s1, s2, s3⟩ := start_now hn hnow hs
    constructor
    · intro q'
      simp only [GoMap.get?_set]
      by_cases e : q = q'
      · subst e
        rw [ht, if_pos rfl]
        refine ⟨_, rfl, ?_⟩
        cases t with
        | pg t => rw [(s1 t rfl).1]; rfl
        | sh t => rw [(s2 t rfl).1]; simp [Now]
        | demo t =>
          rw [(s3 t rfl).1]
          obtain ⟨d, rfl, hd⟩ := hnow
          exact ⟨d, rfl, by rw [endedOn_append]; simpa using hd⟩
      · rw [if_neg e]
        have hq' := hi.targets q'
        cases ht : book.targets.get? q' with
        | none => rw [ht] at hq'; exact hq'
        | some t =>
          rw [ht] at hq'
          obtain ⟨u, h1, h2⟩ := hq'
          refine ⟨u, h1, h2.of_eq ?_ ?_⟩
          · simp [Function.update_of_ne (Ne.symm e)]
          · rw [endedOn_append]; simp
    · intro q' t' ht' hn' hr
      by_cases e : q = q'
      · subst e
        rw [ht] at ht'
        cases ht'
        obtain ⟨_, c, rfl, hc⟩ := s1 t' rfl
        simp [World.connect, GoMap.get?_set, hc hr]
      · have hn2 : st.tgt q' ≠ .notStarted := by
          simpa [Function.update_of_ne (Ne.symm e)] using hn'
        have := hi.conns q' t' ht' hn2 hr
        cases conn with
        | none => exact this
        | some c => simpa [World.connect, GoMap.get?_set, e] using this
  | startFailed q rest tgt net ok hm hq hs =>
    exact hi.keep rfl rfl (fun _ => Iff.rfl) (fun q' => by rw [endedOn_append]; simp)
  | stopped q tgt closes hr hq hs =>
    refine hi.keep rfl rfl (fun q' => ?_) (fun q' => by rw [endedOn_append]; simp)
    by_cases e : q' = q
    · subst e; simp [hr]
    · simp [Function.update_of_ne e]
  | handled q t task tgt tgt' ok out calls ext hr ht hq hh =>
    obtain ⟨task', ht', hown⟩ := running_own hp h hr
    rw [ht] at ht'
    cases ht'
    obtain ⟨h2, t0, h3, h4, h5, h6, h7⟩ := handle_own hp hi ht hown hq (by rw [hr]; simp) hh
    have hcfg : configOf book t = task.config := by simp [configOf, ht]
    constructor
    · intro q'
      simp only [GoMap.get?_set]
      by_cases e : q = q'
      · subst e
        rw [h3, if_pos rfl]
        refine ⟨_, rfl, ?_⟩
        obtain ⟨t1, h8, h9⟩ := hi.get hq
        rw [h3] at h8
        cases h8
        cases t0 with
        | pg t => rw [(h5 t rfl).1]; exact h9
        | sh s =>
          rw [h6 s rfl]
          have : tgt = .sh (if st.tgt q = .notStarted then s else s.start proc.environ) := h9
          rw [hr] at this
          rw [this]
          simp [Now]
        | demo d0 =>
          obtain ⟨d, d', e1, e2, e3, _⟩ := h7 d0 rfl
          obtain ⟨d2, e4, e5⟩ := h9
          rw [e1] at e4
          cases e4
          refine ⟨d', e2, ?_⟩
          rw [endedOn_append]
          simp only [if_pos, List.foldl_append, List.foldl_cons, List.foldl_nil]
          rw [← e5, hcfg, e3]
      · rw [if_neg e]
        have hq' := hi.targets q'
        cases ht : book.targets.get? q' with
        | none => rw [ht] at hq'; exact hq'
        | some t =>
          rw [ht] at hq'
          obtain ⟨u, h1, h2⟩ := hq'
          refine ⟨u, h1, h2.of_eq ?_ ?_⟩
          · simp [Function.update_of_ne (Ne.symm e)]
          · rw [endedOn_append]; simp [e]
    · intro q' t' ht' hn' hr'
      refine hi.conns q' t' ht' ?_ hr'
      by_cases e : q' = q
      · subst e; rw [hr]; simp
      · simpa [Function.update_of_ne e] using hn'
  | other hs h1 h2 h3 h4 =>
    refine hi.keep rfl rfl (fun q => ?_) (fun q => ?_)
    · have hn := hctl.next_notStarted
      cases hs with
      | targetStart q' rest hm => exact absurd rfl (h1 q')
      | _ => simp [Function.update_apply] <;> grind
    · rcases Runner.step_trace hs with e | ⟨ev, e⟩
      · rw [e]
      · rw [e, endedOn_append]
        cases ev with
        | handleEnd q' t' ok => exact absurd e (h3 q' t' ok)
        | _ => simp

theorem Reach.inv (hj : Json dec) (hw1 : src.targets.WF) (hw2 : src.tasks.WF)
    (h : Reach dec basedir proc src (.running book st w)) : WInv proc book st w := by
  generalize hp : Prog.running book st w = p at h
  induction h generalizing st w with
  | rejected h => cases hp
  | parsePanic h => cases hp
  | makePanic h => cases hp
  | start h hm order ho =>
    cases hp
    refine ⟨?_, fun q t _ hn => absurd rfl hn⟩
    intro q
    cases e : book.targets.get? q with
    | none => rfl
    | some t =>
      refine ⟨t, rfl, ?_⟩
      cases t with
      | pg t => rfl
      | sh t => simp [Now, Runner.init]
      | demo t => exact ⟨t, rfl, rfl⟩
  | act h ha ih =>
    cases hp
    exact winv_act (parsed hj hw1 hw2 h.parse) h.runner (ih rfl) ha
  | panic => cases hp

/-- The calls of one event. -/
def callsAt (environ : List Str) (book : Runbook) : Runner.Event → List (Str × Call × Bool)
  | .handleEnd q t ok => (callsOf environ book q t).map fun c => (t, c, ok)
  | _ => []

/-- The calls recorded are those of the tasks that ended, with the outcome reported. -/
theorem Reach.calls (hj : Json dec) (hw1 : src.targets.WF) (hw2 : src.tasks.WF)
    (h : Reach dec basedir proc src (.running book st w)) :
    w.calls = st.trace.flatMap (callsAt proc.environ book) := by
  generalize hp : Prog.running book st w = p at h
  induction h generalizing st w with
  | rejected h => cases hp
  | parsePanic h => cases hp
  | makePanic h => cases hp
  | start h hm order ho => cases hp; rfl
  | @act book st0 st1 w0 w1 h ha ih =>
    cases hp
    have hpar := parsed hj hw1 hw2 h.parse
    have hi := h.inv hj hw1 hw2
    have ih := ih rfl
    cases ha with
    | started q rest tgt tgt' conn net ok hm hq hs => simp [ih, callsAt]
    | startFailed q rest tgt net ok hm hq hs => simp [ih, callsAt]
    | stopped q tgt closes hr hq hs => simp [ih, callsAt]
    | handled q t task tgt tgt' ok out calls ext hr ht hq hh =>
      obtain ⟨task', ht', hown⟩ := running_own hpar h.runner hr
      rw [ht] at ht'
      cases ht'
      obtain ⟨h2, t0, h3, h4, h5, h6, h7⟩ :=
        handle_own hpar hi ht hown hq (by rw [hr]; simp) hh
      simp only [List.flatMap_append, List.flatMap_cons, List.flatMap_nil, List.append_nil, ih,
        callsAt, h2]
      congr 1
      cases t0 with
      | demo d =>
        have : calls = [] := by rw [← h2]; simp [callsOf, h3]
        rw [this]; rfl
      | pg p => cases h4; rfl
      | sh p => cases h4; rfl
    | other hs h1 h2 h3 h4 =>
      rcases Runner.step_trace hs with e | ⟨ev, e⟩
      · rw [e]; exact ih
      · rw [e]
        cases ev with
        | handleEnd q t ok => exact absurd e (h3 q t ok)
        | _ => simp [callsAt, ih]
  | panic => cases hp

/-- The outcome of every task is the one it deserves. -/
theorem Reach.outcome (hj : Json dec) (hw1 : src.targets.WF) (hw2 : src.tasks.WF)
    (h : Reach dec basedir proc src (.running book st w)) {q t : Str} {ok : Bool}
    (he : Runner.Event.handleEnd q t ok ∈ st.trace) : ∃ task t0 done,
      book.tasks.get? t = some task ∧ task.target = q ∧ book.targets.get? q = some t0 ∧
      Succeeds t0 task.config done ok := by
  generalize hp : Prog.running book st w = p at h
  induction h generalizing st w with
  | rejected h => cases hp
  | parsePanic h => cases hp
  | makePanic h => cases hp
  | start h hm order ho => cases hp; simp [Runner.init] at he
  | @act book st0 st1 w0 w1 h ha ih =>
    cases hp
    have hpar := parsed hj hw1 hw2 h.parse
    have hi := h.inv hj hw1 hw2
    cases ha with
    | started q' rest tgt tgt' conn net ok hm hq hs => exact ih (by simpa using he) rfl
    | startFailed q' rest tgt net ok hm hq hs => exact ih (by simpa using he) rfl
    | stopped q' tgt closes hr hq hs => exact ih (by simpa using he) rfl
    | handled q' t' task tgt tgt' ok' out calls ext hr ht hq hh =>
      rcases List.mem_append.mp he with he | he
      · exact ih he rfl
      · simp only [List.mem_singleton, Runner.Event.handleEnd.injEq] at he
        obtain ⟨rfl, rfl, rfl⟩ := he
        obtain ⟨task', ht', hown⟩ := running_own hpar h.runner hr
        rw [ht] at ht'
        cases ht'
        obtain ⟨h2, t0, h3, h4, _⟩ :=
          handle_own hpar hi ht hown hq (by rw [hr]; simp) hh
        exact ⟨task, t0, ext.1, ht, hown, h3, h4⟩
    | other hs h1 h2 h3 h4 =>
      rcases Runner.step_trace hs with e | ⟨ev, e⟩
      · exact ih (e ▸ he) rfl
      · rw [e] at he
        rcases List.mem_append.mp he with he | he
        · exact ih he rfl
        · simp only [List.mem_singleton] at he
          subst he
          exact absurd e (h3 q t ok)
  | panic => cases hp

/-- No goroutine panics if no target has a negative number of retries. -/
theorem Reach.noPanics (hj : Json dec) (hw1 : src.targets.WF) (hw2 : src.tasks.WF)
    (h : Reach dec basedir proc src (.running book st w))
    (hc : ∀ q p, book.targets.get? q = some (.pg p) → 0 ≤ p.connectRetries) :
    ¬ Panics book st w := by
  have hpar := parsed hj hw1 hw2 h.parse
  rintro (⟨q, t, task, tgt, ext, hr, ht, hq, hh⟩ | ⟨q, tgt, hr, hq, hs⟩)
  · obtain ⟨task', ht', hown⟩ := running_own hpar h.runner hr
    rw [ht] at ht'
    cases ht'
    exact handle_total hpar (h.inv hj hw1 hw2) ht hown hq (by rw [hr]; simp) (hc q) ext hh
  · exact stop_total (h.inv hj hw1 hw2) hq (by rw [hr]; simp) (hc q) hs

/-- If nothing can happen, no goroutine of the runner can move. -/
theorem Reach.terminal (hj : Json dec) (hw1 : src.targets.WF) (hw2 : src.tasks.WF)
    (h : Reach dec basedir proc src (.running book st w)) (hnp : ¬ Panics book st w)
    (hn : ∀ s', ¬ Act proc book (st, w) s') : Runner.Terminal (limits book) (jobs book) st := by
  have hpar := parsed hj hw1 hw2 h.parse
  have wf1 : (limits book).WF := by unfold GoMap.WF; rw [keys_limits]; exact hpar.wfT
  have wf2 : (jobs book).WF := by unfold GoMap.WF; rw [keys_jobs]; exact hpar.wfK
  have hi := h.inv hj hw1 hw2
  have hctl := (h.runner.inv wf1 wf2).1
  have hget : ∀ q, q ∈ (limits book).keys → ∃ u, w.targets.get? q = some u := by
    intro q hq
    rw [keys_limits] at hq
    obtain ⟨t, ht⟩ := GoMap.exists_get?_of_mem_keys hq
    obtain ⟨u, hu, _⟩ := hi.some ht
    exact ⟨u, hu⟩
  have hstart : ¬ ∃ q rest, st.main = .starting (q :: rest) := by
    rintro ⟨q, rest, hm⟩
    obtain ⟨u, hu⟩ := hget q ((hctl.starting _ hm).2.1 q (by simp))
    rcases e : Verif.Run.start proc (fun _ => true) u with ⟨net, _ | ⟨u', conn⟩⟩
    · exact hn _ (Act.startFailed q rest u net _ hm hu e)
    · exact hn _ (Act.started q rest u u' conn net _ hm hu e)
  have hrun : ¬ ∃ q t, st.tgt q = .running t := by
    rintro ⟨q, t, hr⟩
    obtain ⟨task, ht, hown⟩ := running_own hpar h.runner hr
    obtain ⟨u, hu⟩ := hget q (hctl.isTarget q (by rw [hr]; simp))
    rcases e : handle q u (w.conns.get? q) task.config w.stdout (true, []) with _ | ⟨ok, u', out, calls⟩
    · exact hnp (.handle q t task u _ hr ht hu e)
    · exact hn _ (Act.handled q t task u u' ok out calls (true, []) hr ht hu e)
  have hstop : ¬ ∃ q, st.tgt q = .stopping := by
    rintro ⟨q, hr⟩
    obtain ⟨u, hu⟩ := hget q (hctl.isTarget q (by rw [hr]; simp))
    rcases e : stop u (w.conns.get? q) with _ | closes
    · exact hnp (.stop q u hr hu e)
    · exact hn _ (Act.stopped q u closes hr hu e)
  intro st' hs
  refine hn _ (Act.other hs ?_ ?_ ?_ ?_)
  · intro q e
    cases hs with
    | targetStart q' rest hm => exact hstart ⟨_, _, hm⟩
    | _ => simp_all
  · intro q e
    cases hs with
    | targetStartFail q' rest hm => exact absurd ⟨_, _, hm⟩ hstart
    | _ => simp_all
  · intro q t ok e
    exact hrun ⟨q, t, Runner.step_handleEnd hs e⟩
  · intro q e
    cases hs with
    | targetStop q' hm => exact hstop ⟨_, hm⟩
    | _ => simp_all

end Verif.Run
