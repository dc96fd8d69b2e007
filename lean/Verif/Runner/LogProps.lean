import Verif.Runner.Log

namespace Verif.Runner
open Verif Dag Sched

variable {targets : GoMap Str Int} {tasks : GoMap Str Task}

/-- The tasks that the log says ended with an error, in order. -/
def errors (log : List Line) : List Str :=
  log.filterMap fun
    | .ended t true => some t
    | _ => none

/-- The error main has met. -/
def MainPC.err : MainPC → Option Str
  | .loop2 e => e
  | .returned (some (.task t)) => some t
  | _ => none

theorem errors_append (log : List Line) (x : Line) :
    errors (log ++ [x]) = errors log ++ errors [x] := by simp [errors]

theorem step_err {st st' : St} (hs : Step targets tasks st st') (h : ∀ x, st.ended ≠ x :: st'.ended) :
    st'.main.err = st.main.err := by
  cases hs with
  | mainOk t rest hm he => exact absurd he (h _)
  | mainErr t rest hm he => exact absurd he (h _)
  | mainDrain e t ok rest hm he => exact absurd he (h _)
  | mainReturn e hm => cases e <;> simp [hm, MainPC.err]
  | _ => simp_all [MainPC.err]

theorem LReach.firstError (wf : targets.WF) (wft : tasks.WF) {s : Logged} (h : LReach targets tasks s) :
    (errors s.log).head? = s.st.main.err := by
  induction h with
  | init order h => rfl
  | @step s s' h hs ih =>
    have hc := (h.reach.inv wf wft).1
    cases hs with
    | sayReady => simpa [errors_append, errors] using ih
    | sayRouted => simpa [errors_append, errors] using ih
    | sayStarting => simpa [errors_append, errors] using ih
    | send hs h1 h2 => 
      simp only
      rw [step_err hs (fun x => by rw [(step_send hs h1 h2).2.1]; exact cons_ne)]; exact ih
    | route hs h1 h2 =>
      simp only
      rw [step_err hs (fun x => by rw [(step_route hs hc h1 h2).2.1]; exact cons_ne)]; exact ih
    | sayStarted hs h1 h2 =>
      simp only
      rw [step_err hs (fun x => by rw [(step_started hs h1 h2).2.2]; exact cons_ne)]
      simpa [errors_append, errors] using ih
    | startFailed hs h1 h2 =>
      simp only
      rw [step_err hs (fun x => by rw [(step_startFailed hs h1 h2).2]; exact cons_ne)]; exact ih
    | quiet hs h1 h2 h3 h4 =>
      simp only
      rw [step_err hs h3]; exact ih
    | @sayEnded st' t ok hs h1 =>
      have ex := step_ended hs h1
      cases hs with
      | mainOk t' rest hm he =>
        rw [he] at h1
        cases h1
        simpa [errors_append, errors, hm, MainPC.err] using ih
      | mainErr t' rest hm he =>
        rw [he] at h1
        cases h1
        have : errors s.log = [] := by simpa [hm, MainPC.err] using ih
        simp [errors_append, this, MainPC.err]
        simp [errors]
      | mainDrain e t' ok' rest hm he =>
        cases e with
        | none => rw [(hc.loop2 hm).2] at he; cases he
        | some x =>
          rw [hm] at ih
          simp only [MainPC.err, errors_append] at ih ⊢
          rw [List.head?_append, ih, hm]
          rfl
      | report =>
        have := congrArg List.length h1
        simp at this
        omega
      | _ => exact absurd h1 cons_ne

/-! ## The lines about the start of a target -/

theorem aboutTarget_append (q : Str) (log : List Line) (x : Line) :
    aboutTarget q (log ++ [x]) = aboutTarget q log ++ if x.target = some q then [x] else [] := by
  simp only [aboutTarget, List.filter_append]
  by_cases h : x.target = some q <;> simp [h]

structure SInv (s : Logged) : Prop where
  mAnn : s.mAnn = true → ∃ q rest, s.st.main = .starting (q :: rest)
  next : ∀ q rest, s.st.main = .starting (q :: rest) → aboutTarget q s.log = if s.mAnn then [.starting q] else []
  rest : ∀ q rest, s.st.main = .starting (q :: rest) → ∀ q' ∈ rest, aboutTarget q' s.log = []
  started : ∀ q, .started q ∈ s.st.trace → aboutTarget q s.log = [.starting q, .started q]
  failed : ∀ q, .startFailed q ∈ s.st.trace → aboutTarget q s.log = [.starting q]
  other : ∀ q, .started q ∉ s.st.trace → .startFailed q ∉ s.st.trace →
    (∀ rest, s.st.main ≠ .starting (q :: rest)) → aboutTarget q s.log = []

/-- What a step does to the start of targets. -/
theorem step_main {st st' : St} (hs : Step targets tasks st st') :
    (∃ q rest, st.main = .starting (q :: rest) ∧ st'.main = .starting rest ∧ st'.trace = st.trace ++ [.started q]) ∨
    (∃ q rest, st.main = .starting (q :: rest) ∧ st'.main = .failing q ∧ st'.trace = st.trace ++ [.startFailed q]) ∨
    ((∀ q rest, st.main = .starting (q :: rest) ↔ st'.main = .starting (q :: rest)) ∧
      (∀ q, .started q ∈ st'.trace ↔ .started q ∈ st.trace) ∧
      ∀ q, .startFailed q ∈ st'.trace ↔ .startFailed q ∈ st.trace) := by
  cases hs with
  | targetStart q rest h => exact .inl ⟨q, rest, h, rfl, rfl⟩
  | targetStartFail q rest h => exact .inr (.inl ⟨q, rest, h, rfl, rfl⟩)
  | _ => exact .inr (.inr ⟨by simp_all, by simp, by simp⟩)

theorem SInv.add {s : Logged} (hi : SInv s) {x : Line} (hx : x.target = none) (sAnn rAnn : Bool) :
    SInv { s with sAnn := sAnn, rAnn := rAnn, log := s.log ++ [x] } := by
  have e : ∀ q, aboutTarget q (s.log ++ [x]) = aboutTarget q s.log := by
    intro q; simp [aboutTarget_append, hx]
  constructor
  · exact hi.mAnn
  · simpa only [e] using hi.next
  · simpa only [e] using hi.rest
  · simpa only [e] using hi.started
  · simpa only [e] using hi.failed
  · simpa only [e] using hi.other

theorem SInv.silent {s : Logged} {st' : St} (hi : SInv s) (hs : Step targets tasks s.st st')
    (h : ∀ q rest, s.st.main = .starting (q :: rest) → st'.main = s.st.main) (sAnn rAnn : Bool) :
    SInv { s with st := st', sAnn := sAnn, rAnn := rAnn } := by
  obtain ⟨h1, h2, h3⟩ : (∀ q rest, s.st.main = .starting (q :: rest) ↔ st'.main = .starting (q :: rest)) ∧
      (∀ q, .started q ∈ st'.trace ↔ .started q ∈ s.st.trace) ∧
      ∀ q, .startFailed q ∈ st'.trace ↔ .startFailed q ∈ s.st.trace := by
    rcases step_main hs with ⟨q, rest, e1, e2, _⟩ | ⟨q, rest, e1, e2, _⟩ | h'
    · have := h q rest e1
      rw [e1, e2] at this
      simp only [MainPC.starting.injEq] at this
      exact absurd this cons_ne
    · have := h q rest e1
      rw [e1, e2] at this
      cases this
    · exact h'
  constructor
  · simpa only [h1] using hi.mAnn
  · simpa only [h1] using hi.next
  · simpa only [h1] using hi.rest
  · simpa only [h2] using hi.started
  · simpa only [h3] using hi.failed
  · simpa only [h1, h2, h3, ne_eq] using hi.other

theorem SInv.step {s s' : Logged} (wf : targets.WF) (wft : tasks.WF) (h : Reach targets tasks s.st) (hi : SInv s)
    (hs : LStep targets tasks s s') : SInv s' := by
  have hc := (h.inv wf wft).1
  have ht := h.tinv wf wft
  cases hs with
  | sayReady => exact hi.add rfl _ _
  | sayRouted => exact hi.add rfl _ _
  | send hs h1 h2 => exact hi.silent hs (fun _ _ _ => (step_send hs h1 h2).2.2.2) _ _
  | route hs h1 h2 => exact hi.silent hs (fun _ _ _ => (step_route hs hc h1 h2).2.2.2.2) _ _
  | quiet hs h1 h2 h3 h4 => exact hi.silent hs h4 _ _
  | @sayEnded st' t ok hs h1 =>
    refine SInv.add (s := { s with st := st' }) (hi.silent hs ?_ _ _) rfl _ _
    intro q rest hm
    cases hs with
    | mainOk _ _ h => rw [h] at hm; cases hm
    | mainErr _ _ h => rw [h] at hm; cases hm
    | mainDrain => rfl
    | report => rfl
    | _ => exact absurd h1 cons_ne
  | @sayStarting q rest hm ha =>
    have hl := (hc.starting _ hm).1
    have hne : ∀ q', q' ≠ q → aboutTarget q' (s.log ++ [.starting q]) = aboutTarget q' s.log := by
      intro q' e
      simp only [aboutTarget_append, Line.target, Option.some.injEq, if_neg (Ne.symm e), List.append_nil]
    have hq : aboutTarget q (s.log ++ [.starting q]) = [.starting q] := by
      simp [aboutTarget_append, Line.target, hi.next q rest hm, ha]
    have hns : .started q ∉ s.st.trace := by
      intro h'
      have := hi.started q h'
      rw [hi.next q rest hm] at this
      split at this <;> simp at this
    have hnf : .startFailed q ∉ s.st.trace := by
      intro h'
      rcases (hc.startErr q).1 h' with h | h <;> rw [h] at hm <;> cases hm
    constructor
    · exact fun _ => ⟨q, rest, hm⟩
    · intro q' rest' h'
      rw [hm] at h'
      cases h'
      simp [hq]
    · intro q' rest' h' x hx
      rw [hm] at h'
      cases h'
      simp only
      rw [hne x (by rintro rfl; exact (List.nodup_cons.1 hl).1 hx)]
      exact hi.rest _ _ hm x hx
    · intro q' h'
      simp only
      rw [hne q' (by rintro rfl; exact hns h')]
      exact hi.started q' h'
    · intro q' h'
      simp only
      rw [hne q' (by rintro rfl; exact hnf h')]
      exact hi.failed q' h'
    · intro q' h1 h2 h3
      simp only
      rw [hne q' (by rintro rfl; exact h3 rest hm)]
      exact hi.other q' h1 h2 h3
  | @sayStarted st' q rest hs hm hm' ha =>
    have hl := (hc.starting _ hm).1
    have hne : ∀ q', q' ≠ q → aboutTarget q' (s.log ++ [.started q]) = aboutTarget q' s.log := by
      intro q' e
      simp only [aboutTarget_append, Line.target, Option.some.injEq, if_neg (Ne.symm e), List.append_nil]
    have hq : aboutTarget q (s.log ++ [.started q]) = [.starting q, .started q] := by
      simp [aboutTarget_append, Line.target, hi.next q rest hm, ha]
    have htr : st'.trace = s.st.trace ++ [.started q] := by
      rcases step_main hs with ⟨q', rest', e1, e2, e3⟩ | ⟨q', rest', e1, e2, e3⟩ | ⟨h1, _, _⟩
      · rw [hm] at e1
        cases e1
        exact e3
      · rw [hm'] at e2; cases e2
      · have := (h1 q rest).1 hm
        rw [hm'] at this
        simp only [MainPC.starting.injEq] at this
        exact absurd this cons_ne
    constructor
    · simp
    · intro q' rest' h'
      simp only at h'
      rw [hm'] at h'
      cases h'
      simp only
      rw [hne q' (by rintro rfl; simp at hl)]
      exact hi.rest _ _ hm q' (by simp)
    · intro q' rest' h' x hx
      simp only at h'
      rw [hm'] at h'
      cases h'
      simp only
      rw [hne x (by rintro rfl; simp [hx] at hl)]
      exact hi.rest _ _ hm x (by simp [hx])
    · intro q' h'
      simp only [htr, List.mem_append, List.mem_singleton, Event.started.injEq] at h'
      by_cases e : q' = q
      · subst e; exact hq
      · simp only
        rw [hne q' e]
        exact hi.started q' (h'.resolve_right e)
    · intro q' h'
      simp only [htr, List.mem_append, List.mem_singleton] at h'
      rcases (hc.startErr q').1 (h'.resolve_right (by simp)) with h | h <;> rw [h] at hm <;> cases hm
    · intro q' h1 h2 h3
      simp only [htr, List.mem_append, List.mem_singleton, Event.started.injEq, not_or] at h1 h2
      simp only
      rw [hne q' h1.2]
      refine hi.other q' h1.1 h2.1 ?_
      intro rest' h'
      rw [hm] at h'
      cases h'
      exact h1.2 rfl
  | @startFailed st' q rest hs hm hm' ha =>
    have htr : st'.trace = s.st.trace ++ [.startFailed q] := by
      rcases step_main hs with ⟨q', rest', e1, e2, e3⟩ | ⟨q', rest', e1, e2, e3⟩ | ⟨h1, _, _⟩
      · rw [hm'] at e2; cases e2
      · rw [hm] at e1
        cases e1
        exact e3
      · have := (h1 q rest).1 hm
        rw [hm'] at this
        cases this
    constructor
    · simp
    · intro q' rest' h'; simp only at h'; rw [hm'] at h'; cases h'
    · intro q' rest' h'; simp only at h'; rw [hm'] at h'; cases h'
    · intro q' h'
      simp only [htr, List.mem_append, List.mem_singleton] at h'
      exact hi.started q' (h'.resolve_right (by simp))
    · intro q' h'
      simp only [htr, List.mem_append, List.mem_singleton, Event.startFailed.injEq] at h'
      rcases h' with h' | rfl
      · exact hi.failed q' h'
      · simpa [ha] using hi.next q' rest hm
    · intro q' h1 h2 h3
      simp only [htr, List.mem_append, List.mem_singleton, Event.startFailed.injEq, not_or] at h1 h2
      refine hi.other q' h1.1 h2.1 ?_
      intro rest' h'
      rw [hm] at h'
      cases h'
      exact h2.2 rfl

theorem LReach.sinv (wf : targets.WF) (wft : tasks.WF) {s : Logged} (h : LReach targets tasks s) : SInv s := by
  induction h with
  | init order h => constructor <;> simp [Runner.init, aboutTarget]
  | step h hs ih => exact ih.step wf wft h.reach hs

/-! ## What the log tells -/

/-- **C121.** The lines of the debug log about a task are, in this order and each at most once: that the scheduler finds
it ready, that it is passed on to its target, and how it ended.  No task is carried out without the first two, and what
the third says is what happened.  When `Run` has returned, unless a target could not be started, every task that was
started has its third line; the error returned is that of the first task the log says ended with one, and nil is
returned if and only if the log says so of none. -/
theorem C121_tasks (wf : targets.WF) (wft : tasks.WF) {s : Logged} (h : LReach targets tasks s) :
    (∀ t, about t s.log = [] ∨ ∃ task err, tasks.get? t = some task ∧
      about t s.log <+: [.ready t task.target, .routed t task.target, .ended t err]) ∧
    (∀ q t, .handleStart q t ∈ s.st.trace → [.ready t q, .routed t q] <+: about t s.log) ∧
    (∀ t err, .ended t err ∈ s.log → ∃ q, .handleEnd q t (!err) ∈ s.st.trace) ∧
    ∀ r, s.st.main = .returned r → (∀ q, r ≠ some (.start q)) →
      (∀ q t, .handleStart q t ∈ s.st.trace → ∃ err, .handleEnd q t (!err) ∈ s.st.trace ∧
        about t s.log = [.ready t q, .routed t q, .ended t err]) ∧
      (errors s.log).head?.map .task = r := by
  have hr := h.reach
  obtain ⟨hc, hf⟩ := hr.inv wf wft
  have hi := h.inv wf wft
  have own : ∀ {q t}, (q, t) ∈ s.st.out → ∃ task, tasks.get? t = some task ∧ task.target = q := by
    intro q t hin
    rcases hf.protocol with h0 | ⟨sc, hp⟩
    · rw [h0] at hin; cases hin
    · exact (C13_handed_out_once_on_own_target wft hp.history).2 q t hin
  have start : ∀ {q t}, .handleStart q t ∈ s.st.trace → ∃ err, about t s.log = [.ready t q, .routed t q] ∨
      about t s.log = [.ready t q, .routed t q, .ended t err] := by
    intro q t hin
    have h1 : 1 ≤ starts s.st.trace t := by
      unfold starts
      rw [Nat.one_le_iff_ne_zero, ← Nat.pos_iff_ne_zero, List.countP_pos_iff]
      exact ⟨_, hin, by simp [Event.isStart]⟩
    have h2 := hi.nRouted t
    obtain ⟨q', err, hp⟩ := hi.lines t
    have hq : q' = q := by
      have hin' : Line.ready t q' ∈ about t s.log := by
        rcases prefix3 hp with e | e | e | e <;> rw [e] at h2 ⊢ <;> simp [Line.isRouted] at h2 ⊢
        omega
      exact out_inj wft hf (hi.readyOut t q' (List.mem_filter.1 hin').1) (hf.runOut q t hin)
    subst hq
    refine ⟨err, ?_⟩
    rcases prefix3 hp with e | e | e | e
    · rw [e] at h2; simp at h2; omega
    · rw [e] at h2; simp [Line.isRouted] at h2; omega
    · exact .inl e
    · exact .inr e
  refine ⟨?_, ?_, hi.ends, ?_⟩
  · intro t
    obtain ⟨q, err, hp⟩ := hi.lines t
    by_cases h0 : about t s.log = []
    · exact .inl h0
    · right
      have hin : Line.ready t q ∈ about t s.log := by
        rcases prefix3 hp with e | e | e | e
        · exact absurd e h0
        all_goals rw [e]; simp
      obtain ⟨task, h1, rfl⟩ := own (hi.readyOut t q (List.mem_filter.1 hin).1)
      exact ⟨task, err, h1, hp⟩
  · intro q t hin
    obtain ⟨err, e | e⟩ := start hin <;> rw [e] <;> simp
  · intro r hret hns
    constructor
    · intro q t hin
      have hlast : 1 ≤ (about t s.log).countP Line.isEnded := by
        obtain ⟨q', e⟩ | ⟨hrt, hen⟩ := hc.ret r hret
        · exact absurd e (hns q')
        have hst := hc.allStopped hrt
        have h1 : nRuns targets s.st t = 0 := by
          unfold nRuns
          rw [List.countP_eq_zero]
          intro q' _
          rcases hst q' with e | e <;> simp [e, TgtPC.runs]
        have h2 : nReports targets s.st t = 0 := by
          unfold nReports
          rw [List.countP_eq_zero]
          intro q' _
          rcases hst q' with e | e <;> simp [e, TgtPC.reports]
        have h3 : 1 ≤ starts s.st.trace t := by
          unfold starts
          rw [Nat.one_le_iff_ne_zero, ← Nat.pos_iff_ne_zero, List.countP_pos_iff]
          exact ⟨_, hin, by simp [Event.isStart]⟩
        have h4 : s.st.after.count t = s.st.seen.count t := by simp [St.after, St.seen, hen]
        have := hf.nstarts t
        have := hi.nEnded t
        omega
      obtain ⟨err, e | e⟩ := start hin
      · rw [e] at hlast; simp [Line.isEnded] at hlast
      · refine ⟨err, ?_, e⟩
        have hin' : Line.ended t err ∈ about t s.log := by rw [e]; simp
        obtain ⟨q', hq'⟩ := hi.ends t err (List.mem_filter.1 hin').1
        have := out_inj wft hf (hf.runOut q t hin) (hf.runOut q' t (hf.endTr q' t _ hq'))
        exact this ▸ hq'
    · rw [h.firstError wf wft, hret]
      cases r with
      | none => rfl
      | some e =>
        cases e with
        | start q => exact absurd rfl (hns q)
        | task t => rfl

/-- **C121.** If the dependencies are in order and `Run` returned nil, the log has all three lines about every task, and
the third says that it succeeded. -/
theorem C121_success (wf : targets.WF) (wft : tasks.WF) (hv : ValidDeps tasks) {s : Logged}
    (h : LReach targets tasks s) (hret : s.st.main = .returned none) :
    ∀ t task, tasks.get? t = some task →
      about t s.log = [.ready t task.target, .routed t task.target, .ended t false] := by
  intro t task ht
  obtain ⟨_, q, hq⟩ := C20_nil_means_all_succeeded_partial wf wft hv h.reach hret t
    (GoMap.mem_keys_of_mem (GoMap.mem_of_get? ht))
  have hs := (h.reach.inv wf wft).2.endTr q t true hq
  obtain ⟨err, he, hl⟩ := ((C121_tasks wf wft h).2.2.2 none hret (by simp)).1 q t hs
  obtain ⟨task', ht', rfl⟩ := (C19_run_at_most_once_one_per_target wf wft h.reach).2.1 q t hs
  rw [ht] at ht'
  cases ht'
  cases err with
  | false => exact hl
  | true => exact (not_both wf wft h.reach he hq).elim

/-- **C121.** The lines about the start of a target are, in this order and each at most once: that it is being started,
and that it was started.  The second is there if and only if it was, and a target that could not be started has the
first alone. -/
theorem C121_targets (wf : targets.WF) (wft : tasks.WF) {s : Logged} (h : LReach targets tasks s) (q : Str) :
    aboutTarget q s.log <+: [.starting q, .started q] ∧
    (.started q ∈ s.log ↔ .started q ∈ s.st.trace) ∧
    (.startFailed q ∈ s.st.trace → aboutTarget q s.log = [.starting q]) ∧
    (s.st.main = .returned (some (.start q)) → aboutTarget q s.log = [.starting q]) := by
  have hi := h.sinv wf wft
  have hc := (h.reach.inv wf wft).1
  have mem : .started q ∈ s.log ↔ .started q ∈ aboutTarget q s.log := by simp [aboutTarget, Line.target]
  have hfail := hi.failed q
  by_cases h1 : .started q ∈ s.st.trace
  · have e := hi.started q h1
    refine ⟨by rw [e], by rw [mem, e]; simp [h1], hfail, fun hm => hfail ((hc.startErr q).2 (.inr hm))⟩
  · have key : aboutTarget q s.log = [] ∨ aboutTarget q s.log = [.starting q] := by
      by_cases h2 : .startFailed q ∈ s.st.trace
      · exact .inr (hfail h2)
      · by_cases h3 : ∃ rest, s.st.main = .starting (q :: rest)
        · obtain ⟨rest, h3⟩ := h3
          rw [hi.next q rest h3]
          cases s.mAnn <;> simp
        · exact .inl (hi.other q h1 h2 fun rest h => h3 ⟨rest, h⟩)
    refine ⟨?_, ?_, hfail, fun hm => hfail ((hc.startErr q).2 (.inr hm))⟩
    · rcases key with e | e <;> rw [e] <;> simp
    · rw [mem]
      simp only [h1, iff_false]
      rcases key with e | e <;> rw [e] <;> simp

/-! ## The log holds nothing up -/

/-- Every state of a run is met with a log, too. -/
theorem exists_log (wf : targets.WF) (wft : tasks.WF) {st : St} (h : Reach targets tasks st) :
    ∃ log, LReach targets tasks { st := st, log := log } := by
  induction h with
  | init order h => exact ⟨[], .init order h⟩
  | @step st st' h hs ih =>
    obtain ⟨log, hl⟩ := ih
    have hc := (h.inv wf wft).1
    have h0 := hc.router0
    obtain ⟨st1, hst⟩ : ∃ st1, st' = st1 := ⟨_, rfl⟩
    have hs' : Step targets tasks st st1 := hst ▸ hs
    cases hs' with
    | schedSend sc p todo h1 =>
      exact ⟨_, .step (.step hl (.sayReady (sc := sc) (q := p.1) (t := p.2) (todo := todo) h1 rfl))
        (.send (sc := sc) (p := p) (todo := todo) hs h1 (by rw [hst]) rfl)⟩
    | routerSend q t h1 =>
      exact ⟨_, .step (.step hl (.sayRouted (q := q) (t := t) h1 rfl)) (.route hs h1 (by rw [hst]) rfl)⟩
    | targetStart q rest h1 =>
      exact ⟨_, .step (.step hl (.sayStarting (q := q) (rest := rest) h1 rfl)) (.sayStarted hs h1 (by rw [hst]) rfl)⟩
    | targetStartFail q rest h1 =>
      exact ⟨_, .step (.step hl (.sayStarting (q := q) (rest := rest) h1 rfl)) (.startFailed hs h1 (by rw [hst]) rfl)⟩
    | mainOk t rest h1 he => exact ⟨_, .step hl (.sayEnded (t := t) (ok := true) hs (by rw [hst]; exact he))⟩
    | mainErr t rest h1 he => exact ⟨_, .step hl (.sayEnded (t := t) (ok := false) hs (by rw [hst]; exact he))⟩
    | mainDrain e t ok rest h1 he => exact ⟨_, .step hl (.sayEnded (t := t) (ok := ok) hs (by rw [hst]; exact he))⟩
    | report q t ok h1 =>
      refine ⟨log, .step hl (.quiet hs (by rw [hst]; simp) (by rw [hst]; simp) ?_ (by rw [hst]; simp))⟩
      intro x h
      rw [hst] at h
      have := congrArg List.length h
      simp at this
      omega
    | _ =>
      refine ⟨log, .step hl (.quiet hs ?_ ?_ ?_ ?_)⟩
      · rw [hst]; simp_all
      · rw [hst]; simp_all
      · rw [hst]; exact fun x => cons_ne
      · rw [hst]; simp_all

/-- Where a run can go on, so it can with the log. -/
theorem LReach.live (wf : targets.WF) (wft : tasks.WF) {s : Logged} (h : LReach targets tasks s) {st' : St}
    (hs : Step targets tasks s.st st') : ∃ s', LStep targets tasks s s' := by
  have hc := (h.reach.inv wf wft).1
  have h0 := hc.router0
  obtain ⟨st1, hst⟩ : ∃ st1, st' = st1 := ⟨_, rfl⟩
  have hs' : Step targets tasks s.st st1 := hst ▸ hs
  cases hs' with
  | schedSend sc p todo h1 =>
    cases ha : s.sAnn with
    | false => exact ⟨_, .sayReady (sc := sc) (q := p.1) (t := p.2) (todo := todo) h1 ha⟩
    | true => exact ⟨_, .send (sc := sc) (p := p) (todo := todo) hs h1 (by rw [hst]) ha⟩
  | routerSend q t h1 =>
    cases ha : s.rAnn with
    | false => exact ⟨_, .sayRouted h1 ha⟩
    | true => exact ⟨_, .route hs h1 (by rw [hst]) ha⟩
  | targetStart q rest h1 =>
    cases ha : s.mAnn with
    | false => exact ⟨_, .sayStarting h1 ha⟩
    | true => exact ⟨_, .sayStarted hs h1 (by rw [hst]) ha⟩
  | targetStartFail q rest h1 =>
    cases ha : s.mAnn with
    | false => exact ⟨_, .sayStarting h1 ha⟩
    | true => exact ⟨_, .startFailed hs h1 (by rw [hst]) ha⟩
  | mainOk t rest h1 he => exact ⟨_, .sayEnded (t := t) (ok := true) hs (by rw [hst]; exact he)⟩
  | mainErr t rest h1 he => exact ⟨_, .sayEnded (t := t) (ok := false) hs (by rw [hst]; exact he)⟩
  | mainDrain e t ok rest h1 he => exact ⟨_, .sayEnded (t := t) (ok := ok) hs (by rw [hst]; exact he)⟩
  | report q t ok h1 =>
    refine ⟨_, .quiet hs (by rw [hst]; simp) (by rw [hst]; simp) ?_ (by rw [hst]; simp)⟩
    intro x h
    rw [hst] at h
    have := congrArg List.length h
    simp at this
    omega
  | _ =>
    refine ⟨_, .quiet hs ?_ ?_ ?_ ?_⟩
    · rw [hst]; simp_all
    · rw [hst]; simp_all
    · rw [hst]; exact fun x => cons_ne
    · rw [hst]; simp_all

end Verif.Runner
