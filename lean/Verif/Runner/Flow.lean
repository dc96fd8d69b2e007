import Verif.Runner.Control
import Verif.Sched.Props

/-! Where each handed-out task is: counting invariants of the runner. -/

namespace Verif.Runner
open Verif Dag Sched

variable {targets : GoMap Str Int} {tasks : GoMap Str Task}

/-- `Handle` is called for task `t`. -/
def Event.isStart (t : Str) : Event → Bool
  | .handleStart _ t' => t' = t
  | _ => false

/-- `Handle` returns for task `t`. -/
def Event.isEnd (t : Str) : Event → Bool
  | .handleEnd _ t' _ => t' = t
  | _ => false

/-- Number of `Handle` calls for task `t` in a trace. -/
def starts (tr : List Event) (t : Str) : Nat := tr.countP (Event.isStart t)

/-- Number of returns of `Handle` for task `t` in a trace. -/
def ends (tr : List Event) (t : Str) : Nat := tr.countP (Event.isEnd t)

def TgtPC.runs (t : Str) : TgtPC → Bool
  | .running t' => t' = t
  | _ => false

def TgtPC.reports (t : Str) : TgtPC → Bool
  | .reporting t' _ => t' = t
  | _ => false

def SchedPC.todo : SchedPC → List (Str × Str)
  | .sending _ l => l
  | _ => []

def RouterPC.held : RouterPC → List (Str × Str)
  | .hold q t => [(q, t)]
  | _ => []

def MainPC.held : MainPC → List Str
  | .sendDone t => [t]
  | _ => []

/-- Handed out, `Handle` not yet called. -/
def St.before (st : St) : List (Str × Str) := st.sched.todo ++ st.ready ++ st.router.held

/-- `Handle` returned and the target has reported it. -/
def St.after (st : St) : List Str :=
  st.ended.map Prod.fst ++ st.main.held ++ st.done ++ st.completed ++ st.dropped

def nRuns (targets : GoMap Str Int) (st : St) (t : Str) : Nat :=
  targets.keys.countP (fun q => (st.tgt q).runs t)

def nReports (targets : GoMap Str Int) (st : St) (t : Str) : Nat :=
  targets.keys.countP (fun q => (st.tgt q).reports t)

theorem countP_update {keys : List Str} (hn : keys.Nodup) {q : Str} (hq : q ∈ keys)
    (f : Str → TgtPC) (v : TgtPC) (p : TgtPC → Bool) :
    keys.countP (fun x => p (Function.update f q v x)) + (if p (f q) then 1 else 0) =
      keys.countP (fun x => p (f x)) + (if p v then 1 else 0) := by
  induction keys with
  | nil => cases hq
  | cons a l ih =>
    rw [List.nodup_cons] at hn
    rw [List.countP_cons, List.countP_cons]
    by_cases e : a = q
    · subst e
      have : l.countP (fun x => p (Function.update f a v x)) = l.countP (fun x => p (f x)) := by
        apply List.countP_congr
        intro x hx
        have : x ≠ a := fun e => hn.1 (e ▸ hx)
        simp [Function.update_of_ne this]
      rw [this]; simp; omega
    · have hq' : q ∈ l := by
        rcases List.mem_cons.mp hq with h | h
        · exact absurd h.symm e
        · exact h
      have := ih hn.2 hq'
      simp only [Function.update_of_ne e]; omega

theorem flat_perm {m m' : GoMap Str (List Str)} (h : m'.Perm m) : (flat m').Perm (flat m) :=
  h.flatMap_right _

structure Flow (targets : GoMap Str Int) (tasks : GoMap Str Task) (st : St) : Prop where
  count : ∀ t, (st.out.map Prod.snd).count t = (st.before.map Prod.snd).count t +
    nRuns targets st t + nReports targets st t + st.after.count t
  nstarts : ∀ t, starts st.trace t = nRuns targets st t + nReports targets st t + st.after.count t
  nends : ∀ t, ends st.trace t = nReports targets st t + st.after.count t
  beforeOut : ∀ p ∈ st.before, p ∈ st.out
  runOut : ∀ q t, .handleStart q t ∈ st.trace → (q, t) ∈ st.out
  runTr : ∀ q t, st.tgt q = .running t → .handleStart q t ∈ st.trace
  endTr : ∀ q t ok, .handleEnd q t ok ∈ st.trace → .handleStart q t ∈ st.trace
  okTr : ∀ t, t ∈ st.main.held ∨ t ∈ st.done ∨ t ∈ st.completed →
    ∃ q, .handleEnd q t true ∈ st.trace
  dropOk : ∀ t ∈ st.dropped, st.doneClosed = true ∨
    st.sched = .stopped ∧ ∃ q, .handleEnd q t true ∈ st.trace
  sched0 : st.sched = .start → st.out = [] ∧ st.completed = []
  sched1 : ∀ s l, st.sched = .sending s l → Protocol targets tasks s st.out st.completed
  sched2 : st.sched = .stopped →
    (∃ e, new targets tasks = some (.error e)) ∧ st.out = [] ∧ st.completed = [] ∨
    ∃ s, Protocol targets tasks s st.out st.completed ∧
      (st.doneClosed = true ∨ ∀ t ∈ tasks.keys, ∃ q, (q, t) ∈ st.out)

theorem Flow.init (order : List Str) : Flow targets tasks (init order) := by
  constructor <;>
    simp [Runner.init, St.before, St.after, SchedPC.todo, RouterPC.held, MainPC.held, nRuns,
      nReports, TgtPC.runs, TgtPC.reports, starts, ends]

theorem nRuns_tgt {targets : GoMap Str Int} (wf : targets.WF) {st st' : St} {q : Str} {v : TgtPC}
    (hq : q ∈ targets.keys) (h : st'.tgt = Function.update st.tgt q v) (t : Str) :
    nRuns targets st' t + (if (st.tgt q).runs t then 1 else 0) =
      nRuns targets st t + (if v.runs t then 1 else 0) := by
  unfold nRuns; rw [h]; exact countP_update wf hq _ _ _

theorem nReports_tgt {targets : GoMap Str Int} (wf : targets.WF) {st st' : St} {q : Str} {v : TgtPC}
    (hq : q ∈ targets.keys) (h : st'.tgt = Function.update st.tgt q v) (t : Str) :
    nReports targets st' t + (if (st.tgt q).reports t then 1 else 0) =
      nReports targets st t + (if v.reports t then 1 else 0) := by
  unfold nReports; rw [h]; exact countP_update wf hq _ _ _

/-- The change of the three locations of a task in one step. -/
theorem step_counts (wf : targets.WF) {st st' : St} (hc : Ctl targets st)
    (hs : Step targets tasks st st') (t : Str) :
    ∃ d : Nat,
    (st'.out.map Prod.snd).count t = (st.out.map Prod.snd).count t + d ∧
    (st'.before.map Prod.snd).count t + starts st'.trace t =
      (st.before.map Prod.snd).count t + starts st.trace t + d ∧
    nRuns targets st' t + starts st.trace t + ends st'.trace t =
      nRuns targets st t + starts st'.trace t + ends st.trace t ∧
    nReports targets st' t + st'.after.count t + ends st.trace t =
      nReports targets st t + st.after.count t + ends st'.trace t := by
  cases hs with
  | schedNew s r r' h hn hp =>
    refine ⟨((flat r).map Prod.snd).count t, ?_⟩
    have := ((flat_perm hp).map Prod.snd).count_eq t
    simp [St.before, St.after, SchedPC.todo, h, nRuns, nReports, this]
    omega
  | schedNext s s' c rest r r' h hd hn hp =>
    refine ⟨((flat r).map Prod.snd).count t, ?_⟩
    have := ((flat_perm hp).map Prod.snd).count_eq t
    simp [St.before, St.after, SchedPC.todo, h, nRuns, nReports, this, hd, List.count_cons]
    omega
  | targetStart q rest h =>
    have h1 := hc.starting _ h
    have hq := h1.2.1 q (by simp)
    have h2 := (h1.2.2 q hq).mpr (by simp)
    have e1 := nRuns_tgt wf (st := st) (st' := { st with tgt := Function.update st.tgt q .idle }) hq rfl t
    have e2 := nReports_tgt wf (st := st) (st' := { st with tgt := Function.update st.tgt q .idle }) hq rfl t
    simp only [h2, TgtPC.runs, TgtPC.reports] at e1 e2
    refine ⟨0, ?_⟩
    simp [St.before, St.after, h, nRuns, nReports, MainPC.held, starts, ends, Event.isStart, Event.isEnd] at e1 e2 ⊢
    omega
  | routerSend q t' h ht =>
    have hq := hc.isTarget q (by rw [ht]; simp)
    have e1 := nRuns_tgt wf (st := st) (st' := { st with tgt := Function.update st.tgt q (.running t') }) hq rfl t
    have e2 := nReports_tgt wf (st := st) (st' := { st with tgt := Function.update st.tgt q (.running t') }) hq rfl t
    simp only [ht, TgtPC.runs, TgtPC.reports] at e1 e2
    refine ⟨0, ?_⟩
    simp [St.before, St.after, h, nRuns, nReports, RouterPC.held, starts, ends, Event.isStart, Event.isEnd, List.count_cons] at e1 e2 ⊢
    omega
  | handleEnd q t' ok h =>
    have hq := hc.isTarget q (by rw [h]; simp)
    have e1 := nRuns_tgt wf (st := st) (st' := { st with tgt := Function.update st.tgt q (.reporting t' ok) }) hq rfl t
    have e2 := nReports_tgt wf (st := st) (st' := { st with tgt := Function.update st.tgt q (.reporting t' ok) }) hq rfl t
    simp only [h, TgtPC.runs, TgtPC.reports] at e1 e2
    refine ⟨0, ?_⟩
    simp [St.before, St.after, nRuns, nReports, RouterPC.held, starts, ends, Event.isStart, Event.isEnd] at e1 e2 ⊢
    omega
  | report q t' ok h hl =>
    have hq := hc.isTarget q (by rw [h]; simp)
    have e1 := nRuns_tgt wf (st := st) (st' := { st with tgt := Function.update st.tgt q (if ok then .idle else .stopping) }) hq rfl t
    have e2 := nReports_tgt wf (st := st) (st' := { st with tgt := Function.update st.tgt q (if ok then .idle else .stopping) }) hq rfl t
    simp only [h, TgtPC.runs, TgtPC.reports] at e1 e2
    refine ⟨0, ?_⟩
    cases ok <;> simp [St.before, St.after, nRuns, nReports, RouterPC.held, starts, ends, List.count_cons] at e1 e2 ⊢ <;> omega
  | targetClosed q h hr =>
    have hq := hc.isTarget q (by rw [h]; simp)
    have e1 := nRuns_tgt wf (st := st) (st' := { st with tgt := Function.update st.tgt q .stopping }) hq rfl t
    have e2 := nReports_tgt wf (st := st) (st' := { st with tgt := Function.update st.tgt q .stopping }) hq rfl t
    simp only [h, TgtPC.runs, TgtPC.reports] at e1 e2
    refine ⟨0, ?_⟩
    simp [St.before, St.after, nRuns, nReports] at e1 e2 ⊢
    omega
  | targetStop q h =>
    have hq := hc.isTarget q (by rw [h]; simp)
    have e1 := nRuns_tgt wf (st := st) (st' := { st with tgt := Function.update st.tgt q .stopped }) hq rfl t
    have e2 := nReports_tgt wf (st := st) (st' := { st with tgt := Function.update st.tgt q .stopped }) hq rfl t
    simp only [h, TgtPC.runs, TgtPC.reports] at e1 e2
    refine ⟨0, ?_⟩
    simp [St.before, St.after, nRuns, nReports, starts, ends, Event.isStart, Event.isEnd] at e1 e2 ⊢
    omega
  | _ =>
    have := hc.router0
    refine ⟨0, ?_⟩
    simp_all [St.before, St.after, nRuns, nReports, starts, ends, Event.isStart, Event.isEnd,
      SchedPC.todo, RouterPC.held, MainPC.held, List.count_cons]
    try omega

theorem Flow.step_beforeOut {st st' : St} (h : Flow targets tasks st) (hc : Ctl targets st)
    (hs : Step targets tasks st st') :
    ∀ p ∈ st'.before, p ∈ st'.out := by
  have h_beforeOut := h.beforeOut
  have h_router0 := hc.router0
  have hf := @flat_perm
  clear h hc
  cases hs <;> grind [St.before, SchedPC.todo, RouterPC.held, MainPC.held, List.Perm.mem_iff]

theorem Flow.step_runOut {st st' : St} (h : Flow targets tasks st)
    (hs : Step targets tasks st st') :
    ∀ q t, .handleStart q t ∈ st'.trace → (q, t) ∈ st'.out := by
  have h_runOut := h.runOut
  have h_beforeOut := h.beforeOut
  clear h
  cases hs <;> grind [St.before, SchedPC.todo, RouterPC.held, MainPC.held]

theorem Flow.step_runTr {st st' : St} (h : Flow targets tasks st)
    (hs : Step targets tasks st st') :
    ∀ q t, st'.tgt q = .running t → .handleStart q t ∈ st'.trace := by
  have h_runTr := h.runTr
  clear h
  cases hs <;> grind [St.before, SchedPC.todo, RouterPC.held, MainPC.held]

theorem Flow.step_endTr {st st' : St} (h : Flow targets tasks st)
    (hs : Step targets tasks st st') :
    ∀ q t ok, .handleEnd q t ok ∈ st'.trace → .handleStart q t ∈ st'.trace := by
  have h_endTr := h.endTr
  have h_runTr := h.runTr
  clear h
  cases hs <;> grind [St.before, SchedPC.todo, RouterPC.held, MainPC.held]

theorem Flow.step_okTr {st st' : St} (h : Flow targets tasks st) (hc : Ctl targets st)
    (hs : Step targets tasks st st') :
    ∀ t, t ∈ st'.main.held ∨ t ∈ st'.done ∨ t ∈ st'.completed →
    ∃ q, .handleEnd q t true ∈ st'.trace := by
  have h_okTr := h.okTr
  have h_endedErr := hc.endedErr
  clear h hc
  cases hs <;> grind [St.before, SchedPC.todo, RouterPC.held, MainPC.held]

theorem Flow.step_dropOk {st st' : St} (h : Flow targets tasks st) (hc : Ctl targets st)
    (hs : Step targets tasks st st') :
    ∀ t ∈ st'.dropped, st'.doneClosed = true ∨
    st'.sched = .stopped ∧ ∃ q, .handleEnd q t true ∈ st'.trace := by
  have h_dropOk := h.dropOk
  have h_okTr := h.okTr
  have h_closed := hc.closed
  have h_loop2 := hc.loop2
  clear h hc
  cases hs with
  | schedRefused s s' c rest h hd hn =>
    intro t ht
    rcases List.mem_append.mp ht with ht | ht
    · rcases h_dropOk t ht with h | h
      · exact Or.inl h
      · exact Or.inr ⟨rfl, h.2⟩
    · simp only [List.mem_singleton] at ht; subst ht
      exact Or.inr ⟨rfl, h_okTr t (Or.inr (Or.inl (by simp [hd])))⟩
  | mainDrain e t ok rest h he =>
    have : st.doneClosed = true := by
      cases e with
      | none => rw [(h_loop2 h).2] at he; cases he
      | some t => exact h_closed.mpr (Or.inl ⟨t, h⟩)
    intro t ht; exact Or.inl this
  | _ => grind

theorem Flow.step_sched0 {st st' : St} (h : Flow targets tasks st)
    (hs : Step targets tasks st st') :
    st'.sched = .start → st'.out = [] ∧ st'.completed = [] := by
  have h_sched0 := h.sched0
  clear h
  cases hs <;> grind [St.before, SchedPC.todo, RouterPC.held, MainPC.held]


theorem Flow.out_nodup (wft : tasks.WF) {st : St} (h : Flow targets tasks st) :
    (st.out.map Prod.snd).Nodup := by
  cases hs : st.sched with
  | start => rw [(h.sched0 hs).1]; simp
  | sending s l => exact (C13_handed_out_once_on_own_target wft (h.sched1 s l hs).history).1
  | stopped =>
    rcases h.sched2 hs with ⟨_, ho, _⟩ | ⟨s, hp, _⟩
    · rw [ho]; simp
    · exact (C13_handed_out_once_on_own_target wft hp.history).1

theorem Flow.step_sched1 (wft : tasks.WF) {st st' : St} (h : Flow targets tasks st)
    (hs : Step targets tasks st st') :
    ∀ s l, st'.sched = .sending s l → Protocol targets tasks s st'.out st'.completed := by
  have h1 := h.sched1
  have h0 := h.sched0
  cases hs with
  | schedNew s r r' h hn hp =>
    intro s' l e
    simp only [SchedPC.sending.injEq] at e
    obtain ⟨e1, e2⟩ := h0 h
    simp only [e1, e2, List.nil_append]
    rw [← e.1]; exact Protocol.new hn
  | schedNext s s' c rest r r' hh hd hn hp =>
    intro s'' l e
    simp only [SchedPC.sending.injEq] at e
    rw [← e.1]
    have hcnt := h.count c
    have hnd := List.nodup_iff_count_le_one.mp (h.out_nodup wft) c
    have hdc : 1 ≤ st.done.count c := by rw [hd]; simp
    have hac : st.after.count c = (st.ended.map Prod.fst).count c + st.main.held.count c +
      st.done.count c + st.completed.count c + st.dropped.count c := by
      simp [St.after]; omega
    have hout : c ∈ st.out.map Prod.snd := by
      rw [← List.one_le_count_iff]; omega
    have hnc : c ∉ st.completed := by
      rw [← List.count_eq_zero]; omega
    obtain ⟨⟨q, c'⟩, ho, rfl⟩ := List.mem_map.mp hout
    exact Protocol.next (h1 s [] hh) q _ ho hnc hn
  | _ => grind

theorem Flow.step_sched2 (wft : tasks.WF) {st st' : St} (h : Flow targets tasks st)
    (hs : Step targets tasks st st') : st'.sched = .stopped →
    (∃ e, new targets tasks = some (.error e)) ∧ st'.out = [] ∧ st'.completed = [] ∨
    ∃ s, Protocol targets tasks s st'.out st'.completed ∧
      (st'.doneClosed = true ∨ ∀ t ∈ tasks.keys, ∃ q, (q, t) ∈ st'.out) := by
  have h1 := h.sched1
  have h0 := h.sched0
  have h2 := h.sched2
  cases hs with
  | schedRefused s s' c rest hh hd hn =>
    intro _
    refine Or.inr ⟨s, h1 s [] hh, Or.inr ?_⟩
    exact (C16_errNoPendingTasks_exact wft (h1 s [] hh).history c).mp (by rw [hn])
  | _ => grind

theorem Flow.step (wf : targets.WF) (wft : tasks.WF) {st st' : St} (h : Flow targets tasks st)
    (hc : Ctl targets st) (hs : Step targets tasks st st') : Flow targets tasks st' := by
  refine ⟨?_, ?_, ?_, h.step_beforeOut hc hs, h.step_runOut hs, h.step_runTr hs,
    h.step_endTr hs, h.step_okTr hc hs, h.step_dropOk hc hs, h.step_sched0 hs,
    h.step_sched1 wft hs, h.step_sched2 wft hs⟩
  all_goals
    intro t
    obtain ⟨d, h1, h2, h3, h4⟩ := step_counts wf hc hs t
    have := h.count t
    have := h.nstarts t
    have := h.nends t
    omega

theorem Reach.inv (wf : targets.WF) (wft : tasks.WF) {st : St} (h : Reach targets tasks st) :
    Ctl targets st ∧ Flow targets tasks st := by
  induction h with
  | init order h => exact ⟨Ctl.init wf h, Flow.init order⟩
  | step _ hs ih => exact ⟨ih.1.step hs, ih.2.step wf wft ih.1 hs⟩

end Verif.Runner
