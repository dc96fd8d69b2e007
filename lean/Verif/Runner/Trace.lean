import Verif.Runner.Progress

/-! The order of events in the traces of the runner. -/

namespace Verif.Runner
open Verif Dag Sched

variable {targets : GoMap Str Int} {tasks : GoMap Str Task}

theorem step_trace {st st' : St} (hs : Step targets tasks st st') :
    st'.trace = st.trace ∨ ∃ e, st'.trace = st.trace ++ [e] := by
  cases hs <;> simp

/-- Every event of a trace was appended by a step from a reachable state whose trace is what
precedes the event. -/
theorem Reach.split {st : St} (h : Reach targets tasks st) {pre post : List Event} {e : Event}
    (ht : st.trace = pre ++ e :: post) : ∃ st0 st1, Reach targets tasks st0 ∧
      Step targets tasks st0 st1 ∧ st0.trace = pre ∧ st1.trace = pre ++ [e] := by
  induction h generalizing post with
  | init order h => simp [Runner.init] at ht
  | @step st st' h hs ih =>
    rcases step_trace hs with e1 | ⟨e', e1⟩
    · exact ih (e1 ▸ ht)
    · rw [e1] at ht
      rcases List.eq_nil_or_concat post with rfl | ⟨post', x, rfl⟩
      · have ht' : st.trace ++ [e'] = pre ++ [e] := ht
        obtain ⟨h1, h2⟩ := List.append_inj' ht' rfl
        simp only [List.cons.injEq, and_true] at h2
        subst h2
        exact ⟨st, st', h, hs, h1, by rw [e1, h1]⟩
      · rw [List.concat_eq_append, ← List.cons_append, ← List.append_assoc] at ht
        exact ih (List.append_inj' ht rfl).1

/-- A step that appends `handleStart q t` is the rendezvous with an idle target. -/
theorem step_handleStart {st st' : St} (hs : Step targets tasks st st') {q t : Str}
    (h : st'.trace = st.trace ++ [.handleStart q t]) :
    st.tgt q = .idle ∧ (q, t) ∈ st.before := by
  cases hs <;> simp_all [St.before, RouterPC.held]

theorem step_handleEnd {st st' : St} (hs : Step targets tasks st st') {q t : Str} {ok : Bool}
    (h : st'.trace = st.trace ++ [.handleEnd q t ok]) : st.tgt q = .running t := by
  cases hs <;> simp_all

/-- Event-level facts about targets. -/
structure TInv (st : St) : Prop where
  progress : ∀ q t, .handleStart q t ∈ st.trace →
    st.tgt q = .running t ∨ ∃ ok, .handleEnd q t ok ∈ st.trace
  stops : ∀ q, st.trace.count (.stopped q) = if st.tgt q = .stopped then 1 else 0
  startedIff : ∀ q, st.trace.count (.started q) = if st.tgt q = .notStarted then 0 else 1

theorem TInv.init (order : List Str) : TInv (init order) := by
  constructor <;> simp [Runner.init]

theorem Ctl.next_notStarted {st : St} (hc : Ctl targets st) : ∀ q rest,
    st.main = .starting (q :: rest) → st.tgt q = .notStarted := by
  intro q rest h
  obtain ⟨_, h2, h3⟩ := hc.starting _ h
  exact (h3 q (h2 q (by simp))).mpr (by simp)

theorem TInv.step_progress {st st' : St} (hc : Ctl targets st) (h : TInv st)
    (hs : Step targets tasks st st') :
    ∀ q t, .handleStart q t ∈ st'.trace →
    st'.tgt q = .running t ∨ ∃ ok, .handleEnd q t ok ∈ st'.trace := by
  have h1 := h.progress
  have h2 := hc.next_notStarted
  clear h hc
  cases hs <;> grind

theorem TInv.step_stops {st st' : St} (hc : Ctl targets st) (h : TInv st)
    (hs : Step targets tasks st st') :
    ∀ q, st'.trace.count (.stopped q) = if st'.tgt q = .stopped then 1 else 0 := by
  intro q'
  have h1 := h.stops q'
  have h2 := hc.next_notStarted
  clear h hc
  cases hs with
  | _ => simp_all [List.count_append, Function.update_apply] <;> grind

theorem TInv.step_started {st st' : St} (hc : Ctl targets st) (h : TInv st)
    (hs : Step targets tasks st st') :
    ∀ q, st'.trace.count (.started q) = if st'.tgt q = .notStarted then 0 else 1 := by
  intro q'
  have h1 := h.startedIff q'
  have h2 := hc.next_notStarted
  clear h hc
  cases hs with
  | _ => simp_all [List.count_append, Function.update_apply] <;> grind

theorem Reach.tinv (wf : targets.WF) (wft : tasks.WF) {st : St} (h : Reach targets tasks st) :
    TInv st := by
  induction h with
  | init order h => exact TInv.init order
  | step h hs ih =>
    have hc := (h.inv wf wft).1
    exact ⟨ih.step_progress hc hs, ih.step_stops hc hs, ih.step_started hc hs⟩

end Verif.Runner
