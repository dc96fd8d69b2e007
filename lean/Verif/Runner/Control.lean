import Verif.Runner.Model

/-! Control invariants of the runner: which goroutine positions can occur together. -/

namespace Verif.Runner
open Verif Dag Sched

variable {targets : GoMap Str Int} {tasks : GoMap Str Task}

/-- The main goroutine has started every target. -/
def MainPC.allStarted : MainPC → Bool
  | .starting _ => false
  | .failing _ => false
  | .returned (some (.start _)) => false
  | _ => true

structure Ctl (targets : GoMap Str Int) (st : St) : Prop where
  closed : st.doneClosed = true ↔ (∃ t, st.main = .loop2 (some t)) ∨ ∃ e, st.main = .returned e
  router0 : st.router = .notStarted ↔ ∃ l, st.main = .starting l
  closing : st.router = .waitWg ∨ st.router = .stopped → st.sched = .stopped ∧ st.ready = []
  allStopped : st.router = .stopped → ∀ q, st.tgt q = .notStarted ∨ st.tgt q = .stopped
  loop2 : st.main = .loop2 none → st.router = .stopped ∧ st.ended = []
  ret : ∀ e, st.main = .returned e → (∃ q, e = some (.start q)) ∨
    (st.router = .stopped ∧ st.ended = [])
  isTarget : ∀ q, st.tgt q ≠ .notStarted → q ∈ targets.keys
  starting : ∀ l, st.main = .starting l → l.Nodup ∧ (∀ q ∈ l, q ∈ targets.keys) ∧
    ∀ q ∈ targets.keys, st.tgt q = .notStarted ↔ q ∈ l
  started : st.main.allStarted = true → ∀ q ∈ targets.keys, st.tgt q ≠ .notStarted
  startErr : ∀ q, .startFailed q ∈ st.trace ↔
    st.main = .failing q ∨ st.main = .returned (some (.start q))
  taskErr : ∀ t, (st.main = .loop2 (some t) ∨ st.main = .returned (some (.task t))) →
    ∃ q, .handleEnd q t false ∈ st.trace
  endedErr : ∀ t ok, (t, ok) ∈ st.ended → ∃ q, .handleEnd q t ok ∈ st.trace
  reportErr : ∀ q t ok, st.tgt q = .reporting t ok → .handleEnd q t ok ∈ st.trace
  leave : ∀ q, st.tgt q = .stopping ∨ st.tgt q = .stopped →
    st.router = .waitWg ∨ st.router = .stopped ∨ ∃ t, .handleEnd q t false ∈ st.trace

theorem Ctl.init (wf : targets.WF) {order : List Str} (h : order.Perm targets.keys) :
    Ctl targets (init order) := by
  constructor <;> simp [Runner.init, MainPC.allStarted]
  refine ⟨h.nodup_iff.mpr wf, ?_, ?_⟩
  · intro q hq; exact h.mem_iff.mp hq
  · intro q hq; exact h.mem_iff.mpr hq

theorem Ctl.step_closed {st st' : St} (h : Ctl targets st) (hs : Step targets tasks st st') :
    st'.doneClosed = true ↔ (∃ t, st'.main = .loop2 (some t)) ∨ ∃ e, st'.main = .returned e := by
  have h_closed := h.closed
  clear h
  cases hs <;> grind [MainPC.allStarted, Option.map_eq_some_iff]

theorem Ctl.step_router0 {st st' : St} (h : Ctl targets st) (hs : Step targets tasks st st') :
    st'.router = .notStarted ↔ ∃ l, st'.main = .starting l := by
  have h_router0 := h.router0
  clear h
  cases hs <;> grind [MainPC.allStarted, Option.map_eq_some_iff]

theorem Ctl.step_closing {st st' : St} (h : Ctl targets st) (hs : Step targets tasks st st') :
    st'.router = .waitWg ∨ st'.router = .stopped → st'.sched = .stopped ∧ st'.ready = [] := by
  have h_closing := h.closing
  have h_router0 := h.router0
  clear h
  cases hs <;> grind [MainPC.allStarted, Option.map_eq_some_iff]

theorem Ctl.step_allStopped {st st' : St} (h : Ctl targets st) (hs : Step targets tasks st st') :
    st'.router = .stopped → ∀ q, st'.tgt q = .notStarted ∨ st'.tgt q = .stopped := by
  have h_allStopped := h.allStopped
  have h_router0 := h.router0
  clear h
  cases hs <;> grind [MainPC.allStarted, Option.map_eq_some_iff]

theorem Ctl.step_loop2 {st st' : St} (h : Ctl targets st) (hs : Step targets tasks st st') :
    st'.main = .loop2 none → st'.router = .stopped ∧ st'.ended = [] := by
  have h_loop2 := h.loop2
  have h_allStopped := h.allStopped
  clear h
  cases hs <;> grind [MainPC.allStarted, Option.map_eq_some_iff]

theorem Ctl.step_ret {st st' : St} (h : Ctl targets st) (hs : Step targets tasks st st') :
    ∀ e, st'.main = .returned e → (∃ q, e = some (.start q)) ∨
    (st'.router = .stopped ∧ st'.ended = []) := by
  have h_ret := h.ret
  have h_allStopped := h.allStopped
  clear h
  cases hs <;> grind [MainPC.allStarted, Option.map_eq_some_iff]

theorem Ctl.step_isTarget {st st' : St} (h : Ctl targets st) (hs : Step targets tasks st st') :
    ∀ q, st'.tgt q ≠ .notStarted → q ∈ targets.keys := by
  have h_isTarget := h.isTarget
  have h_starting := h.starting
  clear h
  cases hs <;> grind [MainPC.allStarted, Option.map_eq_some_iff]

theorem Ctl.step_starting {st st' : St} (h : Ctl targets st) (hs : Step targets tasks st st') :
    ∀ l, st'.main = .starting l → l.Nodup ∧ (∀ q ∈ l, q ∈ targets.keys) ∧
    ∀ q ∈ targets.keys, st'.tgt q = .notStarted ↔ q ∈ l := by
  have h_starting := h.starting
  clear h
  cases hs <;> grind [MainPC.allStarted, Option.map_eq_some_iff]

theorem Ctl.step_started {st st' : St} (h : Ctl targets st) (hs : Step targets tasks st st') :
    st'.main.allStarted = true → ∀ q ∈ targets.keys, st'.tgt q ≠ .notStarted := by
  have h_started := h.started
  have h_starting := h.starting
  clear h
  cases hs <;> grind [MainPC.allStarted, Option.map_eq_some_iff]

theorem Ctl.step_startErr {st st' : St} (h : Ctl targets st) (hs : Step targets tasks st st') :
    ∀ q, .startFailed q ∈ st'.trace ↔
    st'.main = .failing q ∨ st'.main = .returned (some (.start q)) := by
  have h_startErr := h.startErr
  clear h
  cases hs <;> grind [MainPC.allStarted, Option.map_eq_some_iff]

theorem Ctl.step_taskErr {st st' : St} (h : Ctl targets st) (hs : Step targets tasks st st') :
    ∀ t, (st'.main = .loop2 (some t) ∨ st'.main = .returned (some (.task t))) →
    ∃ q, .handleEnd q t false ∈ st'.trace := by
  have h_taskErr := h.taskErr
  have h_endedErr := h.endedErr
  clear h
  cases hs <;> grind [MainPC.allStarted, Option.map_eq_some_iff]

theorem Ctl.step_endedErr {st st' : St} (h : Ctl targets st) (hs : Step targets tasks st st') :
    ∀ t ok, (t, ok) ∈ st'.ended → ∃ q, .handleEnd q t ok ∈ st'.trace := by
  have h_endedErr := h.endedErr
  have h_reportErr := h.reportErr
  clear h
  cases hs <;> grind [MainPC.allStarted, Option.map_eq_some_iff]

theorem Ctl.step_reportErr {st st' : St} (h : Ctl targets st) (hs : Step targets tasks st st') :
    ∀ q t ok, st'.tgt q = .reporting t ok → .handleEnd q t ok ∈ st'.trace := by
  have h_reportErr := h.reportErr
  clear h
  cases hs <;> grind [MainPC.allStarted, Option.map_eq_some_iff]

theorem Ctl.step_leave {st st' : St} (h : Ctl targets st) (hs : Step targets tasks st st') :
    ∀ q, st'.tgt q = .stopping ∨ st'.tgt q = .stopped →
    st'.router = .waitWg ∨ st'.router = .stopped ∨ ∃ t, .handleEnd q t false ∈ st'.trace := by
  have h_leave := h.leave
  have h_reportErr := h.reportErr
  have h_router0 := h.router0
  clear h
  cases hs <;> grind [MainPC.allStarted, Option.map_eq_some_iff]

theorem Ctl.step {st st' : St} (h : Ctl targets st) (hs : Step targets tasks st st') :
    Ctl targets st' :=
  ⟨h.step_closed hs, h.step_router0 hs, h.step_closing hs, h.step_allStopped hs, h.step_loop2 hs, h.step_ret hs, h.step_isTarget hs, h.step_starting hs, h.step_started hs, h.step_startErr hs, h.step_taskErr hs, h.step_endedErr hs, h.step_reportErr hs, h.step_leave hs⟩

end Verif.Runner
