import Verif.Runner.Room
import Verif.Runner.Props
import Verif.Run.DbRuns

/-!
# C141: however much concurrency a file asks for, it is run
-/

namespace Verif.Runner
open Verif Sched

variable {targets : GoMap Str Int} {tasks : GoMap Str Task} {n : Int} {st : St}

theorem bmod_eq_of_range (z : Int) : ∃ k : Int, int64 z = z - k * 2 ^ 64 ∧ -(2 ^ 63) ≤ int64 z ∧ int64 z < 2 ^ 63 := by
  unfold int64
  refine ⟨(z - Int.bmod z (2 ^ 64)) / 2 ^ 64, ?_, ?_, ?_⟩
  · have h := Int.dvd_self_sub_bmod (x := z) (m := 2 ^ 64)
    have := Int.ediv_mul_cancel h
    push_cast at this
    omega
  · have := Int.le_bmod (x := z) (m := 2 ^ 64) (by decide)
    generalize Int.bmod z (2 ^ 64) = b at *
    omega
  · have := Int.bmod_lt (x := z) (m := 2 ^ 64) (by decide)
    generalize Int.bmod z (2 ^ 64) = b at *
    omega

theorem room_eq (targets : GoMap Str Int) : room targets = int64 (capacity targets) := by
  have key : ∀ (l : List Int) (c : Int), int64 (l.foldl (fun c l => int64 (c + l)) (int64 c) * 2) =
      int64 (2 * (c + l.sum)) := by
    intro l
    induction l with
    | nil =>
      intro c
      simp only [List.foldl_nil, List.sum_nil, Int.add_zero, int64, Int.bmod_mul_bmod]
      rw [Int.mul_comm]
    | cons a l ih =>
      intro c
      have e : int64 (int64 c + a) = int64 (c + a) := by simp [int64]
      rw [List.foldl_cons, e, ih, List.sum_cons]
      congr 1
      omega
  have := key (targets.map Prod.snd) 0
  have h0 : int64 0 = 0 := by decide
  rw [h0, Int.zero_add] at this
  exact this

/-- The capacity is as in `Model.lean` if and only if that can be held by an `int`. -/
theorem room_eq_capacity_iff (h0 : 0 ≤ capacity targets) : room targets = capacity targets ↔ capacity targets < 2 ^ 63 := by
  rw [room_eq]
  obtain ⟨k, h1, h2, h3⟩ := bmod_eq_of_range (capacity targets)
  constructor <;> intro h <;> omega

theorem RoomReach.reach (h : RoomReach targets tasks n st) : Reach targets tasks st := by
  induction h with
  | init order h => exact .init order h
  | step _ hs ih =>
    cases hs with
    | act hs _ => exact .step ih hs
    | handOver h1 h2 _ _ => exact .step (.step ih h1) h2

/-- The channels never hold more messages than there are tasks. -/
theorem channels_le_tasks (wf : targets.WF) (wft : tasks.WF) (h : Reach targets tasks st) :
    st.ready.length + st.ended.length + st.done.length ≤ tasks.length := by
  obtain ⟨hc, hf⟩ := h.inv wf wft
  have hcount : ∀ t, (st.ready.map Prod.snd ++ st.ended.map Prod.fst ++ st.done).count t ≤
      (st.out.map Prod.snd).count t := by
    intro t
    have h1 := hf.count t
    have h2 := after_count st t
    have h3 : (st.ready.map Prod.snd).count t ≤ (st.before.map Prod.snd).count t := by
      simp [St.before, List.count_append]
      omega
    simp only [List.count_append]
    omega
  have hnd : (st.ready.map Prod.snd ++ st.ended.map Prod.fst ++ st.done).Nodup := by
    rw [List.nodup_iff_count_le_one]
    intro t
    have := hcount t
    have := hf.le_one wft t
    have := hf.count t
    omega
  have hsub : (st.ready.map Prod.snd ++ st.ended.map Prod.fst ++ st.done) ⊆ st.out.map Prod.snd := by
    intro t ht
    have := hcount t
    rw [← List.one_le_count_iff] at ht ⊢
    omega
  have h1 := (hnd.subperm hsub).length_le
  have h2 := out_length_le wft hf
  simp only [List.length_append, List.length_map] at h1
  omega

/-- **C141 (partial), nothing goes wrong.** Whatever the capacity of the channels: a task begins only after its
dependencies have ended without an error, at most once and on its own target; if `Run` returns nil all of them have
ended without an error; if it returns an error something has failed. -/
theorem C141_safe_partial (wf : targets.WF) (wft : tasks.WF) (h : RoomReach targets tasks n st) :
    (∀ pre post q t, st.trace = pre ++ .handleStart q t :: post → ∀ m, After tasks t m → m ≠ b!"" →
      ∃ q', .handleEnd q' m true ∈ pre) ∧
    (∀ t, starts st.trace t ≤ 1) ∧
    (∀ q t, .handleStart q t ∈ st.trace → ∃ task, tasks.get? t = some task ∧ task.target = q) ∧
    (ValidDeps tasks → st.main = .returned none → ∀ t ∈ tasks.keys, ∃ q, .handleEnd q t true ∈ st.trace) ∧
    (∀ e, st.main = .returned (some e) → (∃ q, .startFailed q ∈ st.trace) ∨ ∃ q t, .handleEnd q t false ∈ st.trace) := by
  have hr := h.reach
  obtain ⟨h1, h2, -⟩ := C19_run_at_most_once_one_per_target wf wft hr
  obtain ⟨e1, e2, -⟩ := C23_run_reports_failure wf wft hr
  refine ⟨fun pre post q t e m hm hm0 => ?_, h1, h2, fun hv hret t ht => ?_, fun e he => ?_⟩
  · obtain ⟨q', _, _, _, h5⟩ := C18_run_dependency_order_partial wf wft hr e hm hm0
    exact ⟨q', h5⟩
  · exact (C20_nil_means_all_succeeded_partial wf wft hv hr hret t ht).2
  · cases e with
    | start q => exact .inl ⟨q, e1 q he⟩
    | task t =>
      obtain ⟨q, hq⟩ := e2 t he
      exact .inr ⟨q, t, hq⟩

/-- **C141: every schedule ends**, whatever the capacity of the channels. -/
theorem C141_finite (wf : targets.WF) (wft : tasks.WF) {order : List Str} (ho : order.Perm targets.keys)
    (run : Nat → St) (h0 : run 0 = init order) (k : Nat)
    (hs : ∀ i, i < k → RoomStep targets tasks n (run i) (run (i + 1))) :
    k ≤ measure targets tasks (init order) := by
  have key : ∀ i, i ≤ k → Reach targets tasks (run i) ∧
      measure targets tasks (run i) + i ≤ measure targets tasks (init order) := by
    intro i
    induction i with
    | zero => intro _; exact ⟨h0 ▸ Reach.init order ho, by rw [h0]; omega⟩
    | succ i ih =>
      intro hi
      obtain ⟨h1, h2⟩ := ih (by omega)
      cases hs i (by omega) with
      | act hs _ =>
        obtain ⟨hc, hf⟩ := h1.inv wf wft
        have := measure_decreases wf wft hc hf hs
        exact ⟨.step h1 hs, by omega⟩
      | handOver hs1 hs2 _ _ =>
        obtain ⟨hc, hf⟩ := h1.inv wf wft
        have := measure_decreases wf wft hc hf hs1
        obtain ⟨hc', hf'⟩ := (h1.step hs1).inv wf wft
        have := measure_decreases wf wft hc' hf' hs2
        exact ⟨.step (.step h1 hs1) hs2, by omega⟩
  have := (key k (by omega)).2
  omega

/-- **C141 (partial), a run succeeds.** If the capacity did not wrap around, or what it has become is at least the
number of tasks: wherever the goroutines can go no further and nothing has failed, `Run` has returned nil.
Missing: other files (`C141_refuted_hangs`, `C141_refuted_panics`). -/
theorem C141_succeeds_partial (wf : targets.WF) (wft : tasks.WF)
    (hv : ValidTargets targets tasks) (hlim : ∀ q n, targets.get? q = some n → 1 ≤ n)
    (hne : tasks ≠ []) (hroom : capacity targets < 2 ^ 63 ∨ (tasks.length : Int) ≤ room targets)
    (h : RoomReach targets tasks (room targets) st)
    (hstart : ∀ q, .startFailed q ∉ st.trace) (hok : ∀ q t, .handleEnd q t false ∉ st.trace)
    (hterm : ∀ st', ¬ RoomStep targets tasks (room targets) st st') :
    st.main = .returned none := by
  refine C21_no_deadlock_when_all_succeed_partial wf wft hv hlim hne h.reach hstart hok ?_
  intro st' hs
  refine hterm st' (.act hs ?_)
  have hr' := h.reach.step hs
  rcases hroom with hc | ht
  · have h1 := (C24_channels_never_overflow wf wft hv hlim hr').1
    have hcap : capacity targets = 2 * (targets.map Prod.snd).sum := rfl
    have h0 : (0 : Int) ≤ (targets.map Prod.snd).sum := by push_cast at h1; omega
    have e := (room_eq_capacity_iff (targets := targets) (by omega)).2 hc
    push_cast at h1
    constructor <;> omega
  · have h1 := channels_le_tasks wf wft hr'
    constructor <;> omega

/-! ## Refutation -/

def hugeTargets : GoMap Str Int := [(b!"x", 2 ^ 62), (b!"y", 2 ^ 62)]

def hugeTasks : GoMap Str Task :=
  [(b!"a", ⟨b!"x", []⟩), (b!"b", ⟨b!"x", []⟩), (b!"c", ⟨b!"x", []⟩), (b!"d", ⟨b!"x", []⟩)]

theorem huge_room : room hugeTargets = 0 := by decide

/-- Everyone waits for someone else: the scheduler for the router, the router for a target, the target for `run`, and
`run` for the scheduler. -/
theorem stuck {s : Scheduler} {p : Str × Str} {l : List (Str × Str)} {q t t' : Str} (h1 : st.sched = .sending s (p :: l))
    (h2 : st.router = .hold q t) (h3 : st.tgt q ≠ .idle)
    (h4 : ∀ q', st.tgt q' = .notStarted ∨ st.tgt q' = .idle ∨ ∃ t ok, st.tgt q' = .reporting t ok)
    (h5 : st.main = .sendDone t') (h6 : st.ready = []) (h7 : st.ended = []) (h8 : st.done = []) (st' : St) :
    ¬ RoomStep targets tasks 0 st st' := by
  have key : ∀ mid, Step targets tasks st mid →
      (mid.sched = .sending s l ∧ mid.ready = [p] ∧ mid.router = .hold q t ∧ mid.tgt = st.tgt ∧ mid.ended = [] ∧
        mid.done = []) ∨
      (mid.main = .sendDone t' ∧ mid.ended ≠ [] ∧ mid.ready = [] ∧ mid.done = []) ∨
      (mid.sched = .sending s (p :: l) ∧ mid.done = [t'] ∧ mid.ready = [] ∧ mid.ended = []) := by
    intro mid hs
    cases hs <;> simp_all <;> grind
  intro hr
  cases hr with
  | act hs hf =>
    have f1 := hf.ready
    have f2 := hf.ended
    have f3 := hf.done
    rcases key _ hs with ⟨_, e, _⟩ | ⟨_, e, _⟩ | ⟨_, e, _⟩
    · rw [e] at f1; simp at f1
    · have := List.length_pos_iff.2 e; omega
    · rw [e] at f3; simp at f3
  | handOver hs hs' hp hf =>
    rcases key _ hs with ⟨e1, e2, e3, e4, e5, e6⟩ | ⟨e1, e2, e3, e4⟩ | ⟨e1, e2, e3, e4⟩
    · have hp : st'.ready = [] := by
        rcases hp with ⟨_, _, e⟩ | ⟨_, e, _⟩ | ⟨_, e, _⟩
        · exact e
        · exact absurd e5 e
        · exact absurd e6 e
      cases hs' <;> simp_all
    · have hp : st'.ended = [] := by
        rcases hp with ⟨_, e, _⟩ | ⟨_, _, e⟩ | ⟨_, e, _⟩
        · exact absurd e3 e
        · exact e
        · exact absurd e4 e
      cases hs' <;> simp_all
    · have hp : st'.done = [] := by
        rcases hp with ⟨_, e, _⟩ | ⟨_, e, _⟩ | ⟨_, _, e⟩
        · exact absurd e3 e
        · exact absurd e4 e
        · exact e
      cases hs' <;> simp_all

/-- **C141 refuted: a run hangs.** Two targets with a concurrency of 2^62 each and four tasks that depend on nothing.
The capacity is 0, so the channels can be made; after two tasks have ended without an error, and nothing has failed, no
goroutine can do anything, and `Run` has not returned. -/
theorem C141_refuted_hangs : Makes hugeTargets 0 ∧ ∃ st, RoomReach hugeTargets hugeTasks (room hugeTargets) st ∧
    (∀ st', ¬ RoomStep hugeTargets hugeTasks (room hugeTargets) st st') ∧ st.main = .sendDone b!"a" ∧
    st.trace = [.started b!"x", .started b!"y", .handleStart b!"x" b!"a", .handleEnd b!"x" b!"a" true,
      .handleStart b!"x" b!"b", .handleEnd b!"x" b!"b" true] := by
  rw [huge_room]
  have r0 : RoomReach hugeTargets hugeTasks 0 _ := .init [b!"x", b!"y"] (List.Perm.refl _)
  have r1 := r0.step (.act (Step.targetStart _ b!"x" [b!"y"] rfl) ⟨by decide, by decide, by decide⟩)
  have r2 := r1.step (.act (Step.targetStart _ b!"y" [] rfl) ⟨by decide, by decide, by decide⟩)
  have r3 := r2.step (.act (Step.targetsStarted _ rfl) ⟨by decide, by decide, by decide⟩)
  have r4 := r3.step (.act (Step.schedNew _ _ _ _ rfl rfl (List.Perm.refl _)) ⟨by decide, by decide, by decide⟩)
  have r5 := r4.step (.handOver
    (Step.schedSend _ _ (b!"x", b!"a") [(b!"x", b!"b"), (b!"x", b!"c"), (b!"x", b!"d")] rfl (by decide))
    (Step.routerRecv _ b!"x" b!"a" [] rfl rfl) (.inl ⟨rfl, by simp [init], rfl⟩) ⟨by decide, by decide, by decide⟩)
  have r6 := r5.step (.act (Step.routerSend _ b!"x" b!"a" rfl rfl) ⟨by decide, by decide, by decide⟩)
  have r7 := r6.step (.act (Step.handleEnd _ b!"x" b!"a" true rfl) ⟨by decide, by decide, by decide⟩)
  have r8 := r7.step (.handOver (Step.report _ b!"x" b!"a" true rfl (by decide))
    (Step.mainOk _ b!"a" [] rfl rfl) (.inr (.inl ⟨rfl, by simp [init], rfl⟩)) ⟨by decide, by decide, by decide⟩)
  have r9 := r8.step (.handOver
    (Step.schedSend _ _ (b!"x", b!"b") [(b!"x", b!"c"), (b!"x", b!"d")] rfl (by decide))
    (Step.routerRecv _ b!"x" b!"b" [] rfl rfl) (.inl ⟨rfl, by simp [init], rfl⟩) ⟨by decide, by decide, by decide⟩)
  have r10 := r9.step (.act (Step.routerSend _ b!"x" b!"b" rfl rfl) ⟨by decide, by decide, by decide⟩)
  have r11 := r10.step (.act (Step.handleEnd _ b!"x" b!"b" true rfl) ⟨by decide, by decide, by decide⟩)
  have r12 := r11.step (.handOver
    (Step.schedSend _ _ (b!"x", b!"c") [(b!"x", b!"d")] rfl (by decide))
    (Step.routerRecv _ b!"x" b!"c" [] rfl rfl) (.inl ⟨rfl, by simp [init], rfl⟩) ⟨by decide, by decide, by decide⟩)
  refine ⟨by unfold Makes; rw [huge_room]; decide, _, r12, ?_, rfl, rfl⟩
  refine stuck rfl rfl ?_ ?_ rfl rfl rfl rfl
  · simp [init, Function.update_apply]
  · intro q'
    by_cases e : q' = b!"x"
    · subst e
      exact .inr (.inr ⟨b!"b", true, rfl⟩)
    · by_cases e' : q' = b!"y"
      · subst e'
        exact .inr (.inl rfl)
      · simp [init, Function.update_apply, e, e']

/-- **C141 refuted: a run panics.** A target with a concurrency of 2^62: the capacity is negative, whatever the memory
of the process. -/
theorem C141_refuted_panics : room [(b!"x", 2 ^ 62)] < 0 ∧ ∀ max, ¬ Makes [(b!"x", 2 ^ 62)] max := by
  have h : room [(b!"x", 2 ^ 62)] < 0 := by decide
  exact ⟨h, fun max hm => absurd hm.1 (by omega)⟩

/-- What the settings of a target say, for the example below. -/
def hugeConfig : Book.Decoder :=
  ⟨fun _ t => match t with
    | .pg p => .ok (.pg { p with concurrency := 2 ^ 62 })
    | t => .ok t,
   fun m c => match c with
    | .pgExec _ => .ok (.pgExec m)
    | c => .ok c⟩

/-- A file in which these are the targets and the tasks is accepted. -/
theorem huge_accepted : ∃ book, Book.parse hugeConfig b!"/"
      ⟨[(b!"x", some ⟨b!"pg", b!"many"⟩), (b!"y", some ⟨b!"pg", b!"many"⟩)],
       [(b!"a", some ⟨[], b!"x/exec", [], b!"select 1"⟩), (b!"b", some ⟨[], b!"x/exec", [], b!"select 1"⟩),
        (b!"c", some ⟨[], b!"x/exec", [], b!"select 1"⟩), (b!"d", some ⟨[], b!"x/exec", [], b!"select 1"⟩)]⟩ = .ok book ∧
    Run.limits book = hugeTargets ∧ Run.jobs book = hugeTasks :=
  ⟨_, rfl, rfl, rfl⟩

/-- The hypotheses of `C141_succeeds_partial`: a capacity that has not wrapped around, and one that has but is large
enough. -/
example : capacity [(b!"x", 2), (b!"y", 3)] < 2 ^ 63 ∧ room [(b!"x", 2), (b!"y", 3)] = 10 ∧
    ¬ capacity [(b!"x", 2 ^ 62), (b!"y", 2 ^ 62 + 2)] < 2 ^ 63 ∧
    (hugeTasks.length : Int) ≤ room [(b!"x", 2 ^ 62), (b!"y", 2 ^ 62 + 2)] := by
  decide

end Verif.Runner
