import Verif.Sched.Ample

/-!
# C169: a target without tasks has no effect on the scheduler
-/

namespace Verif.Sched
open Verif Dag Spec

variable {targets targets' : GoMap Str Int} {tasks : GoMap Str Task} {s s' : Scheduler}

/-! ## Lemmas -/

/-- Two maps that read the same. -/
def Reads (m m' : GoMap Str Int) : Prop := ∀ q, getInt m q = getInt m' q

theorem Reads.set {m m' : GoMap Str Int} (h : Reads m m') (k : Str) (v : Int) : Reads (m.set k v) (m'.set k v) := by
  intro q; rw [getInt_set, getInt_set, h q]

theorem buildReadyLoop_reads {cap cap' : GoMap Str Int} (hc : Reads cap cap') : ∀ (pend : List (Str × List Str))
    {len len' : GoMap Str Int}, Reads len len' →
    (buildReadyLoop cap' pend len').1 = (buildReadyLoop cap pend len).1 ∧
    Reads (buildReadyLoop cap pend len).2.1 (buildReadyLoop cap' pend len').2.1 ∧
    (buildReadyLoop cap' pend len').2.2 = (buildReadyLoop cap pend len).2.2
  | [], _, _, h => ⟨rfl, h, rfl⟩
  | (q, ts) :: rest, len, len', h => by
    simp only [buildReadyLoop, ← hc q, ← h q]
    by_cases h1 : ts.length < 1
    · simp only [h1, if_true]
      obtain ⟨a, b, c⟩ := buildReadyLoop_reads hc rest h
      exact ⟨by rw [a], b, c⟩
    · simp only [h1, if_false]
      by_cases h2 : getInt cap q - getInt len q < 1
      · simp only [h2, if_true]
        obtain ⟨a, b, c⟩ := buildReadyLoop_reads hc rest h
        exact ⟨by rw [a], b, c⟩
      · simp only [h2, if_false]
        obtain ⟨a, b, c⟩ := buildReadyLoop_reads hc rest (h.set q (getInt len q +
          ((if getInt cap q - getInt len q > ts.length then ts.length else (getInt cap q - getInt len q).toNat : Nat) : Int)))
        exact ⟨by rw [a], b, by rw [c]⟩

/-- The same but for entries that make no difference when they are read. -/
structure ReadAlike (s s' : Scheduler) : Prop where
  deps : s'.deps = s.deps
  tasks : s'.tasks = s.tasks
  pending : s'.pending = s.pending
  cap : Reads s.targetCap s'.targetCap
  len : Reads s.targetLen s'.targetLen

theorem ReadAlike.buildReady (h : ReadAlike s s') : ReadAlike s.buildReady.1 s'.buildReady.1 ∧ s'.buildReady.2 = s.buildReady.2 := by
  obtain ⟨a, b, c⟩ := buildReadyLoop_reads h.cap s.pending h.len
  refine ⟨⟨h.deps, h.tasks, ?_, h.cap, ?_⟩, ?_⟩
  · simp only [Scheduler.buildReady, h.pending]; exact a
  · simp only [Scheduler.buildReady, h.pending]; exact b
  · simp only [Scheduler.buildReady, h.pending]; exact c

theorem ReadAlike.next (h : ReadAlike s s') (c : Str) : ReadAlike (s.next c).1 (s'.next c).1 ∧ (s'.next c).2 = (s.next c).2 := by
  have hn : s'.noPendingTasks = s.noPendingTasks := by
    unfold Scheduler.noPendingTasks; rw [h.deps, h.pending]
  unfold Scheduler.next
  rw [hn]
  cases e : s.noPendingTasks with
  | mk b p =>
    cases b with
    | true => exact ⟨⟨h.deps, h.tasks, rfl, h.cap, h.len⟩, rfl⟩
    | false =>
      simp only
      have := ReadAlike.buildReady (s := {
          s with
          deps := (s.deps.next c).1
          targetLen := s.targetLen.set (targetOf s.tasks c) (getInt s.targetLen (targetOf s.tasks c) - 1)
          pending := fillPending s.tasks (s.deps.next c).2 p })
        (s' := {
          s' with
          deps := (s'.deps.next c).1
          targetLen := s'.targetLen.set (targetOf s'.tasks c) (getInt s'.targetLen (targetOf s'.tasks c) - 1)
          pending := fillPending s'.tasks (s'.deps.next c).2 p })
        ⟨by rw [h.deps], h.tasks, by rw [h.deps, h.tasks], h.cap, by
          simp only [h.tasks, ← h.len (targetOf s.tasks c)]; exact h.len.set _ _⟩
      exact ⟨this.1, by rw [this.2]⟩

theorem zero_reads (m : GoMap Str Int) (q : Str) : getInt (m.map (fun p => (p.1, (0 : Int)))) q = 0 := by
  unfold getInt
  rw [GoMap.get?_map_val (fun _ _ => (0 : Int))]
  cases GoMap.get? m q <;> rfl

theorem new_reads (hr : Reads targets targets') {r : GoMap Str (List Str)} (h : new targets tasks = some (.ok (s, r))) :
    ∃ s', new targets' tasks = some (.ok (s', r)) ∧ ReadAlike s s' := by
  unfold new at h ⊢
  cases e : newDependencyGraph (tasks.map (fun p => (p.1, p.2.after))) with
  | none => rw [e] at h; simp at h
  | some x =>
    cases x with
    | error e' => rw [e] at h; simp at h
    | ok g =>
      rw [e] at h
      simp only [Option.some.injEq, Except.ok.injEq] at h ⊢
      obtain ⟨a, b⟩ := ReadAlike.buildReady (s := {
          deps := (g.next []).1
          tasks := tasks.map (fun p => (p.1, p.2.target))
          pending := fillPending (tasks.map (fun p => (p.1, p.2.target))) (g.next []).2 []
          targetCap := targets
          targetLen := targets.map (fun p => (p.1, 0)) })
        (s' := {
          deps := (g.next []).1
          tasks := tasks.map (fun p => (p.1, p.2.target))
          pending := fillPending (tasks.map (fun p => (p.1, p.2.target))) (g.next []).2 []
          targetCap := targets'
          targetLen := targets'.map (fun p => (p.1, 0)) })
        ⟨rfl, rfl, rfl, hr, fun q => by simp only [zero_reads]⟩
      rw [h] at a b
      exact ⟨_, Prod.ext rfl b, a⟩

theorem History.reads (hr : Reads targets targets') {out : List (Str × Str)} {calls : List Str}
    (h : History targets tasks s out calls) : ∃ s', History targets' tasks s' out calls ∧ ReadAlike s s' := by
  induction h with
  | new h =>
    obtain ⟨s', a, b⟩ := new_reads hr h
    exact ⟨s', .new a, b⟩
  | @next s s1 out calls r h c hn ih =>
    obtain ⟨s', i1, i2⟩ := ih
    obtain ⟨a, b⟩ := i2.next c
    rw [hn] at a b
    exact ⟨(s'.next c).1, .next i1 c (Prod.ext rfl b), a⟩
  | @refused s s1 out calls h c hn ih =>
    obtain ⟨s', i1, i2⟩ := ih
    obtain ⟨a, b⟩ := i2.next c
    rw [hn] at a b
    exact ⟨(s'.next c).1, .refused i1 c (Prod.ext rfl b), a⟩

theorem getInt_append {q q' : Str} {n : Int} (hq : q ∉ targets.keys) :
    getInt (targets ++ [(q, n)]) q' = if q = q' then n else getInt targets q' := by
  unfold getInt
  induction targets with
  | nil => simp [GoMap.get?_cons]; split <;> rfl
  | cons p rest ih =>
    obtain ⟨k, v⟩ := p
    simp only [GoMap.keys, List.map_cons, List.mem_cons, not_or] at hq
    simp only [List.cons_append, GoMap.get?_cons]
    by_cases hk : k = q'
    · subst hk
      simp [hq.1]
    · simp only [hk, if_false]
      exact ih hq.2

theorem idle_limits (wft : tasks.WF) {q : Str} {n : Int} (hq : q ∉ targets.keys)
    (hno : ∀ t task, tasks.get? t = some task → task.target ≠ q) (hn : 0 ≤ n) :
    AmpleLimits (targets ++ [(q, 0)]) (targets ++ [(q, n)]) tasks ∧ Reads targets (targets ++ [(q, 0)]) := by
  have h0 : tasksOf tasks q = 0 := by
    unfold tasksOf
    rw [List.length_eq_zero_iff, List.filter_eq_nil_iff]
    rintro ⟨t, task⟩ hm
    simpa using hno t task (GoMap.get?_of_mem wft hm)
  have hq0 : getInt targets q = 0 := by
    unfold getInt
    rw [GoMap.get?_eq_none.mpr hq]; rfl
  refine ⟨⟨by simp [GoMap.keys], fun q' => ?_⟩, fun q' => ?_⟩
  · rw [getInt_append hq, getInt_append hq]
    by_cases e : q = q'
    · subst e; right; simp [h0, hn]
    · left; simp [e]
  · rw [getInt_append hq]
    by_cases e : q = q'
    · subst e; simp [hq0]
    · simp [e]

/-- The answers to some calls. -/
def answers : Scheduler → List Str → List (Option (GoMap Str (List Str)))
  | _, [] => []
  | s, c :: l => (s.next c).2 :: answers (s.next c).1 l

/-- Answers the same to all calls that may follow. -/
def AnswersSame (s s' : Scheduler) : Prop := ∀ l : List Str, answers s l = answers s' l

theorem AnswersSame.next {s s' : Scheduler} (h : AnswersSame s s') (c : Str) :
    (s'.next c).2 = (s.next c).2 ∧ AnswersSame (s.next c).1 (s'.next c).1 := by
  refine ⟨?_, fun l => ?_⟩
  · have := h [c]; simp only [answers, List.cons.injEq, and_true] at this; exact this.symm
  · have := h (c :: l); simp only [answers, List.cons.injEq] at this; exact this.2

theorem ReadAlike.same : ∀ {s s' : Scheduler}, ReadAlike s s' → AnswersSame s s' := by
  intro s s' h l
  induction l generalizing s s' with
  | nil => rfl
  | cons c l ih =>
    obtain ⟨a, b⟩ := h.next c
    simp only [answers, b, ih a]

theorem ample_same (wft : tasks.WF) (ha : AmpleLimits targets targets' tasks) : ∀ {s : Scheduler} {rep rel : List Str}
    {out : List (Str × Str)}, SInv tasks s rep rel out → s.targetCap = targets → LenLe s out →
    AnswersSame s { s with targetCap := targets' } := by
  intro s rep rel out hi hc hl l
  induction l generalizing s rep rel out with
  | nil => rfl
  | cons c l ih =>
    obtain ⟨a, b, d, f⟩ := next_ample wft ha hi hc hl c
    simp only [answers, a, List.cons.injEq, true_and]
    cases e : s.next c with
    | mk s1 x =>
      rw [e] at b d f
      cases x with
      | none => exact ih (next_refused hi c e).1 b (f rfl)
      | some r => exact ih (next_pres hi c e).1 b (d r rfl)

theorem new_idle (wft : tasks.WF) {q : Str} {n : Int} (hq : q ∉ targets.keys)
    (hno : ∀ t task, tasks.get? t = some task → task.target ≠ q) (hn : 0 ≤ n) {r : GoMap Str (List Str)} :
    (∀ s, new targets tasks = some (.ok (s, r)) →
      ∃ s', new (targets ++ [(q, n)]) tasks = some (.ok (s', r)) ∧ AnswersSame s s') ∧
    ∀ s, new (targets ++ [(q, n)]) tasks = some (.ok (s, r)) →
      ∃ s', new targets tasks = some (.ok (s', r)) ∧ AnswersSame s s' := by
  obtain ⟨ha, hr⟩ := idle_limits (targets := targets) wft hq hno hn
  have key : ∀ {t1 t2 : GoMap Str Int} {s : Scheduler}, AmpleLimits t1 t2 tasks → new t1 tasks = some (.ok (s, r)) →
      new t2 tasks = some (.ok ({ s with targetCap := t2 }, r)) ∧ AnswersSame s { s with targetCap := t2 } := by
    intro t1 t2 s ha h
    obtain ⟨_, -, -, -, hi, -, -, hc⟩ := new_pres wft h
    obtain ⟨a, b⟩ := new_ample wft ha h
    exact ⟨a, ample_same wft ha hi hc b⟩
  constructor
  · intro s h
    obtain ⟨s1, a, b⟩ := new_reads hr h
    obtain ⟨c, d⟩ := key ha a
    exact ⟨_, c, fun l => (b.same l).trans (d l)⟩
  · intro s h
    obtain ⟨c, d⟩ := key ha.symm h
    obtain ⟨s1, a, b⟩ := new_reads (fun x => (hr x).symm) c
    exact ⟨_, a, fun l => (d l).trans (b.same l)⟩

/-! ## C169 -/

/-- **C169.** A target that no task has is added to a runbook.  Then the scheduler hands out the same, in the same order, to
every call, whatever is reported to it, and answers in the same way to the next call; and likewise when it is removed. -/
theorem C169_idle_target (wft : tasks.WF) {q : Str} {n : Int} (hq : q ∉ targets.keys)
    (hno : ∀ t task, tasks.get? t = some task → task.target ≠ q) (hn : 0 ≤ n) (out : List (Str × Str)) (calls : List Str) :
    (∀ s, History targets tasks s out calls →
      ∃ s', History (targets ++ [(q, n)]) tasks s' out calls ∧ ∀ c, (s'.next c).2 = (s.next c).2) ∧
    ∀ s, History (targets ++ [(q, n)]) tasks s out calls →
      ∃ s', History targets tasks s' out calls ∧ ∀ c, (s'.next c).2 = (s.next c).2 := by
  obtain ⟨ha, hr⟩ := idle_limits (targets := targets) wft hq hno hn
  constructor
  · intro s h
    obtain ⟨s1, a, b⟩ := h.reads hr
    obtain ⟨s2, c, d⟩ := C165_limits wft ha a
    exact ⟨s2, c, fun x => by rw [d x, (b.next x).2]⟩
  · intro s h
    obtain ⟨s1, a, b⟩ := C165_limits wft ha.symm h
    obtain ⟨s2, c, d⟩ := a.reads (fun x => (hr x).symm)
    exact ⟨s2, c, fun x => by rw [(d.next x).2, b x]⟩

/-- C169 is about something: a target without tasks beside one with two. -/
example : (∀ t task, GoMap.get? [(b!"a", (⟨b!"x", []⟩ : Task)), (b!"b", ⟨b!"x", [b!"a"]⟩)] t = some task → task.target ≠ b!"y") ∧
    ∃ s out, History ([(b!"x", 1)] ++ [(b!"y", 3)]) [(b!"a", ⟨b!"x", []⟩), (b!"b", ⟨b!"x", [b!"a"]⟩)] s out [b!"a"] ∧
      out = [(b!"x", b!"a"), (b!"x", b!"b")] := by
  constructor
  · intro t task h
    have := GoMap.mem_of_get? h
    simp only [List.mem_cons, Prod.mk.injEq, List.not_mem_nil, or_false] at this
    rcases this with ⟨-, rfl⟩ | ⟨-, rfl⟩ <;> decide
  · exact ⟨_, _, .next (.new rfl) _ rfl, by decide +kernel⟩

end Verif.Sched
