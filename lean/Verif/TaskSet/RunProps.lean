import Verif.TaskSet.Run
import Mathlib.Data.List.Count
import Mathlib.Data.List.Flatten

/-!
# C59-C61: `RunTasks`
-/

namespace Verif.TaskSet

variable {τ ε : Type}

section lemmas

/-- The part of the batch in hand that has not been started. -/
def Pc.rest : Pc τ ε → List τ
  | .spawn r => r
  | _ => []

/-- The result in hand. -/
def Pc.hand : Pc τ ε → List (τ × ε)
  | .forward r => [r]
  | .forwardLast r => [r]
  | _ => []

/-- The goroutine has left the first loop. -/
def Pc.late : Pc τ ε → Bool
  | .shutdown | .forwardLast _ | .check | .done => true
  | _ => false

/-- The invariant. -/
structure Inv (cap : Nat) (s : St τ ε) : Prop where
  submitted : s.submitted.Perm (s.queue.flatten ++ s.pc.rest ++ s.started)
  started : s.started.Perm (s.executing ++ s.ran.map Prod.fst)
  ran : s.ran.Perm (s.finished ++ s.pc.hand ++ s.results ++ s.received)
  running : s.running = s.executing.length + s.finished.length + s.pc.hand.length
  late : s.pc.late = true → s.queueClosed = true ∧ s.queue = []
  same : s.relayClosed = s.resultsClosed
  closed : s.relayClosed = true → (s.pc = .shutdown ∨ s.pc = .done) ∧ s.running = 0
  done : s.pc = .done → s.relayClosed = true
  noPanic : s.panicked = false
  room : s.results.length ≤ cap

theorem inv_init (cap : Nat) : Inv cap ({} : St τ ε) := by
  constructor <;> simp [Pc.rest, Pc.hand, Pc.late]

open Classical in
theorem inv_step {cap : Nat} {s s' : St τ ε} (hi : Inv cap s) (hs : Step cap s s') : Inv cap s' := by
  obtain ⟨i1, i2, i3, i4, i5, i6, i7, i8, i9, i10⟩ := hi
  simp only [List.perm_iff_count] at i1 i2 i3
  rcases hs with hs | hs
  · cases hs with
    | send batch ho hr =>
      refine ⟨?_, List.perm_iff_count.2 i2, List.perm_iff_count.2 i3, i4, ?_, i6, i7, i8, i9, i10⟩
      · refine List.perm_iff_count.2 fun t => ?_
        have := i1 t
        simp only [List.count_append, List.flatten_append, List.flatten_cons, List.flatten_nil,
          List.count_nil] at this ⊢
        omega
      · intro h
        have := (i5 h).1
        simp [ho] at this
    | sendDirect batch ho hq hp =>
      refine ⟨?_, List.perm_iff_count.2 i2, ?_, ?_, ?_, i6, ?_, ?_, i9, i10⟩
      · refine List.perm_iff_count.2 fun t => ?_
        have := i1 t
        simp only [List.count_append, hq, hp, Pc.rest, List.flatten_nil, List.count_nil] at this ⊢
        omega
      · simpa [hp, Pc.hand, List.perm_iff_count] using i3
      · simpa [hp, Pc.hand] using i4
      · intro h; cases h
      · intro h; have := i7 h; simp [hp] at this
      · intro h; cases h
    | close ho =>
      exact ⟨List.perm_iff_count.2 i1, List.perm_iff_count.2 i2, List.perm_iff_count.2 i3, i4,
        fun h => ⟨rfl, (i5 h).2⟩, i6, i7, i8, i9, i10⟩
  · cases hs with
    | recv r rest h =>
      refine ⟨List.perm_iff_count.2 i1, List.perm_iff_count.2 i2, ?_, i4, i5, i6, i7, i8, i9, ?_⟩
      · refine List.perm_iff_count.2 fun t => ?_
        have := i3 t
        simp only [List.count_append, h, List.count_cons, List.count_nil] at this ⊢
        omega
      · simp only [h, List.length_cons] at i10 ⊢; omega
    | recvDirect r h hp =>
      refine ⟨?_, List.perm_iff_count.2 i2, ?_, ?_, ?_, i6, ?_, ?_, i9, i10⟩
      · simpa [hp, Pc.rest, List.perm_iff_count] using i1
      · refine List.perm_iff_count.2 fun t => ?_
        have := i3 t
        simp only [List.count_append, h, hp, Pc.hand, List.count_cons, List.count_nil] at this ⊢
        omega
      · simp only [hp, Pc.hand, List.length_cons, List.length_nil] at i4 ⊢; omega
      · intro h; cases h
      · intro h; have := i7 h; simp [hp] at this
      · intro h; cases h
    | recvDirectLast r h hp =>
      refine ⟨?_, List.perm_iff_count.2 i2, ?_, ?_, ?_, i6, ?_, ?_, i9, i10⟩
      · simpa [hp, Pc.rest, List.perm_iff_count] using i1
      · refine List.perm_iff_count.2 fun t => ?_
        have := i3 t
        simp only [List.count_append, h, hp, Pc.hand, List.count_cons, List.count_nil] at this ⊢
        omega
      · simp only [hp, Pc.hand, List.length_cons, List.length_nil] at i4 ⊢; omega
      · intro _; exact i5 (by simp [hp, Pc.late])
      · intro h; have := i7 h; simp [hp] at this
      · intro h; cases h
    | take batch rest hp hq =>
      refine ⟨?_, List.perm_iff_count.2 i2, ?_, ?_, ?_, i6, ?_, ?_, i9, i10⟩
      · refine List.perm_iff_count.2 fun t => ?_
        have := i1 t
        simp only [List.count_append, hq, hp, Pc.rest, List.flatten_cons, List.count_nil] at this ⊢
        omega
      · simpa [hp, Pc.hand, List.perm_iff_count] using i3
      · simpa [hp, Pc.hand] using i4
      · intro h; cases h
      · intro h; have := i7 h; simp [hp] at this
      · intro h; cases h
    | spawn a b t hp =>
      refine ⟨?_, ?_, ?_, ?_, ?_, i6, ?_, ?_, i9, i10⟩
      · refine List.perm_iff_count.2 fun x => ?_
        have := i1 x
        simp only [List.count_append, hp, Pc.rest, List.count_cons, List.count_nil] at this ⊢
        omega
      · refine List.perm_iff_count.2 fun x => ?_
        have := i2 x
        simp only [List.count_append, List.count_cons, List.count_nil] at this ⊢
        omega
      · simpa [hp, Pc.hand, List.perm_iff_count] using i3
      · simp only [hp, Pc.hand, List.length_append, List.length_cons, List.length_nil] at i4 ⊢; omega
      · intro h; cases h
      · intro h; have := i7 h; simp [hp] at this
      · intro h; cases h
    | spawned hp =>
      refine ⟨?_, List.perm_iff_count.2 i2, ?_, ?_, ?_, i6, ?_, ?_, i9, i10⟩
      · simpa [hp, Pc.rest, List.perm_iff_count] using i1
      · simpa [hp, Pc.hand, List.perm_iff_count] using i3
      · simpa [hp, Pc.hand] using i4
      · intro h; cases h
      · intro h; have := i7 h; simp [hp] at this
      · intro h; cases h
    | finish a b t e h =>
      refine ⟨List.perm_iff_count.2 i1, ?_, ?_, ?_, i5, i6, i7, i8, i9, i10⟩
      · refine List.perm_iff_count.2 fun x => ?_
        have := i2 x
        simp only [List.count_append, h, List.count_cons, List.count_nil, List.map_append,
          List.map_cons, List.map_nil] at this ⊢
        omega
      · refine List.perm_iff_count.2 fun x => ?_
        have := i3 x
        simp only [List.count_append, List.count_cons, List.count_nil] at this ⊢
        omega
      · simp only [h, List.length_append, List.length_cons, List.length_nil] at i4 ⊢; omega
    | relay a b r hp h =>
      refine ⟨?_, List.perm_iff_count.2 i2, ?_, ?_, ?_, i6, ?_, ?_, i9, i10⟩
      · simpa [hp, Pc.rest, List.perm_iff_count] using i1
      · refine List.perm_iff_count.2 fun x => ?_
        have := i3 x
        simp only [List.count_append, h, hp, Pc.hand, List.count_cons, List.count_nil] at this ⊢
        omega
      · simp only [h, hp, Pc.hand, List.length_append, List.length_cons, List.length_nil] at i4 ⊢
        omega
      · intro h; cases h
      · intro h; have := i7 h; simp [hp] at this
      · intro h; cases h
    | put r hp hr =>
      refine ⟨?_, List.perm_iff_count.2 i2, ?_, ?_, ?_, i6, ?_, ?_, i9, ?_⟩
      · simpa [hp, Pc.rest, List.perm_iff_count] using i1
      · refine List.perm_iff_count.2 fun x => ?_
        have := i3 x
        simp only [List.count_append, hp, Pc.hand, List.count_cons, List.count_nil] at this ⊢
        omega
      · simp only [hp, Pc.hand, List.length_cons, List.length_nil] at i4 ⊢; omega
      · intro h; cases h
      · intro h; have := i7 h; simp [hp] at this
      · intro h; cases h
      · simp only [List.length_append, List.length_cons, List.length_nil]; omega
    | notice hp hq hc =>
      refine ⟨?_, List.perm_iff_count.2 i2, ?_, ?_, fun _ => ⟨hc, hq⟩, i6, ?_, ?_, i9, i10⟩
      · simpa [hp, Pc.rest, List.perm_iff_count] using i1
      · simpa [hp, Pc.hand, List.perm_iff_count] using i3
      · simpa [hp, Pc.hand] using i4
      · intro h; have := i7 h; simp [hp] at this
      · intro h; cases h
    | relayLast a b r hp ho h =>
      refine ⟨?_, List.perm_iff_count.2 i2, ?_, ?_, ?_, i6, ?_, ?_, i9, i10⟩
      · simpa [hp, Pc.rest, List.perm_iff_count] using i1
      · refine List.perm_iff_count.2 fun x => ?_
        have := i3 x
        simp only [List.count_append, h, hp, Pc.hand, List.count_cons, List.count_nil] at this ⊢
        omega
      · simp only [h, hp, Pc.hand, List.length_append, List.length_cons, List.length_nil] at i4 ⊢
        omega
      · intro _; exact i5 (by simp [hp, Pc.late])
      · intro h; simp [ho] at h
      · intro h; cases h
    | putLast r hp hr =>
      refine ⟨?_, List.perm_iff_count.2 i2, ?_, ?_, ?_, i6, ?_, ?_, i9, ?_⟩
      · simpa [hp, Pc.rest, List.perm_iff_count] using i1
      · refine List.perm_iff_count.2 fun x => ?_
        have := i3 x
        simp only [List.count_append, hp, Pc.hand, List.count_cons, List.count_nil] at this ⊢
        omega
      · simp only [hp, Pc.hand, List.length_cons, List.length_nil] at i4 ⊢; omega
      · intro _; exact i5 (by simp [hp, Pc.late])
      · intro h; have := i7 h; simp [hp] at this
      · intro h; cases h
      · simp only [List.length_append, List.length_cons, List.length_nil]; omega
    | last hp h =>
      have hc : s.relayClosed = false := by
        cases hc : s.relayClosed with
        | false => rfl
        | true => have := i7 hc; simp [hp] at this
      refine ⟨?_, List.perm_iff_count.2 i2, ?_, ?_, ?_, rfl, ?_, ?_, ?_, i10⟩
      · simpa [hp, Pc.rest, List.perm_iff_count] using i1
      · simpa [hp, Pc.hand, List.perm_iff_count] using i3
      · simpa [hp, Pc.hand] using i4
      · intro _; exact i5 (by simp [hp, Pc.late])
      · intro _; exact ⟨.inl rfl, by simp only; omega⟩
      · intro h; cases h
      · simp [i9, hc, ← i6]
    | more hp h =>
      refine ⟨?_, List.perm_iff_count.2 i2, ?_, ?_, ?_, i6, ?_, ?_, i9, i10⟩
      · simpa [hp, Pc.rest, List.perm_iff_count] using i1
      · simpa [hp, Pc.hand, List.perm_iff_count] using i3
      · simpa [hp, Pc.hand] using i4
      · intro _; exact i5 (by simp [hp, Pc.late])
      · intro h; have := i7 h; simp [hp] at this
      · intro h; cases h
    | ends hp h =>
      refine ⟨?_, List.perm_iff_count.2 i2, ?_, ?_, ?_, i6, ?_, fun _ => h, i9, i10⟩
      · simpa [hp, Pc.rest, List.perm_iff_count] using i1
      · simpa [hp, Pc.hand, List.perm_iff_count] using i3
      · simpa [hp, Pc.hand] using i4
      · intro _; exact i5 (by simp [hp, Pc.late])
      · intro _; exact ⟨.inr rfl, (i7 h).2⟩
    | panic h hc hp =>
      have h0 := (i7 hc).2
      have : s.finished.length = 0 := by omega
      exact absurd (List.length_eq_zero_iff.1 this) h

theorem inv_steps {cap : Nat} {s s' : St τ ε} (hi : Inv cap s) (h : Steps cap s s') : Inv cap s' := by
  induction h with
  | refl => exact hi
  | tail _ hs ih => exact inv_step ih hs

theorem inv_of_reachable {cap : Nat} {s : St τ ε} (h : Reachable cap s) : Inv cap s :=
  inv_steps (inv_init cap) h

/-- In a quiet state nothing is under way. -/
theorem quiet_empty [Nonempty ε] {cap : Nat} {s : St τ ε} (hi : Inv cap s) (hq : Quiet cap s) :
    s.queue = [] ∧ s.executing = [] ∧ s.finished = [] ∧ s.results = [] ∧ s.pc.rest = [] ∧
      s.pc.hand = [] ∧ (s.pc = .select ∨ (s.pc = .shutdown ∧ s.relayClosed = false) ∨ s.pc = .done) := by
  obtain ⟨e⟩ := ‹Nonempty ε›
  have hres : s.results = [] := by
    cases h : s.results with
    | nil => rfl
    | cons r rest => exact absurd (Move.recv s r rest h) (hq _)
  have hex : s.executing = [] := by
    cases h : s.executing with
    | nil => rfl
    | cons t rest => exact absurd (Move.finish s [] rest t e h) (hq _)
  cases hp : s.pc with
  | select =>
    have h1 : s.queue = [] := by
      cases h : s.queue with
      | nil => rfl
      | cons b rest => exact absurd (Move.take s b rest hp h) (hq _)
    have h2 : s.finished = [] := by
      cases h : s.finished with
      | nil => rfl
      | cons r rest => exact absurd (Move.relay s [] rest r hp h) (hq _)
    exact ⟨h1, hex, h2, hres, rfl, rfl, .inl rfl⟩
  | spawn l =>
    cases l with
    | nil => exact absurd (Move.spawned s hp) (hq _)
    | cons t rest => exact absurd (Move.spawn s [] rest t hp) (hq _)
  | forward r => exact absurd (Move.recvDirect s r hres hp) (hq _)
  | forwardLast r => exact absurd (Move.recvDirectLast s r hres hp) (hq _)
  | shutdown =>
    have hc : s.relayClosed = false := by
      cases h : s.relayClosed with
      | false => rfl
      | true => exact absurd (Move.ends s hp h) (hq _)
    have h2 : s.finished = [] := by
      cases h : s.finished with
      | nil => rfl
      | cons r rest => exact absurd (Move.relayLast s [] rest r hp hc h) (hq _)
    exact ⟨(hi.late (by simp [hp, Pc.late])).2, hex, h2, hres, rfl, rfl, .inr (.inl ⟨rfl, hc⟩)⟩
  | check =>
    by_cases h : s.running < 1
    · exact absurd (Move.last s hp h) (hq _)
    · exact absurd (Move.more s hp h) (hq _)
  | done =>
    have h0 := (hi.closed (hi.done hp)).2
    have := hi.running
    have h2 : s.finished = [] := List.length_eq_zero_iff.1 (by omega)
    exact ⟨(hi.late (by simp [hp, Pc.late])).2, hex, h2, hres, rfl, rfl, .inr (.inr rfl)⟩

/-- What is left to do in a position of the goroutine. -/
def Pc.weight : Pc τ ε → Nat
  | .select => 2
  | .spawn r => 3 + 6 * r.length
  | .forward _ => 5
  | .shutdown => 1
  | .forwardLast _ => 4
  | .check => 2
  | .done => 0

/-- What is left to do without further submissions. -/
def St.weight (s : St τ ε) : Nat :=
  6 * s.queue.flatten.length + 2 * s.queue.length + 5 * s.executing.length +
    4 * s.finished.length + s.results.length + s.pc.weight

theorem weight_move {cap : Nat} {s s' : St τ ε} (hi : Inv cap s) (h : Move cap s s') :
    s'.weight < s.weight := by
  cases h with
  | panic h hc hp =>
    have h0 := (hi.closed hc).2
    have := hi.running
    exact absurd (List.length_eq_zero_iff.1 (by omega)) h
  | _ =>
    simp only [St.weight, *, Pc.weight, List.length_append, List.length_cons, List.length_nil,
      List.flatten_cons]
    omega

theorem weight_moves {cap n : Nat} {s s' : St τ ε} (hi : Inv cap s) (h : Moves cap n s s') :
    Inv cap s' ∧ n + s'.weight ≤ s.weight := by
  induction h with
  | refl => exact ⟨hi, by omega⟩
  | tail _ hm ih =>
    obtain ⟨h1, h2⟩ := ih hi
    have := weight_move h1 hm
    exact ⟨inv_step h1 (.inr hm), by omega⟩

end lemmas

/-- C59. At any time each submitted task has been started at most once, only submitted tasks are
executed, and what has reached the results channel are the outcomes of executions, each at most once.
A client that goes on receiving does so after boundedly many steps, and once nothing moves any more
every submitted task has been executed exactly once and every outcome received exactly once. -/
theorem C59_exactly_once [Nonempty ε] (cap : Nat) (s : St τ ε) (h : Reachable cap s) :
    s.started.Subperm s.submitted ∧ (s.ran.map Prod.fst).Subperm s.started ∧
    (s.results ++ s.received).Subperm s.ran ∧ s.panicked = false ∧
    (∃ bound, ∀ n s', Moves cap n s s' → n ≤ bound) ∧
    (Quiet cap s → s.started.Perm s.submitted ∧ (s.ran.map Prod.fst).Perm s.submitted ∧
      s.received.Perm s.ran) := by
  have hi := inv_of_reachable h
  refine ⟨?_, ?_, ?_, hi.noPanic, ⟨s.weight, ?_⟩, ?_⟩
  · exact ((List.sublist_append_right _ _).subperm).trans hi.submitted.symm.subperm
  · exact ((List.sublist_append_right _ _).subperm).trans hi.started.symm.subperm
  · refine List.Subperm.trans ?_ hi.ran.symm.subperm
    rw [List.append_assoc]
    exact (List.sublist_append_right _ _).subperm
  · intro n s' hm
    have := (weight_moves hi hm).2
    omega
  · intro hq
    obtain ⟨h1, h2, h3, h4, h5, h6, -⟩ := quiet_empty hi hq
    have a := hi.submitted
    have b := hi.started
    have c := hi.ran
    rw [h1, h5] at a
    rw [h2] at b
    rw [h3, h4, h6] at c
    simp only [List.flatten_nil, List.nil_append] at a b c
    exact ⟨a.symm, b.symm.trans a.symm, c.symm⟩

/-- The client sends the batch {1, 2}, the tasks are started, both end and the results are received: a
quiet state. -/
example : ∃ s : St Nat Bool, Reachable 1 s ∧ s.submitted = [1, 2] ∧
    s.received = [(2, true), (1, false)] ∧ Quiet 1 s := by
  let s0 : St Nat Bool := {}
  let s1 : St Nat Bool := { s0 with queue := [[1, 2]], submitted := [1, 2] }
  let s2 : St Nat Bool := { s1 with queue := [], pc := .spawn [1, 2] }
  let s3 : St Nat Bool := { s2 with pc := .spawn [1], executing := [2], started := [2], running := 1 }
  let s4 : St Nat Bool := { s3 with pc := .spawn [], executing := [2, 1], started := [2, 1], running := 2 }
  let s5 : St Nat Bool := { s4 with pc := .select }
  let s6 : St Nat Bool := { s5 with executing := [1], finished := [(2, true)], ran := [(2, true)] }
  let s7 : St Nat Bool := { s6 with pc := .forward (2, true), finished := [] }
  let s8 : St Nat Bool := { s7 with pc := .select, results := [(2, true)], running := 1 }
  let s9 : St Nat Bool := { s8 with executing := [], finished := [(1, false)], ran := [(2, true), (1, false)] }
  let s10 : St Nat Bool := { s9 with pc := .forward (1, false), finished := [] }
  let s11 : St Nat Bool := { s10 with results := [], received := [(2, true)] }
  let s12 : St Nat Bool := { s11 with pc := .select, running := 0, received := [(2, true), (1, false)] }
  refine ⟨s12, ?_, rfl, rfl, ?_⟩
  · refine Steps.tail (s' := s11) ?_ (.inr (Move.recvDirect s11 _ rfl rfl))
    refine Steps.tail (s' := s10) ?_ (.inr (Move.recv s10 _ _ rfl))
    refine Steps.tail (s' := s9) ?_ (.inr (Move.relay s9 [] [] _ rfl rfl))
    refine Steps.tail (s' := s8) ?_ (.inr (Move.finish s8 [] [] 1 false rfl))
    refine Steps.tail (s' := s7) ?_ (.inr (Move.put s7 _ rfl (by decide)))
    refine Steps.tail (s' := s6) ?_ (.inr (Move.relay s6 [] [] _ rfl rfl))
    refine Steps.tail (s' := s5) ?_ (.inr (Move.finish s5 [] [1] 2 true rfl))
    refine Steps.tail (s' := s4) ?_ (.inr (Move.spawned s4 rfl))
    refine Steps.tail (s' := s3) ?_ (.inr (Move.spawn s3 [] [] 1 rfl))
    refine Steps.tail (s' := s2) ?_ (.inr (Move.spawn s2 [1] [] 2 rfl))
    refine Steps.tail (s' := s1) ?_ (.inr (Move.take s1 _ _ rfl rfl))
    exact Steps.tail (.refl _) (.inl (Submit.send s0 [1, 2] rfl (by decide)))
  · intro s' h
    cases h <;> simp_all [s12, s11, s10, s9, s8, s7, s6, s5, s4, s3, s2, s1, s0]

/-- `RunTasks` has shut down: the results channel is closed and its goroutine has returned. -/
def ShutDown (s : St τ ε) : Prop := s.resultsClosed = true ∧ s.pc = .done

/-- C60 is false of the code. A client that closes the queue when it has received the results of
everything it submitted is never told the end: in whatever way things go on, the results channel
stays open and the goroutine does not return. This is so for every such client, and in particular
for one that submits nothing. -/
theorem C60_refuted :
    (∀ (cap : Nat) (s s' : St τ ε), Reachable cap s → s.received.length = s.submitted.length →
      s.queueClosed = false → Steps cap { s with queueClosed := true } s' →
      s'.resultsClosed = false ∧ s'.pc ≠ .done) ∧
    ∃ (cap : Nat) (s : St Nat Bool), Reachable cap s ∧ s.queueClosed = true ∧ Quiet cap s ∧
      ¬ ShutDown s := by
  refine ⟨?_, 1, { queueClosed := true, pc := .shutdown }, ?_, rfl, ?_, by simp [ShutDown]⟩
  · intro cap s s' hr hl ho hs
    have key : Inv cap s' ∧ s'.received.length = s'.submitted.length ∧ s'.queueClosed = true ∧
        s'.relayClosed = false ∧ s'.pc ≠ .done ∧ s'.pc ≠ .check := by
      have hlen : ∀ x : St τ ε, Inv cap x → x.received.length = x.submitted.length →
          x.finished = [] ∧ x.pc.hand = [] := by
        intro x hx he
        have h1 := hx.submitted.length_eq
        have h2 := hx.started.length_eq
        have h3 := hx.ran.length_eq
        simp only [List.length_append, List.length_map] at h1 h2 h3
        exact ⟨List.length_eq_zero_iff.1 (by omega), List.length_eq_zero_iff.1 (by omega)⟩
      induction hs with
      | refl =>
        have hi := inv_of_reachable hr
        have hlate : s.pc.late = false := by
          cases h : s.pc.late with
          | false => rfl
          | true => have := (hi.late h).1; simp [ho] at this
        have hp : s.pc ≠ .shutdown ∧ s.pc ≠ .done ∧ s.pc ≠ .check := by
          refine ⟨?_, ?_, ?_⟩ <;> intro h <;> simp [h, Pc.late] at hlate
        have hc : s.relayClosed = false := by
          cases h : s.relayClosed with
          | false => rfl
          | true => have := (hi.closed h).1; simp [hp] at this
        exact ⟨inv_step hi (.inl (.close s ho)), hl, rfl, hc, hp.2.1, hp.2.2⟩
      | tail _ hst ih =>
        obtain ⟨i0, i1, i2, i3, i4, i5⟩ := ih
        obtain ⟨k1, k2⟩ := hlen _ i0 i1
        have i0' := inv_step i0 hst
        refine ⟨i0', ?_⟩
        rcases hst with hst | hst
        · cases hst with
          | send _ ho' => rw [i2] at ho'; cases ho'
          | sendDirect _ ho' => rw [i2] at ho'; cases ho'
          | close ho' => rw [i2] at ho'; cases ho'
        · cases hst with
          | recv r rest h =>
            have h1 := i0'.submitted.length_eq
            have h2 := i0'.started.length_eq
            have h3 := i0'.ran.length_eq
            simp only [List.length_append, List.length_map, List.length_cons, List.length_nil]
              at h1 h2 h3
            omega
          | recvDirect r h hp => simp [hp, Pc.hand] at k2
          | recvDirectLast r h hp => simp [hp, Pc.hand] at k2
          | take b r hp hq => exact ⟨i1, i2, i3, by simp, by simp⟩
          | spawn a b t hp => exact ⟨i1, i2, i3, by simp, by simp⟩
          | spawned hp => exact ⟨i1, i2, i3, by simp, by simp⟩
          | finish a b t e h => exact ⟨i1, i2, i3, i4, i5⟩
          | relay a b r hp h => simp [k1] at h
          | put r hp => simp [hp, Pc.hand] at k2
          | notice hp => exact ⟨i1, i2, i3, by simp, by simp⟩
          | relayLast a b r hp ho h => simp [k1] at h
          | putLast r hp => simp [hp, Pc.hand] at k2
          | last hp => exact absurd hp i5
          | more hp => exact absurd hp i5
          | ends hp h => rw [i3] at h; cases h
          | panic h => exact absurd k1 h
    exact ⟨by rw [← key.1.same]; exact key.2.2.2.1, key.2.2.2.2.1⟩
  · refine Steps.tail (s' := { queueClosed := true }) ?_ (.inr (Move.notice _ rfl rfl rfl))
    exact Steps.tail (.refl _) (.inl (Submit.close _ rfl))
  · intro s' h
    cases h <;> simp_all

/-- C60, the part that holds: if the goroutine sees the queue closed while the result of some task is
still to come, then, once nothing moves any more, it has shut down, after delivering every result.
The results channel is never closed before that. What is missing: a queue closed when idle, which is
never noticed (`C60_refuted`). -/
theorem C60_shuts_down_partial [Nonempty ε] (cap : Nat) (s : St τ ε) (h : Reachable cap s) :
    (s.resultsClosed = true → s.queueClosed = true ∧ (s.ran.map Prod.fst).Perm s.submitted ∧
      (s.results ++ s.received).Perm s.ran) ∧
    (s.pc = .shutdown → 0 < s.running → ∀ s', Steps cap s s' → Quiet cap s' →
      ShutDown s' ∧ s'.received.Perm s'.ran ∧ (s'.ran.map Prod.fst).Perm s'.submitted) := by
  have hi := inv_of_reachable h
  refine ⟨?_, ?_⟩
  · intro hc
    rw [← hi.same] at hc
    obtain ⟨hp, h0⟩ := hi.closed hc
    have hrun := hi.running
    have hl := hi.late (by rcases hp with hp | hp <;> simp [hp, Pc.late])
    have h1 : s.executing = [] := List.length_eq_zero_iff.1 (by omega)
    have h2 : s.finished = [] := List.length_eq_zero_iff.1 (by omega)
    have a := hi.submitted
    have b := hi.started
    have c := hi.ran
    have hr : s.pc.rest = [] ∧ s.pc.hand = [] := by
      rcases hp with hp | hp <;> simp [hp, Pc.rest, Pc.hand]
    rw [hl.2, hr.1] at a
    rw [h1] at b
    rw [h2, hr.2] at c
    simp only [List.flatten_nil, List.nil_append] at a b c
    exact ⟨hl.1, b.symm.trans a.symm, c.symm⟩
  · intro hp hrun s' hs hq
    have key : Inv cap s' ∧ s'.pc.late = true ∧
        (s'.relayClosed = false → s'.pc = .check ∨ 0 < s'.running) := by
      clear hq
      induction hs with
      | refl => exact ⟨hi, by simp [hp, Pc.late], fun _ => .inr hrun⟩
      | tail _ hst ih =>
        obtain ⟨i0, i1, i2⟩ := ih
        have i0' := inv_step i0 hst
        have hcl := (i0.late i1).1
        refine ⟨i0', ?_⟩
        rcases hst with hst | hst
        · cases hst with
          | send _ ho' => rw [hcl] at ho'; cases ho'
          | sendDirect _ ho' => rw [hcl] at ho'; cases ho'
          | close ho' => rw [hcl] at ho'; cases ho'
        · cases hst with
          | recv r rest h => exact ⟨i1, i2⟩
          | recvDirect r h hp => simp [hp, Pc.late] at i1
          | recvDirectLast r h hp => exact ⟨rfl, fun _ => .inl rfl⟩
          | take b r hp hq => simp [hp, Pc.late] at i1
          | spawn a b t hp => simp [hp, Pc.late] at i1
          | spawned hp => simp [hp, Pc.late] at i1
          | finish a b t e h => exact ⟨i1, i2⟩
          | relay a b r hp h => simp [hp, Pc.late] at i1
          | put r hp => simp [hp, Pc.late] at i1
          | notice hp => simp [hp, Pc.late] at i1
          | relayLast a b r hp ho h =>
            refine ⟨rfl, fun hc => .inr ?_⟩
            rcases i2 hc with h' | h'
            · simp [hp] at h'
            · exact h'
          | putLast r hp => exact ⟨rfl, fun _ => .inl rfl⟩
          | last hp => exact ⟨rfl, fun hc => by cases hc⟩
          | more hp h => exact ⟨rfl, fun hc => .inr (by simp only; omega)⟩
          | ends hp h => exact ⟨rfl, fun hc => by simp only [h] at hc; cases hc⟩
          | panic h hc hp =>
            have h0 := (i0.closed hc).2
            have := i0.running
            exact absurd (List.length_eq_zero_iff.1 (by omega)) h
    obtain ⟨k1, k2, k3⟩ := key
    obtain ⟨h1, h2, h3, h4, h5, h6, h7⟩ := quiet_empty k1 hq
    have a := k1.submitted
    have b := k1.started
    have c := k1.ran
    have d := k1.running
    rw [h1, h5] at a
    rw [h2] at b
    rw [h3, h4, h6] at c
    rw [h2, h3, h6] at d
    simp only [List.flatten_nil, List.nil_append, List.length_nil] at a b c d
    refine ⟨?_, c.symm, b.symm.trans a.symm⟩
    rcases h7 with h7 | h7 | h7
    · simp [h7, Pc.late] at k2
    · rcases k3 h7.2 with h' | h'
      · simp [h7.1] at h'
      · simp [d] at h'
    · exact ⟨by rw [← k1.same]; exact k1.done h7, h7⟩

/-- The hypotheses of the second part are met: the queue is closed while task 7 is executing. -/
example : ∃ s : St Nat Bool, Reachable 1 s ∧ s.pc = .shutdown ∧ 0 < s.running := by
  let s0 : St Nat Bool := {}
  let s1 : St Nat Bool := { s0 with pc := .spawn [7], submitted := [7] }
  let s2 : St Nat Bool := { s1 with pc := .spawn [], executing := [7], started := [7], running := 1 }
  let s3 : St Nat Bool := { s2 with pc := .select }
  let s4 : St Nat Bool := { s3 with queueClosed := true }
  refine ⟨{ s4 with pc := .shutdown }, ?_, rfl, by decide⟩
  refine Steps.tail (s' := s4) ?_ (.inr (Move.notice s4 rfl rfl rfl))
  refine Steps.tail (s' := s3) ?_ (.inl (Submit.close s3 rfl))
  refine Steps.tail (s' := s2) ?_ (.inr (Move.spawned s2 rfl))
  refine Steps.tail (s' := s1) ?_ (.inr (Move.spawn s1 [] [] 7 rfl))
  exact Steps.tail (.refl _) (.inl (Submit.sendDirect s0 [7] rfl rfl rfl))

/-- C61 is false of the code: however large a batch is, all its tasks run at the same time. -/
theorem C61_refuted (cap : Nat) (batch : List τ) :
    ∃ s : St τ ε, Reachable cap s ∧ s.executing = batch := by
  have key : ∀ (l done : List τ), Steps cap
      ({ pc := .spawn l, submitted := batch, executing := done, started := done,
         running := done.length } : St τ ε)
      { pc := .spawn [], submitted := batch, executing := done ++ l, started := done ++ l,
        running := (done ++ l).length } := by
    intro l
    induction l with
    | nil => intro done; simp only [List.append_nil]; exact .refl _
    | cons t l ih =>
      intro done
      have h1 := ih (done ++ [t])
      simp only [List.append_assoc, List.singleton_append] at h1
      have trans : ∀ {a b c : St τ ε}, Step cap a b → Steps cap b c → Steps cap a c := by
        intro a b c hab hbc
        induction hbc with
        | refl => exact .tail (.refl _) hab
        | tail _ h ih => exact .tail ih h
      refine trans (.inr ?_) h1
      have := Move.spawn (cap := cap)
        ({ pc := .spawn (t :: l), submitted := batch, executing := done, started := done,
           running := done.length } : St τ ε) [] l t rfl
      simpa using this
  have h0 : Reachable cap ({ pc := .spawn batch, submitted := batch } : St τ ε) :=
    .tail (.refl _) (.inl (Submit.sendDirect {} batch rfl rfl rfl))
  have trans : ∀ {a b c : St τ ε}, Steps cap a b → Steps cap b c → Steps cap a c := by
    intro a b c hab hbc
    induction hbc with
    | refl => exact hab
    | tail _ h ih => exact .tail ih h
  have h1 := key batch []
  simp only [List.length_nil, List.nil_append] at h1
  exact ⟨_, trans h0 h1, rfl⟩

/-- C61, the part that holds: no more tasks run at the same time than the client has submitted without
having received their result; a client that keeps this within `maxConcurrency` gets what it asks for.
What is missing: a limit of `RunTasks`' own. -/
theorem C61_concurrency_partial (cap : Nat) (s : St τ ε) (h : Reachable cap s) :
    s.executing.length + s.received.length ≤ s.submitted.length ∧
    (s.submitted.length ≤ s.received.length + cap → s.executing.length ≤ cap) := by
  have hi := inv_of_reachable h
  have h1 := hi.submitted.length_eq
  have h2 := hi.started.length_eq
  have h3 := hi.ran.length_eq
  simp only [List.length_append, List.length_map] at h1 h2 h3
  omega

/-- A client within the limit: one task submitted and executing, with `maxConcurrency` 1. -/
example : ∃ s : St Nat Bool, Reachable 1 s ∧ s.submitted.length ≤ s.received.length + 1 ∧
    s.executing = [7] := by
  let s1 : St Nat Bool := { pc := .spawn [7], submitted := [7] }
  refine ⟨{ s1 with pc := .spawn [], executing := [7], started := [7], running := 1 }, ?_, by decide, rfl⟩
  refine Steps.tail (s' := s1) ?_ (.inr (Move.spawn s1 [] [] 7 rfl))
  exact Steps.tail (.refl _) (.inl (Submit.sendDirect {} [7] rfl rfl rfl))

end Verif.TaskSet
