import Verif.Ragel.Machine

/-!
# Forgetting operations, and watching for one action
-/

namespace Verif.Ragel
open Verif

variable {A : Type} [DecidableEq A]

/-- The same transitions without operations. -/
def Machine.erase (M : Machine A) : Machine A :=
  { M with rows := M.rows.map (fun row =>
      { row with rules := row.rules.map (fun r => { r with ops := [] }), eof := [] }) }

/-- Two copies of the machine without operations; executing `a` leads from the first to the second.
Only the final states of the second are final. -/
def Machine.track (M : Machine A) (a : A) : Machine A where
  start := M.start
  firstFinal := M.firstFinal + M.rows.length
  rows :=
    M.rows.map (fun row =>
      { row with
        rules := row.rules.map (fun r =>
          { r with ops := [], target := if .act a ∈ r.ops then r.target + M.rows.length else r.target })
        eof := [] }) ++
    M.rows.map (fun row =>
      { row with
        rules := row.rules.map (fun r => { r with ops := [], target := r.target + M.rows.length })
        eof := [] })

theorem find_map {A : Type} (f : Rule A → Rule A) (hf : ∀ r b, (f r).has b = r.has b) (rs : List (Rule A))
    (b : UInt8) : (rs.map f).find? (fun r => r.has b) = (rs.find? (fun r => r.has b)).map f := by
  induction rs with
  | nil => rfl
  | cons r rs ih =>
    simp only [List.map_cons, List.find?_cons, hf]
    cases r.has b <;> simp [ih]

omit [DecidableEq A] in
theorem erase_next (M : Machine A) (q : Nat) (b : UInt8) :
    M.erase.next q b = (M.next q b).map (fun r => { r with ops := [] }) := by
  unfold Machine.next Machine.erase
  simp only [List.getElem?_map]
  cases h : M.rows[q]? with
  | none => rfl
  | some row =>
    simp only [Option.map_some]
    apply find_map
    intro _ _
    rfl

omit [DecidableEq A] in
/-- The erased machine accepts the same texts. -/
theorem erase_trace (M : Machine A) (q : Nat) (s : Str) :
    M.erase.trace q s = (M.trace q s).map (fun _ => []) := by
  induction s generalizing q with
  | nil =>
    have h : M.erase.eofActs q = [] := by
      unfold Machine.eofActs Machine.erase
      simp only [List.getElem?_map]
      cases M.rows[q]? <;> rfl
    have hf : M.erase.firstFinal = M.firstFinal := rfl
    simp only [Machine.trace, h, hf]
    split <;> rfl
  | cons b s ih =>
    simp only [Machine.trace, erase_next]
    cases M.next q b with
    | none => rfl
    | some r =>
      simp only [Option.map_some]
      rw [ih]
      cases M.trace r.target s <;> rfl

theorem track_next0 (M : Machine A) (a : A) (q : Nat) (hq : q < M.rows.length) (b : UInt8) :
    (M.track a).next q b = (M.next q b).map (fun r =>
      { r with ops := [], target := if .act a ∈ r.ops then r.target + M.rows.length else r.target }) := by
  unfold Machine.next Machine.track
  simp only
  rw [List.getElem?_append_left (by simpa using hq), List.getElem?_map]
  cases h : M.rows[q]? with
  | none => rfl
  | some row =>
    simp only [Option.map_some]
    apply find_map
    intro _ _
    rfl

theorem track_next1 (M : Machine A) (a : A) (q : Nat) (b : UInt8) :
    (M.track a).next (q + M.rows.length) b = (M.next q b).map (fun r =>
      { r with ops := [], target := r.target + M.rows.length }) := by
  unfold Machine.next Machine.track
  simp only
  rw [List.getElem?_append_right (by simp), List.getElem?_map, List.length_map, Nat.add_sub_cancel]
  cases h : M.rows[q]? with
  | none => rfl
  | some row =>
    simp only [Option.map_some]
    apply find_map
    intro _ _
    rfl

theorem track_eof (M : Machine A) (a : A) (q : Nat) : (M.track a).eofActs q = [] := by
  have h : ∀ row ∈ (M.track a).rows, row.eof = [] := by
    intro row hrow
    unfold Machine.track at hrow
    simp only [List.mem_append, List.mem_map] at hrow
    rcases hrow with ⟨r, _, rfl⟩ | ⟨r, _, rfl⟩ <;> rfl
  unfold Machine.eofActs
  cases hr : (M.track a).rows[q]? with
  | none => rfl
  | some row => exact h row (List.mem_of_getElem? hr)

/-- Targets are states and there are no EOF actions. -/
def Machine.closed (M : Machine A) : Bool :=
  M.rows.all (fun row => row.rules.all (fun r => Nat.blt r.target M.rows.length) && row.eof.isEmpty)

omit [DecidableEq A] in
theorem next_lt {M : Machine A} (hM : M.closed = true) {q : Nat} {b : UInt8} {r : Rule A}
    (h : M.next q b = some r) : r.target < M.rows.length := by
  unfold Machine.next at h
  cases hr : M.rows[q]? with
  | none => simp [hr] at h
  | some row =>
    simp only [hr] at h
    have h1 := List.mem_of_find?_eq_some h
    have h2 := List.mem_of_getElem? hr
    have h3 := List.all_eq_true.mp hM row h2
    simp only [Bool.and_eq_true, List.all_eq_true] at h3
    simpa using h3.1 r h1

omit [DecidableEq A] in
theorem closed_eof {M : Machine A} (hM : M.closed = true) (q : Nat) : M.eofActs q = [] := by
  unfold Machine.eofActs
  cases hr : M.rows[q]? with
  | none => rfl
  | some row =>
    have h3 := List.all_eq_true.mp hM row (List.mem_of_getElem? hr)
    simp only [Bool.and_eq_true, List.isEmpty_iff] at h3
    exact h3.2

theorem track_trace1 {M : Machine A} (hM : M.closed = true) (a : A) (q : Nat) (s : Str) :
    (M.track a).trace (q + M.rows.length) s = (M.trace q s).map (fun _ => []) := by
  induction s generalizing q with
  | nil =>
    have hf : (M.track a).firstFinal = M.firstFinal + M.rows.length := rfl
    simp only [Machine.trace, track_eof, hf, closed_eof hM]
    by_cases hq : q < M.firstFinal
    · simp [hq]
    · simp [hq]
  | cons b s ih =>
    simp only [Machine.trace, track_next1]
    cases M.next q b with
    | none => rfl
    | some r =>
      simp only [Option.map_some]
      rw [ih]
      cases M.trace r.target s <;> rfl

/-- The tracking machine accepts the texts on which the machine succeeds and executes `a`. -/
theorem track_trace {M : Machine A} (hM : M.closed = true) (a : A) (q : Nat) (hq : q < M.rows.length)
    (s : Str) :
    (M.track a).trace q s = some [] ↔ ∃ es, M.trace q s = some es ∧ .act a ∈ es := by
  induction s generalizing q with
  | nil =>
    have hf : (M.track a).firstFinal = M.firstFinal + M.rows.length := rfl
    simp only [Machine.trace, track_eof, hf, closed_eof hM]
    have : q < M.firstFinal + M.rows.length := by omega
    simp only [this, if_true, reduceCtorEq, false_iff, not_exists, not_and]
    intro es h
    split at h
    · cases h
    · cases h; simp
  | cons b s ih =>
    simp only [Machine.trace, track_next0 M a q hq]
    cases hn : M.next q b with
    | none => simp
    | some r =>
      simp only [Option.map_some]
      have hlt := next_lt hM hn
      by_cases ha : Op.act a ∈ r.ops
      · simp only [ha, if_true]
        rw [track_trace1 hM]
        cases ht : M.trace r.target s with
        | none => simp
        | some es =>
          simp only [Option.map_some, List.map_nil, List.nil_append, Option.some.injEq,
            exists_eq_left', List.mem_append, true_iff]
          left
          exact List.mem_map.mpr ⟨.act a, ha, rfl⟩
      · simp only [ha, if_false, List.map_nil, List.nil_append, Option.map_id']
        rw [ih _ hlt]
        simp only [Option.map_eq_some_iff]
        constructor
        · rintro ⟨es, h1, h2⟩
          exact ⟨_, ⟨es, h1, rfl⟩, List.mem_append_right _ h2⟩
        · rintro ⟨_, ⟨es, h1, rfl⟩, h2⟩
          refine ⟨es, h1, ?_⟩
          rcases List.mem_append.mp h2 with h | h
          · obtain ⟨o, ho, he⟩ := List.mem_map.mp h
            cases o with
            | push => cases he
            | act a' => cases he; exact absurd ho ha
          · exact h

end Verif.Ragel
