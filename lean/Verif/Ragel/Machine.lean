import Verif.Base.Str

/-!
# The goto programs ragel generates

The four parsers of `/repo/internal/ddl` are ragel `-G2` output: a block per state that reads
`data[p]`, runs actions and jumps. This file gives such a program, as a table, its meaning.
-/

namespace Verif.Ragel
open Verif

/-- An operation on a transition: `buffer.WriteByte(data[p])`, or another action. -/
inductive Op (A : Type) where
  | push
  | act (a : A)
deriving DecidableEq, Repr

/-- An operation that was executed; `push` with the byte it wrote. -/
inductive Ev (A : Type) where
  | push (b : UInt8)
  | act (a : A)
deriving DecidableEq, Repr

/-- Executing an operation when `data[p] = b`. -/
def Op.on {A : Type} (b : UInt8) : Op A → Ev A
  | .push => .push b
  | .act a => .act a

/-- On a byte in `lo..hi`: run `ops`, go to `target`. -/
structure Rule (A : Type) where
  lo : Nat
  hi : Nat
  ops : List (Op A)
  target : Nat
deriving DecidableEq, Repr

/-- The block of one state: the first rule that matches the byte applies; when none does the
program jumps to `st0`. `eof` are the actions of the final `switch cs`. -/
structure Row (A : Type) where
  state : Nat
  rules : List (Rule A)
  eof : List A
deriving DecidableEq, Repr

/-- A parser: start state, first final state and a row per state. -/
structure Machine (A : Type) where
  start : Nat
  firstFinal : Nat
  rows : List (Row A)

/-- Whether the rule matches. -/
def Rule.has {A : Type} (r : Rule A) (b : UInt8) : Bool :=
  Nat.ble r.lo b.toNat && Nat.ble b.toNat r.hi

/-- The block of state `q` on byte `b`: the rule taken, or `none` for `goto st0`. -/
def Machine.next {A : Type} (M : Machine A) (q : Nat) (b : UInt8) : Option (Rule A) :=
  match M.rows[q]? with
  | none => none
  | some row => row.rules.find? (fun r => r.has b)

/-- The actions of the final `switch cs`. -/
def Machine.eofActs {A : Type} (M : Machine A) (q : Nat) : List A :=
  match M.rows[q]? with
  | none => []
  | some row => row.eof

/-- How a parser ends: with its variables; with `cs < first_final`, i.e. a `parseError` holding
`cs`; or in a panic. -/
inductive Outcome (μ : Type) where
  | ok (m : μ)
  | err (cs : Nat)
  | panic
deriving DecidableEq, Repr

/-- Run operations at position `p`; `none` is a panic. -/
def doAll {A μ : Type} (step : Nat → μ → Ev A → Option μ) (p : Nat) : μ → List (Ev A) → Option μ
  | m, [] => some m
  | m, e :: es =>
    match step p m e with
    | none => none
    | some m' => doAll step p m' es

/-- The program from state `q` at position `p` with the input `s` left: reads `data[p]`, runs the
transition's operations, moves on; `st0` sets `cs = 0` and leaves; at the end of the input the EOF
actions run and `cs` is compared with `first_final`. -/
def Machine.exec {A μ : Type} (M : Machine A) (step : Nat → μ → Ev A → Option μ) :
    Nat → Nat → μ → Str → Outcome μ
  | q, p, m, [] =>
    match doAll step p m ((M.eofActs q).map .act) with
    | none => .panic
    | some m' => if q < M.firstFinal then .err q else .ok m'
  | q, p, m, b :: s =>
    match M.next q b with
    | none => .err 0
    | some r =>
      match doAll step p m (r.ops.map (Op.on b)) with
      | none => .panic
      | some m' => M.exec step r.target (p + 1) m' s

/-- The operations a successful run executes; `none` when the run ends in a `parseError`. -/
def Machine.trace {A : Type} (M : Machine A) : Nat → Str → Option (List (Ev A))
  | q, [] => if q < M.firstFinal then none else some ((M.eofActs q).map .act)
  | q, b :: s =>
    match M.next q b with
    | none => none
    | some r => (M.trace r.target s).map (fun es => r.ops.map (Op.on b) ++ es)

theorem doAll_append {A μ : Type} (step : Nat → μ → Ev A → Option μ) (p : Nat) (m : μ)
    (l1 l2 : List (Ev A)) :
    doAll step p m (l1 ++ l2) = (doAll step p m l1).bind (fun m' => doAll step p m' l2) := by
  induction l1 generalizing m with
  | nil => rfl
  | cons e l ih =>
    simp only [List.cons_append, doAll]
    cases step p m e with
    | none => rfl
    | some m' => exact ih m'

/-- When the position does not matter, a run is a fold over its trace. -/
theorem exec_ok_iff {A μ : Type} (M : Machine A) (step : Nat → μ → Ev A → Option μ)
    (hstep : ∀ p p' m e, step p m e = step p' m e) (q p : Nat) (m m' : μ) (s : Str) :
    M.exec step q p m s = .ok m' ↔ ∃ es, M.trace q s = some es ∧ doAll step 0 m es = some m' := by
  have hdo : ∀ p p' m es, doAll step p m es = doAll step p' m es := by
    intro p p' m es
    induction es generalizing m with
    | nil => rfl
    | cons e es ih =>
      simp only [doAll]
      rw [hstep p p']
      cases step p' m e with
      | none => rfl
      | some m' => exact ih m'
  induction s generalizing q p m with
  | nil =>
    simp only [Machine.exec, Machine.trace]
    rw [hdo p 0]
    by_cases hq : q < M.firstFinal
    · simp only [hq, if_true, reduceCtorEq, false_and, exists_false, iff_false]
      cases doAll step 0 m ((M.eofActs q).map .act) <;> simp
    · simp only [hq, if_false, Option.some.injEq, exists_eq_left']
      cases doAll step 0 m ((M.eofActs q).map .act) <;> simp
  | cons b s ih =>
    simp only [Machine.exec, Machine.trace]
    cases hn : M.next q b with
    | none => simp
    | some r =>
      simp only [Option.map_eq_some_iff]
      rw [hdo p 0]
      cases hd : doAll step 0 m (r.ops.map (Op.on b)) with
      | none =>
        simp only [reduceCtorEq, false_iff, not_exists, not_and]
        rintro es ⟨es', h1, rfl⟩
        rw [doAll_append, hd]
        simp
      | some m1 =>
        simp only
        refine (ih _ _ _).trans ?_
        constructor
        · rintro ⟨es, h1, h2⟩
          exact ⟨_, ⟨es, h1, rfl⟩, by rw [doAll_append, hd]; exact h2⟩
        · rintro ⟨es, ⟨es', h1, rfl⟩, h2⟩
          rw [doAll_append, hd] at h2
          exact ⟨es', h1, h2⟩

/-- Without panics, a run that is not successful is an error. -/
theorem exec_err {A μ : Type} (M : Machine A) (step : Nat → μ → Ev A → Option μ) (q p : Nat) (m : μ)
    (s : Str) (ht : M.trace q s = none) :
    M.exec step q p m s = .panic ∨ ∃ cs, M.exec step q p m s = .err cs := by
  induction s generalizing q p m with
  | nil =>
    simp only [Machine.trace] at ht
    simp only [Machine.exec]
    have hq : q < M.firstFinal := by
      by_contra h
      simp [h] at ht
    cases doAll step p m ((M.eofActs q).map .act) with
    | none => exact Or.inl rfl
    | some m' => exact Or.inr ⟨_, if_pos hq⟩
  | cons b s ih =>
    simp only [Machine.trace] at ht
    simp only [Machine.exec]
    cases hn : M.next q b with
    | none => exact Or.inr ⟨_, rfl⟩
    | some r =>
      rw [hn] at ht
      simp only [Option.map_eq_none_iff] at ht
      cases hd : doAll step p m (r.ops.map (Op.on b)) with
      | none => exact Or.inl (by simp only [hd])
      | some m1 =>
        simp only [hd]
        exact ih _ _ _ ht

end Verif.Ragel
