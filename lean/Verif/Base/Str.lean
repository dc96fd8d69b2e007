import Mathlib.Data.List.Sort
import Mathlib.Data.List.Perm.Basic

/-!
# Go strings

A Go `string` is an immutable byte sequence, modelled as a list of bytes.  Comparison of Go
strings (`<`, used by `sort.Strings`) is bytewise lexicographic.
-/

namespace Verif

/-- Go `string`: a byte sequence. -/
abbrev Str := List UInt8

/-- `b!"abc"` is the list of the UTF-8 bytes of the literal, written out. -/
macro:max "b!" s:str : term => do
  let bs := s.getString.toUTF8.toList.map
    (fun b => (⟨Lean.Syntax.mkNumLit (toString b.toNat)⟩ : Lean.TSyntax `term))
  `(([$(bs.toArray),*] : List UInt8))

/-- Go's `a <= b` on strings: bytewise lexicographic order. -/
def Str.le : Str → Str → Bool
  | [], _ => true
  | _ :: _, [] => false
  | a :: s, b :: t => if a = b then Str.le s t else decide (a < b)

theorem Str.le_refl (s : Str) : Str.le s s = true := by
  induction s with
  | nil => rfl
  | cons a s ih => simp [Str.le, ih]

theorem Str.le_total (s t : Str) : Str.le s t = true ∨ Str.le t s = true := by
  induction s generalizing t with
  | nil => simp [Str.le]
  | cons a s ih =>
    cases t with
    | nil => simp [Str.le]
    | cons b t =>
      by_cases h : a = b
      · subst h; simpa [Str.le] using ih t
      · have h' : b ≠ a := fun e => h e.symm
        simp only [Str.le, h, h', if_false, decide_eq_true_eq]
        rcases UInt8.lt_or_lt_of_ne h with h | h
        · exact Or.inl h
        · exact Or.inr h

theorem Str.le_antisymm {s t : Str} (h1 : Str.le s t = true) (h2 : Str.le t s = true) : s = t := by
  induction s generalizing t with
  | nil => cases t with
    | nil => rfl
    | cons b t => simp [Str.le] at h2
  | cons a s ih =>
    cases t with
    | nil => simp [Str.le] at h1
    | cons b t =>
      by_cases h : a = b
      · subst h
        simp only [Str.le, if_true] at h1 h2
        rw [ih h1 h2]
      · have h' : b ≠ a := fun e => h e.symm
        simp only [Str.le, h, h', if_false, decide_eq_true_eq] at h1 h2
        exact absurd h2 (UInt8.lt_asymm h1)

theorem Str.le_trans {s t u : Str} (h1 : Str.le s t = true) (h2 : Str.le t u = true) :
    Str.le s u = true := by
  induction s generalizing t u with
  | nil => rfl
  | cons a s ih =>
    cases t with
    | nil => simp [Str.le] at h1
    | cons b t =>
      cases u with
      | nil => simp [Str.le] at h2
      | cons c u =>
        simp only [Str.le] at h1 h2 ⊢
        by_cases hab : a = b
        · subst hab
          by_cases hac : a = c
          · subst hac; simp only [if_true] at h1 h2 ⊢; exact ih h1 h2
          · simpa [hac] using h2
        · by_cases hbc : b = c
          · subst hbc; simpa [hab] using h1
          · simp only [hab, hbc, if_false, decide_eq_true_eq] at h1 h2
            have h3 : a < c := UInt8.lt_trans h1 h2
            have : a ≠ c := fun e => by subst e; exact UInt8.lt_irrefl a h3
            simp [this, h3]

/-- Go's `a < b` on strings. -/
def Str.lt (s t : Str) : Bool := !Str.le t s

/-- Bytewise lexicographic order as a relation. -/
def Str.Le (s t : Str) : Prop := Str.le s t = true

instance : DecidableRel Str.Le := fun s t => inferInstanceAs (Decidable (Str.le s t = true))
instance : Std.Total Str.Le := ⟨Str.le_total⟩
instance : IsTrans Str Str.Le := ⟨fun _ _ _ => Str.le_trans⟩
instance : Std.Antisymm Str.Le := ⟨fun _ _ => Str.le_antisymm⟩
instance : Std.Refl Str.Le := ⟨Str.le_refl⟩

/-- `sort.Strings`: the ascending rearrangement.  The sorting algorithm of the Go library is not
modelled; since the order is total and antisymmetric every sorting algorithm returns this list. -/
def sortStrs (l : List Str) : List Str := l.insertionSort Str.Le

theorem sortStrs_perm (l : List Str) : (sortStrs l).Perm l := List.perm_insertionSort _ l

@[simp] theorem mem_sortStrs {l : List Str} {x : Str} : x ∈ sortStrs l ↔ x ∈ l :=
  (sortStrs_perm l).mem_iff

theorem sortStrs_sorted (l : List Str) : (sortStrs l).Pairwise Str.Le :=
  List.pairwise_insertionSort _ l

theorem sortStrs_nodup {l : List Str} (h : l.Nodup) : (sortStrs l).Nodup :=
  (sortStrs_perm l).nodup_iff.mpr h

theorem eq_of_perm_sorted {l₁ l₂ : List Str} (hp : l₁.Perm l₂) (h1 : l₁.Pairwise Str.Le)
    (h2 : l₂.Pairwise Str.Le) : l₁ = l₂ :=
  hp.eq_of_pairwise (fun _ _ _ _ => Str.le_antisymm) h1 h2

theorem sortStrs_congr {l₁ l₂ : List Str} (hp : l₁.Perm l₂) : sortStrs l₁ = sortStrs l₂ :=
  eq_of_perm_sorted (((sortStrs_perm l₁).trans hp).trans (sortStrs_perm l₂).symm)
    (sortStrs_sorted _) (sortStrs_sorted _)

end Verif
