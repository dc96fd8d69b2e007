import Verif.Eval.Model
import Verif.Eval.Reader

/-!
# What is printed for a tree
-/

namespace Verif.Eval
open Verif Json Spec

section
variable {F : Type} (fl : Floats F)

mutual
/-- The value that the text printed for a tree denotes. -/
def shown : Tree F → Value
  | .null => .null
  | .bool b => .bool b
  | .num x => .num (fl.print x)
  | .str s => .str s
  | .arr l => .arr (shownElems l)
  | .obj m => .obj ((sortStrs (m.map Prod.fst)).filterMap fun k =>
      (GoMap.get? (shownRows m) k).map fun v => (k, v))

def shownElems : List (Tree F) → List Value
  | [] => []
  | v :: l => shown v :: shownElems l

def shownRows : List (Str × Tree F) → List (Str × Value)
  | [] => []
  | (k, v) :: m => (k, shown v) :: shownRows m
end

mutual
/-- Strings and names are printed as they should be, and maps are maps. -/
def Good : Tree F → Prop
  | .str s => Utf8.Valid s
  | .arr l => GoodElems l
  | .obj m => (m.map Prod.fst).Nodup ∧ GoodRows m
  | _ => True

def GoodElems : List (Tree F) → Prop
  | [] => True
  | v :: l => Good v ∧ GoodElems l

def GoodRows : List (Str × Tree F) → Prop
  | [] => True
  | (k, v) :: m => PlainName k ∧ Utf8.Valid k ∧ Good v ∧ GoodRows m
end

end

/-! ## Strings -/

theorem chars_plain {t s k : Str} (hk : PlainName k) (h : Chars t s) : Chars (k ++ t) (k ++ s) := by
  induction k with
  | nil => exact h
  | cons c k ih =>
    obtain ⟨h1, h2, h3⟩ := hk c (by simp)
    exact .plain h1 h2 h3 (ih fun d hd => hk d (by simp [hd]))

theorem chars_name {k : Str} (hk : PlainName k) : Chars k k := by
  have := chars_plain hk .nil
  rwa [List.append_nil] at this

theorem hexDigit_hex {n : Nat} (h : n < 16) : Hex (hexDigit n) n := by
  unfold hexDigit
  split
  · exact .digit ‹_›
  · have := Hex.lower (n := n - 10) (by omega)
    rwa [show 97 + (n - 10) = 87 + n by omega, show 10 + (n - 10) = n by omega] at this

theorem hex_zero : Hex 48 0 := Hex.digit (n := 0) (by omega)
theorem hex_two : Hex 50 2 := Hex.digit (n := 2) (by omega)

/-- Bytes of characters beyond ASCII. -/
theorem encode1_high {r : Nat} (h : ¬ r < 0x80) : ∀ c ∈ Utf8.encode1 r, 128 ≤ c.toNat := by
  intro c hc
  unfold Utf8.encode1 at hc
  rw [if_neg h] at hc
  split at hc
  · simp only [List.mem_cons, List.not_mem_nil, or_false] at hc
    rcases hc with rfl | rfl <;> rw [Utf8.toNat_ofNat (by omega)] <;> omega
  split at hc
  · simp only [List.mem_cons, List.not_mem_nil, or_false] at hc
    rcases hc with rfl | rfl | rfl <;> decide
  split at hc
  · simp only [List.mem_cons, List.not_mem_nil, or_false] at hc
    rcases hc with rfl | rfl | rfl <;> rw [Utf8.toNat_ofNat (by omega)] <;> omega
  · simp only [List.mem_cons, List.not_mem_nil, or_false] at hc
    rename_i h1 h2 h3
    rcases hc with rfl | rfl | rfl | rfl <;> rw [Utf8.toNat_ofNat (by omega)] <;> omega

theorem encode1_low {r : Nat} (h : r < 0x80) : Utf8.encode1 r = [UInt8.ofNat r] := by
  rw [Utf8.encode1, if_pos h]

theorem plain_high {c : UInt8} (h : 128 ≤ c.toNat) : 32 ≤ c.toNat ∧ c ≠ 34 ∧ c ≠ 92 := by
  refine ⟨by omega, ?_, ?_⟩ <;> rintro rfl <;> simp at h

theorem chars_rune {r : Nat} (hr : Utf8.Scalar r) {t s : Str} (h : Chars t s) :
    Chars (quoteRune r ++ t) (Utf8.encode1 r ++ s) := by
  unfold quoteRune
  split
  · rename_i h1
    split
    · rename_i h2
      rw [encode1_low h1]
      rcases h2 with rfl | rfl
      · exact .short (by decide) h
      · exact .short (by decide) h
    split
    · rename_i h2; subst h2; exact .short (e := 110) (c := 10) (by decide) h
    split
    · rename_i h2; subst h2; exact .short (e := 114) (c := 13) (by decide) h
    split
    · rename_i h2; subst h2; exact .short (e := 116) (c := 9) (by decide) h
    split
    · rename_i h2
      exact .unicode ⟨0, 0, r / 16, r % 16, hex_zero, hex_zero, hexDigit_hex (by omega), hexDigit_hex (by omega),
        by omega⟩ hr h
    · rename_i h2 h3 h4 h5 h6
      rw [encode1_low h1]
      have e : (UInt8.ofNat r).toNat = r := Utf8.toNat_ofNat (by omega)
      refine .plain (by omega) ?_ ?_ h
      · intro e'; rw [e'] at e; simp at e; omega
      · intro e'; rw [e'] at e; simp at e; omega
  split
  · rename_i h1 h2
    refine .unicode (n := r) ⟨2, 0, 2, r % 16, hex_two, hex_zero, hex_two, hexDigit_hex (by omega), ?_⟩ hr h
    omega
  · rename_i h1 h2
    exact chars_plain (fun c hc => plain_high (encode1_high h1 c hc)) h

theorem chars_runes {rs : List Nat} (h : ∀ r ∈ rs, Utf8.Scalar r) :
    Chars (rs.flatMap quoteRune) (Utf8.encode rs) := by
  induction rs with
  | nil => exact .nil
  | cons r rs ih =>
    rw [List.flatMap_cons, Utf8.encode, List.flatMap_cons]
    exact chars_rune (h r (by simp)) (ih fun x hx => h x (by simp [hx]))

theorem chars_quote {s : Str} (h : Utf8.Valid s) : Chars ((Utf8.decode s).flatMap quoteRune) s := by
  have := chars_runes (Utf8.scalar_decode s)
  rwa [Utf8.valid_iff.1 h] at this

/-! ## Arrays and objects -/

theorem space_nil : Space [] := by simp [Space]

theorem space_append {a b : Str} (ha : Space a) (hb : Space b) : Space (a ++ b) := by
  intro c hc
  rcases List.mem_append.1 hc with h | h
  · exact ha c h
  · exact hb c h

theorem space_indent (d : Nat) : Space (indent d) := by
  intro c hc
  exact .inl (List.eq_of_mem_replicate hc)

theorem space_newline : Space b!"\n" := by simp [Space]

/-- A line of an array. -/
def ElemRow (r : Str) (v : Value) : Prop := ∃ w t, r = w ++ t ∧ Space w ∧ Denotes t v

/-- A line of an object. -/
def MemberRow (r : Str) (p : Str × Value) : Prop :=
  ∃ w k t, r = w ++ (b!"\"" ++ k ++ b!"\"") ++ b!": " ++ t ∧ Space w ∧ Chars k p.1 ∧ Denotes t p.2

theorem join_elems {rows : List Str} {l : List Value} (h : List.Forall₂ ElemRow rows l) (hne : rows ≠ [])
    {w w' : Str} (hw : Space w) (hw' : Space w') : Elems (w ++ joinRows rows ++ w') l := by
  induction h generalizing w with
  | nil => exact absurd rfl hne
  | @cons r v rows l hr hl ih =>
    obtain ⟨w0, t, rfl, h0, ht⟩ := hr
    cases hl with
    | nil =>
      have := Elems.one (space_append hw h0) ht hw'
      simpa [joinRows] using this
    | cons h1 h2 =>
      have := Elems.more (space_append hw h0) ht space_nil (ih (by simp) space_newline)
      simpa [joinRows] using this

theorem join_members {rows : List Str} {l : List (Str × Value)} (h : List.Forall₂ MemberRow rows l)
    (hne : rows ≠ []) {w w' : Str} (hw : Space w) (hw' : Space w') :
    Members (w ++ joinRows rows ++ w') l := by
  have hs : Space b!" " := by simp [Space]
  induction h generalizing w with
  | nil => exact absurd rfl hne
  | @cons r p rows l hr hl ih =>
    obtain ⟨w0, k, t, rfl, h0, hk, ht⟩ := hr
    cases hl with
    | nil =>
      have := Members.one (space_append hw h0) hk space_nil hs ht hw'
      simpa [joinRows] using this
    | cons h1 h2 =>
      have := Members.more (space_append hw h0) hk space_nil hs ht space_nil (ih (by simp) space_newline)
      simpa [joinRows] using this

/-- Two maps that have related values under the same keys. -/
theorem get_related {α β : Type} {R : Str → α → β → Prop} {a : GoMap Str α} {b : GoMap Str β}
    (h : List.Forall₂ (fun p q => p.1 = q.1 ∧ R p.1 p.2 q.2) a b) (k : Str) :
    (a.get? k = none ∧ b.get? k = none) ∨ ∃ x y, a.get? k = some x ∧ b.get? k = some y ∧ R k x y := by
  induction h with
  | nil => exact .inl ⟨rfl, rfl⟩
  | @cons p q a b hpq _ ih =>
    obtain ⟨j, x⟩ := p
    obtain ⟨j', y⟩ := q
    obtain ⟨rfl, hr⟩ := hpq
    rw [GoMap.get?_cons, GoMap.get?_cons]
    by_cases e : j = k
    · subst e; simp only [if_true]; exact .inr ⟨x, y, rfl, rfl, hr⟩
    · simp only [e, if_false]; exact ih

theorem picked {α β : Type} {R : Str → α → β → Prop} {a : GoMap Str α} {b : GoMap Str β}
    (h : List.Forall₂ (fun p q => p.1 = q.1 ∧ R p.1 p.2 q.2) a b) (keys : List Str) :
    List.Forall₂ (fun x (q : Str × β) => R q.1 x q.2) (keys.filterMap a.get?)
      (keys.filterMap fun k => (b.get? k).map fun v => (k, v)) := by
  induction keys with
  | nil => exact .nil
  | cons k keys ih =>
    rcases get_related h k with ⟨h1, h2⟩ | ⟨x, y, h1, h2, hr⟩
    · simpa [List.filterMap_cons, h1, h2] using ih
    · simp only [List.filterMap_cons, h1, h2, Option.map_some]
      exact .cons hr ih

section
variable {F : Type} (fl : Floats F)

/-- What Go's `float64`s do: a number is read as it was written, in the form JSON has for numbers. -/
structure Sound : Prop where
  parse_print : ∀ x, fl.parse (fl.print x) = some x
  number : ∀ x, Number (fl.print x)

theorem rows_keys (on : Bool) (d : Nat) (m : List (Str × Tree F)) :
    (prettyRows fl on d m).map Prod.fst = m.map Prod.fst := by
  induction m with
  | nil => rfl
  | cons p m ih => obtain ⟨k, v⟩ := p; simp [prettyRows, ih]

theorem picked_ne {α : Type} {a : GoMap Str α} {keys : List Str} (hk : a.map Prod.fst = keys) (ha : a ≠ []) :
    (sortStrs keys).filterMap a.get? ≠ [] := by
  cases a with
  | nil => exact absurd rfl ha
  | cons p a =>
    intro h
    rw [List.filterMap_eq_nil_iff] at h
    have := h p.1 (by rw [mem_sortStrs, ← hk]; simp)
    rw [GoMap.get?_eq_none] at this
    exact this (by simp [GoMap.keys])

mutual
theorem pretty_denotes (hf : Sound fl) (d : Nat) (t : Tree F) (h : Good t) :
    Denotes (pretty fl false d t) (shown fl t) := by
  cases t with
  | null => simp only [pretty, shown, paint]; exact .null
  | bool b => cases b <;> simp only [pretty, shown, paint] <;> first | exact .true | exact .false
  | num x => simp only [pretty, shown, paint]; exact .num (hf.number x)
  | str s =>
    simp only [Good] at h
    simp only [pretty, shown, paint]
    exact .str (chars_quote h)
  | arr l =>
    simp only [Good] at h
    cases l with
    | nil => simp only [pretty, shown, shownElems, if_true]; exact .noElems (w := []) space_nil
    | cons v l =>
      have he := elems_denote hf d (v :: l) h
      simp only [pretty, shown, reduceCtorEq, if_false]
      have := Denotes.arr (join_elems he (by simp [prettyElems]) space_newline
        (space_append space_newline (space_indent (d - 1))))
      simpa using this
  | obj m =>
    simp only [Good] at h
    cases m with
    | nil =>
      simp only [pretty, shown, if_true]
      exact .noMembers (w := []) space_nil
    | cons p m =>
      have he := picked (R := fun k r v => MemberRow r (k, v)) (rows_denote hf d (p :: m) h.2) (sortStrs ((p :: m).map Prod.fst))
      simp only [pretty, shown, reduceCtorEq, if_false]
      have hm : List.Forall₂ MemberRow _ _ := he.imp fun _ _ h => h
      have := Denotes.obj (join_members hm (picked_ne (rows_keys fl false d (p :: m)) (by
        obtain ⟨k, v⟩ := p; simp [prettyRows])) space_newline
        (space_append space_newline (space_indent (d - 1))))
      simpa using this

theorem elems_denote (hf : Sound fl) (d : Nat) (l : List (Tree F)) (h : GoodElems l) :
    List.Forall₂ ElemRow (prettyElems fl false d l) (shownElems fl l) := by
  cases l with
  | nil => exact .nil
  | cons v l =>
    simp only [GoodElems] at h
    simp only [prettyElems, shownElems]
    exact .cons ⟨_, _, rfl, space_indent d, pretty_denotes hf (d + 1) v h.1⟩ (elems_denote hf d l h.2)

theorem rows_denote (hf : Sound fl) (d : Nat) (m : List (Str × Tree F)) (h : GoodRows m) :
    List.Forall₂ (fun p q => p.1 = q.1 ∧ MemberRow p.2 (p.1, q.2)) (prettyRows fl false d m)
      (shownRows fl m) := by
  cases m with
  | nil => exact .nil
  | cons p m =>
    obtain ⟨k, v⟩ := p
    simp only [GoodRows] at h
    simp only [prettyRows, shownRows]
    refine .cons ⟨rfl, ?_⟩ (rows_denote hf d m h.2.2.2)
    exact ⟨_, k, _, by simp [paint], space_indent d, chars_name h.1, pretty_denotes hf (d + 1) v h.2.2.1⟩
end

end

end Verif.Eval
