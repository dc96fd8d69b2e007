import Verif.Eval.Spec
import Verif.Base.Byte

/-!
# A reader of JSON texts

Not a part of the model or of the specification: it shows that no text is JSON for two values.
-/

namespace Verif.Eval
open Verif Json Spec

def isSpace (c : UInt8) : Bool := c == 32 || c == 9 || c == 10 || c == 13

def skip (s : Str) : Str := s.dropWhile isSpace

def isNum (c : UInt8) : Bool :=
  (decide (48 ≤ c.toNat) && decide (c.toNat ≤ 57)) || c == 45 || c == 43 || c == 46 || c == 101 || c == 69

def hexVal (c : UInt8) : Option Nat :=
  let n := c.toNat
  if 48 ≤ n ∧ n ≤ 57 then some (n - 48)
  else if 65 ≤ n ∧ n ≤ 70 then some (n - 55)
  else if 97 ≤ n ∧ n ≤ 102 then some (n - 87)
  else none

def hex4 (a b c d : UInt8) : Option Nat :=
  match hexVal a, hexVal b, hexVal c, hexVal d with
  | some w, some x, some y, some z => some (4096 * w + 256 * x + 16 * y + z)
  | _, _, _, _ => none

def shortVal (e : UInt8) : Option UInt8 := GoMap.get? shorts e

/-- One character of a string, and what follows. -/
def readChar : Str → Option (Str × Str)
  | [] => none
  | c :: t =>
    if c = 92 then
      match t with
      | [] => none
      | e :: t =>
        match shortVal e with
        | some x => some ([x], t)
        | none =>
          match t with
          | a :: b :: c :: d :: t =>
            match hex4 a b c d with
            | none => none
            | some n =>
              if 0xD800 ≤ n ∧ n < 0xDC00 then
                match t with
                | _ :: _ :: e :: f :: g :: h :: t =>
                  match hex4 e f g h with
                  | none => none
                  | some m =>
                    some (Utf8.encode1 (0x10000 + 0x400 * (n - 0xD800) + (m - 0xDC00)), t)
                | _ => none
              else some (Utf8.encode1 n, t)
          | _ => none
    else if c.toNat < 32 then none else some ([c], t)

/-- The rest of a string, and what follows its closing quote. -/
def readChars : Nat → Str → Option (Str × Str)
  | 0, _ => none
  | n + 1, s =>
    match s with
    | [] => none
    | c :: t =>
      if c = 34 then some ([], t)
      else
        match readChar s with
        | none => none
        | some (x, r) => (readChars n r).map fun q => (x ++ q.1, q.2)

def eat : Str → Str → Option Str
  | [], s => some s
  | c :: p, d :: s => if c = d then eat p s else none
  | _ :: _, [] => none

mutual
def readV : Nat → Str → Option (Value × Str)
  | 0, _ => none
  | _ + 1, [] => none
  | n + 1, c :: t =>
    if c = 110 then (eat b!"ull" t).map fun r => (.null, r)
    else if c = 116 then (eat b!"rue" t).map fun r => (.bool true, r)
    else if c = 102 then (eat b!"alse" t).map fun r => (.bool false, r)
    else if c = 34 then (readChars n t).map fun q => (.str q.1, q.2)
    else if c = 91 then
      match eat b!"]" (skip t) with
      | some r => some (.arr [], r)
      | none => (readElems n t).map fun q => (.arr q.1, q.2)
    else if c = 123 then
      match eat b!"}" (skip t) with
      | some r => some (.obj [], r)
      | none => (readMembers n t).map fun q => (.obj q.1, q.2)
    else if isNum c then some (.num ((c :: t).takeWhile isNum), (c :: t).dropWhile isNum)
    else none

def readElems : Nat → Str → Option (List Value × Str)
  | 0, _ => none
  | n + 1, s =>
    match readV n (skip s) with
    | none => none
    | some (v, r) =>
      match eat b!"," (skip r) with
      | some r => (readElems n r).map fun q => (v :: q.1, q.2)
      | none => (eat b!"]" (skip r)).map fun r => ([v], r)

def readMembers : Nat → Str → Option (List (Str × Value) × Str)
  | 0, _ => none
  | n + 1, s =>
    match eat b!"\"" (skip s) with
    | none => none
    | some s =>
      match readChars n s with
      | none => none
      | some (k, r) =>
        match eat b!":" (skip r) with
        | none => none
        | some r =>
          match readV n (skip r) with
          | none => none
          | some (v, r) =>
            match eat b!"," (skip r) with
            | some r => (readMembers n r).map fun q => ((k, v) :: q.1, q.2)
            | none => (eat b!"}" (skip r)).map fun r => ([(k, v)], r)
end

/-! ## It reads every text of the grammar -/

theorem isSpace_iff {c : UInt8} : isSpace c = true ↔ c = 32 ∨ c = 9 ∨ c = 10 ∨ c = 13 := by
  simp [isSpace, or_assoc]

theorem skip_space {w s : Str} (hw : Space w) (hs : ∀ c r, s = c :: r → isSpace c = false) :
    skip (w ++ s) = s := by
  induction w with
  | nil =>
    cases s with
    | nil => rfl
    | cons c r => simp [skip, hs c r rfl]
  | cons c w ih =>
    have hc : isSpace c = true := isSpace_iff.2 (hw c (by simp))
    have := ih fun d hd => hw d (by simp [hd])
    simpa [skip, hc] using this

theorem hexVal_of {c : UInt8} {n : Nat} (h : Hex c n) : hexVal c = some n := by
  cases h with
  | digit h =>
    rw [hexVal, Utf8.toNat_ofNat (by omega)]
    rw [if_pos (by omega)]
    congr 1
    omega
  | @upper n h =>
    rw [hexVal, Utf8.toNat_ofNat (by omega)]
    rw [if_neg (by omega), if_pos (by omega)]
    congr 1
    omega
  | @lower n h =>
    rw [hexVal, Utf8.toNat_ofNat (by omega)]
    rw [if_neg (by omega), if_neg (by omega), if_pos (by omega)]
    congr 1
    omega

theorem hex4_of {a b c d : UInt8} {n : Nat} (h : Hex4 a b c d n) : hex4 a b c d = some n := by
  obtain ⟨w, x, y, z, h1, h2, h3, h4, rfl⟩ := h
  simp [hex4, hexVal_of h1, hexVal_of h2, hexVal_of h3, hexVal_of h4]

theorem shortVal_of {e c : UInt8} (h : (e, c) ∈ shorts) : shortVal e = some c :=
  GoMap.get?_of_mem (by decide) h

theorem readChars_cons {n : Nat} {s x r : Str} (hs : ∀ t, s ≠ 34 :: t) (h : readChar s = some (x, r)) :
    readChars (n + 1) s = (readChars n r).map fun q => (x ++ q.1, q.2) := by
  cases s with
  | nil => simp [readChar] at h
  | cons c t =>
    have hc : c ≠ 34 := fun e => hs t (by rw [e])
    rw [readChars]
    simp only [hc, if_false, h]

theorem readChars_of {t s : Str} (h : Chars t s) (n : Nat) (rest : Str) (hn : t.length < n) :
    readChars n (t ++ 34 :: rest) = some (s, rest) := by
  induction h generalizing n with
  | nil =>
    cases n with
    | zero => simp at hn
    | succ n => rfl
  | @plain c t s h1 h2 h3 _ ih =>
    cases n with
    | zero => simp at hn
    | succ n =>
      have hr : readChar (c :: (t ++ 34 :: rest)) = some ([c], t ++ 34 :: rest) := by
        simp only [readChar, h3, if_false]
        rw [if_neg (by omega)]
      rw [List.cons_append, readChars_cons (fun t e => h2 (by cases e; rfl)) hr,
        ih n (by simp at hn; omega)]
      rfl
  | @short e c t s h1 _ ih =>
    cases n with
    | zero => simp at hn
    | succ n =>
      have hr : readChar (92 :: e :: (t ++ 34 :: rest)) = some ([c], t ++ 34 :: rest) := by
        simp only [readChar, if_true, shortVal_of h1]
      rw [List.cons_append, List.cons_append, readChars_cons (fun t e => by cases e) hr,
        ih n (by simp at hn; omega)]
      rfl
  | @unicode a b c d m t s h1 h2 _ ih =>
    cases n with
    | zero => simp at hn
    | succ n =>
      have hm : ¬ (0xD800 ≤ m ∧ m < 0xDC00) := by unfold Utf8.Scalar at h2; omega
      have hr : readChar (92 :: 117 :: a :: b :: c :: d :: (t ++ 34 :: rest)) =
          some (Utf8.encode1 m, t ++ 34 :: rest) := by
        simp only [readChar, if_true, show shortVal 117 = none from by decide, hex4_of h1, if_neg hm]
      simp only [List.cons_append]
      rw [readChars_cons (fun t e => by cases e) hr, ih n (by simp at hn; omega)]
      rfl
  | @pair a b c d e f g h m m' t s h1 h2 h3 h4 h5 h6 _ ih =>
    cases n with
    | zero => simp at hn
    | succ n =>
      have hr : readChar (92 :: 117 :: a :: b :: c :: d :: 92 :: 117 :: e :: f :: g :: h :: (t ++ 34 :: rest)) =
          some (Utf8.encode1 (0x10000 + 0x400 * (m - 0xD800) + (m' - 0xDC00)), t ++ 34 :: rest) := by
        simp only [readChar, if_true, show shortVal 117 = none from by decide, hex4_of h1,
          if_pos (And.intro h2 h3), hex4_of h4]
      simp only [List.cons_append]
      rw [readChars_cons (fun t e => by cases e) hr, ih n (by simp at hn; omega)]
      rfl

theorem eat_self (p s : Str) : eat p (p ++ s) = some s := by
  induction p with
  | nil => rfl
  | cons c p ih => simp [eat, ih]

/-- What no value ends before, and what none begins with. -/
def Stop (c : UInt8) : Prop := isNum c = false

theorem digits_isNum {ds : Str} (h : Digits ds) : ∀ c ∈ ds, isNum c = true := by
  intro c hc
  obtain ⟨h1, h2⟩ := h.2 c hc
  simp [isNum, h1, h2]

theorem number_isNum {t : Str} (h : Number t) : ∀ c ∈ t, isNum c = true := by
  obtain ⟨sign, int, frac, exp, rfl, h1, h2, h3, h4⟩ := h
  intro c hc
  simp only [List.mem_append] at hc
  rcases hc with ((hc | hc) | hc) | hc
  · rcases h1 with rfl | rfl
    · cases hc
    · simp at hc; subst hc; decide
  · rcases h2 with rfl | h2
    · simp at hc; subst hc; decide
    · exact digits_isNum h2.1 c hc
  · rcases h3 with rfl | ⟨ds, rfl, h3⟩
    · cases hc
    · simp only [List.mem_append] at hc
      rcases hc with hc | hc
      · simp at hc; subst hc; decide
      · exact digits_isNum h3 c hc
  · rcases h4 with rfl | ⟨e, sg, ds, rfl, h4, h5, h6⟩
    · cases hc
    · simp only [List.mem_append] at hc
      rcases hc with (hc | hc) | hc
      · rcases h4 with rfl | rfl <;> simp at hc <;> subst hc <;> decide
      · rcases h5 with rfl | rfl | rfl
        · cases hc
        all_goals simp at hc; subst hc; decide
      · exact digits_isNum h6 c hc

/-- The first byte of a number is a digit or the sign. -/
theorem number_head {t : Str} (h : Number t) :
    ∃ c r, t = c :: r ∧ ((48 ≤ c.toNat ∧ c.toNat ≤ 57) ∨ c = 45) := by
  obtain ⟨sign, int, frac, exp, rfl, h1, h2, -, -⟩ := h
  have hi : ∃ c r, int = c :: r ∧ ((48 ≤ c.toNat ∧ c.toNat ≤ 57) ∨ c = 45) := by
    rcases h2 with rfl | ⟨⟨h2, h3⟩, -⟩
    · exact ⟨_, _, rfl, by decide⟩
    · cases int with
      | nil => exact absurd rfl h2
      | cons c r => exact ⟨c, r, rfl, .inl (h3 c (by simp))⟩
  rcases h1 with rfl | rfl
  · obtain ⟨c, r, rfl, hc⟩ := hi
    exact ⟨c, _, rfl, hc⟩
  · exact ⟨45, _, rfl, .inr rfl⟩

/-- The bytes a value may begin with. -/
def starts (c : UInt8) : Bool :=
  (decide (48 ≤ c.toNat) && decide (c.toNat ≤ 57)) || c == 45 || c == 110 || c == 116 || c == 102 ||
    c == 34 || c == 91 || c == 123

theorem denotes_head {t : Str} {v : Value} (h : Denotes t v) : ∃ c r, t = c :: r ∧ starts c = true := by
  cases h with
  | num h =>
    obtain ⟨c, r, rfl, hc⟩ := number_head h
    refine ⟨c, r, rfl, ?_⟩
    rcases hc with hc | rfl
    · simp [starts, hc]
    · rfl
  | _ => exact ⟨_, _, rfl, rfl⟩

theorem starts_facts : ∀ c : UInt8, starts c = true → isSpace c = false ∧ c ≠ 93 ∧ c ≠ 125 := by
  decide +kernel

theorem skip_value {w t r : Str} {v : Value} (hw : Space w) (h : Denotes t v) :
    skip (w ++ (t ++ r)) = t ++ r := by
  obtain ⟨c, q, rfl, hc⟩ := denotes_head h
  refine skip_space hw fun d r' e => ?_
  cases e
  exact (starts_facts _ hc).1

theorem skip_byte {w r : Str} {c : UInt8} (hw : Space w) (hc : isSpace c = false) :
    skip (w ++ c :: r) = c :: r :=
  skip_space hw fun d r' e => by cases e; exact hc

theorem eat_not {c d : UInt8} {r : Str} (h : c ≠ d) : eat [c] (d :: r) = none := by
  simp [eat, h]

/-- The next byte does not go on a number. -/
def Ends (rest : Str) : Prop := ∀ c r, rest = c :: r → isNum c = false

theorem ends_nil : Ends [] := fun _ _ e => by cases e

theorem ends_cons {c : UInt8} {r : Str} (h : isNum c = false) : Ends (c :: r) := fun _ _ e => by cases e; exact h

theorem ends_space {w r : Str} {c : UInt8} (hw : Space w) (h : isNum c = false) : Ends (w ++ c :: r) := by
  cases w with
  | nil => exact ends_cons h
  | cons d w =>
    refine ends_cons ?_
    rcases hw d (by simp) with rfl | rfl | rfl | rfl <;> rfl

theorem takeWhile_all {t r : Str} (h : ∀ c ∈ t, isNum c = true) (hr : Ends r) :
    (t ++ r).takeWhile isNum = t ∧ (t ++ r).dropWhile isNum = r := by
  induction t with
  | nil =>
    cases r with
    | nil => exact ⟨rfl, rfl⟩
    | cons c r => simp [hr c r rfl]
  | cons c t ih =>
    obtain ⟨h1, h2⟩ := ih fun d hd => h d (by simp [hd])
    simp [h c (by simp), h1, h2]

/-- The first byte after the bracket of an object. -/
theorem members_head {t : Str} {l : List (Str × Value)} (h : Members t l) (r : Str) :
    ∃ q, skip (t ++ r) = 34 :: q := by
  cases h with
  | one hw =>
    simp only [List.append_assoc, List.cons_append, List.nil_append]
    exact ⟨_, skip_byte hw (by decide)⟩
  | more hw =>
    simp only [List.append_assoc, List.cons_append, List.nil_append]
    exact ⟨_, skip_byte hw (by decide)⟩

theorem elems_head {t : Str} {l : List Value} (h : Elems t l) (r : Str) :
    ∃ c q, skip (t ++ r) = c :: q ∧ starts c = true := by
  cases h with
  | one hw ht =>
    obtain ⟨c, q, rfl, hc⟩ := denotes_head ht
    simp only [List.append_assoc, List.cons_append]
    exact ⟨c, _, skip_byte hw (starts_facts c hc).1, hc⟩
  | more hw ht =>
    obtain ⟨c, q, rfl, hc⟩ := denotes_head ht
    simp only [List.append_assoc, List.cons_append]
    exact ⟨c, _, skip_byte hw (starts_facts c hc).1, hc⟩

mutual
theorem readV_of {t : Str} {v : Value} (h : Denotes t v) (n : Nat) (rest : Str) (hn : t.length ≤ n)
    (hr : Ends rest) : readV n (t ++ rest) = some (v, rest) := by
  cases n with
  | zero =>
    obtain ⟨c, r, rfl, -⟩ := denotes_head h
    simp at hn
  | succ n =>
    cases h with
    | null => simp [readV, eat]
    | true => simp [readV, eat]
    | false => simp [readV, eat]
    | num h =>
      obtain ⟨c, r, e, hc⟩ := number_head h
      obtain ⟨h1, h2⟩ := takeWhile_all (number_isNum h) hr
      subst e
      rw [List.cons_append] at h1 h2 ⊢
      have : ∀ c : UInt8, (48 ≤ c.toNat ∧ c.toNat ≤ 57) ∨ c = 45 →
        c ≠ 110 ∧ c ≠ 116 ∧ c ≠ 102 ∧ c ≠ 34 ∧ c ≠ 91 ∧ c ≠ 123 ∧ isNum c = true := by decide +kernel
      obtain ⟨n1, n2, n3, n4, n5, n6, n7⟩ := this c hc
      rw [readV]
      simp only [n1, n2, n3, n4, n5, n6, n7, if_false, if_true, h1, h2]
    | @str t s h =>
      simp only [List.append_assoc, List.cons_append, List.nil_append]
      rw [readV]
      simp only [List.length_append, List.length_cons, List.length_nil] at hn
      rw [readChars_of h n rest (by omega)]
      rfl
    | @noElems w h =>
      simp only [List.append_assoc, List.cons_append, List.nil_append]
      rw [readV, skip_byte h (by decide)]
      rfl
    | @arr t l h =>
      simp only [List.append_assoc, List.cons_append, List.nil_append]
      obtain ⟨c, q, e, hc⟩ := elems_head h (93 :: rest)
      simp only [List.length_append, List.length_cons, List.length_nil] at hn
      rw [readV, e, eat_not (starts_facts c hc).2.1.symm, readElems_of h n rest (by omega)]
      rfl
    | @noMembers w h =>
      simp only [List.append_assoc, List.cons_append, List.nil_append]
      rw [readV, skip_byte h (by decide)]
      rfl
    | @obj t l h =>
      simp only [List.append_assoc, List.cons_append, List.nil_append]
      obtain ⟨q, e⟩ := members_head h (125 :: rest)
      simp only [List.length_append, List.length_cons, List.length_nil] at hn
      rw [readV, e, eat_not (by decide), readMembers_of h n rest (by omega)]
      rfl

theorem readElems_of {t : Str} {l : List Value} (h : Elems t l) (n : Nat) (rest : Str)
    (hn : t.length < n) : readElems n (t ++ 93 :: rest) = some (l, rest) := by
  cases n with
  | zero => simp at hn
  | succ n =>
    cases h with
    | @one w t w' v hw ht hw' =>
      simp only [List.length_append] at hn
      rw [readElems, List.append_assoc, List.append_assoc, skip_value hw ht,
        readV_of ht n _ (by omega) (ends_space hw' (by decide))]
      simp only
      rw [skip_byte hw' (by decide)]
      rfl
    | @more w t w' v ts l hw ht hw' hl =>
      simp only [List.length_append, List.length_cons, List.length_nil] at hn
      simp only [List.append_assoc, List.cons_append, List.nil_append]
      rw [readElems, skip_value hw ht, readV_of ht n _ (by omega) (ends_space hw' (by decide))]
      simp only
      rw [skip_byte hw' (by decide)]
      simp only [eat, if_true]
      rw [readElems_of hl n rest (by omega)]
      rfl

theorem readMembers_of {t : Str} {l : List (Str × Value)} (h : Members t l) (n : Nat) (rest : Str)
    (hn : t.length < n) : readMembers n (t ++ 125 :: rest) = some (l, rest) := by
  cases n with
  | zero => simp at hn
  | succ n =>
    cases h with
    | @one w k s w1 w2 t v w3 hw hk hw1 hw2 ht hw3 =>
      simp only [List.length_append, List.length_cons, List.length_nil] at hn
      simp only [List.append_assoc, List.cons_append, List.nil_append]
      rw [readMembers, skip_byte hw (by decide)]
      simp only [eat, if_true]
      rw [readChars_of hk n _ (by omega)]
      simp only
      rw [skip_byte hw1 (by decide)]
      simp only [eat, if_true]
      rw [skip_value hw2 ht, readV_of ht n _ (by omega) (ends_space hw3 (by decide))]
      simp only
      rw [skip_byte hw3 (by decide)]
      rfl
    | @more w k s w1 w2 t v w3 ts l hw hk hw1 hw2 ht hw3 hl =>
      simp only [List.length_append, List.length_cons, List.length_nil] at hn
      simp only [List.append_assoc, List.cons_append, List.nil_append]
      rw [readMembers, skip_byte hw (by decide)]
      simp only [eat, if_true]
      rw [readChars_of hk n _ (by omega)]
      simp only
      rw [skip_byte hw1 (by decide)]
      simp only [eat, if_true]
      rw [skip_value hw2 ht, readV_of ht n _ (by omega) (ends_space hw3 (by decide))]
      simp only
      rw [skip_byte hw3 (by decide)]
      simp only [eat, if_true]
      rw [readMembers_of hl n rest (by omega)]
      rfl
end

/-- The value of a text. -/
def readText (t : Str) : Option (Value × Str) := readV t.length t

theorem readText_of {t : Str} {v : Value} (h : Denotes t v) : readText t = some (v, []) := by
  have := readV_of h t.length [] (Nat.le_refl _) ends_nil
  rwa [List.append_nil] at this

end Verif.Eval
