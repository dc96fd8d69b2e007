import Verif.Base.Str

/-!
# `[]rune(s)` and `string(runes)`

Go's conversions between strings and rune slices (Go specification, "Conversions to and from a
string type"; package unicode/utf8).  A rune is modelled by its code point, a natural number.  An
invalid byte decodes to U+FFFD and consumes one byte; a surrogate or out-of-range rune encodes as
U+FFFD.
-/

namespace Verif.Utf8
open Verif

/-- U+FFFD, `utf8.RuneError`. -/
abbrev runeError : Nat := 0xFFFD

/-- A continuation byte within `[lo, hi]`. -/
def inRange (b : UInt8) (lo hi : Nat) : Bool := decide (lo ≤ b.toNat) && decide (b.toNat ≤ hi)

/-- The range of the second byte after each lead byte (excludes overlong forms, surrogates and code
points above U+10FFFF). -/
def lo3 (n0 : Nat) : Nat := if n0 = 0xE0 then 0xA0 else 0x80
@[inherit_doc lo3] def hi3 (n0 : Nat) : Nat := if n0 = 0xED then 0x9F else 0xBF
@[inherit_doc lo3] def lo4 (n0 : Nat) : Nat := if n0 = 0xF0 then 0x90 else 0x80
@[inherit_doc lo3] def hi4 (n0 : Nat) : Nat := if n0 = 0xF4 then 0x8F else 0xBF

/-- `utf8.DecodeRune` on a non-empty string: code point and width. -/
def decode1 (b0 : UInt8) (s : Str) : Nat × Nat :=
  let n0 := b0.toNat
  if n0 < 0x80 then (n0, 1)
  else if n0 < 0xC2 then (runeError, 1)
  else if n0 < 0xE0 then
    match s with
    | b1 :: _ =>
      if inRange b1 0x80 0xBF then ((n0 - 0xC0) * 64 + (b1.toNat - 0x80), 2) else (runeError, 1)
    | _ => (runeError, 1)
  else if n0 < 0xF0 then
    match s with
    | b1 :: b2 :: _ =>
      if inRange b1 (lo3 n0) (hi3 n0) &&
          inRange b2 0x80 0xBF then
        ((n0 - 0xE0) * 4096 + (b1.toNat - 0x80) * 64 + (b2.toNat - 0x80), 3)
      else (runeError, 1)
    | _ => (runeError, 1)
  else if n0 < 0xF5 then
    match s with
    | b1 :: b2 :: b3 :: _ =>
      if inRange b1 (lo4 n0) (hi4 n0) &&
          inRange b2 0x80 0xBF && inRange b3 0x80 0xBF then
        ((n0 - 0xF0) * 262144 + (b1.toNat - 0x80) * 4096 + (b2.toNat - 0x80) * 64 +
          (b3.toNat - 0x80), 4)
      else (runeError, 1)
    | _ => (runeError, 1)
  else (runeError, 1)

/-- `[]rune(s)`; the first argument counts the bytes of the current rune still to be skipped. -/
def decodeSkip : Nat → Str → List Nat
  | _, [] => []
  | k + 1, _ :: s => decodeSkip k s
  | 0, b :: s => (decode1 b s).1 :: decodeSkip ((decode1 b s).2 - 1) s

/-- `[]rune(s)`. -/
def decode (s : Str) : List Nat := decodeSkip 0 s

/-- `utf8.AppendRune`. -/
def encode1 (r : Nat) : Str :=
  if r < 0x80 then [UInt8.ofNat r]
  else if r < 0x800 then [UInt8.ofNat (0xC0 + r / 64), UInt8.ofNat (0x80 + r % 64)]
  else if (0xD800 ≤ r ∧ r < 0xE000) ∨ 0x10FFFF < r then [0xEF, 0xBF, 0xBD]
  else if r < 0x10000 then
    [UInt8.ofNat (0xE0 + r / 4096), UInt8.ofNat (0x80 + r / 64 % 64), UInt8.ofNat (0x80 + r % 64)]
  else [UInt8.ofNat (0xF0 + r / 262144), UInt8.ofNat (0x80 + r / 4096 % 64),
    UInt8.ofNat (0x80 + r / 64 % 64), UInt8.ofNat (0x80 + r % 64)]

/-- `string(runes)`. -/
def encode (rs : List Nat) : Str := rs.flatMap encode1

/-- A Unicode scalar value. -/
def Scalar (r : Nat) : Prop := r < 0xD800 ∨ (0xE000 ≤ r ∧ r ≤ 0x10FFFF)

/-- Valid UTF-8: the encoding of a sequence of Unicode characters. -/
def Valid (s : Str) : Prop := ∃ cs : List Char, s = cs.flatMap String.utf8EncodeChar

theorem toNat_ofNat {n : Nat} (h : n < 256) : (UInt8.ofNat n).toNat = n := by
  simp [Nat.mod_eq_of_lt h]

theorem scalar_decode1 (b : UInt8) (s : Str) : Scalar (decode1 b s).1 := by
  have hb : b.toNat < 256 := b.toNat_lt
  unfold decode1 Scalar
  simp only
  split
  · left; simp only; omega
  split
  · simp [runeError]
  split
  · split
    · split
      · rename_i h
        simp only [inRange, Bool.and_eq_true, decide_eq_true_eq] at h
        left; simp only; omega
      · simp [runeError]
    · simp [runeError]
  split
  · split
    · split
      · rename_i h
        simp only [inRange, Bool.and_eq_true, decide_eq_true_eq] at h
        obtain ⟨⟨h1, h2⟩, h3⟩ := h
        simp only [lo3, hi3] at h1 h2 ⊢
        split at h1 <;> split at h2 <;> omega
      · simp [runeError]
    · simp [runeError]
  split
  · split
    · split
      · rename_i h
        simp only [inRange, Bool.and_eq_true, decide_eq_true_eq] at h
        obtain ⟨⟨⟨h1, h2⟩, h3⟩, h4⟩ := h
        simp only [lo4, hi4] at h1 h2 ⊢
        split at h1 <;> split at h2 <;> omega
      · simp [runeError]
    · simp [runeError]
  · simp [runeError]

theorem scalar_decodeSkip (k : Nat) (s : Str) : ∀ r ∈ decodeSkip k s, Scalar r := by
  induction s generalizing k with
  | nil => cases k <;> simp [decodeSkip]
  | cons b s ih =>
    cases k with
    | zero =>
      intro r hr
      rcases List.mem_cons.mp hr with rfl | hr
      · exact scalar_decode1 b s
      · exact ih _ r hr
    | succ k => exact ih k

theorem scalar_decode (s : Str) : ∀ r ∈ decode s, Scalar r := scalar_decodeSkip 0 s

theorem decodeSkip_encode1 {r : Nat} (h : Scalar r) (s : Str) :
    decodeSkip 0 (encode1 r ++ s) = r :: decodeSkip 0 s := by
  unfold Scalar at h
  unfold encode1
  split
  · rename_i h1
    simp [decodeSkip, decode1, toNat_ofNat (show r < 256 by omega), h1]
  split
  · rename_i h1 h2
    have e0 := toNat_ofNat (show 0xC0 + r / 64 < 256 by omega)
    have e1 := toNat_ofNat (show 0x80 + r % 64 < 256 by omega)
    have c1 : ¬ (0xC0 + r / 64 < 0x80) := by omega
    have c2 : ¬ (0xC0 + r / 64 < 0xC2) := by omega
    have c3 : 0xC0 + r / 64 < 0xE0 := by omega
    have c5 : r / 64 * 64 + r % 64 = r := by omega
    have c6 : 128 + r % 64 ≤ 191 := by omega
    have hd : decode1 (UInt8.ofNat (192 + r / 64)) (UInt8.ofNat (128 + r % 64) :: s) = (r, 2) := by
      simp only [decode1, e0, if_neg c1, if_neg c2, if_pos c3, inRange, e1]
      simp [c6, c5]
    simp only [List.cons_append, List.nil_append, decodeSkip, hd]
  rw [if_neg (by omega)]
  split
  · rename_i h1 h2 h3
    have e0 := toNat_ofNat (show 0xE0 + r / 4096 < 256 by omega)
    have e1 := toNat_ofNat (show 0x80 + r / 64 % 64 < 256 by omega)
    have e2 := toNat_ofNat (show 0x80 + r % 64 < 256 by omega)
    have c1 : ¬ (0xE0 + r / 4096 < 0x80) := by omega
    have c2 : ¬ (0xE0 + r / 4096 < 0xC2) := by omega
    have c3 : ¬ (0xE0 + r / 4096 < 0xE0) := by omega
    have c4 : 0xE0 + r / 4096 < 0xF0 := by omega
    have g : (inRange (UInt8.ofNat (128 + r / 64 % 64)) (lo3 (0xE0 + r / 4096)) (hi3 (0xE0 + r / 4096)) &&
        inRange (UInt8.ofNat (128 + r % 64)) 0x80 0xBF) = true := by
      simp only [inRange, e1, e2, lo3, hi3, Bool.and_eq_true, decide_eq_true_eq]
      split <;> split <;> omega
    have hd : decode1 (UInt8.ofNat (224 + r / 4096))
        (UInt8.ofNat (128 + r / 64 % 64) :: UInt8.ofNat (128 + r % 64) :: s) = (r, 3) := by
      simp only [decode1, e0, if_neg c1, if_neg c2, if_neg c3, if_pos c4, g, if_true, e1, e2]
      exact Prod.ext (by simp only; omega) rfl
    simp only [List.cons_append, List.nil_append, decodeSkip, hd]
  · rename_i h1 h2 h3
    have e0 := toNat_ofNat (show 0xF0 + r / 262144 < 256 by omega)
    have e1 := toNat_ofNat (show 0x80 + r / 4096 % 64 < 256 by omega)
    have e2 := toNat_ofNat (show 0x80 + r / 64 % 64 < 256 by omega)
    have e3 := toNat_ofNat (show 0x80 + r % 64 < 256 by omega)
    have c1 : ¬ (0xF0 + r / 262144 < 0x80) := by omega
    have c2 : ¬ (0xF0 + r / 262144 < 0xC2) := by omega
    have c3 : ¬ (0xF0 + r / 262144 < 0xE0) := by omega
    have c4 : ¬ (0xF0 + r / 262144 < 0xF0) := by omega
    have c5 : 0xF0 + r / 262144 < 0xF5 := by omega
    have g : (inRange (UInt8.ofNat (128 + r / 4096 % 64)) (lo4 (0xF0 + r / 262144)) (hi4 (0xF0 + r / 262144)) &&
        inRange (UInt8.ofNat (128 + r / 64 % 64)) 0x80 0xBF &&
        inRange (UInt8.ofNat (128 + r % 64)) 0x80 0xBF) = true := by
      simp only [inRange, e1, e2, e3, lo4, hi4, Bool.and_eq_true, decide_eq_true_eq]
      split <;> split <;> omega
    have hd : decode1 (UInt8.ofNat (240 + r / 262144))
        (UInt8.ofNat (128 + r / 4096 % 64) :: UInt8.ofNat (128 + r / 64 % 64) ::
          UInt8.ofNat (128 + r % 64) :: s) = (r, 4) := by
      simp only [decode1, e0, if_neg c1, if_neg c2, if_neg c3, if_neg c4, if_pos c5, g, if_true,
        e1, e2, e3]
      exact Prod.ext (by simp only; omega) rfl
    simp only [List.cons_append, List.nil_append, decodeSkip, hd]

theorem decode_encode {rs : List Nat} (h : ∀ r ∈ rs, Scalar r) : decode (encode rs) = rs := by
  induction rs with
  | nil => rfl
  | cons r rs ih =>
    have := decodeSkip_encode1 (h r (by simp)) (encode rs)
    unfold decode at ih ⊢
    rw [encode, List.flatMap_cons]
    rw [encode] at this
    rw [this]
    rw [encode] at ih
    rw [ih fun x hx => h x (by simp [hx])]

theorem encode1_char (c : Char) : encode1 c.toNat = String.utf8EncodeChar c := by
  have hv : c.toNat < 0xD800 ∨ (0xDFFF < c.toNat ∧ c.toNat < 0x110000) := c.valid
  have hc : c.val.toNat = c.toNat := rfl
  unfold encode1 String.utf8EncodeChar
  simp only [hc]
  generalize c.toNat = v at *
  by_cases h1 : v < 0x80
  · rw [if_pos h1, if_pos (show v ≤ 0x7f by omega)]
  rw [if_neg h1, if_neg (show ¬ v ≤ 0x7f by omega)]
  by_cases h2 : v < 0x800
  · rw [if_pos h2, if_pos (show v ≤ 0x7ff by omega), show v / 64 % 32 + 192 = 192 + v / 64 by omega,
      Nat.add_comm (v % 64)]
  rw [if_neg h2, if_neg (show ¬ v ≤ 0x7ff by omega),
    if_neg (show ¬ ((0xD800 ≤ v ∧ v < 0xE000) ∨ 0x10FFFF < v) by omega)]
  by_cases h3 : v < 0x10000
  · rw [if_pos h3, if_pos (show v ≤ 0xffff by omega), show v / 4096 % 16 + 224 = 224 + v / 4096 by omega,
      Nat.add_comm (v % 64), Nat.add_comm (v / 64 % 64)]
  · rw [if_neg h3, if_neg (show ¬ v ≤ 0xffff by omega), show v / 262144 % 8 + 240 = 240 + v / 262144 by omega,
      Nat.add_comm (v % 64), Nat.add_comm (v / 64 % 64), Nat.add_comm (v / 4096 % 64)]

theorem toNat_ofNat_char {r : Nat} (hv : r.isValidChar) : (Char.ofNat r).toNat = r := by
  simp [Char.ofNat, hv, Char.toNat, Char.ofNatAux, UInt32.toNat]

theorem scalar_iff_char {r : Nat} : Scalar r ↔ ∃ c : Char, c.toNat = r := by
  constructor
  · intro h
    have hv : r.isValidChar := by
      rcases h with h | h
      · exact Or.inl h
      · exact Or.inr ⟨by omega, by omega⟩
    refine ⟨Char.ofNat r, ?_⟩
    exact toNat_ofNat_char hv
  · rintro ⟨c, rfl⟩
    have hv : c.toNat < 0xD800 ∨ (0xDFFF < c.toNat ∧ c.toNat < 0x110000) := c.valid
    unfold Scalar
    omega

theorem valid_encode {rs : List Nat} (h : ∀ r ∈ rs, Scalar r) : Valid (encode rs) := by
  induction rs with
  | nil => exact ⟨[], rfl⟩
  | cons r rs ih =>
    obtain ⟨cs, hcs⟩ := ih fun x hx => h x (by simp [hx])
    obtain ⟨c, rfl⟩ := scalar_iff_char.mp (h r (by simp))
    refine ⟨c :: cs, ?_⟩
    rw [encode, List.flatMap_cons, List.flatMap_cons, encode1_char, ← hcs]
    rfl

theorem valid_iff_encode {s : Str} : Valid s ↔ ∃ rs, (∀ r ∈ rs, Scalar r) ∧ s = encode rs := by
  constructor
  · rintro ⟨cs, rfl⟩
    refine ⟨cs.map Char.toNat, ?_, ?_⟩
    · intro r hr
      obtain ⟨c, _, rfl⟩ := List.mem_map.mp hr
      exact scalar_iff_char.mpr ⟨c, rfl⟩
    · unfold encode
      rw [List.flatMap_map]
      simp only [encode1_char]
  · rintro ⟨rs, h, rfl⟩
    exact valid_encode h

theorem valid_iff {s : Str} : Valid s ↔ encode (decode s) = s := by
  constructor
  · rw [valid_iff_encode]
    rintro ⟨rs, h, rfl⟩
    rw [decode_encode h]
  · intro h
    rw [← h]
    exact valid_encode (scalar_decode s)

end Verif.Utf8
