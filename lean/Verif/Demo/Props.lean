import Verif.Demo.Model

/-!
# C32, C33: the demo tasks
-/

namespace Verif.Demo
open Verif

theorem revLoop_eq (l0 : List Nat) (steps i : Nat) (l : List Nat) (hlen : l.length = l0.length)
    (hi : i + steps = l0.length / 2)
    (hl : ∀ m, m < l0.length → l[m]? =
      if m < i ∨ l0.length - i ≤ m then l0[l0.length - 1 - m]? else l0[m]?) :
    revLoop l0.length steps i l = some l0.reverse := by
  induction steps generalizing i l with
  | zero =>
    rw [revLoop]
    congr 1
    apply List.ext_getElem?
    intro m
    by_cases hm : m < l0.length
    · rw [hl m hm, List.getElem?_reverse hm]
      split
      · rfl
      · have : m = l0.length - 1 - m := by omega
        rw [← this]
    · rw [List.getElem?_eq_none (by omega), List.getElem?_eq_none (by simp; omega)]
  | succ steps ih =>
    have h1 : i < l.length := by omega
    have h2 : l0.length - i - 1 < l.length := by omega
    have hs : swap l i (l0.length - i - 1) =
        some ((l.set i l[l0.length - i - 1]).set (l0.length - i - 1) l[i]) := by
      simp [swap, List.getElem?_eq_getElem h1, List.getElem?_eq_getElem h2]
    rw [revLoop, hs]
    refine ih (i + 1) _ (by simp [hlen]) (by omega) ?_
    intro m hm
    have e1 := hl i (by omega)
    have e2 := hl (l0.length - i - 1) (by omega)
    rw [if_neg (by omega), List.getElem?_eq_getElem h1, List.getElem?_eq_getElem (by omega)] at e1
    rw [if_neg (by omega), List.getElem?_eq_getElem h2, List.getElem?_eq_getElem (by omega)] at e2
    rw [List.getElem?_set, List.getElem?_set]
    by_cases hm1 : l0.length - i - 1 = m
    · rw [if_pos hm1, if_pos (by simp; omega), if_pos (by omega), e1,
        show l0.length - 1 - m = i by omega, List.getElem?_eq_getElem (by omega)]
    · rw [if_neg hm1]
      by_cases hm2 : i = m
      · rw [if_pos hm2, if_pos h1, if_pos (by omega), e2,
          show l0.length - 1 - m = l0.length - i - 1 by omega, List.getElem?_eq_getElem (by omega)]
      · rw [if_neg hm2, hl m hm]
        by_cases hc : m < i ∨ l0.length - i ≤ m
        · rw [if_pos hc, if_pos (by omega)]
        · rw [if_neg hc, if_neg (by omega)]

theorem rev_eq (t : Target) :
    rev t = some { t with string := Utf8.encode (Utf8.decode t.string).reverse } := by
  unfold rev
  simp only
  rw [revLoop_eq (Utf8.decode t.string) _ 0 _ rfl (by omega)]
  intro m hm
  rw [if_neg (by omega)]

theorem rot13Rune_scalar {r : Nat} (h : Utf8.Scalar r) : Utf8.Scalar (rot13Rune r) := by
  unfold Utf8.Scalar at *
  unfold rot13Rune
  split
  · omega
  split
  · omega
  split
  · omega
  split <;> omega

theorem rot13Rune_rot13Rune (r : Nat) : rot13Rune (rot13Rune r) = r := by
  unfold rot13Rune
  repeat' split
  all_goals omega

theorem decode_rev (s : Str) :
    Utf8.decode (Utf8.encode (Utf8.decode s).reverse) = (Utf8.decode s).reverse :=
  Utf8.decode_encode fun r hr => Utf8.scalar_decode s r (List.mem_reverse.mp hr)

theorem decode_rot13 (s : Str) :
    Utf8.decode (Utf8.encode ((Utf8.decode s).map rot13Rune)) = (Utf8.decode s).map rot13Rune :=
  Utf8.decode_encode fun r hr => by
    obtain ⟨x, hx, rfl⟩ := List.mem_map.mp hr
    exact rot13Rune_scalar (Utf8.scalar_decode s x hx)

/-- C32: `rev` never panics, and reverses the characters of a (valid) target string. -/
theorem C32_rev_reverses (cs : List Char) (out : Str) :
    rev ⟨out, cs.flatMap String.utf8EncodeChar⟩ =
      some ⟨out, cs.reverse.flatMap String.utf8EncodeChar⟩ := by
  have h : ∀ cs : List Char,
      cs.flatMap String.utf8EncodeChar = Utf8.encode (cs.map Char.toNat) := by
    intro cs
    unfold Utf8.encode
    rw [List.flatMap_map]
    simp only [Utf8.encode1_char]
  have hs : ∀ r ∈ cs.map Char.toNat, Utf8.Scalar r := by
    intro r hr
    obtain ⟨c, _, rfl⟩ := List.mem_map.mp hr
    exact Utf8.scalar_iff_char.mpr ⟨c, rfl⟩
  rw [rev_eq, h, h]
  simp only [Utf8.decode_encode hs, List.map_reverse]

/-- C32: on every valid UTF-8 target string (runbooks are JSON, so no other occurs) both tasks are
involutions. -/
theorem C32_involutions (t : Target) (h : Utf8.Valid t.string) :
    (rev t).bind rev = some t ∧ rot13 (rot13 t) = t := by
  obtain ⟨out, s⟩ := t
  have h := Utf8.valid_iff.mp h
  refine ⟨?_, ?_⟩
  · simp only [rev_eq, Option.bind_some]
    rw [decode_rev, List.reverse_reverse]
    simp only at h
    rw [h]
  · simp only [rot13]
    rw [decode_rot13, List.map_map]
    simp only at h
    have : rot13Rune ∘ rot13Rune = id := funext rot13Rune_rot13Rune
    rw [this, List.map_id, h]

/-- C32: the two tasks commute, on every string, valid or not. -/
theorem C32_commute (t : Target) : (rev t).map rot13 = rev (rot13 t) := by
  simp only [rev_eq, Option.map_some, rot13]
  rw [decode_rev, decode_rot13, List.map_reverse]

/-- C32: what happens on a string that is not valid UTF-8: rev twice and rot13 twice agree, giving
the string with its invalid bytes replaced; so they restore exactly the valid strings. -/
theorem C32_involution_iff_valid (t : Target) :
    (rev t).bind rev = some (rot13 (rot13 t)) ∧
      ((rev t).bind rev = some t ↔ Utf8.Valid t.string) := by
  obtain ⟨out, s⟩ := t
  have hid : rot13Rune ∘ rot13Rune = id := funext rot13Rune_rot13Rune
  refine ⟨?_, ?_⟩
  · simp only [rev_eq, Option.bind_some, rot13]
    rw [decode_rev, decode_rot13, List.reverse_reverse, List.map_map, hid, List.map_id]
  · rw [Utf8.valid_iff]
    simp only [rev_eq, Option.bind_some]
    rw [decode_rev, List.reverse_reverse]
    simp

/-- rot13 rotates by half the alphabet: what it does to each ASCII letter and to nothing else. -/
theorem C32_rot13_is_rot13 (cs : List Char) (out : Str) (rot : Char → Char)
    (hlo : ∀ i < 26, rot (Char.ofNat (97 + i)) = Char.ofNat (97 + (i + 13) % 26))
    (hup : ∀ i < 26, rot (Char.ofNat (65 + i)) = Char.ofNat (65 + (i + 13) % 26))
    (hid : ∀ c : Char, ¬ (97 ≤ c.toNat ∧ c.toNat < 123) → ¬ (65 ≤ c.toNat ∧ c.toNat < 91) →
      rot c = c) :
    rot13 ⟨out, cs.flatMap String.utf8EncodeChar⟩ =
      ⟨out, (cs.map rot).flatMap String.utf8EncodeChar⟩ := by
  have h : ∀ cs : List Char,
      cs.flatMap String.utf8EncodeChar = Utf8.encode (cs.map Char.toNat) := by
    intro cs
    unfold Utf8.encode
    rw [List.flatMap_map]
    simp only [Utf8.encode1_char]
  have hs : ∀ r ∈ cs.map Char.toNat, Utf8.Scalar r := by
    intro r hr
    obtain ⟨c, _, rfl⟩ := List.mem_map.mp hr
    exact Utf8.scalar_iff_char.mpr ⟨c, rfl⟩
  have hval : ∀ n, n < 200 → (Char.ofNat n).toNat = n := by
    intro n hn
    exact Utf8.toNat_ofNat_char (Or.inl (by omega))
  have key : ∀ c : Char, rot13Rune c.toNat = (rot c).toNat := by
    intro c
    by_cases h1 : 97 ≤ c.toNat ∧ c.toNat < 123
    · have hc : c = Char.ofNat (97 + (c.toNat - 97)) := by
        rw [show 97 + (c.toNat - 97) = c.toNat by omega]
        exact (Char.ofNat_toNat c).symm
      have := hlo (c.toNat - 97) (by omega)
      rw [← hc] at this
      rw [this, hval _ (by omega)]
      unfold rot13Rune
      repeat' split
      all_goals omega
    · by_cases h2 : 65 ≤ c.toNat ∧ c.toNat < 91
      · have hc : c = Char.ofNat (65 + (c.toNat - 65)) := by
          rw [show 65 + (c.toNat - 65) = c.toNat by omega]
          exact (Char.ofNat_toNat c).symm
        have := hup (c.toNat - 65) (by omega)
        rw [← hc] at this
        rw [this, hval _ (by omega)]
        unfold rot13Rune
        repeat' split
        all_goals omega
      · rw [hid c h1 h2]
        unfold rot13Rune
        repeat' split
        all_goals omega
  simp only [rot13, h]
  rw [Utf8.decode_encode hs, List.map_map, List.map_map]
  congr 2
  exact List.map_congr_left fun c _ => key c

example : Utf8.Valid b!"Héllo, Wörld €" :=
  Utf8.valid_iff.mpr (by decide)
example : (rev ⟨[], b!"aé€"⟩).map Target.string = some b!"€éa" := by decide
example : (rot13 ⟨[], b!"Hello, wörld"⟩).string = b!"Uryyb, jöeyq" := by decide
/-- A lone continuation byte is not restored. -/
example : (rev ⟨[], [0x80]⟩).map Target.string = some [0xEF, 0xBF, 0xBD] := by decide

/-- C33 for every `Seconds` whose nanosecond count fits in an int64 (up to 292 years), including
every zero and negative value. -/
theorem C33_sleep_pause_partial (x : Sleep) (h : x.seconds.toInt ≤ 9223372036) :
    x.check.pause = (max 1 x.seconds.toInt).toNat * 1000000000 := by
  have h1 : (1 : Int64).toInt = 1 := by decide
  unfold Sleep.check Sleep.pause Sleep.duration
  split
  · rename_i hlt
    rw [Int64.lt_iff_toInt_lt, h1] at hlt
    rw [max_eq_left (by omega)]
    decide
  · rename_i hlt
    rw [Int64.lt_iff_toInt_lt, h1] at hlt
    rw [max_eq_right (by omega)]
    have h2 : (1000000000 : Int64).toInt = 1000000000 := by decide
    rw [Int64.toInt_mul, h2, Int.bmod_eq_of_le (by omega) (by omega)]
    omega

/-- C33 is false for large values: the product wraps and the task does not pause at all. -/
theorem C33_refuted : ∃ x : Sleep, x.seconds.toInt = 9223372037 ∧ x.check.pause = 0 :=
  ⟨⟨9223372037⟩, by decide, by decide⟩

/-- **C33, exactly.** A task sleeps as long as it says (and one second at least) if and only if it asks for at most
9223372036 seconds. -/
theorem C33_exact (x : Sleep) :
    x.check.pause = (max 1 x.seconds.toInt).toNat * 1000000000 ↔ x.seconds.toInt ≤ 9223372036 := by
  refine ⟨fun h => ?_, C33_sleep_pause_partial x⟩
  by_contra hc
  have h1 : x.check.pause < 9223372036854775808 := by
    unfold Sleep.pause
    have := x.check.duration.toInt_lt
    omega
  omega

example : (Sleep.check ⟨-5⟩).pause = 1000000000 := by decide

end Verif.Demo
