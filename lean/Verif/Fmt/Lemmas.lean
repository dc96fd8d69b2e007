import Verif.Fmt.Model
import Verif.Fmt.Spec
import Verif.Hcl.TextLemmas

/-!
# Quoting, lemmas
-/

namespace Verif.Fmt
open Verif

/-! ## Literals -/

theorem literal_plain {c : UInt8} (h1 : c ≠ 0x22) (h2 : c ≠ 0x0A) (h3 : c ≠ 0x5C) (s : Str) :
    literal (c :: s) = (literal s).map fun x => (c :: x.1, x.2) := by
  rw [literal]
  all_goals (intros; simp_all)

theorem literal_bytes {cs : Str} (h : ∀ c ∈ cs, c ≠ 0x22 ∧ c ≠ 0x0A ∧ c ≠ 0x5C) (s : Str) :
    literal (cs ++ s) = (literal s).map fun x => (cs ++ x.1, x.2) := by
  induction cs with
  | nil => simp
  | cons c cs ih =>
    obtain ⟨h1, h2, h3⟩ := h c (by simp)
    rw [List.cons_append, literal_plain h1 h2 h3, ih fun d hd => h d (by simp [hd])]
    simp [Option.map_map, Function.comp_def]

theorem literal_x (b : UInt8) (s : Str) :
    literal (b!"\\x" ++ Hcl.hexDigits 2 b.toNat ++ s) = (literal s).map fun x => (b :: x.1, x.2) := by
  have hn := Hcl.hexNum_digits 2 b.toNat (by have := b.toNat_lt; omega)
  have hl := Hcl.hexDigits_length 2 b.toNat
  revert hn hl
  generalize Hcl.hexDigits 2 b.toNat = d
  intro hn hl
  match d, hl with
  | [p, q], _ =>
    show literal (0x5C :: 0x78 :: p :: q :: s) = _
    simp only [literal, hn, Option.bind_some, UInt8.ofNat_toNat]

theorem literal_u {r : Nat} (hr : Utf8.Scalar r) (h : r < 65536) (s : Str) :
    literal (b!"\\u" ++ Hcl.hexDigits 4 r ++ s) = (literal s).map fun x => (Utf8.encode1 r ++ x.1, x.2) := by
  have hn := Hcl.hexNum_digits 4 r h
  have hl := Hcl.hexDigits_length 4 r
  revert hn hl
  generalize Hcl.hexDigits 4 r = d
  intro hn hl
  match d, hl with
  | [a, b, c, d], _ =>
    show literal (0x5C :: 0x75 :: a :: b :: c :: d :: s) = _
    simp only [literal, hn, Option.bind_some, Hcl.charOf_scalar hr]

theorem literal_U {r : Nat} (hr : Utf8.Scalar r) (s : Str) :
    literal (b!"\\U" ++ Hcl.hexDigits 8 r ++ s) = (literal s).map fun x => (Utf8.encode1 r ++ x.1, x.2) := by
  have hn := Hcl.hexNum_digits 8 r (by rcases hr with h | h <;> omega)
  have hl := Hcl.hexDigits_length 8 r
  revert hn hl
  generalize Hcl.hexDigits 8 r = d
  intro hn hl
  match d, hl with
  | [a, b, c, d, e, f, g, h], _ =>
    show literal (0x5C :: 0x55 :: a :: b :: c :: d :: e :: f :: g :: h :: s) = _
    simp only [literal, hn, Option.bind_some, Hcl.charOf_scalar hr]

/-- What follows a literal does not matter. -/
theorem literal_append {body v rest : Str} (h : literal body = some (v, [])) :
    literal (body ++ rest) = some (v, rest) := by
  have key : ∀ body v u, literal body = some (v, u) → ∀ rest, literal (body ++ rest) = some (v, u ++ rest) := by
    intro body
    fun_induction literal body
    all_goals (intro v u h rest)
    all_goals first
      | (simp at h; done)
      | (cases h; simp only [List.cons_append, literal]; done)
      | (rename_i ih
         obtain ⟨⟨p, q⟩, hx, e⟩ := Option.map_eq_some_iff.1 h
         cases e
         simp only [List.cons_append, literal, ih _ _ hx rest, Option.map_some]; done)
      | (rename_i ih
         obtain ⟨n, hn, h⟩ := Option.bind_eq_some_iff.1 h
         obtain ⟨⟨p, q⟩, hx, e⟩ := Option.map_eq_some_iff.1 h
         cases e
         simp only [List.cons_append, literal, hn, Option.bind_some, ih _ _ hx rest, Option.map_some]; done)
      | (rename_i h1 h2 _ _ _ _ _ _ _ _ _ _ _ _ h3 ih
         obtain ⟨⟨p, q⟩, hx, e⟩ := Option.map_eq_some_iff.1 h
         cases e
         rw [List.cons_append, literal_plain h1 h2 h3, ih _ _ hx rest]; rfl)
  simpa using key body v [] h rest

/-! ## Runes -/

theorem encode1_decode1 {b : UInt8} {s : Str} {r w : Nat} (h : Utf8.decode1 b s = (r, w))
    (hn : ¬ (w = 1 ∧ r = Utf8.runeError)) : b :: s = Utf8.encode1 r ++ s.drop (w - 1) := by
  have hb : b.toNat < 256 := b.toNat_lt
  have aux : ∀ (c : UInt8) n, n = c.toNat → UInt8.ofNat n = c := fun c n e => by rw [e, UInt8.ofNat_toNat]
  have bad : ∀ {p : Prop}, (Utf8.runeError, 1) = (r, w) → p := fun e => by
    cases e; exact absurd ⟨rfl, rfl⟩ hn
  unfold Utf8.decode1 at h
  simp only at h
  split at h
  · cases h
    simp only [Utf8.encode1]
    rw [if_pos (by assumption)]
    simp
  split at h
  · exact bad h
  split at h
  · split at h
    · split at h
      · rename_i b1 _ h1
        simp only [Utf8.inRange, Bool.and_eq_true, decide_eq_true_eq] at h1
        obtain ⟨rfl, rfl⟩ := Prod.mk.inj h
        rw [Utf8.encode1, if_neg (by omega), if_pos (by omega)]
        rw [aux b _ (by omega), aux b1 _ (by omega)]
        rfl
      · exact bad h
    · exact bad h
  split at h
  · split at h
    · split at h
      · rename_i b1 b2 _ h1
        simp only [Utf8.inRange, Bool.and_eq_true, decide_eq_true_eq] at h1
        simp only [Utf8.lo3, Utf8.hi3] at h1
        obtain ⟨⟨h1, h2⟩, h3, h4⟩ := h1
        have g1 : 0x80 ≤ b1.toNat ∧ (b.toNat = 0xE0 → 0xA0 ≤ b1.toNat) := by split at h1 <;> omega
        have g2 : b1.toNat ≤ 0xBF ∧ (b.toNat = 0xED → b1.toNat ≤ 0x9F) := by split at h2 <;> omega
        clear h1 h2
        obtain ⟨rfl, rfl⟩ := Prod.mk.inj h
        rw [Utf8.encode1, if_neg (by omega), if_neg (by omega), if_neg (by omega), if_pos (by omega)]
        rw [aux b _ (by omega), aux b1 _ (by omega), aux b2 _ (by omega)]
        rfl
      · exact bad h
    · exact bad h
  split at h
  · split at h
    · split at h
      · rename_i b1 b2 b3 _ h1
        simp only [Utf8.inRange, Bool.and_eq_true, decide_eq_true_eq] at h1
        simp only [Utf8.lo4, Utf8.hi4] at h1
        obtain ⟨⟨⟨h1, h2⟩, h3, h4⟩, h5, h6⟩ := h1
        have g1 : 0x80 ≤ b1.toNat ∧ (b.toNat = 0xF0 → 0x90 ≤ b1.toNat) := by split at h1 <;> omega
        have g2 : b1.toNat ≤ 0xBF ∧ (b.toNat = 0xF4 → b1.toNat ≤ 0x8F) := by split at h2 <;> omega
        clear h1 h2
        obtain ⟨rfl, rfl⟩ := Prod.mk.inj h
        rw [Utf8.encode1, if_neg (by omega), if_neg (by omega), if_neg (by omega), if_neg (by omega)]
        rw [aux b _ (by omega), aux b1 _ (by omega), aux b2 _ (by omega), aux b3 _ (by omega)]
        rfl
      · exact bad h
    · exact bad h
  · exact bad h

theorem encode1_escapeRune {isPrint : Nat → Bool} (hp : PrintsNoControls isPrint) {r : Nat}
    (hr : Utf8.Scalar r) (s : Str) :
    literal (escapeRune isPrint r ++ s) = (literal s).map fun x => (Utf8.encode1 r ++ x.1, x.2) := by
  unfold escapeRune
  split
  · rename_i h
    rcases h with rfl | rfl <;> rfl
  rename_i h
  obtain ⟨h1, h2⟩ := not_or.1 h
  split
  · rename_i hpr
    refine literal_bytes (fun c hc => ⟨?_, ?_, ?_⟩) s
    · exact Hcl.encode1_ne h1 (by decide) c hc
    · refine Hcl.encode1_ne (k := 0x0A) ?_ (by decide) c hc
      rintro rfl
      rw [hp _ (.inl (by decide))] at hpr
      cases hpr
    · exact Hcl.encode1_ne h2 (by decide) c hc
  split
  · rename_i e; subst e; rfl
  split
  · rename_i e; subst e; rfl
  split
  · rename_i e; subst e; rfl
  split
  · rename_i e; subst e; rfl
  split
  · rename_i e; subst e; rfl
  split
  · rename_i e; subst e; rfl
  split
  · rename_i e; subst e; rfl
  split
  · rename_i h
    have := literal_x (UInt8.ofNat r) s
    rw [Utf8.toNat_ofNat (by omega)] at this
    rw [this, Utf8.encode1, if_pos (by omega)]
    rfl
  split
  · exact literal_u hr (by assumption) s
  · exact literal_U hr s

theorem literal_quoteSkip {isPrint : Nat → Bool} (hp : PrintsNoControls isPrint) (rest : Str) : ∀ (k : Nat) (s : Str),
    literal (quoteSkip isPrint k s ++ 0x22 :: rest) = some (s.drop k, rest)
  | k, [] => by simp [quoteSkip, literal]
  | k + 1, _ :: s => by simpa [quoteSkip] using literal_quoteSkip hp rest k s
  | 0, b :: s => by
    rw [quoteSkip]
    obtain ⟨r, w, h⟩ : ∃ r w, Utf8.decode1 b s = (r, w) := ⟨_, _, rfl⟩
    rw [h]
    simp only
    split
    · rw [List.append_assoc, literal_x, literal_quoteSkip hp rest 0 s]
      simp
    · rename_i hn
      have hs : Utf8.Scalar r := by
        have := Utf8.scalar_decode1 b s
        rw [h] at this
        exact this
      rw [List.append_assoc, encode1_escapeRune hp hs, literal_quoteSkip hp rest (w - 1) s]
      simp only [Option.map_some, List.drop_zero]
      rw [← encode1_decode1 h hn]

end Verif.Fmt
