import Verif.Base.Byte
import Verif.Ddl.Text
import Verif.Ddl.ParseSpec

/-!
# The text helpers meet their specifications
-/

namespace Verif.Ddl
open Verif

theorem reSpace_iff {b : UInt8} : reSpace b = true ↔ ReSpace b := by
  simp [reSpace, ReSpace, or_assoc]

/-! ## collapseWhitespace -/

theorem collapse_exists (s : Str) : Collapsed s (collapseLoop false s) ∧
    ∃ w s', s = w ++ s' ∧ (∀ b ∈ w, ReSpace b) ∧ (∀ b, s'.head? = some b → ¬ ReSpace b) ∧
      Collapsed s' (collapseLoop true s) := by
  induction s with
  | nil => exact ⟨.nil, [], [], rfl, by simp, by simp, .nil⟩
  | cons b s ih =>
    obtain ⟨i1, w, s', rfl, i2, i3, i4⟩ := ih
    by_cases h : reSpace b = true
    · refine ⟨?_, b :: w, s', rfl, ?_, i3, ?_⟩
      · simp only [collapseLoop, h, if_true, Bool.false_eq_true, if_false]
        exact .run (w := b :: w) (by simp) (by
          intro c hc
          rcases List.mem_cons.mp hc with rfl | hc
          · exact reSpace_iff.mp h
          · exact i2 c hc) i3 i4
      · intro c hc
        rcases List.mem_cons.mp hc with rfl | hc
        · exact reSpace_iff.mp h
        · exact i2 c hc
      · simp only [collapseLoop, h, if_true]
        exact i4
    · have h' : ¬ ReSpace b := fun hc => h (reSpace_iff.mpr hc)
      simp only [collapseLoop, h, Bool.false_eq_true, if_false]
      refine ⟨.char h' i1, [], b :: (w ++ s'), rfl, by simp, ?_, .char h' i1⟩
      intro c hc
      simp only [List.head?_cons, Option.some.injEq] at hc
      exact hc ▸ h'

theorem collapseLoop_true {s : Str} (h : ∀ b, s.head? = some b → ¬ ReSpace b) :
    collapseLoop true s = collapseLoop false s := by
  cases s with
  | nil => rfl
  | cons b s =>
    have : ¬ reSpace b = true := fun hc => h b rfl (reSpace_iff.mp hc)
    simp only [collapseLoop, this, Bool.false_eq_true, if_false]

theorem collapsed_iff {s t : Str} : Collapsed s t ↔ t = collapseWhitespace s := by
  constructor
  · intro h
    unfold collapseWhitespace
    induction h with
    | nil => rfl
    | char h _ ih =>
      have : ¬ reSpace _ = true := fun hc => h (reSpace_iff.mp hc)
      simp only [collapseLoop, this, Bool.false_eq_true, if_false, ih]
    | run hw h hs _ ih =>
      rename_i w s t _
      have key : ∀ w : Str, (∀ b ∈ w, ReSpace b) → collapseLoop true (w ++ s) = collapseLoop true s := by
        intro w
        induction w with
        | nil => intro _; rfl
        | cons b w ihw =>
          intro hb
          have : reSpace b = true := reSpace_iff.mpr (hb b (by simp))
          simp only [List.cons_append, collapseLoop, this, if_true]
          exact ihw (fun c hc => hb c (by simp [hc]))
      cases w with
      | nil => exact absurd rfl hw
      | cons b w =>
        have : reSpace b = true := reSpace_iff.mpr (h b (by simp))
        simp only [List.cons_append, collapseLoop, this, if_true, Bool.false_eq_true, if_false]
        rw [key w (fun c hc => h c (by simp [hc])), collapseLoop_true hs, ih]
  · rintro rfl
    exact (collapse_exists s).1

theorem collapsed_collapse (s : Str) : Collapsed s (collapseWhitespace s) := collapsed_iff.mpr rfl

/-- Text without whitespace is left alone. -/
theorem collapse_plain {s : Str} (h : ∀ b ∈ s, ¬ ReSpace b) : collapseWhitespace s = s := by
  unfold collapseWhitespace
  induction s with
  | nil => rfl
  | cons b s ih =>
    have : ¬ reSpace b = true := fun hc => h b (by simp) (reSpace_iff.mp hc)
    simp only [collapseLoop, this, Bool.false_eq_true, if_false]
    rw [ih (fun c hc => h c (by simp [hc]))]

theorem collapse_plain_append {s t : Str} (h : ∀ b ∈ s, ¬ ReSpace b) :
    collapseWhitespace (s ++ t) = s ++ collapseWhitespace t := by
  unfold collapseWhitespace
  induction s with
  | nil => rfl
  | cons b s ih =>
    have : ¬ reSpace b = true := fun hc => h b (by simp) (reSpace_iff.mp hc)
    simp only [List.cons_append, collapseLoop, this, Bool.false_eq_true, if_false]
    rw [ih (fun c hc => h c (by simp [hc]))]

theorem collapse_append_plain {s t : Str} (h : ∀ b ∈ t, ¬ ReSpace b) :
    collapseWhitespace (s ++ t) = collapseWhitespace s ++ t := by
  have key : ∀ (s : Str) (m : Bool), collapseLoop m (s ++ t) = collapseLoop m s ++ t := by
    intro s
    induction s with
    | nil =>
      intro m
      cases m
      · exact collapse_plain h
      · simp only [List.nil_append]
        rw [collapseLoop_true]
        · exact collapse_plain h
        · intro b hb
          exact h b (List.mem_of_mem_head? hb)
    | cons b s ih =>
      intro m
      simp only [List.cons_append, collapseLoop]
      split
      · split
        · exact ih true
        · rw [ih true, List.cons_append]
      · rw [ih false, List.cons_append]
  exact key s false

/-! ## trim -/

/-- The predicates of `stripWhile` describe the encodings in `W`. -/
structure Enc (W : List Str) (p1 : UInt8 → Bool) (p2 : UInt8 → UInt8 → Bool)
    (p3 : UInt8 → UInt8 → UInt8 → Bool) : Prop where
  ok : ∀ x ∈ W, (∃ b, x = [b] ∧ p1 b = true) ∨ (∃ b c, x = [b, c] ∧ p1 b = false ∧ p2 b c = true) ∨
    (∃ b c d, x = [b, c, d] ∧ p1 b = false ∧ p2 b c = false ∧ p3 b c d = true)
  one : ∀ b, p1 b = true → [b] ∈ W
  two : ∀ b c, p2 b c = true → [b, c] ∈ W
  three : ∀ b c d, p3 b c d = true → [b, c, d] ∈ W

/-- The first clause of `Enc`, decidably. -/
def encOk (p1 : UInt8 → Bool) (p2 : UInt8 → UInt8 → Bool) (p3 : UInt8 → UInt8 → UInt8 → Bool) :
    Str → Bool
  | [b] => p1 b
  | [b, c] => !p1 b && p2 b c
  | [b, c, d] => !p1 b && !p2 b c && p3 b c d
  | _ => false

theorem encOk_iff {p1 : UInt8 → Bool} {p2 : UInt8 → UInt8 → Bool}
    {p3 : UInt8 → UInt8 → UInt8 → Bool} {x : Str} (h : encOk p1 p2 p3 x = true) :
    (∃ b, x = [b] ∧ p1 b = true) ∨ (∃ b c, x = [b, c] ∧ p1 b = false ∧ p2 b c = true) ∨
    (∃ b c d, x = [b, c, d] ∧ p1 b = false ∧ p2 b c = false ∧ p3 b c d = true) := by
  match x, h with
  | [b], h => exact Or.inl ⟨b, rfl, h⟩
  | [b, c], h =>
    simp only [encOk, Bool.and_eq_true, Bool.not_eq_true'] at h
    exact Or.inr (Or.inl ⟨b, c, rfl, h.1, h.2⟩)
  | [b, c, d], h =>
    simp only [encOk, Bool.and_eq_true, Bool.not_eq_true'] at h
    exact Or.inr (Or.inr ⟨b, c, d, rfl, h.1.1, h.1.2, h.2⟩)
  | [], h => cases h
  | _ :: _ :: _ :: _ :: _, h => cases h

section
variable {W : List Str} {p1 : UInt8 → Bool} {p2 : UInt8 → UInt8 → Bool}
  {p3 : UInt8 → UInt8 → UInt8 → Bool} (hE : Enc W p1 p2 p3)
include hE

theorem strip_append {x : Str} (hx : x ∈ W) (s : Str) :
    stripWhile p1 p2 p3 (x ++ s) = stripWhile p1 p2 p3 s := by
  rcases hE.ok x hx with ⟨b, rfl, h⟩ | ⟨b, c, rfl, h1, h2⟩ | ⟨b, c, d, rfl, h1, h2, h3⟩
  · rw [List.cons_append, stripWhile.eq_def]; simp [h]
  · rw [List.cons_append, stripWhile.eq_def]; simp [h1, h2]
  · rw [List.cons_append, stripWhile.eq_def]; simp [h1, h2, h3]

theorem strip_flatten {ls : List Str} (hl : ∀ x ∈ ls, x ∈ W) (s : Str) :
    stripWhile p1 p2 p3 (ls.flatten ++ s) = stripWhile p1 p2 p3 s := by
  induction ls with
  | nil => rfl
  | cons x ls ih =>
    rw [List.flatten_cons, List.append_assoc, strip_append hE (hl x (by simp))]
    exact ih (fun y hy => hl y (by simp [hy]))

theorem strip_fix {s : Str} (h : ∀ x ∈ W, ¬ x <+: s) : stripWhile p1 p2 p3 s = s := by
  cases s with
  | nil => rw [stripWhile]
  | cons b s =>
    have h1 : ¬ p1 b = true := fun hc => h _ (hE.one b hc) ⟨s, rfl⟩
    rw [stripWhile.eq_def]
    simp only [h1, Bool.false_eq_true, if_false]
    cases s with
    | nil => rfl
    | cons c s =>
      have h2 : ¬ p2 b c = true := fun hc => h _ (hE.two b c hc) ⟨s, rfl⟩
      simp only [h2, Bool.false_eq_true, if_false]
      cases s with
      | nil => rfl
      | cons d s =>
        have h3 : ¬ p3 b c d = true := fun hc => h _ (hE.three b c d hc) ⟨s, rfl⟩
        simp only [h3, Bool.false_eq_true, if_false]

theorem strip_decomp (n : Nat) : ∀ s : Str, s.length ≤ n → ∃ ls : List Str, (∀ x ∈ ls, x ∈ W) ∧
    s = ls.flatten ++ stripWhile p1 p2 p3 s ∧ ∀ x ∈ W, ¬ x <+: stripWhile p1 p2 p3 s := by
  induction n with
  | zero =>
    intro s hs
    have : s = [] := List.length_eq_zero_iff.mp (by omega)
    subst this
    refine ⟨[], by simp, by rw [stripWhile]; rfl, ?_⟩
    intro x hx hp
    rw [stripWhile] at hp
    have := List.prefix_nil.mp hp
    subst this
    rcases hE.ok [] hx with ⟨_, h, _⟩ | ⟨_, _, h, _⟩ | ⟨_, _, _, h, _⟩ <;> cases h
  | succ n ih =>
    intro s hs
    by_cases h : ∃ x ∈ W, x <+: s
    · obtain ⟨x, hx, t, rfl⟩ := h
      have hlen : x.length ≥ 1 := by
        rcases hE.ok x hx with ⟨_, rfl, _⟩ | ⟨_, _, rfl, _⟩ | ⟨_, _, _, rfl, _⟩ <;> simp
      obtain ⟨ls, h1, h2, h3⟩ := ih t (by simp only [List.length_append] at hs; omega)
      rw [strip_append hE hx]
      refine ⟨x :: ls, ?_, ?_, h3⟩
      · intro y hy
        rcases List.mem_cons.mp hy with rfl | hy
        · exact hx
        · exact h1 y hy
      · rw [List.flatten_cons, List.append_assoc, ← h2]
    · have h' : ∀ x ∈ W, ¬ x <+: s := fun x hx hp => h ⟨x, hx, hp⟩
      rw [strip_fix hE h']
      exact ⟨[], by simp, rfl, h'⟩
end

theorem enc_forward : Enc whiteSpace space1 space2 space3 where
  ok := fun x hx => encOk_iff
    ((by decide +kernel : ∀ x ∈ whiteSpace, encOk space1 space2 space3 x = true) x hx)
  one := by decide +kernel
  two := by
    intro b c h
    simp only [space2, Bool.and_eq_true, Bool.or_eq_true, decide_eq_true_eq] at h
    obtain ⟨rfl, rfl | rfl⟩ := h <;> decide +kernel
  three := by
    intro b c d h
    have hd : ∀ d : UInt8, (0x80 ≤ d ∧ d ≤ 0x8A) ∨ d = 0xA8 ∨ d = 0xA9 ∨ d = 0xAF →
        ([0xE2, 0x80, d] : Str) ∈ whiteSpace := by decide +kernel
    simp only [space3, Bool.and_eq_true, Bool.or_eq_true, decide_eq_true_eq] at h
    rcases h with ((⟨⟨rfl, rfl⟩, rfl⟩ | ⟨⟨rfl, rfl⟩, h⟩) | ⟨⟨rfl, rfl⟩, rfl⟩) | ⟨⟨rfl, rfl⟩, rfl⟩
    · decide +kernel
    · apply hd d
      rcases h with ((h | h) | h) | h
      · exact Or.inl h
      · exact Or.inr (Or.inl h)
      · exact Or.inr (Or.inr (Or.inl h))
      · exact Or.inr (Or.inr (Or.inr h))
    · decide +kernel
    · decide +kernel

theorem enc_backward : Enc (whiteSpace.map List.reverse) space1 (fun a b => space2 b a)
    (fun a b c => space3 c b a) where
  ok := fun x hx => encOk_iff
    ((by decide +kernel : ∀ x ∈ whiteSpace.map List.reverse,
      encOk space1 (fun a b => space2 b a) (fun a b c => space3 c b a) x = true) x hx)
  one := by decide +kernel
  two := by
    intro b c h
    exact List.mem_map.mpr ⟨_, enc_forward.two c b h, rfl⟩
  three := by
    intro b c d h
    exact List.mem_map.mpr ⟨_, enc_forward.three d c b h, rfl⟩

/-- Encodings do not straddle the start of another. -/
theorem no_straddle {x t R : Str} (hx : x ∈ whiteSpace) (hR : R = [] ∨ ∃ y ∈ whiteSpace, ∃ z, R = y ++ z)
    (ht : t ≠ []) (h : x <+: t ++ R) : x <+: t := by
  by_contra hc
  rcases List.prefix_or_prefix_of_prefix h (List.prefix_append t R) with h' | h'
  · exact hc h'
  · obtain ⟨u, rfl⟩ := h'
    have hu : u <+: R := (List.prefix_append_right_inj t).mp h
    have hu0 : u ≠ [] := by
      rintro rfl
      exact hc (by simp)
    rcases hR with rfl | ⟨y, hy, z, rfl⟩
    · exact hu0 (List.prefix_nil.mp hu)
    · obtain ⟨c, u', rfl⟩ : ∃ c u', u = c :: u' := by
        cases u with
        | nil => exact absurd rfl hu0
        | cons c u' => exact ⟨c, u', rfl⟩
      -- `c` is not the first byte of `x`, but is the first byte of `y`
      have hcont : ∀ x ∈ whiteSpace, ∀ c ∈ x.drop 1, 0x80 ≤ c ∧ c < 0xC0 := by decide +kernel
      have hlead : ∀ y ∈ whiteSpace, ∀ c ∈ y.head?, c < 0x80 ∨ 0xC0 ≤ c := by decide +kernel
      have hne : ∀ y ∈ whiteSpace, y ≠ [] := by decide +kernel
      obtain ⟨b, t', rfl⟩ : ∃ b t', t = b :: t' := by
        cases t with
        | nil => exact absurd rfl ht
        | cons b t' => exact ⟨b, t', rfl⟩
      have h1 := hcont _ hx c (by simp)
      obtain ⟨v, hv⟩ := hu
      obtain ⟨c', y', rfl⟩ : ∃ c' y', y = c' :: y' := by
        cases y with
        | nil => exact absurd rfl (hne _ hy)
        | cons c' y' => exact ⟨c', y', rfl⟩
      simp only [List.cons_append, List.cons.injEq] at hv
      have h2 := hlead _ hy c' (by simp)
      rw [← hv.1] at h2
      simp only [UInt8.le_iff_toNat_le, UInt8.lt_iff_toNat_lt] at h1 h2
      rcases h2 with h2 | h2
      · omega
      · omega

theorem trimmed_iff {s t : Str} : Trimmed s t ↔ t = trim s := by
  have hrev : ∀ rs : List Str, rs.flatten.reverse = (rs.reverse.map List.reverse).flatten := by
    intro rs
    rw [List.reverse_flatten, List.map_reverse]
  constructor
  · rintro ⟨ls, rs, hl, hr, rfl, hp, hs⟩
    unfold trim
    simp only
    rw [List.append_assoc, strip_flatten enc_forward hl]
    have hr' : ∀ x ∈ rs.reverse.map List.reverse, x ∈ whiteSpace.map List.reverse := by
      intro x hx
      obtain ⟨y, hy, rfl⟩ := List.mem_map.mp hx
      exact List.mem_map.mpr ⟨y, hr y (by simpa using hy), rfl⟩
    by_cases ht : t = []
    · subst ht
      have h0 : stripWhile space1 space2 space3 ([] ++ rs.flatten) = [] := by
        have := strip_flatten enc_forward hr []
        simp only [List.append_nil] at this
        rw [List.nil_append, this, stripWhile]
      rw [h0]
      rfl
    · have hfix : stripWhile space1 space2 space3 (t ++ rs.flatten) = t ++ rs.flatten := by
        apply strip_fix enc_forward
        intro x hx hpre
        refine hp x hx (no_straddle hx ?_ ht hpre)
        cases rs with
        | nil => exact Or.inl rfl
        | cons y rs => exact Or.inr ⟨y, hr y (by simp), rs.flatten, by simp⟩
      rw [hfix, List.reverse_append, hrev, strip_flatten enc_backward hr', strip_fix enc_backward]
      · simp
      · intro x hx hpre
        obtain ⟨y, hy, rfl⟩ := List.mem_map.mp hx
        apply hs y hy
        have := List.reverse_prefix.mp hpre
        exact this
  · rintro rfl
    obtain ⟨ls, h1, h2, h3⟩ := strip_decomp enc_forward _ s (Nat.le_refl _)
    obtain ⟨rs, h4, h5, h6⟩ := strip_decomp enc_backward _
      (stripWhile space1 space2 space3 s).reverse (Nat.le_refl _)
    have hm : ∃ rs' : List Str, (∀ x ∈ rs', x ∈ whiteSpace) ∧ rs = rs'.map List.reverse := by
      clear h5
      induction rs with
      | nil => exact ⟨[], by simp, rfl⟩
      | cons x rs ih =>
        obtain ⟨rs', i1, rfl⟩ := ih (fun y hy => h4 y (by simp [hy]))
        obtain ⟨y, hy, rfl⟩ := List.mem_map.mp (h4 x (by simp))
        exact ⟨y :: rs', by
          intro z hz
          rcases List.mem_cons.mp hz with rfl | hz
          · exact hy
          · exact i1 z hz, rfl⟩
    obtain ⟨rs', hrs, rfl⟩ := hm
    have h5' : stripWhile space1 space2 space3 s = trim s ++ rs'.reverse.flatten := by
      have := congrArg List.reverse h5
      rw [List.reverse_reverse, List.reverse_append] at this
      rw [this]
      unfold trim
      simp only
      congr 1
      rw [hrev]
      simp [List.map_reverse]
    refine ⟨ls, rs'.reverse, h1, by simpa using hrs, ?_, ?_, ?_⟩
    · rw [List.append_assoc, ← h5', ← h2]
    · intro x hx hpre
      apply h3 x hx
      rw [h5']
      exact hpre.trans (List.prefix_append _ _)
    · intro x hx hsuf
      apply h6 x.reverse (List.mem_map.mpr ⟨x, hx, rfl⟩)
      have : trim s = (stripWhile space1 (fun a b => space2 b a) (fun a b c => space3 c b a)
        (stripWhile space1 space2 space3 s).reverse).reverse := rfl
      rw [this] at hsuf
      refine List.reverse_suffix.mp ?_
      rw [List.reverse_reverse]
      exact hsuf

theorem trimmed_trim (s : Str) : Trimmed s (trim s) := trimmed_iff.mpr rfl

end Verif.Ddl
