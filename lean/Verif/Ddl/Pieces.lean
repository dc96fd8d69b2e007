import Verif.Base.Byte
import Verif.Ragel.Bisim
import Verif.Ragel.Comb
import Verif.Ddl.ParseSpec

/-!
# The combinators match what the specification says
-/

namespace Verif.Ddl
open Verif Verif.Ragel

variable {A : Type}

instance (b : UInt8) : Decidable (Space b) := by unfold Space; infer_instance
instance (b : UInt8) : Decidable (Alpha b) := by unfold Alpha; infer_instance
instance (b : UInt8) : Decidable (Word b) := by unfold Word; infer_instance
instance (s : Str) : Decidable (Spaces s) := List.decidableBAll _ s
instance (s : Str) : Decidable (Ws s) := instDecidableAnd

/-- A decision procedure for `Kw`. -/
def kwDec : (w s : Str) → Decidable (Kw w s)
  | [], [] => isTrue .nil
  | [], _ :: _ => isFalse (by rintro ⟨⟩)
  | _ :: _, [] => isFalse (by rintro ⟨⟩)
  | c :: w, b :: s =>
    if h : b = c ∨ b = c + 32 then
      match kwDec w s with
      | isTrue hw => isTrue (.cons h hw)
      | isFalse hw => isFalse (by rintro ⟨⟩; contradiction)
    else isFalse (by rintro ⟨⟩; contradiction)

instance (w s : Str) : Decidable (Kw w s) := kwDec w s

theorem has_space : ∀ b : UInt8, spaceCls.has b = true ↔ Space b := by decide +kernel
theorem has_alpha : ∀ b : UInt8, alphaCls.has b = true ↔ Alpha b := by decide +kernel
theorem has_word : ∀ b : UInt8, wordCls.has b = true ↔ Word b := by decide +kernel
theorem has_any : ∀ b : UInt8, anyCls.has b = true := by decide +kernel
theorem has_noParen : ∀ b : UInt8, Cls.has [(0, 40), (42, 255)] b = true ↔ b ≠ 41 := by decide +kernel

theorem has_one (c b : UInt8) : Cls.has [(c.toNat, c.toNat)] b = true ↔ b = c := by
  rw [Cls.has_iff]
  simp only [List.mem_singleton, exists_eq_left]
  constructor
  · intro h
    exact UInt8.toNat_inj.mp (by omega)
  · rintro rfl
    omega

/-- An upper case ASCII letter. -/
def isUpper (c : UInt8) : Bool := 65 ≤ c && c ≤ 90

theorem has_letter {c : UInt8} (hc : isUpper c = true) (b : UInt8) :
    (letterCls c).has b = true ↔ b = c ∨ b = c + 32 := by
  simp only [isUpper, Bool.and_eq_true, decide_eq_true_eq, UInt8.le_iff_toNat_le] at hc
  have h1 : (65 : UInt8).toNat = 65 := rfl
  have h2 : (90 : UInt8).toNat = 90 := rfl
  have h3 : (c + 32).toNat = c.toNat + 32 := by
    rw [UInt8.toNat_add]
    have : (32 : UInt8).toNat = 32 := rfl
    omega
  rw [Cls.has_iff]
  simp only [letterCls, List.mem_cons, List.not_mem_nil, or_false, exists_eq_or_imp, exists_eq_left]
  constructor
  · rintro (h | h)
    · exact Or.inl (UInt8.toNat_inj.mp (by omega))
    · exact Or.inr (UInt8.toNat_inj.mp (by omega))
  · rintro (rfl | rfl)
    · left; omega
    · right; omega

/-- The operations executed on the bytes of a text. -/
def onAll (ops : List (Op A)) (s : Str) : List (Ev A) := s.flatMap (fun b => ops.map (Op.on b))

theorem onAll_nil (s : Str) : onAll ([] : List (Op A)) s = [] := by
  simp [onAll]

theorem onAll_push (s : Str) : onAll ([.push] : List (Op A)) s = s.map .push := by
  induction s with
  | nil => rfl
  | cons b s ih =>
    simp only [onAll, List.flatMap_cons, List.map_cons, List.map_nil] at ih ⊢
    rw [ih]; rfl

theorem derives_starCls {S : Cls} {ops : List (Op A)} {s : Str} {es : List (Ev A)} :
    Derives (.star (.cls S ops)) s es ↔ (∀ b ∈ s, S.has b = true) ∧ es = onAll ops s := by
  induction s generalizing es with
  | nil =>
    rw [derives_star]
    constructor
    · rintro (⟨_, rfl⟩ | ⟨s1, s2, e1, e2, h0, _, h1, _⟩)
      · exact ⟨by simp, rfl⟩
      · obtain ⟨b, _, rfl, _⟩ := derives_cls.mp h1
        simp at h0
    · rintro ⟨_, rfl⟩
      exact Or.inl ⟨rfl, rfl⟩
  | cons b s ih =>
    rw [derives_star]
    constructor
    · rintro (⟨h, _⟩ | ⟨s1, s2, e1, e2, h0, rfl, h1, h2⟩)
      · cases h
      · obtain ⟨c, hc, rfl, rfl⟩ := derives_cls.mp h1
        simp only [List.cons_append, List.nil_append, List.cons.injEq] at h0
        obtain ⟨rfl, rfl⟩ := h0
        obtain ⟨h3, rfl⟩ := ih.mp h2
        refine ⟨?_, by simp [onAll]⟩
        intro d hd
        rcases List.mem_cons.mp hd with rfl | hd
        · exact hc
        · exact h3 d hd
    · rintro ⟨h, rfl⟩
      refine Or.inr ⟨[b], s, ops.map (Op.on b), onAll ops s, rfl, by simp [onAll],
        .cls (h b (by simp)), ih.mpr ⟨fun c hc => h c (by simp [hc]), rfl⟩⟩

theorem derives_seqCls {S S' : Cls} {ops : List (Op A)} {s : Str} {es : List (Ev A)} :
    Derives (.seq (.cls S ops) (.star (.cls S' ops))) s es ↔
      (∃ b r, s = b :: r ∧ S.has b = true ∧ ∀ c ∈ r, S'.has c = true) ∧ es = onAll ops s := by
  rw [derives_seq]
  constructor
  · rintro ⟨s1, s2, e1, e2, rfl, rfl, h1, h2⟩
    obtain ⟨b, hb, rfl, rfl⟩ := derives_cls.mp h1
    obtain ⟨h3, rfl⟩ := derives_starCls.mp h2
    exact ⟨⟨b, s2, rfl, hb, h3⟩, by simp [onAll]⟩
  · rintro ⟨⟨b, r, rfl, hb, hr⟩, rfl⟩
    exact ⟨[b], r, ops.map (Op.on b), onAll ops r, rfl, by simp [onAll], .cls hb,
      derives_starCls.mpr ⟨hr, rfl⟩⟩

theorem derives_sp {s : Str} {es : List (Ev A)} : Derives sp s es ↔ Spaces s ∧ es = [] := by
  unfold sp sp1
  rw [derives_starCls, onAll_nil]
  simp only [has_space]
  rfl

theorem derives_spP {s : Str} {es : List (Ev A)} :
    Derives spP s es ↔ Spaces s ∧ es = s.map .push := by
  unfold spP sp1P
  rw [derives_starCls, onAll_push]
  simp only [has_space]
  rfl

theorem ws_iff {s : Str} :
    (∃ b r, s = b :: r ∧ Space b ∧ ∀ c ∈ r, Space c) ↔ Ws s := by
  constructor
  · rintro ⟨b, r, rfl, h1, h2⟩
    refine ⟨by simp, ?_⟩
    intro c hc
    rcases List.mem_cons.mp hc with rfl | hc
    · exact h1
    · exact h2 c hc
  · rintro ⟨h1, h2⟩
    cases s with
    | nil => exact absurd rfl h1
    | cons b r => exact ⟨b, r, rfl, h2 b (by simp), fun c hc => h2 c (by simp [hc])⟩

theorem derives_ws {s : Str} {es : List (Ev A)} : Derives ws s es ↔ Ws s ∧ es = [] := by
  unfold ws sp sp1
  rw [derives_seqCls, onAll_nil]
  simp only [has_space, ws_iff]

theorem derives_wsP {s : Str} {es : List (Ev A)} : Derives wsP s es ↔ Ws s ∧ es = s.map .push := by
  unfold wsP spP sp1P
  rw [derives_seqCls, onAll_push]
  simp only [has_space, ws_iff]

theorem derives_ident {s : Str} {es : List (Ev A)} :
    Derives ident s es ↔ Ident s ∧ es = s.map .push := by
  unfold ident identR
  rw [derives_seqCls, onAll_push]
  simp only [has_alpha, has_word]
  rfl

theorem derives_ch {c : UInt8} {s : Str} {es : List (Ev A)} :
    Derives (ch c) s es ↔ s = [c] ∧ es = [] := by
  unfold ch
  rw [derives_cls]
  simp only [has_one, List.map_nil, exists_eq_left]

theorem derives_opt {g : Gram A} {s : Str} {es : List (Ev A)} :
    Derives (opt g) s es ↔ Derives g s es ∨ (s = [] ∧ es = []) := by
  unfold opt
  rw [derives_alt, derives_eps]

theorem kw_cons {c : UInt8} {w s : Str} :
    Kw (c :: w) s ↔ ∃ b r, s = b :: r ∧ (b = c ∨ b = c + 32) ∧ Kw w r := by
  constructor
  · intro h
    cases h with
    | cons h1 h2 => exact ⟨_, _, rfl, h1, h2⟩
  · rintro ⟨b, r, rfl, h1, h2⟩
    exact .cons h1 h2

theorem kw_nil {s : Str} : Kw [] s ↔ s = [] :=
  ⟨fun h => by cases h; rfl, fun h => by subst h; exact .nil⟩

theorem derives_kwOps {ops : List (Op A)} {w s : Str} {es : List (Ev A)}
    (hw : w.all isUpper = true) :
    Derives (kwOps ops w) s es ↔ Kw w s ∧ es = onAll ops s := by
  induction w generalizing s es with
  | nil =>
    rw [kwOps, derives_eps, kw_nil]
    constructor
    · rintro ⟨rfl, rfl⟩; exact ⟨rfl, rfl⟩
    · rintro ⟨rfl, rfl⟩; exact ⟨rfl, rfl⟩
  | cons c w ih =>
    simp only [List.all_cons, Bool.and_eq_true] at hw
    cases w with
    | nil =>
      rw [kwOps, derives_cls, kw_cons]
      simp only [has_letter hw.1, kw_nil]
      constructor
      · rintro ⟨b, h, rfl, rfl⟩
        exact ⟨⟨b, [], rfl, h, rfl⟩, by simp [onAll]⟩
      · rintro ⟨⟨b, _, rfl, h, rfl⟩, rfl⟩
        exact ⟨b, h, rfl, by simp [onAll]⟩
    | cons d w =>
      rw [kwOps, derives_seq, kw_cons]
      constructor
      · rintro ⟨s1, s2, e1, e2, rfl, rfl, h1, h2⟩
        obtain ⟨b, hb, rfl, rfl⟩ := derives_cls.mp h1
        obtain ⟨h3, rfl⟩ := (ih hw.2).mp h2
        exact ⟨⟨b, s2, rfl, (has_letter hw.1 b).mp hb, h3⟩, by simp [onAll]⟩
      · rintro ⟨⟨b, r, rfl, hb, hr⟩, rfl⟩
        exact ⟨[b], r, ops.map (Op.on b), onAll ops r, rfl, by simp [onAll],
          .cls ((has_letter hw.1 b).mpr hb), (ih hw.2).mpr ⟨hr, rfl⟩⟩

theorem derives_kw {w s : Str} {es : List (Ev A)} (hw : w.all isUpper = true) :
    Derives (kw w) s es ↔ Kw w s ∧ es = [] := by
  unfold kw
  rw [derives_kwOps hw, onAll_nil]

theorem derives_kwP {w s : Str} {es : List (Ev A)} (hw : w.all isUpper = true) :
    Derives (kwP w) s es ↔ Kw w s ∧ es = s.map .push := by
  unfold kwP
  rw [derives_kwOps hw, onAll_push]

theorem derives_kwA {a : A} {w s : Str} {es : List (Ev A)} (hw : w.all isUpper = true)
    (hne : w ≠ []) : Derives (kwA a w) s es ↔ Kw w s ∧ es = [.act a] := by
  induction w generalizing s es with
  | nil => exact absurd rfl hne
  | cons c w ih =>
    simp only [List.all_cons, Bool.and_eq_true] at hw
    cases w with
    | nil =>
      rw [kwA, derives_cls, kw_cons]
      simp only [has_letter hw.1, kw_nil]
      constructor
      · rintro ⟨b, h, rfl, rfl⟩
        exact ⟨⟨b, [], rfl, h, rfl⟩, rfl⟩
      · rintro ⟨⟨b, _, rfl, h, rfl⟩, rfl⟩
        exact ⟨b, h, rfl, rfl⟩
    | cons d w =>
      rw [kwA, derives_seq, kw_cons]
      constructor
      · rintro ⟨s1, s2, e1, e2, rfl, rfl, h1, h2⟩
        obtain ⟨b, hb, rfl, rfl⟩ := derives_cls.mp h1
        obtain ⟨h3, rfl⟩ := (ih hw.2 (by simp)).mp h2
        exact ⟨⟨b, s2, rfl, (has_letter hw.1 b).mp hb, h3⟩, rfl⟩
      · rintro ⟨⟨b, r, rfl, hb, hr⟩, rfl⟩
        exact ⟨[b], r, [], [.act a], rfl, rfl,
          .cls ((has_letter hw.1 b).mpr hb), (ih hw.2 (by simp)).mpr ⟨hr, rfl⟩⟩

theorem derives_seqs_cons {g h : Gram A} {gs : List (Gram A)} {s : Str} {es : List (Ev A)} :
    Derives (seqs (g :: h :: gs)) s es ↔ ∃ s1 s2 e1 e2, s = s1 ++ s2 ∧ es = e1 ++ e2 ∧
      Derives g s1 e1 ∧ Derives (seqs (h :: gs)) s2 e2 := by
  rw [seqs, derives_seq]

theorem derives_seqs_one {g : Gram A} {s : Str} {es : List (Ev A)} :
    Derives (seqs [g]) s es ↔ Derives g s es := by
  rw [seqs]

section cons
variable {gs : List (Gram A)} {t : Str} {fs : List (Ev A)}

theorem cons_sp {a : Str} (ha : Spaces a) (h : DerivesS gs t fs) : DerivesS (sp :: gs) (a ++ t) fs :=
  .cons (derives_sp.mpr ⟨ha, rfl⟩) h

theorem cons_ws {a : Str} (ha : Ws a) (h : DerivesS gs t fs) : DerivesS (ws :: gs) (a ++ t) fs :=
  .cons (derives_ws.mpr ⟨ha, rfl⟩) h

theorem cons_kw {w a : Str} (ha : Kw w a) (hw : w.all isUpper = true) (h : DerivesS gs t fs) :
    DerivesS (kw w :: gs) (a ++ t) fs :=
  .cons ((derives_kw hw).mpr ⟨ha, rfl⟩) h

theorem cons_ident {a : Str} (ha : Ident a) (h : DerivesS gs t fs) :
    DerivesS (ident :: gs) (a ++ t) (a.map .push ++ fs) :=
  .cons (derives_ident.mpr ⟨ha, rfl⟩) h

theorem cons_act (a : A) (h : DerivesS gs t fs) : DerivesS (.act a :: gs) t (.act a :: fs) :=
  .cons (.act a) h

theorem cons_ch (c : UInt8) (h : DerivesS gs t fs) : DerivesS (ch c :: gs) (c :: t) fs :=
  .cons (derives_ch.mpr ⟨rfl, rfl⟩) h

end cons

theorem ident_ne {s : Str} (h : Ident s) : s ≠ [] := by
  obtain ⟨c, r, rfl, _⟩ := h
  simp

end Verif.Ddl
