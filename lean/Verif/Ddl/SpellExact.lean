import Verif.Ddl.NoPanic
import Verif.Ddl.RoundTripExact

/-!
# C48, exactly: what each spelling of a FOREIGN KEY clause gives
-/

namespace Verif.Ddl
open Verif Verif.Ragel

/-- `a` is the action `b`, but for the whitespace between its two words, of which `a` keeps a vertical tab. -/
def SameAction (a b : Str) : Prop :=
  a = b ∨ ∃ k1 w k2, Ws w ∧ (11 : UInt8) ∈ w ∧ a = k1 ++ w ++ k2 ∧ b = k1 ++ b!" " ++ k2

/-- `x` describes what `y` describes, up to vertical tabs within an action. -/
def SameKey (x y : ForeignKey) : Prop :=
  SameAction x.onDelete y.onDelete ∧ SameAction x.onUpdate y.onUpdate ∧
  x = { y with onDelete := x.onDelete, onUpdate := x.onUpdate }

/-! ## Lemmas -/

theorem collapsed_spaces {w v : Str} (h : Collapsed w v) (hw : Spaces w) : Spaces v ∧ ((11 : UInt8) ∈ w → (11 : UInt8) ∈ v) := by
  induction h with
  | nil => exact ⟨by decide, by simp⟩
  | @char b s t hb _ ih =>
    obtain ⟨i1, i2⟩ := ih fun x hx => hw x (by simp [hx])
    refine ⟨fun x hx => ?_, fun hm => ?_⟩
    · rcases List.mem_cons.mp hx with rfl | hx
      · exact hw _ (by simp)
      · exact i1 x hx
    · rcases List.mem_cons.mp hm with rfl | hm
      · simp
      · simp [i2 hm]
  | @run u s t _ hu _ _ ih =>
    obtain ⟨i1, i2⟩ := ih fun x hx => hw x (by simp [hx])
    refine ⟨fun x hx => ?_, fun hm => ?_⟩
    · rcases List.mem_cons.mp hx with rfl | hx
      · exact .inl rfl
      · exact i1 x hx
    · rcases List.mem_append.mp hm with hm | hm
      · exact absurd (hu _ hm) (by decide)
      · simp [i2 hm]

/-- An action in any spelling. -/
theorem actionText_any {a : RefAction} {s : Str} (h : Words a.words s) :
    ∃ x t b, s = x ++ t ∧ Ws x ∧ ActionText t b ∧ SameAction b a.text := by
  by_cases h11 : (11 : UInt8) ∉ s
  · obtain ⟨x, t, h1, h2, h3⟩ := actionText_words h h11
    exact ⟨x, t, _, h1, h2, h3, .inl rfl⟩
  have two : ∀ (k1 k2 : Str), (k1, k2) ∈ [(b!"NO", b!"ACTION"), (b!"SET", b!"NULL"), (b!"SET", b!"DEFAULT")] →
      Words [k1, k2] s → ∃ x t b, s = x ++ t ∧ Ws x ∧ ActionText t b ∧ SameAction b (k1 ++ b!" " ++ k2) := by
    clear h
    intro k1 k2 hm h
    cases h with
    | cons hw hk h =>
      cases h with
      | @cons _ w' t' _ _ hw' hk' h =>
        cases h
        obtain ⟨c1, c2⟩ := collapsed_spaces (collapsed_collapse w') hw'.2
        refine ⟨_, _, _, by simp only [List.append_assoc, List.append_nil]; rfl, hw,
          Or.inr ⟨k1, k2, _, t', w', _, hm, hk, hw', hk', collapsed_collapse w', by simp, rfl⟩, ?_⟩
        by_cases hv : (11 : UInt8) ∈ w'
        · exact .inr ⟨k1, _, k2, ⟨List.ne_nil_of_mem (c2 hv), c1⟩, c2 hv, rfl, rfl⟩
        · rw [← collapsed_iff.mp (collapsed_ws hw' hv)]
          exact .inl rfl
  have one : ∀ k, k ∈ [b!"RESTRICT", b!"CASCADE"] → Words [k] s →
      ∃ x t b, s = x ++ t ∧ Ws x ∧ ActionText t b ∧ SameAction b k := by
    clear h
    intro k hm h
    cases h with
    | cons hw hk h =>
      cases h
      exact ⟨_, _, _, by simp, hw, Or.inl ⟨hm, hk⟩, .inl rfl⟩
  cases a with
  | noAction => exact two _ _ (by decide) h
  | restrict => exact one _ (by decide) h
  | cascade => exact one _ (by decide) h
  | setNull => exact two _ _ (by decide) h
  | setDefault => exact two _ _ (by decide) h

theorem onText_any {ev : Str} {a : Option RefAction} {s : Str}
    (h : Words (a.toList.flatMap fun a => [b!"ON", ev] ++ a.words) s) :
    ∃ b, OnText ev s b ∧ SameAction b ((a.map RefAction.text).getD []) := by
  cases a with
  | none => cases h; exact ⟨[], Or.inl ⟨rfl, rfl⟩, .inl rfl⟩
  | some a =>
    simp only [Option.toList_some, List.flatMap_cons, List.flatMap_nil, List.append_nil] at h
    obtain ⟨s1, s2, rfl, h1, h2⟩ := words_append.mp h
    cases h1 with
    | cons hw hk h1 =>
      cases h1 with
      | cons hw' hk' h1 =>
        cases h1
        obtain ⟨x, t, b, rfl, hx, ht, hb⟩ := actionText_any h2
        exact ⟨b, Or.inr ⟨_, _, _, _, _, _, hw, hk, hw', hk', hx, ht, by simp⟩, hb⟩

/-- The pieces of a spelling. -/
theorem spells_pieces {y : FkSyntax} {s tl : Str} (h : Spells y s tl) :
    ∃ sp f w1 k w2 cols w3 r w4 refs s1 s2 s3 s4 d u, s = sp ++ f ++ w1 ++ k ++ w2 ++ cols ++ w3 ++ r ++ w4 ++ y.table ++
        refs ++ s1 ++ s2 ++ s3 ++ s4 ++ tl ∧
      Spaces sp ∧ Kw b!"FOREIGN" f ∧ Ws w1 ∧ Kw b!"KEY" k ∧ Ws w2 ∧ ListText cols y.columns ∧
      Ws w3 ∧ Kw b!"REFERENCES" r ∧ Ws w4 ∧ Ident y.table ∧ ListText refs y.referenced ∧
      MatchText s1 y.meaning.match_ ∧ OnText b!"DELETE" s2 d ∧ OnText b!"UPDATE" s3 u ∧
      SameAction d y.meaning.onDelete ∧ SameAction u y.meaning.onUpdate ∧ Words y.deferral.words s4 ∧ Spaces tl := by
  obtain ⟨sp, f, w1, k, w2, cols, w3, r, w4, refs, tail, hs, h1, h2, h3, h4, h5, h6, h7, h8, h9, h10, h11', h12, h13⟩ := h
  unfold FkSyntax.tail at h12
  obtain ⟨_, s4, ht4, h12, g4⟩ := words_append.mp h12
  obtain ⟨_, s3, ht3, h12, g3⟩ := words_append.mp h12
  obtain ⟨s1, s2, ht2, g1, g2⟩ := words_append.mp h12
  have htail : tail = s1 ++ s2 ++ s3 ++ s4 := by rw [ht4, ht3, ht2]
  obtain ⟨d, hd, hd'⟩ := onText_any g2
  obtain ⟨u, hu, hu'⟩ := onText_any g3
  exact ⟨sp, f, w1, k, w2, cols, w3, r, w4, refs, s1, s2, s3, s4, d, u, by rw [hs, htail]; simp only [List.append_assoc],
    h1, h2, h3, h4, h5, h6, h7, h8, h9, h10, h11', matchText_words g1, hd, hu, hd', hu', g4, h13⟩

/-- DEFERRABLE at the end is not read as anything else. -/
theorem deferrable_apart' {d u od ou df : Str} (hd : d ∈ onForms b!"DELETE") (hu : u ∈ onForms b!"UPDATE")
    (hod : od ∈ onForms b!"DELETE") (hou : ou ∈ onForms b!"UPDATE") (hdf : df ∈ deferForms) :
    d ++ (u ++ b!"DEFERRABLE") ≠ od ++ (ou ++ df) := by
  intro h
  have hne : b!"DEFERRABLE" ≠ df := by rintro rfl; revert hdf; decide
  obtain ⟨-, hdh⟩ := deferForms_head df (List.mem_cons_of_mem _ hdf)
  have key : u ++ b!"DEFERRABLE" ≠ ou ++ df := by
    intro h
    rcases onForms_cases hu with rfl | ⟨a, ha, rfl⟩ <;> rcases onForms_cases hou with rfl | ⟨b, hb, rfl⟩
    · exact hne h
    · simp at h
    · simp only [List.nil_append] at h
      rw [← h] at hdh
      simp at hdh
    · simp only [List.append_assoc, List.cons_append, List.nil_append, List.cons.injEq, true_and] at h
      exact hne (action_cancel ha hb h)
  rcases onForms_cases hd with rfl | ⟨a, ha, rfl⟩ <;> rcases onForms_cases hod with rfl | ⟨b, hb, rfl⟩
  · exact key h
  · rcases onForms_cases hu with rfl | ⟨a, ha, rfl⟩ <;> simp at h
  · rcases onForms_cases hou with rfl | ⟨b, hb, rfl⟩
    · simp only [List.nil_append] at h
      rw [← h] at hdh
      simp at hdh
    · simp at h
  · simp only [List.append_assoc, List.cons_append, List.nil_append, List.cons.injEq, true_and] at h
    exact key (action_cancel ha hb h)

/-! ## C48 -/

/-- **C48, exactly.** A spelling of a clause is refused if and only if it ends in DEFERRABLE without a space after it.
Every other spelling gives what the clause means, except that a vertical tab between the two words of an action is kept. -/
theorem C48_exact (y : FkSyntax) (s tl : Str) (h : Spells y s tl) :
    ((∃ cs, parseForeignKey s = .err cs) ↔ y.deferral = .deferrable ∧ tl = []) ∧
    (∀ x, parseForeignKey s = .ok x → SameKey x y.meaning) ∧
    ((11 : UInt8) ∉ s → ∀ x, parseForeignKey s = .ok x → x = y.meaning) := by
  obtain ⟨sp, f, w1, k, w2, cols, w3, r, w4, refs, s1, s2, s3, s4, d, u, hs, h1, h2, h3, h4, h5, h6, h7, h8, h9, h10, h11,
    hm, hd, hu, hd', hu', g4, h13⟩ := spells_pieces h
  have ok : ¬ (y.deferral = .deferrable ∧ tl = []) →
      parseForeignKey s = .ok { y.meaning with onDelete := d, onUpdate := u } := by
    intro hend
    rw [parseForeignKey_ok_iff]
    obtain ⟨df, tl', e1, e2, e3⟩ := deferText_words g4 h13 (fun e ht => hend ⟨e, ht⟩) y rfl
    refine ⟨sp, f, w1, k, w2, cols, w3, r, w4, refs, s1, s2, s3, df, tl', ?_, h1, h2, h3, h4, h5, h6, h7, h8, h9, h10,
      h11, hm, hd, hu, e2, e3, rfl⟩
    rw [hs]
    simp only [FkSyntax.meaning, List.append_assoc]
    rw [e1]
  have bad : y.deferral = .deferrable ∧ tl = [] → ∀ x, parseForeignKey s ≠ .ok x := by
    rintro ⟨hdf, rfl⟩ x hx
    rw [parseForeignKey_ok_iff] at hx
    obtain ⟨a, e, m, od, ou, df, i1, i2, i3, i4, i5, i6, i7⟩ := fk_tail hx
    rw [hdf] at g4
    obtain ⟨w, t, hw, ht, rfl⟩ : ∃ w t, Ws w ∧ Kw b!"DEFERRABLE" t ∧ s4 = w ++ t := by
      cases g4 with
      | cons hw hk g => cases g; exact ⟨_, _, hw, hk, by simp⟩
    have e1 := squeeze_match hm
    have e2 := squeeze_on (by decide) hd
    have e3 := squeeze_on (by decide) hu
    have e4 : squeeze (w ++ t) = b!"DEFERRABLE" := by
      rw [squeeze_append, squeeze_spaces hw.2, squeeze_kw ht (by decide)]; rfl
    have p1 : ∀ x ∈ matchForms, (41 : UInt8) ∉ x := by decide
    have p2 : ∀ x ∈ onForms b!"DELETE", (41 : UInt8) ∉ x := by decide
    have p3 : ∀ x ∈ onForms b!"UPDATE", (41 : UInt8) ∉ x := by decide
    have hnp : NoParen (s1 ++ s2 ++ s3 ++ (w ++ t)) :=
      noParen_append (noParen_append (noParen_append (noParen_of_squeeze (p1 _ e1)) (noParen_of_squeeze (p2 _ e2)))
        (noParen_of_squeeze (p3 _ e3))) (noParen_of_squeeze (by rw [e4]; decide))
    obtain ⟨a', c', more, b', ds, -, -, -, -, rfl, -⟩ := h11
    have he : s1 ++ s2 ++ s3 ++ (w ++ t) = e := by
      refine last_paren (a := sp ++ f ++ w1 ++ k ++ w2 ++ cols ++ w3 ++ r ++ w4 ++ y.table ++ (b!"(" ++ a' ++ c' ++ more ++ b'))
        (a' := a) ?_ hnp i2
      rw [← i1, hs]
      simp
    subst he
    rcases i7 with i7 | ⟨-, c, b, i7, hb⟩
    · have hh : ∀ d ∈ onForms b!"DELETE", ∀ u ∈ onForms b!"UPDATE", ∀ df ∈ b!"DEFERRABLE" :: deferForms,
          (d ++ (u ++ df)).head? ≠ some 77 := by
        intro d hd u hu df hdf
        have := (deferForms_head df hdf).1
        rcases onForms_cases hu with rfl | ⟨_, _, rfl⟩ <;> rcases onForms_cases hd with rfl | ⟨_, _, rfl⟩ <;> simp [this]
      rw [squeeze_append, squeeze_append, squeeze_append, e4, List.append_assoc, List.append_assoc,
        List.append_assoc (m ++ od), List.append_assoc m] at i3
      exact deferrable_apart' e2 e3 i5 i6 i7 (match_cancel e1 i4 i3 (hh _ e2 _ e3 _ List.mem_cons_self)
        (hh _ i5 _ i6 _ (List.mem_cons_of_mem _ i7)))
    · have hne := kw_ne ht (by decide)
      have h0 : (s1 ++ s2 ++ s3 ++ (w ++ t)).getLast? = some (t.getLast hne) := by
        rw [← List.append_assoc, List.getLast?_append, List.getLast?_eq_some_getLast hne]; rfl
      rw [i7, List.getLast?_concat, Option.some.injEq] at h0
      exact absurd hb (alpha_not_space _ (kw_alpha ht (by decide) _ (h0 ▸ List.getLast_mem hne)))
  refine ⟨⟨fun ⟨cs, hcs⟩ => ?_, fun hb => ?_⟩, fun x hx => ?_, fun hv x hx => ?_⟩
  · by_contra hc
    rw [ok hc] at hcs
    cases hcs
  · cases hp : parseForeignKey s with
    | ok x => exact absurd hp (bad hb x)
    | err cs => exact ⟨cs, rfl⟩
    | panic => exact absurd hp (parseForeignKey_total s)
  · by_cases hb : y.deferral = .deferrable ∧ tl = []
    · exact absurd hx (bad hb x)
    · rw [ok hb] at hx
      cases hx
      exact ⟨hd', hu', rfl⟩
  · by_cases hb : y.deferral = .deferrable ∧ tl = []
    · exact absurd hx (bad hb x)
    · rw [parse_spelling h hv (fun e ht => hb ⟨e, ht⟩)] at hx
      cases hx
      rfl

/-- Two spellings: with ordinary whitespace between SET and NULL, and with a vertical tab there. -/
example : parseForeignKey (b!"FOREIGN KEY (a) references t(b) ON delete set" ++ b!" \n " ++ b!"NULL") = .ok exampleSyntax.meaning := by
  have h := C48_exact exampleSyntax _ [] (spells_example (w := b!" \n ") (by decide))
  have hv : (11 : UInt8) ∉ b!"FOREIGN KEY (a) references t(b) ON delete set" ++ b!" \n " ++ b!"NULL" := by decide +kernel
  cases hp : parseForeignKey (b!"FOREIGN KEY (a) references t(b) ON delete set" ++ b!" \n " ++ b!"NULL") with
  | ok x => rw [h.2.2 hv x hp]
  | err cs => exact absurd (h.1.mp ⟨cs, hp⟩).1 (by decide)
  | panic => exact absurd hp (parseForeignKey_total _)

example : ∀ x, parseForeignKey (b!"FOREIGN KEY (a) references t(b) ON delete set" ++ [11] ++ b!"NULL") = .ok x →
    SameKey x exampleSyntax.meaning :=
  (C48_exact exampleSyntax _ [] (spells_example (w := [11]) (by decide))).2.1

end Verif.Ddl
