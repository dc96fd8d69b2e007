import Verif.Ddl.ParseProps
import Verif.Ddl.PgText
import Verif.Ddl.SqlProps

/-!
# C40, C47, C48: round trips and spellings
-/

namespace Verif.Ddl
open Verif Verif.Ragel

/-! ## Lemmas -/

theorem moreText_join (a : Str) (cs : List Str) (h : ∀ c ∈ cs, Ident c) :
    ∃ m, commaJoin (a :: cs) = a ++ m ∧ MoreText m cs := by
  induction cs generalizing a with
  | nil => exact ⟨[], by simp [commaJoin], .nil⟩
  | cons c cs ih =>
    obtain ⟨m, h1, h2⟩ := ih c (fun x hx => h x (by simp [hx]))
    refine ⟨[] ++ b!"," ++ b!" " ++ c ++ m, ?_, .cons (by decide) (by decide) (h c (by simp)) h2⟩
    rw [commaJoin, h1]
    simp

theorem listText_join {cs : List Str} (hne : cs ≠ []) (h : ∀ c ∈ cs, Ident c) :
    ListText (b!"(" ++ commaJoin cs ++ b!")") cs := by
  cases cs with
  | nil => exact absurd rfl hne
  | cons c cs =>
    obtain ⟨m, h1, h2⟩ := moreText_join c cs (fun x hx => h x (by simp [hx]))
    exact ⟨[], c, m, [], cs, by decide, h c (by simp), h2, by decide, by rw [h1]; simp, rfl⟩

theorem words_append {a b : List Str} {s : Str} :
    Words (a ++ b) s ↔ ∃ s1 s2, s = s1 ++ s2 ∧ Words a s1 ∧ Words b s2 := by
  induction a generalizing s with
  | nil =>
    constructor
    · intro h
      exact ⟨[], s, rfl, .nil, h⟩
    · rintro ⟨s1, s2, rfl, h1, h2⟩
      cases h1
      exact h2
  | cons k a ih =>
    constructor
    · intro h
      cases h with
      | cons hw hk h =>
        obtain ⟨s1, s2, rfl, h1, h2⟩ := ih.mp h
        exact ⟨_, s2, by simp, .cons hw hk h1, h2⟩
    · rintro ⟨s1, s2, rfl, h1, h2⟩
      cases h1 with
      | cons hw hk h1 =>
        have := Words.cons hw hk (ih.mpr ⟨_, s2, rfl, h1, h2⟩)
        simpa using this

theorem collapsed_ws {w : Str} (h : Ws w) (h11 : (11 : UInt8) ∉ w) : Collapsed w b!" " := by
  have h0 : ∀ b ∈ w, ReSpace b := by
    intro b hb
    have := h.2 b hb
    have hne : b ≠ 11 := fun e => h11 (e ▸ hb)
    exact (by decide +kernel : ∀ b : UInt8, Space b → b ≠ 11 → b = 9 ∨ b = 10 ∨ b = 12 ∨ b = 13 ∨ b = 32) b this hne
  have := Collapsed.run h.1 h0 (s := []) (t := []) (by simp) .nil
  simpa using this

theorem matchText_words {m : Option MatchType} {s : Str}
    (h : Words (m.toList.flatMap fun m => [b!"MATCH", m.word]) s) :
    MatchText s ((m.map MatchType.word).getD []) := by
  cases m with
  | none => cases h; exact Or.inl ⟨rfl, rfl⟩
  | some m =>
    simp only [Option.toList_some, List.flatMap_cons, List.flatMap_nil, List.append_nil] at h
    cases h with
    | cons hw hk h =>
      cases h with
      | cons hw' hk' h =>
        cases h
        exact Or.inr ⟨_, _, _, _, hw, hk, hw', by cases m <;> decide, hk', by simp⟩

theorem actionText_words {a : RefAction} {s : Str} (h : Words a.words s) (h11 : (11 : UInt8) ∉ s) :
    ∃ x t, s = x ++ t ∧ Ws x ∧ ActionText t a.text := by
  have two : ∀ (k1 k2 : Str), (k1, k2) ∈ [(b!"NO", b!"ACTION"), (b!"SET", b!"NULL"), (b!"SET", b!"DEFAULT")] →
      Words [k1, k2] s → ∃ x t, s = x ++ t ∧ Ws x ∧ ActionText t (k1 ++ b!" " ++ k2) := by
    clear h
    intro k1 k2 hm h
    cases h with
    | cons hw hk h =>
      cases h with
      | @cons _ w' t' _ _ hw' hk' h =>
        cases h
        refine ⟨_, _, by simp only [List.append_assoc, List.append_nil]; rfl, hw,
          Or.inr ⟨k1, k2, _, t', w', b!" ", hm, hk, hw', hk', collapsed_ws hw' ?_, by simp, rfl⟩⟩
        intro hx
        exact h11 (by simp [hx])
  have one : ∀ k, k ∈ [b!"RESTRICT", b!"CASCADE"] → Words [k] s →
      ∃ x t, s = x ++ t ∧ Ws x ∧ ActionText t k := by
    clear h
    intro k hm h
    cases h with
    | cons hw hk h =>
      cases h
      exact ⟨_, _, by simp, hw, Or.inl ⟨hm, hk⟩⟩
  cases a with
  | noAction => exact two _ _ (by decide) h
  | restrict => exact one _ (by decide) h
  | cascade => exact one _ (by decide) h
  | setNull => exact two _ _ (by decide) h
  | setDefault => exact two _ _ (by decide) h

theorem onText_words {ev : Str} {a : Option RefAction} {s : Str}
    (h : Words (a.toList.flatMap fun a => [b!"ON", ev] ++ a.words) s) (h11 : (11 : UInt8) ∉ s) :
    OnText ev s ((a.map RefAction.text).getD []) := by
  cases a with
  | none => cases h; exact Or.inl ⟨rfl, rfl⟩
  | some a =>
    simp only [Option.toList_some, List.flatMap_cons, List.flatMap_nil, List.append_nil] at h
    obtain ⟨s1, s2, rfl, h1, h2⟩ := words_append.mp h
    cases h1 with
    | cons hw hk h1 =>
      cases h1 with
      | cons hw' hk' h1 =>
        cases h1
        obtain ⟨x, t, rfl, hx, ht⟩ := actionText_words h2 (fun hx => h11 (by simp only [List.mem_append]; exact Or.inr hx))
        exact Or.inr ⟨_, _, _, _, _, _, hw, hk, hw', hk', hx, ht, by simp⟩

theorem initiallyText_words {d : Bool} {s : Str} (h : Words (initiallyWords d) s) :
    ∃ v i, s = v ++ i ∧ Ws v ∧ InitiallyText i d := by
  cases h with
  | cons hw hk h =>
    cases h with
    | cons hw' hk' h =>
      cases h
      exact ⟨_, _, by simp only [List.append_assoc, List.append_nil]; rfl, hw, _, _, _, hk, hw', hk', by simp⟩

/-- The two flags of a deferrability clause. -/
theorem deferText_words {dl : Deferral} {s tl : Str} (h : Words dl.words s) (ht : Spaces tl)
    (hend : dl = .deferrable → tl ≠ []) (y : FkSyntax) (hy : y.deferral = dl) :
    ∃ df tl', s ++ tl = df ++ tl' ∧ DeferText df y.meaning.deferrable y.meaning.initiallyDeferred ∧ Spaces tl' := by
  simp only [FkSyntax.meaning, hy]
  cases dl with
  | absent => cases h; exact ⟨[], tl, rfl, Or.inl ⟨rfl, rfl, rfl⟩, ht⟩
  | notDeferrable =>
    cases h with
    | cons hw hk h =>
      cases h with
      | cons hw' hk' h =>
        cases h
        exact ⟨_, tl, rfl, Or.inr (Or.inl ⟨_, _, _, _, hw, hk, hw', hk', by simp, rfl, rfl⟩), ht⟩
  | deferrable =>
    cases h with
    | @cons _ w t _ _ hw hk h =>
      cases h
      exact ⟨w ++ (t ++ tl) ++ [], [], by simp, Or.inr (Or.inr ⟨w, t ++ tl, [], hw,
        Or.inr ⟨t, tl, hk, ⟨hend rfl, ht⟩, rfl, rfl⟩, Or.inl ⟨rfl, rfl⟩, rfl⟩), by decide⟩
  | initially d =>
    obtain ⟨v, i, rfl, hv, hi⟩ := initiallyText_words h
    exact ⟨v ++ [] ++ i, tl, by simp, Or.inr (Or.inr ⟨v, [], i, hv, Or.inl ⟨rfl, rfl⟩, Or.inr hi, rfl⟩), ht⟩
  | deferrableInitially d =>
    cases h with
    | @cons _ w t _ _ hw hk h =>
      obtain ⟨v, i, rfl, hv, hi⟩ := initiallyText_words h
      exact ⟨w ++ (t ++ v) ++ i, tl, by simp, Or.inr (Or.inr ⟨w, t ++ v, i, hw, Or.inr ⟨t, v, hk, hv, rfl, rfl⟩,
        Or.inr hi, rfl⟩), ht⟩

/-! ## C48 -/

/-- A spelling without vertical tabs, and with a space after a final DEFERRABLE, is understood. -/
theorem parse_spelling {y : FkSyntax} {s tl : Str} (h : Spells y s tl) (h11 : (11 : UInt8) ∉ s)
    (hend : y.deferral = .deferrable → tl ≠ []) : parseForeignKey s = .ok y.meaning := by
  rw [parseForeignKey_ok_iff]
  obtain ⟨sp, f, w1, k, w2, cols, w3, r, w4, refs, tail, hs, h1, h2, h3, h4, h5, h6, h7, h8, h9, h10, h11', h12, h13⟩ := h
  unfold FkSyntax.tail at h12
  obtain ⟨_, s4, ht4, h12, g4⟩ := words_append.mp h12
  obtain ⟨_, s3, ht3, h12, g3⟩ := words_append.mp h12
  obtain ⟨s1, s2, ht2, g1, g2⟩ := words_append.mp h12
  have htail : tail = s1 ++ s2 ++ s3 ++ s4 := by rw [ht4, ht3, ht2]
  have n : ∀ x ∈ s, x ≠ (11 : UInt8) := fun x hx e => h11 (e ▸ hx)
  have n2 : (11 : UInt8) ∉ s2 := fun hx => h11 (by rw [hs, htail]; simp [hx])
  have n3 : (11 : UInt8) ∉ s3 := fun hx => h11 (by rw [hs, htail]; simp [hx])
  obtain ⟨df, tl', e1, e2, e3⟩ := deferText_words g4 h13 hend y rfl
  refine ⟨sp, f, w1, k, w2, cols, w3, r, w4, refs, s1, s2, s3, df, tl', ?_, h1, h2, h3, h4, h5, h6, h7, h8, h9, h10,
    h11', matchText_words g1, onText_words g2 n2, onText_words g3 n3, e2, e3, rfl⟩
  rw [hs, htail]
  simp only [FkSyntax.meaning, List.append_assoc]
  rw [e1]

/-- C48: two spellings of a clause, with any keyword case and whitespace, give the same result; except that
a vertical tab counts as no space, and that a final DEFERRABLE needs a space. -/
theorem C48_spelling_irrelevant_partial (y : FkSyntax) (s tl s' tl' : Str) (h : Spells y s tl) (h' : Spells y s' tl')
    (hv : (11 : UInt8) ∉ s ∧ (11 : UInt8) ∉ s') (hend : y.deferral = .deferrable → tl ≠ [] ∧ tl' ≠ []) :
    ∃ x, parseForeignKey s = .ok x ∧ parseForeignKey s' = .ok x :=
  ⟨y.meaning, parse_spelling h hv.1 (fun e => (hend e).1), parse_spelling h' hv.2 (fun e => (hend e).2)⟩

/-- The syntax of the examples. -/
def exampleSyntax : FkSyntax where
  columns := [b!"a"]
  table := b!"t"
  referenced := [b!"b"]
  match_ := none
  onDelete := some .setNull
  onUpdate := none
  deferral := .absent

theorem ident_one {c : UInt8} (h : Alpha c) : Ident [c] := ⟨c, [], rfl, h, by simp⟩

theorem spells_example {w : Str} (hw : Ws w) :
    Spells exampleSyntax (b!"FOREIGN KEY (a) references t(b) ON delete set" ++ w ++ b!"NULL") [] := by
  refine ⟨[], b!"FOREIGN", b!" ", b!"KEY", b!" ", b!"(a)", b!" ", b!"references", b!" ", b!"(b)",
    b!" ON delete set" ++ w ++ b!"NULL", by simp [exampleSyntax], by decide, by decide, by decide, by decide,
    by decide, listText_join (cs := [b!"a"]) (by decide) (fun c hc => ?_), by decide, by decide, by decide,
    ident_one (by decide), listText_join (cs := [b!"b"]) (by decide) (fun c hc => ?_), ?_, by decide⟩
  · rw [List.mem_singleton.mp hc]; exact ident_one (by decide)
  · rw [List.mem_singleton.mp hc]; exact ident_one (by decide)
  · have := Words.cons (k := b!"ON") (w := b!" ") (t := b!"ON") (by decide) (by decide)
      (Words.cons (k := b!"DELETE") (w := b!" ") (t := b!"delete") (by decide) (by decide)
        (Words.cons (k := b!"SET") (w := b!" ") (t := b!"set") (by decide) (by decide)
          (Words.cons (k := b!"NULL") (w := w) (t := b!"NULL") hw (by decide) .nil)))
    simpa [exampleSyntax, FkSyntax.tail, RefAction.words, Deferral.words] using this

example : parseForeignKey b!"FOREIGN KEY (a) references t(b) ON delete set \n NULL" = .ok exampleSyntax.meaning :=
  parse_spelling (spells_example (w := b!" \n ") (by decide)) (by decide) (by decide)

/-- C48 is false: with a vertical tab between SET and NULL the action reads differently, and leaving out
trailing whitespace after DEFERRABLE makes the clause unreadable. -/
theorem C48_refuted :
    (∃ (y : FkSyntax) (s tl s' tl' : Str) (x x' : ForeignKey), Spells y s tl ∧ Spells y s' tl' ∧
      parseForeignKey s = .ok x ∧ parseForeignKey s' = .ok x' ∧ x.onDelete ≠ x'.onDelete) ∧
    (∃ (y : FkSyntax) (s : Str) (x : ForeignKey) (cs : Nat), Spells y s [] ∧ Spells y (s ++ b!" ") b!" " ∧
      parseForeignKey s = .err cs ∧ parseForeignKey (s ++ b!" ") = .ok x) := by
  refine ⟨⟨exampleSyntax, _, [], _, [], _, _, spells_example (w := b!" ") (by decide),
      spells_example (w := [11]) (by decide),
      (by decide +kernel : _ = Outcome.ok (ForeignKey.mk [] b!"t" [b!"a"] [b!"b"] [] b!"SET NULL" [] false false)),
      (by decide +kernel : _ = Outcome.ok (ForeignKey.mk [] b!"t" [b!"a"] [b!"b"] [] (b!"SET" ++ [11] ++ b!"NULL") [] false false)),
      by decide⟩, ?_⟩
  have key : ∀ tl, Spaces tl → Spells { exampleSyntax with onDelete := none, deferral := .deferrable }
      (b!"FOREIGN KEY (a) REFERENCES t(b) DEFERRABLE" ++ tl) tl := by
    intro tl htl
    refine ⟨[], b!"FOREIGN", b!" ", b!"KEY", b!" ", b!"(a)", b!" ", b!"REFERENCES", b!" ", b!"(b)",
      b!" DEFERRABLE", by simp [exampleSyntax], by decide, by decide, by decide, by decide,
      by decide, listText_join (cs := [b!"a"]) (by decide) (fun c hc => ?_), by decide, by decide, by decide,
      ident_one (by decide), listText_join (cs := [b!"b"]) (by decide) (fun c hc => ?_), ?_, htl⟩
    · rw [List.mem_singleton.mp hc]; exact ident_one (by decide)
    · rw [List.mem_singleton.mp hc]; exact ident_one (by decide)
    · exact Words.cons (k := b!"DEFERRABLE") (w := b!" ") (t := b!"DEFERRABLE") (by decide) (by decide) .nil
  have k0 := key [] (by decide)
  rw [List.append_nil] at k0
  exact ⟨_, _, ForeignKey.mk [] b!"t" [b!"a"] [b!"b"] [] [] [] true false, 43, k0, key b!" " (by decide),
    by decide +kernel, by decide +kernel⟩

/-! ## C47 -/

theorem onText_clause (ev : Str) {a : Str} (ha : a ∈ pgActions) : OnText ev (clause (b!" ON " ++ ev ++ b!" ") a) a := by
  unfold clause
  have two : ∀ (k1 k2 : Str), (k1, k2) ∈ [(b!"NO", b!"ACTION"), (b!"SET", b!"NULL"), (b!"SET", b!"DEFAULT")] →
      ActionText (k1 ++ b!" " ++ k2) (k1 ++ b!" " ++ k2) := fun k1 k2 hm =>
    Or.inr ⟨k1, k2, k1, k2, b!" ", b!" ", hm, kw_refl _, by decide, kw_refl _,
      collapsed_ws (by decide) (by decide), rfl, rfl⟩
  have one : ∀ k, k ∈ [b!"RESTRICT", b!"CASCADE"] → ActionText k k := fun k hm => Or.inl ⟨hm, kw_refl _⟩
  have some_ : ∀ a : Str, a ≠ [] → ActionText a a → OnText ev (if a = [] then [] else b!" ON " ++ ev ++ b!" " ++ a) a := by
    intro a hne h
    rw [if_neg hne]
    exact Or.inr ⟨b!" ", b!"ON", b!" ", ev, b!" ", a, by decide, kw_refl _, by decide, kw_refl _, by decide, h,
      by simp⟩
  simp only [pgActions, List.mem_cons, List.not_mem_nil, or_false] at ha
  rcases ha with rfl | rfl | rfl | rfl | rfl
  · exact Or.inl ⟨rfl, rfl⟩
  · exact some_ _ (by decide) (one _ (by decide))
  · exact some_ _ (by decide) (one _ (by decide))
  · exact some_ _ (by decide) (two b!"SET" b!"NULL" (by decide))
  · exact some_ _ (by decide) (two b!"SET" b!"DEFAULT" (by decide))

/-- C47 for foreign keys that do not have both an ON UPDATE and an ON DELETE clause and are not DEFERRABLE
INITIALLY IMMEDIATE. -/
theorem C47_foreign_key_round_trip_partial (x : ForeignKey) (hx : PlainForeignKey x)
    (h1 : x.onUpdate = [] ∨ x.onDelete = []) (h2 : x.deferrable = true → x.initiallyDeferred = true) :
    parseForeignKey (pgForeignKey x) = .ok x := by
  rw [parseForeignKey_ok_iff]
  have hm : MatchText (clause b!" MATCH " x.match_) x.match_ := by
    have := hx.match_
    simp only [List.mem_cons, List.not_mem_nil, or_false] at this
    rcases this with h | h | h <;> rw [h]
    · exact Or.inl ⟨rfl, rfl⟩
    · exact Or.inr ⟨b!" ", b!"MATCH", b!" ", b!"FULL", by decide, by decide, by decide, by decide, by decide, rfl⟩
    · exact Or.inr ⟨b!" ", b!"MATCH", b!" ", b!"PARTIAL", by decide, by decide, by decide, by decide, by decide, rfl⟩
  have hd : DeferText ((if x.deferrable then b!" DEFERRABLE" else []) ++
      (if x.initiallyDeferred then b!" INITIALLY DEFERRED" else [])) x.deferrable x.initiallyDeferred := by
    cases h : x.deferrable with
    | false =>
      have : x.initiallyDeferred = false := by
        cases hi : x.initiallyDeferred with
        | false => rfl
        | true => rw [hx.deferred hi] at h; cases h
      rw [this]
      exact Or.inl ⟨rfl, rfl, rfl⟩
    | true =>
      rw [h2 h]
      exact Or.inr (Or.inr ⟨b!" ", b!"DEFERRABLE ", b!"INITIALLY DEFERRED", by decide,
        Or.inr ⟨b!"DEFERRABLE", b!" ", by decide, by decide, rfl, rfl⟩,
        Or.inr ⟨b!"INITIALLY", b!" ", b!"DEFERRED", by decide, by decide, by decide, rfl⟩, rfl⟩)
  refine ⟨[], b!"FOREIGN", b!" ", b!"KEY", b!" ", b!"(" ++ commaJoin x.columns ++ b!")", b!" ", b!"REFERENCES",
    b!" ", b!"(" ++ commaJoin x.referenced ++ b!")", clause b!" MATCH " x.match_, clause b!" ON DELETE " x.onDelete,
    clause b!" ON UPDATE " x.onUpdate, _, [], ?_, by decide, by decide, by decide, by decide, by decide,
    listText_join hx.columns.1 hx.columns.2, by decide, by decide, by decide, hx.table,
    listText_join hx.referenced.1 hx.referenced.2, hm, onText_clause b!"DELETE" hx.onDelete,
    onText_clause b!"UPDATE" hx.onUpdate, hd, by decide, hx.name⟩
  unfold pgForeignKey
  rcases h1 with h | h <;> rw [h] <;> simp [clause]

/-- A key as the parser can read it: plain, ascending, and if an expression, without a parenthesis in it. -/
def SimpleKey (k : IndexKey) : Prop :=
  PlainKey k ∧ k.descending = false ∧
  ∀ e, k.expression = e ++ b!")" → (41 : UInt8) ∉ e

theorem opClassText_clause {oc : Str} (h : oc = [] ∨ Ident oc) : OpClassText (clause b!" " oc) oc := by
  unfold clause
  rcases h with rfl | h
  · exact Or.inl ⟨rfl, rfl⟩
  · rw [if_neg (ident_ne h)]
    exact Or.inr ⟨b!" ", by decide, h, rfl⟩

theorem moreKeys_join (a : Str) (ks : List IndexKey)
    (h : ∀ k ∈ ks, PlainKey k ∧ k.descending = false ∧ k.expression = []) :
    ∃ m, commaJoin (a :: ks.map pgKey) = a ++ m ∧ MoreKeysText m ks := by
  induction ks generalizing a with
  | nil => exact ⟨[], by simp [commaJoin], .nil⟩
  | cons k ks ih =>
    obtain ⟨m, h1, h2⟩ := ih (pgKey k) (fun x hx => h x (by simp [hx]))
    obtain ⟨⟨ho, hk⟩, hd, he⟩ := h k (by simp)
    have hc : Ident k.column := by
      rcases hk with hk | ⟨_, ⟨e, hk, _⟩ | ⟨f, b, _, hk⟩⟩
      · exact hk.1
      · rw [he] at hk; simp at hk
      · rw [he] at hk; simp at hk
    have hk' : k = { column := k.column, opClass := k.opClass } := by
      cases k; simp_all
    have h3 := MoreKeysText.cons (a := []) (b := b!" ") (by decide) (by decide) hc (opClassText_clause ho) h2
    rw [← hk'] at h3
    refine ⟨_, ?_, h3⟩
    rw [List.map_cons, commaJoin, h1, pgKey, if_neg (ident_ne hc), hd]
    simp

theorem firstKey_text {k : IndexKey} (h : SimpleKey k) :
    ∃ t k', pgKey k = t ++ clause b!" " k.opClass ∧ FirstKeyText t k' ∧ { k' with opClass := k.opClass } = k := by
  obtain ⟨⟨ho, hk⟩, hd, he⟩ := h
  rcases hk with ⟨hc, hx⟩ | ⟨hc, ⟨e, hx, hne⟩ | ⟨f, a, hf, hx⟩⟩
  · refine ⟨k.column, { column := k.column }, ?_, Or.inr (Or.inr ⟨hc, rfl⟩), ?_⟩
    · rw [pgKey, if_neg (ident_ne hc), hd]; simp
    · cases k; simp_all
  · have := he (b!"(" ++ e) (by rw [hx])
    refine ⟨k.expression, { expression := k.expression }, ?_, Or.inl ⟨e, hne, ?_, hx, rfl⟩, ?_⟩
    · rw [pgKey, if_pos hc, hd]; simp
    · intro h; exact this (by simp [h])
    · cases k; simp_all
  · have := he (f ++ b!"(" ++ a) (by rw [hx])
    refine ⟨k.expression, { expression := k.expression }, ?_, Or.inr (Or.inl ⟨f, a, hf, ?_, hx, rfl⟩), ?_⟩
    · rw [pgKey, if_pos hc, hd]; simp
    · intro h; exact this (by simp [h])
    · cases k; simp_all

/-- C47 for indexes with ascending keys of which only the first is an expression, with no closing
parenthesis in it, and with a condition without runs of whitespace. -/
theorem C47_index_round_trip_partial (x : Index) (hx : PlainIndex x) (k : IndexKey) (ks : List IndexKey)
    (hk : x.keys = k :: ks) (h1 : SimpleKey k) (h2 : ∀ k ∈ ks, k.descending = false ∧ k.expression = [])
    (h3 : Trimmed x.where_ x.where_ ∧ Collapsed x.where_ x.where_) :
    parseIndex (pgIndex x) = .ok x := by
  rw [parseIndex_ok_iff]
  obtain ⟨t, k', e1, e2, e3⟩ := firstKey_text h1
  obtain ⟨m, f1, f2⟩ := moreKeys_join (pgKey k) ks
    (fun q hq => ⟨hx.keys.2 q (by rw [hk]; simp [hq]), h2 q hq⟩)
  have hu : UniqueText (if x.unique then b!"UNIQUE " else []) x.unique := by
    cases x.unique with
    | false => exact Or.inl ⟨rfl, rfl⟩
    | true => exact Or.inr ⟨b!"UNIQUE", b!" ", by decide, by decide, rfl, rfl⟩
  have hus : UsingText (b!" USING " ++ x.using_) x.using_ :=
    Or.inr ⟨b!" ", b!"USING", b!" ", by decide, by decide, by decide, hx.using_, rfl⟩
  have hw : WhereText (clause b!" WHERE " x.where_) x.where_ := by
    unfold clause
    by_cases h : x.where_ = []
    · rw [if_pos h]; exact Or.inl ⟨by decide, h⟩
    · rw [if_neg h]
      exact Or.inr ⟨b!" ", b!"WHERE", b!" ", x.where_, x.where_, by decide, by decide, by decide, h, rfl, h3.1, h3.2⟩
  refine ⟨[], b!"CREATE", b!" ", _, b!"INDEX", b!" ", b!" ", b!"ON", b!" ", _, b!" ", [], t,
    clause b!" " k.opClass, k.opClass, m, [], _, k', ks, ?_, by decide, by decide, by decide, hu, by decide, by decide,
    hx.name, by decide, by decide, by decide, hx.table, hus, by decide, by decide, e2,
    opClassText_clause h1.1.1, f2, by decide, hw, by rw [hk, e3], hx.schema, hx.primary⟩
  rw [pgIndex, hk, List.map_cons, f1, e1]
  simp

theorem orJoin_text (e1 : Str) (ev1 : Event) (es : List (Str × Event))
    (h : ∀ p ∈ es, EventText p.1 p.2) :
    ∃ m, orJoin (e1 :: es.map Prod.fst) = e1 ++ m ∧ MoreEventsText m (es.map Prod.snd) := by
  induction es generalizing e1 ev1 with
  | nil => exact ⟨[], by simp [orJoin], .nil⟩
  | cons p es ih =>
    obtain ⟨m, h1, h2⟩ := ih p.1 p.2 (fun x hx => h x (by simp [hx]))
    refine ⟨b!" " ++ b!"OR" ++ b!" " ++ p.1 ++ m, ?_, .cons (by decide) (by decide) (by decide) (h p (by simp)) h2⟩
    rw [List.map_cons, orJoin, h1]
    simp

/-- The events with their texts. -/
def pgEventPairs (x : Trigger) : List (Str × Event) :=
  (if x.insert then [(b!"INSERT", .insert)] else []) ++ (if x.delete then [(b!"DELETE", .delete)] else []) ++
    (if x.update then [(b!"UPDATE" ++ clause b!" OF " (commaJoin x.columns), .update x.columns)] else []) ++
    (if x.truncate then [(b!"TRUNCATE", .truncate)] else [])

theorem commaJoin_ne {cs : List Str} (hne : cs ≠ []) (h : ∀ c ∈ cs, Ident c) : commaJoin cs ≠ [] := by
  cases cs with
  | nil => exact absurd rfl hne
  | cons c cs =>
    obtain ⟨m, h1, _⟩ := moreText_join c cs (fun x hx => h x (by simp [hx]))
    rw [h1]
    simp [ident_ne (h c (by simp))]

theorem eventPairs_text {x : Trigger} (hx : PlainTrigger x) : ∀ p ∈ pgEventPairs x, EventText p.1 p.2 := by
  intro p hp
  simp only [pgEventPairs, List.mem_append] at hp
  rcases hp with ((hp | hp) | hp) | hp
  · split at hp
    · rw [List.mem_singleton.mp hp]; exact kw_refl _
    · cases hp
  · split at hp
    · rw [List.mem_singleton.mp hp]; exact kw_refl _
    · cases hp
  · split at hp
    · rw [List.mem_singleton.mp hp]
      cases hc : x.columns with
      | nil => exact Or.inl ⟨rfl, by rw [commaJoin, clause, if_pos rfl]; decide⟩
      | cons c cs =>
        have hid : ∀ d ∈ c :: cs, Ident d := hc ▸ hx.columns.1
        obtain ⟨m, h1, h2⟩ := moreText_join c cs (fun d hd => hid d (by simp [hd]))
        refine Or.inr ⟨b!"UPDATE", b!" ", b!"OF", b!" ", c, m, cs, by decide, by decide, by decide, by decide,
          hid c (by simp), h2, ?_, rfl⟩
        rw [clause, if_neg (commaJoin_ne (by simp) hid), h1]
        simp
    · cases hp
  · split at hp
    · rw [List.mem_singleton.mp hp]; exact kw_refl _
    · cases hp

theorem events_eq (x : Trigger) : pgEvents x = (pgEventPairs x).map Prod.fst := by
  unfold pgEvents pgEventPairs
  simp only [List.map_append]
  congr 1
  · congr 1
    · congr 1 <;> split <;> rfl
    · split <;> rfl
  · split <;> rfl

/-- C47 for triggers that are not constraint triggers, or are deferrable. -/
theorem C47_trigger_round_trip_partial (x : Trigger) (hx : PlainTrigger x)
    (h : x.constraint = true → x.deferrable = true) : parseTrigger (pgTrigger x) = .ok x := by
  rw [parseTrigger_ok_iff]
  have hct : ConstraintText (if x.constraint then b!"CONSTRAINT " else []) x.constraint := by
    cases x.constraint with
    | false => exact Or.inl ⟨rfl, rfl⟩
    | true => exact Or.inr ⟨b!"CONSTRAINT", b!" ", by decide, by decide, rfl, rfl⟩
  have hwh : WhenText x.when_ x.when_ := by
    have := hx.when_
    simp only [List.mem_cons, List.not_mem_nil, or_false] at this
    rcases this with h | h | h <;> rw [h]
    · exact Or.inl ⟨by decide, by decide⟩
    · exact Or.inl ⟨by decide, by decide⟩
    · exact Or.inr ⟨b!"INSTEAD", b!" ", b!" ", b!"OF", by decide, by decide,
        collapsed_ws (by decide) (by decide), by decide, rfl, rfl⟩
  have hdf : ∃ df, DeferText df x.deferrable x.initiallyDeferred ∧
      b!" " ++ (if x.constraint then (if x.deferrable then [] else b!"NOT ") ++ b!"DEFERRABLE INITIALLY " ++
        (if x.initiallyDeferred then b!"DEFERRED " else b!"IMMEDIATE ") else []) = df ++ b!" " := by
    cases hc : x.constraint with
    | false =>
      have h1 : x.deferrable = false := by
        cases hd : x.deferrable with
        | false => rfl
        | true => rw [hx.deferrable hd] at hc; cases hc
      have h2 : x.initiallyDeferred = false := by
        cases hd : x.initiallyDeferred with
        | false => rfl
        | true => rw [hx.deferred hd] at h1; cases h1
      rw [h1, h2]
      exact ⟨[], Or.inl ⟨rfl, rfl, rfl⟩, rfl⟩
    | true =>
      rw [h hc]
      cases x.initiallyDeferred with
      | false =>
        exact ⟨b!" DEFERRABLE INITIALLY IMMEDIATE", Or.inr (Or.inr ⟨b!" ", b!"DEFERRABLE ",
          b!"INITIALLY IMMEDIATE", by decide, Or.inr ⟨b!"DEFERRABLE", b!" ", by decide, by decide, rfl, rfl⟩,
          Or.inr ⟨b!"INITIALLY", b!" ", b!"IMMEDIATE", by decide, by decide, by decide, rfl⟩, rfl⟩), rfl⟩
      | true =>
        exact ⟨b!" DEFERRABLE INITIALLY DEFERRED", Or.inr (Or.inr ⟨b!" ", b!"DEFERRABLE ",
          b!"INITIALLY DEFERRED", by decide, Or.inr ⟨b!"DEFERRABLE", b!" ", by decide, by decide, rfl, rfl⟩,
          Or.inr ⟨b!"INITIALLY", b!" ", b!"DEFERRED", by decide, by decide, by decide, rfl⟩, rfl⟩), rfl⟩
  have hfr : ∃ fr, ForText (b!" " ++ fr) x.forEachRow ∧
      (if x.forEachRow then b!"FOR EACH ROW " else b!"FOR EACH STATEMENT ") = fr ++ b!" " := by
    cases x.forEachRow with
    | false =>
      exact ⟨b!"FOR EACH STATEMENT", Or.inr ⟨b!" ", b!"FOR", b!" ", b!"EACH ", b!"STATEMENT", by decide, by decide,
        by decide, Or.inr ⟨b!"EACH", b!" ", by decide, by decide, rfl⟩, by decide, rfl⟩, rfl⟩
    | true =>
      exact ⟨b!"FOR EACH ROW", Or.inr ⟨b!" ", b!"FOR", b!" ", b!"EACH ", b!"ROW", by decide, by decide,
        by decide, Or.inr ⟨b!"EACH", b!" ", by decide, by decide, rfl⟩, by decide, rfl⟩, rfl⟩
  obtain ⟨df, hdf1, hdf2⟩ := hdf
  obtain ⟨fr, hfr1, hfr2⟩ := hfr
  have hpt := eventPairs_text hx
  have hev : ∀ e : Event, e ∈ (pgEventPairs x).map Prod.snd ↔
      (e = .insert ∧ x.insert = true) ∨ (e = .delete ∧ x.delete = true) ∨ (e = .update x.columns ∧ x.update = true) ∨
      (e = .truncate ∧ x.truncate = true) := by
    intro e
    unfold pgEventPairs
    cases x.insert <;> cases x.delete <;> cases x.update <;> cases x.truncate <;> simp
  have hcols : ((pgEventPairs x).map Prod.snd).flatMap Event.columns = x.columns := by
    unfold pgEventPairs
    have h0 : x.update = false → x.columns = [] := by
      intro hu
      by_contra hne
      rw [hx.columns.2 hne] at hu
      cases hu
    cases hu : x.update with
    | false =>
      rw [h0 hu]
      cases x.insert <;> cases x.delete <;> cases x.truncate <;> simp [Event.columns]
    | true => cases x.insert <;> cases x.delete <;> cases x.truncate <;> simp [Event.columns]
  have hupd : ((pgEventPairs x).map Prod.snd).any Event.isUpdate = x.update := by
    unfold pgEventPairs
    cases x.insert <;> cases x.delete <;> cases x.update <;> cases x.truncate <;> simp [Event.isUpdate]
  cases hp : pgEventPairs x with
  | nil =>
    exfalso
    unfold pgEventPairs at hp
    have := hx.events
    revert hp this
    cases x.insert <;> cases x.delete <;> cases x.update <;> cases x.truncate <;> simp
  | cons p es =>
    rw [hp] at hpt hev hcols hupd
    simp only [List.map_cons] at hev hcols hupd
    obtain ⟨m, h1, h2⟩ := orJoin_text p.1 p.2 es (fun q hq => hpt q (by simp [hq]))
    refine ⟨[], b!"CREATE", b!" ", _, b!"TRIGGER", b!" ", b!" ", x.when_, b!" ", p.1, m, b!" ", b!"ON", b!" ", df,
      b!" " ++ fr, b!" ", b!"EXECUTE", b!" ", b!"FUNCTION", b!" ", [], p.2, es.map Prod.snd, ?_, by decide, by decide,
      by decide, hct, by decide, by decide, hx.name, by decide, hwh, by decide, hpt p (by simp), h2, by decide,
      by decide, by decide, hx.table, hdf1, hfr1, by decide, by decide, by decide, Or.inl (by decide), by decide,
      hx.function, by decide, ?_, ?_, ?_, hupd.symm, hcols.symm, hx.schema⟩
    · have e1 : orJoin (pgEvents x) = p.1 ++ m := by rw [events_eq, hp]; exact h1
      have e2 : pgTrigger x = b!"CREATE " ++ (if x.constraint then b!"CONSTRAINT " else []) ++ b!"TRIGGER " ++
          x.name ++ b!" " ++ x.when_ ++ b!" " ++ orJoin (pgEvents x) ++ b!" ON " ++ x.table ++ (b!" " ++
          (if x.constraint then
            (if x.deferrable then [] else b!"NOT ") ++ b!"DEFERRABLE INITIALLY " ++
              (if x.initiallyDeferred then b!"DEFERRED " else b!"IMMEDIATE ")
          else [])) ++
          (if x.forEachRow then b!"FOR EACH ROW " else b!"FOR EACH STATEMENT ") ++ b!"EXECUTE FUNCTION " ++
          x.function ++ b!"()" := by unfold pgTrigger; simp only [List.append_assoc]
      rw [e2, e1, hdf2, hfr2]
      simp
    · have := hev .insert
      rw [Bool.eq_iff_iff, decide_eq_true_eq, this]
      simp
    · have := hev .delete
      rw [Bool.eq_iff_iff, decide_eq_true_eq, this]
      simp
    · have := hev .truncate
      rw [Bool.eq_iff_iff, decide_eq_true_eq, this]
      simp

/-- C47 is false. What PostgreSQL prints is not read back for: a foreign key with both ON UPDATE and ON
DELETE (PostgreSQL prints them in the other order); one that is DEFERRABLE INITIALLY IMMEDIATE; an index
with an expression after its first key; one with a nested call; a descending key (read as an operator
class); a condition with two spaces in a string literal; a constraint trigger that is not deferrable. -/
theorem C47_refuted :
    (∃ x, PlainForeignKey x ∧ x.onUpdate ≠ [] ∧ x.onDelete ≠ [] ∧ parseForeignKey (pgForeignKey x) = .err 0) ∧
    (∃ x cs, PlainForeignKey x ∧ x.deferrable = true ∧ parseForeignKey (pgForeignKey x) = .err cs) ∧
    (∃ x, PlainIndex x ∧ x.keys = [{ column := b!"a" }, { expression := b!"lower(b)" }] ∧
      parseIndex (pgIndex x) = .err 0) ∧
    (∃ x, PlainIndex x ∧ x.keys = [{ expression := b!"lower(btrim(a))" }] ∧ parseIndex (pgIndex x) = .err 0) ∧
    (∃ x y, PlainIndex x ∧ x.keys = [{ column := b!"a", descending := true }] ∧ parseIndex (pgIndex x) = .ok y ∧
      y.keys = [{ column := b!"a", opClass := b!"DESC" }]) ∧
    (∃ x y, PlainIndex x ∧ x.where_ = b!"a = 'b  c'" ∧ parseIndex (pgIndex x) = .ok y ∧ y.where_ = b!"a = 'b c'") ∧
    (∃ x, PlainTrigger x ∧ x.constraint = true ∧ parseTrigger (pgTrigger x) = .err 0) := by
  have ia : Ident b!"a" := ident_one (by decide)
  have ib : Ident b!"b" := ident_one (by decide)
  have lower : Ident b!"lower" := ⟨108, b!"ower", rfl, by decide, by decide +kernel⟩
  have one : ∀ {c : Str}, c ∈ [b!"a"] → Ident c := fun hc => List.mem_singleton.mp hc ▸ ia
  refine ⟨⟨{ table := b!"a", columns := [b!"a"], referenced := [b!"a"], onUpdate := b!"CASCADE",
             onDelete := b!"CASCADE" }, ⟨⟨by decide, fun _ => one⟩, ia, ⟨by decide, fun _ => one⟩, by decide, by decide,
             by decide, by decide, rfl⟩, by decide, by decide, by decide +kernel⟩,
    ⟨{ table := b!"a", columns := [b!"a"], referenced := [b!"a"], deferrable := true }, 43,
      ⟨⟨by decide, fun _ => one⟩, ia, ⟨by decide, fun _ => one⟩, by decide, by decide,
             by decide, by decide, rfl⟩, rfl, by decide +kernel⟩,
    ⟨{ name := b!"a", table := b!"a", using_ := b!"a", keys := _ }, ⟨ia, ia, ia, ⟨by decide, ?_⟩, rfl, rfl⟩, rfl,
      by decide +kernel⟩,
    ⟨{ name := b!"a", table := b!"a", using_ := b!"a", keys := _ }, ⟨ia, ia, ia, ⟨by decide, ?_⟩, rfl, rfl⟩, rfl,
      by decide +kernel⟩,
    ⟨{ name := b!"a", table := b!"a", using_ := b!"a", keys := _ },
      { name := b!"a", table := b!"a", using_ := b!"a", keys := _ }, ⟨ia, ia, ia, ⟨by decide, ?_⟩, rfl, rfl⟩, rfl,
      by decide +kernel, rfl⟩,
    ⟨{ name := b!"a", table := b!"a", using_ := b!"a", keys := [{ column := b!"a" }], where_ := _ },
      { name := b!"a", table := b!"a", using_ := b!"a", keys := [{ column := b!"a" }], where_ := _ },
      ⟨ia, ia, ia, ⟨by decide, ?_⟩, rfl, rfl⟩, rfl, by decide +kernel, rfl⟩,
    ⟨{ name := b!"a", table := b!"a", function := b!"a", when_ := b!"AFTER", insert := true, constraint := true
       forEachRow := true }, ⟨ia, ia, ia, by decide, Or.inl rfl, ⟨(by intro c hc; cases hc), by decide⟩, by decide, by decide,
       rfl⟩, rfl, by decide +kernel⟩⟩
  · intro k hk
    simp only [List.mem_cons, List.not_mem_nil, or_false] at hk
    rcases hk with rfl | rfl
    · exact ⟨Or.inl rfl, Or.inl ⟨ia, rfl⟩⟩
    · exact ⟨Or.inl rfl, Or.inr ⟨rfl, Or.inr ⟨b!"lower", b!"b", lower, rfl⟩⟩⟩
  · intro k hk
    simp only [List.mem_cons, List.not_mem_nil, or_false] at hk
    subst hk
    exact ⟨Or.inl rfl, Or.inr ⟨rfl, Or.inr ⟨b!"lower", b!"btrim(a)", lower, rfl⟩⟩⟩
  · intro k hk
    simp only [List.mem_cons, List.not_mem_nil, or_false] at hk
    subst hk
    exact ⟨Or.inl rfl, Or.inl ⟨ia, rfl⟩⟩
  · intro k hk
    simp only [List.mem_cons, List.not_mem_nil, or_false] at hk
    subst hk
    exact ⟨Or.inl rfl, Or.inl ⟨ia, rfl⟩⟩

example : pgTrigger { name := b!"g", table := b!"t", function := b!"f", when_ := b!"AFTER", insert := true, update := true
                      columns := [b!"a", b!"b"], constraint := true, deferrable := true, forEachRow := true } =
    b!"CREATE CONSTRAINT TRIGGER g AFTER INSERT OR UPDATE OF a, b ON t DEFERRABLE INITIALLY IMMEDIATE FOR EACH ROW EXECUTE FUNCTION f()" := by
  decide +kernel

/-- The description of the example. -/
def exampleFk : ForeignKey :=
  ForeignKey.mk [] b!"t" [b!"a", b!"b"] [b!"a", b!"b"] b!"FULL" b!"SET NULL" [] true true

example : parseForeignKey (pgForeignKey exampleFk) = .ok exampleFk :=
  C47_foreign_key_round_trip_partial _
    ⟨⟨by decide, by simp only [exampleFk, List.mem_cons, List.not_mem_nil, or_false]; rintro c (rfl | rfl) <;> exact ident_one (by decide)⟩,
      ident_one (by decide),
      ⟨by decide, by simp only [exampleFk, List.mem_cons, List.not_mem_nil, or_false]; rintro c (rfl | rfl) <;> exact ident_one (by decide)⟩,
      by decide, by decide, by decide, by decide, rfl⟩ (Or.inl rfl) (fun _ => rfl)

example : SimpleKey { expression := b!"f(a, b)", opClass := b!"o" } :=
  ⟨⟨Or.inr (ident_one (by decide)), Or.inr ⟨rfl, Or.inr ⟨b!"f", b!"a, b", ident_one (by decide), rfl⟩⟩⟩, rfl, by
    intro e he
    have : e = b!"f(a, b" := by
      have h : b!"f(a, b" ++ b!")" = e ++ b!")" := he
      exact (List.append_cancel_right h).symm
    rw [this]; decide⟩

/-! ## C40 -/

/-- What the statement of a trigger should read as. -/
def eventWords (t : Trigger) : List Sql.Tok :=
  let evs := (if t.insert then [[Sql.Tok.word b!"INSERT"]] else []) ++
    (if t.update then [Sql.Tok.word b!"UPDATE" :: (if t.columns = [] then [] else
      Sql.Tok.word b!"OF" :: commaIdents t.columns)] else []) ++
    (if t.delete then [[Sql.Tok.word b!"DELETE"]] else []) ++
    (if t.truncate then [[Sql.Tok.word b!"TRUNCATE"]] else [])
  evs.intersperse [Sql.Tok.word b!"OR"] |>.flatten

/-- C40 for triggers whose one event is UPDATE without columns. -/
theorem C40_trigger_events_partial (t : Trigger) (when_ fn : List Sql.Tok)
    (hw : Sql.Fragment t.when_ when_) (hf : Sql.Fragment t.function fn)
    (h : t.update = true ∧ t.columns = [] ∧ t.insert = false ∧ t.delete = false ∧ t.truncate = false) :
    Sql.lex t.toSQL = some (
      [.word b!"CREATE", .word b!"TRIGGER", .ident t.name] ++ when_ ++ eventWords t ++ [.word b!"ON", .ident t.table] ++
      (if t.forEachRow then [.word b!"FOR", .word b!"EACH", .word b!"ROW"] else []) ++
      [.word b!"EXECUTE", .word b!"PROCEDURE"] ++ fn ++ [.sym 40, .sym 41, .sym 59]) := by
  rw [C38_trigger_names_confined t when_ fn hw hf]
  simp [eventWords, h]

/-- C40 is false: whatever its events, the statement is the one for a trigger on UPDATE only or on nothing,
and no statement at all is read back by `ParseTrigger`, which does not know quoted names. -/
theorem C40_refuted (t : Trigger) :
    ({ t with insert := true, delete := true, truncate := true, columns := [] } : Trigger).toSQL =
      ({ t with insert := false, delete := false, truncate := false } : Trigger).toSQL ∧
    parseTrigger t.toSQL = .err 0 := by
  refine ⟨rfl, ?_⟩
  unfold Trigger.toSQL quoteName
  simp only [List.append_assoc]
  rfl

/-- C40, exactly: the statement names the trigger's events if and only if it has no other than UPDATE, without
columns. -/
theorem C40_exact (t : Trigger) (when_ fn : List Sql.Tok)
    (hw : Sql.Fragment t.when_ when_) (hf : Sql.Fragment t.function fn) :
    Sql.lex t.toSQL = some (
      [.word b!"CREATE", .word b!"TRIGGER", .ident t.name] ++ when_ ++ eventWords t ++ [.word b!"ON", .ident t.table] ++
      (if t.forEachRow then [.word b!"FOR", .word b!"EACH", .word b!"ROW"] else []) ++
      [.word b!"EXECUTE", .word b!"PROCEDURE"] ++ fn ++ [.sym 40, .sym 41, .sym 59]) ↔
    t.insert = false ∧ t.delete = false ∧ t.truncate = false ∧ (t.update = true → t.columns = []) := by
  rw [C38_trigger_names_confined t when_ fn hw hf]
  simp only [Option.some.injEq, List.append_assoc, List.append_cancel_left_eq, List.append_cancel_right_eq]
  unfold eventWords
  cases t.insert <;> cases t.delete <;> cases t.truncate <;> cases t.update <;> cases t.columns <;>
    simp [commaIdents]

end Verif.Ddl
