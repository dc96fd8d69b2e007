import Verif.Ddl.RoundTrip

/-!
# C47, exactly: which definitions are read back
-/

namespace Verif.Ddl
open Verif Verif.Ragel

instance (b : UInt8) : Decidable (Space b) := inferInstanceAs (Decidable (_ ∨ _))

/-- A text without its spaces, in upper case. -/
def squeeze (s : Str) : Str := (s.filter fun b => !decide (Space b)).map upperByte

theorem squeeze_append (a b : Str) : squeeze (a ++ b) = squeeze a ++ squeeze b := by
  simp [squeeze]

theorem squeeze_spaces {w : Str} (h : Spaces w) : squeeze w = [] := by
  rw [squeeze, List.map_eq_nil_iff, List.filter_eq_nil_iff]
  intro b hb
  simpa using h b hb

theorem alpha_not_space : ∀ b : UInt8, Alpha b → ¬ Space b := fun b h hs => space_not_alpha b hs h

theorem squeeze_kw {w s : Str} (h : Kw w s) (hw : w.all isUpper = true) : squeeze s = w := by
  rw [squeeze, List.filter_eq_self.mpr fun b hb => by simpa using alpha_not_space b (kw_alpha h hw b hb)]
  exact kw_upper h hw

/-- What can come after the lists of a FOREIGN KEY clause, without spaces. -/
def matchForms : List Str := [[], b!"MATCHFULL", b!"MATCHPARTIAL", b!"MATCHSIMPLE"]
def actionForms : List Str := [b!"RESTRICT", b!"CASCADE", b!"NOACTION", b!"SETNULL", b!"SETDEFAULT"]
def onForms (event : Str) : List Str := [] :: actionForms.map (b!"ON" ++ event ++ ·)
def deferForms : List Str := [[], b!"NOTDEFERRABLE", b!"INITIALLYIMMEDIATE", b!"INITIALLYDEFERRED",
  b!"DEFERRABLEINITIALLYIMMEDIATE", b!"DEFERRABLEINITIALLYDEFERRED"]

theorem squeeze_match {s m : Str} (h : MatchText s m) : squeeze s ∈ matchForms := by
  rcases h with ⟨rfl, rfl⟩ | ⟨v, k, w, t, h1, h2, h3, h4, h5, rfl⟩
  · decide
  · have hu := (show ∀ m ∈ matchTypes, m.all isUpper = true by decide) m h4
    simp only [squeeze_append, squeeze_spaces h1.2, squeeze_spaces h3.2, squeeze_kw h2 (by decide), squeeze_kw h5 hu]
    simp only [matchTypes, List.mem_cons, List.not_mem_nil, or_false] at h4
    rcases h4 with rfl | rfl | rfl <;> decide

theorem squeeze_action {s a : Str} (h : ActionText s a) : squeeze s ∈ actionForms := by
  rcases h with ⟨ha, h⟩ | ⟨k1, k2, t1, t2, w, v, h1, h2, h3, h4, -, rfl, -⟩
  · simp only [List.mem_cons, List.not_mem_nil, or_false] at ha
    rcases ha with rfl | rfl <;> rw [squeeze_kw h (by decide)] <;> decide
  · simp only [List.mem_cons, List.not_mem_nil, or_false, Prod.mk.injEq] at h1
    rcases h1 with ⟨rfl, rfl⟩ | ⟨rfl, rfl⟩ | ⟨rfl, rfl⟩ <;>
      simp only [squeeze_append, squeeze_spaces h3.2, squeeze_kw h2 (by decide), squeeze_kw h4 (by decide)] <;> decide

theorem squeeze_on {ev s a : Str} (hev : ev.all isUpper = true) (h : OnText ev s a) : squeeze s ∈ onForms ev := by
  rcases h with ⟨rfl, rfl⟩ | ⟨v, on, w, e, x, t, h1, h2, h3, h4, h5, h6, rfl⟩
  · exact List.mem_cons_self
  · simp only [squeeze_append, squeeze_spaces h1.2, squeeze_spaces h3.2, squeeze_spaces h5.2, squeeze_kw h2 (by decide),
      squeeze_kw h4 hev]
    exact List.mem_cons_of_mem _ (List.mem_map.mpr ⟨_, squeeze_action h6, by simp⟩)

theorem squeeze_initially {s : Str} {d : Bool} (h : InitiallyText s d) :
    squeeze s = if d then b!"INITIALLYDEFERRED" else b!"INITIALLYIMMEDIATE" := by
  obtain ⟨k, w, t, h1, h2, h3, rfl⟩ := h
  cases d <;> simp [squeeze_append, squeeze_spaces h2.2, squeeze_kw h1 (by decide), squeeze_kw h3 (by decide)]

/-- A deferrability clause; DEFERRABLE alone ends in a space. -/
theorem squeeze_defer {s : Str} {d i : Bool} (h : DeferText s d i) :
    squeeze s ∈ deferForms ∨ (squeeze s = b!"DEFERRABLE" ∧ ∃ a b, s = a ++ [b] ∧ Space b) := by
  rcases h with ⟨rfl, -, -⟩ | ⟨v, k, w, t, h1, h2, h3, h4, rfl, -, -⟩ | ⟨v, p, i', h1, hp, hi, rfl⟩
  · exact .inl (by decide)
  · left
    simp only [squeeze_append, squeeze_spaces h1.2, squeeze_spaces h3.2, squeeze_kw h2 (by decide),
      squeeze_kw h4 (by decide)]
    decide
  · have hp' : (squeeze p = [] ∨ squeeze p = b!"DEFERRABLE" ∧ ∃ a b, p = a ++ [b] ∧ Space b) := by
      rcases hp with ⟨rfl, -⟩ | ⟨k, w, h2, h3, rfl, -⟩
      · exact .inl rfl
      · refine .inr ⟨by simp [squeeze_append, squeeze_spaces h3.2, squeeze_kw h2 (by decide)], ?_⟩
        obtain ⟨hne, hs⟩ := h3
        refine ⟨k ++ w.dropLast, w.getLast hne, ?_, hs _ (List.getLast_mem hne)⟩
        rw [List.append_assoc, List.dropLast_append_getLast]
    have hi' : (i' = [] ∨ squeeze i' = b!"INITIALLYDEFERRED" ∨ squeeze i' = b!"INITIALLYIMMEDIATE") := by
      rcases hi with ⟨rfl, -⟩ | hi
      · exact .inl rfl
      · have := squeeze_initially hi
        split at this
        · exact .inr (.inl this)
        · exact .inr (.inr this)
    simp only [squeeze_append, squeeze_spaces h1.2, List.nil_append]
    rcases hp' with e | ⟨e, a, b, rfl, hb⟩ <;> rcases hi' with rfl | e' | e'
    · left; rw [e]; decide
    · left; rw [e, e']; decide
    · left; rw [e, e']; decide
    · right; rw [e]; exact ⟨rfl, v ++ a, b, by simp, hb⟩
    · left; rw [e, e']; decide
    · left; rw [e, e']; decide

/-- Letters and spaces have no parenthesis. -/
def NoParen (s : Str) : Prop := (41 : UInt8) ∉ s

theorem noParen_append {a b : Str} (ha : NoParen a) (hb : NoParen b) : NoParen (a ++ b) := by
  simp only [NoParen, List.mem_append, not_or]
  exact ⟨ha, hb⟩

theorem noParen_spaces {w : Str} (h : Spaces w) : NoParen w := fun hm => absurd (h _ hm) (by decide)

theorem noParen_kw {w s : Str} (h : Kw w s) (hw : w.all isUpper = true) : NoParen s :=
  fun hm => absurd (kw_alpha h hw _ hm) (by decide)

/-- The squeezed text has the parenthesis, too. -/
theorem noParen_of_squeeze {s : Str} (h : (41 : UInt8) ∉ squeeze s) : NoParen s := by
  intro hm
  apply h
  rw [squeeze, List.mem_map]
  exact ⟨41, List.mem_filter.mpr ⟨hm, by decide⟩, by decide⟩

theorem last_paren {a e a' e' : Str} (h : a ++ 41 :: e = a' ++ 41 :: e') (he : NoParen e) (he' : NoParen e') :
    e = e' := by
  rcases List.append_eq_append_iff.mp h with ⟨c, h1, h2⟩ | ⟨c, h1, h2⟩
  · cases c with
    | nil => simpa using h2
    | cons d c =>
      simp only [List.cons_append, List.cons.injEq] at h2
      exact absurd (by rw [h2.2]; simp) he
  · cases c with
    | nil => simpa using h2.symm
    | cons d c =>
      simp only [List.cons_append, List.cons.injEq] at h2
      exact absurd (by rw [h2.2]; simp) he'

/-- What comes after the lists of a clause that is read. -/
theorem fk_tail {s : Str} {y : ForeignKey} (h : ForeignKeyText s y) : ∃ a e m od ou df, s = a ++ 41 :: e ∧ NoParen e ∧
    squeeze e = m ++ od ++ ou ++ df ∧ m ∈ matchForms ∧ od ∈ onForms b!"DELETE" ∧ ou ∈ onForms b!"UPDATE" ∧
    (df ∈ deferForms ∨ (df = b!"DEFERRABLE" ∧ ∃ c b, e = c ++ [b] ∧ Space b)) := by
  obtain ⟨sp, foreign_, w1, key, w2, cols, w3, references, w4, refs, m, od, ou, df, tl, rfl, -, -, -, -, -, -, -, -, -, -,
    ⟨a, c, more, b, ds, -, -, -, -, rfl, -⟩, hm, hod, hou, hdf, htl, -⟩ := h
  have e1 := squeeze_match hm
  have e2 := squeeze_on (by decide) hod
  have e3 := squeeze_on (by decide) hou
  have e4 := squeeze_defer hdf
  have p1 : ∀ x ∈ matchForms, (41 : UInt8) ∉ x := by decide
  have p2 : ∀ x ∈ onForms b!"DELETE", (41 : UInt8) ∉ x := by decide
  have p3 : ∀ x ∈ onForms b!"UPDATE", (41 : UInt8) ∉ x := by decide
  have p4 : ∀ x ∈ b!"DEFERRABLE" :: deferForms, (41 : UInt8) ∉ x := by decide
  have p4' : NoParen df := noParen_of_squeeze (p4 _ (by
    rcases e4 with e | ⟨e, -⟩
    · exact List.mem_cons_of_mem _ e
    · rw [e]; exact List.mem_cons_self))
  refine ⟨sp ++ foreign_ ++ w1 ++ key ++ w2 ++ cols ++ w3 ++ references ++ w4 ++ y.table ++ (b!"(" ++ a ++ c ++ more ++ b),
    m ++ od ++ ou ++ df ++ tl, squeeze m, squeeze od, squeeze ou, squeeze df, by simp,
    noParen_append (noParen_append (noParen_append (noParen_append (noParen_of_squeeze (p1 _ e1))
      (noParen_of_squeeze (p2 _ e2))) (noParen_of_squeeze (p3 _ e3))) p4') (noParen_spaces htl),
    by simp only [squeeze_append, squeeze_spaces htl, List.append_nil], e1, e2, e3, ?_⟩
  rcases e4 with e | ⟨e, c', b', rfl, hb⟩
  · exact .inl e
  · refine .inr ⟨e, ?_⟩
    by_cases ht : tl = []
    · subst ht
      exact ⟨m ++ od ++ ou ++ c', b', by simp, hb⟩
    · refine ⟨m ++ od ++ ou ++ (c' ++ [b']) ++ tl.dropLast, tl.getLast ht, ?_, htl _ (List.getLast_mem ht)⟩
      rw [List.append_assoc _ tl.dropLast, List.dropLast_append_getLast]

/-- What PostgreSQL prints after the lists of a foreign key. -/
def pgTail (m u d : Str) (deferrable deferred : Bool) : Str :=
  clause b!" MATCH " m ++ clause b!" ON UPDATE " u ++ clause b!" ON DELETE " d ++
    (if deferrable then b!" DEFERRABLE" else []) ++ (if deferred then b!" INITIALLY DEFERRED" else [])

theorem pgForeignKey_tail (x : ForeignKey) : pgForeignKey x = (b!"FOREIGN KEY (" ++ commaJoin x.columns ++ b!") REFERENCES " ++
    x.table ++ b!"(" ++ commaJoin x.referenced) ++ 41 :: pgTail x.match_ x.onUpdate x.onDelete x.deferrable x.initiallyDeferred := by
  simp [pgForeignKey, pgTail]

theorem match_cancel {m m' r r' : Str} (hm : m ∈ matchForms) (hm' : m' ∈ matchForms) (h : m ++ r = m' ++ r')
    (hr : r.head? ≠ some 77) (hr' : r'.head? ≠ some 77) : r = r' := by
  simp only [matchForms, List.mem_cons, List.not_mem_nil, or_false] at hm hm'
  rcases hm with rfl | rfl | rfl | rfl <;> rcases hm' with rfl | rfl | rfl | rfl <;>
    simp only [List.nil_append, List.cons_append, List.cons.injEq, true_and] at h <;>
    first
    | exact h
    | (subst h; simp at hr hr')
    | (revert h; simp)

theorem action_cancel {a a' r r' : Str} (ha : a ∈ actionForms) (ha' : a' ∈ actionForms) (h : a ++ r = a' ++ r') :
    r = r' := by
  simp only [actionForms, List.mem_cons, List.not_mem_nil, or_false] at ha ha'
  rcases ha with rfl | rfl | rfl | rfl | rfl <;> rcases ha' with rfl | rfl | rfl | rfl | rfl <;> simp_all

theorem onForms_cases {ev s : Str} (h : s ∈ onForms ev) : s = [] ∨ ∃ a ∈ actionForms, s = b!"ON" ++ ev ++ a := by
  rcases List.mem_cons.mp h with rfl | h
  · exact .inl rfl
  · obtain ⟨a, ha, rfl⟩ := List.mem_map.mp h
    exact .inr ⟨a, ha, rfl⟩

theorem deferForms_head : ∀ df ∈ b!"DEFERRABLE" :: deferForms, df.head? ≠ some 77 ∧ df.head? ≠ some 79 := by decide

/-- The two actions in PostgreSQL's order are not read. -/
theorem both_apart {u d t od ou df : Str} (hu : u ∈ actionForms) (hod : od ∈ onForms b!"DELETE")
    (hou : ou ∈ onForms b!"UPDATE") (hdf : df ∈ b!"DEFERRABLE" :: deferForms) :
    b!"ONUPDATE" ++ u ++ (b!"ONDELETE" ++ d ++ t) ≠ od ++ ou ++ df := by
  intro h
  obtain ⟨-, hd⟩ := deferForms_head df hdf
  rcases onForms_cases hod with rfl | ⟨a, ha, rfl⟩
  · rcases onForms_cases hou with rfl | ⟨a, ha, rfl⟩
    · simp only [List.nil_append] at h
      rw [← h] at hd
      simp at hd
    · simp only [List.nil_append, List.cons_append, List.cons.injEq, true_and] at h
      have := action_cancel hu ha h
      rw [← this] at hd
      simp at hd
  · simp at h

/-- DEFERRABLE at the end is read only if there is a space after it. -/
theorem deferrable_apart {u d od ou df : Str} (hu : u ∈ onForms b!"UPDATE") (hd : d ∈ onForms b!"DELETE")
    (h1 : u = [] ∨ d = []) (hod : od ∈ onForms b!"DELETE") (hou : ou ∈ onForms b!"UPDATE") (hdf : df ∈ deferForms) :
    u ++ d ++ b!"DEFERRABLE" ≠ od ++ ou ++ df := by
  intro h
  have hne : b!"DEFERRABLE" ≠ df := by rintro rfl; revert hdf; decide
  obtain ⟨-, hdh⟩ := deferForms_head df (List.mem_cons_of_mem _ hdf)
  rcases onForms_cases hu with rfl | ⟨a, ha, rfl⟩
  · rcases onForms_cases hd with rfl | ⟨b, hb, rfl⟩
    · rcases onForms_cases hod with rfl | ⟨a, ha, rfl⟩
      · rcases onForms_cases hou with rfl | ⟨a, ha, rfl⟩
        · exact hne h
        · simp at h
      · simp at h
    · rcases onForms_cases hod with rfl | ⟨a, ha, rfl⟩
      · rcases onForms_cases hou with rfl | ⟨a, ha, rfl⟩
        · simp only [List.nil_append] at h
          rw [← h] at hdh
          simp at hdh
        · simp at h
      · simp only [List.nil_append, List.append_assoc, List.cons_append, List.cons.injEq, true_and] at h
        have := action_cancel hb ha h
        rcases onForms_cases hou with rfl | ⟨a, ha, rfl⟩
        · exact hne this
        · simp at this
  · rcases h1 with h1 | rfl
    · simp at h1
    · rcases onForms_cases hod with rfl | ⟨b, hb, rfl⟩
      · rcases onForms_cases hou with rfl | ⟨b, hb, rfl⟩
        · simp only [List.nil_append] at h
          rw [← h] at hdh
          simp at hdh
        · simp only [List.nil_append, List.append_assoc, List.cons_append, List.cons.injEq, true_and] at h
          exact hne (action_cancel ha hb h)
      · simp at h

/-- What PostgreSQL prints of a clause, without its spaces. -/
theorem squeeze_clause_on {ev a : Str} (hev : ev.all isUpper = true) (ha : a ∈ pgActions) :
    squeeze (clause (b!" ON " ++ ev ++ b!" ") a) ∈ onForms ev ∧
    (a ≠ [] → ∃ a' ∈ actionForms, squeeze (clause (b!" ON " ++ ev ++ b!" ") a) = b!"ON" ++ ev ++ a') ∧
    (a = [] → squeeze (clause (b!" ON " ++ ev ++ b!" ") a) = []) := by
  have h := squeeze_on hev (onText_clause ev ha)
  refine ⟨h, fun hne => ?_, fun he => by rw [he]; rfl⟩
  rcases onForms_cases h with e | h
  · exfalso
    rw [clause, if_neg hne] at e
    rw [squeeze_append, squeeze_append, squeeze_append, show squeeze b!" ON " = b!"ON" from by decide +kernel] at e
    simp at e
  · exact h

/-- **C47 for foreign keys, exactly.** What PostgreSQL prints of a foreign key is read back if and only if the key does
not have both an ON UPDATE and an ON DELETE clause and is not DEFERRABLE INITIALLY IMMEDIATE; otherwise it is refused.
So it is never read as another key. -/
theorem C47_foreign_key_exact (x : ForeignKey) (hx : PlainForeignKey x) :
    (parseForeignKey (pgForeignKey x) = .ok x ↔
      (x.onUpdate = [] ∨ x.onDelete = []) ∧ (x.deferrable = true → x.initiallyDeferred = true)) ∧
    ∀ y, parseForeignKey (pgForeignKey x) = .ok y → y = x := by
  have key : ∀ y, parseForeignKey (pgForeignKey x) = .ok y →
      (x.onUpdate = [] ∨ x.onDelete = []) ∧ (x.deferrable = true → x.initiallyDeferred = true) := by
    intro y hy
    rw [parseForeignKey_ok_iff] at hy
    obtain ⟨a, e, m, od, ou, df, h1, h2, h3, h4, h5, h6, h7⟩ := fk_tail hy
    rw [pgForeignKey_tail] at h1
    have hu := squeeze_clause_on (ev := b!"UPDATE") (by decide) hx.onUpdate
    have hd := squeeze_clause_on (ev := b!"DELETE") (by decide) hx.onDelete
    have hm : squeeze (clause b!" MATCH " x.match_) ∈ matchForms := by
      have := hx.match_
      simp only [List.mem_cons, List.not_mem_nil, or_false] at this
      rcases this with h | h | h <;> rw [h] <;> decide +kernel
    have hf : squeeze ((if x.deferrable then b!" DEFERRABLE" else []) ++
        (if x.initiallyDeferred then b!" INITIALLY DEFERRED" else [])) ∈ b!"DEFERRABLE" :: b!"INITIALLYDEFERRED" :: deferForms := by
      cases x.deferrable <;> cases x.initiallyDeferred <;> decide +kernel
    have hnp : NoParen (pgTail x.match_ x.onUpdate x.onDelete x.deferrable x.initiallyDeferred) := by
      have p1 : ∀ x ∈ matchForms, (41 : UInt8) ∉ x := by decide
      have p2 : ∀ x ∈ onForms b!"DELETE", (41 : UInt8) ∉ x := by decide
      have p3 : ∀ x ∈ onForms b!"UPDATE", (41 : UInt8) ∉ x := by decide
      have p4 : ∀ x ∈ b!"DEFERRABLE" :: b!"INITIALLYDEFERRED" :: deferForms, (41 : UInt8) ∉ x := by decide
      rw [pgTail, List.append_assoc]
      exact noParen_append (noParen_append (noParen_append (noParen_of_squeeze (p1 _ hm)) (noParen_of_squeeze (p3 _ hu.1)))
        (noParen_of_squeeze (p2 _ hd.1))) (noParen_of_squeeze (p4 _ hf))
    have he := last_paren h1 hnp h2
    subst he
    rw [pgTail, List.append_assoc, squeeze_append, squeeze_append, squeeze_append, List.append_assoc, List.append_assoc,
      List.append_assoc (m ++ od), List.append_assoc m] at h3
    have hdf : df ∈ b!"DEFERRABLE" :: deferForms := by
      rcases h7 with h | ⟨h, -⟩
      · exact List.mem_cons_of_mem _ h
      · rw [h]; exact List.mem_cons_self
    have hh : ∀ u ∈ onForms b!"UPDATE", ∀ d ∈ onForms b!"DELETE", ∀ df ∈ b!"DEFERRABLE" :: b!"INITIALLYDEFERRED" :: deferForms,
        (u ++ (d ++ df)).head? ≠ some 77 ∧ (d ++ (u ++ df)).head? ≠ some 77 := by
      intro u hu d hd df hdf
      have : df.head? ≠ some 77 := (show ∀ df ∈ b!"DEFERRABLE" :: b!"INITIALLYDEFERRED" :: deferForms, df.head? ≠ some 77 by
        decide) df hdf
      rcases onForms_cases hu with rfl | ⟨_, _, rfl⟩ <;> rcases onForms_cases hd with rfl | ⟨_, _, rfl⟩ <;> simp [this]
    have h8 := match_cancel hm h4 h3 (hh _ hu.1 _ hd.1 _ hf).1
      (hh _ h6 _ h5 df (by
        rcases List.mem_cons.mp hdf with rfl | h
        · exact List.mem_cons_self
        · exact List.mem_cons_of_mem _ (List.mem_cons_of_mem _ h))).2
    have h9 : x.onUpdate = [] ∨ x.onDelete = [] := by
      by_contra hc
      rw [not_or] at hc
      obtain ⟨u, hu1, hu2⟩ := hu.2.1 hc.1
      obtain ⟨d, hd1, hd2⟩ := hd.2.1 hc.2
      rw [show clause b!" ON UPDATE " x.onUpdate = clause (b!" ON " ++ b!"UPDATE" ++ b!" ") x.onUpdate from rfl,
        show clause b!" ON DELETE " x.onDelete = clause (b!" ON " ++ b!"DELETE" ++ b!" ") x.onDelete from rfl, hu2, hd2,
        ← List.append_assoc od] at h8
      exact both_apart hu1 h5 h6 hdf h8
    refine ⟨h9, fun ht => ?_⟩
    by_contra hc
    have hc : x.initiallyDeferred = false := by simpa using hc
    have e1 : squeeze ((if x.deferrable then b!" DEFERRABLE" else []) ++
        (if x.initiallyDeferred then b!" INITIALLY DEFERRED" else [])) = b!"DEFERRABLE" := by
      rw [ht, hc]; decide +kernel
    rcases h7 with h7 | ⟨-, c, b, h7, hb⟩
    · rw [e1, ← List.append_assoc od, ← List.append_assoc] at h8
      refine deferrable_apart hu.1 hd.1 ?_ h5 h6 h7 h8
      rcases h9 with h | h
      · exact .inl (hu.2.2 h)
      · exact .inr (hd.2.2 h)
    · rw [pgTail, ht, hc] at h7
      have := congrArg List.getLast? h7
      simp at this
      subst this
      exact absurd hb (by decide)
  refine ⟨⟨key x, fun ⟨h1, h2⟩ => C47_foreign_key_round_trip_partial x hx h1 h2⟩, fun y hy => ?_⟩
  obtain ⟨h1, h2⟩ := key y hy
  rw [C47_foreign_key_round_trip_partial x hx h1 h2] at hy
  cases hy
  rfl

/-! ## Indexes -/

theorem collapsed_head {s t : Str} (h : Collapsed s t) (hs : ∀ b, s.head? = some b → ¬ ReSpace b) :
    ∀ b, t.head? = some b → ¬ ReSpace b := by
  cases h with
  | nil => simp
  | char hb _ => intro b hb'; simp at hb'; subst hb'; exact hb
  | @run w s t hw hws _ _ =>
    exfalso
    cases w with
    | nil => exact hw rfl
    | cons c w => exact hs c rfl (hws c (by simp))

theorem collapsed_idem {s t : Str} (h : Collapsed s t) : Collapsed t t := by
  induction h with
  | nil => exact .nil
  | char hb _ ih => exact .char hb ih
  | run hw hws hs h ih =>
    exact .run (w := [32]) (by simp) (by intro b hb; rw [List.mem_singleton.mp hb]; exact .inr (.inr (.inr (.inr rfl))))
      (collapsed_head h hs) ih

theorem collapsed_prefix {s t x r : Str} (h : Collapsed s t) (hx : ∀ b ∈ x, ¬ ReSpace b) (he : t = x ++ r) : x <+: s := by
  induction h generalizing x with
  | nil => simp at he; simp [he]
  | char hb _ ih =>
    cases x with
    | nil => exact List.nil_prefix
    | cons c x =>
      simp only [List.cons_append, List.cons.injEq] at he
      obtain ⟨rfl, he⟩ := he
      exact List.cons_prefix_cons.mpr ⟨rfl, ih (fun b hb => hx b (by simp [hb])) he⟩
  | run _ _ _ _ _ =>
    cases x with
    | nil => exact List.nil_prefix
    | cons c x =>
      simp only [List.cons_append, List.cons.injEq] at he
      exact absurd (.inr (.inr (.inr (.inr he.1.symm)))) (hx c (by simp))

theorem collapsed_suffix {s t x r : Str} (h : Collapsed s t) (hx : ∀ b ∈ x, ¬ ReSpace b) (he : t = r ++ x) : x <:+ s := by
  induction h generalizing r with
  | nil => simp at he; simp [he]
  | @char b s t hb h ih =>
    cases r with
    | nil =>
      cases x with
      | nil => exact List.nil_suffix
      | cons c x =>
        simp only [List.nil_append, List.cons.injEq] at he
        obtain ⟨rfl, rfl⟩ := he
        have : t = s := by
          clear ih
          induction h with
          | nil => rfl
          | char hb' _ ih =>
            rw [ih (fun d hd => hx d (by simp only [List.mem_cons] at hd ⊢; tauto))]
          | run _ _ _ _ _ => exact absurd (.inr (.inr (.inr (.inr rfl)))) (hx 32 (by simp))
        rw [this]
        exact List.suffix_refl _
    | cons c r =>
      simp only [List.cons_append, List.cons.injEq] at he
      exact (ih he.2).trans (List.suffix_cons _ _)
  | @run w s t hw hws hs h ih =>
    cases r with
    | nil =>
      cases x with
      | nil => exact List.nil_suffix
      | cons c x =>
        simp only [List.nil_append, List.cons.injEq] at he
        exact absurd (.inr (.inr (.inr (.inr he.1.symm)))) (hx c (by simp))
    | cons c r =>
      simp only [List.cons_append, List.cons.injEq] at he
      exact (ih he.2).trans (List.suffix_append _ _)

/-- A run at the end is a run at the end. -/
theorem collapsed_last {s t r : Str} (h : Collapsed s t) (he : t = r ++ [32]) : ∃ b, ReSpace b ∧ [b] <:+ s := by
  induction h generalizing r with
  | nil => simp at he
  | @char b s t hb h ih =>
    cases r with
    | nil =>
      simp only [List.nil_append, List.cons.injEq] at he
      exact absurd (.inr (.inr (.inr (.inr he.1)))) hb
    | cons c r =>
      simp only [List.cons_append, List.cons.injEq] at he
      obtain ⟨b, h1, h2⟩ := ih he.2
      exact ⟨b, h1, h2.trans (List.suffix_cons _ _)⟩
  | @run w s t hw hws hs h ih =>
    cases r with
    | nil =>
      simp only [List.nil_append, List.cons.injEq] at he
      cases he.2
      cases h
      refine ⟨w.getLast hw, hws _ (List.getLast_mem hw), ?_⟩
      rw [List.append_nil]
      exact ⟨w.dropLast, List.dropLast_append_getLast hw⟩
    | cons c r =>
      simp only [List.cons_append, List.cons.injEq] at he
      obtain ⟨b, h1, h2⟩ := ih he.2
      exact ⟨b, h1, h2.trans (List.suffix_append _ _)⟩

instance (b : UInt8) : Decidable (ReSpace b) := inferInstanceAs (Decidable (_ ∨ _))

/-- A condition that was read is trimmed and collapsed. -/
theorem where_settled {e t c : Str} (h1 : Trimmed e t) (h2 : Collapsed t c) : Trimmed c c ∧ Collapsed c c := by
  obtain ⟨ls, rs, -, -, -, hp, hs⟩ := h1
  have hcases : ∀ x ∈ whiteSpace, (∃ b, x = [b] ∧ ReSpace b) ∨ ∀ b ∈ x, ¬ ReSpace b := by
    have : ∀ x ∈ whiteSpace, (x.length = 1 ∧ ReSpace (x.headD 0)) ∨ ∀ b ∈ x, ¬ ReSpace b := by decide +kernel
    intro x hx
    rcases this x hx with ⟨h1, h2⟩ | h
    · obtain ⟨b, rfl⟩ := List.length_eq_one_iff.mp h1
      exact .inl ⟨b, rfl, h2⟩
    · exact .inr h
  have hre : ∀ b, ReSpace b → [b] ∈ whiteSpace := by
    intro b hb
    rcases hb with rfl | rfl | rfl | rfl | rfl <;> decide
  have hhead : ∀ b, t.head? = some b → ¬ ReSpace b := by
    intro b hb hr
    cases t with
    | nil => simp at hb
    | cons d t => simp at hb; subst hb; exact hp [d] (hre d hr) ⟨t, rfl⟩
  refine ⟨⟨[], [], by simp, by simp, by simp, ?_, ?_⟩, collapsed_idem h2⟩
  · rintro x hx ⟨r, hr⟩
    rcases hcases x hx with ⟨b, rfl, hb⟩ | h
    · exact collapsed_head h2 hhead b (by rw [← hr]; rfl) hb
    · exact hp x hx (collapsed_prefix h2 h hr.symm)
  · rintro x hx ⟨r, hr⟩
    rcases hcases x hx with ⟨b, rfl, hb⟩ | h
    · have hb32 : b = 32 := by
        have hm : b ∈ c := by rw [← hr]; simp
        clear hr hp hs hhead
        induction h2 with
        | nil => simp at hm
        | char hb' _ ih =>
          rcases List.mem_cons.mp hm with rfl | hm
          · exact absurd hb hb'
          · exact ih hm
        | run _ _ _ _ ih =>
          rcases List.mem_cons.mp hm with rfl | hm
          · rfl
          · exact ih hm
      subst hb32
      obtain ⟨d, h3, h4⟩ := collapsed_last h2 hr.symm
      exact hs [d] (hre d h3) h4
    · exact hs x hx (collapsed_suffix h2 h hr.symm)

theorem ident_noParen {f : Str} (h : Ident f) : (41 : UInt8) ∉ f := by
  obtain ⟨c, r, rfl, hc, hr⟩ := h
  intro hm
  rcases List.mem_cons.mp hm with rfl | hm
  · revert hc; decide +kernel
  · have := hr 41 hm
    revert this; decide +kernel

theorem moreKeys_plain {s : Str} {ks : List IndexKey} (h : MoreKeysText s ks) :
    ∀ k ∈ ks, k.descending = false ∧ k.expression = [] := by
  induction h with
  | nil => simp
  | cons _ _ _ _ _ ih =>
    intro k hk
    rcases List.mem_cons.mp hk with rfl | hk
    · exact ⟨rfl, rfl⟩
    · exact ih k hk

/-- **C47 for indexes, exactly.** What PostgreSQL prints of an index is read back if and only if every key is ascending,
only the first is an expression, with no closing parenthesis within it, and the condition has neither runs of white space
nor white space at its ends. -/
theorem C47_index_exact (x : Index) (hx : PlainIndex x) :
    parseIndex (pgIndex x) = .ok x ↔
      (∀ k ∈ x.keys, k.descending = false) ∧ (∀ k ∈ x.keys.tail, k.expression = []) ∧
      (∀ k ∈ x.keys, ∀ e, k.expression = e ++ b!")" → (41 : UInt8) ∉ e) ∧
      Trimmed x.where_ x.where_ ∧ Collapsed x.where_ x.where_ := by
  constructor
  · intro h
    rw [parseIndex_ok_iff] at h
    obtain ⟨sp, create, w1, u, index, w2, w3, on, w4, us, w5, w6, k1, o1, oc, more, w7, wh, k, ks, -, -, -, -, -, -, -, -, -, -,
      -, -, -, -, -, hk, -, hm, -, hw, hks, -, -⟩ := h
    rw [hks]
    have hm := moreKeys_plain hm
    have hk' : k.descending = false ∧ ∀ e, k.expression = e ++ b!")" → (41 : UInt8) ∉ e := by
      rcases hk with ⟨e, -, h1, h2, rfl⟩ | ⟨f, a, hf, h1, h2, rfl⟩ | ⟨-, rfl⟩
      · refine ⟨rfl, fun e' he' => ?_⟩
        rw [h2] at he'
        rw [← List.append_cancel_right he']
        simp [h1]
      · refine ⟨rfl, fun e' he' => ?_⟩
        rw [h2] at he'
        rw [← List.append_cancel_right he']
        simp only [List.mem_append, not_or]
        exact ⟨⟨ident_noParen hf, by decide⟩, h1⟩
      · refine ⟨rfl, fun e' he' => ?_⟩
        simp at he'
    refine ⟨?_, fun k hk => (hm k hk).2, ?_, ?_⟩
    · intro q hq
      rcases List.mem_cons.mp hq with rfl | hq
      · exact hk'.1
      · exact (hm q hq).1
    · intro q hq
      rcases List.mem_cons.mp hq with rfl | hq
      · exact hk'.2
      · intro e he
        rw [(hm q hq).2] at he
        simp at he
    · rcases hw with ⟨-, e⟩ | ⟨_, _, _, e, t, -, -, -, -, -, h1, h2⟩
      · rw [e]
        refine ⟨⟨[], [], by simp, by simp, by simp, by decide, by decide⟩, .nil⟩
      · exact where_settled h1 h2
  · rintro ⟨h1, h2, h3, h4⟩
    cases hks : x.keys with
    | nil => exact absurd hks hx.keys.1
    | cons k ks =>
      rw [hks] at h1 h2 h3
      exact C47_index_round_trip_partial x hx k ks hks
        ⟨hx.keys.2 k (by rw [hks]; simp), h1 k (by simp), h3 k (by simp)⟩
        (fun q hq => ⟨h1 q (by simp [hq]), h2 q hq⟩) h4

/-! ## Triggers -/

/-- The words of a text in upper case; the first is continued from `acc`. -/
def tokens (acc : Str) : Str → List Str
  | [] => if acc = [] then [] else [acc]
  | b :: s => if Space b then (if acc = [] then [] else [acc]) ++ tokens [] s else tokens (acc ++ [upperByte b]) s

theorem tokens_space {b : UInt8} (hb : Space b) (a s acc : Str) : tokens acc (a ++ b :: s) = tokens acc a ++ tokens [] s := by
  induction a generalizing acc with
  | nil => simp [tokens, hb]
  | cons c a ih =>
    simp only [List.cons_append, tokens]
    split
    · rw [ih, List.append_assoc]
    · exact ih _

theorem tokens_spaces {w : Str} (hw : Spaces w) (s : Str) : tokens [] (w ++ s) = tokens [] s := by
  induction w with
  | nil => rfl
  | cons b w ih =>
    have := tokens_space (hw b (by simp)) [] (w ++ s) []
    rw [List.nil_append] at this
    rw [List.cons_append, this, ih fun c hc => hw c (by simp [hc])]
    rfl

theorem tokens_ws {w : Str} (hw : Ws w) (a s : Str) : tokens [] (a ++ (w ++ s)) = tokens [] a ++ tokens [] s := by
  obtain ⟨hne, hs⟩ := hw
  cases w with
  | nil => exact absurd rfl hne
  | cons b w =>
    rw [List.cons_append, tokens_space (hs b (by simp)), tokens_spaces fun c hc => hs c (by simp [hc])]

theorem tokens_trail {w : Str} (hw : Spaces w) (a : Str) : tokens [] (a ++ w) = tokens [] a := by
  by_cases h : w = []
  · rw [h, List.append_nil]
  · have := tokens_ws ⟨h, hw⟩ a []
    rw [List.append_nil] at this
    rw [this]; simp [tokens]

theorem tokens_word {s : Str} (h : ∀ b ∈ s, ¬ Space b) (acc : Str) (hne : s ≠ [] ∨ acc ≠ []) :
    tokens acc s = [acc ++ s.map upperByte] := by
  induction s generalizing acc with
  | nil => simp [tokens, hne.resolve_left (by simp)]
  | cons b s ih =>
    rw [tokens, if_neg (h b (by simp)), ih (fun c hc => h c (by simp [hc])) _ (.inr (by simp))]
    simp

theorem tokens_kw {w s : Str} (h : Kw w s) (hw : w.all isUpper = true) (hne : w ≠ []) : tokens [] s = [w] := by
  rw [tokens_word (fun b hb => alpha_not_space b (kw_alpha h hw b hb)) [] (.inl (by rintro rfl; cases h; exact hne rfl)),
    List.nil_append]
  exact congrArg (fun t => [t]) (kw_upper h hw)

theorem word_not_space : ∀ b : UInt8, Word b → ¬ Space b := by
  intro b h hs
  rcases h with h | h | h
  · exact alpha_not_space b h hs
  · rcases hs with rfl | hs
    · revert h; decide
    · exact absurd (UInt8.le_trans h.1 hs.2) (by decide)
  · subst h; revert hs; decide

theorem ident_not_space {s : Str} (h : Ident s) : ∀ b ∈ s, ¬ Space b := by
  obtain ⟨c, r, rfl, hc, hr⟩ := h
  intro b hb
  rcases List.mem_cons.mp hb with rfl | hb
  · exact alpha_not_space b hc
  · exact word_not_space b (hr b hb)

theorem tokens_ident {s : Str} (h : Ident s) : tokens [] s = [s.map upperByte] := by
  rw [tokens_word (ident_not_space h) [] (.inl (ident_ne h)), List.nil_append]

/-- It starts with a space. -/
def StartsSp (z : Str) : Prop := ∃ b r, z = b :: r ∧ Space b

theorem startsSp_ws {w s : Str} (h : Ws w) : StartsSp (w ++ s) := by
  obtain ⟨hne, hs⟩ := h
  cases w with
  | nil => exact absurd rfl hne
  | cons b w => exact ⟨b, w ++ s, rfl, hs b (by simp)⟩

theorem tokens_sp {z : Str} (hz : StartsSp z) (a : Str) : tokens [] (a ++ z) = tokens [] a ++ tokens [] z := by
  obtain ⟨b, r, rfl, hb⟩ := hz
  rw [tokens_space hb]
  congr 1
  exact (tokens_spaces (w := [b]) (by intro c hc; rw [List.mem_singleton.mp hc]; exact hb) r).symm

/-- An optional clause with the words `D`. -/
def Opt (s : Str) (D : List Str) : Prop :=
  ∀ z, StartsSp z → StartsSp (s ++ z) ∧ tokens [] (s ++ z) = D ++ tokens [] z

theorem opt_nil : Opt [] [] := fun _ hz => ⟨hz, rfl⟩

theorem opt_ws {v s : Str} {D : List Str} (hv : Ws v) (h : ∀ z, StartsSp z → tokens [] (s ++ z) = D ++ tokens [] z) :
    Opt (v ++ s) D := by
  intro z hz
  rw [List.append_assoc]
  exact ⟨startsSp_ws hv, by rw [tokens_spaces hv.2, h z hz]⟩

theorem defer_tokens {s : Str} {d i : Bool} (h : DeferText s d i) : ∃ D, Opt s D ∧
    (D = [] ∨ D = [b!"NOT", b!"DEFERRABLE"] ∨ D = [b!"DEFERRABLE"] ∨
      ∃ t, D = [b!"INITIALLY", t] ∨ D = [b!"DEFERRABLE", b!"INITIALLY", t] ∧ d = true) := by
  rcases h with ⟨rfl, -, -⟩ | ⟨v, k, w, t, h1, h2, h3, h4, rfl, -, -⟩ | ⟨v, p, i', h1, hp, hi, rfl⟩
  · exact ⟨[], opt_nil, .inl rfl⟩
  · refine ⟨_, ?_, .inr (.inl rfl)⟩
    simp only [List.append_assoc]
    refine opt_ws h1 fun z hz => ?_
    simp only [List.append_assoc]
    rw [tokens_ws h3, tokens_sp hz, tokens_kw h2 (by decide) (by decide), tokens_kw h4 (by decide) (by decide)]
    rfl
  · have hi' : ∃ I, (∀ z, StartsSp z → tokens [] (i' ++ z) = I ++ tokens [] z) ∧ (I = [] ∨ ∃ t, I = [b!"INITIALLY", t]) := by
      rcases hi with ⟨rfl, -⟩ | ⟨k, w, t, h2, h3, h4, rfl⟩
      · exact ⟨[], fun _ _ => rfl, .inl rfl⟩
      · refine ⟨_, fun z hz => ?_, .inr ⟨if i then b!"DEFERRED" else b!"IMMEDIATE", rfl⟩⟩
        simp only [List.append_assoc]
        rw [tokens_ws h3, tokens_sp hz, tokens_kw h2 (by decide) (by decide),
          tokens_kw h4 (by cases i <;> decide) (by cases i <;> decide)]
        rfl
    obtain ⟨I, hI, hI'⟩ := hi'
    simp only [List.append_assoc]
    rcases hp with ⟨rfl, -⟩ | ⟨k, w, h2, h3, rfl, hd⟩
    · refine ⟨I, opt_ws h1 hI, ?_⟩
      rcases hI' with rfl | ⟨t, rfl⟩
      · exact .inl rfl
      · exact .inr (.inr (.inr ⟨t, .inl rfl⟩))
    · refine ⟨b!"DEFERRABLE" :: I, opt_ws h1 fun z hz => ?_, ?_⟩
      · simp only [List.append_assoc]
        rw [tokens_ws h3, hI z hz, tokens_kw h2 (by decide) (by decide)]
        rfl
      · rcases hI' with rfl | ⟨t, rfl⟩
        · exact .inr (.inr (.inl rfl))
        · exact .inr (.inr (.inr ⟨t, .inr ⟨rfl, hd⟩⟩))

theorem for_tokens {s : Str} {r : Bool} (h : ForText s r) : ∃ F, Opt s F ∧
    (F = [] ∨ ∃ t, (t = b!"ROW" ∨ t = b!"STATEMENT") ∧ (F = [b!"FOR", t] ∨ F = [b!"FOR", b!"EACH", t])) := by
  rcases h with ⟨rfl, -⟩ | ⟨v, k, w, e, t, h1, h2, h3, he, h4, rfl⟩
  · exact ⟨[], opt_nil, .inl rfl⟩
  · have ht : tokens [] t = [if r then b!"ROW" else b!"STATEMENT"] :=
      tokens_kw h4 (by cases r <;> decide) (by cases r <;> decide)
    have hr : (if r then b!"ROW" else b!"STATEMENT") = b!"ROW" ∨ (if r then b!"ROW" else b!"STATEMENT") = b!"STATEMENT" := by
      cases r <;> simp
    simp only [List.append_assoc]
    rcases he with rfl | ⟨k', w', h5, h6, rfl⟩
    · refine ⟨_, opt_ws h1 fun z hz => ?_, .inr ⟨_, hr, .inl rfl⟩⟩
      simp only [List.append_assoc, List.nil_append]
      rw [tokens_ws h3, tokens_sp hz, tokens_kw h2 (by decide) (by decide), ht]
      rfl
    · refine ⟨_, opt_ws h1 fun z hz => ?_, .inr ⟨_, hr, .inr rfl⟩⟩
      simp only [List.append_assoc]
      rw [tokens_ws h3, tokens_ws h6, tokens_sp hz, tokens_kw h2 (by decide) (by decide), tokens_kw h5 (by decide) (by decide), ht]
      rfl

theorem tokens_call {f w : Str} (hf : Ident f) (hw : Spaces w) : tokens [] (f ++ (b!"()" ++ w)) = [(f ++ b!"()").map upperByte] := by
  rw [← List.append_assoc, tokens_trail hw, tokens_word, List.nil_append]
  · intro b hb
    rcases List.mem_append.mp hb with hb | hb
    · exact ident_not_space hf b hb
    · exact (show ∀ b ∈ b!"()", ¬ Space b by decide +kernel) b hb
  · exact .inl (by simp)

/-- The end of a trigger that is read. -/
theorem trigger_end {s : Str} {y : Trigger} (h : TriggerText s y) : ∃ a w5 on w6 df fr w7 execute w8 proc w9 w10,
    s = a ++ (w5 ++ (on ++ (w6 ++ (y.table ++ (df ++ (fr ++ (w7 ++ (execute ++ (w8 ++ (proc ++ (w9 ++
      (y.function ++ (b!"()" ++ w10))))))))))))) ∧
    Ws w5 ∧ Kw b!"ON" on ∧ Ws w6 ∧ Ident y.table ∧ DeferText df y.deferrable y.initiallyDeferred ∧ ForText fr y.forEachRow ∧
    Ws w7 ∧ Kw b!"EXECUTE" execute ∧ Ws w8 ∧ (Kw b!"FUNCTION" proc ∨ Kw b!"PROCEDURE" proc) ∧ Ws w9 ∧ Ident y.function ∧
    Spaces w10 := by
  obtain ⟨sp, create, w1, c, trigger_, w2, w3, wh, w4, ev1, more, w5, on, w6, df, fr, w7, execute, w8, proc, w9, w10, ev, evs,
    e, _, _, _, _, _, _, _, _, _, _, _, _, h5, hon, h6, htab, hdf, hfr, h7, hex, h8, hproc, h9, hf, h10, _⟩ := h
  refine ⟨sp ++ create ++ w1 ++ c ++ trigger_ ++ w2 ++ y.name ++ w3 ++ wh ++ w4 ++ ev1 ++ more, w5, on, w6, df, fr, w7, execute,
    w8, proc, w9, w10, ?_, h5, hon, h6, htab, hdf, hfr, h7, hex, h8, hproc, h9, hf, h10⟩
  rw [e]
  simp only [List.append_assoc]

/-- The last words of a trigger that is read. -/
theorem trigger_tokens {s : Str} {y : Trigger} (h : TriggerText s y) : ∃ A T D F P G,
    tokens [] s = A ++ ([b!"ON", T] ++ (D ++ (F ++ [b!"EXECUTE", P, G]))) ∧
    (D = [] ∨ D = [b!"NOT", b!"DEFERRABLE"] ∨ D = [b!"DEFERRABLE"] ∨
      ∃ t, D = [b!"INITIALLY", t] ∨ D = [b!"DEFERRABLE", b!"INITIALLY", t] ∧ y.deferrable = true) ∧
    (F = [] ∨ ∃ t, (t = b!"ROW" ∨ t = b!"STATEMENT") ∧ (F = [b!"FOR", t] ∨ F = [b!"FOR", b!"EACH", t])) := by
  obtain ⟨a, w5, on, w6, df, fr, w7, execute, w8, proc, w9, w10, e, h5, hon, h6, htab, hdf, hfr, h7, hex, h8, hproc, h9, hf,
    h10⟩ := trigger_end h
  obtain ⟨D, hD, hD'⟩ := defer_tokens hdf
  obtain ⟨F, hF, hF'⟩ := for_tokens hfr
  have hp : ∃ P, tokens [] proc = [P] := by
    rcases hproc with h | h
    · exact ⟨_, tokens_kw h (by decide) (by decide)⟩
    · exact ⟨_, tokens_kw h (by decide) (by decide)⟩
  obtain ⟨P, hP⟩ := hp
  refine ⟨tokens [] a, y.table.map upperByte, D, F, P, (y.function ++ b!"()").map upperByte, ?_, hD', hF'⟩
  rw [e]
  have z7 := startsSp_ws (s := execute ++ (w8 ++ (proc ++ (w9 ++ (y.function ++ (b!"()" ++ w10)))))) h7
  obtain ⟨f1, f2⟩ := hF _ z7
  obtain ⟨d1, d2⟩ := hD _ f1
  rw [tokens_ws h5, tokens_ws h6, tokens_sp d1, d2, f2, tokens_spaces h7.2, tokens_ws h8, tokens_ws h9, tokens_call hf h10, hP,
    tokens_kw hon (by decide) (by decide), tokens_kw hex (by decide) (by decide), tokens_ident htab]
  simp only [List.cons_append, List.nil_append]

/-- The last words of a constraint trigger that is not deferrable. -/
theorem pgTrigger_tokens {x : Trigger} (hx : PlainTrigger x) (hc : x.constraint = true) (hd : x.deferrable = false) :
    ∃ A t G, tokens [] (pgTrigger x) = A ++ [x.table.map upperByte, b!"NOT", b!"DEFERRABLE", b!"INITIALLY", b!"IMMEDIATE", b!"FOR",
      b!"EACH", t, b!"EXECUTE", b!"FUNCTION", G] := by
  have hi : x.initiallyDeferred = false := by
    cases hi : x.initiallyDeferred with
    | false => rfl
    | true => rw [hx.deferred hi] at hd; cases hd
  have hG := tokens_call (w := []) hx.function (by simp [Spaces])
  rw [List.append_nil] at hG
  have ws : Ws b!" " := by decide
  have e : pgTrigger x = (b!"CREATE " ++ b!"CONSTRAINT " ++ b!"TRIGGER " ++ x.name ++ b!" " ++ x.when_ ++ b!" " ++
      orJoin (pgEvents x) ++ b!" ON") ++ (b!" " ++ (x.table ++ (b!" " ++ (b!"NOT DEFERRABLE" ++ (b!" " ++ (b!"INITIALLY" ++
        (b!" " ++ (b!"IMMEDIATE" ++ (b!" " ++ (b!"FOR EACH" ++ (b!" " ++
        ((if x.forEachRow then b!"ROW" else b!"STATEMENT") ++ (b!" " ++ (b!"EXECUTE" ++ (b!" " ++ (b!"FUNCTION" ++ (b!" " ++
          (x.function ++ b!"()")))))))))))))))))) := by
    unfold pgTrigger
    rw [hc, hd, hi]
    cases x.forEachRow <;> simp
  refine ⟨tokens [] (b!"CREATE " ++ b!"CONSTRAINT " ++ b!"TRIGGER " ++ x.name ++ b!" " ++ x.when_ ++ b!" " ++
    orJoin (pgEvents x) ++ b!" ON"), if x.forEachRow then b!"ROW" else b!"STATEMENT", (x.function ++ b!"()").map upperByte, ?_⟩
  rw [e, tokens_ws ws, tokens_ws ws, tokens_ws ws, tokens_ws ws, tokens_ws ws, tokens_ws ws, tokens_ws ws, tokens_ws ws,
    tokens_ws ws, hG, tokens_ident hx.table,
    show tokens [] b!"NOT DEFERRABLE" = [b!"NOT", b!"DEFERRABLE"] from by decide +kernel,
    show tokens [] b!"INITIALLY" = [b!"INITIALLY"] from by decide +kernel,
    show tokens [] b!"IMMEDIATE" = [b!"IMMEDIATE"] from by decide +kernel,
    show tokens [] b!"FOR EACH" = [b!"FOR", b!"EACH"] from by decide +kernel,
    show tokens [] b!"EXECUTE" = [b!"EXECUTE"] from by decide +kernel,
    show tokens [] b!"FUNCTION" = [b!"FUNCTION"] from by decide +kernel,
    show tokens [] (if x.forEachRow then b!"ROW" else b!"STATEMENT") = [if x.forEachRow then b!"ROW" else b!"STATEMENT"] from by
      cases x.forEachRow <;> decide +kernel]
  simp only [List.cons_append, List.nil_append]

theorem kw_of_upper {w s : Str} (h : s.map upperByte = w) : Kw w s := by
  subst h
  induction s with
  | nil => exact .nil
  | cons b s ih => exact .cons ((show ∀ b : UInt8, b = upperByte b ∨ b = upperByte b + 32 by decide +kernel) b) ih

/-- A constraint trigger that is not deferrable is read only if it is on a table `on`, and then as deferrable. -/
theorem trigger_refused {x y : Trigger} (hx : PlainTrigger x) (hc : x.constraint = true) (hd : x.deferrable = false)
    (h : parseTrigger (pgTrigger x) = .ok y) : Kw b!"ON" x.table ∧ y.deferrable = true := by
  rw [parseTrigger_ok_iff] at h
  obtain ⟨A, T, D, F, P, G, h1, h2, h3⟩ := trigger_tokens h
  obtain ⟨B, t, G', h4⟩ := pgTrigger_tokens hx hc hd
  rw [h4] at h1
  have h1 := congrArg List.reverse h1
  rcases h3 with rfl | ⟨u, hu, rfl | rfl⟩ <;> rcases h2 with rfl | rfl | rfl | ⟨v, rfl | ⟨rfl, hdy⟩⟩ <;>
    simp at h1
  exact ⟨kw_of_upper h1.2.2.2.2.2.1, hdy⟩

/-- **C47 for triggers, exactly.** What PostgreSQL prints of a trigger is read back if and only if the trigger is not a
constraint trigger or is deferrable; otherwise it is refused, so it is never read as another trigger. (PostgreSQL would
print the name `on` quoted.) -/
theorem C47_trigger_exact (x : Trigger) (hx : PlainTrigger x) :
    (parseTrigger (pgTrigger x) = .ok x ↔ (x.constraint = true → x.deferrable = true)) ∧
    (¬ Kw b!"ON" x.table → ∀ y, parseTrigger (pgTrigger x) = .ok y → y = x) := by
  have key : ∀ y, parseTrigger (pgTrigger x) = .ok y → ¬ (Kw b!"ON" x.table ∧ y.deferrable = true) →
      x.constraint = true → x.deferrable = true := by
    intro y hy hn hc
    cases hd : x.deferrable with
    | true => rfl
    | false => exact absurd (trigger_refused hx hc hd hy) hn
  refine ⟨⟨fun h hc => ?_, C47_trigger_round_trip_partial x hx⟩, fun hon y hy => ?_⟩
  · cases hd : x.deferrable with
    | true => rfl
    | false => have := (trigger_refused hx hc hd h).2; rw [hd] at this; cases this
  · rw [C47_trigger_round_trip_partial x hx (key y hy fun h => hon h.1)] at hy
    cases hy
    rfl

example : pgTrigger { name := b!"a", table := b!"b", function := b!"f", when_ := b!"AFTER", insert := true, constraint := true
                      forEachRow := true } =
    b!"CREATE CONSTRAINT TRIGGER a AFTER INSERT ON b NOT DEFERRABLE INITIALLY IMMEDIATE FOR EACH ROW EXECUTE FUNCTION f()" := by
  decide +kernel

end Verif.Ddl
