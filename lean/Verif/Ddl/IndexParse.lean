import Verif.Ddl.Pieces
import Verif.Ddl.KwLemmas
import Verif.Ddl.Parse
import Verif.Ddl.Certs.Index

/-!
# ParseIndex accepts exactly the CREATE INDEX texts: lemmas
-/

namespace Verif.Ddl
open Verif Verif.Ragel

theorem trim_space_cons {b : UInt8} (hb : Space b) (s : Str) : trim (b :: s) = trim s := by
  have h : [b] ∈ whiteSpace := by
    revert b; decide +kernel
  unfold trim
  rw [show b :: s = [b] ++ s from rfl, strip_append enc_forward h]

theorem trim_spaces_append {w : Str} (hw : Spaces w) (s : Str) : trim (w ++ s) = trim s := by
  induction w with
  | nil => rfl
  | cons b w ih =>
    rw [List.cons_append, trim_space_cons (hw b (by simp))]
    exact ih (fun c hc => hw c (by simp [hc]))

namespace IndexG

/-- Events of an operator class. -/
def opEvents (oc : Str) : List (Ev IndexAct) := if oc = [] then [] else oc.map .push ++ [.act .setOpClass]

/-- Events of the first key. -/
def firstEvents (k : IndexKey) : List (Ev IndexAct) :=
  if k.column = [] then k.expression.map .push ++ [.act .addExpression]
  else k.column.map .push ++ [.act .addColumn]

/-- Events of a further key. -/
def keyEvents (k : IndexKey) : List (Ev IndexAct) :=
  k.column.map .push ++ [.act .addColumn] ++ opEvents k.opClass

theorem derives_opclass {s : Str} {es : List (Ev IndexAct)} :
    Derives opclass s es ↔ ∃ oc, OpClassText s oc ∧ es = opEvents oc := by
  unfold opclass OpClassText
  rw [derives_opt]
  simp only [derives_seqs_cons, derives_seqs_one, derives_ws, derives_ident, derives_act]
  constructor
  · rintro (⟨w, _, _, _, rfl, rfl, ⟨hw, rfl⟩, oc, _, _, _, rfl, rfl, ⟨ho, rfl⟩, rfl, rfl⟩ | ⟨rfl, rfl⟩)
    · exact ⟨oc, Or.inr ⟨w, hw, ho, by simp⟩, by simp [opEvents, ident_ne ho]⟩
    · exact ⟨[], Or.inl ⟨rfl, rfl⟩, by simp [opEvents]⟩
  · rintro ⟨oc, (⟨rfl, rfl⟩ | ⟨w, hw, ho, rfl⟩), rfl⟩
    · exact Or.inr ⟨rfl, by simp [opEvents]⟩
    · exact Or.inl ⟨w, oc, [], opEvents oc, rfl, rfl, ⟨hw, rfl⟩, oc, [], oc.map .push,
        [.act .setOpClass], by simp, by simp [opEvents, ident_ne ho], ⟨ho, rfl⟩, rfl, rfl⟩

theorem derives_one_push {c : UInt8} {s : Str} {es : List (Ev IndexAct)} :
    Derives (.cls [(c.toNat, c.toNat)] [.push]) s es ↔ s = [c] ∧ es = [.push c] := by
  rw [derives_cls]
  simp only [has_one, List.map_cons, List.map_nil, exists_eq_left]
  rfl

theorem derives_inner {s : Str} {es : List (Ev IndexAct)} :
    Derives (.star (.cls [(0, 40), (42, 255)] [.push])) s es ↔ 41 ∉ s ∧ es = s.map .push := by
  rw [derives_starCls, onAll_push]
  simp only [has_noParen]
  constructor
  · rintro ⟨h, rfl⟩; exact ⟨fun hm => h _ hm rfl, rfl⟩
  · rintro ⟨h, rfl⟩; exact ⟨fun b hb hc => h (hc ▸ hb), rfl⟩

theorem derives_expr {s : Str} {es : List (Ev IndexAct)} :
    Derives expr s es ↔ (∃ e, e ≠ [] ∧ (41 : UInt8) ∉ e ∧ s = b!"(" ++ e ++ b!")") ∧
      es = s.map .push := by
  unfold expr
  have h40 : ((40, 40) : Nat × Nat) = ((40 : UInt8).toNat, (40 : UInt8).toNat) := rfl
  have h41 : ((41, 41) : Nat × Nat) = ((41 : UInt8).toNat, (41 : UInt8).toNat) := rfl
  rw [h40, h41]
  have hcls : ∀ (s : Str) (es : List (Ev IndexAct)), Derives (.cls [(0, 40), (42, 255)] [.push]) s es ↔
      ∃ b, b ≠ 41 ∧ s = [b] ∧ es = [.push b] := by
    intro s es
    rw [derives_cls]
    simp only [has_noParen, List.map_cons, List.map_nil]
    rfl
  simp only [derives_seqs_cons, derives_seqs_one, derives_one_push, derives_inner, hcls]
  constructor
  · rintro ⟨_, _, _, _, rfl, rfl, ⟨rfl, rfl⟩, _, _, _, _, rfl, rfl, ⟨b, hb, rfl, rfl⟩, r, _, _, _,
      rfl, rfl, ⟨hr, rfl⟩, rfl, rfl⟩
    refine ⟨⟨b :: r, by simp, ?_, ?_⟩, ?_⟩
    · simp only [List.mem_cons, not_or]
      exact ⟨Ne.symm hb, hr⟩
    · simp
    · simp
  · rintro ⟨⟨e, hne, he, rfl⟩, rfl⟩
    cases e with
    | nil => exact absurd rfl hne
    | cons b r =>
      simp only [List.mem_cons, not_or] at he
      exact ⟨[40], b :: r ++ [41], [.push 40], (b :: r ++ [41]).map .push, rfl, rfl, ⟨rfl, rfl⟩,
        [b], r ++ [41], [.push b], (r ++ [41]).map .push, rfl, rfl, ⟨b, Ne.symm he.1, rfl, rfl⟩,
        r, [41], r.map .push, [.push 41], rfl, by simp, ⟨he.2, rfl⟩, rfl, rfl⟩

theorem derives_fncall {s : Str} {es : List (Ev IndexAct)} :
    Derives fncall s es ↔
      (∃ f a, Ident f ∧ (41 : UInt8) ∉ a ∧ s = f ++ b!"(" ++ a ++ b!")") ∧ es = s.map .push := by
  unfold fncall
  have h40 : ((40, 40) : Nat × Nat) = ((40 : UInt8).toNat, (40 : UInt8).toNat) := rfl
  have h41 : ((41, 41) : Nat × Nat) = ((41 : UInt8).toNat, (41 : UInt8).toNat) := rfl
  rw [h40, h41]
  simp only [derives_seqs_cons, derives_seqs_one, derives_one_push, derives_inner, derives_ident]
  constructor
  · rintro ⟨f, _, _, _, rfl, rfl, ⟨hf, rfl⟩, _, _, _, _, rfl, rfl, ⟨rfl, rfl⟩, r, _, _, _,
      rfl, rfl, ⟨hr, rfl⟩, rfl, rfl⟩
    exact ⟨⟨f, r, hf, hr, by simp⟩, by simp⟩
  · rintro ⟨⟨f, a, hf, ha, rfl⟩, rfl⟩
    exact ⟨f, 40 :: (a ++ [41]), f.map .push, (40 :: (a ++ [41])).map .push, by simp, by simp, ⟨hf, rfl⟩,
      [40], a ++ [41], [.push 40], (a ++ [41]).map .push, rfl, by simp, ⟨rfl, rfl⟩, a, [41], a.map .push, [.push 41], rfl,
      by simp, ⟨ha, rfl⟩, rfl, rfl⟩

theorem derives_key {s : Str} {es : List (Ev IndexAct)} :
    Derives key s es ↔ ∃ k, FirstKeyText s k ∧ es = firstEvents k := by
  unfold key FirstKeyText
  simp only [derives_alt, derives_seq, derives_act, derives_expr, derives_fncall, derives_ident]
  constructor
  · rintro (⟨s1, _, _, _, rfl, rfl, ⟨⟨e, he⟩, rfl⟩, rfl, rfl⟩ |
      ⟨s1, _, _, _, rfl, rfl, ⟨⟨f, a, he⟩, rfl⟩, rfl, rfl⟩ | ⟨s1, _, _, _, rfl, rfl, ⟨hi, rfl⟩, rfl, rfl⟩)
    · rw [List.append_nil]
      exact ⟨_, Or.inl ⟨e, he.1, he.2.1, he.2.2, rfl⟩, by simp [firstEvents]⟩
    · rw [List.append_nil]
      exact ⟨_, Or.inr (Or.inl ⟨f, a, he.1, he.2.1, he.2.2, rfl⟩), by simp [firstEvents]⟩
    · rw [List.append_nil]
      exact ⟨_, Or.inr (Or.inr ⟨hi, rfl⟩), by simp [firstEvents, ident_ne hi]⟩
  · rintro ⟨k, (⟨e, h1, h2, h3, rfl⟩ | ⟨f, a, h1, h2, h3, rfl⟩ | ⟨hi, rfl⟩), rfl⟩
    · exact Or.inl ⟨s, [], s.map .push, [.act .addExpression], by simp, by simp [firstEvents], ⟨⟨e, h1, h2, h3⟩, rfl⟩, rfl, rfl⟩
    · exact Or.inr (Or.inl ⟨s, [], s.map .push, [.act .addExpression], by simp, by simp [firstEvents],
        ⟨⟨f, a, h1, h2, h3⟩, rfl⟩, rfl, rfl⟩)
    · exact Or.inr (Or.inr ⟨s, [], s.map .push, [.act .addColumn], by simp, by simp [firstEvents, ident_ne hi], ⟨hi, rfl⟩,
        rfl, rfl⟩)

theorem derives_more {s : Str} {es : List (Ev IndexAct)} :
    Derives more s es ↔ ∃ ks, MoreKeysText s ks ∧ es = ks.flatMap keyEvents := by
  constructor
  · intro h
    unfold more at h
    generalize hg : Gram.star _ = g at h
    induction h with
    | starNil =>
      exact ⟨[], .nil, rfl⟩
    | starCons h1 h2 _ ih2 =>
      obtain ⟨ks, hk, rfl⟩ := ih2 hg
      cases hg
      simp only [derives_seqs_cons, derives_seqs_one, derives_sp, derives_ch, derives_ident,
        derives_act, derives_opclass] at h1
      obtain ⟨a, _, _, _, rfl, rfl, ⟨ha, rfl⟩, _, _, _, _, rfl, rfl, ⟨rfl, rfl⟩, b, _, _, _, rfl, rfl,
        ⟨hb, rfl⟩, c, _, _, _, rfl, rfl, ⟨hc, rfl⟩, _, o, _, _, rfl, rfl, ⟨rfl, rfl⟩, oc, ho, rfl⟩ := h1
      refine ⟨{ column := c, opClass := oc } :: ks, ?_, by simp [keyEvents]⟩
      have := MoreKeysText.cons ha hb hc ho hk
      simpa using this
    | _ => cases hg
  · rintro ⟨ks, h, rfl⟩
    unfold more
    induction h with
    | nil => exact .starNil
    | @cons a b c o oc s ks ha hb hc ho _ ih =>
      rw [List.flatMap_cons]
      refine .starCons ?_ ih
      simp only [derives_seqs_cons, derives_seqs_one, derives_sp, derives_ch, derives_ident,
        derives_act, derives_opclass]
      exact ⟨a, b!"," ++ b ++ c ++ o, [], _, by simp, by simp; rfl, ⟨ha, rfl⟩, b!",", b ++ c ++ o, [], _,
        by simp, by simp; rfl, ⟨rfl, rfl⟩, b, c ++ o, [], _, by simp, by simp; rfl, ⟨hb, rfl⟩, c, o,
        c.map .push, [.act .addColumn] ++ opEvents oc, by simp, by simp [keyEvents], ⟨hc, rfl⟩, [], o,
        [.act .addColumn], opEvents oc, by simp, rfl, ⟨rfl, rfl⟩, oc, ho, rfl⟩

theorem derives_unique {s : Str} {es : List (Ev IndexAct)} :
    Derives (opt (seqs [kwA .matchUnique b!"UNIQUE", ws])) s es ↔
      ∃ u, UniqueText s u ∧ es = if u then [.act .matchUnique] else [] := by
  unfold UniqueText
  rw [derives_opt]
  simp only [derives_seqs_cons, derives_seqs_one, derives_ws,
    derives_kwA (w := b!"UNIQUE") (a := IndexAct.matchUnique) (by decide) (by decide)]
  constructor
  · rintro (⟨k, w, _, _, rfl, rfl, ⟨hk, rfl⟩, hw, rfl⟩ | ⟨rfl, rfl⟩)
    · exact ⟨true, Or.inr ⟨k, w, hk, hw, rfl, rfl⟩, rfl⟩
    · exact ⟨false, Or.inl ⟨rfl, rfl⟩, rfl⟩
  · rintro ⟨u, (⟨rfl, rfl⟩ | ⟨k, w, hk, hw, rfl, rfl⟩), rfl⟩
    · exact Or.inr ⟨rfl, rfl⟩
    · exact Or.inl ⟨k, w, _, _, rfl, rfl, ⟨hk, rfl⟩, hw, rfl⟩

theorem derives_using {s : Str} {es : List (Ev IndexAct)} :
    Derives (opt (seqs [ws, kw b!"USING", ws, ident, .act .setUsing])) s es ↔
      ∃ u, UsingText s u ∧ es = if u = [] then [] else u.map .push ++ [.act .setUsing] := by
  unfold UsingText
  rw [derives_opt]
  simp only [derives_seqs_cons, derives_seqs_one, derives_ws, derives_ident, derives_act,
    derives_kw (A := IndexAct) (w := b!"USING") (by decide)]
  constructor
  · rintro (⟨v, _, _, _, rfl, rfl, ⟨hv, rfl⟩, k, _, _, _, rfl, rfl, ⟨hk, rfl⟩, w, _, _, _, rfl, rfl,
      ⟨hw, rfl⟩, u, _, _, _, rfl, rfl, ⟨hu, rfl⟩, rfl, rfl⟩ | ⟨rfl, rfl⟩)
    · exact ⟨u, Or.inr ⟨v, k, w, hv, hk, hw, hu, by simp⟩, by simp [ident_ne hu]⟩
    · exact ⟨[], Or.inl ⟨rfl, rfl⟩, rfl⟩
  · rintro ⟨u, (⟨rfl, rfl⟩ | ⟨v, k, w, hv, hk, hw, hu, rfl⟩), rfl⟩
    · exact Or.inr ⟨rfl, rfl⟩
    · exact Or.inl ⟨v, k ++ w ++ u, [], u.map .push ++ [.act .setUsing], by simp,
        by simp [ident_ne hu], ⟨hv, rfl⟩, k, w ++ u, [], u.map .push ++ [.act .setUsing], by simp, rfl,
        ⟨hk, rfl⟩, w, u, [], u.map .push ++ [.act .setUsing], rfl, rfl, ⟨hw, rfl⟩, u, [], u.map .push,
        [.act .setUsing], by simp, rfl, ⟨hu, rfl⟩, rfl, rfl⟩

theorem derives_sp1 {s : Str} {es : List (Ev IndexAct)} :
    Derives sp1 s es ↔ ∃ b, Space b ∧ s = [b] ∧ es = [] := by
  unfold sp1
  rw [derives_cls]
  simp only [has_space, List.map_nil]

theorem derives_any {s : Str} {es : List (Ev IndexAct)} :
    Derives (seqs [.cls anyCls [.push], .star (.cls anyCls [.push]), .act .setWhere]) s es ↔
      s ≠ [] ∧ es = s.map .push ++ [.act .setWhere] := by
  simp only [derives_seqs_cons, derives_seqs_one, derives_starCls, derives_act, onAll_push, has_any]
  constructor
  · rintro ⟨_, _, _, _, rfl, rfl, h, r, _, _, _, rfl, rfl, ⟨_, rfl⟩, rfl, rfl⟩
    obtain ⟨b, _, rfl, rfl⟩ := derives_cls.mp h
    exact ⟨by simp, by simp; rfl⟩
  · rintro ⟨hne, rfl⟩
    cases s with
    | nil => exact absurd rfl hne
    | cons b r =>
      exact ⟨[b], r, [.push b], r.map .push ++ [.act .setWhere], rfl, rfl, .cls (has_any b), r, [],
        r.map .push, [.act .setWhere], by simp, rfl, ⟨by simp, rfl⟩, rfl, rfl⟩

/-- Events of the end. -/
def whereEvents : Option Str → List (Ev IndexAct)
  | none => []
  | some e => e.map .push ++ [.act .setWhere]

/-- What the events of the end store. -/
def whereValue : Option Str → Str
  | none => []
  | some e => collapseWhitespace (trim e)

theorem derives_where {s : Str} {es : List (Ev IndexAct)} (h : Derives where_ s es) :
    ∃ o, WhereText s (whereValue o) ∧ es = whereEvents o := by
  unfold where_ at h
  rw [derives_alt] at h
  rcases h with h | h
  · rw [derives_seqs_cons] at h
    obtain ⟨v, _, _, _, rfl, rfl, h, h2⟩ := h
    obtain ⟨hv, rfl⟩ := derives_ws.mp h
    rw [derives_seqs_cons] at h2
    obtain ⟨k, _, _, _, rfl, rfl, h, h2⟩ := h2
    obtain ⟨hk, rfl⟩ := (derives_kw (by decide)).mp h
    rw [derives_seqs_cons] at h2
    obtain ⟨_, e, _, _, rfl, rfl, h, h2⟩ := h2
    obtain ⟨b, hb, rfl, rfl⟩ := derives_sp1.mp h
    obtain ⟨hne, rfl⟩ := derives_any.mp h2
    refine ⟨some e, Or.inr ⟨v, k, [b], e, trim e, hv, hk, ⟨by simp, ?_⟩, hne, by simp,
      trimmed_trim e, collapsed_collapse _⟩, rfl⟩
    intro c hc
    rw [List.mem_singleton.mp hc]
    exact hb
  · obtain ⟨hs, rfl⟩ := derives_sp.mp h
    exact ⟨none, Or.inl ⟨hs, rfl⟩, rfl⟩

theorem where_derives {s c : Str} (h : WhereText s c) :
    ∃ o, Derives where_ s (whereEvents o) ∧ c = whereValue o := by
  unfold where_
  rcases h with ⟨hs, rfl⟩ | ⟨v, k, w, e, t, hv, hk, hw, hne, rfl, ht, hc⟩
  · exact ⟨none, derives_alt.mpr (Or.inr (derives_sp.mpr ⟨hs, rfl⟩)), rfl⟩
  · obtain ⟨b, r, rfl, hb, hr⟩ := ws_iff.mpr hw
    refine ⟨some (r ++ e), derives_alt.mpr (Or.inl ?_), ?_⟩
    · rw [derives_seqs_cons]
      refine ⟨v, k ++ ([b] ++ (r ++ e)), [], _, by simp, by simp; rfl, derives_ws.mpr ⟨hv, rfl⟩, ?_⟩
      rw [derives_seqs_cons]
      refine ⟨k, [b] ++ (r ++ e), [], _, rfl, by simp; rfl, (derives_kw (by decide)).mpr ⟨hk, rfl⟩, ?_⟩
      rw [derives_seqs_cons]
      refine ⟨[b], r ++ e, [], _, rfl, by simp; rfl, derives_sp1.mpr ⟨b, hb, rfl, rfl⟩, ?_⟩
      rw [derives_any]
      refine ⟨?_, by simp [whereEvents]⟩
      intro h0
      exact hne (List.append_eq_nil_iff.mp h0).2
    · rw [collapsed_iff.mp hc, trimmed_iff.mp ht]
      unfold whereValue
      simp only
      rw [trim_spaces_append hr]

/-- The events of a whole statement. -/
def events (x : Index) (k : IndexKey) (oc : Str) (ks : List IndexKey) (o : Option Str) :
    List (Ev IndexAct) :=
  (if x.unique then [.act .matchUnique] else []) ++ (x.name.map .push ++ ([.act .setName] ++
    (x.table.map .push ++ ([.act .setTable] ++
      ((if x.using_ = [] then [] else x.using_.map .push ++ [.act .setUsing]) ++
        (firstEvents k ++ (opEvents oc ++ (ks.flatMap keyEvents ++ whereEvents o))))))))

theorem doAll_pushes (x : Index) (b s : Str) (es : List (Ev IndexAct)) :
    doAll indexStep 0 ⟨x, b⟩ (s.map .push ++ es) = doAll indexStep 0 ⟨x, b ++ s⟩ es := by
  induction s generalizing b with
  | nil => simp
  | cons c s ih =>
    simp only [List.map_cons, List.cons_append, doAll, indexStep]
    rw [ih]
    simp

theorem doAll_op (x : Index) (l : List IndexKey) (k : IndexKey) (hk : k.opClass = []) (oc : Str)
    (es : List (Ev IndexAct)) :
    doAll indexStep 0 ⟨{ x with keys := l ++ [k] }, []⟩ (opEvents oc ++ es) =
      doAll indexStep 0 ⟨{ x with keys := l ++ [{ k with opClass := oc }] }, []⟩ es := by
  unfold opEvents
  by_cases ho : oc = []
  · subst ho
    cases k
    simp only at hk
    subst hk
    simp
  · rw [if_neg ho, List.append_assoc, doAll_pushes]
    simp [doAll, indexStep, Index.setOpClass]

theorem doAll_keys (x : Index) (l ks : List IndexKey) (he : ∀ k ∈ ks, k = { column := k.column, opClass := k.opClass })
    (es : List (Ev IndexAct)) :
    doAll indexStep 0 ⟨{ x with keys := l }, []⟩ (ks.flatMap keyEvents ++ es) =
      doAll indexStep 0 ⟨{ x with keys := l ++ ks }, []⟩ es := by
  induction ks generalizing l with
  | nil => simp
  | cons k ks ih =>
    have hk : k = { column := k.column, opClass := k.opClass } := he k (by simp)
    rw [List.flatMap_cons, keyEvents, List.append_assoc, List.append_assoc, List.append_assoc,
      doAll_pushes]
    simp only [List.nil_append, List.cons_append, doAll, indexStep, Index.addColumn]
    rw [doAll_op x l { column := k.column } rfl, ih _ (fun k' h => he k' (by simp [h]))]
    simp only
    rw [← hk]
    simp

theorem more_columns {s : Str} {ks : List IndexKey} (h : MoreKeysText s ks) :
    ∀ k ∈ ks, k = { column := k.column, opClass := k.opClass } := by
  induction h with
  | nil => simp
  | cons _ _ _ _ _ ih =>
    intro k hk
    rcases List.mem_cons.mp hk with rfl | hk
    · rfl
    · exact ih k hk

theorem first_cases {s : Str} {k : IndexKey} (h : FirstKeyText s k) :
    (k.opClass = [] ∧ k.column = [] ∧ k = { expression := k.expression }) ∨
    (k.opClass = [] ∧ k.column ≠ [] ∧ k = { column := k.column }) := by
  rcases h with ⟨e, _, _, _, rfl⟩ | ⟨f, a, _, _, _, rfl⟩ | ⟨hi, rfl⟩
  · exact Or.inl ⟨rfl, rfl, rfl⟩
  · exact Or.inl ⟨rfl, rfl, rfl⟩
  · exact Or.inr ⟨rfl, ident_ne hi, rfl⟩

theorem doAll_first (x : Index) {s : Str} {k : IndexKey} (h : FirstKeyText s k)
    (es : List (Ev IndexAct)) :
    doAll indexStep 0 ⟨{ x with keys := [] }, []⟩ (firstEvents k ++ es) =
      doAll indexStep 0 ⟨{ x with keys := [] ++ [k] }, []⟩ es := by
  unfold firstEvents
  rcases first_cases h with ⟨_, h2, h3⟩ | ⟨_, h2, h3⟩
  · rw [if_pos h2, List.append_assoc, doAll_pushes]
    conv => rhs; rw [h3]
    simp [doAll, indexStep, Index.addExpression]
  · rw [if_neg h2, List.append_assoc, doAll_pushes]
    conv => rhs; rw [h3]
    simp [doAll, indexStep, Index.addColumn]

theorem doAll_where (x : Index) (hx : x.where_ = []) (o : Option Str) :
    doAll indexStep 0 ⟨x, []⟩ (whereEvents o) = some ⟨{ x with where_ := whereValue o }, []⟩ := by
  cases o with
  | none =>
    cases x
    simp only at hx
    subst hx
    rfl
  | some e =>
    rw [whereEvents, doAll_pushes]
    simp [doAll, indexStep, whereValue]

theorem doAll_events (x : Index) (hx : x.using_ = [] ∨ Ident x.using_) {s1 s2 : Str} {k : IndexKey}
    (hk : FirstKeyText s1 k) (oc : Str) {ks : List IndexKey} (hks : MoreKeysText s2 ks)
    (o : Option Str) :
    doAll indexStep 0 {} (events x k oc ks o) =
      some ⟨{ name := x.name, table := x.table, using_ := x.using_, where_ := whereValue o,
              unique := x.unique, keys := { k with opClass := oc } :: ks }, []⟩ := by
  have h1 : ∀ es, doAll indexStep 0 {} ((if x.unique then [.act .matchUnique] else []) ++ es) =
      doAll indexStep 0 ⟨{ unique := x.unique }, []⟩ es := by
    intro es
    cases x.unique <;> simp [doAll, indexStep]
  have h2 : ∀ (y : Index) es, y.using_ = [] → doAll indexStep 0 ⟨y, []⟩
      ((if x.using_ = [] then [] else x.using_.map .push ++ [.act .setUsing]) ++ es) =
      doAll indexStep 0 ⟨{ y with using_ := x.using_ }, []⟩ es := by
    intro y es hy
    rcases hx with hx | hx
    · rw [if_pos hx, hx]
      cases y
      simp only at hy
      subst hy
      rfl
    · rw [if_neg (ident_ne hx), List.append_assoc, doAll_pushes]
      simp [doAll, indexStep, collapse_ident hx]
  unfold events
  rw [h1, doAll_pushes]
  simp only [List.cons_append, List.nil_append, doAll, indexStep]
  rw [doAll_pushes]
  simp only [List.nil_append, doAll, indexStep]
  rw [h2 _ _ rfl]
  have h3 := doAll_first { unique := x.unique, name := x.name, table := x.table, using_ := x.using_ } hk
    (opEvents oc ++ (ks.flatMap keyEvents ++ whereEvents o))
  simp only at h3
  rw [h3]
  have hko : k.opClass = [] := by rcases first_cases hk with h | h <;> exact h.1
  have h4 := doAll_op { unique := x.unique, name := x.name, table := x.table, using_ := x.using_ } []
    k hko oc (ks.flatMap keyEvents ++ whereEvents o)
  simp only at h4
  rw [h4]
  have h5 := doAll_keys { unique := x.unique, name := x.name, table := x.table, using_ := x.using_ }
    ([] ++ [{ k with opClass := oc }]) ks (more_columns hks) (whereEvents o)
  simp only at h5
  rw [h5, doAll_where _ rfl]
  rfl

theorem derivesS_t0 {s : Str} {es : List (Ev IndexAct)} (h : DerivesS t0 s es) :
    ∃ (x : Index) (k : IndexKey) (oc : Str) (ks : List IndexKey) (o : Option Str) (s1 s2 : Str),
      IndexText s x ∧ es = events x k oc ks o ∧ FirstKeyText s1 k ∧ MoreKeysText s2 ks ∧
      (x.using_ = [] ∨ Ident x.using_) ∧
      x = { name := x.name, table := x.table, using_ := x.using_, where_ := whereValue o,
            unique := x.unique, keys := { k with opClass := oc } :: ks } := by
  obtain ⟨sp, _, _, _, rfl, rfl, d1, g1⟩ := derivesS_cons.mp h
  obtain ⟨h_sp, rfl⟩ := derives_sp.mp d1
  obtain ⟨create, _, _, _, rfl, rfl, d2, g2⟩ := derivesS_cons.mp g1
  obtain ⟨h_create, rfl⟩ := (derives_kw (by decide)).mp d2
  obtain ⟨w1, _, _, _, rfl, rfl, d3, g3⟩ := derivesS_cons.mp g2
  obtain ⟨h_w1, rfl⟩ := derives_ws.mp d3
  obtain ⟨u, _, _, _, rfl, rfl, d4, g4⟩ := derivesS_cons.mp g3
  obtain ⟨unique, hu, rfl⟩ := derives_unique.mp d4
  obtain ⟨index, _, _, _, rfl, rfl, d5, g5⟩ := derivesS_cons.mp g4
  obtain ⟨h_index, rfl⟩ := (derives_kw (by decide)).mp d5
  obtain ⟨w2, _, _, _, rfl, rfl, d6, g6⟩ := derivesS_cons.mp g5
  obtain ⟨h_w2, rfl⟩ := derives_ws.mp d6
  obtain ⟨name, _, _, _, rfl, rfl, d7, g7⟩ := derivesS_cons.mp g6
  obtain ⟨h_name, rfl⟩ := derives_ident.mp d7
  obtain ⟨_, _, _, _, rfl, rfl, d8, g8⟩ := derivesS_cons.mp g7
  obtain ⟨rfl, rfl⟩ := derives_act.mp d8
  obtain ⟨w3, _, _, _, rfl, rfl, d9, g9⟩ := derivesS_cons.mp g8
  obtain ⟨h_w3, rfl⟩ := derives_ws.mp d9
  obtain ⟨on, _, _, _, rfl, rfl, d10, g10⟩ := derivesS_cons.mp g9
  obtain ⟨h_on, rfl⟩ := (derives_kw (by decide)).mp d10
  obtain ⟨w4, _, _, _, rfl, rfl, d11, g11⟩ := derivesS_cons.mp g10
  obtain ⟨h_w4, rfl⟩ := derives_ws.mp d11
  obtain ⟨table, _, _, _, rfl, rfl, d12, g12⟩ := derivesS_cons.mp g11
  obtain ⟨h_table, rfl⟩ := derives_ident.mp d12
  obtain ⟨_, _, _, _, rfl, rfl, d13, g13⟩ := derivesS_cons.mp g12
  obtain ⟨rfl, rfl⟩ := derives_act.mp d13
  obtain ⟨us, _, _, _, rfl, rfl, d14, g14⟩ := derivesS_cons.mp g13
  obtain ⟨using_, hus, rfl⟩ := derives_using.mp d14
  obtain ⟨w5, _, _, _, rfl, rfl, d15, g15⟩ := derivesS_cons.mp g14
  obtain ⟨h_w5, rfl⟩ := derives_ws.mp d15
  obtain ⟨_, _, _, _, rfl, rfl, d16, g16⟩ := derivesS_cons.mp g15
  obtain ⟨rfl, rfl⟩ := derives_ch.mp d16
  obtain ⟨w6, _, _, _, rfl, rfl, d17, g17⟩ := derivesS_cons.mp g16
  obtain ⟨h_w6, rfl⟩ := derives_sp.mp d17
  obtain ⟨k1, _, _, _, rfl, rfl, d18, g18⟩ := derivesS_cons.mp g17
  obtain ⟨k, hk, rfl⟩ := derives_key.mp d18
  obtain ⟨o1, _, _, _, rfl, rfl, d19, g19⟩ := derivesS_cons.mp g18
  obtain ⟨oc, ho, rfl⟩ := derives_opclass.mp d19
  obtain ⟨more, _, _, _, rfl, rfl, d20, g20⟩ := derivesS_cons.mp g19
  obtain ⟨ks, hks, rfl⟩ := derives_more.mp d20
  obtain ⟨w7, _, _, _, rfl, rfl, d21, g21⟩ := derivesS_cons.mp g20
  obtain ⟨h_w7, rfl⟩ := derives_sp.mp d21
  obtain ⟨_, _, _, _, rfl, rfl, d22, g22⟩ := derivesS_cons.mp g21
  obtain ⟨rfl, rfl⟩ := derives_ch.mp d22
  obtain ⟨wh, _, _, _, rfl, rfl, d23, g23⟩ := derivesS_cons.mp g22
  obtain ⟨rfl, rfl⟩ := derivesS_nil.mp g23
  obtain ⟨o, hwt, rfl⟩ := derives_where d23
  refine ⟨Index.mk [] table name false unique using_ (whereValue o) ({ k with opClass := oc } :: ks), k, oc, ks, o, k1, more, ?_, ?_, hk, hks, ?_, rfl⟩
  · exact ⟨sp, create, w1, u, index, w2, w3, on, w4, us, w5, w6, k1, o1, oc, more, w7, wh, k, ks,
      by simp, h_sp, h_create, h_w1, hu, h_index, h_w2, h_name, h_w3, h_on, h_w4, h_table, hus, h_w5,
      h_w6, hk, ho, hks, h_w7, hwt, rfl, rfl, rfl⟩
  · simp [events]
  · rcases hus with ⟨_, rfl⟩ | ⟨_, _, _, _, _, _, h, _⟩
    · exact Or.inl rfl
    · exact Or.inr h

theorem t0_derives {s : Str} {x : Index} (h : IndexText s x) :
    ∃ (k : IndexKey) (oc : Str) (ks : List IndexKey) (o : Option Str) (s1 s2 : Str),
      DerivesS t0 s (events x k oc ks o) ∧ FirstKeyText s1 k ∧ MoreKeysText s2 ks ∧
      (x.using_ = [] ∨ Ident x.using_) ∧
      x = { name := x.name, table := x.table, using_ := x.using_, where_ := whereValue o,
            unique := x.unique, keys := { k with opClass := oc } :: ks } := by
  obtain ⟨sp, create, w1, u, index, w2, w3, on, w4, us, w5, w6, k1, o1, oc, more, w7, wh, k, ks,
      hs, h_sp, h_create, h_w1, hu, h_index, h_w2, h_name, h_w3, h_on, h_w4, h_table, hus, h_w5,
      h_w6, hk, ho, hks, h_w7, hwt, h1, h2, h3⟩ := h
  obtain ⟨o, hd, hv⟩ := where_derives hwt
  refine ⟨k, oc, ks, o, k1, more, ?_, hk, hks, ?_, ?_⟩
  · have h17 : DerivesS t17 wh (whereEvents o) := by
      have := DerivesS.cons hd .nil
      rwa [List.append_nil, List.append_nil] at this
    have h14 : DerivesS t14 (more ++ (w7 ++ 41 :: wh)) (ks.flatMap keyEvents ++ whereEvents o) :=
      .cons (derives_more.mpr ⟨_, hks, rfl⟩) (cons_sp h_w7 (cons_ch 41 h17))
    have h12 : DerivesS t12 _ _ := .cons (derives_key.mpr ⟨_, hk, rfl⟩)
      (.cons (derives_opclass.mpr ⟨_, ho, rfl⟩) h14)
    have h10 : DerivesS t10 _ _ := .cons (derives_using.mpr ⟨_, hus, rfl⟩)
      (cons_ws h_w5 (cons_ch 40 (cons_sp h_w6 h12)))
    have h6 : DerivesS t6 _ _ := cons_kw h_on (by decide) (cons_ws h_w4 (cons_ident h_table
      (cons_act IndexAct.setTable h10)))
    have h2 : DerivesS t2 _ _ := cons_kw h_index (by decide) (cons_ws h_w2 (cons_ident h_name
      (cons_act IndexAct.setName (cons_ws h_w3 h6))))
    have h0 : DerivesS t0 _ _ := cons_sp h_sp (cons_kw h_create (by decide) (cons_ws h_w1
      (.cons (derives_unique.mpr ⟨_, hu, rfl⟩) h2)))
    rw [hs]
    simpa only [events, List.append_assoc, List.nil_append, List.append_nil, List.cons_append] using h0
  · rcases hus with ⟨_, h⟩ | ⟨_, _, _, _, _, _, h, _⟩
    · exact Or.inl h
    · exact Or.inr h
  · cases x
    simp only at h1 h2 h3 hv
    subst h1 h2 h3 hv
    rfl

end IndexG

/-- `ParseIndex` succeeds exactly on the CREATE INDEX texts, with what they describe. -/
theorem parseIndex_ok_iff (s : Str) (x : Index) : parseIndex s = .ok x ↔ IndexText s x := by
  have hp : parseIndex s = .ok x ↔ ∃ m, indexMachine.exec indexStep indexMachine.start 0 {} s = .ok m ∧
      m.index = x := by
    unfold parseIndex
    cases indexMachine.exec indexStep indexMachine.start 0 {} s <;> simp
  rw [hp]
  constructor
  · rintro ⟨m, h, rfl⟩
    rw [exec_ok_iff _ _ (fun _ _ _ _ => rfl)] at h
    obtain ⟨es, ht, hd⟩ := h
    rw [IndexG.trace_iff] at ht
    obtain ⟨y, k, oc, ks, o, s1, s2, hy, rfl, hk, hks, hu, he⟩ := IndexG.derivesS_t0 ht
    rw [IndexG.doAll_events y hu hk oc hks o, ← he] at hd
    cases hd
    exact hy
  · intro h
    obtain ⟨k, oc, ks, o, s1, s2, hd, hk, hks, hu, he⟩ := IndexG.t0_derives h
    refine ⟨⟨x, []⟩, ?_, rfl⟩
    rw [exec_ok_iff _ _ (fun _ _ _ _ => rfl)]
    refine ⟨_, (IndexG.trace_iff _ _).mpr hd, ?_⟩
    rw [IndexG.doAll_events x hu hk oc hks o, ← he]

end Verif.Ddl
