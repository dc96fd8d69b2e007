import Verif.Hcl.DocSpec
import Verif.Hcl.Lemmas

/-!
# Lemmas: which documents are read
-/

namespace Verif.Hcl
open Verif

section
variable {F N α β : Type} {L : Lib F N}

/-- What the items of one field have to be like. -/
def FieldOk (L : Lib F N) (t : Tag) (its : List (Item N)) : Prop :=
  (t.isAttr = true → ∀ n v, Item.attr n v ∈ its → ∃ o, Stored L t.goType v o) ∧
  (t.kind = b!"block" → (∀ n ls b, Item.block n ls b ∈ its → Conforms L (elemOf t.goType) ls b) ∧
    (t.goType.head? = some 0x2A → its.length ≤ 1))

/-- A field is read if its items are right. -/
structure FieldStrict (L : Lib F N) (f : Field N α) : Prop where
  ok : ∀ its acc, (∀ i ∈ its, f.allows i = true) → (f.tag.isAttr = true → its.length ≤ 1) →
    ((∃ a, f.decode its acc = .ok a) ↔ FieldOk L f.tag its)
  elem : f.tag.kind = b!"block" →
    f.elemLabels = ((tagsOf (elemOf f.tag.goType)).filter fun t => t.kind = b!"label").length

def Strict (L : Lib F N) (C : Codec N α) : Prop :=
  C.fields.map (·.tag) = tagsOf C.goName ∧
  ∀ labels items, (∃ x, C.decode labels items = .ok x) ↔ Conforms L C.goName labels items

theorem isAttr_iff {t : Tag} : t.isAttr = true ↔ t.kind = b!"attr" ∨ t.kind = b!"optional" := by
  simp [Tag.isAttr]

theorem decodeFields_ok {its : List (Item N)} : ∀ {fs : List (Field N α)},
    (∀ f ∈ fs, FieldStrict L f) →
    (∀ f ∈ fs, ∀ i ∈ its.filter (fun i => decide (i.name = f.tag.name)), f.allows i = true) →
    (∀ f ∈ fs, f.tag.isAttr = true → (its.filter fun i => decide (i.name = f.tag.name)).length ≤ 1) →
    ∀ acc, (∃ a, decodeFields its fs acc = .ok a) ↔
      ∀ f ∈ fs, FieldOk L f.tag (its.filter fun i => decide (i.name = f.tag.name)) := by
  intro fs
  induction fs with
  | nil => intro _ _ _ acc; simp [decodeFields]
  | cons f fs ih =>
    intro hs ha ho acc
    have hf := (hs f (by simp)).ok _ acc (ha f (by simp)) (ho f (by simp))
    have ih := ih (fun f h => hs f (by simp [h])) (fun f h => ha f (by simp [h])) (fun f h => ho f (by simp [h]))
    rw [decodeFields, List.forall_mem_cons, ← hf]
    cases he : f.decode (its.filter fun i => decide (i.name = f.tag.name)) acc with
    | error e => simp
    | ok a => simpa using ih a

theorem nodup_name {fs : List (Field N α)} (hn : (fs.map (·.tag.name)).Nodup) {f g : Field N α}
    (hf : f ∈ fs) (hg : g ∈ fs) (h : f.tag.name = g.tag.name) : f = g :=
  List.inj_on_of_nodup_map hn hf hg h

theorem attrs_le_one {items : List (Item N)} :
    ((items.filter Item.isAttr).map Item.name).Nodup ↔ ∀ n, (attrs items n).length ≤ 1 := by
  have : ∀ n, (attrs items n).length = ((items.filter Item.isAttr).map Item.name).count n := by
    intro n
    rw [List.count, List.countP_map, List.countP_filter, attrs, ← List.countP_eq_length_filter]
    congr 1
    funext i
    cases h : i.isAttr <;> simp [Bool.beq_eq_decide_eq]
  simp only [this, List.nodup_iff_count_le_one]

theorem attrs_eq_nil {items : List (Item N)} {n : Str} :
    attrs items n ≠ [] ↔ (items.any fun i => i.isAttr && decide (i.name = n)) = true := by
  rw [attrs, Ne, List.filter_eq_nil_iff, List.any_eq_true]
  push Not
  rfl

theorem Codec.strict {C : Codec N α} (ht : C.fields.map (·.tag) = tagsOf C.goName)
    (hn : ((tagsOf C.goName).map (·.name)).Nodup) (hs : ∀ f ∈ C.fields, FieldStrict L f) : Strict L C := by
  refine ⟨ht, fun labels items => ?_⟩
  have hn' : (C.fields.map (·.tag.name)).Nodup := by
    rw [← ht, List.map_map] at hn
    exact hn
  have htag : ∀ f ∈ C.fields, f.tag ∈ tagsOf C.goName := fun f hf => ht ▸ List.mem_map_of_mem hf
  have hfield : ∀ t ∈ tagsOf C.goName, ∃ f ∈ C.fields, f.tag = t := fun t h => by
    rw [← ht] at h
    exact List.mem_map.1 h
  have hlab : (labelFields C.fields).length = ((tagsOf C.goName).filter fun t => t.kind = b!"label").length := by
    rw [← ht, List.filter_map, List.length_map]
    rfl
  have hfilter : (∀ i ∈ items, ∃ f ∈ C.fields, f.allows i = true) → ∀ f ∈ C.fields,
      ∀ i ∈ items.filter (fun i => decide (i.name = f.tag.name)), f.allows i = true := by
    intro h f hf i hi
    obtain ⟨hi, he⟩ := List.mem_filter.1 hi
    obtain ⟨g, hg, ha⟩ := h i hi
    have : f = g := nodup_name hn' hf hg (by
      rw [← allows_name ha]
      exact (by simpa using he : i.name = f.tag.name).symm)
    rw [this]
    exact ha
  have honce : (∀ i ∈ items, ∃ f ∈ C.fields, f.allows i = true) → (∀ n, (attrs items n).length ≤ 1) →
      ∀ f ∈ C.fields, f.tag.isAttr = true →
        (items.filter fun i => decide (i.name = f.tag.name)).length ≤ 1 := by
    intro h h1 f hf ha
    have : (items.filter fun i => decide (i.name = f.tag.name)) = attrs items f.tag.name := by
      rw [attrs]
      refine List.filter_congr fun i hi => ?_
      by_cases he : i.name = f.tag.name
      · have := allows_isAttr (hfilter h f hf i (List.mem_filter.2 ⟨hi, by simpa using he⟩))
        simp [this, ha, he]
      · simp [he]
    rw [this]
    exact h1 _
  constructor
  · rintro ⟨x, hx⟩
    unfold Codec.decode at hx
    split at hx
    · cases hx
    · rename_i h1
      split at hx
      · cases hx
      · rename_i h2
        split at hx
        · cases hx
        · rename_i h3
          split at hx
          · cases hx
          · rename_i h4
            rw [not_not] at h2 h4
            have hall : ∀ i ∈ items, ∃ f ∈ C.fields, f.allows i = true := by
              rw [List.find?_eq_none] at h1
              intro i hi
              simpa using h1 i hi
            have hle := attrs_le_one.1 h2
            have hok := (decodeFields_ok hs (hfilter hall) (honce hall hle) _).1 ⟨x, hx⟩
            refine .intro (h4.trans hlab) ?_ hle ?_ ?_ ?_ ?_
            · intro n v hm
              obtain ⟨f, hf, ha⟩ := hall _ hm
              have h5 := allows_isAttr ha
              have h6 := allows_name ha
              exact ⟨f.tag, htag f hf, isAttr_iff.1 h5.symm, h6.symm, (hok f hf).1 h5.symm n v
                (List.mem_filter.2 ⟨hm, by simpa using h6⟩)⟩
            · intro t htm hk
              obtain ⟨f, hf, rfl⟩ := hfield t htm
              rw [attrs_eq_nil]
              rw [List.find?_eq_none] at h3
              have := h3 f hf
              simpa [hk] using this
            · intro n ls body hm
              obtain ⟨f, hf, ha⟩ := hall _ hm
              simp only [Field.allows, Bool.and_eq_true, decide_eq_true_eq] at ha
              exact ⟨f.tag, htag f hf, ha.1.1, ha.1.2⟩
            · intro t htm hk hp
              obtain ⟨f, hf, rfl⟩ := hfield t htm
              refine le_trans (List.Sublist.length_le ?_) (((hok f hf).2 hk).2 hp)
              rw [blocks]
              refine List.monotone_filter_right _ fun i hi => ?_
              simp only [Bool.and_eq_true] at hi
              exact hi.2
            · intro t htm hk ls body hm
              obtain ⟨f, hf, rfl⟩ := hfield t htm
              exact ((hok f hf).2 hk).1 f.tag.name ls body (List.mem_filter.2 ⟨hm, by simp [Item.name]⟩)
  · rintro ⟨hlabels, hattr, hle, hreq, hblock, hsingle, hbody⟩
    have hall : ∀ i ∈ items, ∃ f ∈ C.fields, f.allows i = true := by
      intro i hi
      cases i with
      | attr n v =>
        obtain ⟨t, htm, hk, rfl, -⟩ := hattr n v hi
        obtain ⟨f, hf, rfl⟩ := hfield t htm
        exact ⟨f, hf, by simp [Field.allows, isAttr_iff.2 hk]⟩
      | block n ls body =>
        obtain ⟨t, htm, hk, rfl⟩ := hblock n ls body hi
        obtain ⟨f, hf, rfl⟩ := hfield t htm
        refine ⟨f, hf, ?_⟩
        have hc := hbody f.tag htm hk ls body hi
        cases hc with
        | intro hl => simp [Field.allows, hk, hl, (hs f hf).elem hk]
    have h1 : items.find? (fun i => !C.fields.any fun f => f.allows i) = none := by
      rw [List.find?_eq_none]
      intro i hi
      simpa using hall i hi
    have h3 : C.fields.find? (fun f => f.tag.kind = b!"attr" &&
        !items.any fun i => i.isAttr && decide (i.name = f.tag.name)) = none := by
      rw [List.find?_eq_none]
      intro f hf
      by_cases hk : f.tag.kind = b!"attr"
      · have := attrs_eq_nil.1 (hreq f.tag (htag f hf) hk)
        rw [this]
        simp
      · simp [hk]
    unfold Codec.decode
    rw [h1]
    dsimp only
    rw [if_neg (not_not.2 (attrs_le_one.2 hle)), h3]
    dsimp only
    rw [if_neg (not_not.2 (hlabels.trans hlab.symm))]
    rw [decodeFields_ok hs (hfilter hall) (honce hall hle)]
    intro f hf
    constructor
    · intro ha n v hm
      obtain ⟨hm, he⟩ := List.mem_filter.1 hm
      obtain ⟨t, htm, -, rfl, ho⟩ := hattr n v hm
      obtain ⟨g, hg, rfl⟩ := hfield t htm
      have : g = f := nodup_name hn' hg hf (of_decide_eq_true he)
      exact this ▸ ho
    · intro hk
      constructor
      · intro n ls body hm
        obtain ⟨hm, he⟩ := List.mem_filter.1 hm
        have : n = f.tag.name := of_decide_eq_true he
        subst this
        exact hbody f.tag (htag f hf) hk ls body hm
      · intro hp
        refine le_trans (le_of_eq ?_) (hsingle f.tag (htag f hf) hk hp)
        rw [blocks]
        congr 1
        refine List.filter_congr fun i hi => ?_
        by_cases he : i.name = f.tag.name
        · have := allows_isAttr (hfilter hall f hf i (List.mem_filter.2 ⟨hi, by simpa using he⟩))
          have hna : f.tag.isAttr = false := by simp [Tag.isAttr, hk]
          simp [this, hna, he]
        · simp [he]

/-! ## The kinds of fields -/

theorem ofLabel_strict {goName name : Str} {get : α → Str} {set : Str → α → α} :
    FieldStrict L (Field.ofLabel L goName name get set) where
  ok its acc ha ho := by
    simp only [Field.ofLabel, FieldOk, Tag.isAttr]
    simp
  elem h := by simp [Field.ofLabel] at h

/-- What can be decoded is what can be stored. -/
def AttrStrict (L : Lib F N) (A : Attr N β) : Prop :=
  ∀ v, (∃ x, (L.convert A.kind v).bind A.dec = some x) ↔ ∃ o, Stored L A.goType v o

theorem ofAttr_strict {goName name kind : Str} {A : Attr N β} {get : α → β} {set : β → α → α}
    (hA : AttrStrict L A) (hk : kind = b!"optional" ∨ kind = b!"attr") :
    FieldStrict L (Field.ofAttr L goName name kind A get set) where
  ok its acc ha ho := by
    have hat : (Field.ofAttr L goName name kind A get set).tag.isAttr = true := by
      rcases hk with rfl | rfl <;> simp [Field.ofAttr, Tag.isAttr]
    have hnb : (Field.ofAttr L goName name kind A get set).tag.kind ≠ b!"block" := by
      rcases hk with rfl | rfl <;> simp [Field.ofAttr]
    have hlen := ho hat
    match its, hlen with
    | [], _ => simp [Field.ofAttr, FieldOk]
    | [.block n ls b], _ =>
      have := allows_isAttr (ha (.block n ls b) (by simp))
      rw [hat] at this
      cases this
    | [.attr n v], _ =>
      have h1 : FieldOk L (Field.ofAttr L goName name kind A get set).tag [Item.attr n v] ↔
          ∃ o, Stored L A.goType v o := by
        constructor
        · intro h
          exact h.1 hat n v (by simp)
        · intro h
          refine ⟨fun _ n' v' hm => ?_, fun h => absurd h hnb⟩
          simp only [List.mem_singleton, Item.attr.injEq] at hm
          rw [hm.2]
          exact h
      rw [h1, ← hA v]
      simp only [Field.ofAttr]
      cases (L.convert A.kind v).bind A.dec <;> simp
  elem h := by rcases hk with rfl | rfl <;> simp [Field.ofAttr] at h

theorem decodeBlocks_ok {C : Codec N β} (hC : Strict L C) : ∀ its : List (Item N),
    (∀ i ∈ its, i.isAttr = false) →
    ((∃ xs, decodeBlocks C its = .ok xs) ↔ ∀ n ls b, Item.block n ls b ∈ its → Conforms L C.goName ls b)
  | [], _ => by simp [decodeBlocks]
  | .attr n v :: rest, h => by
    have := h (.attr n v) (by simp)
    cases this
  | .block n ls body :: rest, h => by
    have ih := decodeBlocks_ok hC rest fun i hi => h i (by simp [hi])
    have h1 := hC.2 ls body
    rw [decodeBlocks]
    have : (∀ n' ls' b', Item.block n' ls' b' ∈ Item.block n ls body :: rest → Conforms L C.goName ls' b') ↔
        Conforms L C.goName ls body ∧
          ∀ n' ls' b', Item.block n' ls' b' ∈ rest → Conforms L C.goName ls' b' := by
      constructor
      · intro h
        exact ⟨h n ls body (by simp), fun n' ls' b' hm => h n' ls' b' (by simp [hm])⟩
      · rintro ⟨h, h'⟩ n' ls' b' hm
        rcases List.mem_cons.1 hm with hm | hm
        · cases hm
          exact h
        · exact h' _ _ _ hm
    rw [this, ← h1, ← ih]
    cases C.decode ls body with
    | error e => simp
    | ok x =>
      cases decodeBlocks C rest with
      | error e => simp
      | ok xs => simp

theorem labels_tags {C : Codec N β} (hC : Strict L C) : (labelFields C.fields).length =
    ((tagsOf C.goName).filter fun t => t.kind = b!"label").length := by
  rw [← hC.1, List.filter_map, List.length_map]
  rfl

theorem allows_block {f : Field N α} {i : Item N} (hk : f.tag.kind = b!"block") (h : f.allows i = true) :
    i.isAttr = false := by
  rw [allows_isAttr h, Tag.isAttr, hk]
  decide

theorem ofBlocks_strict {goName name : Str} {C : Codec N β} {get : α → List β} {set : List β → α → α}
    (hC : Strict L C) : FieldStrict L (Field.ofBlocks goName name C get set) where
  ok its acc ha ho := by
    have h := decodeBlocks_ok hC its fun i hi => allows_block rfl (ha i hi)
    have h1 : FieldOk L (Field.ofBlocks goName name C get set).tag its ↔
        ∀ n ls b, Item.block n ls b ∈ its → Conforms L C.goName ls b := by
      simp [FieldOk, Field.ofBlocks, Tag.isAttr, elemOf]
    rw [h1, ← h]
    simp only [Field.ofBlocks]
    cases decodeBlocks C its <;> simp
  elem _ := labels_tags hC

theorem ofBlock_strict {goName name : Str} {C : Codec N β} {get : α → Option β} {set : Option β → α → α}
    (hC : Strict L C) : FieldStrict L (Field.ofBlock goName name C get set) where
  ok its acc ha ho := by
    have h1 : FieldOk L (Field.ofBlock goName name C get set).tag its ↔
        (∀ n ls b, Item.block n ls b ∈ its → Conforms L C.goName ls b) ∧ its.length ≤ 1 := by
      simp [FieldOk, Field.ofBlock, Tag.isAttr, elemOf]
    rw [h1]
    match its with
    | [] => simp [Field.ofBlock]
    | [.attr n v] =>
      have := allows_block rfl (ha (.attr n v) (by simp))
      cases this
    | [.block n ls body] =>
      have h2 : (∀ n' ls' b', Item.block n' ls' b' ∈ [Item.block n ls body] → Conforms L C.goName ls' b') ↔
          Conforms L C.goName ls body := by
        constructor
        · intro h
          exact h n ls body (by simp)
        · intro h n' ls' b' hm
          simp only [List.mem_singleton, Item.block.injEq] at hm
          rw [hm.2.1, hm.2.2]
          exact h
      rw [h2, ← hC.2]
      simp only [Field.ofBlock]
      cases C.decode ls body <;> simp
    | i :: j :: l => simp [Field.ofBlock]
  elem _ := labels_tags hC

/-! ## The types of attributes -/

theorem string_strict : AttrStrict L (.string L) := by
  intro v
  constructor
  · rintro ⟨x, hx⟩
    obtain ⟨w, hw, hd⟩ := Option.bind_eq_some_iff.1 hx
    cases w <;> cases hd
    exact ⟨_, .string hw⟩
  · rintro ⟨o, h⟩
    generalize ht : (Attr.string L).goType = t at h
    cases h <;> simp [Attr.string] at ht
    rename_i hw
    simp [Attr.string, hw]

theorem bool_strict : AttrStrict L .bool := by
  intro v
  constructor
  · rintro ⟨x, hx⟩
    obtain ⟨w, hw, hd⟩ := Option.bind_eq_some_iff.1 hx
    cases w <;> cases hd
    exact ⟨_, .bool hw⟩
  · rintro ⟨o, h⟩
    generalize ht : (Attr.bool (N := N)).goType = t at h
    cases h <;> simp [Attr.bool] at ht
    rename_i hw
    simp [Attr.bool, hw]

theorem int_strict : AttrStrict L (.int L b!"int64") := by
  intro v
  constructor
  · rintro ⟨x, hx⟩
    obtain ⟨w, hw, hd⟩ := Option.bind_eq_some_iff.1 hx
    cases w <;> try cases hd
    exact ⟨_, .int hw hd⟩
  · rintro ⟨o, h⟩
    generalize ht : (Attr.int L b!"int64").goType = t at h
    cases h <;> simp [Attr.int] at ht
    rename_i hw hi
    simp [Attr.int, hw, hi]

theorem ptrInt_strict : AttrStrict L (Attr.ptr (.int L b!"int")) := by
  intro v
  constructor
  · rintro ⟨x, hx⟩
    obtain ⟨w, hw, hd⟩ := Option.bind_eq_some_iff.1 hx
    cases w with
    | null => exact ⟨_, .noInt hw⟩
    | num n =>
      obtain ⟨i, hi, -⟩ := Option.map_eq_some_iff.1 hd
      exact ⟨_, .someInt hw hi⟩
    | _ => cases hd
  · rintro ⟨o, h⟩
    generalize ht : (Attr.ptr (.int L b!"int")).goType = t at h
    cases h <;> simp [Attr.int, Attr.ptr] at ht
    · rename_i hw
      simp [Attr.int, Attr.ptr, hw]
    · rename_i hw hi
      simp [Attr.int, Attr.ptr, hw, hi]

theorem ptrBool_strict : AttrStrict L (Attr.ptr .bool) := by
  intro v
  constructor
  · rintro ⟨x, hx⟩
    obtain ⟨w, hw, hd⟩ := Option.bind_eq_some_iff.1 hx
    cases w with
    | null => exact ⟨_, .noBool hw⟩
    | bool n => exact ⟨_, .someBool hw⟩
    | _ => cases hd
  · rintro ⟨o, h⟩
    generalize ht : (Attr.ptr (Attr.bool (N := N))).goType = t at h
    cases h <;> simp [Attr.bool, Attr.ptr] at ht
    · rename_i hw
      simp [Attr.bool, Attr.ptr, hw]
    · rename_i hw
      simp [Attr.bool, Attr.ptr, hw]

theorem ptrFloat_strict : AttrStrict L (Attr.ptr (.float L)) := by
  intro v
  constructor
  · rintro ⟨x, hx⟩
    obtain ⟨w, hw, hd⟩ := Option.bind_eq_some_iff.1 hx
    cases w with
    | null => exact ⟨_, .noFloat hw⟩
    | num n =>
      obtain ⟨i, hi, -⟩ := Option.map_eq_some_iff.1 hd
      exact ⟨_, .someFloat hw hi⟩
    | _ => cases hd
  · rintro ⟨o, h⟩
    generalize ht : (Attr.ptr (.float L)).goType = t at h
    cases h <;> simp [Attr.float, Attr.ptr] at ht
    · rename_i hw
      simp [Attr.float, Attr.ptr, hw]
    · rename_i hw hi
      simp [Attr.float, Attr.ptr, hw, hi]

/-- Decoding a list of texts. -/
def texts : List (Value N) → Option (List Str) := fun l => l.mapM fun v => match v with
  | .str s => some s
  | _ => none

theorem texts_map {N : Type} : ∀ l : List Str, texts (l.map Value.str : List (Value N)) = some l
  | [] => rfl
  | s :: l => by
    have := @texts_map N l
    simp only [texts] at this ⊢
    simp [this]

theorem texts_some : ∀ {l : List (Value N)} {ss : List Str}, texts l = some ss → l = ss.map Value.str
  | [], ss, h => by
    cases h
    rfl
  | v :: l, ss, h => by
    cases v <;> simp only [texts, List.mapM_cons] at h <;> try cases h
    obtain ⟨x, hx, h⟩ := Option.bind_eq_some_iff.1 h
    obtain ⟨y, hy, h⟩ := Option.bind_eq_some_iff.1 h
    cases hx
    cases h
    rw [texts_some (l := l) hy]
    rfl

theorem strings_strict : AttrStrict L (.strings L) := by
  intro v
  constructor
  · rintro ⟨x, hx⟩
    obtain ⟨w, hw, hd⟩ := Option.bind_eq_some_iff.1 hx
    cases w with
    | null => exact ⟨_, .noStrings hw (.inl rfl) (.inl rfl)⟩
    | list l =>
      have hl := texts_some (l := l) hd
      cases x with
      | nil =>
        rw [hl] at hw
        exact ⟨_, .noStrings hw (.inr rfl) (.inl rfl)⟩
      | cons s x =>
        rw [hl] at hw
        exact ⟨_, .strings hw⟩
    | _ => cases hd
  · rintro ⟨o, h⟩
    generalize ht : (Attr.strings L).goType = t at h
    cases h <;> simp [Attr.strings] at ht
    · rename_i he _ hw
      rcases he with rfl | rfl
      · exact ⟨[], by simp [Attr.strings, hw]⟩
      · exact ⟨[], by simp [Attr.strings, hw]⟩
    · rename_i s l hw
      refine ⟨s :: l, ?_⟩
      simp only [Attr.strings, hw, Option.bind_some]
      exact texts_map (s :: l)

end

end Verif.Hcl
