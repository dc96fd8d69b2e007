import Verif.Hcl.StrictLemmas

/-!
# Lemmas: what is read is written again
-/

namespace Verif.Hcl
open Verif

section
variable {F N α β : Type} {L : Lib F N}

/-- Two blocks say the same. -/
def SameBlock (L : Lib F N) (goName : Str) (i i' : Item N) : Prop :=
  ∃ n ls b n' ls' b', i = .block n ls b ∧ i' = .block n' ls' b' ∧ Rewritten L goName ls b ls' b'

/-- What a field reads, it writes. -/
structure FieldKeeps (L : Lib F N) (zero : α) (f : Field N α) : Prop where
  allowed : ∀ a, ∀ i ∈ f.items a, f.allows i = true
  label : ∀ a, (f.label a).length = if f.tag.kind = b!"label" then 1 else 0
  absent : f.tag.isAttr = true → ∀ acc a, f.decode [] acc = .ok a → a = acc
  unset : f.tag.isAttr = true → ∃ o, Unset L f.tag.goType o ∧ f.items zero = o.toList.map (.attr f.tag.name)
  set : f.tag.isAttr = true → ∀ n v rest acc a, f.decode (.attr n v :: rest) acc = .ok a →
    ∃ o, Stored L f.tag.goType v o ∧ f.items a = o.toList.map (.attr f.tag.name)
  empty : f.tag.kind = b!"block" → f.items zero = []
  body : f.tag.kind = b!"block" → ∀ its acc a, (∀ i ∈ its, f.allows i = true) → f.items acc = [] →
    f.decode its acc = .ok a → List.Forall₂ (SameBlock L (elemOf f.tag.goType)) its (f.items a)

/-- A field leaves the other fields and the labels alone. -/
def Frame (C : Codec N α) (f : Field N α) : Prop :=
  ∀ its acc a, f.decode its acc = .ok a →
    ((C.fields.filter fun g => g.tag.name ≠ f.tag.name).map (·.items a) =
      (C.fields.filter fun g => g.tag.name ≠ f.tag.name).map (·.items acc)) ∧ C.labels a = C.labels acc

theorem Frame.items {C : Codec N α} {f g : Field N α} (h : Frame C f) (hg : g ∈ C.fields)
    (hn : g.tag.name ≠ f.tag.name) {its : List (Item N)} {acc a : α} (hd : f.decode its acc = .ok a) :
    g.items a = g.items acc := by
  have := List.map_inj_left.1 (h its acc a hd).1 g (List.mem_filter.2 ⟨hg, by simpa using hn⟩)
  exact this

theorem decodeFields_others {C : Codec N α} {its : List (Item N)} : ∀ {fs : List (Field N α)},
    (∀ f ∈ fs, Frame C f) → ∀ {acc a : α}, decodeFields its fs acc = .ok a →
    (∀ g ∈ C.fields, g.tag.name ∉ fs.map (·.tag.name) → g.items a = g.items acc) ∧
      C.labels a = C.labels acc := by
  intro fs
  induction fs with
  | nil =>
    intro _ acc a h
    cases h
    exact ⟨fun _ _ _ => rfl, rfl⟩
  | cons f fs ih =>
    intro hF acc a h
    rw [decodeFields] at h
    split at h
    · cases h
    · rename_i a1 hd
      obtain ⟨h1, h2⟩ := ih (fun f hf => hF f (by simp [hf])) h
      refine ⟨fun g hg hn => ?_, h2.trans (hF f (by simp) _ _ _ hd).2⟩
      rw [List.map_cons, List.mem_cons, not_or] at hn
      rw [h1 g hg hn.2]
      exact (hF f (by simp)).items hg hn.1 hd

theorem decodeFields_each {C : Codec N α} {its : List (Item N)} : ∀ {fs : List (Field N α)},
    (∀ f ∈ fs, Frame C f) → (∀ f ∈ fs, f ∈ C.fields) → (fs.map (·.tag.name)).Nodup →
    ∀ {acc a : α}, decodeFields its fs acc = .ok a → ∀ f ∈ fs, ∃ acc1 a1,
      f.items acc1 = f.items acc ∧
      f.decode (its.filter fun i => decide (i.name = f.tag.name)) acc1 = .ok a1 ∧
      f.items a = f.items a1 := by
  intro fs
  induction fs with
  | nil => intro _ _ _ acc a _ f hf; cases hf
  | cons f fs ih =>
    intro hF hm hn acc a h g hg
    rw [List.map_cons, List.nodup_cons] at hn
    rw [decodeFields] at h
    split at h
    · cases h
    · rename_i a1 hd
      have hF' := fun f hf => hF f (List.mem_cons_of_mem _ hf)
      rcases List.mem_cons.1 hg with rfl | hg
      · exact ⟨acc, a1, rfl, hd, (decodeFields_others hF' h).1 g (hm g (by simp)) hn.1⟩
      · obtain ⟨acc1, a2, h1, h2, h3⟩ := ih hF' (fun f hf => hm f (by simp [hf])) hn.2 h g hg
        refine ⟨acc1, a2, h1.trans ?_, h2, h3⟩
        refine (hF f (by simp)).items (hm g (by simp [hg])) ?_ hd
        intro he
        exact hn.1 (he ▸ List.mem_map_of_mem hg)

def Keeps (L : Lib F N) (C : Codec N α) : Prop :=
  (∀ x, (C.labels x).length = (labelFields C.fields).length) ∧
  ∀ labels items x, C.decode labels items = .ok x →
    Rewritten L C.goName labels items (C.labels x) (C.items x)

theorem decode_ok {C : Codec N α} {labels : List Str} {items : List (Item N)} {x : α}
    (h : C.decode labels items = .ok x) : (∀ i ∈ items, ∃ f ∈ C.fields, f.allows i = true) ∧
      (∀ n, (attrs items n).length ≤ 1) ∧ labels.length = (labelFields C.fields).length ∧
      decodeFields items C.fields (setLabels (labelFields C.fields) labels C.zero) = .ok x := by
  unfold Codec.decode at h
  split at h
  · cases h
  · rename_i h1
    split at h
    · cases h
    · rename_i h2
      split at h
      · cases h
      · split at h
        · cases h
        · rename_i h4
          rw [not_not] at h2 h4
          refine ⟨fun i hi => ?_, attrs_le_one.1 h2, h4, h⟩
          rw [List.find?_eq_none] at h1
          simpa using h1 i hi

theorem Codec.keeps {C : Codec N α} (ht : C.fields.map (·.tag) = tagsOf C.goName)
    (hn : ((tagsOf C.goName).map (·.name)).Nodup) (hk : ∀ f ∈ C.fields, FieldKeeps L C.zero f)
    (hF : ∀ f ∈ C.fields, Frame C f)
    (hl : ∀ ls, ls.length = (labelFields C.fields).length →
      C.labels (setLabels (labelFields C.fields) ls C.zero) = ls.map L.nfc ∧
      C.fields.map (·.items (setLabels (labelFields C.fields) ls C.zero)) = C.fields.map (·.items C.zero)) :
    Keeps L C := by
  refine ⟨fun x => labels_length fun f hf => (hk f hf).label x, fun labels items x hd => ?_⟩
  obtain ⟨hall, hle, hlen, hd⟩ := decode_ok hd
  obtain ⟨hl1, hl2⟩ := hl labels hlen
  have hn' : (C.fields.map (·.tag.name)).Nodup := by
    rw [← ht, List.map_map] at hn
    exact hn
  have hfield : ∀ t ∈ tagsOf C.goName, ∃ f ∈ C.fields, f.tag = t := fun t h => by
    rw [← ht] at h
    exact List.mem_map.1 h
  have hallows : ∀ f ∈ C.fields, ∀ i ∈ items.filter (fun i => decide (i.name = f.tag.name)),
      f.allows i = true := by
    intro f hf i hi
    obtain ⟨hi, he⟩ := List.mem_filter.1 hi
    obtain ⟨g, hg, ha⟩ := hall i hi
    have : f = g := nodup_name hn' hf hg (by
      rw [← allows_name ha]
      exact (of_decide_eq_true he).symm)
    rw [this]
    exact ha
  have hw : ∀ f ∈ C.fields, (C.items x).filter (fun i => decide (i.name = f.tag.name)) = f.items x :=
    filter_items (fun f hf i hi => allows_name ((hk f hf).allowed x i hi)) hn'
  have sub : ∀ (its : List (Item N)) (f : Field N α),
      (∀ i ∈ its.filter (fun i => decide (i.name = f.tag.name)), f.allows i = true) →
      (f.tag.isAttr = true →
        attrs its f.tag.name = its.filter fun i => decide (i.name = f.tag.name)) ∧
      (f.tag.kind = b!"block" →
        blocks its f.tag.name = its.filter fun i => decide (i.name = f.tag.name)) := by
    intro its f h
    have key : ∀ i ∈ its, i.name = f.tag.name → i.isAttr = f.tag.isAttr := fun i hi he =>
      allows_isAttr (h i (List.mem_filter.2 ⟨hi, by simpa using he⟩))
    constructor
    · intro ha
      refine List.filter_congr fun i hi => ?_
      by_cases he : i.name = f.tag.name
      · simp [key i hi he, ha, he]
      · simp [he]
    · intro hb
      have hna : f.tag.isAttr = false := by simp [Tag.isAttr, hb]
      refine List.filter_congr fun i hi => ?_
      by_cases he : i.name = f.tag.name
      · simp [key i hi he, hna, he]
      · simp [he]
  have hsub := fun f hf => sub items f (hallows f hf)
  have hsub' := fun f hf => sub (C.items x) f (by rw [hw f hf]; exact (hk f hf).allowed x)
  have each := fun f hf => decodeFields_each hF (fun _ h => h) hn' hd f hf
  have hzero : ∀ f ∈ C.fields, f.items (setLabels (labelFields C.fields) labels C.zero) = f.items C.zero :=
    fun f hf => List.map_inj_left.1 hl2 f hf
  have hblocks : ∀ f ∈ C.fields, f.tag.kind = b!"block" →
      List.Forall₂ (SameBlock L (elemOf f.tag.goType)) (blocks items f.tag.name)
        (blocks (C.items x) f.tag.name) := by
    intro f hf hb
    obtain ⟨acc1, a1, h1, h2, h3⟩ := each f hf
    rw [(hsub f hf).2 hb, (hsub' f hf).2 hb, hw f hf, h3]
    exact (hk f hf).body hb _ _ _ (hallows f hf) (by rw [h1, hzero f hf]; exact (hk f hf).empty hb) h2
  refine .intro ?_ ?_ ?_ ?_ ?_
  · rw [(decodeFields_others hF hd).2, hl1]
  · intro t htm hka v hv
    obtain ⟨f, hf, rfl⟩ := hfield t htm
    have ha := isAttr_iff.2 hka
    obtain ⟨acc1, a1, h1, h2, h3⟩ := each f hf
    rw [(hsub' f hf).1 ha, hw f hf, h3]
    have hone := hle f.tag.name
    rw [(hsub f hf).1 ha] at hone
    have hv' : Item.attr f.tag.name v ∈ items.filter (fun i => decide (i.name = f.tag.name)) :=
      List.mem_filter.2 ⟨hv, by simp [Item.name]⟩
    generalize items.filter (fun i => decide (i.name = f.tag.name)) = l at hone hv' h2
    match l, hone with
    | [], _ => cases hv'
    | [i], _ =>
      rw [List.mem_singleton] at hv'
      rw [← hv'] at h2
      exact (hk f hf).set ha _ _ _ _ _ h2
    | i :: j :: l, h => exact absurd h (by simp)
  · intro t htm hka hnil
    obtain ⟨f, hf, rfl⟩ := hfield t htm
    have ha := isAttr_iff.2 hka
    obtain ⟨acc1, a1, h1, h2, h3⟩ := each f hf
    rw [(hsub' f hf).1 ha, hw f hf, h3]
    rw [(hsub f hf).1 ha] at hnil
    rw [hnil] at h2
    rw [(hk f hf).absent ha _ _ h2, h1, hzero f hf]
    exact (hk f hf).unset ha
  · intro t htm hb
    obtain ⟨f, hf, rfl⟩ := hfield t htm
    exact (hblocks f hf hb).length_eq.symm
  · intro t htm hb k n n' ls ls' body body' h1 h2
    obtain ⟨f, hf, rfl⟩ := hfield t htm
    have hz := hblocks f hf hb
    obtain ⟨hk1, e1⟩ := List.getElem?_eq_some_iff.1 h1
    obtain ⟨hk2, e2⟩ := List.getElem?_eq_some_iff.1 h2
    have := List.Forall₂.get hz hk1 hk2
    simp only [List.get_eq_getElem] at this
    rw [e1, e2] at this
    obtain ⟨_, _, _, _, _, _, he1, he2, hr⟩ := this
    cases he1
    cases he2
    exact hr

/-! ## The kinds of fields -/

theorem ofLabel_keeps {goName name : Str} {get : α → Str} {set : Str → α → α} {zero : α} :
    FieldKeeps L zero (Field.ofLabel L goName name get set) where
  allowed a i hi := by cases hi
  label a := by simp [Field.ofLabel]
  absent h := by simp [Field.ofLabel, Tag.isAttr] at h
  unset h := by simp [Field.ofLabel, Tag.isAttr] at h
  set h := by simp [Field.ofLabel, Tag.isAttr] at h
  empty h := by simp [Field.ofLabel] at h
  body h := by simp [Field.ofLabel] at h

theorem ofLabel_frame {C : Codec N α} {goName name : Str} {get : α → Str} {set : Str → α → α} :
    Frame C (Field.ofLabel L goName name get set) := by
  intro its acc a h
  cases h
  exact ⟨rfl, rfl⟩

/-- What an attribute reads, it writes. -/
def AttrKeeps (L : Lib F N) (A : Attr N β) : Prop :=
  ∀ v x, (L.convert A.kind v).bind A.dec = some x → Stored L A.goType v (A.enc x)

theorem ofAttr_keeps {goName name kind : Str} {A : Attr N β} {get : α → β} {set : β → α → α} {zero : α}
    (hA : AttrKeeps L A) (hk : kind = b!"optional" ∨ kind = b!"attr") (hs : ∀ x a, get (set x a) = x)
    (h0 : Unset L A.goType (A.enc (get zero))) :
    FieldKeeps L zero (Field.ofAttr L goName name kind A get set) := by
  have items : ∀ a, (Field.ofAttr L goName name kind A get set).items a =
      (A.enc (get a)).toList.map (.attr name) := by
    intro a
    simp only [Field.ofAttr]
    cases A.enc (get a) <;> rfl
  constructor
  case allowed =>
    intro a i hi
    rw [items, List.mem_map] at hi
    obtain ⟨v, -, rfl⟩ := hi
    rcases hk with rfl | rfl <;> simp [Field.allows, Field.ofAttr, Tag.isAttr]
  case label =>
    intro a
    rcases hk with rfl | rfl <;> simp [Field.ofAttr]
  case absent =>
    intro _ acc a h
    cases h
    rfl
  case unset =>
    intro _
    exact ⟨_, h0, items zero⟩
  case set =>
    intro _ n v rest acc a h
    simp only [Field.ofAttr] at h
    split at h
    · cases h
    · rename_i x hx
      cases h
      exact ⟨_, hA v x hx, by rw [items, hs]; rfl⟩
  case empty =>
    intro h
    rcases hk with rfl | rfl <;> simp [Field.ofAttr] at h
  case body =>
    intro h
    rcases hk with rfl | rfl <;> simp [Field.ofAttr] at h

theorem ofAttr_frame {C : Codec N α} {goName name kind : Str} {A : Attr N β} {get : α → β} {set : β → α → α}
    (h : ∀ x a, (C.fields.filter fun g => g.tag.name ≠ name).map (·.items (set x a)) =
      (C.fields.filter fun g => g.tag.name ≠ name).map (·.items a) ∧ C.labels (set x a) = C.labels a) :
    Frame C (Field.ofAttr L goName name kind A get set) := by
  intro its acc a hd
  simp only [Field.ofAttr] at hd
  split at hd
  · split at hd
    · cases hd
    · cases hd
      exact h _ _
  · cases hd
    exact ⟨rfl, rfl⟩

theorem decodeBlocks_keeps {C : Codec N β} (hC : Keeps L C) (name : Str) : ∀ its : List (Item N),
    (∀ i ∈ its, i.isAttr = false) → ∀ xs, decodeBlocks C its = .ok xs →
    List.Forall₂ (SameBlock L C.goName) its (xs.map fun x => .block name (C.labels x) (C.items x))
  | [], _, xs, h => by
    cases h
    exact .nil
  | .attr n v :: rest, h, xs, _ => by
    have := h (.attr n v) (by simp)
    cases this
  | .block n ls body :: rest, h, xs, hd => by
    rw [decodeBlocks] at hd
    split at hd
    · cases hd
    · rename_i x hx
      split at hd
      · cases hd
      · rename_i ys hys
        cases hd
        exact .cons ⟨n, ls, body, name, _, _, rfl, rfl, hC.2 _ _ _ hx⟩
          (decodeBlocks_keeps hC name rest (fun i hi => h i (by simp [hi])) ys hys)

theorem ofBlocks_keeps {goName name : Str} {C : Codec N β} {get : α → List β} {set : List β → α → α}
    {zero : α} (hC : Keeps L C) (hs : ∀ x a, get (set x a) = x) (h0 : get zero = []) :
    FieldKeeps L zero (Field.ofBlocks goName name C get set) where
  allowed a i hi := by
    simp only [Field.ofBlocks, List.mem_map] at hi
    obtain ⟨x, -, rfl⟩ := hi
    simp [Field.allows, Field.ofBlocks, hC.1 x]
  label a := by simp [Field.ofBlocks]
  absent h := by simp [Field.ofBlocks, Tag.isAttr] at h
  unset h := by simp [Field.ofBlocks, Tag.isAttr] at h
  set h := by simp [Field.ofBlocks, Tag.isAttr] at h
  empty _ := by simp [Field.ofBlocks, h0]
  body _ its acc a ha _ hd := by
    simp only [Field.ofBlocks] at hd
    split at hd
    · cases hd
    · rename_i xs hx
      cases hd
      have := decodeBlocks_keeps hC name its (fun i hi => allows_block rfl (ha i hi)) xs hx
      simp only [Field.ofBlocks, hs]
      exact this

theorem ofBlocks_frame {C : Codec N α} {goName name : Str} {D : Codec N β} {get : α → List β}
    {set : List β → α → α}
    (h : ∀ x a, (C.fields.filter fun g => g.tag.name ≠ name).map (·.items (set x a)) =
      (C.fields.filter fun g => g.tag.name ≠ name).map (·.items a) ∧ C.labels (set x a) = C.labels a) :
    Frame C (Field.ofBlocks goName name D get set) := by
  intro its acc a hd
  simp only [Field.ofBlocks] at hd
  split at hd
  · cases hd
  · cases hd
    exact h _ _

theorem ofBlock_keeps {goName name : Str} {C : Codec N β} {get : α → Option β} {set : Option β → α → α}
    {zero : α} (hC : Keeps L C) (hs : ∀ x a, get (set x a) = x) (h0 : get zero = none) :
    FieldKeeps L zero (Field.ofBlock goName name C get set) where
  allowed a i hi := by
    simp only [Field.ofBlock, List.mem_map] at hi
    obtain ⟨x, -, rfl⟩ := hi
    simp [Field.allows, Field.ofBlock, hC.1 x]
  label a := by simp [Field.ofBlock]
  absent h := by simp [Field.ofBlock, Tag.isAttr] at h
  unset h := by simp [Field.ofBlock, Tag.isAttr] at h
  set h := by simp [Field.ofBlock, Tag.isAttr] at h
  empty _ := by simp [Field.ofBlock, h0]
  body _ its acc a ha he hd := by
    match its, hd with
    | [], hd =>
      cases hd
      rw [he]
      exact .nil
    | [.attr n v], _ =>
      have := allows_block rfl (ha (.attr n v) (by simp))
      cases this
    | [.block n ls body], hd =>
      simp only [Field.ofBlock] at hd
      split at hd
      · cases hd
      · rename_i x hx
        cases hd
        simp only [Field.ofBlock, hs]
        exact .cons ⟨n, ls, body, name, _, _, rfl, rfl, hC.2 _ _ _ hx⟩ .nil
    | i :: j :: l, hd => cases i <;> cases hd

theorem ofBlock_frame {C : Codec N α} {goName name : Str} {D : Codec N β} {get : α → Option β}
    {set : Option β → α → α}
    (h : ∀ x a, (C.fields.filter fun g => g.tag.name ≠ name).map (·.items (set x a)) =
      (C.fields.filter fun g => g.tag.name ≠ name).map (·.items a) ∧ C.labels (set x a) = C.labels a) :
    Frame C (Field.ofBlock goName name D get set) := by
  intro its acc a hd
  simp only [Field.ofBlock] at hd
  split at hd
  · cases hd
    exact ⟨rfl, rfl⟩
  · split at hd
    · cases hd
    · cases hd
      exact h _ _
  · cases hd

/-! ## The types of attributes -/

theorem string_keeps : AttrKeeps L (.string L) := by
  intro v x hx
  obtain ⟨w, hw, hd⟩ := Option.bind_eq_some_iff.1 hx
  cases w <;> cases hd
  exact .string hw

theorem bool_keeps : AttrKeeps L .bool := by
  intro v x hx
  obtain ⟨w, hw, hd⟩ := Option.bind_eq_some_iff.1 hx
  cases w <;> cases hd
  exact .bool hw

theorem int_keeps : AttrKeeps L (.int L b!"int64") := by
  intro v x hx
  obtain ⟨w, hw, hd⟩ := Option.bind_eq_some_iff.1 hx
  cases w <;> try cases hd
  exact .int hw hd

theorem ptrInt_keeps : AttrKeeps L (Attr.ptr (.int L b!"int")) := by
  intro v x hx
  obtain ⟨w, hw, hd⟩ := Option.bind_eq_some_iff.1 hx
  cases w with
  | null =>
    cases hd
    exact .noInt hw
  | num n =>
    obtain ⟨i, hi, he⟩ := Option.map_eq_some_iff.1 hd
    cases he
    exact .someInt hw hi
  | _ => cases hd

theorem ptrBool_keeps : AttrKeeps L (Attr.ptr .bool) := by
  intro v x hx
  obtain ⟨w, hw, hd⟩ := Option.bind_eq_some_iff.1 hx
  cases w with
  | null =>
    cases hd
    exact .noBool hw
  | bool b =>
    cases hd
    exact .someBool hw
  | _ => cases hd

theorem ptrFloat_keeps : AttrKeeps L (Attr.ptr (.float L)) := by
  intro v x hx
  obtain ⟨w, hw, hd⟩ := Option.bind_eq_some_iff.1 hx
  cases w with
  | null =>
    cases hd
    exact .noFloat hw
  | num n =>
    obtain ⟨i, hi, he⟩ := Option.map_eq_some_iff.1 hd
    cases he
    exact .someFloat hw hi
  | _ => cases hd

theorem strings_keeps : AttrKeeps L (.strings L) := by
  intro v x hx
  obtain ⟨w, hw, hd⟩ := Option.bind_eq_some_iff.1 hx
  cases w with
  | null =>
    cases hd
    exact .noStrings hw (.inl rfl) (.inl rfl)
  | list l =>
    have hl := texts_some (l := l) hd
    cases x with
    | nil =>
      rw [hl] at hw
      exact .noStrings hw (.inr rfl) (.inl rfl)
    | cons s x =>
      rw [hl] at hw
      exact .strings hw
  | _ => cases hd

end

end Verif.Hcl
