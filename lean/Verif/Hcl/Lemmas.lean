import Verif.Hcl.Ddl
import Mathlib.Data.List.Basic
import Mathlib.Data.List.Nodup

/-!
# Lemmas about encoding and decoding
-/

namespace Verif.Hcl
open Verif

section
variable {F N α β : Type}

/-- What a field does to a value it has written itself: `put a acc` is `acc` with the field of `a`,
for the values in `P`. -/
structure FieldLaw (f : Field N α) (P : α → Prop) (put : α → α → α) : Prop where
  allowed : ∀ a, ∀ i ∈ f.items a, f.allows i = true
  once : f.tag.isAttr = true → ∀ a, (f.items a).length ≤ 1
  required : f.tag.kind = b!"attr" → ∀ a, f.items a ≠ []
  label : ∀ a, (f.label a).length = if f.tag.kind = b!"label" then 1 else 0
  decode : ∀ a, P a → ∀ acc, f.decode (f.items a) acc = .ok (put a acc)

inductive Lawful : List (Field N α) → (α → Prop) → (α → α → α) → Prop where
  | nil : Lawful [] (fun _ => True) (fun _ acc => acc)
  | cons {f : Field N α} {fs : List (Field N α)} {P Ps : α → Prop} {put puts : α → α → α} :
    FieldLaw f P put → Lawful fs Ps puts →
      Lawful (f :: fs) (fun a => P a ∧ Ps a) (fun a acc => puts a (put a acc))

theorem allows_name {f : Field N α} {i : Item N} (h : f.allows i = true) : i.name = f.tag.name := by
  cases i <;> simp_all [Field.allows, Item.name]

theorem allows_isAttr {f : Field N α} {i : Item N} (h : f.allows i = true) :
    i.isAttr = f.tag.isAttr := by
  cases i with
  | attr n v => simp_all [Field.allows, Item.isAttr]
  | block t ls b =>
    simp only [Field.allows, Bool.and_eq_true, decide_eq_true_eq] at h
    simp only [Item.isAttr, Tag.isAttr, h.1.1]
    decide

theorem Lawful.mem {fs : List (Field N α)} {P : α → Prop} {puts : α → α → α} (h : Lawful fs P puts) :
    ∀ f ∈ fs, ∃ Q put, FieldLaw f Q put ∧ ∀ a, P a → Q a := by
  induction h with
  | nil => simp
  | @cons f fs P Ps put puts h1 h2 ih =>
    intro g hg
    rcases List.mem_cons.1 hg with rfl | hg
    · exact ⟨P, put, h1, fun a h => h.1⟩
    · obtain ⟨Q, p, h, hQ⟩ := ih g hg
      exact ⟨Q, p, h, fun a h => hQ a h.2⟩

/-- The items of one field are found by its name. -/
theorem filter_items {a : α} : ∀ {fs : List (Field N α)}, (∀ f ∈ fs, ∀ i ∈ f.items a, i.name = f.tag.name) →
    (fs.map (·.tag.name)).Nodup → ∀ f ∈ fs,
    (fs.flatMap fun f => f.items a).filter (fun i => decide (i.name = f.tag.name)) = f.items a := by
  intro fs
  induction fs with
  | nil => simp
  | cons g fs ih =>
    intro hn hd f hf
    rw [List.map_cons, List.nodup_cons] at hd
    rw [List.flatMap_cons, List.filter_append]
    rcases List.mem_cons.1 hf with rfl | hf
    · have h1 : (f.items a).filter (fun i => decide (i.name = f.tag.name)) = f.items a :=
        List.filter_eq_self.2 fun i hi => by simpa using hn f (by simp) i hi
      have h2 : (fs.flatMap fun f => f.items a).filter (fun i => decide (i.name = f.tag.name)) = [] := by
        rw [List.filter_eq_nil_iff]
        intro i hi
        obtain ⟨g, hg, hi⟩ := List.mem_flatMap.1 hi
        rw [hn g (by simp [hg]) i hi]
        simp only [decide_eq_true_eq]
        intro h
        exact hd.1 (h ▸ List.mem_map_of_mem hg)
      rw [h1, h2, List.append_nil]
    · have h1 : (g.items a).filter (fun i => decide (i.name = f.tag.name)) = [] := by
        rw [List.filter_eq_nil_iff]
        intro i hi
        rw [hn g (by simp) i hi]
        simp only [decide_eq_true_eq]
        intro h
        exact hd.1 (h ▸ List.mem_map_of_mem hf)
      rw [h1, List.nil_append]
      exact ih (fun f hf => hn f (by simp [hf])) hd.2 f hf

theorem decodeFields_puts {its : List (Item N)} {a : α} {fs : List (Field N α)} {P : α → Prop}
    {puts : α → α → α} (h : Lawful fs P puts) (hP : P a)
    (hf : ∀ f ∈ fs, its.filter (fun i => decide (i.name = f.tag.name)) = f.items a) :
    ∀ acc, decodeFields its fs acc = .ok (puts a acc) := by
  induction h with
  | nil => intro acc; rfl
  | cons h1 h2 ih =>
    intro acc
    rw [decodeFields, hf _ (by simp), h1.decode a hP.1]
    exact ih hP.2 (fun f hf' => hf f (by simp [hf'])) _

theorem attrs_nodup {a : α} : ∀ {fs : List (Field N α)},
    (∀ f ∈ fs, (∀ i ∈ f.items a, f.allows i = true) ∧ (f.tag.isAttr = true → (f.items a).length ≤ 1)) →
    (fs.map (·.tag.name)).Nodup →
    (((fs.flatMap fun f => f.items a).filter Item.isAttr).map Item.name).Nodup := by
  intro fs
  induction fs with
  | nil => simp
  | cons f fs ih =>
    intro h hd
    rw [List.map_cons, List.nodup_cons] at hd
    rw [List.flatMap_cons, List.filter_append, List.map_append, List.nodup_append]
    refine ⟨?_, ih (fun f hf => h f (by simp [hf])) hd.2, ?_⟩
    · obtain ⟨h1, h2⟩ := h f (by simp)
      by_cases ha : f.tag.isAttr = true
      · have := h2 ha
        match hi : f.items a with
        | [] => simp
        | [i] => by_cases hx : i.isAttr <;> simp [List.filter, hx]
        | i :: j :: l => rw [hi] at this; simp at this
      · have : (f.items a).filter Item.isAttr = [] := by
          rw [List.filter_eq_nil_iff]
          intro i hi
          rw [allows_isAttr (h1 i hi)]
          exact ha
        rw [this]
        simp
    · rintro n hn m hm rfl
      obtain ⟨i, hi, rfl⟩ := List.mem_map.1 hn
      obtain ⟨j, hj, he⟩ := List.mem_map.1 hm
      obtain ⟨g, hg, hj⟩ := List.mem_flatMap.1 (List.mem_filter.1 hj).1
      rw [allows_name ((h f (by simp)).1 i (List.mem_filter.1 hi).1),
        allows_name ((h g (by simp [hg])).1 j hj)] at he
      exact hd.1 (he ▸ List.mem_map_of_mem hg)

theorem labels_length {a : α} : ∀ {fs : List (Field N α)},
    (∀ f ∈ fs, (f.label a).length = if f.tag.kind = b!"label" then 1 else 0) →
    (fs.flatMap fun f => f.label a).length = (labelFields fs).length := by
  intro fs
  induction fs with
  | nil => simp [labelFields]
  | cons f fs ih =>
    intro h
    rw [List.flatMap_cons, List.length_append, ih fun f hf => h f (by simp [hf]), h f (by simp)]
    unfold labelFields
    by_cases hk : f.tag.kind = b!"label"
    · rw [List.filter_cons_of_pos (by simpa using hk), if_pos hk, List.length_cons]; omega
    · rw [List.filter_cons_of_neg (by simpa using hk), if_neg hk]; omega

/-- A struct is read back, up to `norm`. -/
structure Law (C : Codec N α) (P : α → Prop) (norm : α → α) : Prop where
  labels : ∀ a, (C.labels a).length = (labelFields C.fields).length
  decode : ∀ a, P a → C.decode (C.labels a) (C.items a) = .ok (norm a)

theorem Codec.law {C : Codec N α} {P : α → Prop} {puts : α → α → α} {norm : α → α}
    (h : Lawful C.fields P puts) (hn : (C.fields.map (·.tag.name)).Nodup)
    (hp : ∀ a, puts a (setLabels (labelFields C.fields) (C.labels a) C.zero) = norm a) :
    Law C P norm := by
  have hl : ∀ a, (C.labels a).length = (labelFields C.fields).length := fun a =>
    labels_length fun f hf => by
      obtain ⟨Q, put, h, -⟩ := h.mem f hf
      exact h.label a
  refine ⟨hl, fun a hP => ?_⟩
  have hm : ∀ f ∈ C.fields, (∀ i ∈ f.items a, f.allows i = true) ∧
      (f.tag.isAttr = true → (f.items a).length ≤ 1) := fun f hf => by
    obtain ⟨Q, put, h, -⟩ := h.mem f hf
    exact ⟨h.allowed a, fun ha => h.once ha a⟩
  unfold Codec.decode
  have h1 : (C.items a).find? (fun i => !C.fields.any fun f => f.allows i) = none := by
    rw [List.find?_eq_none]
    intro i hi
    obtain ⟨f, hf, hi⟩ := List.mem_flatMap.1 hi
    simp only [Bool.not_eq_true', Bool.not_eq_false, List.any_eq_true]
    exact ⟨f, hf, (hm f hf).1 i hi⟩
  rw [h1]
  dsimp only
  have h0 : (((C.items a).filter Item.isAttr).map Item.name).Nodup := attrs_nodup hm hn
  rw [if_neg (not_not.2 h0)]
  have h2 : C.fields.find? (fun f => f.tag.kind = b!"attr" &&
      !(C.items a).any fun i => i.isAttr && decide (i.name = f.tag.name)) = none := by
    rw [List.find?_eq_none]
    intro f hf
    simp only [Bool.and_eq_true, decide_eq_true_eq, Bool.not_eq_true', not_and, Bool.not_eq_false,
      List.any_eq_true]
    intro hk
    obtain ⟨Q, put, h, -⟩ := h.mem f hf
    obtain ⟨i, hi⟩ := List.exists_mem_of_ne_nil _ (h.required hk a)
    refine ⟨i, List.mem_flatMap.2 ⟨f, hf, hi⟩, ?_, allows_name (h.allowed a i hi)⟩
    rw [allows_isAttr (h.allowed a i hi), Tag.isAttr, hk]
    decide
  rw [h2]
  dsimp only
  rw [if_neg (not_not.2 (hl a))]
  have h3 : ∀ f ∈ C.fields, (C.items a).filter (fun i => decide (i.name = f.tag.name)) = f.items a :=
    fun f hf => filter_items (fun f hf i hi => allows_name ((hm f hf).1 i hi)) hn f hf
  rw [decodeFields_puts h hP h3, hp]

/-! ## The kinds of fields -/

/-- How an attribute is read back. -/
structure AttrLaw (L : Lib F N) (A : Attr N β) (P : β → Prop) (norm : β → β) : Prop where
  some : ∀ x v, A.enc x = some v → P x → (L.convert A.kind v).bind A.dec = some (norm x)

theorem ofAttr_law {L : Lib F N} {goName name kind : Str} {A : Attr N β} {get : α → β}
    {set : β → α → α} {P : β → Prop} {norm : β → β} (hA : AttrLaw L A P norm)
    (hk : kind = b!"optional" ∨ (kind = b!"attr" ∧ ∀ x, A.enc x ≠ none))
    (hs : ∀ a, set (get a) a = a) :
    FieldLaw (Field.ofAttr L goName name kind A get set) (fun a => P (get a))
      (fun a acc => set ((A.enc (get a)).elim (get acc) fun _ => norm (get a)) acc) where
  allowed a i hi := by
    simp only [Field.ofAttr] at hi
    split at hi
    · cases hi
    · simp only [List.mem_singleton] at hi
      subst hi
      rcases hk with rfl | ⟨rfl, -⟩ <;> simp [Field.allows, Field.ofAttr, Tag.isAttr]
  once _ a := by
    simp only [Field.ofAttr]
    split <;> simp
  required h a := by
    simp only [Field.ofAttr] at h ⊢
    rcases hk with rfl | ⟨-, hk⟩
    · exact absurd h (by decide)
    · split
      · rename_i he
        exact absurd he (hk _)
      · simp
  label a := by
    rcases hk with rfl | ⟨rfl, -⟩ <;> simp [Field.ofAttr]
  decode a hP acc := by
    simp only [Field.ofAttr]
    cases he : A.enc (get a) with
    | none => simp [hs]
    | some v => simp only [Option.elim]; rw [hA.some _ _ he hP]

theorem ofLabel_law {L : Lib F N} {goName name : Str} {get : α → Str} {set : Str → α → α} :
    FieldLaw (Field.ofLabel L goName name get set) (fun _ => True) (fun _ acc => acc) where
  allowed a i hi := by cases hi
  once _ a := by simp [Field.ofLabel]
  required h a := by exact absurd h (by simp only [Field.ofLabel]; decide)
  label a := by simp [Field.ofLabel]
  decode a _ acc := rfl

theorem decodeBlocks_map {C : Codec N β} {P : β → Prop} {norm : β → β} (hC : Law C P norm) (name : Str) :
    ∀ xs : List β, (∀ x ∈ xs, P x) →
      decodeBlocks C (xs.map fun x => .block name (C.labels x) (C.items x)) = .ok (xs.map norm)
  | [], _ => rfl
  | x :: xs, h => by
    rw [List.map_cons, decodeBlocks, hC.decode x (h x (by simp)),
      decodeBlocks_map hC name xs fun x hx => h x (by simp [hx])]
    rfl

theorem ofBlocks_law {goName name : Str} {C : Codec N β} {get : α → List β} {set : List β → α → α}
    {P : β → Prop} {norm : β → β} (hC : Law C P norm) :
    FieldLaw (Field.ofBlocks goName name C get set) (fun a => ∀ x ∈ get a, P x)
      (fun a acc => set ((get a).map norm) acc) where
  allowed a i hi := by
    simp only [Field.ofBlocks, List.mem_map] at hi
    obtain ⟨x, -, rfl⟩ := hi
    simp [Field.allows, Field.ofBlocks, hC.labels x]
  once h a := by simp [Field.ofBlocks, Tag.isAttr] at h
  required h a := by exact absurd h (by simp only [Field.ofBlocks]; decide)
  label a := by simp only [Field.ofBlocks]; rfl
  decode a hP acc := by
    simp only [Field.ofBlocks]
    rw [decodeBlocks_map hC name _ hP]

theorem ofBlock_law {goName name : Str} {C : Codec N β} {get : α → Option β} {set : Option β → α → α}
    {P : β → Prop} {norm : β → β} (hC : Law C P norm) (hs : ∀ a, set (get a) a = a) :
    FieldLaw (Field.ofBlock goName name C get set) (fun a => ∀ x, get a = some x → P x)
      (fun a acc => set ((get a).elim (get acc) fun x => some (norm x)) acc) where
  allowed a i hi := by
    simp only [Field.ofBlock, List.mem_map] at hi
    obtain ⟨x, -, rfl⟩ := hi
    simp [Field.allows, Field.ofBlock, hC.labels x]
  once h a := by simp [Field.ofBlock, Tag.isAttr] at h
  required h a := by exact absurd h (by simp only [Field.ofBlock]; decide)
  label a := by simp only [Field.ofBlock]; rfl
  decode a hP acc := by
    simp only [Field.ofBlock]
    cases hg : get a with
    | none => simp [hs]
    | some x =>
      simp only [Option.toList, List.map_cons, List.map_nil, hC.decode x (hP x hg), Option.elim]

end

end Verif.Hcl
