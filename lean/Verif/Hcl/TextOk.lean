import Verif.Hcl.TextSpec
import Verif.Hcl.Spec

/-!
# What is written of a database can be printed
-/

namespace Verif.Hcl
open Verif Read

section
variable {F N α β : Type} {L : Lib F N} {goName name kind goType : Str}

theorem bodyOk_iff {l : List (Item N)} : BodyOk l ↔ ∀ i ∈ l, ItemOk i := by
  induction l with
  | nil => simp [BodyOk]
  | cons i l ih => simp [BodyOk, ih]

theorem elemsUtf8_iff {l : List (Value N)} : ElemsUtf8 l ↔ ∀ v ∈ l, ValueUtf8 v := by
  induction l with
  | nil => simp [ElemsUtf8]
  | cons i l ih => simp [ElemsUtf8, ih]

/-- A struct whose labels and items can be printed. -/
def Codec.Ok (C : Codec N α) (a : α) : Prop := (∀ l ∈ C.labels a, Utf8.Valid l) ∧ BodyOk (C.items a)

/-- The same of a field. -/
def Field.Ok (f : Field N α) (a : α) : Prop := (∀ l ∈ f.label a, Utf8.Valid l) ∧ BodyOk (f.items a)

theorem codec_ok {C : Codec N α} {a : α} (h : ∀ f ∈ C.fields, f.Ok a) : C.Ok a := by
  constructor
  · intro l hl
    obtain ⟨f, hf, hl⟩ := List.mem_flatMap.1 hl
    exact (h f hf).1 l hl
  · rw [bodyOk_iff]
    intro i hi
    obtain ⟨f, hf, hi⟩ := List.mem_flatMap.1 hi
    exact bodyOk_iff.1 (h f hf).2 i hi

theorem ofLabel_ok {get : α → Str} {set : Str → α → α} {a : α} (h : Utf8.Valid (L.nfc (get a))) :
    (Field.ofLabel L goName name get set).Ok a :=
  ⟨by simpa [Field.ofLabel] using h, by simp [Field.ofLabel, BodyOk]⟩

theorem ofAttr_ok {A : Attr N β} {get : α → β} {set : β → α → α} {a : α} (hn : Ident name)
    (h : ∀ v, A.enc (get a) = some v → ValueUtf8 v) : (Field.ofAttr L goName name kind A get set).Ok a := by
  refine ⟨by simp [Field.ofAttr], ?_⟩
  simp only [Field.ofAttr]
  cases he : A.enc (get a) with
  | none => simp [BodyOk]
  | some v => simp [BodyOk, ItemOk, hn, h v he]

theorem string_ok {get : α → Str} {set : Str → α → α} {a : α} (hn : Ident name)
    (h : Utf8.Valid (L.nfc (get a))) : (Field.ofAttr L goName name kind (.string L) get set).Ok a :=
  ofAttr_ok hn fun v hv => by
    cases hv
    simpa [ValueUtf8] using h

theorem bool_ok {get : α → Bool} {set : Bool → α → α} {a : α} (hn : Ident name) :
    (Field.ofAttr L goName name kind .bool get set).Ok a :=
  ofAttr_ok hn fun v hv => by
    cases hv
    simp [ValueUtf8]

theorem int_ok {get : α → Int} {set : Int → α → α} {a : α} (hn : Ident name) :
    (Field.ofAttr L goName name kind (.int L goType) get set).Ok a :=
  ofAttr_ok hn fun v hv => by
    cases hv
    simp [ValueUtf8]

theorem strings_ok {get : α → List Str} {set : List Str → α → α} {a : α} (hn : Ident name)
    (h : ∀ s ∈ get a, Utf8.Valid (L.nfc s)) : (Field.ofAttr L goName name kind (.strings L) get set).Ok a :=
  ofAttr_ok hn fun v hv => by
    cases hv
    split
    · simp [ValueUtf8]
    · simp only [ValueUtf8, elemsUtf8_iff, List.mem_map]
      rintro v ⟨s, hs, rfl⟩
      simpa [ValueUtf8] using h s hs

theorem ptrBool_ok {get : α → Option Bool} {set : Option Bool → α → α} {a : α} (hn : Ident name) :
    (Field.ofAttr L goName name kind (Attr.ptr .bool) get set).Ok a :=
  ofAttr_ok hn fun v hv => by
    cases hg : get a with
    | none => rw [hg] at hv; cases hv
    | some x => rw [hg] at hv; cases hv; simp [ValueUtf8]

theorem ptrInt_ok {get : α → Option Int} {set : Option Int → α → α} {a : α} (hn : Ident name) :
    (Field.ofAttr L goName name kind (Attr.ptr (.int L goType)) get set).Ok a :=
  ofAttr_ok hn fun v hv => by
    cases hg : get a with
    | none => rw [hg] at hv; cases hv
    | some x => rw [hg] at hv; cases hv; simp [ValueUtf8]

theorem ptrFloat_ok {get : α → Option F} {set : Option F → α → α} {a : α} (hn : Ident name) :
    (Field.ofAttr L goName name kind (Attr.ptr (.float L)) get set).Ok a :=
  ofAttr_ok hn fun v hv => by
    cases hg : get a with
    | none => rw [hg] at hv; cases hv
    | some x => rw [hg] at hv; cases hv; simp [ValueUtf8]

theorem blocks_ok {C : Codec N β} {get : α → List β} {set : List β → α → α} {a : α} (hn : Ident name)
    (h : ∀ x ∈ get a, C.Ok x) : (Field.ofBlocks goName name C get set).Ok a := by
  refine ⟨by simp [Field.ofBlocks], ?_⟩
  rw [bodyOk_iff]
  simp only [Field.ofBlocks, List.mem_map]
  rintro i ⟨x, hx, rfl⟩
  rw [ItemOk]
  exact ⟨hn, h x hx⟩

theorem block_ok {C : Codec N β} {get : α → Option β} {set : Option β → α → α} {a : α} (hn : Ident name)
    (h : ∀ x ∈ get a, C.Ok x) : (Field.ofBlock goName name C get set).Ok a := by
  refine ⟨by simp [Field.ofBlock], ?_⟩
  rw [bodyOk_iff]
  simp only [Field.ofBlock, List.mem_map, Option.mem_toList]
  rintro i ⟨x, hx, rfl⟩
  rw [ItemOk]
  exact ⟨hn, h x hx⟩

theorem texts_imp {p q : Str → Prop} (hpq : ∀ s, p s → q s) {a : Database F} (h : databaseTexts p a) :
    databaseTexts q a := by
  obtain ⟨h1, h2, h3, h4, h5, h6, h7⟩ := h
  refine ⟨fun x hx => ?_, fun x hx => ?_, fun x hx => ?_, fun x hx => ?_, fun x hx => ?_, fun x hx => ?_,
    fun x hx => ?_⟩
  · obtain ⟨a1, a2⟩ := h1 x hx
    exact ⟨fun s hs => hpq s (a1 s hs), hpq _ a2⟩
  · obtain ⟨a1, a2, a3⟩ := h2 x hx
    exact ⟨hpq _ a1, hpq _ a2, hpq _ a3⟩
  · obtain ⟨a1, a2, a3, a4, a5, a6, a7⟩ := h3 x hx
    exact ⟨hpq _ a1, hpq _ a2, hpq _ a3, hpq _ a4, hpq _ a5, hpq _ a6, hpq _ a7⟩
  · obtain ⟨a1, a2, a3, a4, a5, a6⟩ := h4 x hx
    refine ⟨hpq _ a1, hpq _ a2, hpq _ a3, hpq _ a4, hpq _ a5, fun y hy => ?_⟩
    obtain ⟨a1, a2, a3⟩ := a6 y hy
    exact ⟨hpq _ a1, hpq _ a2, hpq _ a3⟩
  · obtain ⟨a1, a2, a3, a4, a5, a6, a7⟩ := h5 x hx
    refine ⟨hpq _ a1, hpq _ a2, hpq _ a3, hpq _ a4, fun y hy => ?_, fun y hy => ?_, fun y hy => ?_⟩
    · obtain ⟨a1, a2, a3, a4⟩ := a5 y hy
      exact ⟨hpq _ a1, hpq _ a2, hpq _ a3, hpq _ a4⟩
    · obtain ⟨a1, a2⟩ := a6 y hy
      exact ⟨hpq _ a1, hpq _ a2⟩
    · obtain ⟨a1, a2, a3, a4, a5, a6, a7⟩ := a7 y hy
      exact ⟨hpq _ a1, hpq _ a2, fun s hs => hpq s (a3 s hs), fun s hs => hpq s (a4 s hs), hpq _ a5, hpq _ a6,
        hpq _ a7⟩
  · obtain ⟨a1, a2, a3, a4, a5, a6⟩ := h6 x hx
    refine ⟨hpq _ a1, hpq _ a2, hpq _ a3, hpq _ a4, hpq _ a5, fun y hy => ?_⟩
    obtain ⟨a1, a2, a3⟩ := a6 y hy
    exact ⟨hpq _ a1, hpq _ a2, hpq _ a3⟩
  · obtain ⟨a1, a2, a3, a4, a5, a6⟩ := h7 x hx
    exact ⟨hpq _ a1, hpq _ a2, hpq _ a3, hpq _ a4, hpq _ a5, fun s hs => hpq s (a6 s hs)⟩

/-- Goes through the fields. -/
macro "fields_ok" : tactic => `(tactic| (
  apply codec_ok
  (repeat' refine List.forall_mem_cons.2 ⟨?_, ?_⟩)
  all_goals first
    | exact bool_ok (by decide)
    | exact int_ok (by decide)
    | exact ptrBool_ok (by decide)
    | exact ptrInt_ok (by decide)
    | exact ptrFloat_ok (by decide)
    | exact ofLabel_ok (by assumption)
    | exact string_ok (by decide) (by assumption)
    | exact strings_ok (by decide) (by assumption)
    | exact blocks_ok (by decide) (by assumption)
    | exact block_ok (by decide) (by assumption)
    | (intro _ h; cases h)))

abbrev U (L : Lib F N) : Str → Prop := fun s => Utf8.Valid (L.nfc s)

theorem parameters_ok {a : Pg.Parameters} (h : parametersTexts (U L) a) : (parameters L).Ok a := by
  obtain ⟨_, _⟩ := h
  fields_ok

theorem schema_ok {a : Pg.Schema} (h : schemaTexts (U L) a) : (schema L).Ok a := by
  obtain ⟨_, _, _⟩ := h
  fields_ok

theorem function_ok {a : Ddl.Function} (h : functionTexts (U L) a) : (function L).Ok a := by
  obtain ⟨_, _, _, _, _, _, _⟩ := h
  fields_ok

theorem sequenceOwner_ok {a : Pg.SequenceOwner} (h : sequenceOwnerTexts (U L) a) : (sequenceOwner L).Ok a := by
  obtain ⟨_, _, _⟩ := h
  fields_ok

theorem sequence_ok {a : Pg.Sequence} (h : sequenceTexts (U L) a) : (sequence L).Ok a := by
  obtain ⟨_, _, _, _, _, h⟩ := h
  have := fun x hx => sequenceOwner_ok (h x hx)
  fields_ok

theorem column_ok {a : Ddl.Column} (h : columnTexts (U L) a) : (column L).Ok a := by
  obtain ⟨_, _, _, _⟩ := h
  fields_ok

theorem check_ok {a : Ddl.Check} (h : checkTexts (U L) a) : (check L).Ok a := by
  obtain ⟨_, _⟩ := h
  fields_ok

theorem foreignKey_ok {a : Ddl.ForeignKey} (h : foreignKeyTexts (U L) a) : (foreignKey L).Ok a := by
  obtain ⟨_, _, _, _, _, _, _⟩ := h
  fields_ok

theorem tableStorageParameters_ok (a : Ddl.Params F) : (tableStorageParameters L).Ok a := by
  fields_ok

theorem table_ok {a : Table F} (h : tableTexts (U L) a) : (table L).Ok a := by
  obtain ⟨_, _, _, _, h1, h2, h3⟩ := h
  have := fun x hx => column_ok (h1 x hx)
  have := fun x hx => check_ok (h2 x hx)
  have := fun x hx => foreignKey_ok (h3 x hx)
  have := fun x (_ : x ∈ a.storageParameters) => tableStorageParameters_ok (L := L) x
  fields_ok

theorem indexKey_ok {a : Ddl.IndexKey} (h : indexKeyTexts (U L) a) : (indexKey L).Ok a := by
  obtain ⟨_, _, _⟩ := h
  fields_ok

theorem index_ok {a : Ddl.Index} (h : indexTexts (U L) a) : (index L).Ok a := by
  obtain ⟨_, _, _, _, _, h1⟩ := h
  have := fun x hx => indexKey_ok (h1 x hx)
  fields_ok

theorem trigger_ok {a : Ddl.Trigger} (h : triggerTexts (U L) a) : (trigger L).Ok a := by
  obtain ⟨_, _, _, _, _, _⟩ := h
  fields_ok

theorem database_ok {a : Database F} (h : databaseTexts (U L) a) : (database L).Ok a := by
  obtain ⟨h1, h2, h3, h4, h5, h6, h7⟩ := h
  have := fun x hx => parameters_ok (h1 x hx)
  have := fun x hx => schema_ok (h2 x hx)
  have := fun x hx => function_ok (h3 x hx)
  have := fun x hx => sequence_ok (h4 x hx)
  have := fun x hx => table_ok (h5 x hx)
  have := fun x hx => index_ok (h6 x hx)
  have := fun x hx => trigger_ok (h7 x hx)
  fields_ok

end

end Verif.Hcl
