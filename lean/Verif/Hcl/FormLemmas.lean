import Verif.Hcl.FormSpec
import Verif.Hcl.Spec
import Verif.Hcl.DocSpec
import Verif.Ddl.ParamsProps

/-!
# Lemmas: the form of a written document
-/

namespace Verif.Hcl
open Verif

section
variable {F N : Type}

theorem ptr_items (L : Lib F N) {α β : Type} {goName name kind : Str} {A : Attr N β} {get : α → Option β}
    {set : Option β → α → α} {w : β → Item N} (h : ∀ x, (A.enc x).map (Item.attr name) = some (w x)) (a : α) :
    (Field.ofAttr L goName name kind A.ptr get set).items a = Form.opt w (get a) := by
  simp only [Field.ofAttr, Attr.ptr]
  cases get a with
  | none => rfl
  | some x =>
    obtain ⟨v, hv, he⟩ := Option.map_eq_some_iff.1 (h x)
    simp only [Option.bind_some, hv, Form.opt, ← he]

theorem strings_items (L : Lib F N) {α : Type} {goName name kind : Str} {get : α → List Str}
    {set : List Str → α → α} (a : α) :
    (Field.ofAttr L goName name kind (.strings L) get set).items a = [Form.texts L name (get a)] := by
  simp only [Field.ofAttr, Attr.strings]
  cases get a <;> rfl

theorem storage_items (L : Lib F N) (p : Ddl.Params F) :
    Item.block b!"storage_parameters" [] ((tableStorageParameters L).items p) =
      Form.tableStorageParametersDoc L p := by
  simp only [Codec.items, tableStorageParameters, List.flatMap_cons, List.flatMap_nil,
    Form.tableStorageParametersDoc, List.append_assoc, List.append_nil]
  rw [ptr_items L (w := Form.int L b!"fillfactor") (fun _ => rfl),
    ptr_items L (w := Form.int L b!"parallel_workers") (fun _ => rfl),
    ptr_items L (w := Form.flag b!"autovacuum_enabled") (fun _ => rfl),
    ptr_items L (w := Form.int L b!"autovacuum_vacuum_threshold") (fun _ => rfl),
    ptr_items L (w := Form.float L b!"autovacuum_vacuum_scale_factor") (fun _ => rfl),
    ptr_items L (w := Form.int L b!"autovacuum_analyze_threshold") (fun _ => rfl),
    ptr_items L (w := Form.float L b!"autovacuum_analyze_scale_factor") (fun _ => rfl),
    ptr_items L (w := Form.int L b!"autovacuum_vacuum_cost_limit") (fun _ => rfl),
    ptr_items L (w := Form.int L b!"autovacuum_freeze_min_age") (fun _ => rfl),
    ptr_items L (w := Form.int L b!"autovacuum_freeze_max_age") (fun _ => rfl),
    ptr_items L (w := Form.int L b!"autovacuum_freeze_table_age") (fun _ => rfl),
    ptr_items L (w := Form.int L b!"autovacuum_multixact_freeze_min_age") (fun _ => rfl),
    ptr_items L (w := Form.int L b!"autovacuum_multixact_freeze_max_age") (fun _ => rfl),
    ptr_items L (w := Form.int L b!"autovacuum_multixact_freeze_table_age") (fun _ => rfl),
    ptr_items L (w := Form.int L b!"log_autovacuum_min_duration") (fun _ => rfl),
    ptr_items L (w := Form.flag b!"user_catalog_table") (fun _ => rfl)]

theorem foreignKey_items (L : Lib F N) (a : Ddl.ForeignKey) :
    Item.block b!"foreign_key" ((foreignKey L).labels a) ((foreignKey L).items a) = Form.foreignKeyDoc L a := by
  simp only [Codec.items, foreignKey, List.flatMap_cons, List.flatMap_nil, strings_items]
  rfl

theorem trigger_items (L : Lib F N) (a : Ddl.Trigger) :
    Item.block b!"trigger" ((trigger L).labels a) ((trigger L).items a) = Form.triggerDoc L a := by
  simp only [Codec.items, trigger, List.flatMap_cons, List.flatMap_nil, strings_items]
  rfl

theorem parameters_items (L : Lib F N) (a : Pg.Parameters) :
    Item.block b!"parameters" ((parameters L).labels a) ((parameters L).items a) = Form.parametersDoc L a := by
  simp only [Codec.items, parameters, List.flatMap_cons, List.flatMap_nil, strings_items]
  rfl

theorem sequence_items (L : Lib F N) (a : Pg.Sequence) :
    Item.block b!"sequence" ((sequence L).labels a) ((sequence L).items a) = Form.sequenceDoc L a := by
  simp only [Form.sequenceDoc]
  rw [← List.append_nil (a.ownedBy.toList.map _)]
  rfl

theorem index_items (L : Lib F N) (a : Ddl.Index) :
    Item.block b!"index" ((index L).labels a) ((index L).items a) = Form.indexDoc L a := by
  simp only [Form.indexDoc]
  rw [← List.append_nil (a.keys.map _)]
  rfl

theorem table_items (L : Lib F N) (a : Table F) :
    Item.block b!"table" ((table L).labels a) ((table L).items a) = Form.tableDoc L a := by
  have h1 : (a.table.foreignKeys.map fun x =>
      Item.block b!"foreign_key" ((foreignKey L).labels x) ((foreignKey L).items x)) =
      a.table.foreignKeys.map (Form.foreignKeyDoc L) := List.map_congr_left fun x _ => foreignKey_items L x
  have h2 : (a.storageParameters.toList.map fun x =>
      Item.block b!"storage_parameters" ((tableStorageParameters L).labels x)
        ((tableStorageParameters L).items x)) =
      a.storageParameters.toList.map (Form.tableStorageParametersDoc L) :=
    List.map_congr_left fun x _ => storage_items L x
  have h0 : (table L).items a = [Form.text L b!"owner" a.table.owner, Form.text L b!"comment" a.table.comment] ++
      (a.table.columns.map (Form.columnDoc L) ++ (a.table.checks.map (Form.checkDoc L) ++
      ((a.table.foreignKeys.map fun x =>
        Item.block b!"foreign_key" ((foreignKey L).labels x) ((foreignKey L).items x)) ++
      ((a.storageParameters.toList.map fun x =>
        Item.block b!"storage_parameters" ((tableStorageParameters L).labels x)
          ((tableStorageParameters L).items x)) ++ [])))) := rfl
  rw [h0, h1, h2]
  simp only [Form.tableDoc, List.append_assoc, List.append_nil]
  rfl

theorem write_form (L : Lib F N) (db : Database F) : write L db = Form.document L db := by
  have h0 : write L db =
      (db.parameters.toList.map fun x =>
        Item.block b!"parameters" ((parameters L).labels x) ((parameters L).items x)) ++
      (db.schemas.map (Form.schemaDoc L) ++ (db.functions.map (Form.functionDoc L) ++
      ((db.sequences.map fun x => Item.block b!"sequence" ((sequence L).labels x) ((sequence L).items x)) ++
      ((db.tables.map fun x => Item.block b!"table" ((table L).labels x) ((table L).items x)) ++
      ((db.indexes.map fun x => Item.block b!"index" ((index L).labels x) ((index L).items x)) ++
      ((db.triggers.map fun x => Item.block b!"trigger" ((trigger L).labels x) ((trigger L).items x)) ++
        [])))))) := rfl
  rw [h0, List.map_congr_left fun x _ => parameters_items L x, List.map_congr_left fun x _ => table_items L x,
    List.map_congr_left fun x _ => trigger_items L x, List.map_congr_left fun x _ => sequence_items L x,
    List.map_congr_left fun x _ => index_items L x]
  simp only [Form.document, List.append_assoc, List.append_nil]

/-! ## Storage parameters -/

theorem attrs_opt {β : Type} (name : Str) (w : β → Value N) (o : Option β) (key : Str) :
    attrs (Form.opt (fun x => Item.attr name (w x)) o) key =
      if name = key then o.toList.map fun x => Item.attr name (w x) else [] := by
  cases o with
  | none => simp [Form.opt, attrs]
  | some x => by_cases h : name = key <;> simp [Form.opt, attrs, Item.isAttr, Item.name, h]

theorem attrs_append (l m : List (Item N)) (key : Str) : attrs (l ++ m) key = attrs l key ++ attrs m key := by
  simp [attrs]

theorem attrs_int (L : Lib F N) (name : Str) (o : Option Int) (key : Str) :
    attrs (Form.opt (Form.int L name) o) key =
      if name = key then (o.map Ddl.Val.int).toList.map fun v => Item.attr key (Form.paramValue L v) else [] := by
  refine (attrs_opt name _ o key).trans ?_
  split
  · subst_vars
    cases o <;> rfl
  · rfl

theorem attrs_float (L : Lib F N) (name : Str) (o : Option F) (key : Str) :
    attrs (Form.opt (Form.float L name) o) key =
      if name = key then (o.map Ddl.Val.float).toList.map fun v => Item.attr key (Form.paramValue L v) else [] := by
  refine (attrs_opt name _ o key).trans ?_
  split
  · subst_vars
    cases o <;> rfl
  · rfl

theorem attrs_flag (L : Lib F N) (name : Str) (o : Option Bool) (key : Str) :
    attrs (Form.opt (Form.flag name) o) key =
      if name = key then (o.map Ddl.Val.bool).toList.map fun v => Item.attr key (Form.paramValue L v) else [] := by
  refine (attrs_opt name _ o key).trans ?_
  split
  · subst_vars
    cases o <;> rfl
  · rfl

theorem attrs_storage (L : Lib F N) (p : Ddl.Params F) (key : Str) (k : Ddl.Kind)
    (h : (key, k) ∈ Ddl.knownParams) (body : List (Item N))
    (hb : Form.tableStorageParametersDoc L p = .block b!"storage_parameters" [] body) :
    attrs body key = (p.get key).toList.map fun v => .attr key (Form.paramValue L v) := by
  cases hb
  simp only [Ddl.knownParams, List.mem_cons, Prod.mk.injEq, List.not_mem_nil, or_false] at h
  simp only [attrs_append, attrs_int, attrs_float, attrs_flag L]
  rcases h with ⟨rfl, -⟩ | ⟨rfl, -⟩ | ⟨rfl, -⟩ | ⟨rfl, -⟩ | ⟨rfl, -⟩ | ⟨rfl, -⟩ | ⟨rfl, -⟩ | ⟨rfl, -⟩ |
    ⟨rfl, -⟩ | ⟨rfl, -⟩ | ⟨rfl, -⟩ | ⟨rfl, -⟩ | ⟨rfl, -⟩ | ⟨rfl, -⟩ | ⟨rfl, -⟩ | ⟨rfl, -⟩ <;>
    simp [Ddl.Params.get, Ddl.Params.attrs]

/-! ## Normal forms -/

section
variable {n : Str → Str}

theorem map_id_of {β : Type} {f : β → β} {l : List β} (h : ∀ x ∈ l, f x = x) : l.map f = l :=
  (List.map_congr_left h).trans (List.map_id l)

theorem omap_id_of {β : Type} {f : β → β} {o : Option β} (h : ∀ x ∈ o, f x = x) : o.map f = o := by
  cases o with
  | none => rfl
  | some x => simp [h x rfl]

theorem norm_parameters {a : Pg.Parameters} (h : parametersTexts (fun s => n s = s) a) :
    parametersNorm n a = a := by
  obtain ⟨h1, h2⟩ := h
  simp [parametersNorm, map_id_of h1, h2]

theorem norm_schema {a : Pg.Schema} (h : schemaTexts (fun s => n s = s) a) : schemaNorm n a = a := by
  obtain ⟨h1, h2, h3⟩ := h
  simp [schemaNorm, h1, h2, h3]

theorem norm_function {a : Ddl.Function} (h : functionTexts (fun s => n s = s) a) :
    functionNorm n a = a := by
  obtain ⟨h1, h2, h3, h4, h5, h6, h7⟩ := h
  simp [functionNorm, *]

theorem norm_sequenceOwner {a : Pg.SequenceOwner} (h : sequenceOwnerTexts (fun s => n s = s) a) :
    sequenceOwnerNorm n a = a := by
  obtain ⟨h1, h2, h3⟩ := h
  simp [sequenceOwnerNorm, *]

theorem norm_sequence {a : Pg.Sequence} (h : sequenceTexts (fun s => n s = s) a) :
    sequenceNorm n a = a := by
  obtain ⟨h1, h2, h3, h4, h5, h6⟩ := h
  simp [sequenceNorm, *, omap_id_of fun x hx => norm_sequenceOwner (h6 x hx)]

theorem norm_column {a : Ddl.Column} (h : columnTexts (fun s => n s = s) a) : columnNorm n a = a := by
  obtain ⟨h1, h2, h3, h4⟩ := h
  simp [columnNorm, *]

theorem norm_check {a : Ddl.Check} (h : checkTexts (fun s => n s = s) a) : checkNorm n a = a := by
  obtain ⟨h1, h2⟩ := h
  simp [checkNorm, *]

theorem norm_foreignKey {a : Ddl.ForeignKey} (h : foreignKeyTexts (fun s => n s = s) a) :
    foreignKeyNorm n a = a := by
  obtain ⟨h1, h2, h3, h4, h5, h6, h7⟩ := h
  simp [foreignKeyNorm, *, map_id_of h3, map_id_of h4]

theorem norm_table {a : Table F} (h : tableTexts (fun s => n s = s) a) : tableNorm n a = a := by
  obtain ⟨h1, h2, h3, h4, h5, h6, h7⟩ := h
  simp [tableNorm, *, map_id_of fun x hx => norm_column (h5 x hx), map_id_of fun x hx => norm_check (h6 x hx),
    map_id_of fun x hx => norm_foreignKey (h7 x hx)]

theorem norm_indexKey {a : Ddl.IndexKey} (h : indexKeyTexts (fun s => n s = s) a) :
    indexKeyNorm n a = a := by
  obtain ⟨h1, h2, h3⟩ := h
  simp [indexKeyNorm, *]

theorem norm_index {a : Ddl.Index} (h : indexTexts (fun s => n s = s) a) : indexNorm n a = a := by
  obtain ⟨h1, h2, h3, h4, h5, h6⟩ := h
  simp [indexNorm, *, map_id_of fun x hx => norm_indexKey (h6 x hx)]

theorem norm_trigger {a : Ddl.Trigger} (h : triggerTexts (fun s => n s = s) a) : triggerNorm n a = a := by
  obtain ⟨h1, h2, h3, h4, h5, h6⟩ := h
  simp [triggerNorm, *, map_id_of h6]

theorem norm_database {a : Database F} (h : databaseTexts (fun s => n s = s) a) : databaseNorm n a = a := by
  obtain ⟨h1, h2, h3, h4, h5, h6, h7⟩ := h
  simp [databaseNorm, omap_id_of fun x hx => norm_parameters (h1 x hx),
    map_id_of fun x hx => norm_schema (h2 x hx), map_id_of fun x hx => norm_function (h3 x hx),
    map_id_of fun x hx => norm_sequence (h4 x hx), map_id_of fun x hx => norm_table (h5 x hx),
    map_id_of fun x hx => norm_index (h6 x hx), map_id_of fun x hx => norm_trigger (h7 x hx)]

end

/-! ## What has been normalised is written as before -/

section
variable {L : Lib F N} (h : ∀ s, L.nfc (L.nfc s) = L.nfc s)
include h

theorem text_norm (name s : Str) : Form.text L name (L.nfc s) = Form.text L name s := by
  simp [Form.text, h]

theorem texts_norm (name : Str) (l : List Str) : Form.texts L name (l.map L.nfc) = Form.texts L name l := by
  cases l with
  | nil => rfl
  | cons s l => simp [Form.texts, h]

theorem document_norm (db : Database F) : Form.document L (databaseNorm L.nfc db) = Form.document L db := by
  have e1 : ∀ a, Form.parametersDoc L (parametersNorm L.nfc a) = Form.parametersDoc L a := fun a => by
    simp [Form.parametersDoc, parametersNorm, text_norm h, texts_norm h]
  have e2 : ∀ a, Form.schemaDoc L (schemaNorm L.nfc a) = Form.schemaDoc L a := fun a => by
    simp [Form.schemaDoc, schemaNorm, text_norm h, h]
  have e3 : ∀ a, Form.functionDoc L (functionNorm L.nfc a) = Form.functionDoc L a := fun a => by
    simp [Form.functionDoc, functionNorm, text_norm h, h]
  have e4 : ∀ a, Form.sequenceOwnerDoc L (sequenceOwnerNorm L.nfc a) = Form.sequenceOwnerDoc L a := fun a => by
    simp [Form.sequenceOwnerDoc, sequenceOwnerNorm, text_norm h]
  have e5 : ∀ a, Form.sequenceDoc L (sequenceNorm L.nfc a) = Form.sequenceDoc L a := fun a => by
    cases ho : a.ownedBy <;> simp [Form.sequenceDoc, sequenceNorm, text_norm h, h, ho, e4]
  have e6 : ∀ a, Form.columnDoc L (columnNorm L.nfc a) = Form.columnDoc L a := fun a => by
    simp [Form.columnDoc, columnNorm, text_norm h, h]
  have e7 : ∀ a, Form.checkDoc L (checkNorm L.nfc a) = Form.checkDoc L a := fun a => by
    simp [Form.checkDoc, checkNorm, text_norm h]
  have e8 : ∀ a, Form.foreignKeyDoc L (foreignKeyNorm L.nfc a) = Form.foreignKeyDoc L a := fun a => by
    simp [Form.foreignKeyDoc, foreignKeyNorm, text_norm h, texts_norm h, h]
  have e9 : ∀ a : Table F, Form.tableDoc L (tableNorm L.nfc a) = Form.tableDoc L a := fun a => by
    simp [Form.tableDoc, tableNorm, text_norm h, h, Function.comp_def, e6, e7, e8]
  have e10 : ∀ a, Form.indexKeyDoc L (indexKeyNorm L.nfc a) = Form.indexKeyDoc L a := fun a => by
    simp [Form.indexKeyDoc, indexKeyNorm, text_norm h]
  have e11 : ∀ a, Form.indexDoc L (indexNorm L.nfc a) = Form.indexDoc L a := fun a => by
    simp [Form.indexDoc, indexNorm, text_norm h, h, Function.comp_def, e10]
  have e12 : ∀ a, Form.triggerDoc L (triggerNorm L.nfc a) = Form.triggerDoc L a := fun a => by
    simp [Form.triggerDoc, triggerNorm, text_norm h, texts_norm h, h]
  cases hp : db.parameters <;>
    simp [Form.document, databaseNorm, hp, Function.comp_def, e1, e2, e3, e5, e9, e11, e12]

end

end

end Verif.Hcl
