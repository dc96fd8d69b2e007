import Verif.Hcl.KeepLemmas
import Verif.Hcl.Ddl

/-!
# Every struct: which documents are read, and what is written again
-/

namespace Verif.Hcl
open Verif

section
variable {F N : Type} {L : Lib F N}

theorem parameters_strict : Strict L (parameters L) :=
  Codec.strict (C := parameters L) rfl (show ((tagsOf b!"Parameters").map (·.name)).Nodup by decide) (by
    simp only [parameters, List.forall_mem_cons]
    exact ⟨ofAttr_strict strings_strict (.inl rfl),
      ofAttr_strict string_strict (.inl rfl), nofun⟩)

theorem parameters_keeps : Keeps L (parameters L) :=
  Codec.keeps (C := parameters L) rfl (show ((tagsOf b!"Parameters").map (·.name)).Nodup by decide) (by
    simp only [parameters, List.forall_mem_cons]
    exact ⟨ofAttr_keeps strings_keeps (.inl rfl) (fun _ _ => rfl) (.strings (.inl rfl)),
      ofAttr_keeps string_keeps (.inl rfl) (fun _ _ => rfl) (.string), nofun⟩)
    (by
      rw [show (parameters L).fields = _ from rfl]
      simp only [parameters, List.forall_mem_cons]
      exact ⟨ofAttr_frame fun _ _ => ⟨rfl, rfl⟩,
      ofAttr_frame fun _ _ => ⟨rfl, rfl⟩, nofun⟩)
    (fun ls h => by
      match ls, h with
      | [], _ => exact ⟨rfl, rfl⟩)

theorem schema_strict : Strict L (schema L) :=
  Codec.strict (C := schema L) rfl (show ((tagsOf b!"Schema").map (·.name)).Nodup by decide) (by
    simp only [schema, List.forall_mem_cons]
    exact ⟨ofLabel_strict,
      ofAttr_strict string_strict (.inl rfl),
      ofAttr_strict string_strict (.inl rfl), nofun⟩)

theorem schema_keeps : Keeps L (schema L) :=
  Codec.keeps (C := schema L) rfl (show ((tagsOf b!"Schema").map (·.name)).Nodup by decide) (by
    simp only [schema, List.forall_mem_cons]
    exact ⟨ofLabel_keeps,
      ofAttr_keeps string_keeps (.inl rfl) (fun _ _ => rfl) (.string),
      ofAttr_keeps string_keeps (.inl rfl) (fun _ _ => rfl) (.string), nofun⟩)
    (by
      rw [show (schema L).fields = _ from rfl]
      simp only [schema, List.forall_mem_cons]
      exact ⟨ofLabel_frame,
      ofAttr_frame fun _ _ => ⟨rfl, rfl⟩,
      ofAttr_frame fun _ _ => ⟨rfl, rfl⟩, nofun⟩)
    (fun ls h => by
      match ls, h with
      | [a], _ => exact ⟨rfl, rfl⟩)

theorem function_strict : Strict L (function L) :=
  Codec.strict (C := function L) rfl (show ((tagsOf b!"Function").map (·.name)).Nodup by decide) (by
    simp only [function, List.forall_mem_cons]
    exact ⟨ofLabel_strict,
      ofLabel_strict,
      ofAttr_strict string_strict (.inl rfl),
      ofAttr_strict string_strict (.inl rfl),
      ofAttr_strict string_strict (.inr rfl),
      ofAttr_strict string_strict (.inr rfl),
      ofAttr_strict string_strict (.inr rfl), nofun⟩)

theorem function_keeps : Keeps L (function L) :=
  Codec.keeps (C := function L) rfl (show ((tagsOf b!"Function").map (·.name)).Nodup by decide) (by
    simp only [function, List.forall_mem_cons]
    exact ⟨ofLabel_keeps,
      ofLabel_keeps,
      ofAttr_keeps string_keeps (.inl rfl) (fun _ _ => rfl) (.string),
      ofAttr_keeps string_keeps (.inl rfl) (fun _ _ => rfl) (.string),
      ofAttr_keeps string_keeps (.inr rfl) (fun _ _ => rfl) (.string),
      ofAttr_keeps string_keeps (.inr rfl) (fun _ _ => rfl) (.string),
      ofAttr_keeps string_keeps (.inr rfl) (fun _ _ => rfl) (.string), nofun⟩)
    (by
      rw [show (function L).fields = _ from rfl]
      simp only [function, List.forall_mem_cons]
      exact ⟨ofLabel_frame,
      ofLabel_frame,
      ofAttr_frame fun _ _ => ⟨rfl, rfl⟩,
      ofAttr_frame fun _ _ => ⟨rfl, rfl⟩,
      ofAttr_frame fun _ _ => ⟨rfl, rfl⟩,
      ofAttr_frame fun _ _ => ⟨rfl, rfl⟩,
      ofAttr_frame fun _ _ => ⟨rfl, rfl⟩, nofun⟩)
    (fun ls h => by
      match ls, h with
      | [a, b], _ => exact ⟨rfl, rfl⟩)

theorem sequenceOwner_strict : Strict L (sequenceOwner L) :=
  Codec.strict (C := sequenceOwner L) rfl (show ((tagsOf b!"SequenceOwner").map (·.name)).Nodup by decide) (by
    simp only [sequenceOwner, List.forall_mem_cons]
    exact ⟨ofAttr_strict string_strict (.inr rfl),
      ofAttr_strict string_strict (.inr rfl),
      ofAttr_strict string_strict (.inr rfl), nofun⟩)

theorem sequenceOwner_keeps : Keeps L (sequenceOwner L) :=
  Codec.keeps (C := sequenceOwner L) rfl (show ((tagsOf b!"SequenceOwner").map (·.name)).Nodup by decide) (by
    simp only [sequenceOwner, List.forall_mem_cons]
    exact ⟨ofAttr_keeps string_keeps (.inr rfl) (fun _ _ => rfl) (.string),
      ofAttr_keeps string_keeps (.inr rfl) (fun _ _ => rfl) (.string),
      ofAttr_keeps string_keeps (.inr rfl) (fun _ _ => rfl) (.string), nofun⟩)
    (by
      rw [show (sequenceOwner L).fields = _ from rfl]
      simp only [sequenceOwner, List.forall_mem_cons]
      exact ⟨ofAttr_frame fun _ _ => ⟨rfl, rfl⟩,
      ofAttr_frame fun _ _ => ⟨rfl, rfl⟩,
      ofAttr_frame fun _ _ => ⟨rfl, rfl⟩, nofun⟩)
    (fun ls h => by
      match ls, h with
      | [], _ => exact ⟨rfl, rfl⟩)

theorem sequence_strict : Strict L (sequence L) :=
  Codec.strict (C := sequence L) rfl (show ((tagsOf b!"Sequence").map (·.name)).Nodup by decide) (by
    simp only [sequence, List.forall_mem_cons]
    exact ⟨ofLabel_strict,
      ofLabel_strict,
      ofAttr_strict string_strict (.inl rfl),
      ofAttr_strict string_strict (.inl rfl),
      ofAttr_strict string_strict (.inl rfl),
      ofAttr_strict int_strict (.inl rfl),
      ofAttr_strict int_strict (.inl rfl),
      ofAttr_strict int_strict (.inl rfl),
      ofAttr_strict int_strict (.inl rfl),
      ofAttr_strict int_strict (.inl rfl),
      ofAttr_strict bool_strict (.inl rfl),
      ofBlock_strict sequenceOwner_strict, nofun⟩)

theorem sequence_keeps : Keeps L (sequence L) :=
  Codec.keeps (C := sequence L) rfl (show ((tagsOf b!"Sequence").map (·.name)).Nodup by decide) (by
    simp only [sequence, List.forall_mem_cons]
    exact ⟨ofLabel_keeps,
      ofLabel_keeps,
      ofAttr_keeps string_keeps (.inl rfl) (fun _ _ => rfl) (.string),
      ofAttr_keeps string_keeps (.inl rfl) (fun _ _ => rfl) (.string),
      ofAttr_keeps string_keeps (.inl rfl) (fun _ _ => rfl) (.string),
      ofAttr_keeps int_keeps (.inl rfl) (fun _ _ => rfl) (.int),
      ofAttr_keeps int_keeps (.inl rfl) (fun _ _ => rfl) (.int),
      ofAttr_keeps int_keeps (.inl rfl) (fun _ _ => rfl) (.int),
      ofAttr_keeps int_keeps (.inl rfl) (fun _ _ => rfl) (.int),
      ofAttr_keeps int_keeps (.inl rfl) (fun _ _ => rfl) (.int),
      ofAttr_keeps bool_keeps (.inl rfl) (fun _ _ => rfl) (.bool),
      ofBlock_keeps sequenceOwner_keeps (fun _ _ => rfl) rfl, nofun⟩)
    (by
      rw [show (sequence L).fields = _ from rfl]
      simp only [sequence, List.forall_mem_cons]
      exact ⟨ofLabel_frame,
      ofLabel_frame,
      ofAttr_frame fun _ _ => ⟨rfl, rfl⟩,
      ofAttr_frame fun _ _ => ⟨rfl, rfl⟩,
      ofAttr_frame fun _ _ => ⟨rfl, rfl⟩,
      ofAttr_frame fun _ _ => ⟨rfl, rfl⟩,
      ofAttr_frame fun _ _ => ⟨rfl, rfl⟩,
      ofAttr_frame fun _ _ => ⟨rfl, rfl⟩,
      ofAttr_frame fun _ _ => ⟨rfl, rfl⟩,
      ofAttr_frame fun _ _ => ⟨rfl, rfl⟩,
      ofAttr_frame fun _ _ => ⟨rfl, rfl⟩,
      ofBlock_frame fun _ _ => ⟨rfl, rfl⟩, nofun⟩)
    (fun ls h => by
      match ls, h with
      | [a, b], _ => exact ⟨rfl, rfl⟩)

theorem column_strict : Strict L (column L) :=
  Codec.strict (C := column L) rfl (show ((tagsOf b!"Column").map (·.name)).Nodup by decide) (by
    simp only [column, List.forall_mem_cons]
    exact ⟨ofLabel_strict,
      ofAttr_strict string_strict (.inr rfl),
      ofAttr_strict bool_strict (.inl rfl),
      ofAttr_strict string_strict (.inl rfl),
      ofAttr_strict string_strict (.inl rfl), nofun⟩)

theorem column_keeps : Keeps L (column L) :=
  Codec.keeps (C := column L) rfl (show ((tagsOf b!"Column").map (·.name)).Nodup by decide) (by
    simp only [column, List.forall_mem_cons]
    exact ⟨ofLabel_keeps,
      ofAttr_keeps string_keeps (.inr rfl) (fun _ _ => rfl) (.string),
      ofAttr_keeps bool_keeps (.inl rfl) (fun _ _ => rfl) (.bool),
      ofAttr_keeps string_keeps (.inl rfl) (fun _ _ => rfl) (.string),
      ofAttr_keeps string_keeps (.inl rfl) (fun _ _ => rfl) (.string), nofun⟩)
    (by
      rw [show (column L).fields = _ from rfl]
      simp only [column, List.forall_mem_cons]
      exact ⟨ofLabel_frame,
      ofAttr_frame fun _ _ => ⟨rfl, rfl⟩,
      ofAttr_frame fun _ _ => ⟨rfl, rfl⟩,
      ofAttr_frame fun _ _ => ⟨rfl, rfl⟩,
      ofAttr_frame fun _ _ => ⟨rfl, rfl⟩, nofun⟩)
    (fun ls h => by
      match ls, h with
      | [a], _ => exact ⟨rfl, rfl⟩)

theorem check_strict : Strict L (check L) :=
  Codec.strict (C := check L) rfl (show ((tagsOf b!"Check").map (·.name)).Nodup by decide) (by
    simp only [check, List.forall_mem_cons]
    exact ⟨ofAttr_strict string_strict (.inl rfl),
      ofAttr_strict string_strict (.inr rfl),
      ofAttr_strict bool_strict (.inl rfl),
      ofAttr_strict bool_strict (.inl rfl), nofun⟩)

theorem check_keeps : Keeps L (check L) :=
  Codec.keeps (C := check L) rfl (show ((tagsOf b!"Check").map (·.name)).Nodup by decide) (by
    simp only [check, List.forall_mem_cons]
    exact ⟨ofAttr_keeps string_keeps (.inl rfl) (fun _ _ => rfl) (.string),
      ofAttr_keeps string_keeps (.inr rfl) (fun _ _ => rfl) (.string),
      ofAttr_keeps bool_keeps (.inl rfl) (fun _ _ => rfl) (.bool),
      ofAttr_keeps bool_keeps (.inl rfl) (fun _ _ => rfl) (.bool), nofun⟩)
    (by
      rw [show (check L).fields = _ from rfl]
      simp only [check, List.forall_mem_cons]
      exact ⟨ofAttr_frame fun _ _ => ⟨rfl, rfl⟩,
      ofAttr_frame fun _ _ => ⟨rfl, rfl⟩,
      ofAttr_frame fun _ _ => ⟨rfl, rfl⟩,
      ofAttr_frame fun _ _ => ⟨rfl, rfl⟩, nofun⟩)
    (fun ls h => by
      match ls, h with
      | [], _ => exact ⟨rfl, rfl⟩)

theorem foreignKey_strict : Strict L (foreignKey L) :=
  Codec.strict (C := foreignKey L) rfl (show ((tagsOf b!"ForeignKey").map (·.name)).Nodup by decide) (by
    simp only [foreignKey, List.forall_mem_cons]
    exact ⟨ofAttr_strict string_strict (.inl rfl),
      ofLabel_strict,
      ofAttr_strict strings_strict (.inr rfl),
      ofAttr_strict strings_strict (.inr rfl),
      ofAttr_strict string_strict (.inl rfl),
      ofAttr_strict string_strict (.inl rfl),
      ofAttr_strict string_strict (.inl rfl),
      ofAttr_strict bool_strict (.inl rfl),
      ofAttr_strict bool_strict (.inl rfl), nofun⟩)

theorem foreignKey_keeps : Keeps L (foreignKey L) :=
  Codec.keeps (C := foreignKey L) rfl (show ((tagsOf b!"ForeignKey").map (·.name)).Nodup by decide) (by
    simp only [foreignKey, List.forall_mem_cons]
    exact ⟨ofAttr_keeps string_keeps (.inl rfl) (fun _ _ => rfl) (.string),
      ofLabel_keeps,
      ofAttr_keeps strings_keeps (.inr rfl) (fun _ _ => rfl) (.strings (.inl rfl)),
      ofAttr_keeps strings_keeps (.inr rfl) (fun _ _ => rfl) (.strings (.inl rfl)),
      ofAttr_keeps string_keeps (.inl rfl) (fun _ _ => rfl) (.string),
      ofAttr_keeps string_keeps (.inl rfl) (fun _ _ => rfl) (.string),
      ofAttr_keeps string_keeps (.inl rfl) (fun _ _ => rfl) (.string),
      ofAttr_keeps bool_keeps (.inl rfl) (fun _ _ => rfl) (.bool),
      ofAttr_keeps bool_keeps (.inl rfl) (fun _ _ => rfl) (.bool), nofun⟩)
    (by
      rw [show (foreignKey L).fields = _ from rfl]
      simp only [foreignKey, List.forall_mem_cons]
      exact ⟨ofAttr_frame fun _ _ => ⟨rfl, rfl⟩,
      ofLabel_frame,
      ofAttr_frame fun _ _ => ⟨rfl, rfl⟩,
      ofAttr_frame fun _ _ => ⟨rfl, rfl⟩,
      ofAttr_frame fun _ _ => ⟨rfl, rfl⟩,
      ofAttr_frame fun _ _ => ⟨rfl, rfl⟩,
      ofAttr_frame fun _ _ => ⟨rfl, rfl⟩,
      ofAttr_frame fun _ _ => ⟨rfl, rfl⟩,
      ofAttr_frame fun _ _ => ⟨rfl, rfl⟩, nofun⟩)
    (fun ls h => by
      match ls, h with
      | [a], _ => exact ⟨rfl, rfl⟩)

theorem tableStorageParameters_strict : Strict L (tableStorageParameters L) :=
  Codec.strict (C := tableStorageParameters L) rfl (show ((tagsOf b!"TableStorageParameters").map (·.name)).Nodup by decide) (by
    simp only [tableStorageParameters, List.forall_mem_cons]
    exact ⟨ofAttr_strict ptrInt_strict (.inl rfl),
      ofAttr_strict ptrInt_strict (.inl rfl),
      ofAttr_strict ptrBool_strict (.inl rfl),
      ofAttr_strict ptrInt_strict (.inl rfl),
      ofAttr_strict ptrFloat_strict (.inl rfl),
      ofAttr_strict ptrInt_strict (.inl rfl),
      ofAttr_strict ptrFloat_strict (.inl rfl),
      ofAttr_strict ptrInt_strict (.inl rfl),
      ofAttr_strict ptrInt_strict (.inl rfl),
      ofAttr_strict ptrInt_strict (.inl rfl),
      ofAttr_strict ptrInt_strict (.inl rfl),
      ofAttr_strict ptrInt_strict (.inl rfl),
      ofAttr_strict ptrInt_strict (.inl rfl),
      ofAttr_strict ptrInt_strict (.inl rfl),
      ofAttr_strict ptrInt_strict (.inl rfl),
      ofAttr_strict ptrBool_strict (.inl rfl), nofun⟩)

theorem tableStorageParameters_keeps : Keeps L (tableStorageParameters L) :=
  Codec.keeps (C := tableStorageParameters L) rfl (show ((tagsOf b!"TableStorageParameters").map (·.name)).Nodup by decide) (by
    simp only [tableStorageParameters, List.forall_mem_cons]
    exact ⟨ofAttr_keeps ptrInt_keeps (.inl rfl) (fun _ _ => rfl) (.ptr),
      ofAttr_keeps ptrInt_keeps (.inl rfl) (fun _ _ => rfl) (.ptr),
      ofAttr_keeps ptrBool_keeps (.inl rfl) (fun _ _ => rfl) (.ptr),
      ofAttr_keeps ptrInt_keeps (.inl rfl) (fun _ _ => rfl) (.ptr),
      ofAttr_keeps ptrFloat_keeps (.inl rfl) (fun _ _ => rfl) (.ptr),
      ofAttr_keeps ptrInt_keeps (.inl rfl) (fun _ _ => rfl) (.ptr),
      ofAttr_keeps ptrFloat_keeps (.inl rfl) (fun _ _ => rfl) (.ptr),
      ofAttr_keeps ptrInt_keeps (.inl rfl) (fun _ _ => rfl) (.ptr),
      ofAttr_keeps ptrInt_keeps (.inl rfl) (fun _ _ => rfl) (.ptr),
      ofAttr_keeps ptrInt_keeps (.inl rfl) (fun _ _ => rfl) (.ptr),
      ofAttr_keeps ptrInt_keeps (.inl rfl) (fun _ _ => rfl) (.ptr),
      ofAttr_keeps ptrInt_keeps (.inl rfl) (fun _ _ => rfl) (.ptr),
      ofAttr_keeps ptrInt_keeps (.inl rfl) (fun _ _ => rfl) (.ptr),
      ofAttr_keeps ptrInt_keeps (.inl rfl) (fun _ _ => rfl) (.ptr),
      ofAttr_keeps ptrInt_keeps (.inl rfl) (fun _ _ => rfl) (.ptr),
      ofAttr_keeps ptrBool_keeps (.inl rfl) (fun _ _ => rfl) (.ptr), nofun⟩)
    (by
      rw [show (tableStorageParameters L).fields = _ from rfl]
      simp only [tableStorageParameters, List.forall_mem_cons]
      exact ⟨ofAttr_frame fun _ _ => ⟨rfl, rfl⟩,
      ofAttr_frame fun _ _ => ⟨rfl, rfl⟩,
      ofAttr_frame fun _ _ => ⟨rfl, rfl⟩,
      ofAttr_frame fun _ _ => ⟨rfl, rfl⟩,
      ofAttr_frame fun _ _ => ⟨rfl, rfl⟩,
      ofAttr_frame fun _ _ => ⟨rfl, rfl⟩,
      ofAttr_frame fun _ _ => ⟨rfl, rfl⟩,
      ofAttr_frame fun _ _ => ⟨rfl, rfl⟩,
      ofAttr_frame fun _ _ => ⟨rfl, rfl⟩,
      ofAttr_frame fun _ _ => ⟨rfl, rfl⟩,
      ofAttr_frame fun _ _ => ⟨rfl, rfl⟩,
      ofAttr_frame fun _ _ => ⟨rfl, rfl⟩,
      ofAttr_frame fun _ _ => ⟨rfl, rfl⟩,
      ofAttr_frame fun _ _ => ⟨rfl, rfl⟩,
      ofAttr_frame fun _ _ => ⟨rfl, rfl⟩,
      ofAttr_frame fun _ _ => ⟨rfl, rfl⟩, nofun⟩)
    (fun ls h => by
      match ls, h with
      | [], _ => exact ⟨rfl, rfl⟩)

theorem table_strict : Strict L (table L) :=
  Codec.strict (C := table L) rfl (show ((tagsOf b!"Table").map (·.name)).Nodup by decide) (by
    simp only [table, List.forall_mem_cons]
    exact ⟨ofLabel_strict,
      ofLabel_strict,
      ofAttr_strict string_strict (.inl rfl),
      ofAttr_strict string_strict (.inl rfl),
      ofBlocks_strict column_strict,
      ofBlocks_strict check_strict,
      ofBlocks_strict foreignKey_strict,
      ofBlock_strict tableStorageParameters_strict, nofun⟩)

theorem table_keeps : Keeps L (table L) :=
  Codec.keeps (C := table L) rfl (show ((tagsOf b!"Table").map (·.name)).Nodup by decide) (by
    simp only [table, List.forall_mem_cons]
    exact ⟨ofLabel_keeps,
      ofLabel_keeps,
      ofAttr_keeps string_keeps (.inl rfl) (fun _ _ => rfl) (.string),
      ofAttr_keeps string_keeps (.inl rfl) (fun _ _ => rfl) (.string),
      ofBlocks_keeps column_keeps (fun _ _ => rfl) rfl,
      ofBlocks_keeps check_keeps (fun _ _ => rfl) rfl,
      ofBlocks_keeps foreignKey_keeps (fun _ _ => rfl) rfl,
      ofBlock_keeps tableStorageParameters_keeps (fun _ _ => rfl) rfl, nofun⟩)
    (by
      rw [show (table L).fields = _ from rfl]
      simp only [table, List.forall_mem_cons]
      exact ⟨ofLabel_frame,
      ofLabel_frame,
      ofAttr_frame fun _ _ => ⟨rfl, rfl⟩,
      ofAttr_frame fun _ _ => ⟨rfl, rfl⟩,
      ofBlocks_frame fun _ _ => ⟨rfl, rfl⟩,
      ofBlocks_frame fun _ _ => ⟨rfl, rfl⟩,
      ofBlocks_frame fun _ _ => ⟨rfl, rfl⟩,
      ofBlock_frame fun _ _ => ⟨rfl, rfl⟩, nofun⟩)
    (fun ls h => by
      match ls, h with
      | [a, b], _ => exact ⟨rfl, rfl⟩)

theorem indexKey_strict : Strict L (indexKey L) :=
  Codec.strict (C := indexKey L) rfl (show ((tagsOf b!"IndexKey").map (·.name)).Nodup by decide) (by
    simp only [indexKey, List.forall_mem_cons]
    exact ⟨ofAttr_strict string_strict (.inl rfl),
      ofAttr_strict string_strict (.inl rfl),
      ofAttr_strict string_strict (.inl rfl),
      ofAttr_strict bool_strict (.inl rfl), nofun⟩)

theorem indexKey_keeps : Keeps L (indexKey L) :=
  Codec.keeps (C := indexKey L) rfl (show ((tagsOf b!"IndexKey").map (·.name)).Nodup by decide) (by
    simp only [indexKey, List.forall_mem_cons]
    exact ⟨ofAttr_keeps string_keeps (.inl rfl) (fun _ _ => rfl) (.string),
      ofAttr_keeps string_keeps (.inl rfl) (fun _ _ => rfl) (.string),
      ofAttr_keeps string_keeps (.inl rfl) (fun _ _ => rfl) (.string),
      ofAttr_keeps bool_keeps (.inl rfl) (fun _ _ => rfl) (.bool), nofun⟩)
    (by
      rw [show (indexKey L).fields = _ from rfl]
      simp only [indexKey, List.forall_mem_cons]
      exact ⟨ofAttr_frame fun _ _ => ⟨rfl, rfl⟩,
      ofAttr_frame fun _ _ => ⟨rfl, rfl⟩,
      ofAttr_frame fun _ _ => ⟨rfl, rfl⟩,
      ofAttr_frame fun _ _ => ⟨rfl, rfl⟩, nofun⟩)
    (fun ls h => by
      match ls, h with
      | [], _ => exact ⟨rfl, rfl⟩)

theorem index_strict : Strict L (index L) :=
  Codec.strict (C := index L) rfl (show ((tagsOf b!"Index").map (·.name)).Nodup by decide) (by
    simp only [index, List.forall_mem_cons]
    exact ⟨ofLabel_strict,
      ofLabel_strict,
      ofLabel_strict,
      ofAttr_strict bool_strict (.inl rfl),
      ofAttr_strict bool_strict (.inl rfl),
      ofAttr_strict string_strict (.inl rfl),
      ofAttr_strict string_strict (.inl rfl),
      ofBlocks_strict indexKey_strict, nofun⟩)

theorem index_keeps : Keeps L (index L) :=
  Codec.keeps (C := index L) rfl (show ((tagsOf b!"Index").map (·.name)).Nodup by decide) (by
    simp only [index, List.forall_mem_cons]
    exact ⟨ofLabel_keeps,
      ofLabel_keeps,
      ofLabel_keeps,
      ofAttr_keeps bool_keeps (.inl rfl) (fun _ _ => rfl) (.bool),
      ofAttr_keeps bool_keeps (.inl rfl) (fun _ _ => rfl) (.bool),
      ofAttr_keeps string_keeps (.inl rfl) (fun _ _ => rfl) (.string),
      ofAttr_keeps string_keeps (.inl rfl) (fun _ _ => rfl) (.string),
      ofBlocks_keeps indexKey_keeps (fun _ _ => rfl) rfl, nofun⟩)
    (by
      rw [show (index L).fields = _ from rfl]
      simp only [index, List.forall_mem_cons]
      exact ⟨ofLabel_frame,
      ofLabel_frame,
      ofLabel_frame,
      ofAttr_frame fun _ _ => ⟨rfl, rfl⟩,
      ofAttr_frame fun _ _ => ⟨rfl, rfl⟩,
      ofAttr_frame fun _ _ => ⟨rfl, rfl⟩,
      ofAttr_frame fun _ _ => ⟨rfl, rfl⟩,
      ofBlocks_frame fun _ _ => ⟨rfl, rfl⟩, nofun⟩)
    (fun ls h => by
      match ls, h with
      | [a, b, c], _ => exact ⟨rfl, rfl⟩)

theorem trigger_strict : Strict L (trigger L) :=
  Codec.strict (C := trigger L) rfl (show ((tagsOf b!"Trigger").map (·.name)).Nodup by decide) (by
    simp only [trigger, List.forall_mem_cons]
    exact ⟨ofLabel_strict,
      ofLabel_strict,
      ofLabel_strict,
      ofAttr_strict string_strict (.inr rfl),
      ofAttr_strict string_strict (.inr rfl),
      ofAttr_strict bool_strict (.inl rfl),
      ofAttr_strict bool_strict (.inl rfl),
      ofAttr_strict bool_strict (.inl rfl),
      ofAttr_strict bool_strict (.inl rfl),
      ofAttr_strict bool_strict (.inl rfl),
      ofAttr_strict bool_strict (.inl rfl),
      ofAttr_strict bool_strict (.inl rfl),
      ofAttr_strict bool_strict (.inl rfl),
      ofAttr_strict strings_strict (.inl rfl), nofun⟩)

theorem trigger_keeps : Keeps L (trigger L) :=
  Codec.keeps (C := trigger L) rfl (show ((tagsOf b!"Trigger").map (·.name)).Nodup by decide) (by
    simp only [trigger, List.forall_mem_cons]
    exact ⟨ofLabel_keeps,
      ofLabel_keeps,
      ofLabel_keeps,
      ofAttr_keeps string_keeps (.inr rfl) (fun _ _ => rfl) (.string),
      ofAttr_keeps string_keeps (.inr rfl) (fun _ _ => rfl) (.string),
      ofAttr_keeps bool_keeps (.inl rfl) (fun _ _ => rfl) (.bool),
      ofAttr_keeps bool_keeps (.inl rfl) (fun _ _ => rfl) (.bool),
      ofAttr_keeps bool_keeps (.inl rfl) (fun _ _ => rfl) (.bool),
      ofAttr_keeps bool_keeps (.inl rfl) (fun _ _ => rfl) (.bool),
      ofAttr_keeps bool_keeps (.inl rfl) (fun _ _ => rfl) (.bool),
      ofAttr_keeps bool_keeps (.inl rfl) (fun _ _ => rfl) (.bool),
      ofAttr_keeps bool_keeps (.inl rfl) (fun _ _ => rfl) (.bool),
      ofAttr_keeps bool_keeps (.inl rfl) (fun _ _ => rfl) (.bool),
      ofAttr_keeps strings_keeps (.inl rfl) (fun _ _ => rfl) (.strings (.inl rfl)), nofun⟩)
    (by
      rw [show (trigger L).fields = _ from rfl]
      simp only [trigger, List.forall_mem_cons]
      exact ⟨ofLabel_frame,
      ofLabel_frame,
      ofLabel_frame,
      ofAttr_frame fun _ _ => ⟨rfl, rfl⟩,
      ofAttr_frame fun _ _ => ⟨rfl, rfl⟩,
      ofAttr_frame fun _ _ => ⟨rfl, rfl⟩,
      ofAttr_frame fun _ _ => ⟨rfl, rfl⟩,
      ofAttr_frame fun _ _ => ⟨rfl, rfl⟩,
      ofAttr_frame fun _ _ => ⟨rfl, rfl⟩,
      ofAttr_frame fun _ _ => ⟨rfl, rfl⟩,
      ofAttr_frame fun _ _ => ⟨rfl, rfl⟩,
      ofAttr_frame fun _ _ => ⟨rfl, rfl⟩,
      ofAttr_frame fun _ _ => ⟨rfl, rfl⟩,
      ofAttr_frame fun _ _ => ⟨rfl, rfl⟩, nofun⟩)
    (fun ls h => by
      match ls, h with
      | [a, b, c], _ => exact ⟨rfl, rfl⟩)

theorem database_strict : Strict L (database L) :=
  Codec.strict (C := database L) rfl (show ((tagsOf b!"Database").map (·.name)).Nodup by decide) (by
    simp only [database, List.forall_mem_cons]
    exact ⟨ofBlock_strict parameters_strict,
      ofBlocks_strict schema_strict,
      ofBlocks_strict function_strict,
      ofBlocks_strict sequence_strict,
      ofBlocks_strict table_strict,
      ofBlocks_strict index_strict,
      ofBlocks_strict trigger_strict, nofun⟩)

theorem database_keeps : Keeps L (database L) :=
  Codec.keeps (C := database L) rfl (show ((tagsOf b!"Database").map (·.name)).Nodup by decide) (by
    simp only [database, List.forall_mem_cons]
    exact ⟨ofBlock_keeps parameters_keeps (fun _ _ => rfl) rfl,
      ofBlocks_keeps schema_keeps (fun _ _ => rfl) rfl,
      ofBlocks_keeps function_keeps (fun _ _ => rfl) rfl,
      ofBlocks_keeps sequence_keeps (fun _ _ => rfl) rfl,
      ofBlocks_keeps table_keeps (fun _ _ => rfl) rfl,
      ofBlocks_keeps index_keeps (fun _ _ => rfl) rfl,
      ofBlocks_keeps trigger_keeps (fun _ _ => rfl) rfl, nofun⟩)
    (by
      rw [show (database L).fields = _ from rfl]
      simp only [database, List.forall_mem_cons]
      exact ⟨ofBlock_frame fun _ _ => ⟨rfl, rfl⟩,
      ofBlocks_frame fun _ _ => ⟨rfl, rfl⟩,
      ofBlocks_frame fun _ _ => ⟨rfl, rfl⟩,
      ofBlocks_frame fun _ _ => ⟨rfl, rfl⟩,
      ofBlocks_frame fun _ _ => ⟨rfl, rfl⟩,
      ofBlocks_frame fun _ _ => ⟨rfl, rfl⟩,
      ofBlocks_frame fun _ _ => ⟨rfl, rfl⟩, nofun⟩)
    (fun ls h => by
      match ls, h with
      | [], _ => exact ⟨rfl, rfl⟩)

end

end Verif.Hcl
