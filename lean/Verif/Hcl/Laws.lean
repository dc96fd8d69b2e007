import Verif.Hcl.Spec
import Verif.Hcl.DocSpec
import Verif.Hcl.Lemmas

/-!
# Every struct is read back as it was written
-/

namespace Verif.Hcl
open Verif

attribute [ext] Ddl.Params

section
variable {F N : Type} {L : Lib F N}

theorem Law.imp {α : Type} {C : Codec N α} {P Q : α → Prop} {norm : α → α} (h : Law C P norm)
    (hQ : ∀ a, Q a → P a) : Law C Q norm := ⟨h.labels, fun a ha => h.decode a (hQ a ha)⟩

theorem string_law (hL : L.Sound) : AttrLaw L (.string L) (fun _ => True) L.nfc where
  some x v h _ := by
    cases h
    simp [Attr.string, hL.string]

theorem bool_law (hL : L.Sound) : AttrLaw L .bool (fun _ => True) id where
  some x v h _ := by
    cases h
    simp [Attr.bool, hL.bool]

theorem int_law (hL : L.Sound) {goType : Str} : AttrLaw L (.int L goType) Int64 id where
  some x v h hx := by
    cases h
    simp [Attr.int, hL.number, hL.int x hx]

theorem float_law (hL : L.Sound) : AttrLaw L (.float L) (fun _ => True) id where
  some x v h _ := by
    cases h
    simp [Attr.float, hL.number, hL.float x]

theorem mapM_strs : ∀ l : List Str, ((l.map Value.str : List (Value N)).mapM fun v => match v with
      | .str s => some s
      | _ => none) = some l
  | [] => rfl
  | s :: l => by simp [mapM_strs l]

theorem strings_law (hL : L.Sound) : AttrLaw L (.strings L) (fun _ => True) (List.map L.nfc) where
  some x v h _ := by
    cases h
    by_cases hx : x = []
    · subst hx
      simp [Attr.strings, hL.null]
    · have := hL.strings (x.map L.nfc)
      rw [List.map_map] at this
      simp only [Attr.strings, if_neg hx]
      rw [show (fun s => Value.str (L.nfc s)) = (Value.str (N := N)) ∘ L.nfc from rfl, this]
      have := mapM_strs (N := N) (x.map L.nfc)
      rw [List.map_map] at this
      exact this

theorem ptr_law {β : Type} {A : Attr N β} {P : β → Prop} {norm : β → β} (hA : AttrLaw L A P norm)
    (h0 : ∀ x, (L.convert A.kind ((A.enc x).getD .null)) ≠ some .null) :
    AttrLaw L A.ptr (fun o => ∀ x ∈ o, P x) (Option.map norm) where
  some x v h hx := by
    cases x with
    | none => cases h
    | some x =>
      have h : A.enc x = some v := h
      have hd := hA.some x v h (hx x rfl)
      have h0 := h0 x
      rw [h] at h0
      simp only [Attr.ptr, Option.map_some]
      cases hc : L.convert A.kind v with
      | none => rw [hc] at hd; cases hd
      | some w =>
        rw [hc] at hd
        cases w with
        | null => exact absurd hc h0
        | _ => simp only [Option.bind_some] at hd ⊢; rw [hd]; rfl

theorem elim_map {β γ : Type} (o : Option β) (f : β → γ) : (o.elim none fun x => some (f x)) = o.map f := by
  cases o <;> rfl

theorem elim_ptr {β : Type} {A : Attr N β} (hn : ∀ x, A.enc x ≠ none) (o : Option β) :
    (((Attr.ptr A).enc o).elim none fun _ => Option.map id o) = o := by
  cases o with
  | none => rfl
  | some x =>
    simp only [Attr.ptr, Option.bind_some]
    cases h : A.enc x with
    | none => exact absurd h (hn x)
    | some v => rfl

theorem parameters_law (hL : L.Sound) : Law (parameters L) (fun _ => True) (parametersNorm L.nfc) :=
  Law.imp (Codec.law (C := parameters L) (norm := parametersNorm L.nfc) (
      .cons (ofAttr_law (strings_law hL) (.inl rfl) fun _ => rfl) <|
      .cons (ofAttr_law (string_law hL) (.inl rfl) fun _ => rfl) <|
      .nil)
    (by rw [show (parameters L).fields.map (·.tag.name) = (tagsOf b!"Parameters").map (·.name) from rfl]; decide)
    (fun a => by rfl))
    (fun a h => by simp)

theorem schema_law (hL : L.Sound) : Law (schema L) (fun _ => True) (schemaNorm L.nfc) :=
  Law.imp (Codec.law (C := schema L) (norm := schemaNorm L.nfc) (
      .cons (ofLabel_law) <|
      .cons (ofAttr_law (string_law hL) (.inl rfl) fun _ => rfl) <|
      .cons (ofAttr_law (string_law hL) (.inl rfl) fun _ => rfl) <|
      .nil)
    (by rw [show (schema L).fields.map (·.tag.name) = (tagsOf b!"Schema").map (·.name) from rfl]; decide)
    (fun a => by rfl))
    (fun a h => by simp)

theorem function_law (hL : L.Sound) : Law (function L) (fun _ => True) (functionNorm L.nfc) :=
  Law.imp (Codec.law (C := function L) (norm := functionNorm L.nfc) (
      .cons (ofLabel_law) <|
      .cons (ofLabel_law) <|
      .cons (ofAttr_law (string_law hL) (.inl rfl) fun _ => rfl) <|
      .cons (ofAttr_law (string_law hL) (.inl rfl) fun _ => rfl) <|
      .cons (ofAttr_law (string_law hL) (.inr ⟨rfl, fun _ => nofun⟩) fun _ => rfl) <|
      .cons (ofAttr_law (string_law hL) (.inr ⟨rfl, fun _ => nofun⟩) fun _ => rfl) <|
      .cons (ofAttr_law (string_law hL) (.inr ⟨rfl, fun _ => nofun⟩) fun _ => rfl) <|
      .nil)
    (by rw [show (function L).fields.map (·.tag.name) = (tagsOf b!"Function").map (·.name) from rfl]; decide)
    (fun a => by rfl))
    (fun a h => by simp)

theorem sequenceOwner_law (hL : L.Sound) : Law (sequenceOwner L) (fun _ => True) (sequenceOwnerNorm L.nfc) :=
  Law.imp (Codec.law (C := sequenceOwner L) (norm := sequenceOwnerNorm L.nfc) (
      .cons (ofAttr_law (string_law hL) (.inr ⟨rfl, fun _ => nofun⟩) fun _ => rfl) <|
      .cons (ofAttr_law (string_law hL) (.inr ⟨rfl, fun _ => nofun⟩) fun _ => rfl) <|
      .cons (ofAttr_law (string_law hL) (.inr ⟨rfl, fun _ => nofun⟩) fun _ => rfl) <|
      .nil)
    (by rw [show (sequenceOwner L).fields.map (·.tag.name) = (tagsOf b!"SequenceOwner").map (·.name) from rfl]; decide)
    (fun a => by rfl))
    (fun a h => by simp)

theorem sequence_law (hL : L.Sound) : Law (sequence L) (sequenceFits) (sequenceNorm L.nfc) :=
  Law.imp (Codec.law (C := sequence L) (norm := sequenceNorm L.nfc) (
      .cons (ofLabel_law) <|
      .cons (ofLabel_law) <|
      .cons (ofAttr_law (string_law hL) (.inl rfl) fun _ => rfl) <|
      .cons (ofAttr_law (string_law hL) (.inl rfl) fun _ => rfl) <|
      .cons (ofAttr_law (string_law hL) (.inl rfl) fun _ => rfl) <|
      .cons (ofAttr_law (int_law hL) (.inl rfl) fun _ => rfl) <|
      .cons (ofAttr_law (int_law hL) (.inl rfl) fun _ => rfl) <|
      .cons (ofAttr_law (int_law hL) (.inl rfl) fun _ => rfl) <|
      .cons (ofAttr_law (int_law hL) (.inl rfl) fun _ => rfl) <|
      .cons (ofAttr_law (int_law hL) (.inl rfl) fun _ => rfl) <|
      .cons (ofAttr_law (bool_law hL) (.inl rfl) fun _ => rfl) <|
      .cons (ofBlock_law (sequenceOwner_law hL) fun _ => rfl) <|
      .nil)
    (by rw [show (sequence L).fields.map (·.tag.name) = (tagsOf b!"Sequence").map (·.name) from rfl]; decide)
    (fun a => by rcases a with ⟨_, _, _, _, _, _, _, _, _, _, _, _ | _⟩ <;> rfl))
    (fun a h => by obtain ⟨h1, h2, h3, h4, h5⟩ := h; simp [*])

theorem column_law (hL : L.Sound) : Law (column L) (fun _ => True) (columnNorm L.nfc) :=
  Law.imp (Codec.law (C := column L) (norm := columnNorm L.nfc) (
      .cons (ofLabel_law) <|
      .cons (ofAttr_law (string_law hL) (.inr ⟨rfl, fun _ => nofun⟩) fun _ => rfl) <|
      .cons (ofAttr_law (bool_law hL) (.inl rfl) fun _ => rfl) <|
      .cons (ofAttr_law (string_law hL) (.inl rfl) fun _ => rfl) <|
      .cons (ofAttr_law (string_law hL) (.inl rfl) fun _ => rfl) <|
      .nil)
    (by rw [show (column L).fields.map (·.tag.name) = (tagsOf b!"Column").map (·.name) from rfl]; decide)
    (fun a => by rfl))
    (fun a h => by simp)

theorem check_law (hL : L.Sound) : Law (check L) (fun _ => True) (checkNorm L.nfc) :=
  Law.imp (Codec.law (C := check L) (norm := checkNorm L.nfc) (
      .cons (ofAttr_law (string_law hL) (.inl rfl) fun _ => rfl) <|
      .cons (ofAttr_law (string_law hL) (.inr ⟨rfl, fun _ => nofun⟩) fun _ => rfl) <|
      .cons (ofAttr_law (bool_law hL) (.inl rfl) fun _ => rfl) <|
      .cons (ofAttr_law (bool_law hL) (.inl rfl) fun _ => rfl) <|
      .nil)
    (by rw [show (check L).fields.map (·.tag.name) = (tagsOf b!"Check").map (·.name) from rfl]; decide)
    (fun a => by rfl))
    (fun a h => by simp)

theorem foreignKey_law (hL : L.Sound) : Law (foreignKey L) (fun _ => True) (foreignKeyNorm L.nfc) :=
  Law.imp (Codec.law (C := foreignKey L) (norm := foreignKeyNorm L.nfc) (
      .cons (ofAttr_law (string_law hL) (.inl rfl) fun _ => rfl) <|
      .cons (ofLabel_law) <|
      .cons (ofAttr_law (strings_law hL) (.inr ⟨rfl, fun _ => nofun⟩) fun _ => rfl) <|
      .cons (ofAttr_law (strings_law hL) (.inr ⟨rfl, fun _ => nofun⟩) fun _ => rfl) <|
      .cons (ofAttr_law (string_law hL) (.inl rfl) fun _ => rfl) <|
      .cons (ofAttr_law (string_law hL) (.inl rfl) fun _ => rfl) <|
      .cons (ofAttr_law (string_law hL) (.inl rfl) fun _ => rfl) <|
      .cons (ofAttr_law (bool_law hL) (.inl rfl) fun _ => rfl) <|
      .cons (ofAttr_law (bool_law hL) (.inl rfl) fun _ => rfl) <|
      .nil)
    (by rw [show (foreignKey L).fields.map (·.tag.name) = (tagsOf b!"ForeignKey").map (·.name) from rfl]; decide)
    (fun a => by rfl))
    (fun a h => by simp)

theorem tableStorageParameters_law (hL : L.Sound) : Law (tableStorageParameters L) (tableStorageParametersFits) (id) :=
  Law.imp (Codec.law (C := tableStorageParameters L) (norm := id) (
      .cons (ofAttr_law (ptr_law (int_law hL) fun _ => by simp [Attr.int, hL.number]) (.inl rfl) fun _ => rfl) <|
      .cons (ofAttr_law (ptr_law (int_law hL) fun _ => by simp [Attr.int, hL.number]) (.inl rfl) fun _ => rfl) <|
      .cons (ofAttr_law (ptr_law (bool_law hL) fun _ => by simp [Attr.bool, hL.bool]) (.inl rfl) fun _ => rfl) <|
      .cons (ofAttr_law (ptr_law (int_law hL) fun _ => by simp [Attr.int, hL.number]) (.inl rfl) fun _ => rfl) <|
      .cons (ofAttr_law (ptr_law (float_law hL) fun _ => by simp [Attr.float, hL.number]) (.inl rfl) fun _ => rfl) <|
      .cons (ofAttr_law (ptr_law (int_law hL) fun _ => by simp [Attr.int, hL.number]) (.inl rfl) fun _ => rfl) <|
      .cons (ofAttr_law (ptr_law (float_law hL) fun _ => by simp [Attr.float, hL.number]) (.inl rfl) fun _ => rfl) <|
      .cons (ofAttr_law (ptr_law (int_law hL) fun _ => by simp [Attr.int, hL.number]) (.inl rfl) fun _ => rfl) <|
      .cons (ofAttr_law (ptr_law (int_law hL) fun _ => by simp [Attr.int, hL.number]) (.inl rfl) fun _ => rfl) <|
      .cons (ofAttr_law (ptr_law (int_law hL) fun _ => by simp [Attr.int, hL.number]) (.inl rfl) fun _ => rfl) <|
      .cons (ofAttr_law (ptr_law (int_law hL) fun _ => by simp [Attr.int, hL.number]) (.inl rfl) fun _ => rfl) <|
      .cons (ofAttr_law (ptr_law (int_law hL) fun _ => by simp [Attr.int, hL.number]) (.inl rfl) fun _ => rfl) <|
      .cons (ofAttr_law (ptr_law (int_law hL) fun _ => by simp [Attr.int, hL.number]) (.inl rfl) fun _ => rfl) <|
      .cons (ofAttr_law (ptr_law (int_law hL) fun _ => by simp [Attr.int, hL.number]) (.inl rfl) fun _ => rfl) <|
      .cons (ofAttr_law (ptr_law (int_law hL) fun _ => by simp [Attr.int, hL.number]) (.inl rfl) fun _ => rfl) <|
      .cons (ofAttr_law (ptr_law (bool_law hL) fun _ => by simp [Attr.bool, hL.bool]) (.inl rfl) fun _ => rfl) <|
      .nil)
    (by rw [show (tableStorageParameters L).fields.map (·.tag.name) = (tagsOf b!"TableStorageParameters").map (·.name) from rfl]; decide)
    (fun a => by 
        refine Ddl.Params.ext ?_ ?_ ?_ ?_ ?_ ?_ ?_ ?_ ?_ ?_ ?_ ?_ ?_ ?_ ?_ ?_
        · exact elim_ptr (A := .int L b!"int") (fun _ => nofun) a.fillfactor
        · exact elim_ptr (A := .int L b!"int") (fun _ => nofun) a.parallelWorkers
        · exact elim_ptr (A := .bool) (fun _ => nofun) a.autovacuumEnabled
        · exact elim_ptr (A := .int L b!"int") (fun _ => nofun) a.autovacuumVacuumThreshold
        · exact elim_ptr (A := .float L) (fun _ => nofun) a.autovacuumVacuumScaleFactor
        · exact elim_ptr (A := .int L b!"int") (fun _ => nofun) a.autovacuumAnalyzeThreshold
        · exact elim_ptr (A := .float L) (fun _ => nofun) a.autovacuumAnalyzeScaleFactor
        · exact elim_ptr (A := .int L b!"int") (fun _ => nofun) a.autovacuumVacuumCostDelay
        · exact elim_ptr (A := .int L b!"int") (fun _ => nofun) a.autovacuumFreezeMinAge
        · exact elim_ptr (A := .int L b!"int") (fun _ => nofun) a.autovacuumFreezeMaxAge
        · exact elim_ptr (A := .int L b!"int") (fun _ => nofun) a.autovacuumFreezeTableAge
        · exact elim_ptr (A := .int L b!"int") (fun _ => nofun) a.autovacuumMultixactFreezeMinAge
        · exact elim_ptr (A := .int L b!"int") (fun _ => nofun) a.autovacuumMultixactFreezeMaxAge
        · exact elim_ptr (A := .int L b!"int") (fun _ => nofun) a.autovacuumMultixactFreezeTableAge
        · exact elim_ptr (A := .int L b!"int") (fun _ => nofun) a.logAutovacuumMinDuration
        · exact elim_ptr (A := .bool) (fun _ => nofun) a.userCatalogTable))
    (fun a h => by obtain ⟨h1, h2, h3, h4, h5, h6, h7, h8, h9, h10, h11, h12⟩ := h; simpa using ⟨h1, h2, h3, h4, h5, h6, h7, h8, h9, h10, h11, h12⟩)

theorem table_law (hL : L.Sound) : Law (table L) (tableFits) (tableNorm L.nfc) :=
  Law.imp (Codec.law (C := table L) (norm := tableNorm L.nfc) (
      .cons (ofLabel_law) <|
      .cons (ofLabel_law) <|
      .cons (ofAttr_law (string_law hL) (.inl rfl) fun _ => rfl) <|
      .cons (ofAttr_law (string_law hL) (.inl rfl) fun _ => rfl) <|
      .cons (ofBlocks_law (column_law hL)) <|
      .cons (ofBlocks_law (check_law hL)) <|
      .cons (ofBlocks_law (foreignKey_law hL)) <|
      .cons (ofBlock_law (tableStorageParameters_law hL) fun _ => rfl) <|
      .nil)
    (by rw [show (table L).fields.map (·.tag.name) = (tagsOf b!"Table").map (·.name) from rfl]; decide)
    (fun a => by rcases a with ⟨_, _ | _⟩ <;> rfl))
    (fun a h => by simp; exact h)

theorem indexKey_law (hL : L.Sound) : Law (indexKey L) (fun _ => True) (indexKeyNorm L.nfc) :=
  Law.imp (Codec.law (C := indexKey L) (norm := indexKeyNorm L.nfc) (
      .cons (ofAttr_law (string_law hL) (.inl rfl) fun _ => rfl) <|
      .cons (ofAttr_law (string_law hL) (.inl rfl) fun _ => rfl) <|
      .cons (ofAttr_law (string_law hL) (.inl rfl) fun _ => rfl) <|
      .cons (ofAttr_law (bool_law hL) (.inl rfl) fun _ => rfl) <|
      .nil)
    (by rw [show (indexKey L).fields.map (·.tag.name) = (tagsOf b!"IndexKey").map (·.name) from rfl]; decide)
    (fun a => by rfl))
    (fun a h => by simp)

theorem index_law (hL : L.Sound) : Law (index L) (fun _ => True) (indexNorm L.nfc) :=
  Law.imp (Codec.law (C := index L) (norm := indexNorm L.nfc) (
      .cons (ofLabel_law) <|
      .cons (ofLabel_law) <|
      .cons (ofLabel_law) <|
      .cons (ofAttr_law (bool_law hL) (.inl rfl) fun _ => rfl) <|
      .cons (ofAttr_law (bool_law hL) (.inl rfl) fun _ => rfl) <|
      .cons (ofAttr_law (string_law hL) (.inl rfl) fun _ => rfl) <|
      .cons (ofAttr_law (string_law hL) (.inl rfl) fun _ => rfl) <|
      .cons (ofBlocks_law (indexKey_law hL)) <|
      .nil)
    (by rw [show (index L).fields.map (·.tag.name) = (tagsOf b!"Index").map (·.name) from rfl]; decide)
    (fun a => by rfl))
    (fun a h => by simp)

theorem trigger_law (hL : L.Sound) : Law (trigger L) (fun _ => True) (triggerNorm L.nfc) :=
  Law.imp (Codec.law (C := trigger L) (norm := triggerNorm L.nfc) (
      .cons (ofLabel_law) <|
      .cons (ofLabel_law) <|
      .cons (ofLabel_law) <|
      .cons (ofAttr_law (string_law hL) (.inr ⟨rfl, fun _ => nofun⟩) fun _ => rfl) <|
      .cons (ofAttr_law (string_law hL) (.inr ⟨rfl, fun _ => nofun⟩) fun _ => rfl) <|
      .cons (ofAttr_law (bool_law hL) (.inl rfl) fun _ => rfl) <|
      .cons (ofAttr_law (bool_law hL) (.inl rfl) fun _ => rfl) <|
      .cons (ofAttr_law (bool_law hL) (.inl rfl) fun _ => rfl) <|
      .cons (ofAttr_law (bool_law hL) (.inl rfl) fun _ => rfl) <|
      .cons (ofAttr_law (bool_law hL) (.inl rfl) fun _ => rfl) <|
      .cons (ofAttr_law (bool_law hL) (.inl rfl) fun _ => rfl) <|
      .cons (ofAttr_law (bool_law hL) (.inl rfl) fun _ => rfl) <|
      .cons (ofAttr_law (bool_law hL) (.inl rfl) fun _ => rfl) <|
      .cons (ofAttr_law (strings_law hL) (.inl rfl) fun _ => rfl) <|
      .nil)
    (by rw [show (trigger L).fields.map (·.tag.name) = (tagsOf b!"Trigger").map (·.name) from rfl]; decide)
    (fun a => by rfl))
    (fun a h => by simp)

theorem database_law (hL : L.Sound) : Law (database L) (databaseFits) (databaseNorm L.nfc) :=
  Law.imp (Codec.law (C := database L) (norm := databaseNorm L.nfc) (
      .cons (ofBlock_law (parameters_law hL) fun _ => rfl) <|
      .cons (ofBlocks_law (schema_law hL)) <|
      .cons (ofBlocks_law (function_law hL)) <|
      .cons (ofBlocks_law (sequence_law hL)) <|
      .cons (ofBlocks_law (table_law hL)) <|
      .cons (ofBlocks_law (index_law hL)) <|
      .cons (ofBlocks_law (trigger_law hL)) <|
      .nil)
    (by rw [show (database L).fields.map (·.tag.name) = (tagsOf b!"Database").map (·.name) from rfl]; decide)
    (fun a => by rcases a with ⟨_ | _, _, _, _, _, _, _⟩ <;> rfl))
    (fun a h => by simp; exact h)

end

end Verif.Hcl
