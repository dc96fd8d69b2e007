import Verif.Hcl.FitsLemmas

/-!
# The numbers of a database that was read fit
-/

namespace Verif.Hcl
open Verif

section
variable {F N : Type} {L : Lib F N}

theorem int64_zero : Int64 0 := by unfold Int64; decide

theorem sequence_fits (hL : L.Sound) : Inv (sequence L) sequenceFits :=
  Codec.inv (C := sequence L) (fun ls => by
      have : sequenceFits (sequence L).zero := ⟨int64_zero, int64_zero, int64_zero, int64_zero, int64_zero⟩
      match ls with
      | [] | [_] | _ :: _ :: _ => exact this) (by
    simp only [sequence, List.forall_mem_cons]
    exact ⟨ofLabel_inv,
      ofLabel_inv,
      ofAttr_inv (Q := fun _ => True) (fun _ _ _ => trivial) fun x a hx h => h,
      ofAttr_inv (Q := fun _ => True) (fun _ _ _ => trivial) fun x a hx h => h,
      ofAttr_inv (Q := fun _ => True) (fun _ _ _ => trivial) fun x a hx h => h,
      ofAttr_inv (int_range hL) fun x a hx h => ⟨hx, h.2.1, h.2.2.1, h.2.2.2.1, h.2.2.2.2⟩,
      ofAttr_inv (int_range hL) fun x a hx h => ⟨h.1, hx, h.2.2.1, h.2.2.2.1, h.2.2.2.2⟩,
      ofAttr_inv (int_range hL) fun x a hx h => ⟨h.1, h.2.1, hx, h.2.2.2.1, h.2.2.2.2⟩,
      ofAttr_inv (int_range hL) fun x a hx h => ⟨h.1, h.2.1, h.2.2.1, hx, h.2.2.2.2⟩,
      ofAttr_inv (int_range hL) fun x a hx h => ⟨h.1, h.2.1, h.2.2.1, h.2.2.2.1, hx⟩,
      ofAttr_inv (Q := fun _ => True) (fun _ _ _ => trivial) fun x a hx h => h,
      ofBlock_inv (any_inv _) fun x a hx h => h, nofun⟩)

theorem tableStorageParameters_fits (hL : L.Sound) : Inv (tableStorageParameters L) tableStorageParametersFits :=
  Codec.inv (C := tableStorageParameters L) (fun ls => by
      have : tableStorageParametersFits (tableStorageParameters L).zero :=
        ⟨nofun, nofun, nofun, nofun, nofun, nofun, nofun, nofun, nofun, nofun, nofun, nofun⟩
      match ls with
      | [] | _ :: _ => exact this) (by
    simp only [tableStorageParameters, List.forall_mem_cons]
    exact ⟨ofAttr_inv (ptrInt_range hL) fun x a hx h => ⟨hx, h.2.1, h.2.2.1, h.2.2.2.1, h.2.2.2.2.1, h.2.2.2.2.2.1, h.2.2.2.2.2.2.1, h.2.2.2.2.2.2.2.1, h.2.2.2.2.2.2.2.2.1, h.2.2.2.2.2.2.2.2.2.1, h.2.2.2.2.2.2.2.2.2.2.1, h.2.2.2.2.2.2.2.2.2.2.2⟩,
      ofAttr_inv (ptrInt_range hL) fun x a hx h => ⟨h.1, hx, h.2.2.1, h.2.2.2.1, h.2.2.2.2.1, h.2.2.2.2.2.1, h.2.2.2.2.2.2.1, h.2.2.2.2.2.2.2.1, h.2.2.2.2.2.2.2.2.1, h.2.2.2.2.2.2.2.2.2.1, h.2.2.2.2.2.2.2.2.2.2.1, h.2.2.2.2.2.2.2.2.2.2.2⟩,
      ofAttr_inv (Q := fun _ => True) (fun _ _ _ => trivial) fun x a hx h => h,
      ofAttr_inv (ptrInt_range hL) fun x a hx h => ⟨h.1, h.2.1, hx, h.2.2.2.1, h.2.2.2.2.1, h.2.2.2.2.2.1, h.2.2.2.2.2.2.1, h.2.2.2.2.2.2.2.1, h.2.2.2.2.2.2.2.2.1, h.2.2.2.2.2.2.2.2.2.1, h.2.2.2.2.2.2.2.2.2.2.1, h.2.2.2.2.2.2.2.2.2.2.2⟩,
      ofAttr_inv (Q := fun _ => True) (fun _ _ _ => trivial) fun x a hx h => h,
      ofAttr_inv (ptrInt_range hL) fun x a hx h => ⟨h.1, h.2.1, h.2.2.1, hx, h.2.2.2.2.1, h.2.2.2.2.2.1, h.2.2.2.2.2.2.1, h.2.2.2.2.2.2.2.1, h.2.2.2.2.2.2.2.2.1, h.2.2.2.2.2.2.2.2.2.1, h.2.2.2.2.2.2.2.2.2.2.1, h.2.2.2.2.2.2.2.2.2.2.2⟩,
      ofAttr_inv (Q := fun _ => True) (fun _ _ _ => trivial) fun x a hx h => h,
      ofAttr_inv (ptrInt_range hL) fun x a hx h => ⟨h.1, h.2.1, h.2.2.1, h.2.2.2.1, hx, h.2.2.2.2.2.1, h.2.2.2.2.2.2.1, h.2.2.2.2.2.2.2.1, h.2.2.2.2.2.2.2.2.1, h.2.2.2.2.2.2.2.2.2.1, h.2.2.2.2.2.2.2.2.2.2.1, h.2.2.2.2.2.2.2.2.2.2.2⟩,
      ofAttr_inv (ptrInt_range hL) fun x a hx h => ⟨h.1, h.2.1, h.2.2.1, h.2.2.2.1, h.2.2.2.2.1, hx, h.2.2.2.2.2.2.1, h.2.2.2.2.2.2.2.1, h.2.2.2.2.2.2.2.2.1, h.2.2.2.2.2.2.2.2.2.1, h.2.2.2.2.2.2.2.2.2.2.1, h.2.2.2.2.2.2.2.2.2.2.2⟩,
      ofAttr_inv (ptrInt_range hL) fun x a hx h => ⟨h.1, h.2.1, h.2.2.1, h.2.2.2.1, h.2.2.2.2.1, h.2.2.2.2.2.1, hx, h.2.2.2.2.2.2.2.1, h.2.2.2.2.2.2.2.2.1, h.2.2.2.2.2.2.2.2.2.1, h.2.2.2.2.2.2.2.2.2.2.1, h.2.2.2.2.2.2.2.2.2.2.2⟩,
      ofAttr_inv (ptrInt_range hL) fun x a hx h => ⟨h.1, h.2.1, h.2.2.1, h.2.2.2.1, h.2.2.2.2.1, h.2.2.2.2.2.1, h.2.2.2.2.2.2.1, hx, h.2.2.2.2.2.2.2.2.1, h.2.2.2.2.2.2.2.2.2.1, h.2.2.2.2.2.2.2.2.2.2.1, h.2.2.2.2.2.2.2.2.2.2.2⟩,
      ofAttr_inv (ptrInt_range hL) fun x a hx h => ⟨h.1, h.2.1, h.2.2.1, h.2.2.2.1, h.2.2.2.2.1, h.2.2.2.2.2.1, h.2.2.2.2.2.2.1, h.2.2.2.2.2.2.2.1, hx, h.2.2.2.2.2.2.2.2.2.1, h.2.2.2.2.2.2.2.2.2.2.1, h.2.2.2.2.2.2.2.2.2.2.2⟩,
      ofAttr_inv (ptrInt_range hL) fun x a hx h => ⟨h.1, h.2.1, h.2.2.1, h.2.2.2.1, h.2.2.2.2.1, h.2.2.2.2.2.1, h.2.2.2.2.2.2.1, h.2.2.2.2.2.2.2.1, h.2.2.2.2.2.2.2.2.1, hx, h.2.2.2.2.2.2.2.2.2.2.1, h.2.2.2.2.2.2.2.2.2.2.2⟩,
      ofAttr_inv (ptrInt_range hL) fun x a hx h => ⟨h.1, h.2.1, h.2.2.1, h.2.2.2.1, h.2.2.2.2.1, h.2.2.2.2.2.1, h.2.2.2.2.2.2.1, h.2.2.2.2.2.2.2.1, h.2.2.2.2.2.2.2.2.1, h.2.2.2.2.2.2.2.2.2.1, hx, h.2.2.2.2.2.2.2.2.2.2.2⟩,
      ofAttr_inv (ptrInt_range hL) fun x a hx h => ⟨h.1, h.2.1, h.2.2.1, h.2.2.2.1, h.2.2.2.2.1, h.2.2.2.2.2.1, h.2.2.2.2.2.2.1, h.2.2.2.2.2.2.2.1, h.2.2.2.2.2.2.2.2.1, h.2.2.2.2.2.2.2.2.2.1, h.2.2.2.2.2.2.2.2.2.2.1, hx⟩,
      ofAttr_inv (Q := fun _ => True) (fun _ _ _ => trivial) fun x a hx h => h, nofun⟩)

theorem table_fits (hL : L.Sound) : Inv (table L) tableFits :=
  Codec.inv (C := table L) (fun ls => by
      have : tableFits (table L).zero := fun x (hx : x ∈ none) => nomatch hx
      match ls with
      | [] | [_] | _ :: _ :: _ => exact this) (by
    simp only [table, List.forall_mem_cons]
    exact ⟨ofLabel_inv,
      ofLabel_inv,
      ofAttr_inv (Q := fun _ => True) (fun _ _ _ => trivial) fun x a hx h => h,
      ofAttr_inv (Q := fun _ => True) (fun _ _ _ => trivial) fun x a hx h => h,
      ofBlocks_inv (any_inv _) fun x a hx h => h,
      ofBlocks_inv (any_inv _) fun x a hx h => h,
      ofBlocks_inv (any_inv _) fun x a hx h => h,
      ofBlock_inv (tableStorageParameters_fits hL) fun x a hx h => fun y hy => by cases hy; exact hx, nofun⟩)

theorem database_fits (hL : L.Sound) : Inv (database L) databaseFits :=
  Codec.inv (C := database L) (fun ls => by
      have : databaseFits (database L).zero :=
        ⟨(fun x (hx : x ∈ []) => nomatch hx), (fun x (hx : x ∈ []) => nomatch hx)⟩
      match ls with
      | [] | _ :: _ => exact this) (by
    simp only [database, List.forall_mem_cons]
    exact ⟨ofBlock_inv (any_inv _) fun x a hx h => h,
      ofBlocks_inv (any_inv _) fun x a hx h => h,
      ofBlocks_inv (any_inv _) fun x a hx h => h,
      ofBlocks_inv (sequence_fits hL) fun x a hx h => ⟨hx, h.2⟩,
      ofBlocks_inv (table_fits hL) fun x a hx h => ⟨h.1, hx⟩,
      ofBlocks_inv (any_inv _) fun x a hx h => h,
      ofBlocks_inv (any_inv _) fun x a hx h => h, nofun⟩)

end

end Verif.Hcl
