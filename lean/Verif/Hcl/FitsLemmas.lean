import Verif.Hcl.Spec
import Verif.Hcl.KeepLemmas

/-!
# Lemmas: the numbers that are read fit
-/

namespace Verif.Hcl
open Verif

section
variable {F N α β : Type} {L : Lib F N}

/-- Decoding a field keeps up `P`. -/
def FieldInv (P : α → Prop) (f : Field N α) : Prop :=
  ∀ its acc a, P acc → f.decode its acc = .ok a → P a

def Inv (C : Codec N α) (P : α → Prop) : Prop := ∀ labels items a, C.decode labels items = .ok a → P a

theorem Codec.inv {C : Codec N α} {P : α → Prop}
    (h0 : ∀ ls, P (setLabels (labelFields C.fields) ls C.zero)) (h : ∀ f ∈ C.fields, FieldInv P f) : Inv C P := by
  intro labels items a hd
  have hd := (decode_ok hd).2.2.2
  have : ∀ (fs : List (Field N α)), (∀ f ∈ fs, FieldInv P f) → ∀ acc a, P acc →
      decodeFields items fs acc = .ok a → P a := by
    intro fs
    induction fs with
    | nil =>
      intro _ acc a h1 h2
      cases h2
      exact h1
    | cons f fs ih =>
      intro hf acc a h1 h2
      rw [decodeFields] at h2
      split at h2
      · cases h2
      · rename_i a1 h3
        exact ih (fun f h => hf f (by simp [h])) a1 a (hf f (by simp) _ _ _ h1 h3) h2
  exact this _ h _ _ (h0 _) hd

theorem ofLabel_inv {goName name : Str} {get : α → Str} {set : Str → α → α} {P : α → Prop} :
    FieldInv P (Field.ofLabel L goName name get set) := by
  intro its acc a h hd
  cases hd
  exact h

theorem ofAttr_inv {goName name kind : Str} {A : Attr N β} {get : α → β} {set : β → α → α} {P : α → Prop}
    {Q : β → Prop} (hA : ∀ v x, A.dec v = some x → Q x) (h : ∀ x a, Q x → P a → P (set x a)) :
    FieldInv P (Field.ofAttr L goName name kind A get set) := by
  intro its acc a hP hd
  simp only [Field.ofAttr] at hd
  split at hd
  · split at hd
    · cases hd
    · rename_i x hx
      cases hd
      obtain ⟨w, -, hw⟩ := Option.bind_eq_some_iff.1 hx
      exact h _ _ (hA w x hw) hP
  · cases hd
    exact hP

theorem decodeBlocks_inv {C : Codec N β} {Q : β → Prop} (hC : Inv C Q) : ∀ (its : List (Item N)) xs,
    decodeBlocks C its = .ok xs → ∀ x ∈ xs, Q x
  | [], xs, h => by
    cases h
    simp
  | .attr n v :: rest, xs, h => decodeBlocks_inv hC rest xs h
  | .block n ls body :: rest, xs, h => by
    rw [decodeBlocks] at h
    split at h
    · cases h
    · rename_i x hx
      split at h
      · cases h
      · rename_i ys hys
        cases h
        intro y hy
        rcases List.mem_cons.1 hy with rfl | hy
        · exact hC _ _ _ hx
        · exact decodeBlocks_inv hC rest ys hys y hy

theorem ofBlocks_inv {goName name : Str} {C : Codec N β} {get : α → List β} {set : List β → α → α}
    {P : α → Prop} {Q : β → Prop} (hC : Inv C Q) (h : ∀ xs a, (∀ x ∈ xs, Q x) → P a → P (set xs a)) :
    FieldInv P (Field.ofBlocks goName name C get set) := by
  intro its acc a hP hd
  simp only [Field.ofBlocks] at hd
  split at hd
  · cases hd
  · rename_i xs hx
    cases hd
    exact h _ _ (decodeBlocks_inv hC _ _ hx) hP

theorem ofBlock_inv {goName name : Str} {C : Codec N β} {get : α → Option β} {set : Option β → α → α}
    {P : α → Prop} {Q : β → Prop} (hC : Inv C Q) (h : ∀ x a, Q x → P a → P (set (some x) a)) :
    FieldInv P (Field.ofBlock goName name C get set) := by
  intro its acc a hP hd
  simp only [Field.ofBlock] at hd
  split at hd
  · cases hd
    exact hP
  · split at hd
    · cases hd
    · rename_i x hx
      cases hd
      exact h _ _ (hC _ _ _ hx) hP
  · cases hd

theorem any_inv (C : Codec N α) : Inv C (fun _ => True) := fun _ _ _ _ => trivial

theorem int_range (hL : L.Sound) {goType : Str} (v : Value N) (x : Int)
    (h : (Attr.int L goType).dec v = some x) : Int64 x := by
  cases v <;> try cases h
  exact hL.range _ _ h

theorem ptrInt_range (hL : L.Sound) {goType : Str} (v : Value N) (x : Option Int)
    (h : (Attr.ptr (.int L goType)).dec v = some x) : ∀ i ∈ x, Int64 i := by
  cases v with
  | null =>
    cases h
    simp
  | num n =>
    obtain ⟨i, hi, he⟩ := Option.map_eq_some_iff.1 h
    cases he
    intro j hj
    cases hj
    exact hL.range _ _ hi
  | _ => cases h

end

end Verif.Hcl
