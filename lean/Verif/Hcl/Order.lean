import Verif.Hcl.Props

/-!
# C155: the order in which a schema file is written
-/

namespace Verif.Hcl
open Verif

/-! ## Specification -/

/-- A document in another order: neighbours of different names change places, any number of times, at any depth. -/
inductive Rearranged {N : Type} : List (Item N) → List (Item N) → Prop where
  | refl (l : List (Item N)) : Rearranged l l
  | swap (l r : List (Item N)) (i j : Item N) (h : i.name ≠ j.name) : Rearranged (l ++ i :: j :: r) (l ++ j :: i :: r)
  | inside (l r : List (Item N)) (t : Str) (ls : List Str) {b b' : List (Item N)} (h : Rearranged b b') :
      Rearranged (l ++ .block t ls b :: r) (l ++ .block t ls b' :: r)
  | trans {a b c : List (Item N)} (h : Rearranged a b) (h' : Rearranged b c) : Rearranged a c

/-! ## Lemmas -/

section
variable {F N α β : Type}

theorem Rearranged.symm {a b : List (Item N)} (h : Rearranged a b) : Rearranged b a := by
  induction h with
  | refl l => exact .refl l
  | swap l r i j h => exact .swap l r j i (Ne.symm h)
  | inside l r t ls _ ih => exact .inside l r t ls ih
  | trans _ _ ih1 ih2 => exact ih2.trans ih1

/-- The same item, up to the order inside. -/
inductive Twin : Item N → Item N → Prop where
  | same (i : Item N) : Twin i i
  | block (t : Str) (ls : List Str) {b b' : List (Item N)} (h : Rearranged b b') : Twin (.block t ls b) (.block t ls b')

theorem Twin.trans {i j k : Item N} (h : Twin i j) (h' : Twin j k) : Twin i k := by
  cases h with
  | same => exact h'
  | block t ls h =>
    cases h' with
    | same => exact .block t ls h
    | block _ _ h' => exact .block t ls (h.trans h')

theorem twins_refl (l : List (Item N)) : List.Forall₂ Twin l l := by
  induction l with
  | nil => exact .nil
  | cons i l ih => exact .cons (.same i) ih

theorem twins_trans : ∀ {a b c : List (Item N)}, List.Forall₂ Twin a b → List.Forall₂ Twin b c → List.Forall₂ Twin a c
  | _, _, _, .nil, .nil => .nil
  | _, _, _, .cons h t, .cons h' t' => .cons (h.trans h') (twins_trans t t')

theorem twins_append {a b c d : List (Item N)} (h : List.Forall₂ Twin a b) (h' : List.Forall₂ Twin c d) :
    List.Forall₂ Twin (a ++ c) (b ++ d) := by
  induction h with
  | nil => exact h'
  | cons h _ ih => exact .cons h ih

/-- The items of one name stay in their order. -/
theorem Rearranged.filter {a b : List (Item N)} (h : Rearranged a b) (n : Str) :
    List.Forall₂ Twin (a.filter fun i => i.name = n) (b.filter fun i => i.name = n) := by
  induction h with
  | refl l => exact twins_refl _
  | swap l r i j h =>
    have : (l ++ i :: j :: r).filter (fun i => decide (i.name = n)) = (l ++ j :: i :: r).filter (fun i => decide (i.name = n)) := by
      simp only [List.filter_append, List.filter_cons]
      by_cases h1 : i.name = n
      · have h2 : j.name ≠ n := fun e => h (h1.trans e.symm)
        simp [h1, h2]
      · simp [h1]
    rw [this]
    exact twins_refl _
  | inside l r t ls hb _ =>
    rw [List.filter_append, List.filter_append]
    by_cases h : t = n
    · rw [List.filter_cons_of_pos (by exact decide_eq_true h), List.filter_cons_of_pos (by exact decide_eq_true h)]
      exact twins_append (twins_refl _) (.cons (.block t ls hb) (twins_refl _))
    · rw [List.filter_cons_of_neg (by rw [Bool.not_eq_true]; exact decide_eq_false h), List.filter_cons_of_neg (by rw [Bool.not_eq_true]; exact decide_eq_false h)]
      exact twins_append (twins_refl _) (twins_refl _)
  | trans _ _ ih1 ih2 => exact twins_trans ih1 ih2

theorem Rearranged.names {a b : List (Item N)} (h : Rearranged a b) :
    ((a.filter Item.isAttr).map Item.name).Perm ((b.filter Item.isAttr).map Item.name) := by
  induction h with
  | refl l => exact .refl _
  | swap l r i j h => exact (((List.Perm.swap j i r).append_left l).filter _).map _
  | inside l r t ls hb _ => simp [List.filter_append, Item.isAttr]
  | trans _ _ ih1 ih2 => exact ih1.trans ih2

theorem Rearranged.mem {a b : List (Item N)} (h : Rearranged a b) : ∀ i ∈ b, ∃ j ∈ a, Twin j i := by
  induction h with
  | refl l => exact fun i hi => ⟨i, hi, .same i⟩
  | swap l r i j h =>
    exact fun k hk => ⟨k, ((List.Perm.swap j i r).append_left l).mem_iff.2 hk, .same k⟩
  | inside l r t ls hb _ =>
    intro k hk
    rcases List.mem_append.1 hk with hk | hk
    · exact ⟨k, by simp [hk], .same k⟩
    · rcases List.mem_cons.1 hk with rfl | hk
      · exact ⟨_, by simp, .block t ls hb⟩
      · exact ⟨k, by simp [hk], .same k⟩
  | trans _ _ ih1 ih2 =>
    intro k hk
    obtain ⟨j, hj, h1⟩ := ih2 k hk
    obtain ⟨i, hi, h2⟩ := ih1 j hj
    exact ⟨i, hi, h2.trans h1⟩

/-- A field is read the same whatever the order inside of the items. -/
def Field.Stable (f : Field N α) : Prop :=
  ∀ l l' : List (Item N), List.Forall₂ Twin l l' → ∀ a a', f.decode l a = .ok a' → f.decode l' a = .ok a'

def Codec.Stable (C : Codec N α) : Prop :=
  ∀ ls b b', Rearranged b b' → ∀ a, C.decode ls b = .ok a → C.decode ls b' = .ok a

theorem Twin.name {i j : Item N} (h : Twin i j) : i.name = j.name ∧ i.isAttr = j.isAttr := by
  cases h <;> exact ⟨rfl, rfl⟩

theorem Twin.allows {f : Field N α} {i j : Item N} (h : Twin i j) : f.allows i = f.allows j := by
  cases h <;> rfl

theorem codec_stable (C : Codec N α) (hf : ∀ f ∈ C.fields, f.Stable) : C.Stable := by
  intro ls b b' hb a h
  unfold Codec.decode at h ⊢
  cases h1 : b.find? (fun i => !C.fields.any fun f => f.allows i) with
  | some i => rw [h1] at h; cases h
  | none =>
    have h1' : b'.find? (fun i => !C.fields.any fun f => f.allows i) = none := by
      rw [List.find?_eq_none] at h1 ⊢
      intro i hi
      obtain ⟨j, hj, ht⟩ := hb.mem i hi
      have := h1 j hj
      simpa only [ht.allows] using this
    rw [h1] at h
    rw [h1']
    simp only at h ⊢
    split at h
    · cases h
    next h2 =>
      have h2' : ¬ ¬ ((b'.filter Item.isAttr).map Item.name).Nodup := by
        rw [← hb.names.nodup_iff]; exact h2
      rw [if_neg h2']
      cases h3 : C.fields.find? (fun f => f.tag.kind = b!"attr" &&
          !b.any fun i => i.isAttr && decide (i.name = f.tag.name)) with
      | some f => rw [h3] at h; cases h
      | none =>
        have h3' : C.fields.find? (fun f => f.tag.kind = b!"attr" &&
            !b'.any fun i => i.isAttr && decide (i.name = f.tag.name)) = none := by
          rw [List.find?_eq_none] at h3 ⊢
          intro f hfm
          have := h3 f hfm
          simp only [Bool.and_eq_true, Bool.not_eq_true', not_and, decide_eq_true_eq, Bool.not_eq_false, List.any_eq_true] at this ⊢
          intro hk
          obtain ⟨i, hi, g1, g2⟩ := this hk
          obtain ⟨j, hj, ht⟩ := hb.symm.mem i hi
          exact ⟨j, hj, by rw [ht.name.2]; exact g1, by rw [ht.name.1]; exact g2⟩
        rw [h3] at h
        rw [h3']
        simp only at h ⊢
        split at h
        · cases h
        next h4 =>
          rw [if_neg h4]
          have key : ∀ (fs : List (Field N α)) (x : α), (∀ f ∈ fs, f.Stable) → decodeFields b fs x = .ok a →
              decodeFields b' fs x = .ok a := by
            intro fs
            induction fs with
            | nil => exact fun x _ h => h
            | cons f fs ih =>
              intro x hs h
              rw [decodeFields] at h ⊢
              cases hd : f.decode (b.filter fun i => i.name = f.tag.name) x with
              | error e => rw [hd] at h; cases h
              | ok y =>
                rw [hd] at h
                rw [hs f (by simp) _ _ (hb.filter f.tag.name) _ _ hd]
                exact ih y (fun g hg => hs g (by simp [hg])) h
          exact key _ _ hf h

theorem ofLabel_stable (L : Lib F N) (g n : Str) (get : α → Str) (set : Str → α → α) : (Field.ofLabel L g n get set).Stable :=
  fun _ _ _ _ _ h => h

theorem ofAttr_stable (L : Lib F N) (g n k : Str) (A : Attr N β) (get : α → β) (set : β → α → α) :
    (Field.ofAttr L g n k A get set).Stable := by
  intro l l' h a a' hd
  cases h with
  | nil => exact hd
  | cons h _ =>
    cases h with
    | block => exact hd
    | same => rename_i i _ _ _; cases i <;> exact hd

theorem blocks_stable {C : Codec N β} (hC : C.Stable) {l l' : List (Item N)} (h : List.Forall₂ Twin l l') :
    ∀ xs, decodeBlocks C l = .ok xs → decodeBlocks C l' = .ok xs := by
  induction h with
  | nil => exact fun _ h => h
  | cons h hl ih =>
    rename_i i j l l'
    intro xs hd
    have cont : ∀ {t ls b b'}, Rearranged b b' → decodeBlocks C (.block t ls b :: l) = .ok xs →
        decodeBlocks C (.block t ls b' :: l') = .ok xs := by
      intro t ls b b' hb hd
      rw [decodeBlocks] at hd ⊢
      cases h1 : C.decode ls b with
      | error e => rw [h1] at hd; cases hd
      | ok x =>
        rw [h1] at hd
        rw [hC ls _ _ hb _ h1]
        simp only at hd ⊢
        cases h2 : decodeBlocks C l with
        | error e => rw [h2] at hd; cases hd
        | ok ys =>
          rw [h2] at hd
          rw [ih _ h2]
          exact hd
    cases h with
    | block t ls hb => exact cont hb hd
    | same =>
      cases i with
      | attr n v => exact ih xs hd
      | block t ls b => exact cont (.refl b) hd

theorem ofBlocks_stable (g n : Str) {C : Codec N β} (hC : C.Stable) (get : α → List β) (set : List β → α → α) :
    (Field.ofBlocks g n C get set).Stable := by
  intro l l' h a a' hd
  simp only [Field.ofBlocks] at hd ⊢
  cases h1 : decodeBlocks C l with
  | error e => rw [h1] at hd; cases hd
  | ok xs =>
    rw [h1] at hd
    rw [blocks_stable hC h _ h1]
    exact hd

theorem ofBlock_stable (g n : Str) {C : Codec N β} (hC : C.Stable) (get : α → Option β) (set : Option β → α → α) :
    (Field.ofBlock g n C get set).Stable := by
  intro l l' h a a' hd
  cases h with
  | nil => exact hd
  | cons h ht =>
    rename_i i j m m'
    cases ht with
    | cons _ _ => cases i <;> cases hd
    | nil =>
      cases h with
      | same => exact hd
      | block t ls hb =>
        rename_i b b'
        have hd : (match C.decode ls b with
          | .error e => .error e
          | .ok x => .ok (set (some x) a)) = Except.ok a' := hd
        show (match C.decode ls b' with
          | .error e => .error e
          | .ok x => .ok (set (some x) a)) = Except.ok a'
        cases h1 : C.decode ls b with
        | error e => rw [h1] at hd; cases hd
        | ok x =>
          rw [h1] at hd
          rw [hC ls _ _ hb _ h1]
          exact hd

/-- Goes through the fields of a struct. -/
macro "stable" : tactic => `(tactic| (
  apply codec_stable
  repeat' first
    | exact List.forall_mem_nil _
    | apply ofLabel_stable
    | apply ofAttr_stable
    | (apply ofBlocks_stable; assumption)
    | (apply ofBlock_stable; assumption)
    | refine List.forall_mem_cons.2 ⟨?_, ?_⟩))

theorem database_stable (L : Lib F N) : (database L).Stable := by
  have h1 : (parameters L).Stable := by stable
  have h2 : (schema L).Stable := by stable
  have h3 : (function L).Stable := by stable
  have h4 : (sequenceOwner L).Stable := by stable
  have h5 : (sequence L).Stable := by stable
  have h6 : (column L).Stable := by stable
  have h7 : (check L).Stable := by stable
  have h8 : (foreignKey L).Stable := by stable
  have h9 : (tableStorageParameters L).Stable := by stable
  have h10 : (table L).Stable := by stable
  have h11 : (indexKey L).Stable := by stable
  have h12 : (index L).Stable := by stable
  have h13 : (trigger L).Stable := by stable
  stable

/-! ## The property -/

/-- **C155.** A schema file, and the same with neighbours of different names exchanged (attributes, or objects of
different kinds), any number of times and at any depth: both are refused, or both describe the same database. -/
theorem C155_order (L : Lib F N) {doc doc' : List (Item N)} (h : Rearranged doc doc') (db : Database F) :
    parse L doc = .ok db ↔ parse L doc' = .ok db :=
  ⟨database_stable L [] _ _ h db, database_stable L [] _ _ h.symm db⟩

end

/-! ## Cases -/

/-- An index before its schema, and its properties the other way round. -/
example : ∃ db : Database Int, parse (plain id)
      [.block b!"schema" [b!"public"] [.attr b!"owner" (.str b!"me"), .attr b!"comment" (.str b!"x")],
        .block b!"index" [b!"public", b!"foo", b!"foo_key"] []] = .ok db ∧ db.schemas.length = 1 ∧ db.indexes.length = 1 ∧
    parse (plain id) [.block b!"index" [b!"public", b!"foo", b!"foo_key"] [],
      .block b!"schema" [b!"public"] [.attr b!"comment" (.str b!"x"), .attr b!"owner" (.str b!"me")]] = .ok db := by
  have h : ∃ db : Database Int, parse (plain id)
      [.block b!"schema" [b!"public"] [.attr b!"owner" (.str b!"me"), .attr b!"comment" (.str b!"x")],
        .block b!"index" [b!"public", b!"foo", b!"foo_key"] []] = .ok db ∧ db.schemas.length = 1 ∧ db.indexes.length = 1 :=
    ⟨_, rfl, rfl, rfl⟩
  obtain ⟨db, h1, h2, h3⟩ := h
  refine ⟨db, h1, h2, h3, (C155_order (plain id) ?_ db).1 h1⟩
  exact .trans (.swap [] [] _ _ (by decide)) (.inside [_] [] _ _ (.swap [] [] _ _ (by decide)))

/-- **C155, its limit**: the order of objects of the same kind is kept. -/
theorem C155_same_kind : ∃ db db' : Database Int,
    parse (plain id) [.block b!"schema" [b!"a"] [], .block b!"schema" [b!"b"] []] = .ok db ∧
    parse (plain id) [.block b!"schema" [b!"b"] [], .block b!"schema" [b!"a"] []] = .ok db' ∧
    db.schemas.map (·.name) = [b!"a", b!"b"] ∧ db'.schemas.map (·.name) = [b!"b", b!"a"] :=
  ⟨_, _, rfl, rfl, rfl, rfl⟩

end Verif.Hcl
