import Verif.Sh.Model
import Verif.Sh.Spec
import Mathlib.Data.List.Induction

/-!
# Closed form of `Env.Apply`
-/

namespace Verif.Sh
open Verif Spec

theorem indexByte_none {c : UInt8} {s : Str} : indexByte c s = none ↔ c ∉ s := by
  induction s with
  | nil => simp [indexByte]
  | cons b s ih =>
    by_cases h : b = c
    · simp [indexByte, h]
    · have h' : ¬ c = b := fun e => h e.symm
      simp [indexByte, h, h', ih]

theorem indexByte_some {c : UInt8} {s : Str} {i : Nat} (h : indexByte c s = some i) :
    ∃ t, s = s.take i ++ c :: t ∧ c ∉ s.take i := by
  induction s generalizing i with
  | nil => simp [indexByte] at h
  | cons b s ih =>
    by_cases hb : b = c
    · simp only [indexByte, hb, if_true, Option.some.injEq] at h
      subst h
      exact ⟨s, by simp [hb], by simp⟩
    · simp only [indexByte, hb, if_false, Option.map_eq_some_iff] at h
      obtain ⟨j, hj, rfl⟩ := h
      obtain ⟨t, ht, hn⟩ := ih hj
      refine ⟨t, ?_, ?_⟩
      · simp only [List.take_succ_cons, List.cons_append, List.cons.injEq, true_and]; exact ht
      · simp only [List.take_succ_cons, List.mem_cons, not_or]
        exact ⟨fun e => hb e.symm, hn⟩

theorem indexByte_append {c : UInt8} {s t : Str} (h : c ∉ s) :
    indexByte c (s ++ c :: t) = some s.length := by
  induction s with
  | nil => simp [indexByte]
  | cons b s ih =>
    simp only [List.mem_cons, not_or] at h
    have hb : ¬ b = c := fun e => h.1 e.symm
    simp [indexByte, hb, ih h.2]

theorem keyOf_binding {k v : Str} (hk : Name k) : keyOf (k ++ 61 :: v) = k := by
  obtain ⟨h1, h2⟩ := hk
  unfold keyOf
  rw [indexByte_append h2]
  cases k with
  | nil => exact absurd rfl h1
  | cons b k => simp

theorem keyOf_of_binds {kv k v : Str} (h : Binds kv k v) : keyOf kv = k := by
  obtain ⟨hk, rfl⟩ := h
  simpa using keyOf_binding (v := v) hk

theorem binds_or (kv : Str) :
    (∃ k v, Binds kv k v) ∨ ((∀ k v, ¬ Binds kv k v) ∧ keyOf kv = kv) := by
  cases h : indexByte 61 kv with
  | none =>
    refine Or.inr ⟨?_, by simp [keyOf, h]⟩
    rintro k v ⟨_, rfl⟩
    rw [indexByte_none] at h
    simp at h
  | some i =>
    obtain ⟨t, ht, hn⟩ := indexByte_some h
    cases i with
    | zero =>
      refine Or.inr ⟨?_, by simp [keyOf, h]⟩
      rintro k v ⟨hk, rfl⟩
      have := indexByte_append (t := v) hk.2
      have e : k ++ b!"=" ++ v = k ++ 61 :: v := by simp
      rw [e, this] at h
      have := hk.1
      simp_all
    | succ i =>
      refine Or.inl ⟨kv.take (i + 1), t, ⟨?_, hn⟩, by simpa using ht⟩
      intro e
      rw [e] at ht
      have h0 : indexByte 61 kv = some 0 := by rw [ht]; simp [indexByte]
      rw [h0] at h; simp at h

theorem filteredAs_keyOf (kv : Str) : FilteredAs kv (keyOf kv) := by
  rcases binds_or kv with ⟨k, v, h⟩ | ⟨h, hk⟩
  · exact Or.inl ⟨v, by rw [keyOf_of_binds h]; exact h⟩
  · exact Or.inr ⟨hk, h⟩

theorem keyOf_of_filteredAs {kv k : Str} (h : FilteredAs kv k) : keyOf kv = k := by
  rcases h with ⟨v, h⟩ | ⟨rfl, h⟩
  · exact keyOf_of_binds h
  · rcases binds_or k with ⟨n, v, h'⟩ | ⟨_, hk⟩
    · exact absurd h' (h n v)
    · exact hk

theorem filteredAs_iff {kv k : Str} : FilteredAs kv k ↔ keyOf kv = k :=
  ⟨keyOf_of_filteredAs, fun h => h ▸ filteredAs_keyOf kv⟩

/-- The value of entry `kv` for `k`. -/
def bind? (k kv : Str) : Option Str :=
  if hasPrefix kv (k ++ [61]) then some (kv.drop (k.length + 1)) else none

theorem bind?_eq_some {k kv v : Str} (hk : Name k) : bind? k kv = some v ↔ Binds kv k v := by
  unfold bind? hasPrefix Binds
  constructor
  · intro h
    split at h
    · rename_i hp
      refine ⟨hk, ?_⟩
      simp only [beq_iff_eq] at hp
      simp only [Option.some.injEq] at h
      rw [← h]
      have := List.take_append_drop (k ++ [61]).length kv
      rw [hp] at this
      simpa using this.symm
    · simp at h
  · rintro ⟨_, rfl⟩
    have e : List.take (List.length k + 1) (k ++ 61 :: v) = k ++ [61] := by
      rw [List.take_append]; simp [List.take_of_length_le]
    simp [e]

theorem bind?_eq_none {k kv : Str} (hk : Name k) : bind? k kv = none ↔ ∀ v, ¬ Binds kv k v := by
  rw [Option.eq_none_iff_forall_ne_some]
  exact forall_congr' fun v => not_congr (bind?_eq_some hk)

/-- All values of `k`, in order. -/
def values (k : Str) (env : List Str) : List Str := env.filterMap (bind? k)

theorem lookupFirst_iff {k : Str} (hk : Name k) {env : List Str} {v : Str} :
    LookupFirst env k v ↔ (values k env).head? = some v := by
  constructor
  · intro h
    induction h with
    | here h => simp [values, (bind?_eq_some hk).mpr h]
    | skip h _ ih => simpa [values, (bind?_eq_none hk).mpr h] using ih hk
  · intro h
    induction env with
    | nil => simp [values] at h
    | cons kv env ih =>
      cases hb : bind? k kv with
      | none =>
        refine .skip ((bind?_eq_none hk).mp hb) (ih ?_)
        simpa [values, hb] using h
      | some w =>
        simp only [values, List.filterMap_cons, hb, List.head?_cons, Option.some.injEq] at h
        subst h
        exact .here ((bind?_eq_some hk).mp hb)

theorem lookupLast_iff {k : Str} (hk : Name k) {env : List Str} {v : Str} :
    LookupLast env k v ↔ (values k env).getLast? = some v := by
  constructor
  · intro h
    induction h with
    | here h => simp [values, (bind?_eq_some hk).mpr h]
    | skip h _ ih => simpa [values, (bind?_eq_none hk).mpr h] using ih hk
  · intro h
    induction env using List.reverseRecOn with
    | nil => simp [values] at h
    | append_singleton env kv ih =>
      cases hb : bind? k kv with
      | none =>
        refine .skip ((bind?_eq_none hk).mp hb) (ih ?_)
        simpa [values, hb] using h
      | some w =>
        simp [values, hb] at h
        subst h
        exact .here ((bind?_eq_some hk).mp hb)

theorem toSet_has (l : List Str) (m : GoMap Str Unit) (k : Str) :
    (toSet l m).has k = true ↔ k ∈ l ∨ m.has k = true := by
  induction l generalizing m with
  | nil => simp [toSet]
  | cons a l ih =>
    rw [toSet, ih]
    simp only [GoMap.has_iff, GoMap.mem_keys_set, List.mem_cons]
    tauto

theorem toSet_length (l : List Str) : (toSet l []).length > 0 ↔ l ≠ [] := by
  cases l with
  | nil => simp [toSet]
  | cons a l =>
    simp only [ne_eq, reduceCtorEq, not_false_eq_true, iff_true]
    have h := (toSet_has (a :: l) [] a).mpr (Or.inl (by simp))
    cases hh : toSet (a :: l) [] with
    | nil => rw [hh] at h; simp [GoMap.has] at h
    | cons => simp

theorem entries_eq (m acc : GoMap Str Str) (hm : m.WF) (hd : ∀ k ∈ m.keys, k ∉ acc.keys) :
    entries m acc = acc ++ m.map (fun p => (p.1, p.1 ++ 61 :: p.2)) := by
  induction m generalizing acc with
  | nil => simp [entries]
  | cons p m ih =>
    obtain ⟨k, v⟩ := p
    have hk : k ∉ acc.keys := hd k (by simp [GoMap.keys])
    have hset : ∀ (acc : GoMap Str Str) (w : Str), k ∉ acc.keys → acc.set k w = acc ++ [(k, w)] := by
      intro acc w h
      induction acc with
      | nil => rfl
      | cons q acc ih =>
        obtain ⟨a, u⟩ := q
        simp only [GoMap.keys, List.map_cons, List.mem_cons, not_or] at h
        have ha : ¬ a = k := fun e => h.1 e.symm
        simp only [GoMap.set, if_neg ha, List.cons_append]
        rw [ih h.2]
    simp only [GoMap.WF, GoMap.keys, List.map_cons, List.nodup_cons] at hm
    rw [entries, hset acc _ hk, ih _ hm.2]
    · simp
    · intro k' hk' hin
      simp only [GoMap.keys, List.map_append, List.map_cons, List.map_nil, List.mem_append,
        List.mem_singleton] at hin
      rcases hin with hin | hin
      · exact hd k' (by simp only [GoMap.keys, List.map_cons, List.mem_cons]; exact Or.inr hk') hin
      · subst hin; exact hm.1 hk'

/-- `Passes` decided. -/
def passesB (e : Env) (k : Str) : Bool :=
  if e.allow = [] then decide (k ∉ e.deny) else decide (k ∈ e.allow)

theorem passesB_iff {e : Env} {k : Str} : passesB e k = true ↔ Passes e.allow e.deny k := by
  unfold passesB Passes
  by_cases h : e.allow = [] <;> simp [h]

/-- What one entry of `environ` turns into. -/
def keep (e : Env) (kv : Str) : Option Str :=
  match e.set.get? (keyOf kv) with
  | some v => some (keyOf kv ++ 61 :: v)
  | none => if passesB e (keyOf kv) then some kv else none

theorem get?_map_val (m : GoMap Str Str) (k : Str) :
    GoMap.get? (m.map (fun p => (p.1, p.1 ++ 61 :: p.2))) k =
      (m.get? k).map (fun v => k ++ 61 :: v) := by
  induction m with
  | nil => rfl
  | cons p m ih =>
    obtain ⟨a, v⟩ := p
    simp only [List.map_cons, GoMap.get?_cons]
    by_cases h : a = k <;> simp [h, ih]

theorem filterLoop_eq (e : Env) (environ tmp : List Str) (updated : GoMap Str Unit) :
    ∃ u, filterLoop (toSet e.allow []) (toSet e.deny [])
        (e.set.map (fun p => (p.1, p.1 ++ 61 :: p.2))) environ tmp updated =
        (tmp ++ environ.filterMap (keep e), u) ∧
      ∀ k, u.has k = true ↔
        updated.has k = true ∨ (k ∈ e.set.keys ∧ ∃ kv ∈ environ, keyOf kv = k) := by
  induction environ generalizing tmp updated with
  | nil => exact ⟨updated, by simp [filterLoop], by simp⟩
  | cons kv environ ih =>
    rw [filterLoop]
    simp only [get?_map_val]
    cases hg : e.set.get? (keyOf kv) with
    | some v =>
      simp only [Option.map_some]
      obtain ⟨u, hu, hk⟩ := ih (tmp ++ [keyOf kv ++ 61 :: v]) (updated.set (keyOf kv) ())
      refine ⟨u, ?_, ?_⟩
      · rw [hu]; simp [keep, hg]
      · intro k
        rw [hk]
        simp only [GoMap.has_iff, GoMap.mem_keys_set, List.mem_cons]
        constructor
        · rintro ((rfl | h) | ⟨h, kv', h', rfl⟩)
          · exact Or.inr ⟨GoMap.mem_keys_of_get? hg, kv, Or.inl rfl, rfl⟩
          · exact Or.inl h
          · exact Or.inr ⟨h, kv', Or.inr h', rfl⟩
        · rintro (h | ⟨h, kv', (rfl | h'), rfl⟩)
          · exact Or.inl (Or.inr h)
          · exact Or.inl (Or.inl rfl)
          · exact Or.inr ⟨h, kv', h', rfl⟩
    | none =>
      simp only [Option.map_none]
      have hkeys : ∀ (b : Prop), (b ∨ (∃ k, k = keyOf kv ∧ k ∈ e.set.keys)) ↔ b := by
        intro b
        have := GoMap.get?_eq_none.mp hg
        simp [this]
      have hiff : ∀ (updated : GoMap Str Unit) k,
          (updated.has k = true ∨ (k ∈ e.set.keys ∧ ∃ kv ∈ environ, keyOf kv = k)) ↔
          (updated.has k = true ∨ (k ∈ e.set.keys ∧ ∃ kv' ∈ kv :: environ, keyOf kv' = k)) := by
        intro updated k
        have := GoMap.get?_eq_none.mp hg
        constructor
        · rintro (h | ⟨h, kv', h', rfl⟩)
          · exact Or.inl h
          · exact Or.inr ⟨h, kv', by simp [h'], rfl⟩
        · rintro (h | ⟨h, kv', h', rfl⟩)
          · exact Or.inl h
          · rcases List.mem_cons.mp h' with rfl | h'
            · exact absurd h this
            · exact Or.inr ⟨h, kv', h', rfl⟩
      have hT : passesB e (keyOf kv) = true → ∃ u, filterLoop (toSet e.allow []) (toSet e.deny [])
          (e.set.map (fun p => (p.1, p.1 ++ 61 :: p.2))) environ (tmp ++ [kv]) updated =
          (tmp ++ (kv :: environ).filterMap (keep e), u) ∧
          ∀ k, u.has k = true ↔
            updated.has k = true ∨ (k ∈ e.set.keys ∧ ∃ kv' ∈ kv :: environ, keyOf kv' = k) := by
        intro hp
        obtain ⟨u, hu, hk⟩ := ih (tmp ++ [kv]) updated
        exact ⟨u, by rw [hu]; simp [keep, hg, hp], fun k => (hk k).trans (hiff updated k)⟩
      have hF : passesB e (keyOf kv) = false → ∃ u, filterLoop (toSet e.allow []) (toSet e.deny [])
          (e.set.map (fun p => (p.1, p.1 ++ 61 :: p.2))) environ tmp updated =
          (tmp ++ (kv :: environ).filterMap (keep e), u) ∧
          ∀ k, u.has k = true ↔
            updated.has k = true ∨ (k ∈ e.set.keys ∧ ∃ kv' ∈ kv :: environ, keyOf kv' = k) := by
        intro hp
        obtain ⟨u, hu, hk⟩ := ih tmp updated
        exact ⟨u, by rw [hu]; simp [keep, hg, hp], fun k => (hk k).trans (hiff updated k)⟩
      have hA : (toSet e.allow []).has (keyOf kv) = true ↔ keyOf kv ∈ e.allow := by
        rw [toSet_has]; simp [GoMap.has]
      have hD : (toSet e.deny []).has (keyOf kv) = true ↔ keyOf kv ∈ e.deny := by
        rw [toSet_has]; simp [GoMap.has]
      by_cases ha : e.allow = []
      · have : ¬ (toSet e.allow []).length > 0 := by rw [toSet_length]; simp [ha]
        rw [if_neg this]
        by_cases hd : e.deny = []
        · have : ¬ (toSet e.deny []).length > 0 := by rw [toSet_length]; simp [hd]
          rw [if_neg this]
          exact hT (by simp [passesB, ha, hd])
        · rw [if_pos ((toSet_length _).mpr hd)]
          by_cases hm : keyOf kv ∈ e.deny
          · rw [hD.mpr hm]
            exact hF (by simp [passesB, ha, hm])
          · have : (toSet e.deny []).has (keyOf kv) = false := by
              rw [← Bool.not_eq_true, hD]; exact hm
            rw [this]
            exact hT (by simp [passesB, ha, hm])
      · rw [if_pos ((toSet_length _).mpr ha)]
        by_cases hm : keyOf kv ∈ e.allow
        · rw [hA.mpr hm]
          exact hT (by simp [passesB, ha, hm])
        · have : (toSet e.allow []).has (keyOf kv) = false := by
            rw [← Bool.not_eq_true, hA]; exact hm
          rw [this]
          exact hF (by simp [passesB, ha, hm])

theorem addLoop_eq (updated : GoMap Str Unit) (rest : List (Str × Str)) (tmp : List Str) :
    addLoop updated rest tmp =
      tmp ++ (rest.filter (fun p => !updated.has p.1)).map Prod.snd := by
  induction rest generalizing tmp with
  | nil => simp [addLoop]
  | cons p rest ih =>
    obtain ⟨k, kv⟩ := p
    cases h : updated.has k <;> simp [addLoop, h, ih]

/-- The Set entries that replace nothing. -/
def fresh (e : Env) (environ : List Str) : List (Str × Str) :=
  e.set.filter (fun p => decide (p.1 ∉ environ.map keyOf))

theorem apply_eq (e : Env) (environ : List Str) (h : e.set.WF) :
    e.apply environ =
      environ.filterMap (keep e) ++ (fresh e environ).map (fun p => p.1 ++ 61 :: p.2) := by
  obtain ⟨u, hu, hk⟩ := filterLoop_eq e environ [] []
  have he : entries e.set [] = e.set.map (fun p => (p.1, p.1 ++ 61 :: p.2)) := by
    rw [entries_eq _ _ h (by simp [GoMap.keys])]; simp
  unfold Env.apply
  simp only [he, hu, addLoop_eq, List.nil_append]
  congr 1
  rw [List.filter_map, List.map_map]
  unfold fresh
  have : e.set.filter ((fun p : Str × Str => !GoMap.has u p.1) ∘ fun p => (p.1, p.1 ++ 61 :: p.2)) =
      e.set.filter (fun p => decide (p.1 ∉ environ.map keyOf)) := by
    apply List.filter_congr
    intro p hp
    have hmem : p.1 ∈ e.set.keys := List.mem_map_of_mem hp
    have := hk p.1
    simp only [GoMap.has, GoMap.get?_nil, Option.isSome_none, Bool.false_eq_true, false_or, hmem,
      true_and] at this
    by_cases hh : p.1 ∈ environ.map keyOf
    · obtain ⟨kv, h1, h2⟩ := List.mem_map.mp hh
      simp only [Function.comp, GoMap.has, this.mpr ⟨kv, h1, h2⟩, Bool.not_true, hh, not_true,
        decide_false]
    · have : ¬ (GoMap.get? u p.1).isSome = true := by
        rw [this]
        rintro ⟨kv, h1, h2⟩
        exact hh (List.mem_map.mpr ⟨kv, h1, h2⟩)
      simp only [Function.comp, GoMap.has, Bool.not_eq_true _ ▸ this, hh, not_false_iff,
        decide_true, Bool.not_false]
  rw [this]
  rfl

end Verif.Sh
