import Verif.Base.Str
import Mathlib.Data.List.Nodup

/-!
# Go maps

A Go map is an association list with distinct keys (`GoMap.WF`).  The order of the list stands for
one possible iteration order of `for k, v := range m`; theorems quantify over every list, hence
over every order.
-/

namespace Verif

/-- Go `map[K]V`. -/
abbrev GoMap (K V : Type) := List (K × V)

namespace GoMap

set_option linter.unusedSectionVars false

variable {K V : Type} [DecidableEq K]

/-- `v, ok := m[k]`. -/
def get? : GoMap K V → K → Option V
  | [], _ => none
  | (a, v) :: m, k => if a = k then some v else get? m k

/-- `_, ok := m[k]`. -/
def has (m : GoMap K V) (k : K) : Bool := (m.get? k).isSome

/-- `m[k] = v`: replaces in place or adds the key. -/
def set : GoMap K V → K → V → GoMap K V
  | [], k, v => [(k, v)]
  | (a, w) :: m, k, v => if a = k then (a, v) :: m else (a, w) :: set m k v

/-- `delete(m, k)`. -/
def del (m : GoMap K V) (k : K) : GoMap K V := m.filter (fun p => p.1 ≠ k)

/-- The keys in iteration order. -/
def keys (m : GoMap K V) : List K := m.map Prod.fst

/-- Keys are distinct: what makes an association list a map. -/
def WF (m : GoMap K V) : Prop := m.keys.Nodup

instance (m : GoMap K V) : Decidable m.WF := inferInstanceAs (Decidable m.keys.Nodup)

@[simp] theorem get?_nil (k : K) : get? ([] : GoMap K V) k = none := rfl

theorem get?_cons (a : K) (v : V) (m : GoMap K V) (k : K) :
    get? ((a, v) :: m) k = if a = k then some v else get? m k := rfl

theorem get?_eq_none {m : GoMap K V} {k : K} : m.get? k = none ↔ k ∉ m.keys := by
  induction m with
  | nil => simp [keys]
  | cons p m ih =>
    obtain ⟨a, v⟩ := p
    rw [get?_cons]
    by_cases h : a = k
    · subst h; simp [keys]
    · have h' : ¬ k = a := fun e => h e.symm
      simp [keys, h, h', ih] 

theorem get?_isSome {m : GoMap K V} {k : K} : (m.get? k).isSome ↔ k ∈ m.keys := by
  rw [← not_iff_not, ← get?_eq_none]
  cases m.get? k <;> simp

@[simp] theorem has_iff {m : GoMap K V} {k : K} : m.has k = true ↔ k ∈ m.keys := get?_isSome

theorem has_false {m : GoMap K V} {k : K} : m.has k = false ↔ k ∉ m.keys := by
  rw [← has_iff]; cases m.has k <;> simp

theorem mem_of_get? {m : GoMap K V} {k : K} {v : V} (h : m.get? k = some v) : (k, v) ∈ m := by
  induction m with
  | nil => simp at h
  | cons p m ih =>
    obtain ⟨a, w⟩ := p
    rw [get?_cons] at h
    by_cases e : a = k
    · subst e; simp at h; subst h; simp
    · simp [e] at h; exact List.mem_cons_of_mem _ (ih h)

theorem mem_keys_of_get? {m : GoMap K V} {k : K} {v : V} (h : m.get? k = some v) : k ∈ m.keys :=
  get?_isSome.mp (by simp [h])

theorem mem_keys_of_mem {m : GoMap K V} {k : K} {v : V} (h : (k, v) ∈ m) : k ∈ m.keys :=
  List.mem_map.mpr ⟨_, h, rfl⟩

theorem exists_get?_of_mem_keys {m : GoMap K V} {k : K} (h : k ∈ m.keys) :
    ∃ v, m.get? k = some v := Option.isSome_iff_exists.mp (get?_isSome.mpr h)

theorem get?_of_mem {m : GoMap K V} (wf : m.WF) {k : K} {v : V} (h : (k, v) ∈ m) :
    m.get? k = some v := by
  induction m with
  | nil => simp at h
  | cons p m ih =>
    obtain ⟨a, w⟩ := p
    simp only [WF, keys, List.map_cons, List.nodup_cons] at wf
    rw [get?_cons]
    rcases List.mem_cons.mp h with e | h
    · cases e; simp
    · have : a ≠ k := by
        rintro rfl; exact wf.1 (mem_keys_of_mem h)
      simp only [this, if_false]; exact ih wf.2 h

theorem get?_iff_mem {m : GoMap K V} (wf : m.WF) {k : K} {v : V} :
    m.get? k = some v ↔ (k, v) ∈ m := ⟨mem_of_get?, get?_of_mem wf⟩

theorem get?_set (m : GoMap K V) (k : K) (v : V) (k' : K) :
    (m.set k v).get? k' = if k = k' then some v else m.get? k' := by
  induction m with
  | nil => simp [set, get?_cons]
  | cons p m ih =>
    obtain ⟨a, w⟩ := p
    by_cases h : a = k
    · subst h; simp only [set, if_true, get?_cons]; split <;> rfl
    · simp only [set, h, if_false, get?_cons, ih]
      by_cases h2 : a = k'
      · subst h2; have : ¬ k = a := fun e => h e.symm
        simp [this]
      · simp [h2]

theorem keys_set (m : GoMap K V) (k : K) (v : V) :
    (m.set k v).keys = if k ∈ m.keys then m.keys else m.keys ++ [k] := by
  induction m with
  | nil => simp [set, keys]
  | cons p m ih =>
    obtain ⟨a, w⟩ := p
    by_cases h : a = k
    · subst h; simp [set, keys]
    · have h' : ¬ k = a := fun e => h e.symm
      simp only [set, h, if_false]
      simp only [keys, List.map_cons] at ih ⊢
      rw [ih]
      by_cases h3 : k ∈ List.map Prod.fst m <;> simp [h3, h']

theorem mem_keys_set {m : GoMap K V} {k k' : K} {v : V} :
    k' ∈ (m.set k v).keys ↔ k' = k ∨ k' ∈ m.keys := by
  rw [keys_set]; split
  · constructor
    · exact Or.inr
    · rintro (rfl | h) <;> assumption
  · simp [or_comm]

theorem WF.set {m : GoMap K V} (wf : m.WF) (k : K) (v : V) : (m.set k v).WF := by
  unfold WF at *
  rw [keys_set]; split
  · exact wf
  · rename_i h
    exact List.nodup_append.mpr ⟨wf, by simp, by simp; intro a ha e; exact h (e ▸ ha)⟩

theorem keys_del (m : GoMap K V) (k : K) : (m.del k).keys = m.keys.filter (fun a => a ≠ k) := by
  simp only [keys, del, List.filter_map]; rfl

theorem mem_keys_del {m : GoMap K V} {k k' : K} : k' ∈ (m.del k).keys ↔ k' ∈ m.keys ∧ k' ≠ k := by
  rw [keys_del]; simp

theorem WF.del {m : GoMap K V} (wf : m.WF) (k : K) : (m.del k).WF := by
  unfold WF at *; rw [keys_del]; exact wf.filter _

theorem get?_del (m : GoMap K V) (k k' : K) :
    (m.del k).get? k' = if k = k' then none else m.get? k' := by
  induction m with
  | nil => simp [GoMap.del]
  | cons p m ih =>
    obtain ⟨a, w⟩ := p
    simp only [GoMap.del] at ih ⊢
    by_cases h : a = k
    · subst h; simp only [List.filter_cons, ne_eq, not_true_eq_false, decide_false, get?_cons]
      simp only [ne_eq] at ih
      by_cases h2 : a = k'
      · subst h2; simpa using ih
      · simpa [h2] using ih
    · simp only [List.filter_cons, ne_eq, h, not_false_eq_true, decide_true, if_true, get?_cons]
      simp only [ne_eq] at ih
      rw [ih]
      by_cases h2 : a = k'
      · subst h2; have : ¬ k = a := fun e => h e.symm
        simp [this]
      · simp [h2]

theorem get?_map_val {W : Type} (f : K → V → W) (m : GoMap K V) (k : K) :
    get? (m.map (fun p => (p.1, f p.1 p.2))) k = (m.get? k).map (f k) := by
  induction m with
  | nil => rfl
  | cons p m ih =>
    obtain ⟨a, w⟩ := p
    simp only [List.map_cons, get?_cons, ih]
    by_cases h : a = k
    · subst h; simp
    · simp [h]

@[simp] theorem keys_map_val {W : Type} (f : K → V → W) (m : GoMap K V) :
    keys (m.map (fun p => (p.1, f p.1 p.2))) = m.keys := by
  simp [keys, Function.comp_def]

theorem WF.nil : WF ([] : GoMap K V) := by simp [WF, keys]

theorem get?_perm {m m' : GoMap K V} (wf : m.WF) (h : m.Perm m') (k : K) :
    m.get? k = m'.get? k := by
  have wf' : m'.WF := (h.map Prod.fst).nodup_iff.mp wf
  cases e : m.get? k with
  | none =>
    symm; rw [get?_eq_none] at e ⊢
    exact fun hk => e ((h.map Prod.fst).mem_iff.mpr hk)
  | some v =>
    symm; rw [get?_iff_mem wf'] ; exact h.mem_iff.mp (mem_of_get? e)

end GoMap

end Verif
