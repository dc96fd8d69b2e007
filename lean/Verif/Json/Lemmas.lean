import Verif.Json.Spec

/-!
# Decoding structs: helper lemmas
-/

namespace Verif.Json
open Verif Book Spec

/-! ## Names -/

/-- Names are ASCII. -/
def Ascii (s : Str) : Prop := ∀ c ∈ s, c.toNat < 128

instance (s : Str) : Decidable (Ascii s) := inferInstanceAs (Decidable (∀ c ∈ s, c.toNat < 128))

theorem fold_letter (c d : UInt8) (hd : d < 128) :
    ((c = d) ∨ ((65 ≤ c &&& 223 ∧ c &&& 223 ≤ 90) ∧ c &&& 223 = d &&& 223)) ↔
      (c = d ∨ (65 ≤ c.toNat ∧ c.toNat ≤ 90 ∧ d.toNat = c.toNat + 32) ∨
        (97 ≤ c.toNat ∧ c.toNat ≤ 122 ∧ d.toNat + 32 = c.toNat)) := by
  revert hd
  have : ∀ n : Fin 256, ∀ m : Fin 128,
      ((UInt8.ofNat n.1 = UInt8.ofNat m.1) ∨ ((65 ≤ UInt8.ofNat n.1 &&& 223 ∧ UInt8.ofNat n.1 &&& 223 ≤ 90) ∧
        UInt8.ofNat n.1 &&& 223 = UInt8.ofNat m.1 &&& 223)) ↔
      (UInt8.ofNat n.1 = UInt8.ofNat m.1 ∨ (65 ≤ n.1 ∧ n.1 ≤ 90 ∧ m.1 = n.1 + 32) ∨
        (97 ≤ n.1 ∧ n.1 ≤ 122 ∧ m.1 + 32 = n.1)) := by decide +kernel
  intro hd
  have hd' : d.toNat < 128 := UInt8.lt_iff_toNat_lt.mp hd
  have hc : c.toNat < 256 := UInt8.toNat_lt c
  have := this ⟨c.toNat, hc⟩ ⟨d.toNat, hd'⟩
  simpa using this

theorem equalFold_iff {n : Str} (hn : Ascii n) {k : Str} : equalFold n k = true ↔ Spells n k := by
  induction n generalizing k with
  | nil =>
    cases k with
    | nil => simp [equalFold, Spells.nil]
    | cons d k => simp only [equalFold, Bool.false_eq_true, false_iff]; intro h; cases h
  | cons c n ih =>
    have hn' : Ascii n := fun x hx => hn x (List.mem_cons_of_mem _ hx)
    have hc : c.toNat < 128 := hn c (by simp)
    cases k with
    | nil =>
      simp only [equalFold, Bool.false_eq_true, false_iff]
      intro h; cases h
    | cons d k =>
      rw [equalFold]
      by_cases hd : d < 128
      · rw [if_pos hd]
        have hf := fold_letter c d hd
        have hd' : d.toNat < 128 := UInt8.lt_iff_toNat_lt.mp hd
        have hl : (if c = d then equalFold n k
            else if 65 ≤ c &&& 223 ∧ c &&& 223 ≤ 90 then
              if c &&& 223 = d &&& 223 then equalFold n k else false
            else false) = true ↔
            ((c = d) ∨ ((65 ≤ c &&& 223 ∧ c &&& 223 ≤ 90) ∧ c &&& 223 = d &&& 223)) ∧
              equalFold n k = true := by
          by_cases h1 : c = d
          · simp [h1]
          · by_cases h2 : 65 ≤ c &&& 223 ∧ c &&& 223 ≤ 90
            · by_cases h3 : c &&& 223 = d &&& 223
              · rw [if_neg h1, if_pos h2, if_pos h3]; exact ⟨fun h => ⟨Or.inr ⟨h2, h3⟩, h⟩, And.right⟩
              · rw [if_neg h1, if_pos h2, if_neg h3]; simp [h1, h3]
            · rw [if_neg h1, if_neg h2]; simp [h1, h2]
        rw [hl, hf, ih hn']
        constructor
        · rintro ⟨rfl | ⟨a, b, e⟩ | ⟨a, b, e⟩, h⟩
          · exact .same hc h
          · exact .lower a b e h
          · exact .upper a b e h
        · intro h
          cases h with
          | same _ h => exact ⟨Or.inl rfl, h⟩
          | lower a b e h => exact ⟨Or.inr (Or.inl ⟨a, b, e⟩), h⟩
          | upper a b e h => exact ⟨Or.inr (Or.inr ⟨a, b, e⟩), h⟩
          | longS => simp at hd'
          | kelvin => simp at hd'
      · rw [if_neg hd]
        have hd' : 128 ≤ d.toNat := by
          have := mt UInt8.lt_iff_toNat_lt.mpr hd; simpa using this
        by_cases hs : c = 115 ∨ c = 83
        · rw [if_pos hs]
          have hk : ¬ (c = 75 ∨ c = 107) := by rcases hs with rfl | rfl <;> decide
          constructor
          · intro h
            split at h
            · rename_i t' e
              obtain ⟨rfl, rfl⟩ := List.cons.inj e
              exact .longS hs.symm ((ih hn').mp h)
            · cases h
          · intro h
            cases h with
            | same => omega
            | lower a b e => omega
            | upper a b e => omega
            | longS _ h => simpa using (ih hn').mpr h
            | kelvin h => exact absurd h hk
        · rw [if_neg hs]
          by_cases hk : c = 107 ∨ c = 75
          · rw [if_pos hk]
            constructor
            · intro h
              split at h
              · rename_i t' e
                obtain ⟨rfl, rfl⟩ := List.cons.inj e
                exact .kelvin hk.symm ((ih hn').mp h)
              · cases h
            · intro h
              cases h with
              | same => omega
              | lower a b e => omega
              | upper a b e => omega
              | longS h => exact absurd h.symm hs
              | kelvin _ h => simpa using (ih hn').mpr h
          · rw [if_neg hk]
            simp only [Bool.false_eq_true, false_iff]
            intro h
            cases h with
            | same => omega
            | lower a b e => omega
            | upper a b e => omega
            | longS h => exact hs h.symm
            | kelvin h => exact hk h.symm

/-- A name in lower case, byte by byte. -/
def lowerByte (c : UInt8) : UInt8 := if 65 ≤ c.toNat ∧ c.toNat ≤ 90 then c + 32 else c

theorem lowerByte_of_upper {c d : UInt8} (h1 : 65 ≤ c.toNat) (h2 : c.toNat ≤ 90)
    (h3 : d.toNat = c.toNat + 32) : lowerByte c = lowerByte d := by
  have hd : ¬ (65 ≤ d.toNat ∧ d.toNat ≤ 90) := by omega
  rw [lowerByte, lowerByte, if_pos ⟨h1, h2⟩, if_neg hd]
  apply UInt8.toNat_inj.mp
  rw [UInt8.toNat_add]
  simp; omega

/-- Names that can be spelled the same are equal up to case. -/
theorem spells_lower {n m k : Str} (h : Spells n k) (h' : Spells m k) :
    n.map lowerByte = m.map lowerByte := by
  induction h generalizing m with
  | nil => cases h'; rfl
  | same hc _ ih =>
    rename_i c n k _
    cases h' with
    | same _ h' => simp [ih h']
    | lower a b e h' =>
      simp only [List.map_cons, ih h', List.cons.injEq, and_true]
      exact (lowerByte_of_upper a b e).symm
    | upper a b e h' =>
      simp only [List.map_cons, ih h', List.cons.injEq, and_true]
      exact lowerByte_of_upper (by omega) (by omega) (by omega)
    | longS => simp at hc
    | kelvin => simp at hc
  | lower a b e _ ih =>
    cases h' with
    | same hc h' =>
      simp only [List.map_cons, ih h', List.cons.injEq, and_true]
      exact lowerByte_of_upper a b e
    | lower a' b' e' h' =>
      simp only [List.map_cons, ih h', List.cons.injEq, and_true]
      rw [lowerByte_of_upper a b e, lowerByte_of_upper a' b' e']
    | upper a' b' e' h' => omega
    | longS => simp at e; omega
    | kelvin => simp at e; omega
  | upper a b e _ ih =>
    cases h' with
    | same hc h' =>
      simp only [List.map_cons, ih h', List.cons.injEq, and_true]
      exact (lowerByte_of_upper (by omega) (by omega) (by omega)).symm
    | lower a' b' e' h' => omega
    | upper a' b' e' h' =>
      simp only [List.map_cons, ih h', List.cons.injEq, and_true]
      congr 1
      exact UInt8.toNat_inj.mp (by omega)
    | longS => simp at e; omega
    | kelvin => simp at e; omega
  | longS hc h ih =>
    generalize hk : ([0xC5, 0xBF] ++ _ : Str) = key at h'
    cases h' with
    | nil => cases hk
    | same hc => obtain ⟨rfl, _⟩ := List.cons.inj hk; simp at hc
    | lower a b e => obtain ⟨rfl, _⟩ := List.cons.inj hk; simp at e; omega
    | upper a b e => obtain ⟨rfl, _⟩ := List.cons.inj hk; simp at e; omega
    | longS hc' h' =>
      simp only [List.cons_append, List.nil_append, List.cons.injEq, true_and] at hk
      subst hk
      simp only [List.map_cons, ih h', List.cons.injEq, and_true]
      rcases hc with rfl | rfl <;> rcases hc' with rfl | rfl <;> decide
    | kelvin => simp at hk
  | kelvin hc h ih =>
    generalize hk : ([0xE2, 0x84, 0xAA] ++ _ : Str) = key at h'
    cases h' with
    | nil => cases hk
    | same hc => obtain ⟨rfl, _⟩ := List.cons.inj hk; simp at hc
    | lower a b e => obtain ⟨rfl, _⟩ := List.cons.inj hk; simp at e; omega
    | upper a b e => obtain ⟨rfl, _⟩ := List.cons.inj hk; simp at e; omega
    | longS => simp at hk
    | kelvin hc' h' =>
      simp only [List.cons_append, List.nil_append, List.cons.injEq, true_and] at hk
      subst hk
      simp only [List.map_cons, ih h', List.cons.injEq, and_true]
      rcases hc with rfl | rfl <;> rcases hc' with rfl | rfl <;> decide

theorem spells_self {n : Str} (hn : Ascii n) : Spells n n := by
  induction n with
  | nil => exact .nil
  | cons c n ih => exact .same (hn c (by simp)) (ih fun x hx => hn x (List.mem_cons_of_mem _ hx))

/-! ## Tables of fields -/

/-- The table of the fields of a struct is what Go's reflection says it is: distinct names, and fields
that do not overlap and, with the unexported ones (`keep`), make up the struct. -/
structure Lawful {α γ : Type} (fields : List (Fld α)) (keep : α → γ) : Prop where
  ascii : ∀ f ∈ fields, Ascii f.name
  distinct : (fields.map fun f => f.name.map lowerByte).Nodup
  get_put : ∀ f ∈ fields, ∀ v a x, f.dec v (f.get a) = .ok x → f.get (f.put a x) = x
  other : fields.Pairwise fun f g => (∀ a x, g.get (f.put a x) = g.get a) ∧
    ∀ a x, f.get (g.put a x) = f.get a
  keep_put : ∀ f ∈ fields, ∀ a x, keep (f.put a x) = keep a
  ext : ∀ a b, keep a = keep b → (∀ f ∈ fields, f.get a = f.get b) → a = b

variable {α γ : Type} {fields : List (Fld α)} {keep : α → γ}

theorem Lawful.unique (hl : Lawful fields keep) {f g : Fld α} {k : Str} (hf : f ∈ fields)
    (hg : g ∈ fields) (h : Spells f.name k) (h' : Spells g.name k) : f = g := by
  have := spells_lower h h'
  exact List.inj_on_of_nodup_map hl.distinct hf hg this

theorem Lawful.other' (hl : Lawful fields keep) {f g : Fld α} (hf : f ∈ fields) (hg : g ∈ fields)
    (hne : f ≠ g) (a : α) (x : f.β) : g.get (f.put a x) = g.get a := by
  have key : ∀ l : List (Fld α), f ∈ l → g ∈ l → (l.Pairwise fun f g =>
      (∀ a x, g.get (f.put a x) = g.get a) ∧ ∀ a x, f.get (g.put a x) = f.get a) →
      g.get (f.put a x) = g.get a := by
    intro l
    induction l with
    | nil => intro h; simp at h
    | cons p l ih =>
      intro h1 h2 hp
      obtain ⟨p1, p2⟩ := List.pairwise_cons.mp hp
      rcases List.mem_cons.mp h1 with rfl | h1'
      · rcases List.mem_cons.mp h2 with rfl | h2'
        · exact absurd rfl hne
        · exact (p1 g h2').1 a x
      · rcases List.mem_cons.mp h2 with rfl | h2'
        · exact (p1 f h1').2 a x
        · exact ih h1' h2' p2
  exact key fields hf hg hl.other

theorem Lawful.find_iff (hl : Lawful fields keep) {key : Str} {f : Fld α} :
    findField fields key = some f ↔ f ∈ fields ∧ Spells f.name key := by
  unfold findField
  cases h1 : fields.find? (fun f => f.name = key) with
  | some g =>
    have hg := List.find?_some h1
    have hm := List.mem_of_find?_eq_some h1
    simp only [decide_eq_true_eq] at hg
    have hs : Spells g.name key := hg ▸ spells_self (hl.ascii g hm)
    simp only [Option.some.injEq]
    constructor
    · rintro rfl; exact ⟨hm, hs⟩
    · rintro ⟨h, h'⟩; exact hl.unique hm h hs h'
  | none =>
    constructor
    · intro h
      have hm := List.mem_of_find?_eq_some h
      have hq := List.find?_some (p := fun f : Fld α => equalFold f.name key) h
      exact ⟨hm, (equalFold_iff (hl.ascii f hm)).mp hq⟩
    · rintro ⟨hm, hs⟩
      cases h2 : fields.find? (fun f => equalFold f.name key) with
      | none =>
        have := List.find?_eq_none.mp h2 f hm
        exact absurd ((equalFold_iff (hl.ascii f hm)).mpr hs) this
      | some g =>
        have hm' := List.mem_of_find?_eq_some h2
        have hq := List.find?_some (p := fun f : Fld α => equalFold f.name key) h2
        rw [hl.unique hm hm' hs ((equalFold_iff (hl.ascii g hm')).mp hq)]

theorem Lawful.find_none (hl : Lawful fields keep) {key : Str} :
    findField fields key = none ↔ ∀ f ∈ fields, ¬ Spells f.name key := by
  constructor
  · intro h f hf hs
    rw [hl.find_iff.mpr ⟨hf, hs⟩] at h; cases h
  · intro h
    cases e : findField fields key with
    | none => rfl
    | some f => exact absurd (hl.find_iff.mp e).2 (h f (hl.find_iff.mp e).1)

/-- What the members make of a field that had the value `x`. -/
def Reads (f : Fld α) (ms : List (Str × Value)) (x y : f.β) : Prop :=
  (∃ v, Has ms f.name v ∧ f.dec v x = .ok y) ∨ ((∀ v, ¬ Has ms f.name v) ∧ y = x)

theorem has_nil {name : Str} {v : Value} : ¬ Has [] name v := by
  rintro ⟨k, _, h⟩; simp at h

theorem has_cons {ms : List (Str × Value)} {key name : Str} {v w : Value} :
    Has ((key, w) :: ms) name v ↔ (Spells name key ∧ v = w) ∨ Has ms name v := by
  unfold Has
  constructor
  · rintro ⟨k, hs, h⟩
    rcases List.mem_cons.mp h with e | h
    · obtain ⟨rfl, rfl⟩ := Prod.mk.inj e; exact Or.inl ⟨hs, rfl⟩
    · exact Or.inr ⟨k, hs, h⟩
  · rintro (⟨hs, rfl⟩ | ⟨k, hs, h⟩)
    · exact ⟨key, hs, by simp⟩
    · exact ⟨k, hs, by simp [h]⟩

theorem Spec.Once.mono {names names' : List Str} {ms : List (Str × Value)} (h : Once names ms)
    (hs : ∀ n ∈ names', n ∈ names) : Once names' ms :=
  List.Pairwise.imp (fun h n hn => h n (hs n hn)) h

theorem Spec.Once.unique {names : List Str} {ms : List (Str × Value)} (h : Once names ms) {n : Str}
    (hn : n ∈ names) {v w : Value} (hv : Has ms n v) (hw : Has ms n w) : v = w := by
  induction ms with
  | nil => exact absurd hv has_nil
  | cons p ms ih =>
    obtain ⟨key, u⟩ := p
    obtain ⟨h1, h2⟩ := List.pairwise_cons.mp h
    rcases has_cons.mp hv with ⟨s, rfl⟩ | hv'
    · rcases has_cons.mp hw with ⟨_, rfl⟩ | ⟨k, s', hk⟩
      · rfl
      · exact absurd ⟨s, s'⟩ (h1 _ hk n hn)
    · rcases has_cons.mp hw with ⟨s, rfl⟩ | hw'
      · obtain ⟨k, s', hk⟩ := hv'
        exact absurd ⟨s, s'⟩ (h1 _ hk n hn)
      · exact ih h2 hv' hw'

/-- What `members` keeps. -/
theorem Lawful.keeps (hl : Lawful fields keep) {ms : List (Str × Value)} {a b : α}
    (h : members fields ms a = .ok b) : keep b = keep a := by
  induction ms generalizing a with
  | nil => obtain rfl := Except.ok.inj h; rfl
  | cons p ms ih =>
    obtain ⟨key, v⟩ := p
    rw [members] at h
    cases hf : findField fields key with
    | none => rw [hf] at h; cases h
    | some f =>
      rw [hf] at h; simp only at h
      cases hd : f.dec v (f.get a) with
      | error e => rw [hd] at h; cases h
      | ok x =>
        rw [hd] at h
        exact (ih h).trans (hl.keep_put f (hl.find_iff.mp hf).1 a x)

/-- Nothing unknown is accepted. -/
theorem Lawful.known (hl : Lawful fields keep) {ms : List (Str × Value)} {a b : α}
    (h : members fields ms a = .ok b) : Known (fields.map Fld.name) ms := by
  induction ms generalizing a with
  | nil => intro k v hk; simp at hk
  | cons p ms ih =>
    obtain ⟨key, v⟩ := p
    rw [members] at h
    cases hf : findField fields key with
    | none => rw [hf] at h; cases h
    | some f =>
      rw [hf] at h; simp only at h
      cases hd : f.dec v (f.get a) with
      | error e => rw [hd] at h; cases h
      | ok x =>
        rw [hd] at h
        intro k w hk
        rcases List.mem_cons.mp hk with e | hk
        · obtain ⟨rfl, rfl⟩ := Prod.mk.inj e
          obtain ⟨hm, hs⟩ := hl.find_iff.mp hf
          exact ⟨f.name, List.mem_map.mpr ⟨f, hm, rfl⟩, hs⟩
        · exact ih h k w hk

/-- Every member is decoded. -/
theorem Lawful.decoded (hl : Lawful fields keep) {ms : List (Str × Value)} {a b : α}
    (h : members fields ms a = .ok b) {f : Fld α} (hm : f ∈ fields) {v : Value} (hv : Has ms f.name v) :
    ∃ x y, f.dec v x = .ok y := by
  induction ms generalizing a with
  | nil => exact absurd hv has_nil
  | cons p ms ih =>
    obtain ⟨key, w⟩ := p
    rw [members] at h
    cases hf : findField fields key with
    | none => rw [hf] at h; cases h
    | some g =>
      rw [hf] at h; simp only at h
      cases hd : g.dec w (g.get a) with
      | error e => rw [hd] at h; cases h
      | ok x =>
        rw [hd] at h
        rcases has_cons.mp hv with ⟨hs, rfl⟩ | hv
        · obtain ⟨gm, gs⟩ := hl.find_iff.mp hf
          obtain rfl := hl.unique hm gm hs gs
          exact ⟨_, _, hd⟩
        · exact ih h hv

/-- The result of decoding the members of an object in which nothing is given twice. -/
theorem Lawful.members_iff (hl : Lawful fields keep) {ms : List (Str × Value)} {a b : α}
    (ho : Once (fields.map Fld.name) ms) :
    members fields ms a = .ok b ↔ Known (fields.map Fld.name) ms ∧ keep b = keep a ∧
      ∀ f ∈ fields, Reads f ms (f.get a) (f.get b) := by
  induction ms generalizing a with
  | nil =>
    constructor
    · intro h
      obtain rfl := Except.ok.inj h
      exact ⟨fun k v hk => by simp at hk, rfl, fun f _ => Or.inr ⟨fun v => has_nil, rfl⟩⟩
    · rintro ⟨_, hk, hr⟩
      rw [members, Except.ok.injEq]
      refine hl.ext a b hk.symm fun f hf => ?_
      rcases hr f hf with ⟨v, hv, _⟩ | ⟨_, e⟩
      · exact absurd hv has_nil
      · exact e.symm
  | cons p ms ih =>
    obtain ⟨key, v⟩ := p
    obtain ⟨o1, o2⟩ := List.pairwise_cons.mp ho
    rw [members]
    cases hf : findField fields key with
    | none =>
      simp only [reduceCtorEq, false_iff, not_and]
      intro hk
      obtain ⟨n, hn, hs⟩ := hk key v (by simp)
      obtain ⟨f, hm, rfl⟩ := List.mem_map.mp hn
      exact absurd hs (hl.find_none.mp hf f hm)
    | some f =>
      obtain ⟨hm, hs⟩ := hl.find_iff.mp hf
      have hno : ∀ w, ¬ Has ms f.name w := by
        rintro w ⟨k, hs', hk⟩
        exact o1 _ hk f.name (List.mem_map.mpr ⟨f, hm, rfl⟩) ⟨hs, hs'⟩
      simp only
      cases hd : f.dec v (f.get a) with
      | error e =>
        simp only [reduceCtorEq, false_iff, not_and]
        intro _ _ hr
        rcases hr f hm with ⟨w, hw, e'⟩ | ⟨hn, _⟩
        · rcases has_cons.mp hw with ⟨_, rfl⟩ | hw
          · rw [hd] at e'; cases e'
          · exact hno w hw
        · exact hn v (has_cons.mpr (Or.inl ⟨hs, rfl⟩))
      | ok x =>
        simp only
        rw [ih o2]
        have hreads : ∀ g ∈ fields, Reads g ms (g.get (f.put a x)) (g.get b) ↔
            Reads g ((key, v) :: ms) (g.get a) (g.get b) := by
          intro g hg
          by_cases e : f = g
          · subst e
            rw [hl.get_put f hm v a x hd]
            unfold Reads
            constructor
            · rintro (⟨w, hw, _⟩ | ⟨_, e⟩)
              · exact absurd hw (hno w)
              · exact Or.inl ⟨v, has_cons.mpr (Or.inl ⟨hs, rfl⟩), by rw [hd, e]⟩
            · rintro (⟨w, hw, e'⟩ | ⟨hn, _⟩)
              · rcases has_cons.mp hw with ⟨_, rfl⟩ | hw
                · rw [hd] at e'
                  exact Or.inr ⟨hno, (Except.ok.inj e').symm⟩
                · exact absurd hw (hno w)
              · exact absurd (has_cons.mpr (Or.inl ⟨hs, rfl⟩)) (hn v)
          · rw [hl.other' hm hg e]
            have : ∀ w, Has ((key, v) :: ms) g.name w ↔ Has ms g.name w := by
              intro w
              rw [has_cons]
              constructor
              · rintro (⟨hs', _⟩ | h)
                · exact absurd (hl.unique hm hg hs hs') e
                · exact h
              · exact Or.inr
            unfold Reads
            simp only [this]
        constructor
        · rintro ⟨h1, h2, h3⟩
          refine ⟨?_, h2.trans (hl.keep_put f hm a x), fun g hg => (hreads g hg).mp (h3 g hg)⟩
          intro k w hk
          rcases List.mem_cons.mp hk with e | hk
          · obtain ⟨rfl, rfl⟩ := Prod.mk.inj e
            exact ⟨f.name, List.mem_map.mpr ⟨f, hm, rfl⟩, hs⟩
          · exact h1 k w hk
        · rintro ⟨h1, h2, h3⟩
          refine ⟨fun k w hk => h1 k w (by simp [hk]), h2.trans (hl.keep_put f hm a x).symm,
            fun g hg => (hreads g hg).mpr (h3 g hg)⟩

end Verif.Json
