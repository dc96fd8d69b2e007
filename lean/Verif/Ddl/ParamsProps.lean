import Verif.Ddl.Params
import Verif.Sh.Lemmas

/-!
# C50, C51: storage parameters
-/

namespace Verif.Ddl
open Verif

/-- The kinds of storage parameters. -/
inductive Kind where
  | int | bool | float
deriving DecidableEq, Repr

/-- PostgreSQL's table storage parameters supported by the struct, with their types (PostgreSQL
manual, CREATE TABLE, "Storage Parameters"). -/
def knownParams : List (Str × Kind) :=
  [(b!"fillfactor", .int), (b!"parallel_workers", .int), (b!"autovacuum_enabled", .bool),
   (b!"autovacuum_vacuum_threshold", .int), (b!"autovacuum_vacuum_scale_factor", .float),
   (b!"autovacuum_analyze_threshold", .int), (b!"autovacuum_analyze_scale_factor", .float),
   (b!"autovacuum_vacuum_cost_limit", .int), (b!"autovacuum_freeze_min_age", .int),
   (b!"autovacuum_freeze_max_age", .int), (b!"autovacuum_freeze_table_age", .int),
   (b!"autovacuum_multixact_freeze_min_age", .int), (b!"autovacuum_multixact_freeze_max_age", .int),
   (b!"autovacuum_multixact_freeze_table_age", .int), (b!"log_autovacuum_min_duration", .int),
   (b!"user_catalog_table", .bool)]

/-- `ds` is a non-empty decimal numeral with value `n`. -/
inductive Numeral : Str → Nat → Prop
  | digit (d : Nat) (h : d < 10) : Numeral [UInt8.ofNat (48 + d)] d
  | snoc (ds : Str) (n d : Nat) (h : d < 10) : Numeral ds n →
      Numeral (ds ++ [UInt8.ofNat (48 + d)]) (10 * n + d)

/-- `s` is a decimal integer (optional sign) with value `n` that fits in an int64. -/
def IntText (s : Str) (n : Int) : Prop :=
  (∃ m : Nat, (Numeral s m ∨ ∃ ds, s = 43 :: ds ∧ Numeral ds m) ∧ n = m ∧ n < 2 ^ 63) ∨
  (∃ (m : Nat) (ds : Str), s = 45 :: ds ∧ Numeral ds m ∧ n = -(m : Int) ∧ -(2 ^ 63) ≤ n)

/-- `s` is a boolean in the spelling Go accepts, with value `b`. -/
def BoolText (s : Str) (b : Bool) : Prop :=
  (b = true ∧ s ∈ [b!"1", b!"t", b!"T", b!"true", b!"TRUE", b!"True"]) ∨
  (b = false ∧ s ∈ [b!"0", b!"f", b!"F", b!"false", b!"FALSE", b!"False"])

/-- `value` is well formed for a parameter of this kind and denotes `v`. Floats are what
`strconv.ParseFloat` accepts. -/
def Denotes {F : Type} (parseFloat : Str → F × Option NumErr) : Kind → Str → Val F → Prop
  | .int, s, .int n => IntText s n
  | .bool, s, .bool b => BoolText s b
  | .float, s, .float x => parseFloat s = (x, none)
  | _, _, _ => False

/-- The value of parameter `key`. -/
def Params.get {F : Type} (p : Params F) (key : Str) : Option (Val F) :=
  match p.attrs.find? (fun q => q.1 = key) with
  | some q => q.2
  | none => none

theorem digit_lt {b : UInt8} (h1 : 48 ≤ b) (h2 : b ≤ 57) :
    b.toNat - 48 < 10 ∧ UInt8.ofNat (48 + (b.toNat - 48)) = b := by
  have a1 : 48 ≤ b.toNat := UInt8.le_iff_toNat_le.mp h1
  have a2 : b.toNat ≤ 57 := UInt8.le_iff_toNat_le.mp h2
  refine ⟨by omega, ?_⟩
  rw [show 48 + (b.toNat - 48) = b.toNat by omega]
  simp

theorem numeral_iff {s : Str} {n : Nat} :
    Numeral s n ↔ s ≠ [] ∧ allDigits s = true ∧ digitsVal s = n := by
  constructor
  · intro h
    induction h with
    | digit d h =>
      have : (UInt8.ofNat (48 + d)).toNat = 48 + d := by
        simp; omega
      refine ⟨by simp, ?_, ?_⟩
      · simp only [allDigits, List.all_cons, List.all_nil, Bool.and_true, Bool.and_eq_true,
          decide_eq_true_eq, UInt8.le_iff_toNat_le, this]
        exact ⟨by simp, by simp; omega⟩
      · simp only [digitsVal, List.foldl_cons, List.foldl_nil, this]; omega
    | snoc ds n d h _ ih =>
      have : (UInt8.ofNat (48 + d)).toNat = 48 + d := by
        simp; omega
      obtain ⟨_, i2, i3⟩ := ih
      refine ⟨by simp, ?_, ?_⟩
      · simp only [allDigits] at i2
        simp only [allDigits, List.all_append, Bool.and_eq_true]
        refine ⟨i2, ?_⟩
        simp only [List.all_cons, List.all_nil, Bool.and_true, Bool.and_eq_true, decide_eq_true_eq,
          UInt8.le_iff_toNat_le, this]
        exact ⟨by simp, by simp; omega⟩
      · simp only [digitsVal, List.foldl_append, List.foldl_cons, List.foldl_nil, this] at i3 ⊢
        rw [i3]; omega
  · rintro ⟨h1, h2, h3⟩
    induction s using List.reverseRecOn generalizing n with
    | nil => exact absurd rfl h1
    | append_singleton ds b ih =>
      simp only [allDigits, List.all_append, List.all_cons, List.all_nil, Bool.and_true,
        Bool.and_eq_true, decide_eq_true_eq] at h2
      obtain ⟨h2a, h2b, h2c⟩ := h2
      obtain ⟨hd, he⟩ := digit_lt h2b h2c
      simp only [digitsVal, List.foldl_append, List.foldl_cons, List.foldl_nil] at h3
      by_cases hds : ds = []
      · subst hds
        simp only [List.foldl_nil, Nat.zero_mul, Nat.zero_add] at h3
        subst h3
        have := Numeral.digit (b.toNat - 48) hd
        rw [he] at this
        exact this
      · have i := ih (n := digitsVal ds) hds (by simpa [allDigits] using h2a) rfl
        have := Numeral.snoc ds _ (b.toNat - 48) hd i
        rw [he] at this
        have e : 10 * digitsVal ds + (b.toNat - 48) = n := by
          rw [← h3]; unfold digitsVal; omega
        rw [← e]
        exact this

theorem atoi_ok {s : Str} {n : Int} : atoi s = (n, none) ↔ IntText s n := by
  have habs : ∀ (neg : Bool) (ds : Str), atoiAbs neg ds = (n, none) ↔
      ∃ m : Nat, Numeral ds m ∧ ((neg = false ∧ n = m ∧ n < 2 ^ 63) ∨
        (neg = true ∧ n = -(m : Int) ∧ -(2 ^ 63) ≤ n)) := by
    intro neg ds
    unfold atoiAbs
    constructor
    · intro h
      split at h
      · simp at h
      · split at h
        · simp at h
        · rename_i h1 h2
          have hnum : Numeral ds (digitsVal ds) := numeral_iff.mpr ⟨h1, by simpa using h2, rfl⟩
          refine ⟨_, hnum, ?_⟩
          split at h
          · rename_i hneg
            split at h
            · simp at h
            · simp only [Prod.mk.injEq, and_true] at h
              exact Or.inr ⟨hneg, h.symm, by omega⟩
          · rename_i hneg
            split at h
            · simp at h
            · simp only [Prod.mk.injEq, and_true] at h
              exact Or.inl ⟨by simpa using hneg, h.symm, by omega⟩
    · rintro ⟨m, hm, h⟩
      obtain ⟨h1, h2, rfl⟩ := numeral_iff.mp hm
      rw [if_neg h1, h2]
      rcases h with ⟨rfl, h3, h4⟩ | ⟨rfl, h3, h4⟩
      · simp only [Bool.not_true, Bool.false_eq_true, if_false]
        rw [if_neg (by omega), h3]
      · simp only [Bool.not_true, Bool.false_eq_true, if_false, if_true]
        rw [if_neg (by omega), h3]
  have hnotnum : ∀ (b : UInt8) (ds : Str) (m : Nat), (b = 45 ∨ b = 43) → ¬ Numeral (b :: ds) m := by
    rintro b ds m hb hn
    obtain ⟨_, h2, _⟩ := numeral_iff.mp hn
    simp only [allDigits, List.all_cons, Bool.and_eq_true, decide_eq_true_eq] at h2
    rcases hb with rfl | rfl <;> exact absurd h2.1.1 (by decide)
  unfold IntText
  cases s with
  | nil =>
    simp only [atoi, Prod.mk.injEq, reduceCtorEq, and_false, false_iff, not_or, not_exists, not_and]
    refine ⟨?_, ?_⟩
    · rintro m (h | ⟨ds, h, _⟩)
      · exact absurd rfl (numeral_iff.mp h).1
      · cases h
    · rintro m ds h; cases h
  | cons b ds =>
    simp only [atoi]
    by_cases h45 : b = 45
    · subst h45
      rw [if_pos rfl, habs]
      constructor
      · rintro ⟨m, hm, ⟨h, _⟩ | ⟨_, h1, h2⟩⟩
        · cases h
        · exact Or.inr ⟨m, ds, rfl, hm, h1, h2⟩
      · rintro (⟨m, h | ⟨ds', h, _⟩, _⟩ | ⟨m, ds', h, hm, h1, h2⟩)
        · exact absurd h (hnotnum _ _ _ (Or.inl rfl))
        · cases h
        · cases h
          exact ⟨m, hm, Or.inr ⟨rfl, h1, h2⟩⟩
    · rw [if_neg h45]
      by_cases h43 : b = 43
      · subst h43
        rw [if_pos rfl, habs]
        constructor
        · rintro ⟨m, hm, ⟨_, h1, h2⟩ | ⟨h, _⟩⟩
          · exact Or.inl ⟨m, Or.inr ⟨ds, rfl, hm⟩, h1, h2⟩
          · cases h
        · rintro (⟨m, h | ⟨ds', h, hm⟩, h1, h2⟩ | ⟨m, ds', h, _⟩)
          · exact absurd h (hnotnum _ _ _ (Or.inr rfl))
          · cases h
            exact ⟨m, hm, Or.inl ⟨rfl, h1, h2⟩⟩
          · cases h
      · rw [if_neg h43, habs]
        constructor
        · rintro ⟨m, hm, ⟨_, h1, h2⟩ | ⟨h, _⟩⟩
          · exact Or.inl ⟨m, Or.inl hm, h1, h2⟩
          · cases h
        · rintro (⟨m, h | ⟨ds', h, hm⟩, h1, h2⟩ | ⟨m, ds', h, _⟩)
          · exact ⟨m, h, Or.inl ⟨rfl, h1, h2⟩⟩
          · exact absurd (List.cons.inj h).1 h43
          · exact absurd (List.cons.inj h).1 h45

theorem parseBool_ok {s : Str} {b : Bool} : parseBool s = (b, none) ↔ BoolText s b := by
  unfold parseBool BoolText
  constructor
  · intro h
    split at h
    · rename_i hs
      simp only [Prod.mk.injEq, and_true] at h
      exact Or.inl ⟨h.symm, hs⟩
    · split at h
      · rename_i hs
        simp only [Prod.mk.injEq, and_true] at h
        exact Or.inr ⟨h.symm, hs⟩
      · simp at h
  · rintro (⟨rfl, h⟩ | ⟨rfl, h⟩)
    · rw [if_pos h]
    · have hn : ∀ x ∈ [b!"0", b!"f", b!"F", b!"false", b!"FALSE", b!"False"],
          x ∉ [b!"1", b!"t", b!"T", b!"true", b!"TRUE", b!"True"] := by decide
      rw [if_neg (hn s h), if_pos h]

theorem get_agree {F : Type} {p q : Params F} {key k : Str} (hne : k ≠ key)
    (h : List.Forall₂ (fun a b : Str × Option (Val F) => a.1 = b.1 ∧ (a.1 ≠ key → a = b))
      p.attrs q.attrs) : p.get k = q.get k := by
  unfold Params.get
  suffices hf : p.attrs.find? (fun q => q.1 = k) = q.attrs.find? (fun q => q.1 = k) by rw [hf]
  generalize p.attrs = l1 at h
  generalize q.attrs = l2 at h
  induction h with
  | nil => rfl
  | cons h1 _ ih =>
    rename_i a b _ _ _
    simp only [List.find?_cons, ih]
    by_cases hk : a.1 = k
    · rw [h1.2 (by rw [hk]; exact hne)]
    · rw [← h1.1]; simp [hk]

/-- Set with a known key: what happens, for each of the sixteen keys. -/
theorem set_known {F : Type} (parseFloat : Str → F × Option NumErr) (p : Params F) (key value : Str)
    (kind : Kind) (hk : (key, kind) ∈ knownParams) :
    ∃ (v : Val F) (e : Option NumErr),
      (p.set parseFloat key value).2 = e ∧
      (p.set parseFloat key value).1.get key = some v ∧
      (∀ k, k ≠ key → (p.set parseFloat key value).1.get k = p.get k) ∧
      (match kind with
        | .int => v = .int (atoi value).1 ∧ e = (atoi value).2
        | .bool => v = .bool (parseBool value).1 ∧ e = (parseBool value).2
        | .float => v = .float (parseFloat value).1 ∧ e = (parseFloat value).2) := by
  simp only [knownParams, List.mem_cons, Prod.mk.injEq, List.not_mem_nil, or_false] at hk
  rcases hk with h | h | h | h | h | h | h | h | h | h | h | h | h | h | h | h <;>
    obtain ⟨rfl, rfl⟩ := h <;>
    refine ⟨_, _, rfl, rfl, fun k hne => get_agree hne ?_, rfl, rfl⟩ <;>
    · repeat' apply List.Forall₂.cons
      all_goals first
        | exact List.Forall₂.nil
        | exact ⟨rfl, fun _ => rfl⟩
        | exact ⟨rfl, fun h => absurd rfl h⟩

/-- C50: a known key with a well-formed value stores exactly that value and nothing else changes. -/
theorem C50_set_stores_value {F : Type} (parseFloat : Str → F × Option NumErr) (p : Params F)
    (key value : Str) (kind : Kind) (v : Val F) (hk : (key, kind) ∈ knownParams)
    (hv : Denotes parseFloat kind value v) :
    (p.set parseFloat key value).2 = none ∧
      (p.set parseFloat key value).1.get key = some v ∧
      ∀ k, k ≠ key → (p.set parseFloat key value).1.get k = p.get k := by
  obtain ⟨w, e, h1, h2, h3, h4⟩ := set_known parseFloat p key value kind hk
  rw [h1, h2]
  suffices h : e = none ∧ w = v by exact ⟨h.1, by rw [h.2], h3⟩
  cases kind <;> cases v <;> simp only [Denotes] at hv h4
  · rw [← atoi_ok] at hv
    rw [hv] at h4
    exact ⟨h4.2, h4.1⟩
  · rw [← parseBool_ok] at hv
    rw [hv] at h4
    exact ⟨h4.2, h4.1⟩
  · rw [hv] at h4
    exact ⟨h4.2, h4.1⟩

/-- C50: an ill-formed value is an error (and only the named parameter can have changed). -/
theorem C50_set_rejects {F : Type} (parseFloat : Str → F × Option NumErr) (p : Params F)
    (key value : Str) (kind : Kind) (hk : (key, kind) ∈ knownParams)
    (hv : ∀ v, ¬ Denotes parseFloat kind value v) :
    (p.set parseFloat key value).2 ≠ none ∧
      ∀ k, k ≠ key → (p.set parseFloat key value).1.get k = p.get k := by
  obtain ⟨w, e, h1, h2, h3, h4⟩ := set_known parseFloat p key value kind hk
  refine ⟨?_, h3⟩
  rw [h1]
  rintro rfl
  cases kind <;> simp only at h4
  · exact hv (.int (atoi value).1) (atoi_ok.mp (Prod.ext rfl h4.2.symm))
  · exact hv (.bool (parseBool value).1) (parseBool_ok.mp (Prod.ext rfl h4.2.symm))
  · exact hv (.float (parseFloat value).1) (Prod.ext rfl h4.2.symm)

/-- C50: an unknown key changes nothing and is not an error. -/
theorem C50_set_unknown {F : Type} (parseFloat : Str → F × Option NumErr) (p : Params F)
    (key value : Str) (hk : ∀ kind, (key, kind) ∉ knownParams) :
    p.set parseFloat key value = (p, none) := by
  have hk' : ∀ q ∈ knownParams, key ≠ q.1 := by
    rintro ⟨k, kind⟩ hq rfl
    exact hk kind hq
  simp only [knownParams, List.forall_mem_cons, List.not_mem_nil, false_imp_iff, implies_true,
    and_true] at hk'
  obtain ⟨a1, a2, a3, a4, a5, a6, a7, a8, a9, a10, a11, a12, a13, a14, a15, a16⟩ := hk'
  simp only [Params.set, a1, a2, a3, a4, a5, a6, a7, a8, a9, a10, a11, a12, a13, a14, a15, a16,
    if_false]

/-- C50: the struct knows exactly these parameters, and an empty one has none set. -/
theorem C50_attrs_known {F : Type} (p : Params F) :
    p.attrs.map Prod.fst = knownParams.map Prod.fst ∧
      ∀ key, ({} : Params F).get key = none := by
  refine ⟨rfl, ?_⟩
  intro key
  unfold Params.get
  cases h : (({} : Params F).attrs.find? (fun q => q.1 = key)) with
  | none => rfl
  | some q =>
    have := List.mem_of_find?_eq_some h
    simp only [Params.attrs, Option.map_none, List.mem_cons, List.not_mem_nil, or_false] at this
    rcases this with rfl | rfl | rfl | rfl | rfl | rfl | rfl | rfl | rfl | rfl | rfl | rfl | rfl |
      rfl | rfl | rfl <;> rfl

example : ((({} : Params Unit).set (fun _ => ((), none)) b!"fillfactor" b!"-70").1).get b!"fillfactor" =
    some (.int (-70)) := by decide
example : (({} : Params Unit).set (fun _ => ((), none)) b!"fillfactor" b!"9223372036854775808").2 =
    some .range := by decide +kernel

/-- `row` is the text "key=value". -/
def OptionText (row key value : Str) : Prop := (61 : UInt8) ∉ key ∧ row = key ++ b!"=" ++ value

theorem splitOption_eq {row key value : Str} (h : OptionText row key value) :
    splitOption row = (key, value) := by
  obtain ⟨h1, rfl⟩ := h
  have := Sh.indexByte_append (t := value) h1
  unfold splitOption
  rw [show key ++ b!"=" ++ value = key ++ 61 :: value by simp, this]
  simp

/-- C51 for reloptions whose options the struct knows, each with a value Go's parsers accept (and
unknown options, which are ignored): the call succeeds and every option's value is returned. -/
theorem C51_list_parameters_partial {F : Type} (parseFloat : Str → F × Option NumErr)
    (opts : List (Str × Kind × Str × Val F)) (rows : List Str)
    (hnd : (opts.map Prod.fst).Nodup)
    (hk : ∀ o ∈ opts, (o.1, o.2.1) ∈ knownParams ∧ Denotes parseFloat o.2.1 o.2.2.1 o.2.2.2)
    (hrows : rows = opts.map (fun o => o.1 ++ b!"=" ++ o.2.2.1)) :
    ∃ p, listTableStorageParameters parseFloat rows = .ok p ∧
      (∀ o ∈ opts, p.get o.1 = some o.2.2.2) ∧
      ∀ k, k ∉ opts.map Prod.fst → p.get k = none := by
  have hno : ∀ q ∈ knownParams, (61 : UInt8) ∉ q.1 := by decide
  suffices h : ∀ (opts : List (Str × Kind × Str × Val F)) (p0 : Params F),
      (opts.map Prod.fst).Nodup →
      (∀ o ∈ opts, (o.1, o.2.1) ∈ knownParams ∧ Denotes parseFloat o.2.1 o.2.2.1 o.2.2.2) →
      ∃ p, paramsLoop parseFloat (opts.map (fun o => o.1 ++ b!"=" ++ o.2.2.1)) p0 = .ok p ∧
        (∀ o ∈ opts, p.get o.1 = some o.2.2.2) ∧
        ∀ k, k ∉ opts.map Prod.fst → p.get k = p0.get k by
    obtain ⟨p, h1, h2, h3⟩ := h opts {} hnd hk
    refine ⟨p, by rw [hrows]; exact h1, h2, fun k hkk => ?_⟩
    rw [h3 k hkk]
    exact (C50_attrs_known ({} : Params F)).2 k
  intro opts
  induction opts with
  | nil => intro p0 _ _; exact ⟨p0, rfl, by simp, by simp⟩
  | cons o opts ih =>
    intro p0 hnd hk
    simp only [List.map_cons, List.nodup_cons] at hnd
    obtain ⟨hk1, hk2⟩ := hk o (by simp)
    obtain ⟨s1, s2, s3⟩ := C50_set_stores_value parseFloat p0 o.1 o.2.2.1 o.2.1 o.2.2.2 hk1 hk2
    obtain ⟨p, q1, q2, q3⟩ := ih (p0.set parseFloat o.1 o.2.2.1).1 hnd.2
      (fun x hx => hk x (by simp [hx]))
    refine ⟨p, ?_, ?_, ?_⟩
    · rw [List.map_cons, paramsLoop, splitOption_eq ⟨hno _ hk1, rfl⟩]
      generalize hset : p0.set parseFloat o.1 o.2.2.1 = r at *
      obtain ⟨r1, r2⟩ := r
      simp only at s1
      subst s1
      exact q1
    · intro x hx
      rcases List.mem_cons.mp hx with rfl | hx
      · rw [q3 _ hnd.1, s2]
      · exact q2 x hx
    · intro k hkk
      simp only [List.map_cons, List.mem_cons, not_or] at hkk
      rw [q3 k hkk.2, s3 k hkk.1]

/-- C51 is false: PostgreSQL stores `autovacuum_enabled=off` as written, and the call fails on it;
`toast_tuple_target` (an option it can hold) is silently dropped. -/
theorem C51_refuted :
    (∀ (F : Type) (parseFloat : Str → F × Option NumErr),
      listTableStorageParameters parseFloat [b!"autovacuum_enabled=off"] = .error .syntax_) ∧
    (∀ (F : Type) (parseFloat : Str → F × Option NumErr),
      listTableStorageParameters parseFloat [b!"toast_tuple_target=128"] = .ok {}) :=
  ⟨fun _ _ => rfl, fun _ _ => rfl⟩

/-- No value is denoted by the same text of one kind twice. -/
theorem Denotes.unique {F : Type} {parseFloat : Str → F × Option NumErr} {kind : Kind} {s : Str} {v w : Val F}
    (hv : Denotes parseFloat kind s v) (hw : Denotes parseFloat kind s w) : v = w := by
  cases kind <;> cases v <;> cases w <;> simp only [Denotes] at hv hw
  · rw [← atoi_ok] at hv hw
    rw [hv] at hw
    exact congrArg Val.int (Prod.mk.inj hw).1
  · rw [← parseBool_ok] at hv hw
    rw [hv] at hw
    exact congrArg Val.bool (Prod.mk.inj hw).1
  · rw [hv] at hw
    exact congrArg Val.float (Prod.mk.inj hw).1

theorem knownParams_unique {key : Str} {k k' : Kind} (h : (key, k) ∈ knownParams) (h' : (key, k') ∈ knownParams) :
    k = k' := by
  have hu : ∀ p ∈ knownParams, ∀ q ∈ knownParams, p.1 = q.1 → p.2 = q.2 := by decide
  exact hu _ h _ h' rfl

/-- **C51, exactly.** Whatever options a table has, the call succeeds if and only if every option that the struct knows
has a value that Go's parsers accept. What is returned is then the values of the options that the struct knows, and
nothing else. -/
theorem C51_exact {F : Type} (parseFloat : Str → F × Option NumErr) (opts : List (Str × Str)) (rows : List Str)
    (hnd : (opts.map Prod.fst).Nodup) (heq : ∀ o ∈ opts, (61 : UInt8) ∉ o.1)
    (hrows : rows = opts.map (fun o => o.1 ++ b!"=" ++ o.2)) :
    ((∃ p, listTableStorageParameters parseFloat rows = .ok p) ↔
      ∀ o ∈ opts, ∀ kind, (o.1, kind) ∈ knownParams → ∃ v, Denotes parseFloat kind o.2 v) ∧
    ∀ p, listTableStorageParameters parseFloat rows = .ok p → ∀ key v, p.get key = some v ↔
      ∃ value kind, (key, value) ∈ opts ∧ (key, kind) ∈ knownParams ∧ Denotes parseFloat kind value v := by
  suffices h : ∀ (opts : List (Str × Str)) (p0 : Params F), (opts.map Prod.fst).Nodup →
      (∀ o ∈ opts, (61 : UInt8) ∉ o.1) → (∀ key ∈ opts.map Prod.fst, p0.get key = none) →
      ((∃ p, paramsLoop parseFloat (opts.map (fun o => o.1 ++ b!"=" ++ o.2)) p0 = .ok p) ↔
        ∀ o ∈ opts, ∀ kind, (o.1, kind) ∈ knownParams → ∃ v, Denotes parseFloat kind o.2 v) ∧
      ∀ p, paramsLoop parseFloat (opts.map (fun o => o.1 ++ b!"=" ++ o.2)) p0 = .ok p → ∀ key v,
        p.get key = some v ↔ p0.get key = some v ∨
          ∃ value kind, (key, value) ∈ opts ∧ (key, kind) ∈ knownParams ∧ Denotes parseFloat kind value v by
    have h0 := (C50_attrs_known ({} : Params F)).2
    obtain ⟨h1, h2⟩ := h opts {} hnd heq fun k _ => h0 k
    subst hrows
    refine ⟨h1, fun p hp key v => ?_⟩
    rw [h2 p hp, h0]
    simp
  clear hnd heq hrows rows opts
  intro opts
  induction opts with
  | nil =>
    intro p0 _ _ _
    refine ⟨⟨fun _ => by simp, fun _ => ⟨p0, rfl⟩⟩, ?_⟩
    intro p hp key v
    cases hp
    simp
  | cons o opts ih =>
    obtain ⟨key, value⟩ := o
    intro p0 hnd heq h0
    simp only [List.map_cons, List.nodup_cons] at hnd
    have hstep : paramsLoop parseFloat (((key, value) :: opts).map (fun o => o.1 ++ b!"=" ++ o.2)) p0 =
        match p0.set parseFloat key value with
        | (_, some e) => .error e
        | (p', none) => paramsLoop parseFloat (opts.map (fun o => o.1 ++ b!"=" ++ o.2)) p' := by
      rw [List.map_cons, paramsLoop, splitOption_eq ⟨heq _ (by simp), rfl⟩]
      generalize p0.set parseFloat key value = r
      rcases r with ⟨_, _ | _⟩ <;> rfl
    have heq' := fun x hx => heq x (List.mem_cons_of_mem _ hx)
    rw [hstep]
    by_cases hkn : ∃ kind, (key, kind) ∈ knownParams
    · obtain ⟨kind, hk⟩ := hkn
      by_cases hv : ∃ v, Denotes parseFloat kind value v
      · obtain ⟨v, hv⟩ := hv
        obtain ⟨s1, s2, s3⟩ := C50_set_stores_value parseFloat p0 key value kind v hk hv
        generalize p0.set parseFloat key value = r at s1 s2 s3
        obtain ⟨r1, r2⟩ := r
        simp only at s1 s2 s3
        subst s1
        obtain ⟨i1, i2⟩ := ih r1 hnd.2 heq' (fun k hk' => by
          rw [s3 k (fun e => hnd.1 (e ▸ hk'))]
          exact h0 k (List.mem_cons_of_mem _ hk'))
        refine ⟨i1.trans ⟨fun h o ho kind' hk' => ?_, fun h o ho => h o (List.mem_cons_of_mem _ ho)⟩, ?_⟩
        · rcases List.mem_cons.1 ho with rfl | ho
          · exact ⟨v, knownParams_unique hk hk' ▸ hv⟩
          · exact h o ho kind' hk'
        · intro p hp key' v'
          rw [i2 p hp]
          by_cases hkey : key' = key
          · subst hkey
            rw [s2, h0 _ (by simp)]
            simp only [Option.some.injEq, reduceCtorEq, false_or]
            constructor
            · rintro (rfl | ⟨value', kind', hm, _⟩)
              · exact ⟨value, kind, by simp, hk, hv⟩
              · exact absurd (List.mem_map_of_mem (f := Prod.fst) hm) hnd.1
            · rintro ⟨value', kind', hm, hk', hv'⟩
              rcases List.mem_cons.1 hm with e | hm
              · cases e
                cases knownParams_unique hk hk'
                exact .inl (hv.unique hv')
              · exact absurd (List.mem_map_of_mem (f := Prod.fst) hm) hnd.1
          · rw [s3 _ hkey]
            simp [hkey]
      · obtain ⟨s1, _⟩ := C50_set_rejects parseFloat p0 key value kind hk (fun v h => hv ⟨v, h⟩)
        generalize p0.set parseFloat key value = r at s1
        obtain ⟨r1, r2⟩ := r
        cases r2 with
        | none => exact absurd rfl s1
        | some e =>
          refine ⟨⟨fun ⟨p, hp⟩ => (by cases hp), fun h => absurd (h (key, value) (by simp) kind hk) hv⟩, ?_⟩
          intro p hp
          cases hp
    · rw [C50_set_unknown parseFloat p0 key value (fun kind hk => hkn ⟨kind, hk⟩)]
      obtain ⟨i1, i2⟩ := ih p0 hnd.2 heq' (fun k hk' => h0 k (List.mem_cons_of_mem _ hk'))
      refine ⟨i1.trans ⟨fun h o ho kind' hk' => ?_, fun h o ho => h o (List.mem_cons_of_mem _ ho)⟩, ?_⟩
      · rcases List.mem_cons.1 ho with rfl | ho
        · exact absurd ⟨kind', hk'⟩ hkn
        · exact h o ho kind' hk'
      · intro p hp key' v'
        rw [i2 p hp]
        constructor
        · rintro (h | ⟨value', kind', hm, hh⟩)
          · exact .inl h
          · exact .inr ⟨value', kind', List.mem_cons_of_mem _ hm, hh⟩
        · rintro (h | ⟨value', kind', hm, hk', hh⟩)
          · exact .inl h
          · rcases List.mem_cons.1 hm with e | hm
            · cases e
              exact absurd ⟨kind', hk'⟩ hkn
            · exact .inr ⟨value', kind', hm, hk', hh⟩

example : ∃ p, listTableStorageParameters (F := Unit) (fun _ => ((), none))
    [b!"autovacuum_enabled=false", b!"fillfactor=70"] = .ok p ∧ p.get b!"fillfactor" = some (.int 70) := by
  refine ⟨_, rfl, rfl⟩

end Verif.Ddl
