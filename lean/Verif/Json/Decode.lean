import Verif.Json.Lemmas

/-!
# Decoding each kind of setting, and the tables of the structs: helper lemmas
-/

namespace Verif.Json
open Verif Book Spec

variable {ms : List (Str × Value)} {n : Str}

/-- The setting is given at most once. -/
def Single (ms : List (Str × Value)) (n : Str) : Prop := ∀ v w, Has ms n v → Has ms n w → v = w

theorem unset_of_null (hu : Single ms n) (h : Has ms n .null) : Unset ms n := fun v hv => hu v _ hv h

theorem unset_of_none (h : ∀ v, ¬ Has ms n v) : Unset ms n := fun v hv => absurd hv (h v)

theorem unset_cases (h : Unset ms n) : Has ms n .null ∨ ∀ v, ¬ Has ms n v := by
  by_cases e : ∃ v, Has ms n v
  · obtain ⟨v, hv⟩ := e
    obtain rfl := h v hv
    exact Or.inl hv
  · exact Or.inr fun v hv => e ⟨v, hv⟩

/-- `Reads` without the field. -/
def ReadsWith {β : Type} (dec : Value → β → Except Str β) (ms : List (Str × Value)) (n : Str) (x y : β) :
    Prop := (∃ v, Has ms n v ∧ dec v x = .ok y) ∨ ((∀ v, ¬ Has ms n v) ∧ y = x)

/-- A setting for which `null` leaves the default. -/
theorem readsWith_iff {β : Type} {dec : Value → β → Except Str β} (hu : Single ms n) {x y : β}
    (hn : dec .null x = .ok x) {P : Value → Prop} (hp : ∀ v, v ≠ .null → (dec v x = .ok y ↔ P v))
    (hpn : ¬ P .null) :
    ReadsWith dec ms n x y ↔ (∃ v, Has ms n v ∧ P v) ∨ (Unset ms n ∧ y = x) := by
  constructor
  · rintro (⟨v, hv, hd⟩ | ⟨hno, rfl⟩)
    · by_cases e : v = .null
      · subst e
        rw [hn] at hd
        exact Or.inr ⟨unset_of_null hu hv, (Except.ok.inj hd).symm⟩
      · exact Or.inl ⟨v, hv, (hp v e).mp hd⟩
    · exact Or.inr ⟨unset_of_none hno, rfl⟩
  · rintro (⟨v, hv, hd⟩ | ⟨hun, rfl⟩)
    · exact Or.inl ⟨v, hv, (hp v (fun e => hpn (e ▸ hd))).mpr hd⟩
    · rcases unset_cases hun with h | h
      · exact Or.inl ⟨_, h, hn⟩
      · exact Or.inr ⟨h, rfl⟩

theorem text_iff (hu : Single ms n) {d s : Str} : ReadsWith string ms n d s ↔ TextSetting ms n d s := by
  rw [readsWith_iff hu (P := fun v => v = .str s) rfl _ (by simp)]
  · unfold TextSetting
    constructor
    · rintro (⟨v, hv, rfl⟩ | h)
      · exact Or.inl hv
      · exact Or.inr h
    · rintro (h | h)
      · exact Or.inl ⟨_, h, rfl⟩
      · exact Or.inr h
  · intro v hv
    cases v <;> simp [string, mismatch] at hv ⊢

theorem int_dec {lit : Str} {x m : Int} : int (.num lit) x = .ok m ↔ Ddl.IntText lit m := by
  rw [← Ddl.atoi_ok, int]
  split
  · rename_i k h; rw [h]; simp
  · rename_i k e h; rw [h]; simp [mismatch]

theorem int_iff (hu : Single ms n) {d m : Int} : ReadsWith int ms n d m ↔ IntSetting ms n d m := by
  rw [readsWith_iff hu (P := fun v => ∃ lit, v = .num lit ∧ Ddl.IntText lit m) rfl _ (by simp)]
  · unfold IntSetting
    constructor
    · rintro (⟨v, hv, lit, rfl, h⟩ | h)
      · exact Or.inl ⟨lit, hv, h⟩
      · exact Or.inr h
    · rintro (⟨lit, hv, h⟩ | h)
      · exact Or.inl ⟨_, hv, lit, rfl, h⟩
      · exact Or.inr h
  · intro v hv
    cases v with
    | num lit => simp [int_dec]
    | null => exact absurd rfl hv
    | _ => simp [int, mismatch]

theorem port_iff (hu : Single ms n) {m : UInt16} : ReadsWith uint16 ms n 0 m ↔ PortSetting ms n m := by
  rw [readsWith_iff hu (P := fun v => ∃ lit, v = .num lit ∧ Ddl.Numeral lit m.toNat) rfl _ (by simp)]
  · unfold PortSetting
    constructor
    · rintro (⟨v, hv, lit, rfl, h⟩ | h)
      · exact Or.inl ⟨lit, hv, h⟩
      · exact Or.inr h
    · rintro (⟨lit, hv, h⟩ | h)
      · exact Or.inl ⟨_, hv, lit, rfl, h⟩
      · exact Or.inr h
  · intro v hv
    cases v with
    | num lit =>
      simp only [uint16, Value.num.injEq, exists_eq_left', Ddl.numeral_iff]
      constructor
      · intro h
        split at h
        · rename_i hc
          obtain ⟨h1, h2, h3⟩ := hc
          obtain rfl := Except.ok.inj h
          refine ⟨h1, h2, ?_⟩
          rw [UInt16.toNat_ofNat']
          exact (Nat.mod_eq_of_lt h3).symm
        · cases h
      · rintro ⟨h1, h2, h3⟩
        have hlt : m.toNat < 65536 := UInt16.toNat_lt m
        rw [if_pos ⟨h1, h2, h3 ▸ hlt⟩, h3]
        simp
    | null => exact absurd rfl hv
    | _ => simp [uint16, mismatch]

theorem string_null {v : Value} {s : Str} : string v [] = .ok s ↔ IsText v s := by
  constructor
  · intro h
    cases v with
    | null => obtain rfl := Except.ok.inj h; exact .null
    | str t => obtain rfl := Except.ok.inj h; exact .str
    | _ => cases h
  · intro h; cases h <;> rfl

theorem elements_iff {vs : List Value} {l : List Str} :
    elements [] vs = .ok l ↔ List.Forall₂ IsText vs l := by
  induction vs generalizing l with
  | nil => cases l <;> simp [elements]
  | cons v vs ih =>
    rw [elements]
    simp only [List.tail_nil, List.headD_nil]
    cases h : string v [] with
    | error e =>
      simp only [reduceCtorEq, false_iff]
      intro hf
      cases hf with
      | cons h1 _ => rw [string_null.mpr h1] at h; cases h
    | ok s =>
      simp only
      cases h2 : elements [] vs with
      | error e =>
        simp only [reduceCtorEq, false_iff]
        intro hf
        cases hf with
        | cons _ h3 => rw [ih.mpr h3] at h2; cases h2
      | ok l' =>
        simp only [Except.ok.injEq]
        constructor
        · rintro rfl; exact .cons (string_null.mp h) (ih.mp h2)
        · intro hf
          cases hf with
          | cons h1 h3 =>
            rw [string_null.mpr h1] at h
            rw [ih.mpr h3] at h2
            obtain rfl := Except.ok.inj h
            obtain rfl := Except.ok.inj h2
            rfl

theorem list_iff (hu : Single ms n) {l : List Str} :
    ReadsWith strings ms n [] l ↔ ListSetting ms n l := by
  rw [readsWith_iff hu (P := fun v => ∃ vs, v = .arr vs ∧ List.Forall₂ IsText vs l) rfl _ (by simp)]
  · unfold ListSetting
    constructor
    · rintro (⟨v, hv, lit, rfl, h⟩ | h)
      · exact Or.inl ⟨lit, hv, h⟩
      · exact Or.inr h
    · rintro (⟨lit, hv, h⟩ | h)
      · exact Or.inl ⟨_, hv, lit, rfl, h⟩
      · exact Or.inr h
  · intro v hv
    cases v with
    | arr vs => simp [strings, elements_iff]
    | null => exact absurd rfl hv
    | _ => simp [strings, mismatch]

/-- Decoding a map whose keys are distinct. -/
theorem entries_iff {β : Type} {dec : Value → Except Str β} {kvs : List (Str × Value)}
    {m0 m : GoMap Str β} (hn : (kvs.map Prod.fst).Nodup) (hd : ∀ k ∈ kvs.map Prod.fst, k ∉ m0.keys) :
    entries dec kvs m0 = .ok m ↔ ∃ m', m = m0 ++ m' ∧
      List.Forall₂ (fun p q => p.1 = q.1 ∧ dec p.2 = .ok q.2) kvs m' := by
  induction kvs generalizing m0 with
  | nil =>
    simp only [entries, Except.ok.injEq]
    constructor
    · rintro rfl; exact ⟨[], by simp, .nil⟩
    · rintro ⟨m', rfl, h⟩; cases h; simp
  | cons p kvs ih =>
    obtain ⟨k, v⟩ := p
    simp only [List.map_cons, List.nodup_cons] at hn
    rw [entries]
    cases h : dec v with
    | error e =>
      simp only [reduceCtorEq, false_iff]
      rintro ⟨m', rfl, hf⟩
      cases hf with
      | cons h1 _ => rw [h1.2] at h; cases h
    | ok b =>
      simp only
      have hk : k ∉ m0.keys := hd k (by simp)
      have hset : m0.set k b = m0 ++ [(k, b)] := by
        clear ih hd h
        induction m0 with
        | nil => rfl
        | cons q m0 ih0 =>
          obtain ⟨a, u⟩ := q
          simp only [GoMap.keys, List.map_cons, List.mem_cons, not_or] at hk
          simp only [GoMap.set, if_neg (Ne.symm hk.1), List.cons_append]
          rw [ih0 hk.2]
      rw [hset, ih hn.2]
      · constructor
        · rintro ⟨m', rfl, hf⟩
          exact ⟨(k, b) :: m', by simp, .cons ⟨rfl, h⟩ hf⟩
        · rintro ⟨m', rfl, hf⟩
          cases hf with
          | @cons _ q _ m'' h1 hf =>
            obtain ⟨k', b'⟩ := q
            obtain ⟨rfl, h2⟩ := h1
            rw [h] at h2
            obtain rfl := Except.ok.inj h2
            exact ⟨m'', by simp, hf⟩
      · intro k' hk' hin
        simp only [GoMap.keys, List.map_append, List.map_cons, List.map_nil, List.mem_append,
          List.mem_singleton] at hin
        rcases hin with hin | rfl
        · exact hd k' (by simp only [List.map_cons, List.mem_cons]; exact Or.inr hk') hin
        · exact hn.1 hk'

theorem entries_wf {β : Type} {dec : Value → Except Str β} {kvs : List (Str × Value)}
    {m0 m : GoMap Str β} (h0 : m0.WF) (h : entries dec kvs m0 = .ok m) : m.WF := by
  induction kvs generalizing m0 with
  | nil => obtain rfl := Except.ok.inj h; exact h0
  | cons p kvs ih =>
    obtain ⟨k, v⟩ := p
    rw [entries] at h
    cases hd : dec v with
    | error e => rw [hd] at h; cases h
    | ok b => rw [hd] at h; exact ih (h0.set k b) h

theorem map_wf {β : Type} {dec : Value → Except Str β} {v : Value} {m0 m : GoMap Str β} (h0 : m0.WF)
    (h : map dec v m0 = .ok m) : m.WF := by
  cases v with
  | null => obtain rfl := Except.ok.inj h; exact GoMap.WF.nil
  | obj kvs => exact entries_wf h0 h
  | _ => cases h

theorem map_iff (hu : Single ms n) (hk : ∀ kvs, Has ms n (.obj kvs) → (kvs.map Prod.fst).Nodup)
    {β : Type} {dec : Value → Except Str β} {m : GoMap Str β} :
    ReadsWith (map dec) ms n [] m ↔
      (∃ kvs, Has ms n (.obj kvs) ∧ List.Forall₂ (fun p q => p.1 = q.1 ∧ dec p.2 = .ok q.2) kvs m) ∨
        (Unset ms n ∧ m = []) := by
  have key : ReadsWith (map dec) ms n [] m ↔
      (∃ v, Has ms n v ∧ ∃ kvs, v = .obj kvs ∧ map dec (.obj kvs) [] = .ok m) ∨ (Unset ms n ∧ m = []) := by
    refine readsWith_iff hu rfl ?_ (by simp)
    intro v hv
    cases v with
    | obj kvs => simp
    | null => exact absurd rfl hv
    | _ => simp [map, mismatch]
  rw [key]
  have e : ∀ kvs, Has ms n (.obj kvs) → (map dec (.obj kvs) [] = .ok m ↔
      List.Forall₂ (fun p q => p.1 = q.1 ∧ dec p.2 = .ok q.2) kvs m) := by
    intro kvs h
    rw [map, entries_iff (hk kvs h) (by simp [GoMap.keys])]
    simp
  constructor
  · rintro (⟨v, hv, kvs, rfl, h⟩ | h)
    · exact Or.inl ⟨kvs, hv, (e kvs hv).mp h⟩
    · exact Or.inr h
  · rintro (⟨kvs, hv, h⟩ | h)
    · exact Or.inl ⟨_, hv, kvs, rfl, (e kvs hv).mpr h⟩
    · exact Or.inr h

theorem setting_map_iff (hu : Single ms n)
    (hk : ∀ kvs, Has ms n (.obj kvs) → (kvs.map Prod.fst).Nodup) {m : GoMap Str Str} :
    ReadsWith (map fun v => string v []) ms n [] m ↔ MapSetting ms n m := by
  rw [map_iff hu hk]
  simp only [string_null, MapSetting]

theorem any_iff {raw : Value → Str} {y : Str} :
    ReadsWith (fun v (_ : Str) => .ok (raw v)) ms n [] y ↔
      (∃ v, Has ms n v ∧ y = raw v) ∨ ((∀ v, ¬ Has ms n v) ∧ y = []) := by
  unfold ReadsWith
  simp only [Except.ok.injEq, eq_comm]

theorem struct_iff {α : Type} {fields : List (Fld α)} {v : Value} {a b : α} :
    struct fields v a = .ok b ↔ ∃ ms, Members v ms ∧ members fields ms a = .ok b := by
  unfold Members
  cases v with
  | null => simp [struct, members]
  | obj ms => simp [struct]
  | _ => simp [struct, mismatch]

/-! ## The tables -/

theorem env_lawful : Lawful envFields (fun _ : Sh.Env => ()) where
  ascii := by simp only [envFields, List.forall_mem_cons]; decide
  distinct := by decide +kernel
  get_put := by simp [envFields]
  other := by simp [envFields]
  keep_put := by simp
  ext := by
    rintro ⟨a, b, c⟩ ⟨a', b', c'⟩ _ h
    simpa [envFields] using h

theorem sh_lawful : Lawful shFields (fun t : Sh.Target => (t.basedir, t.environ)) where
  ascii := by simp only [shFields, List.forall_mem_cons]; decide
  distinct := by decide +kernel
  get_put := by simp [shFields]
  other := by simp [shFields]
  keep_put := by simp [shFields]
  ext := by
    rintro ⟨a, b, c, d⟩ ⟨a', b', c', d'⟩ h1 h
    simp [shFields] at h h1 ⊢
    exact ⟨h1.1, h1.2, h.1, h.2⟩

theorem pg_lawful : Lawful pgFields (fun _ : PgTarget => ()) where
  ascii := by simp only [pgFields, List.forall_mem_cons]; decide
  distinct := by decide +kernel
  get_put := by simp [pgFields]
  other := by simp [pgFields]
  keep_put := by simp
  ext := by
    rintro ⟨⟩ ⟨⟩ _ h
    simpa [pgFields] using h

theorem demo_lawful : Lawful demoFields (fun t : Demo.Target => t.stdout) where
  ascii := by simp only [demoFields, List.forall_mem_cons]; decide
  distinct := by decide +kernel
  get_put := by simp [demoFields]
  other := by simp [demoFields]
  keep_put := by simp [demoFields]
  ext := by
    rintro ⟨⟩ ⟨⟩ h1 h
    simp [demoFields] at h h1 ⊢
    simp [h, h1]

theorem exec_lawful : Lawful execFields (fun _ : Sh.Exec => ()) where
  ascii := by simp only [execFields, List.forall_mem_cons]; decide
  distinct := by decide +kernel
  get_put := by simp [execFields]
  other := by simp [execFields]
  keep_put := by simp
  ext := by
    rintro ⟨⟩ ⟨⟩ _ h
    simpa [execFields] using h

theorem sql_lawful : Lawful sqlFields (fun _ : Str => ()) where
  ascii := by simp only [sqlFields, List.forall_mem_cons]; decide
  distinct := by decide +kernel
  get_put := by simp [sqlFields]
  other := by simp [sqlFields]
  keep_put := by simp
  ext := by
    intro a b _ h
    simpa [sqlFields] using h

theorem intText_range {s : Str} {n : Int} (h : Ddl.IntText s n) : -2 ^ 63 ≤ n ∧ n < 2 ^ 63 := by
  rcases h with ⟨m, _, rfl, h⟩ | ⟨m, ds, _, _, rfl, h⟩
  · exact ⟨by omega, h⟩
  · exact ⟨h, by omega⟩

theorem sleep_lawful : Lawful sleepFields (fun _ : Demo.Sleep => ()) where
  ascii := by simp only [sleepFields, List.forall_mem_cons]; decide
  distinct := by decide +kernel
  get_put := by
    intro f hf
    obtain rfl := List.mem_singleton.mp hf
    intro v a (x : Int) (h : int v a.seconds.toInt = .ok x)
    have hr : -2 ^ 63 ≤ x ∧ x < 2 ^ 63 := by
      cases v with
      | null =>
        obtain rfl := Except.ok.inj h
        exact ⟨Int64.le_toInt _, Int64.toInt_lt _⟩
      | num lit => exact intText_range (int_dec.mp h)
      | _ => cases h
    exact Int64.toInt_ofInt_of_le hr.1 hr.2
  other := by simp [sleepFields]
  keep_put := by simp
  ext := by
    rintro ⟨a⟩ ⟨b⟩ _ h
    simp [sleepFields] at h
    rw [Int64.toInt_inj.mp h]

theorem no_lawful : Lawful noFields (fun _ : Unit => ()) where
  ascii := by simp [noFields]
  distinct := by simp [noFields]
  get_put := by simp [noFields]
  other := by simp [noFields]
  keep_put := by simp [noFields]
  ext := by simp

theorem target_lawful (tx : Text) : Lawful (targetFields tx) (fun _ : TargetSrc => ()) where
  ascii := by simp only [targetFields, List.forall_mem_cons]; decide
  distinct := by
    have : (targetFields tx).map (fun f => f.name.map lowerByte) = targetNames.map (List.map lowerByte) := rfl
    rw [this]; decide +kernel
  get_put := by simp [targetFields]
  other := by simp [targetFields]
  keep_put := by simp
  ext := by
    rintro ⟨⟩ ⟨⟩ _ h
    simpa [targetFields] using h

theorem task_lawful (tx : Text) : Lawful (taskFields tx) (fun _ : TaskSrc => ()) where
  ascii := by simp only [taskFields, List.forall_mem_cons]; decide
  distinct := by
    have : (taskFields tx).map (fun f => f.name.map lowerByte) = taskNames.map (List.map lowerByte) := rfl
    rw [this]; decide +kernel
  get_put := by simp [taskFields]
  other := by simp [taskFields]
  keep_put := by simp
  ext := by
    rintro ⟨⟩ ⟨⟩ _ h
    simpa [taskFields] using h

theorem file_lawful (tx : Text) : Lawful (fileFields tx) (fun _ : Src => ()) where
  ascii := by simp only [fileFields, List.forall_mem_cons]; decide
  distinct := by
    have : (fileFields tx).map (fun f => f.name.map lowerByte) = fileNames.map (List.map lowerByte) := rfl
    rw [this]; decide +kernel
  get_put := by simp [fileFields]
  other := by simp [fileFields]
  keep_put := by simp
  ext := by
    rintro ⟨⟩ ⟨⟩ _ h
    simpa [fileFields] using h

end Verif.Json
