import Verif.Sh.Lemmas

/-!
# C27-C31: environments and commands of `sh` targets
-/

namespace Verif.Sh
open Verif Spec

/-- A `Set` map whose keys are legal variable names. -/
def LegalSet (e : Env) : Prop := e.set.WF ∧ ∀ k ∈ e.set.keys, Name k

theorem bind?_keyOf {k kv : Str} (hk : Name k) (h : keyOf kv ≠ k) : bind? k kv = none :=
  (bind?_eq_none hk).mpr fun _ hb => h (keyOf_of_binds hb)

theorem bind?_entry {k a v : Str} (hk : Name k) (ha : Name a) :
    bind? k (a ++ 61 :: v) = if a = k then some v else none := by
  by_cases h : a = k
  · subst h
    rw [if_pos rfl, bind?_eq_some hk]
    exact ⟨hk, by simp⟩
  · rw [if_neg h]
    exact bind?_keyOf hk (by rw [keyOf_binding ha]; exact h)

/-- All the values a variable has after `Apply`. -/
theorem values_apply {e : Env} (he : LegalSet e) {k : Str} (hk : Name k) (environ : List Str) :
    values k (e.apply environ) =
      match e.set.get? k with
      | some v => List.replicate (max 1 ((environ.map keyOf).count k)) v
      | none => if passesB e k then values k environ else [] := by
  obtain ⟨hwf, hn⟩ := he
  rw [apply_eq e environ hwf]
  unfold values
  rw [List.filterMap_append]
  have hA : ∀ environ : List Str, (environ.filterMap (keep e)).filterMap (bind? k) =
      match e.set.get? k with
      | some v => List.replicate ((environ.map keyOf).count k) v
      | none => if passesB e k then environ.filterMap (bind? k) else [] := by
    intro environ
    induction environ with
    | nil => cases e.set.get? k <;> simp
    | cons kv environ ih =>
      by_cases hkk : keyOf kv = k
      · cases hg : e.set.get? k with
        | some v =>
          have h1 : keep e kv = some (k ++ 61 :: v) := by simp [keep, hkk, hg]
          rw [hg] at ih
          simp [h1, bind?_entry hk hk, ih, hkk, List.replicate_succ]
        | none =>
          rw [hg] at ih
          by_cases hp : passesB e k = true
          · have h1 : keep e kv = some kv := by simp [keep, hkk, hg, hp]
            rw [if_pos hp] at ih
            simp [h1, hp, List.filterMap_cons, ih]
          · have h1 : keep e kv = none := by simp [keep, hkk, hg, hp]
            rw [if_neg hp] at ih
            simp only [List.filterMap_cons, h1, ih, if_neg hp]
      · have h0 := bind?_keyOf hk hkk
        have h1 : (keep e kv = none) ∨ ∃ x, keep e kv = some x ∧ bind? k x = none := by
          unfold keep
          cases hg : e.set.get? (keyOf kv) with
          | some v =>
            refine Or.inr ⟨_, rfl, ?_⟩
            rw [bind?_entry hk (hn _ (GoMap.mem_keys_of_get? hg)), if_neg hkk]
          | none =>
            by_cases hp : passesB e (keyOf kv) = true
            · exact Or.inr ⟨kv, by simp [hp], h0⟩
            · exact Or.inl (by simp [hp])
        have h2 : (List.filterMap (keep e) (kv :: environ)).filterMap (bind? k) =
            (environ.filterMap (keep e)).filterMap (bind? k) := by
          rcases h1 with h1 | ⟨x, h1, h1'⟩
          · simp [h1]
          · simp [h1, h1']
        rw [h2, ih]
        simp [h0, hkk]
  have hB : ((fresh e environ).map (fun p => p.1 ++ 61 :: p.2)).filterMap (bind? k) =
      match e.set.get? k with
      | some v => if k ∈ environ.map keyOf then [] else [v]
      | none => [] := by
    unfold fresh
    clear hA
    generalize e.set = m at *
    induction m with
    | nil => simp
    | cons p m ih =>
      obtain ⟨a, w⟩ := p
      have hna : Name a := hn a (by simp [GoMap.keys])
      simp only [GoMap.WF, GoMap.keys, List.map_cons, List.nodup_cons] at hwf
      have ih' := ih hwf.2 (fun k' h' => hn k' (by
        simp only [GoMap.keys, List.map_cons, List.mem_cons]; exact Or.inr h'))
      simp only [List.filter_cons]
      by_cases hak : a = k
      · subst hak
        have hnone : GoMap.get? m a = none := GoMap.get?_eq_none.mpr hwf.1
        rw [hnone] at ih'
        rw [GoMap.get?_cons, if_pos rfl]
        by_cases hin : a ∈ environ.map keyOf
        · simp only [hin, not_true, decide_false, Bool.false_eq_true, if_false, ih', if_true]
        · simp only [hin, not_false_iff, decide_true, if_true, List.map_cons, List.filterMap_cons,
            bind?_entry hk hk, ih', if_false]
      · rw [GoMap.get?_cons, if_neg hak]
        by_cases hin : a ∈ environ.map keyOf
        · simp only [hin, not_true, decide_false, Bool.false_eq_true, if_false, ih']
        · simp only [hin, not_false_iff, decide_true, if_true, List.map_cons, List.filterMap_cons,
            bind?_entry hk hna, if_neg hak, ih']
  rw [hA, hB]
  cases hg : e.set.get? k with
  | none => simp
  | some v =>
    by_cases hin : k ∈ environ.map keyOf
    · have : 0 < (environ.map keyOf).count k := List.count_pos_iff.mpr hin
      have hmax : max 1 ((environ.map keyOf).count k) = (environ.map keyOf).count k := by omega
      simp only [if_pos hin, hmax, List.append_nil]
    · simp only [if_neg hin, List.count_eq_zero_of_not_mem hin]
      rfl

/-- C27 (the value a started command sees: the last binding). -/
theorem C27_apply_lookup_last (e : Env) (he : LegalSet e) (environ : List Str) (k v : Str)
    (hk : Name k) :
    LookupLast (e.apply environ) k v ↔
      ((k, v) ∈ e.set ∨
        ((∀ w, (k, w) ∉ e.set) ∧ Passes e.allow e.deny k ∧ LookupLast environ k v)) := by
  rw [lookupLast_iff hk, lookupLast_iff hk, values_apply he hk, ← passesB_iff]
  cases hg : e.set.get? k with
  | some w =>
    have hm := GoMap.mem_of_get? hg
    constructor
    · intro h
      have : w = v := by
        have := List.mem_of_getLast? h
        exact ((List.mem_replicate.mp this).2).symm
      exact Or.inl (this ▸ hm)
    · rintro (h | ⟨h, _⟩)
      · have := (GoMap.get?_iff_mem he.1).mpr h
        rw [hg] at this
        obtain rfl := Option.some.inj this
        rw [List.getLast?_replicate, if_neg (by omega)]
      · exact absurd hm (h w)
  | none =>
    have hm : ∀ w, (k, w) ∉ e.set := fun w h => by
      have := (GoMap.get?_iff_mem he.1).mpr h
      rw [hg] at this; cases this
    by_cases hp : passesB e k = true <;> simp [hp, hm]

/-- C27 (the value `getenv` finds in the list: the first binding). -/
theorem C27_apply_lookup_first (e : Env) (he : LegalSet e) (environ : List Str) (k v : Str)
    (hk : Name k) :
    LookupFirst (e.apply environ) k v ↔
      ((k, v) ∈ e.set ∨
        ((∀ w, (k, w) ∉ e.set) ∧ Passes e.allow e.deny k ∧ LookupFirst environ k v)) := by
  rw [lookupFirst_iff hk, lookupFirst_iff hk, values_apply he hk, ← passesB_iff]
  cases hg : e.set.get? k with
  | some w =>
    have hm := GoMap.mem_of_get? hg
    constructor
    · intro h
      have : w = v := by
        have := List.mem_of_head? h
        exact ((List.mem_replicate.mp this).2).symm
      exact Or.inl (this ▸ hm)
    · rintro (h | ⟨h, _⟩)
      · have := (GoMap.get?_iff_mem he.1).mpr h
        rw [hg] at this
        obtain rfl := Option.some.inj this
        rw [List.head?_replicate, if_neg (by omega)]
      · exact absurd hm (h w)
  | none =>
    have hm : ∀ w, (k, w) ∉ e.set := fun w h => by
      have := (GoMap.get?_iff_mem he.1).mpr h
      rw [hg] at this; cases this
    by_cases hp : passesB e k = true <;> simp [hp, hm]

/-- An Env with an allow list, a Set map and an environment, used by the examples below. -/
def exEnv : Env := { allow := [b!"PATH", b!"HOME"], set := [(b!"HOME", b!"/tmp"), (b!"X", b!"1")] }

theorem exEnv_legal : LegalSet exEnv := by
  refine ⟨by decide, ?_⟩
  simp [exEnv, GoMap.keys, Name]

example : exEnv.apply [b!"HOME=/root", b!"SECRET=s", b!"PATH=/bin", b!"=x", b!"HOME"] =
    [b!"HOME=/tmp", b!"PATH=/bin", b!"HOME=/tmp", b!"X=1"] := by decide

example : LookupLast (exEnv.apply [b!"HOME=/root", b!"SECRET=s", b!"PATH=/bin"]) b!"PATH" b!"/bin" :=
  (C27_apply_lookup_last exEnv exEnv_legal _ b!"PATH" b!"/bin" (by simp [Name])).mpr
    (Or.inr ⟨by simp [exEnv], by simp [exEnv, Passes],
      .here (env := [b!"HOME=/root", b!"SECRET=s"]) ⟨by simp [Name], rfl⟩⟩)

/-- C28, first part: nothing leaks. No condition on the Set keys. -/
theorem C28_apply_leaks_nothing (e : Env) (he : e.set.WF) (environ : List Str) (x : Str)
    (hx : x ∈ e.apply environ) :
    (∃ k v, (k, v) ∈ e.set ∧ x = k ++ b!"=" ++ v) ∨
      (x ∈ environ ∧ ∃ k, FilteredAs x k ∧ Passes e.allow e.deny k ∧ ∀ w, (k, w) ∉ e.set) := by
  rw [apply_eq e environ he, List.mem_append] at hx
  rcases hx with hx | hx
  · obtain ⟨kv, hin, hk⟩ := List.mem_filterMap.mp hx
    unfold keep at hk
    cases hg : e.set.get? (keyOf kv) with
    | some v =>
      rw [hg] at hk
      obtain rfl := Option.some.inj hk
      exact Or.inl ⟨_, v, GoMap.mem_of_get? hg, by simp⟩
    | none =>
      rw [hg] at hk
      by_cases hp : passesB e (keyOf kv) = true
      · simp only [hp, if_true, Option.some.injEq] at hk
        subst hk
        refine Or.inr ⟨hin, keyOf kv, filteredAs_keyOf kv, passesB_iff.mp hp, fun w h => ?_⟩
        rw [(GoMap.get?_iff_mem he).mpr h] at hg; cases hg
      · simp [hp] at hk
  · obtain ⟨p, hp, rfl⟩ := List.mem_map.mp hx
    exact Or.inl ⟨p.1, p.2, (List.mem_filter.mp hp).1, by simp⟩

/-- C28, second part: the entries that survive are a subsequence of the result in their original
order, every entry that should survive does, and every Set entry is present. -/
theorem C28_apply_keeps_order (e : Env) (he : e.set.WF) (environ : List Str)
    (survives : Str → Bool)
    (hs : ∀ kv, survives kv = true ↔
      ∃ k, FilteredAs kv k ∧ Passes e.allow e.deny k ∧ ∀ w, (k, w) ∉ e.set) :
    (environ.filter survives).Sublist (e.apply environ) ∧
      (LegalSet e → (e.apply environ).filter survives = environ.filter survives) ∧
      ∀ k v, (k, v) ∈ e.set → k ++ b!"=" ++ v ∈ e.apply environ := by
  have hs' : ∀ kv, survives kv = true ↔
      (passesB e (keyOf kv) = true ∧ e.set.get? (keyOf kv) = none) := by
    intro kv
    rw [hs]
    constructor
    · rintro ⟨k, h1, h2, h3⟩
      rw [filteredAs_iff] at h1
      subst h1
      refine ⟨passesB_iff.mpr h2, ?_⟩
      rw [GoMap.get?_eq_none]
      intro hk
      obtain ⟨w, hw⟩ := GoMap.exists_get?_of_mem_keys hk
      exact h3 w (GoMap.mem_of_get? hw)
    · rintro ⟨h1, h2⟩
      refine ⟨_, filteredAs_keyOf kv, passesB_iff.mp h1, fun w h => ?_⟩
      rw [(GoMap.get?_iff_mem he).mpr h] at h2; cases h2
  have hsurv : ∀ kv, survives kv = true → keep e kv = some kv := by
    intro kv h
    obtain ⟨h1, h2⟩ := (hs' kv).mp h
    simp [keep, h1, h2]
  refine ⟨?_, ?_, ?_⟩
  · rw [apply_eq e environ he]
    refine List.Sublist.trans ?_ (List.sublist_append_left _ _)
    induction environ with
    | nil => simp
    | cons kv environ ih =>
      by_cases h : survives kv = true
      · rw [List.filter_cons_of_pos h, List.filterMap_cons, hsurv kv h]
        exact ih.cons_cons kv
      · rw [List.filter_cons_of_neg (by simpa using h), List.filterMap_cons]
        cases keep e kv with
        | none => exact ih
        | some x => exact ih.cons x
  · rintro ⟨_, hn⟩
    have hset : ∀ k v, k ∈ e.set.keys → survives (k ++ 61 :: v) = false := by
      intro k v hk
      rw [← Bool.not_eq_true, hs', keyOf_binding (hn k hk), GoMap.get?_eq_none]
      exact fun h => h.2 hk
    rw [apply_eq e environ he, List.filter_append]
    have h2 : ((fresh e environ).map (fun p => p.1 ++ 61 :: p.2)).filter survives = [] := by
      rw [List.filter_eq_nil_iff]
      intro x hx
      obtain ⟨p, hp, rfl⟩ := List.mem_map.mp hx
      have : p.1 ∈ e.set.keys := List.mem_map_of_mem (List.mem_filter.mp hp).1
      simp [hset _ p.2 this]
    rw [h2, List.append_nil]
    induction environ with
    | nil => simp
    | cons kv environ ih =>
      have ih' := ih (by
        rw [List.filter_eq_nil_iff]
        intro x hx
        obtain ⟨p, hp, rfl⟩ := List.mem_map.mp hx
        have : p.1 ∈ e.set.keys := List.mem_map_of_mem (List.mem_filter.mp hp).1
        simp [hset _ p.2 this])
      by_cases h : survives kv = true
      · rw [List.filter_cons_of_pos h, List.filterMap_cons, hsurv kv h]
        simp only [List.filter_cons_of_pos h, ih']
      · rw [List.filter_cons_of_neg (by simpa using h), List.filterMap_cons]
        cases hk : keep e kv with
        | none => exact ih'
        | some x =>
          have : survives x = false := by
            unfold keep at hk
            cases hg : e.set.get? (keyOf kv) with
            | some v =>
              rw [hg] at hk
              obtain rfl := Option.some.inj hk
              exact hset _ v (GoMap.mem_keys_of_get? hg)
            | none =>
              rw [hg] at hk
              by_cases hp : passesB e (keyOf kv) = true
              · exact absurd ((hs' kv).mpr ⟨hp, hg⟩) h
              · simp [hp] at hk
          simp only [List.filter_cons_of_neg (by simp [this] : ¬ survives x = true), ih']
  · intro k v hkv
    rw [apply_eq e environ he, List.mem_append]
    have hg := (GoMap.get?_iff_mem he).mpr hkv
    by_cases h : k ∈ environ.map keyOf
    · obtain ⟨kv, h1, h2⟩ := List.mem_map.mp h
      refine Or.inl (List.mem_filterMap.mpr ⟨kv, h1, ?_⟩)
      simp [keep, h2, hg]
    · refine Or.inr (List.mem_map.mpr ⟨(k, v), List.mem_filter.mpr ⟨hkv, by simpa using h⟩, by simp⟩)

/-- C28: the iteration order of the Set map only permutes the result. -/
theorem C28_apply_order_irrelevant (e e' : Env) (he : e.set.WF) (ha : e.allow = e'.allow)
    (hd : e.deny = e'.deny) (hp : e.set.Perm e'.set) (environ : List Str) :
    (e.apply environ).Perm (e'.apply environ) := by
  have he' : e'.set.WF := (hp.map Prod.fst).nodup_iff.mp he
  rw [apply_eq e environ he, apply_eq e' environ he']
  have hk : keep e = keep e' := by
    funext kv
    unfold keep passesB
    rw [GoMap.get?_perm he hp, ha, hd]
  rw [hk]
  exact List.Perm.append_left _ ((hp.filter _).map _)

/-- The hypotheses of the C28 theorems are met by a survival test on a concrete Env. -/
example : ((exEnv.apply [b!"HOME=/root", b!"SECRET=s", b!"PATH=/bin"]).filter
    (fun kv => passesB exEnv (keyOf kv) && (exEnv.set.get? (keyOf kv)).isNone)) = [b!"PATH=/bin"] := by
  decide

/-- C29, full statement for Envs whose Set keys are legal names. -/
theorem C29_apply_idempotent_partial (e : Env) (he : LegalSet e) (environ : List Str) :
    e.apply (e.apply environ) = e.apply environ := by
  have hwf := he.1
  have hset := (C28_apply_keeps_order e hwf environ
    (fun kv => passesB e (keyOf kv) && (e.set.get? (keyOf kv)).isNone) (by
      intro kv
      simp only [Bool.and_eq_true, Option.isNone_iff_eq_none]
      constructor
      · rintro ⟨h1, h2⟩
        refine ⟨_, filteredAs_keyOf kv, passesB_iff.mp h1, fun w h => ?_⟩
        rw [(GoMap.get?_iff_mem hwf).mpr h] at h2; cases h2
      · rintro ⟨k, h1, h2, h3⟩
        rw [filteredAs_iff] at h1
        subst h1
        refine ⟨passesB_iff.mpr h2, ?_⟩
        rw [GoMap.get?_eq_none]
        intro hk
        obtain ⟨w, hw⟩ := GoMap.exists_get?_of_mem_keys hk
        exact h3 w (GoMap.mem_of_get? hw))).2.2
  rw [apply_eq e (e.apply environ) hwf]
  have h1 : fresh e (e.apply environ) = [] := by
    unfold fresh
    rw [List.filter_eq_nil_iff]
    rintro ⟨k, v⟩ hp
    have := hset k v hp
    have hn := he.2 k (List.mem_map_of_mem hp)
    simp only [decide_eq_true_eq, not_not, List.mem_map]
    exact ⟨_, this, by simpa using keyOf_binding (v := v) hn⟩
  rw [h1, List.map_nil, List.append_nil]
  have h2 : ∀ x ∈ e.apply environ, keep e x = some x := by
    intro x hx
    rcases C28_apply_leaks_nothing e hwf environ x hx with ⟨k, v, hkv, rfl⟩ | ⟨_, k, hk, hp, hns⟩
    · have hn := he.2 k (List.mem_map_of_mem hkv)
      have hk : keyOf (k ++ b!"=" ++ v) = k := by simpa using keyOf_binding (v := v) hn
      have hg := (GoMap.get?_iff_mem hwf).mpr hkv
      simp [keep, hg, keyOf_binding hn]
    · rw [filteredAs_iff] at hk
      subst hk
      have : e.set.get? (keyOf x) = none := by
        rw [GoMap.get?_eq_none]
        intro hk
        obtain ⟨w, hw⟩ := GoMap.exists_get?_of_mem_keys hk
        exact hns w (GoMap.mem_of_get? hw)
      simp [keep, this, passesB_iff.mpr hp]
  generalize e.apply environ = l at h2
  induction l with
  | nil => rfl
  | cons x l ih =>
    rw [List.filterMap_cons, h2 x (by simp)]
    simp only [ih fun y hy => h2 y (by simp [hy])]

/-- C29 for two applications that go through Set in different orders, as the iteration over a Go map
may: the second changes nothing. -/
theorem C29_any_order_partial (e e' : Env) (he : LegalSet e) (ha : e'.allow = e.allow) (hd : e'.deny = e.deny)
    (hp : e'.set.Perm e.set) (environ : List Str) : e'.apply (e.apply environ) = e.apply environ := by
  have hwf : e'.set.WF := (hp.map Prod.fst).nodup_iff.2 he.1
  have hget : ∀ k, e'.set.get? k = e.set.get? k := by
    intro k
    apply Option.ext
    intro v
    rw [GoMap.get?_iff_mem hwf, GoMap.get?_iff_mem he.1]
    exact hp.mem_iff
  have hkeep : keep e' = keep e := by
    funext kv
    have h1 : passesB e' (keyOf kv) = passesB e (keyOf kv) := by
      rw [Bool.eq_iff_iff, passesB_iff, passesB_iff, ha, hd]
    unfold keep
    rw [hget, h1]
  have hfresh : fresh e (e.apply environ) = [] → fresh e' (e.apply environ) = [] := by
    unfold fresh
    simp only [List.filter_eq_nil_iff]
    exact fun h p hm => h p (hp.mem_iff.1 hm)
  have h0 := C29_apply_idempotent_partial e he environ
  have hlen : fresh e (e.apply environ) = [] := by
    unfold fresh
    rw [List.filter_eq_nil_iff]
    rintro ⟨k, v⟩ hm
    have hn := he.2 k (List.mem_map_of_mem hm)
    have := (C28_apply_keeps_order e he.1 environ
      (fun kv => passesB e (keyOf kv) && (e.set.get? (keyOf kv)).isNone) (by
        intro kv
        simp only [Bool.and_eq_true, Option.isNone_iff_eq_none]
        constructor
        · rintro ⟨h1, h2⟩
          refine ⟨_, filteredAs_keyOf kv, passesB_iff.mp h1, fun w h => ?_⟩
          rw [(GoMap.get?_iff_mem he.1).mpr h] at h2; cases h2
        · rintro ⟨k, h1, h2, h3⟩
          rw [filteredAs_iff] at h1
          subst h1
          refine ⟨passesB_iff.mpr h2, ?_⟩
          rw [GoMap.get?_eq_none]
          intro hk
          obtain ⟨w, hw⟩ := GoMap.exists_get?_of_mem_keys hk
          exact h3 w (GoMap.mem_of_get? hw))).2.2 k v hm
    simp only [decide_eq_true_eq, not_not, List.mem_map]
    exact ⟨_, this, by simpa using keyOf_binding (v := v) hn⟩
  rw [apply_eq e' _ hwf, hkeep, hfresh hlen]
  rw [apply_eq e (e.apply environ) he.1, hlen] at h0
  exact h0

/-- Two orders of the same Set, on an environment in which one key is bound. -/
example : ({ set := [(b!"B", b!"2"), (b!"A", b!"1")], deny := [b!"S"] } : Env).apply
      (({ set := [(b!"A", b!"1"), (b!"B", b!"2")], deny := [b!"S"] } : Env).apply [b!"S=s", b!"B=0", b!"C=c"]) =
    [b!"B=2", b!"C=c", b!"A=1"] := by decide

/-- C29 is false when a Set key contains `=`: the second application adds the entry again. -/
theorem C29_refuted : ∃ (e : Env) (environ : List Str), e.set.WF ∧
    e.apply (e.apply environ) ≠ e.apply environ :=
  ⟨{ set := [(b!"A=B", b!"c")] }, [], by decide, by decide⟩

/-- C30: what a command started by `exec` sees, for a task on a started target. -/
theorem C30_command_environment (x : Exec) (t : Target) (osEnviron : List Str) (c : Command)
    (hc : x.command (t.start osEnviron) = some c) (hx : LegalSet x.env) (ht : LegalSet t.env)
    (k v : Str) (hk : Name k) :
    LookupLast c.env k v ↔
      ((k, v) ∈ x.env.set ∨
        ((∀ w, (k, w) ∉ x.env.set) ∧ Passes x.env.allow x.env.deny k ∧
          ((k, v) ∈ t.env.set ∨
            ((∀ w, (k, w) ∉ t.env.set) ∧ Passes t.env.allow t.env.deny k ∧
              LookupLast osEnviron k v)))) := by
  unfold Exec.command at hc
  cases ha : x.args with
  | nil => rw [ha] at hc; cases hc
  | cons a rest =>
    rw [ha] at hc
    obtain rfl := Option.some.inj hc
    simp only [Target.start]
    rw [C27_apply_lookup_last x.env hx _ k v hk, C27_apply_lookup_last t.env ht _ k v hk]

/-- C30: a variable the target filters out, set by neither, is absent, whatever the task's lists. -/
theorem C30_denied_stays_denied (x : Exec) (t : Target) (osEnviron : List Str) (c : Command)
    (hc : x.command (t.start osEnviron) = some c) (hx : LegalSet x.env) (ht : LegalSet t.env)
    (k : Str) (hk : Name k) (hden : ¬ Passes t.env.allow t.env.deny k)
    (h1 : ∀ w, (k, w) ∉ x.env.set) (h2 : ∀ w, (k, w) ∉ t.env.set) :
    ∀ entry ∈ c.env, ∀ v, ¬ Binds entry k v := by
  have hno : ∀ v, ¬ LookupLast c.env k v := by
    intro v h
    rcases (C30_command_environment x t osEnviron c hc hx ht k v hk).mp h with h | ⟨_, _, h | ⟨_, h, _⟩⟩
    · exact h1 v h
    · exact h2 v h
    · exact hden h
  intro entry hin v hb
  have hne : values k c.env ≠ [] := by
    intro h
    have : v ∈ values k c.env := List.mem_filterMap.mpr ⟨entry, hin, (bind?_eq_some hk).mpr hb⟩
    rw [h] at this; cases this
  exact hno ((values k c.env).getLast hne)
    ((lookupLast_iff hk).mpr (List.getLast?_eq_some_getLast hne))

example : (({ args := [b!"env"], env := { allow := [b!"SECRET", b!"X"] } } : Exec).command
      (({ env := { deny := [b!"SECRET"], set := [(b!"X", b!"1")] } } : Target).start
        [b!"SECRET=s", b!"PATH=/bin"])).map Command.env = some [b!"X=1"] := by decide

theorem containsSlash_iff {s : Str} : containsSlash s = true ↔ (47 : UInt8) ∈ s := by
  unfold containsSlash
  cases h : indexByte 47 s with
  | none => simpa using indexByte_none.mp h
  | some i =>
    simp only [Option.isSome_some, true_iff]
    by_contra hn
    rw [indexByte_none.mpr hn] at h; cases h

theorem hasPrefix_iff {s p : Str} : hasPrefix s p = true ↔ p <+: s := by
  unfold hasPrefix
  rw [beq_iff_eq, List.prefix_iff_eq_take]
  exact eq_comm

/-- C31: `Check` accepts exactly a command that is a bare name, absolute, or explicitly relative. -/
theorem C31_check_exact (x : Exec) :
    x.check = none ↔ ∃ arg0 rest, x.args = arg0 :: rest ∧
      ((47 : UInt8) ∉ arg0 ∨ b!"/" <+: arg0 ∨ b!"./" <+: arg0 ∨ b!"../" <+: arg0) := by
  unfold Exec.check
  cases ha : x.args with
  | nil => simp
  | cons a rest =>
    simp only [List.cons.injEq, validateArg0]
    simp only [← containsSlash_iff, ← hasPrefix_iff]
    cases h1 : containsSlash a <;> cases h2 : hasPrefix a b!"/" <;>
      cases h3 : hasPrefix a b!"./" <;> cases h4 : hasPrefix a b!"../" <;> simp_all

/-- C31: an accepted Exec is executed without an index panic and runs the command it names, in the
target's directory. -/
theorem C31_checked_never_panics (x : Exec) (t : Target) (h : x.check = none) :
    ∃ c, x.command t = some c ∧ x.args = c.path :: c.args ∧ c.dir = t.basedir := by
  obtain ⟨a, rest, ha, _⟩ := (C31_check_exact x).mp h
  exact ⟨_, by simp [Exec.command, ha]; rfl, ha, rfl⟩

/-- C31: the error says what was wrong. -/
theorem C31_check_error (x : Exec) (e : CheckError) (h : x.check = some e) :
    (x.args = [] ∧ e = .tooFewArgs) ∨ ∃ arg0 rest, x.args = arg0 :: rest ∧ e = .illegalCommand arg0 := by
  unfold Exec.check at h
  cases ha : x.args with
  | nil => rw [ha] at h; exact Or.inl ⟨rfl, (Option.some.inj h).symm⟩
  | cons a rest =>
    rw [ha] at h
    refine Or.inr ⟨a, rest, rfl, ?_⟩
    simp only [validateArg0] at h
    split at h
    · cases h
    split at h
    · cases h
    split at h
    · cases h
    split at h
    · cases h
    exact (Option.some.inj h).symm

example : ({ args := [b!"./run", b!"-v"] } : Exec).check = none := by decide
example : ({ args := [b!"bin/run"] } : Exec).check = some (.illegalCommand b!"bin/run") := by decide
example : ({ args := [b!".../run"] } : Exec).check = some (.illegalCommand b!".../run") := by decide

end Verif.Sh
