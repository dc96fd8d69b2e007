import Verif.Eval.Lemmas

/-!
# The tree of a value
-/

namespace Verif.Eval
open Verif Json Spec

section
variable {F : Type} (fl : Floats F)

/-- Two numbers are the same `float64`, and the second is as it is printed. -/
def same (a b : Str) : Prop := ∃ x, fl.parse a = some x ∧ fl.parse b = some x ∧ b = fl.print x

theorem get_shownRows (m : List (Str × Tree F)) (k : Str) :
    GoMap.get? (shownRows fl m) k = (GoMap.get? m k).map (shown fl) := by
  induction m with
  | nil => rfl
  | cons p m ih =>
    obtain ⟨j, v⟩ := p
    simp only [shownRows, GoMap.get?_cons, ih]
    split <;> rfl

theorem shown_keys (m : List (Str × Tree F)) :
    ((sortStrs (m.map Prod.fst)).filterMap fun k =>
      (GoMap.get? (shownRows fl m) k).map fun v => (k, v)).map Prod.fst = sortStrs (m.map Prod.fst) := by
  have : ∀ keys : List Str, (∀ k ∈ keys, k ∈ m.map Prod.fst) →
      (keys.filterMap fun k => (GoMap.get? (shownRows fl m) k).map fun v => (k, v)).map Prod.fst = keys := by
    intro keys h
    induction keys with
    | nil => rfl
    | cons k keys ih =>
      obtain ⟨x, hx⟩ := GoMap.exists_get?_of_mem_keys (h k (by simp))
      rw [List.filterMap_cons, get_shownRows, hx]
      simp only [Option.map_some, List.map_cons]
      rw [ih fun j hj => h j (by simp [hj])]
  exact this _ fun k hk => mem_sortStrs.1 hk

theorem lt_of_le_ne {a b : Str} (h : Str.Le a b) (hne : a ≠ b) : Str.lt a b = true := by
  unfold Str.lt
  cases hb : Str.le b a with
  | false => rfl
  | true => exact absurd (Str.le_antisymm h hb) hne

theorem sorted_lt {l : List Str} (h : l.Nodup) : (sortStrs l).Pairwise fun a b => Str.lt a b = true := by
  have h1 := sortStrs_sorted l
  have h2 : (sortStrs l).Pairwise (· ≠ ·) := sortStrs_nodup h
  exact (h1.and h2).imp fun h => lt_of_le_ne h.1 h.2

/-- What a map has been given: the last of each name. -/
structure Given (l : List (Str × Value)) (m0 m : GoMap Str (Tree F)) : Prop where
  keys : ∀ k, k ∈ m.map Prod.fst ↔ k ∈ m0.map Prod.fst ∨ k ∈ l.map Prod.fst
  other : ∀ k, k ∉ l.map Prod.fst → m.get? k = m0.get? k
  last : ∀ k v, Last l k v → ∃ x, m.get? k = some x ∧ decode fl v = some x
  wf : (m0.map Prod.fst).Nodup → (m.map Prod.fst).Nodup

theorem last_cons {k j : Str} {u v : Value} {l : List (Str × Value)} (h : Last ((j, u) :: l) k v) :
    Last l k v ∨ (k = j ∧ v = u ∧ k ∉ l.map Prod.fst) := by
  obtain ⟨pre, post, e, hp⟩ := h
  cases pre with
  | nil =>
    cases e
    exact .inr ⟨rfl, rfl, fun hk => by
      obtain ⟨p, hp', e⟩ := List.mem_map.1 hk
      exact hp p hp' e⟩
  | cons q pre =>
    rw [List.cons_append] at e
    injection e with e1 e2
    exact .inl ⟨pre, post, e2, hp⟩

theorem mem_keys_set (m : GoMap Str (Tree F)) (j : Str) (x : Tree F) (k : Str) :
    k ∈ (m.set j x).map Prod.fst ↔ k ∈ m.map Prod.fst ∨ k = j := by
  have h1 : k ∈ (m.set j x).map Prod.fst ↔ ((m.set j x).get? k).isSome := (GoMap.get?_isSome (m := m.set j x)).symm
  have h2 : k ∈ m.map Prod.fst ↔ (m.get? k).isSome := (GoMap.get?_isSome (m := m)).symm
  rw [h1, h2, GoMap.get?_set]
  by_cases e : j = k
  · simp [e]
  · simp [e, Ne.symm e]

theorem nodup_set {m : GoMap Str (Tree F)} (h : (m.map Prod.fst).Nodup) (j : Str) (x : Tree F) :
    ((m.set j x).map Prod.fst).Nodup := by
  induction m with
  | nil => simp [GoMap.set]
  | cons p m ih =>
    obtain ⟨a, w⟩ := p
    rw [List.map_cons, List.nodup_cons] at h
    unfold GoMap.set
    split
    · simpa using h
    · rename_i hne
      rw [List.map_cons, List.nodup_cons]
      refine ⟨fun hm => ?_, ih h.2⟩
      rcases (mem_keys_set m j x a).1 hm with hm | hm
      · exact h.1 hm
      · exact hne hm

theorem given {l : List (Str × Value)} {m0 m : GoMap Str (Tree F)} (h : decodeMembers fl l m0 = some m) :
    Given fl l m0 m := by
  induction l generalizing m0 with
  | nil =>
    simp only [decodeMembers, Option.some.injEq] at h
    subst h
    exact ⟨by simp, fun _ _ => rfl, fun k v ⟨pre, post, e, _⟩ => by simp at e, id⟩
  | cons p l ih =>
    obtain ⟨j, u⟩ := p
    rw [decodeMembers] at h
    split at h
    · cases h
    · rename_i x hx
      obtain ⟨h1, h2, h3, h4⟩ := ih h
      refine ⟨fun k => ?_, fun k hk => ?_, fun k v hl => ?_, fun hw => h4 (nodup_set hw j x)⟩
      · rw [h1, mem_keys_set, List.map_cons, List.mem_cons, or_assoc]
      · simp only [List.map_cons, List.mem_cons, not_or] at hk
        rw [h2 k hk.2, GoMap.get?_set, if_neg (Ne.symm hk.1)]
      · rcases last_cons hl with hl | ⟨rfl, rfl, hk⟩
        · exact h3 k v hl
        · exact ⟨x, by rw [h2 k hk, GoMap.get?_set, if_pos rfl], hx⟩

/-- Every name that is given is given a last time. -/
theorem last_exists {l : List (Str × Value)} {k : Str} (h : k ∈ l.map Prod.fst) : ∃ v, Last l k v := by
  induction l with
  | nil => simp at h
  | cons p l ih =>
    by_cases hk : k ∈ l.map Prod.fst
    · obtain ⟨v, pre, post, rfl, hp⟩ := ih hk
      exact ⟨v, p :: pre, post, rfl, hp⟩
    · rw [List.map_cons, List.mem_cons] at h
      rcases h with rfl | h
      · exact ⟨p.2, [], l, rfl, fun q hq e => hk (List.mem_map.2 ⟨q, hq, e⟩)⟩
      · exact absurd h hk

theorem last_mem {l : List (Str × Value)} {k : Str} {v : Value} (h : Last l k v) : (k, v) ∈ l := by
  obtain ⟨pre, post, rfl, -⟩ := h
  simp

mutual
/-- What is shown is the value. -/
theorem decode_shows (hf : Sound fl) (v : Value) (t : Tree F) (h : decode fl v = some t) :
    Shows (same fl) v (shown fl t) := by
  cases v with
  | null => cases h; exact .null
  | bool b => cases h; exact .bool
  | num lit =>
    rw [decode] at h
    obtain ⟨x, hx, rfl⟩ := Option.map_eq_some_iff.1 h
    exact .num ⟨x, hx, hf.parse_print x, rfl⟩
  | str s => cases h; exact .str
  | arr l =>
    rw [decode] at h
    obtain ⟨ts, ht, rfl⟩ := Option.map_eq_some_iff.1 h
    exact .arr (elems_show hf l ts ht)
  | obj l =>
    rw [decode] at h
    obtain ⟨m, hm, rfl⟩ := Option.map_eq_some_iff.1 h
    have hg := given fl hm
    have hwf : (m.map Prod.fst).Nodup := hg.wf (by simp)
    have hall := members_show hf l
    rw [shown]
    refine .obj ?_ ?_ ?_
    · rw [shown_keys]
      exact sorted_lt hwf
    · intro k
      rw [shown_keys, mem_sortStrs, hg.keys]
      simp
    · intro k v v' hl hv
      obtain ⟨k', hk', e⟩ := List.mem_filterMap.1 hv
      obtain ⟨w, hw, e⟩ := Option.map_eq_some_iff.1 e
      cases e
      rw [get_shownRows] at hw
      obtain ⟨x, hx, hd⟩ := hg.last k v hl
      rw [hx] at hw
      cases hw
      exact hall (k, v) (last_mem hl) x hd

theorem elems_show (hf : Sound fl) (l : List Value) (ts : List (Tree F)) (h : decodeElems fl l = some ts) :
    List.Forall₂ (Shows (same fl)) l (shownElems fl ts) := by
  cases l with
  | nil => cases h; exact .nil
  | cons v l =>
    rw [decodeElems] at h
    split at h
    · cases h
    · rename_i x hx
      obtain ⟨ts, ht, rfl⟩ := Option.map_eq_some_iff.1 h
      exact .cons (decode_shows hf v x hx) (elems_show hf l ts ht)

theorem members_show (hf : Sound fl) (l : List (Str × Value)) :
    ∀ p ∈ l, ∀ t, decode fl p.2 = some t → Shows (same fl) p.2 (shown fl t) := by
  cases l with
  | nil => intro p hp; cases hp
  | cons q l =>
    obtain ⟨k, v⟩ := q
    have h1 := decode_shows hf v
    have h2 := members_show hf l
    intro p hp t ht
    rcases List.mem_cons.1 hp with rfl | hp
    · exact h1 t ht
    · exact h2 p hp t ht
end

/-! ## Good trees -/

theorem goodRows_iff (m : List (Str × Tree F)) :
    GoodRows m ↔ ∀ p ∈ m, PlainName p.1 ∧ Utf8.Valid p.1 ∧ Good p.2 := by
  induction m with
  | nil => simp [GoodRows]
  | cons p m ih =>
    obtain ⟨k, v⟩ := p
    simp [GoodRows, ih, and_assoc]

mutual
theorem decode_good (v : Value) (hn : PlainNames v) (hs : ValidStrings v) (t : Tree F)
    (h : decode fl v = some t) : Good t := by
  cases v with
  | null => cases h; trivial
  | bool b => cases h; trivial
  | num lit =>
    rw [decode] at h
    obtain ⟨x, hx, rfl⟩ := Option.map_eq_some_iff.1 h
    trivial
  | str s => cases h; simp only [Good]; exact hs.1 s .self
  | arr l =>
    rw [decode] at h
    obtain ⟨ts, ht, rfl⟩ := Option.map_eq_some_iff.1 h
    simp only [Good]
    exact elems_good l (fun v hv => ⟨fun l' hl => hn l' (.elem hv hl), fun s hw => hs.1 s (.elem hv hw),
      fun l' hl => hs.2 l' (.elem hv hl)⟩) ts ht
  | obj l =>
    rw [decode] at h
    obtain ⟨m, hm, rfl⟩ := Option.map_eq_some_iff.1 h
    have hg := given fl hm
    have hwf : (m.map Prod.fst).Nodup := hg.wf (by simp)
    have hall := members_good l
    simp only [Good]
    refine ⟨hwf, (goodRows_iff m).2 fun p hp => ?_⟩
    obtain ⟨k, x⟩ := p
    have hk : k ∈ l.map Prod.fst := by
      have := (hg.keys k).1 (List.mem_map.2 ⟨_, hp, rfl⟩)
      simpa using this
    obtain ⟨v, hv⟩ := last_exists hk
    obtain ⟨x', hx', hd⟩ := hg.last k v hv
    have hl := last_mem hv
    have e : some x' = some x := hx'.symm.trans (GoMap.get?_of_mem hwf hp)
    cases e
    refine ⟨hn l .self _ hl, hs.2 l .self _ hl, hall (k, v) hl ?_ x hd⟩
    exact ⟨fun l' hw => hn l' (.member hl hw), fun s hw => hs.1 s (.member hl hw),
      fun l' hw => hs.2 l' (.member hl hw)⟩

theorem elems_good (l : List Value) (h : ∀ v ∈ l, PlainNames v ∧ ValidStrings v) (ts : List (Tree F))
    (hd : decodeElems fl l = some ts) : GoodElems ts := by
  cases l with
  | nil => cases hd; trivial
  | cons v l =>
    rw [decodeElems] at hd
    split at hd
    · cases hd
    · rename_i x hx
      obtain ⟨ts, ht, rfl⟩ := Option.map_eq_some_iff.1 hd
      simp only [GoodElems]
      exact ⟨decode_good v (h v (by simp)).1 (h v (by simp)).2 x hx,
        elems_good l (fun u hu => h u (by simp [hu])) ts ht⟩

theorem members_good (l : List (Str × Value)) :
    ∀ p ∈ l, (PlainNames p.2 ∧ ValidStrings p.2) → ∀ t : Tree F, decode fl p.2 = some t → Good t := by
  cases l with
  | nil => intro p hp; cases hp
  | cons q l =>
    obtain ⟨k, v⟩ := q
    have h1 := decode_good v
    have h2 := members_good l
    intro p hp hv t ht
    rcases List.mem_cons.1 hp with rfl | hp
    · exact h1 hv.1 hv.2 t ht
    · exact h2 p hp hv t ht
end

/-! ## Failure -/

theorem members_none (l : List (Str × Value)) (m : GoMap Str (Tree F)) :
    decodeMembers fl l m = none ↔ ∃ p ∈ l, decode fl p.2 = none := by
  induction l generalizing m with
  | nil => simp [decodeMembers]
  | cons p l ih =>
    obtain ⟨k, v⟩ := p
    rw [decodeMembers]
    cases h : decode fl v with
    | none => simp [h]
    | some x => simp [h, ih]

theorem elems_none (l : List Value) : decodeElems fl l = none ↔ ∃ v ∈ l, decode fl v = none := by
  induction l with
  | nil => simp [decodeElems]
  | cons v l ih =>
    rw [decodeElems]
    cases h : decode fl v with
    | none => simp [h]
    | some x => simp [h, ih]

mutual
theorem decode_none (v : Value) (h : decode fl v = none) : ∃ lit, Within (.num lit) v ∧ fl.parse lit = none := by
  cases v with
  | null => cases h
  | bool b => cases h
  | num lit =>
    rw [decode, Option.map_eq_none_iff] at h
    exact ⟨lit, .self, h⟩
  | str s => cases h
  | arr l =>
    rw [decode, Option.map_eq_none_iff, elems_none] at h
    obtain ⟨v, hv, h⟩ := h
    obtain ⟨lit, h1, h2⟩ := elems_decode_none l v hv h
    exact ⟨lit, .elem hv h1, h2⟩
  | obj l =>
    rw [decode, Option.map_eq_none_iff, members_none] at h
    obtain ⟨p, hp, h⟩ := h
    obtain ⟨lit, h1, h2⟩ := members_decode_none l p hp h
    exact ⟨lit, .member (k := p.1) hp h1, h2⟩

theorem elems_decode_none (l : List Value) : ∀ v ∈ l, decode fl v = none →
    ∃ lit, Within (.num lit) v ∧ fl.parse lit = none := by
  cases l with
  | nil => intro v hv; cases hv
  | cons u l =>
    have h1 := decode_none u
    have h2 := elems_decode_none l
    intro v hv h
    rcases List.mem_cons.1 hv with rfl | hv
    · exact h1 h
    · exact h2 v hv h

theorem members_decode_none (l : List (Str × Value)) : ∀ p ∈ l, decode fl p.2 = none →
    ∃ lit, Within (.num lit) p.2 ∧ fl.parse lit = none := by
  cases l with
  | nil => intro v hv; cases hv
  | cons q l =>
    obtain ⟨k, u⟩ := q
    have h1 := decode_none u
    have h2 := members_decode_none l
    intro v hv h
    rcases List.mem_cons.1 hv with rfl | hv
    · exact h1 h
    · exact h2 v hv h
end

theorem decode_none_of {a v : Value} (h : Within a v) (ha : decode fl a = none) : decode fl v = none := by
  induction h with
  | self => exact ha
  | elem hv _ ih => rw [decode, Option.map_eq_none_iff, elems_none]; exact ⟨_, hv, ih⟩
  | member hv _ ih => rw [decode, Option.map_eq_none_iff, members_none]; exact ⟨_, hv, ih⟩

end

end Verif.Eval
