import Verif.Eval.Like
import Verif.Eval.Props

/-!
# Values that are the same up to order describe the same runbook
-/

namespace Verif.Eval
open Verif Json Spec Book Book.Spec

/-- The two values are the same up to order. -/
abbrev S : Value → Value → Prop := Shows (· = ·)

theorem s_null {v : Value} (h : S .null v) : v = .null := by cases h; rfl
theorem s_str {s : Str} {v : Value} (h : S (.str s) v) : v = .str s := by cases h; rfl
theorem s_num {s : Str} {v : Value} (h : S (.num s) v) : v = .num s := by
  cases h with
  | num h => rw [h]

theorem s_str' {s : Str} {v : Value} (h : S v (.str s)) : v = .str s := by cases h; rfl
theorem s_null' {v : Value} (h : S v .null) : v = .null := by cases h; rfl
theorem s_obj' {v : Value} {ms' : List (Str × Value)} (h : S v (.obj ms')) : ∃ ms, v = .obj ms := by
  cases h; exact ⟨_, rfl⟩

/-- Every member that is shown is one of the object. -/
theorem shown_from {ms ms' : List (Str × Value)} (h : S (.obj ms) (.obj ms')) {k : Str} {x' : Value}
    (hx : (k, x') ∈ ms') : ∃ x, (k, x) ∈ ms ∧ S x x' := by
  cases h with
  | obj _ h2 h3 =>
    obtain ⟨x, hl⟩ := last_exists ((h2 k).2 (List.mem_map.2 ⟨_, hx, rfl⟩))
    exact ⟨x, last_mem hl, h3 k x x' hl hx⟩

theorem last_of_nodup {ms : List (Str × Value)} (hn : (ms.map Prod.fst).Nodup) {k : Str} {x : Value}
    (h : (k, x) ∈ ms) : Last ms k x := by
  obtain ⟨pre, post, rfl⟩ := List.append_of_mem h
  refine ⟨pre, post, rfl, fun p hp e => ?_⟩
  rw [List.map_append, List.map_cons, List.nodup_append, List.nodup_cons] at hn
  exact hn.2.1.1 (List.mem_map.2 ⟨p, hp, e⟩)

/-- Every member of an object without duplicates is shown. -/
theorem shown_to {ms ms' : List (Str × Value)} (hn : (ms.map Prod.fst).Nodup) (h : S (.obj ms) (.obj ms'))
    {k : Str} {x : Value} (hx : (k, x) ∈ ms) : ∃ x', (k, x') ∈ ms' ∧ S x x' := by
  cases h with
  | obj _ h2 h3 =>
    obtain ⟨p, hp, e⟩ := List.mem_map.1 ((h2 k).1 (List.mem_map.2 ⟨_, hx, rfl⟩))
    obtain ⟨k', x'⟩ := p
    obtain rfl : k' = k := e
    exact ⟨x', hp, h3 _ x x' (last_of_nodup hn hx) hp⟩

theorem shown_nodup {ms ms' : List (Str × Value)} (h : S (.obj ms) (.obj ms')) :
    (ms'.map Prod.fst).Nodup := by
  cases h with
  | obj h1 _ _ =>
    refine h1.imp fun {a b} hab e => ?_
    subst e
    simp [Str.lt, Str.le_refl] at hab

/-- Known settings, each written once, have different names. -/
theorem once_nodup {names : List Str} {ms : List (Str × Value)} (hk : Known names ms) (ho : Once names ms) :
    (ms.map Prod.fst).Nodup := by
  induction ms with
  | nil => simp
  | cons p ms ih =>
    obtain ⟨k, x⟩ := p
    rw [Once, List.pairwise_cons] at ho
    rw [List.map_cons, List.nodup_cons]
    refine ⟨fun hm => ?_, ih (fun k v h => hk k v (by simp [h])) ho.2⟩
    obtain ⟨q, hq, e⟩ := List.mem_map.1 hm
    obtain ⟨n, hn, hs⟩ := hk k x (by simp)
    exact ho.1 q hq n hn ⟨hs, by rw [e]; exact hs⟩

theorem has_from {ms ms' : List (Str × Value)} (h : S (.obj ms) (.obj ms')) {name : Str} {x' : Value}
    (hx : Has ms' name x') : ∃ x, Has ms name x ∧ S x x' := by
  obtain ⟨k, hk, hx⟩ := hx
  obtain ⟨x, h1, h2⟩ := shown_from h hx
  exact ⟨x, ⟨k, hk, h1⟩, h2⟩

theorem once_to {ms ms' : List (Str × Value)} (h : S (.obj ms) (.obj ms')) {names : List Str}
    (ho : Once names ms) : Once names ms' := by
  have hn : ms'.Pairwise fun a b => a.1 ≠ b.1 := by
    have := shown_nodup h
    rwa [List.Nodup, List.pairwise_map] at this
  have hmem : ms'.Pairwise fun a b => a ∈ ms' ∧ b ∈ ms' := by
    rw [List.pairwise_iff_getElem]
    intro i j hi hj _
    exact ⟨List.getElem_mem hi, List.getElem_mem hj⟩
  refine (hn.and hmem).imp ?_
  rintro ⟨a, x⟩ ⟨b, y⟩ ⟨hne, ha, hb⟩ n hnm ⟨s1, s2⟩
  obtain ⟨x0, h1, -⟩ := shown_from h ha
  obtain ⟨y0, h2, -⟩ := shown_from h hb
  have hsym : Std.Symm (fun a b : Str × Value => ∀ n ∈ names, ¬ (Json.Spec.Spells n a.1 ∧ Json.Spec.Spells n b.1)) :=
    ⟨fun a b hab n hn hc => hab n hn ⟨hc.2, hc.1⟩⟩
  exact List.Pairwise.forall ho h1 h2 (fun e => hne (by cases e; rfl)) n hnm ⟨s1, s2⟩

/-- What is shown is as plain as what was given. -/
theorem plainEnv_to {v v' : Value} (hs : S v v') (hp : PlainEnv v) : PlainEnv v' := by
  rintro ms' rfl
  obtain ⟨ms, rfl⟩ := s_obj' hs
  obtain ⟨h1, h2⟩ := hp ms rfl
  refine ⟨once_to hs h1, fun kvs' hk => ?_⟩
  obtain ⟨x, hx, hsx⟩ := has_from hs hk
  obtain ⟨kvs, rfl⟩ := s_obj' hsx
  exact shown_nodup hsx

theorem plainConfig_to {v v' : Value} (hs : S v v') (hp : PlainConfig v) : PlainConfig v' := by
  rintro ms' rfl
  obtain ⟨ms, rfl⟩ := s_obj' hs
  obtain ⟨h1, h2⟩ := hp ms rfl
  refine ⟨once_to hs h1, fun e' he => ?_⟩
  obtain ⟨e, he, hse⟩ := has_from hs he
  exact plainEnv_to hse (h2 e he)

theorem plainEntry_to {names : List Str} {v v' : Value} (hs : S v v') (hp : PlainEntry names v) :
    PlainEntry names v' := by
  rintro ms' rfl
  obtain ⟨ms, rfl⟩ := s_obj' hs
  obtain ⟨h1, h2⟩ := hp ms rfl
  refine ⟨once_to hs h1, fun e' he => ?_⟩
  obtain ⟨e, he, hse⟩ := has_from hs he
  exact plainConfig_to hse (h2 e he)

theorem plain_to {doc v : Value} (hs : S doc v) (hp : Plain doc) : Plain v := by
  rintro ms' rfl
  obtain ⟨ms, rfl⟩ := s_obj' hs
  obtain ⟨h1, h2, h3⟩ := hp ms rfl
  refine ⟨once_to hs h1, fun kvs' hk => ?_, fun kvs' hk => ?_⟩
  all_goals
    obtain ⟨x, hx, hsx⟩ := has_from hs hk
    obtain ⟨kvs, rfl⟩ := s_obj' hsx
    refine ⟨shown_nodup hsx, fun id v' hv => ?_⟩
    obtain ⟨v, hv, hsv⟩ := shown_from hsx hv
  · exact plainEntry_to hsv ((h2 kvs hx).2 id v hv)
  · exact plainEntry_to hsv ((h3 kvs hx).2 id v hv)

/-- A relation between values that are the same up to the order of members: `Shows` with the same numbers, or
the other way round. -/
structure Faith (Q : Value → Value → Prop) : Prop where
  null : ∀ {v}, Q .null v → v = .null
  str : ∀ {s v}, Q (.str s) v → v = .str s
  num : ∀ {s v}, Q (.num s) v → v = .num s
  arr : ∀ {l v}, Q (.arr l) v → ∃ l', v = .arr l' ∧ List.Forall₂ Q l l'
  obj : ∀ {ms v}, Q (.obj ms) v → ∃ ms', v = .obj ms' ∧ (∀ k, k ∈ ms.map Prod.fst ↔ k ∈ ms'.map Prod.fst) ∧
    ((ms.map Prod.fst).Nodup → (ms'.map Prod.fst).Nodup →
      (∀ k x, (k, x) ∈ ms → ∃ x', (k, x') ∈ ms' ∧ Q x x') ∧
      ∀ k x', (k, x') ∈ ms' → ∃ x, (k, x) ∈ ms ∧ Q x x')
  back : ∀ {v ms'}, Q v (.obj ms') → ∃ ms, v = .obj ms
  nil : Q .null .null

theorem forall_flip {α : Type} {R : α → α → Prop} {l l' : List α} (h : List.Forall₂ R l l') :
    List.Forall₂ (fun a b => R b a) l' l := by
  induction h with
  | nil => exact .nil
  | cons h _ ih => exact .cons h ih

theorem faith_shows : Faith S where
  null := s_null
  str := s_str
  num := s_num
  arr h := by
    cases h with
    | @arr _ l' h => exact ⟨l', rfl, h⟩
  obj h := by
    cases h with
    | @obj _ ms' h1 h2 h3 =>
      exact ⟨ms', rfl, h2, fun hn _ => ⟨fun _ _ => shown_to hn (.obj h1 h2 h3), fun _ _ => shown_from (.obj h1 h2 h3)⟩⟩
  back := s_obj'
  nil := .null

theorem faith_shown : Faith fun a b => S b a where
  null := s_null'
  str := s_str'
  num h := by
    cases h with
    | num h => rw [h]
  arr h := by
    cases h with
    | @arr l' _ h => exact ⟨l', rfl, forall_flip h⟩
  obj h := by
    cases h with
    | @obj ms' _ h1 h2 h3 =>
      exact ⟨ms', rfl, fun k => (h2 k).symm, fun _ hn =>
        ⟨fun _ _ => shown_from (.obj h1 h2 h3), fun _ _ => shown_to hn (.obj h1 h2 h3)⟩⟩
  back h := by
    cases h with
    | @obj _ ms h1 h2 h3 => exact ⟨ms, rfl⟩
  nil := .null

/-- The members of two objects that are the same. -/
structure Pair (Q : Value → Value → Prop) (ms ms' : List (Str × Value)) : Prop where
  keys : ∀ k, k ∈ ms.map Prod.fst ↔ k ∈ ms'.map Prod.fst
  sub : (ms.map Prod.fst).Nodup → (ms'.map Prod.fst).Nodup →
    (∀ k x, (k, x) ∈ ms → ∃ x', (k, x') ∈ ms' ∧ Q x x') ∧ ∀ k x', (k, x') ∈ ms' → ∃ x, (k, x) ∈ ms ∧ Q x x'

section
variable {Q : Value → Value → Prop} (hq : Faith Q)

section settings
variable {ms ms' : List (Str × Value)} (h : Pair Q ms ms')

include h in
theorem known_to {names : List Str} (hk : Known names ms) : Known names ms' := by
  intro k x' hx
  obtain ⟨p, hp, e⟩ := List.mem_map.1 ((h.keys k).2 (List.mem_map.2 ⟨_, hx, rfl⟩))
  rw [← e]
  exact hk p.1 p.2 hp

variable (hn : (ms.map Prod.fst).Nodup) (hn' : (ms'.map Prod.fst).Nodup)
include h hn hn'

theorem has_to {name : Str} {x : Value} (hx : Has ms name x) : ∃ x', Has ms' name x' ∧ Q x x' := by
  obtain ⟨k, hk, hx⟩ := hx
  obtain ⟨x', h1, h2⟩ := (h.sub hn hn').1 k x hx
  exact ⟨x', ⟨k, hk, h1⟩, h2⟩

theorem has_of {name : Str} {x' : Value} (hx : Has ms' name x') : ∃ x, Has ms name x ∧ Q x x' := by
  obtain ⟨k, hk, hx⟩ := hx
  obtain ⟨x, h1, h2⟩ := (h.sub hn hn').2 k x' hx
  exact ⟨x, ⟨k, hk, h1⟩, h2⟩

include hq

theorem unset_to {name : Str} (hu : Unset ms name) : Unset ms' name := by
  intro x' hx
  obtain ⟨x, h1, h2⟩ := has_of h hn hn' hx
  rw [hu x h1] at h2
  exact hq.null h2

theorem text_to {name d s : Str} (ht : TextSetting ms name d s) : TextSetting ms' name d s := by
  rcases ht with ht | ⟨hu, e⟩
  · obtain ⟨x', h1, h2⟩ := has_to h hn hn' ht
    rw [hq.str h2] at h1
    exact .inl h1
  · exact .inr ⟨unset_to hq h hn hn' hu, e⟩

theorem int_to {name : Str} {d i : Int} (ht : IntSetting ms name d i) : IntSetting ms' name d i := by
  rcases ht with ⟨lit, ht, hi⟩ | ⟨hu, e⟩
  · obtain ⟨x', h1, h2⟩ := has_to h hn hn' ht
    rw [hq.num h2] at h1
    exact .inl ⟨lit, h1, hi⟩
  · exact .inr ⟨unset_to hq h hn hn' hu, e⟩

theorem port_to {name : Str} {i : UInt16} (ht : PortSetting ms name i) : PortSetting ms' name i := by
  rcases ht with ⟨lit, ht, hi⟩ | ⟨hu, e⟩
  · obtain ⟨x', h1, h2⟩ := has_to h hn hn' ht
    rw [hq.num h2] at h1
    exact .inl ⟨lit, h1, hi⟩
  · exact .inr ⟨unset_to hq h hn hn' hu, e⟩

omit h hn hn' in
theorem isText_to {v v' : Value} {s : Str} (hs : Q v v') (ht : IsText v s) : IsText v' s := by
  cases ht with
  | str => rw [hq.str hs]; exact .str
  | null => rw [hq.null hs]; exact .null

theorem list_to {name : Str} {l : List Str} (ht : ListSetting ms name l) : ListSetting ms' name l := by
  rcases ht with ⟨vs, ht, hl⟩ | ⟨hu, e⟩
  · obtain ⟨x', h1, h2⟩ := has_to h hn hn' ht
    obtain ⟨vs', rfl, hvs⟩ := hq.arr h2
    refine .inl ⟨vs', h1, ?_⟩
    clear h1 h2 ht
    induction hvs generalizing l with
    | nil => cases hl; exact .nil
    | cons hv _ ih =>
      cases hl with
      | cons h3 h4 => exact .cons (isText_to hq hv h3) (ih h4)
  · exact .inr ⟨unset_to hq h hn hn' hu, e⟩

theorem any_to {name : Str} {v : Value} (ht : AnySetting ms name v) :
    ∃ v', AnySetting ms' name v' ∧ Q v v' := by
  rcases ht with ht | ⟨hu, rfl⟩
  · obtain ⟨x', h1, h2⟩ := has_to h hn hn' ht
    exact ⟨x', .inl h1, h2⟩
  · exact ⟨.null, .inr ⟨unset_to hq h hn hn' hu, rfl⟩, hq.nil⟩

end settings

/-- The string of a value. -/
def textOf : Value → Str
  | .str s => s
  | _ => []

theorem isText_textOf {v : Value} {s : Str} (h : IsText v s) : s = textOf v := by cases h <;> rfl

theorem forall_map {kvs : List (Str × Value)} {m : GoMap Str Str}
    (h : List.Forall₂ (fun p q => p.1 = q.1 ∧ IsText p.2 q.2) kvs m) :
    m = kvs.map fun p => (p.1, textOf p.2) := by
  induction h with
  | nil => rfl
  | @cons p q _ _ hp _ ih =>
    obtain ⟨a, b⟩ := q
    obtain ⟨e, ht⟩ := hp
    simp only at e ht
    rw [List.map_cons, ← ih, isText_textOf ht, e]

theorem forall_text {kvs : List (Str × Value)} (h : ∀ p ∈ kvs, ∃ s, IsText p.2 s) :
    List.Forall₂ (fun p q => p.1 = q.1 ∧ IsText p.2 q.2) kvs (kvs.map fun p => (p.1, textOf p.2)) := by
  induction kvs with
  | nil => exact .nil
  | cons p kvs ih =>
    obtain ⟨s, hs⟩ := h p (by simp)
    have e := isText_textOf hs
    refine .cons ⟨rfl, ?_⟩ (ih fun q hq => h q (by simp [hq]))
    show IsText p.2 (textOf p.2)
    rw [← e]
    exact hs

include hq in
theorem map_to {ms ms' : List (Str × Value)} (h : Pair Q ms ms') (hn : (ms.map Prod.fst).Nodup)
    (hn' : (ms'.map Prod.fst).Nodup) {name : Str} {m : GoMap Str Str} (ht : MapSetting ms name m)
    (hp : ∀ kvs, Has ms name (.obj kvs) → (kvs.map Prod.fst).Nodup)
    (hp' : ∀ kvs, Has ms' name (.obj kvs) → (kvs.map Prod.fst).Nodup) :
    ∃ m', MapSetting ms' name m' ∧ m.Perm m' := by
  rcases ht with ⟨kvs, ht, hl⟩ | ⟨hu, rfl⟩
  · obtain ⟨x', h1, h2⟩ := has_to h hn hn' ht
    have hnd := hp kvs ht
    obtain ⟨kvs', rfl, -, hsub⟩ := hq.obj h2
    have hnd' := hp' kvs' h1
    obtain ⟨hto, hof⟩ := hsub hnd hnd'
    have hall : ∀ p ∈ kvs, IsText p.2 (textOf p.2) := by
      intro p hpm
      clear h2 ht hnd hsub hto hof
      induction hl with
      | nil => cases hpm
      | cons hq _ ih =>
        rcases List.mem_cons.1 hpm with rfl | hpm
        · rw [← isText_textOf hq.2]; exact hq.2
        · exact ih hpm
    refine ⟨kvs'.map fun p => (p.1, textOf p.2), .inl ⟨kvs', h1, forall_text ?_⟩, ?_⟩
    · rintro ⟨k, x'⟩ hx
      obtain ⟨x, hx1, hx2⟩ := hof k x' hx
      exact ⟨_, isText_to hq hx2 (hall _ hx1)⟩
    · rw [forall_map hl, List.perm_ext_iff_of_nodup]
      · rintro ⟨k, s⟩
        simp only [List.mem_map, Prod.mk.injEq, Prod.exists]
        constructor
        · rintro ⟨k', x, hx, rfl, rfl⟩
          obtain ⟨x', h3, h4⟩ := hto _ x hx
          exact ⟨_, x', h3, rfl, (isText_textOf (isText_to hq h4 (hall _ hx))).symm⟩
        · rintro ⟨k', x', hx, rfl, rfl⟩
          obtain ⟨x, h3, h4⟩ := hof _ x' hx
          exact ⟨_, x, h3, rfl, isText_textOf (isText_to hq h4 (hall _ h3))⟩
      · refine List.Nodup.of_map Prod.fst ?_
        rw [List.map_map]
        exact hnd
      · refine List.Nodup.of_map Prod.fst ?_
        rw [List.map_map]
        exact hnd'
  · exact ⟨[], .inr ⟨unset_to hq h hn hn' hu, rfl⟩, .nil⟩

include hq

theorem members_to {v v' : Value} {ms : List (Str × Value)} (hs : Q v v') (hm : Json.Spec.Members v ms) :
    ∃ ms', Json.Spec.Members v' ms' ∧ Pair Q ms ms' := by
  rcases hm with rfl | ⟨rfl, rfl⟩
  · obtain ⟨ms', rfl, h1, h2⟩ := hq.obj hs
    exact ⟨ms', .inl rfl, h1, h2⟩
  · rw [hq.null hs]
    exact ⟨[], .inr ⟨rfl, rfl⟩, by simp, by simp⟩

theorem object_to {v' : Value} {ms : List (Str × Value)} (hs : Q (.obj ms) v') :
    ∃ ms', v' = .obj ms' ∧ Pair Q ms ms' := by
  obtain ⟨ms', rfl, h1, h2⟩ := hq.obj hs
  exact ⟨ms', rfl, h1, h2⟩

omit hq in
/-- The members of a plain filter. -/
theorem env_plain {v : Value} {ms : List (Str × Value)} (hp : PlainEnv v) (hm : Json.Spec.Members v ms) :
    Once Json.Spec.envNames ms ∧ ∀ kvs, Has ms b!"Set" (.obj kvs) → (kvs.map Prod.fst).Nodup := by
  rcases hm with rfl | ⟨-, rfl⟩
  · exact hp ms rfl
  · exact ⟨.nil, by rintro kvs ⟨k, -, hk⟩; cases hk⟩

theorem env_to {v v' : Value} {e : Sh.Env} (hs : Q v v') (he : EnvOf v e) (hp : PlainEnv v)
    (hp' : PlainEnv v') : ∃ e', EnvOf v' e' ∧ LikeEnv e e' := by
  obtain ⟨ms, hm, hk, h1, h2, h3⟩ := he
  obtain ⟨ms', hm', hs'⟩ := members_to hq hs hm
  have ho := env_plain hp hm
  have ho' := env_plain hp' hm'
  have hk' := known_to hs' hk
  have hn := once_nodup hk ho.1
  have hn' := once_nodup hk' ho'.1
  obtain ⟨m', h4, h5⟩ := map_to hq hs' hn hn' h3 ho.2 ho'.2
  exact ⟨⟨e.allow, e.deny, m'⟩, ⟨ms', hm', hk', list_to hq hs' hn hn' h1, list_to hq hs' hn hn' h2, h4⟩,
    rfl, rfl, h5⟩

omit hq in
theorem plainEnv_null : PlainEnv .null := by intro ms e; cases e

omit hq in
theorem plainConfig_null : PlainConfig .null := by intro ms e; cases e

theorem envSetting_to {ms ms' : List (Str × Value)} (h : Pair Q ms ms') (hn : (ms.map Prod.fst).Nodup)
    (hn' : (ms'.map Prod.fst).Nodup) {name : Str} {e : Sh.Env} (he : EnvSetting ms name e)
    (hp : ∀ v, Has ms name v → PlainEnv v) (hp' : ∀ v, Has ms' name v → PlainEnv v) :
    ∃ e', EnvSetting ms' name e' ∧ LikeEnv e e' := by
  obtain ⟨v, hv, he⟩ := he
  obtain ⟨v', hv', hs⟩ := any_to hq h hn hn' hv
  have hpv : PlainEnv v := by
    rcases hv with hv | ⟨-, rfl⟩
    · exact hp v hv
    · exact plainEnv_null
  have hpv' : PlainEnv v' := by
    rcases hv' with hv | ⟨-, rfl⟩
    · exact hp' v' hv
    · exact plainEnv_null
  obtain ⟨e', h1, h2⟩ := env_to hq hs he hpv hpv'
  exact ⟨e', ⟨v', hv', h1⟩, h2⟩

omit hq

/-- The names of the settings of all configs. -/
abbrev configNames : List Str :=
  Json.Spec.pgNames ++ Json.Spec.shNames ++ Json.Spec.demoNames ++ Json.Spec.sqlNames ++
    Json.Spec.execNames ++ Json.Spec.sleepNames

theorem once_sub {names names' : List Str} {ms : List (Str × Value)} (h : Once names ms)
    (hs : ∀ n ∈ names', n ∈ names) : Once names' ms :=
  h.imp fun hab n hn => hab n (hs n hn)

/-- The members of a plain config. -/
theorem config_plain {v : Value} {ms : List (Str × Value)} (hp : PlainConfig v)
    (hm : Json.Spec.Members v ms) :
    Once configNames ms ∧ ∀ e, Has ms b!"Env" e → PlainEnv e := by
  rcases hm with rfl | ⟨-, rfl⟩
  · exact hp ms rfl
  · exact ⟨.nil, by rintro e ⟨k, -, hk⟩; cases hk⟩

theorem known_mono {names names' : List Str} {ms : List (Str × Value)} (h : Known names' ms)
    (hs : ∀ n ∈ names', n ∈ names) : Known names ms := by
  intro k v hv
  obtain ⟨n, hn, h⟩ := h k v hv
  exact ⟨n, hs n hn, h⟩

include hq

theorem targetConfig_to {basedir : Str} {v v' : Value} {cls : Str} {t : Target} (hs : Q v v')
    (ht : TargetConfig basedir v cls t) (hp : PlainConfig v) (hp' : PlainConfig v') :
    ∃ t', TargetConfig basedir v' cls t' ∧ LikeTarget t t' := by
  cases ht with
  | @pg ms t hm hk h1 h2 h3 h4 h5 h6 h7 h8 =>
    obtain ⟨ms', hm', hs'⟩ := members_to hq hs hm
    have hk' := known_to hs' hk
    have hn := once_nodup (known_mono hk (by intro n hn; simp only [configNames, List.mem_append]; tauto)) (config_plain hp hm).1
    have hn' := once_nodup (known_mono hk' (by intro n hn; simp only [configNames, List.mem_append]; tauto)) (config_plain hp' hm').1
    exact ⟨_, .pg hm' hk' (int_to hq hs' hn hn' h1) (text_to hq hs' hn hn' h2) (port_to hq hs' hn hn' h3)
      (text_to hq hs' hn hn' h4) (text_to hq hs' hn hn' h5) (text_to hq hs' hn hn' h6) (text_to hq hs' hn hn' h7) (int_to hq hs' hn hn' h8), .pg⟩
  | @sh ms t hm hk h1 h2 h3 h4 =>
    obtain ⟨ms', hm', hs'⟩ := members_to hq hs hm
    have hk' := known_to hs' hk
    have hc := config_plain hp hm
    have hc' := config_plain hp' hm'
    have hn := once_nodup (known_mono hk (by intro n hn; simp only [configNames, List.mem_append]; tauto)) hc.1
    have hn' := once_nodup (known_mono hk' (by intro n hn; simp only [configNames, List.mem_append]; tauto)) hc'.1
    obtain ⟨e', h5, h6⟩ := envSetting_to hq hs' hn hn' h2 hc.2 hc'.2
    exact ⟨.sh { t with env := e' }, .sh hm' hk' (int_to hq hs' hn hn' h1) h5 h3 h4,
      .sh rfl rfl rfl h6⟩
  | @demo ms t hm hk h1 h2 =>
    obtain ⟨ms', hm', hs'⟩ := members_to hq hs hm
    have hk' := known_to hs' hk
    have hn := once_nodup (known_mono hk (by intro n hn; simp only [configNames, List.mem_append]; tauto)) (config_plain hp hm).1
    have hn' := once_nodup (known_mono hk' (by intro n hn; simp only [configNames, List.mem_append]; tauto)) (config_plain hp' hm').1
    exact ⟨_, .demo hm' hk' (text_to hq hs' hn hn' h1) h2, .demo⟩

theorem empty_to {v v' : Value} (hs : Q v v') (hm : Json.Spec.Members v []) :
    Json.Spec.Members v' [] := by
  obtain ⟨ms', hm', hs'⟩ := members_to hq hs hm
  cases ms' with
  | nil => exact hm'
  | cons p ms' =>
    have := (hs'.keys p.1).2 (by simp)
    simp at this

theorem taskConfig_to {v v' : Value} {t t' : Target} {cls : Str} {c : Config} (hs : Q v v')
    (ht : TaskConfig v t cls c) (hl : LikeTarget t t') (hp : PlainConfig v) (hp' : PlainConfig v') :
    ∃ c', TaskConfig v' t' cls c' ∧ LikeConfig c c' := by
  cases ht with
  | @pgExec t cls ms sql h0 hm hk h1 =>
    obtain ⟨ms', hm', hs'⟩ := members_to hq hs hm
    have hk' := known_to hs' hk
    have hn := once_nodup (known_mono hk (by intro n hn; simp only [configNames, List.mem_append]; tauto)) (config_plain hp hm).1
    have hn' := once_nodup (known_mono hk' (by intro n hn; simp only [configNames, List.mem_append]; tauto)) (config_plain hp' hm').1
    cases hl
    exact ⟨_, .pgExec h0 hm' hk' (text_to hq hs' hn hn' h1), .same⟩
  | @shExec t cls ms x h0 hm hk h1 h2 =>
    obtain ⟨ms', hm', hs'⟩ := members_to hq hs hm
    have hk' := known_to hs' hk
    have hc := config_plain hp hm
    have hc' := config_plain hp' hm'
    have hn := once_nodup (known_mono hk (by intro n hn; simp only [configNames, List.mem_append]; tauto)) hc.1
    have hn' := once_nodup (known_mono hk' (by intro n hn; simp only [configNames, List.mem_append]; tauto)) hc'.1
    obtain ⟨e', h5, h6⟩ := envSetting_to hq hs' hn hn' h2 hc.2 hc'.2
    cases hl
    exact ⟨.shExec { x with env := e' }, .shExec h0 hm' hk' (list_to hq hs' hn hn' h1) h5, .sh rfl h6⟩
  | echo hm => cases hl; exact ⟨_, .echo (empty_to hq hs hm), .same⟩
  | fail hm => cases hl; exact ⟨_, .fail (empty_to hq hs hm), .same⟩
  | rev hm => cases hl; exact ⟨_, .rev (empty_to hq hs hm), .same⟩
  | rot13 hm => cases hl; exact ⟨_, .rot13 (empty_to hq hs hm), .same⟩
  | @sleep t ms x hm hk h1 =>
    obtain ⟨ms', hm', hs'⟩ := members_to hq hs hm
    have hk' := known_to hs' hk
    have hn := once_nodup (known_mono hk (by intro n hn; simp only [configNames, List.mem_append]; tauto)) (config_plain hp hm).1
    have hn' := once_nodup (known_mono hk' (by intro n hn; simp only [configNames, List.mem_append]; tauto)) (config_plain hp' hm').1
    cases hl
    exact ⟨_, .sleep hm' hk' (int_to hq hs' hn hn' h1), .same⟩

omit hq

theorem checked_to {a b a' : Config} (h : Checked a b) (hl : LikeConfig a a') :
    ∃ b', Checked a' b' ∧ LikeConfig b b' := by
  cases hl with
  | same => exact ⟨b, h, .same⟩
  | @sh x y he hv =>
    obtain ⟨args, env⟩ := y
    cases h with
    | shExec h0 =>
      simp only at he hv
      subst he
      exact ⟨_, .shExec h0, .sh rfl hv⟩

theorem concurrent_to {t t' : Target} (h : Concurrent t) (hl : LikeTarget t t') : Concurrent t' := by
  cases hl with
  | pg => exact h
  | @sh t u _ _ hc _ =>
    cases h with
    | sh h => exact .sh (by rw [← hc]; exact h)
  | demo => exact h

/-- The value of a setting that may be anything is plain if what is written is. -/
theorem any_plain {ms : List (Str × Value)} {name : Str} {v : Value} (h : AnySetting ms name v)
    (hp : ∀ c, Has ms name c → PlainConfig c) : PlainConfig v := by
  rcases h with h | ⟨-, rfl⟩
  · exact hp v h
  · intro ms e; cases e

include hq

theorem target_to {basedir : Str} {v v' : Value} {t : Target} (hs : Q v v') (ht : TargetIs basedir v t)
    (hp : PlainEntry Json.Spec.targetNames v) (hp' : PlainEntry Json.Spec.targetNames v') :
    ∃ t', TargetIs basedir v' t' ∧ LikeTarget t t' := by
  obtain ⟨ms, cls, cfg, rfl, hk, h1, h2, h3, h4⟩ := ht
  obtain ⟨ho, hc⟩ := hp ms rfl
  obtain ⟨ms', rfl, hs'⟩ := object_to hq hs
  obtain ⟨ho', hc'⟩ := hp' ms' rfl
  have hk' := known_to hs' hk
  have hn := once_nodup hk ho
  have hn' := once_nodup hk' ho'
  obtain ⟨cfg', h5, h6⟩ := any_to hq hs' hn hn' h2
  obtain ⟨t', h7, h8⟩ := targetConfig_to hq h6 h3 (any_plain h2 hc) (any_plain h5 hc')
  exact ⟨t', ⟨ms', cls, cfg', rfl, hk', text_to hq hs' hn hn' h1, h5, h7, concurrent_to h4 h8⟩, h8⟩

theorem task_to {has has' : Str → Target → Prop} {v v' : Value} {t : Task} (hs : Q v v')
    (ht : TaskIs has v t) (hp : PlainEntry Json.Spec.taskNames v) (hp' : PlainEntry Json.Spec.taskNames v')
    (hh : ∀ i u, has i u → ∃ u', has' i u' ∧ LikeTarget u u') : ∃ t', TaskIs has' v' t' ∧ LikeTask t t' := by
  obtain ⟨ms, ref, cls, tgt, cfg, c, rfl, hk, h1, h2, h3, h4, h5, h6, h7, h8⟩ := ht
  obtain ⟨ho, hc⟩ := hp ms rfl
  obtain ⟨ms', rfl, hs'⟩ := object_to hq hs
  obtain ⟨ho', hc'⟩ := hp' ms' rfl
  have hk' := known_to hs' hk
  have hn := once_nodup hk ho
  have hn' := once_nodup hk' ho'
  obtain ⟨tgt', h9, h10⟩ := hh _ _ h3
  obtain ⟨cfg', h11, h12⟩ := any_to hq hs' hn hn' h4
  obtain ⟨c', h13, h14⟩ := taskConfig_to hq h12 h5 h10 (any_plain h4 hc) (any_plain h11 hc')
  obtain ⟨d', h15, h16⟩ := checked_to h6 h14
  exact ⟨⟨t.target, t.after, t.message, d'⟩, ⟨ms', ref, cls, tgt', cfg', c', rfl, hk',
    text_to hq hs' hn hn' h1, h2, h9, h11, h13, h15, list_to hq hs' hn hn' h7, text_to hq hs' hn hn' h8⟩,
    rfl, rfl, rfl, h16⟩

omit hq
theorem file_plain {doc : Value} {ms : List (Str × Value)} (hp : Plain doc) (hm : Json.Spec.Members doc ms) :
    Once Json.Spec.fileNames ms := by
  rcases hm with rfl | ⟨-, rfl⟩
  · exact (hp ms rfl).1
  · exact .nil

theorem lists_plain {doc x : Value} {id : Str} (hp : Plain doc) :
    (Lists doc b!"Targets" id x → PlainEntry Json.Spec.targetNames x) ∧
    (Lists doc b!"Tasks" id x → PlainEntry Json.Spec.taskNames x) := by
  constructor
  · rintro ⟨ms, kvs, rfl, hk, hi⟩
    exact ((hp ms rfl).2.1 kvs hk).2 id x hi
  · rintro ⟨ms, kvs, rfl, hk, hi⟩
    exact ((hp ms rfl).2.2 kvs hk).2 id x hi

include hq

theorem lists_to {doc v : Value} (hs : Q doc v) (hp : Plain doc) (hp' : Plain v) (hsec : Sections doc)
    {name id : Str} (hname : name = b!"Targets" ∨ name = b!"Tasks") :
    (∀ x, Lists doc name id x → ∃ x', Lists v name id x' ∧ Q x x') ∧
    ∀ x', Lists v name id x' → ∃ x, Lists doc name id x ∧ Q x x' := by
  obtain ⟨ms0, hm0, hk0, -⟩ := hsec
  have hn0 := once_nodup hk0 (file_plain hp hm0)
  have hent : ∀ {d : Value} {ms kvs : List (Str × Value)}, Plain d → d = .obj ms → Has ms name (.obj kvs) →
      (kvs.map Prod.fst).Nodup := by
    intro d ms kvs hp e hk
    obtain ⟨-, h2, h3⟩ := hp ms e
    rcases hname with rfl | rfl
    · exact (h2 kvs hk).1
    · exact (h3 kvs hk).1
  cases hd : doc with
  | obj ms =>
    subst hd
    have e : ms0 = ms := by
      rcases hm0 with e | ⟨e, -⟩
      · cases e; rfl
      · cases e
    subst e
    obtain ⟨ms', rfl, hs'⟩ := object_to hq hs
    have hn' := once_nodup (known_to hs' hk0) (file_plain hp' (.inl rfl))
    constructor
    · rintro x ⟨_, kvs, e, hk, hi⟩
      cases e
      obtain ⟨y, hy, hsy⟩ := has_to hs' hn0 hn' hk
      obtain ⟨kvs', rfl, hsk⟩ := object_to hq hsy
      obtain ⟨x', hx', hsx⟩ := (hsk.sub (hent hp rfl hk) (hent hp' rfl hy)).1 id x hi
      exact ⟨x', ⟨ms', kvs', rfl, hy, hx'⟩, hsx⟩
    · rintro x' ⟨_, kvs', e, hk, hi⟩
      cases e
      obtain ⟨y, hy, hsy⟩ := has_of hs' hn0 hn' hk
      obtain ⟨kvs, rfl⟩ : ∃ kvs, y = .obj kvs := hq.back hsy
      obtain ⟨_, e, hsk⟩ := object_to hq hsy
      cases e
      obtain ⟨x, hx, hsx⟩ := (hsk.sub (hent hp rfl hy) (hent hp' rfl hk)).2 id x' hi
      exact ⟨x, ⟨_, kvs, rfl, hy, hx⟩, hsx⟩
  | null =>
    subst hd
    rw [hq.null hs]
    constructor
    · rintro x ⟨_, _, e, -⟩; cases e
    · rintro x ⟨_, _, e, -⟩; cases e
  | _ =>
    subst hd
    rcases hm0 with e | ⟨e, -⟩ <;> cases e

theorem sections_to {doc v : Value} (hs : Q doc v) (hp : Plain doc) (hp' : Plain v) (hsec : Sections doc) :
    Sections v := by
  obtain ⟨ms, hm, hk, h⟩ := hsec
  obtain ⟨ms', hm', hs'⟩ := members_to hq hs hm
  have hk' := known_to hs' hk
  have hn := once_nodup hk (file_plain hp hm)
  have hn' := once_nodup hk' (file_plain hp' hm')
  refine ⟨ms', hm', hk', fun name hnm => ?_⟩
  rcases h name hnm with hu | ⟨kvs, hk⟩
  · exact .inl (unset_to hq hs' hn hn' hu)
  · obtain ⟨y, hy, hsy⟩ := has_to hs' hn hn' hk
    obtain ⟨kvs', rfl, -⟩ := object_to hq hsy
    exact .inr ⟨kvs', hy⟩

theorem valid_to {basedir : Str} {doc v : Value} (hs : Q doc v) (hp : Plain doc) (hp' : Plain v)
    (hv : Json.Spec.Valid basedir doc) : Json.Spec.Valid basedir v := by
  refine ⟨sections_to hq hs hp hp' hv.sections, fun id x' hx' => ?_, fun id x' hx' => ?_⟩
  · obtain ⟨x, hx, hsx⟩ := (lists_to hq hs hp hp' hv.sections (.inl rfl)).2 x' hx'
    obtain ⟨t, ht⟩ := hv.targets id x hx
    obtain ⟨t', ht', -⟩ := target_to hq hsx ht ((lists_plain hp).1 hx) ((lists_plain hp').1 hx')
    exact ⟨t', ht'⟩
  · obtain ⟨x, hx, hsx⟩ := (lists_to hq hs hp hp' hv.sections (.inr rfl)).2 x' hx'
    obtain ⟨t, ht⟩ := hv.tasks id x hx
    obtain ⟨t', ht', -⟩ := task_to hq hsx ht ((lists_plain hp).2 hx) ((lists_plain hp').2 hx')
        (has' := fun i u => ∃ v', Lists v b!"Targets" i v' ∧ TargetIs basedir v' u) fun i u ⟨y, hy, hu⟩ => by
      obtain ⟨y', hy', hsy⟩ := (lists_to hq hs hp hp' hv.sections (.inl rfl)).1 y hy
      obtain ⟨u', hu', hl⟩ := target_to hq hsy hu ((lists_plain hp).1 hy) ((lists_plain hp').1 hy')
      exact ⟨u', ⟨y', hy', hu'⟩, hl⟩
    exact ⟨t', ht'⟩

end

theorem wf_unique {α : Type} {m : GoMap Str α} (h : m.WF) {k : Str} {x y : α} (h1 : (k, x) ∈ m)
    (h2 : (k, y) ∈ m) : x = y := by
  have := (GoMap.get?_of_mem h h1).symm.trans (GoMap.get?_of_mem h h2)
  simpa using this

/-- The two files are the same runbook. -/
theorem like_of {basedir : Str} {doc v : Value} (hs : S doc v) (hp : Plain doc) (hp' : Plain v)
    (hsec : Sections doc) {book book' : Runbook}
    (hd : Describes basedir doc book)
    (hd' : Describes basedir v book') (w1' : book'.targets.WF) (w2' : book'.tasks.WF)
    (hvt : Json.Spec.Valid basedir doc) : Like book book' := by
  have ht : ∀ id t, (id, t) ∈ book.targets → ∃ u, (id, u) ∈ book'.targets ∧ LikeTarget t u := by
    intro id t h
    obtain ⟨x, hx, hxt⟩ := (hd.targets id t).1 h
    obtain ⟨x', hx', hsx⟩ := (lists_to faith_shows hs hp hp' hsec (.inl rfl)).1 x hx
    obtain ⟨t', ht', hl⟩ := target_to faith_shows hsx hxt ((lists_plain hp).1 hx) ((lists_plain hp').1 hx')
    exact ⟨t', (hd'.targets id t').2 ⟨x', hx', ht'⟩, hl⟩
  have hk : ∀ id t, (id, t) ∈ book.tasks → ∃ u, (id, u) ∈ book'.tasks ∧ LikeTask t u := by
    intro id t h
    obtain ⟨x, hx, hxt⟩ := (hd.tasks id t).1 h
    obtain ⟨x', hx', hsx⟩ := (lists_to faith_shows hs hp hp' hsec (.inr rfl)).1 x hx
    obtain ⟨t', ht', hl⟩ := task_to faith_shows hsx hxt ((lists_plain hp).2 hx) ((lists_plain hp').2 hx') ht
    exact ⟨t', (hd'.tasks id t').2 ⟨x', hx', ht'⟩, hl⟩
  refine ⟨ht, fun id u hu => ?_, hk, fun id u hu => ?_⟩
  · obtain ⟨x', hx', -⟩ := (hd'.targets id u).1 hu
    obtain ⟨x, hx, -⟩ := (lists_to faith_shows hs hp hp' hsec (.inl rfl)).2 x' hx'
    obtain ⟨t, hxt⟩ := hvt.targets id x hx
    have hm := (hd.targets id t).2 ⟨x, hx, hxt⟩
    obtain ⟨u', hu', hl⟩ := ht id t hm
    rw [wf_unique w1' hu hu']
    exact ⟨t, hm, hl⟩
  · obtain ⟨x', hx', -⟩ := (hd'.tasks id u).1 hu
    obtain ⟨x, hx, -⟩ := (lists_to faith_shows hs hp hp' hsec (.inr rfl)).2 x' hx'
    obtain ⟨t, hxt⟩ := hvt.tasks id x hx
    have hm : (id, t) ∈ book.tasks := by
      refine (hd.tasks id t).2 ⟨x, hx, ?_⟩
      obtain ⟨ms, ref, cls, tgt, cfg, c, a1, a2, a3, a4, a5, a6⟩ := hxt
      exact ⟨ms, ref, cls, tgt, cfg, c, a1, a2, a3, a4, (hd.targets _ _).2 a5, a6⟩
    obtain ⟨u', hu', hl⟩ := hk id t hm
    rw [wf_unique w2' hu hu']
    exact ⟨t, hm, hl⟩

end Verif.Eval
