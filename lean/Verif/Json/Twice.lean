import Verif.Json.TwiceSpec
import Verif.Json.Secret

/-!
# Decoding files in which a setting is written twice: helper lemmas
-/

namespace Verif.Json.Twice
open Verif Json Spec Book Secret

variable {α β γ : Type}

/-! ## What the members make of a field -/

/-- The values given to a setting, in order. -/
def given (n : Str) (ms : List (Str × Value)) : List Value :=
  (ms.filter fun p => equalFold n p.1).map Prod.snd

/-- Decoding values one over the other. -/
def Folds (dec : Value → β → Except Str β) : List Value → β → β → Prop
  | [], x, y => y = x
  | v :: vs, x, y => ∃ z, dec v x = .ok z ∧ Folds dec vs z y

theorem folds_append {dec : Value → β → Except Str β} {l l' : List Value} {x y : β} :
    Folds dec (l ++ l') x y ↔ ∃ z, Folds dec l x z ∧ Folds dec l' z y := by
  induction l generalizing x with
  | nil => simp [Folds]
  | cons v l ih =>
    simp only [List.cons_append, Folds, ih]
    constructor
    · rintro ⟨z, h, w, h1, h2⟩; exact ⟨w, ⟨z, h, h1⟩, h2⟩
    · rintro ⟨w, ⟨z, h, h1⟩, h2⟩; exact ⟨z, h, w, h1, h2⟩

theorem given_append (n : Str) (l l' : List (Str × Value)) : given n (l ++ l') = given n l ++ given n l' := by
  simp [given]

theorem given_yes {n k : Str} (hn : Ascii n) (h : Spells n k) (v : Value) (ms : List (Str × Value)) :
    given n ((k, v) :: ms) = v :: given n ms := by
  simp [given, (equalFold_iff hn).2 h]

theorem given_no {n k : Str} (hn : Ascii n) (h : ¬ Spells n k) (v : Value) (ms : List (Str × Value)) :
    given n ((k, v) :: ms) = given n ms := by
  have : equalFold n k = false := by
    cases e : equalFold n k with
    | false => rfl
    | true => exact absurd ((equalFold_iff hn).1 e) h
  simp [given, this]

theorem given_none {n : Str} (hn : Ascii n) {ms : List (Str × Value)} (h : ∀ p ∈ ms, ¬ Spells n p.1) :
    given n ms = [] := by
  induction ms with
  | nil => rfl
  | cons p ms ih =>
    obtain ⟨k, v⟩ := p
    rw [given_no hn (h (k, v) (by simp))]
    exact ih fun p hp => h p (by simp [hp])

/-- The result of decoding the members of any object. -/
theorem members_folds {fields : List (Fld α)} {keep : α → γ} (hl : Lawful fields keep)
    {ms : List (Str × Value)} {a b : α} :
    members fields ms a = .ok b ↔ Known (fields.map Fld.name) ms ∧ keep b = keep a ∧
      ∀ f ∈ fields, Folds f.dec (given f.name ms) (f.get a) (f.get b) := by
  induction ms generalizing a with
  | nil =>
    constructor
    · intro h
      obtain rfl := Except.ok.inj h
      exact ⟨fun k v hk => by simp at hk, rfl, fun f _ => rfl⟩
    · rintro ⟨_, hk, hr⟩
      rw [members, Except.ok.injEq]
      exact hl.ext a b hk.symm fun f hf => (hr f hf).symm
  | cons p ms ih =>
    obtain ⟨key, v⟩ := p
    rw [members]
    cases hf : findField fields key with
    | none =>
      simp only [reduceCtorEq, false_iff, not_and]
      intro hk
      obtain ⟨n, hn, hs⟩ := hk key v (by simp)
      obtain ⟨f, hm, rfl⟩ := List.mem_map.mp hn
      exact absurd hs (hl.find_none.mp hf f hm)
    | some f =>
      obtain ⟨hm, hs⟩ := hl.find_iff.mp hf
      simp only
      cases hd : f.dec v (f.get a) with
      | error e =>
        simp only [reduceCtorEq, false_iff, not_and]
        intro _ _ hr
        have := hr f hm
        rw [given_yes (hl.ascii f hm) hs] at this
        obtain ⟨z, hz, _⟩ := this
        rw [hd] at hz
        cases hz
      | ok x =>
        simp only
        rw [ih]
        have hfolds : ∀ g ∈ fields, Folds g.dec (given g.name ms) (g.get (f.put a x)) (g.get b) ↔
            Folds g.dec (given g.name ((key, v) :: ms)) (g.get a) (g.get b) := by
          intro g hg
          by_cases e : f = g
          · subst e
            rw [hl.get_put f hm v a x hd, given_yes (hl.ascii f hm) hs]
            simp only [Folds, hd, Except.ok.injEq, exists_eq_left']
          · rw [hl.other' hm hg e, given_no (hl.ascii g hg) fun hs' => e (hl.unique hm hg hs hs')]
        constructor
        · rintro ⟨h1, h2, h3⟩
          refine ⟨?_, h2.trans (hl.keep_put f hm a x), fun g hg => (hfolds g hg).mp (h3 g hg)⟩
          intro k w hk
          rcases List.mem_cons.mp hk with e | hk
          · obtain ⟨rfl, rfl⟩ := Prod.mk.inj e
            exact ⟨f.name, List.mem_map.mpr ⟨f, hm, rfl⟩, hs⟩
          · exact h1 k w hk
        · rintro ⟨h1, h2, h3⟩
          exact ⟨fun k w hk => h1 k w (by simp [hk]), h2.trans (hl.keep_put f hm a x).symm,
            fun g hg => (hfolds g hg).mpr (h3 g hg)⟩

/-! ## Kinds of settings -/

/-- `null` changes nothing, anything else does not depend on what was there. -/
def PlainDec (dec : Value → β → Except Str β) : Prop :=
  (∀ x, dec .null x = .ok x) ∧ ∀ v, v ≠ .null → ∀ x x', dec v x = dec v x'

/-- `null`, and arrays without `null`, do not depend on what was there. -/
def ListDec (dec : Value → β → Except Str β) : Prop :=
  (∀ x x', dec .null x = dec .null x') ∧
    ∀ vs, Value.null ∉ vs → ∀ x x', dec (.arr vs) x = dec (.arr vs) x'

/-- Two objects are decoded like one with the members of both. -/
def JoinDec (dec : Value → β → Except Str β) : Prop :=
  ∀ a b x y z, dec (.obj a) x = .ok z → dec (.obj b) z = .ok y → dec (.obj (a ++ b)) x = .ok y

/-- The field is decoded as its name says. -/
def Kinded (f : Fld α) : Prop :=
  (f.name ∈ plainNames ∧ PlainDec f.dec) ∨ (f.name ∈ listNames ∧ ListDec f.dec) ∨
  (f.name ∈ mapNames ∧ (∀ x x', f.dec .null x = f.dec .null x') ∧ JoinDec f.dec) ∨
  (f.name = b!"Config" ∧ ∀ v x x', f.dec v x = f.dec v x') ∨
  (f.name = b!"Env" ∧ (∀ x, f.dec .null x = .ok x) ∧ JoinDec f.dec)

def allNames : List Str := plainNames ++ listNames ++ mapNames ++ [b!"Config", b!"Env"]

theorem allNames_distinct : (allNames.map (List.map lowerByte)).Nodup := by decide +kernel

theorem name_eq {n m k : Str} (hn : n ∈ allNames) (hm : m ∈ allNames) (h : Spells n k) (h' : Spells m k) :
    n = m :=
  List.inj_on_of_nodup_map allNames_distinct hn hm (spells_lower h h')

theorem Kinded.mem {f : Fld α} (h : Kinded f) : f.name ∈ allNames := by
  simp only [allNames, List.mem_append, List.mem_cons, List.not_mem_nil, or_false]
  rcases h with ⟨h, _⟩ | ⟨h, _⟩ | ⟨h, _⟩ | ⟨h, _⟩ | ⟨h, _⟩
  · exact .inl (.inl (.inl h))
  · exact .inl (.inl (.inr h))
  · exact .inl (.inr h)
  · exact .inr (.inl h)
  · exact .inr (.inr h)

theorem Decides.mem {n : Str} {v : Value} (h : Decides n v) : n ∈ allNames := by
  simp only [allNames, List.mem_append, List.mem_cons, List.not_mem_nil, or_false]
  cases h with
  | plain h => exact .inl (.inl (.inl h))
  | list h => exact .inl (.inl (.inr h))
  | none h =>
    rcases List.mem_append.1 h with h | h
    · exact .inl (.inl (.inr h))
    · exact .inl (.inr h)
  | config h => exact .inr (.inl h)

theorem kinds_disjoint : (∀ n ∈ plainNames, n ∉ listNames ∧ n ∉ mapNames ∧ n ≠ b!"Config" ∧ n ≠ b!"Env") ∧
    (∀ n ∈ listNames, n ∉ mapNames ∧ n ≠ b!"Config" ∧ n ≠ b!"Env") ∧
    (∀ n ∈ mapNames, n ≠ b!"Config" ∧ n ≠ b!"Env") := by decide +kernel

/-- A value that decides is decoded in the same way over anything. -/
theorem Kinded.decides {f : Fld α} (hf : Kinded f) {v : Value} (h : Decides f.name v) (x x' : f.β) :
    f.dec v x = f.dec v x' := by
  obtain ⟨d1, d2, d3⟩ := kinds_disjoint
  rcases hf with ⟨hn, h1, h2⟩ | ⟨hn, h1, h2⟩ | ⟨hn, h1, h2⟩ | ⟨hn, h1⟩ | ⟨hn, h1, h2⟩
  · obtain ⟨e1, e2, e3, e4⟩ := d1 _ hn
    cases h with
    | plain _ h => exact h2 v h x x'
    | list h => exact absurd h e1
    | none h =>
      rcases List.mem_append.1 h with h | h
      · exact absurd h e1
      · exact absurd h e2
    | config h => exact absurd h e3
  · obtain ⟨e2, e3, e4⟩ := d2 _ hn
    cases h with
    | plain h => exact absurd hn (d1 _ h).1
    | list _ h h' => rw [h]; exact h2 _ h' x x'
    | none _ h => rw [h]; exact h1 x x'
    | config h => exact absurd h e3
  · obtain ⟨e3, e4⟩ := d3 _ hn
    cases h with
    | plain h => exact absurd hn (d1 _ h).2.1
    | list h => exact absurd hn (d2 _ h).1
    | none _ h => rw [h]; exact h1 x x'
    | config h => exact absurd h e3
  · exact h1 v x x'
  · cases h with
    | plain h => exact absurd hn (d1 _ h).2.2.2
    | list h => exact absurd hn (d2 _ h).2.2
    | none h =>
      rcases List.mem_append.1 h with h | h
      · exact absurd hn (d2 _ h).2.2
      · exact absurd hn (d3 _ h).2
    | config h => rw [hn] at h; exact absurd h (by decide)

theorem Kinded.joined {f : Fld α} (hf : Kinded f) (h : f.name ∈ b!"Env" :: mapNames) : JoinDec f.dec := by
  obtain ⟨d1, d2, d3⟩ := kinds_disjoint
  rcases hf with ⟨hn, h1, h2⟩ | ⟨hn, h1, h2⟩ | ⟨hn, h1, h2⟩ | ⟨hn, h1⟩ | ⟨hn, h1, h2⟩
  · rcases List.mem_cons.1 h with h | h
    · exact absurd h (d1 _ hn).2.2.2
    · exact absurd h (d1 _ hn).2.1
  · rcases List.mem_cons.1 h with h | h
    · exact absurd h (d2 _ hn).2.2
    · exact absurd h (d2 _ hn).1
  · exact h2
  · rw [hn] at h; exact absurd h (by decide +kernel)
  · exact h2

theorem Kinded.blank {f : Fld α} (hf : Kinded f) (h : f.name ∈ b!"Env" :: plainNames) (x : f.β) :
    f.dec .null x = .ok x := by
  obtain ⟨d1, d2, d3⟩ := kinds_disjoint
  rcases hf with ⟨hn, h1, h2⟩ | ⟨hn, h1, h2⟩ | ⟨hn, h1, h2⟩ | ⟨hn, h1⟩ | ⟨hn, h1, h2⟩
  · exact h1 x
  · rcases List.mem_cons.1 h with h | h
    · exact absurd h (d2 _ hn).2.2
    · exact absurd hn (d1 _ h).1
  · rcases List.mem_cons.1 h with h | h
    · exact absurd h (d3 _ hn).2
    · exact absurd hn (d1 _ h).2.1
  · rw [hn] at h; exact absurd h (by decide +kernel)
  · exact h1 x

theorem joined_names : ∀ n ∈ b!"Env" :: mapNames, n ∈ allNames := by decide +kernel

theorem blank_names : ∀ n ∈ b!"Env" :: plainNames, n ∈ allNames := by decide +kernel

/-- Dropping what does not count from the members of an object. -/
theorem members_settles {fields : List (Fld α)} {keep : α → γ} (hl : Lawful fields keep)
    (hk : ∀ f ∈ fields, Kinded f) {ms ms' : List (Str × Value)} (h : Settles ms ms') {a b : α}
    (hd : members fields ms a = .ok b) : members fields ms' a = .ok b := by
  obtain ⟨h1, h2, h3⟩ := (members_folds hl).1 hd
  refine (members_folds hl).2 ⟨?_, h2, fun f hf => ?_⟩
  · intro k v hin
    cases h with
    | later =>
      refine h1 k v ?_
      simp only [List.mem_append, List.mem_cons] at hin ⊢
      tauto
    | @joined n k1 k2 a b pre mid post hn hs hs' hm =>
      simp only [List.mem_append, List.mem_cons] at hin
      have e : ∀ w, (k, w) ∈ pre ++ (k1, .obj a) :: (mid ++ (k2, .obj b) :: post) →
          ∃ n ∈ fields.map Fld.name, Spells n k := fun w hw => h1 k w hw
      rcases hin with hin | hin | hin | hin
      · exact e v (by simp [hin])
      · exact e v (by simp [hin])
      · obtain ⟨rfl, rfl⟩ := Prod.mk.inj hin
        exact e (.obj b) (by simp)
      · exact e v (by simp [hin])
    | blank =>
      refine h1 k v ?_
      simp only [List.mem_append, List.mem_cons] at hin ⊢
      tauto
  · have ha := hl.ascii f hf
    have hkf := hk f hf
    have h3 := h3 f hf
    cases h with
    | @later n k k' v v' pre mid post hs hs' hm hdec =>
      by_cases e : Spells f.name k
      · obtain rfl := name_eq hkf.mem hdec.mem e hs
        simp only [given_append, given_yes ha hs, given_yes ha hs', given_none ha hm, List.nil_append] at h3 ⊢
        obtain ⟨x, q1, z, q2, y, q3, q4⟩ := folds_append.1 h3
        exact folds_append.2 ⟨x, q1, y, by rw [← q3]; exact hkf.decides hdec x z, q4⟩
      · have e' : given f.name ((k, v) :: (mid ++ (k', v') :: post)) =
            given f.name (mid ++ (k', v') :: post) := given_no ha e _ _
        rw [given_append, e', ← given_append] at h3
        exact h3
    | @joined n k k' a b pre mid post hn hs hs' hm =>
      have hna : n ∈ allNames := joined_names n hn
      by_cases e : Spells f.name k
      · obtain rfl := name_eq hkf.mem hna e hs
        simp only [given_append, given_yes ha hs, given_yes ha hs', given_none ha hm, List.nil_append] at h3 ⊢
        obtain ⟨x, q1, z, q2, y, q3, q4⟩ := folds_append.1 h3
        exact folds_append.2 ⟨x, q1, y, hkf.joined hn a b x y z q2 q3, q4⟩
      · have e2 : ¬ Spells f.name k' := by
          intro e2
          obtain rfl := name_eq hkf.mem hna e2 hs'
          exact e hs
        simp only [given_append, given_no ha e, given_no ha e2] at h3 ⊢
        exact h3
    | @blank n k pre post hn hs =>
      have hna : n ∈ allNames := blank_names n hn
      by_cases e : Spells f.name k
      · obtain rfl := name_eq hkf.mem hna e hs
        simp only [given_append, given_yes ha hs] at h3 ⊢
        obtain ⟨x, q1, z, q2, q3⟩ := folds_append.1 h3
        rw [hkf.blank hn] at q2
        obtain rfl := Except.ok.inj q2
        exact folds_append.2 ⟨_, q1, q3⟩
      · simp only [given_append, given_no ha e] at h3 ⊢
        exact h3

/-! ## The fields -/

theorem plain_string : PlainDec string := by
  refine ⟨fun _ => rfl, fun v hv x x' => ?_⟩
  cases v with
  | null => exact absurd rfl hv
  | _ => rfl

theorem plain_int : PlainDec int := by
  refine ⟨fun _ => rfl, fun v hv x x' => ?_⟩
  cases v with
  | null => exact absurd rfl hv
  | _ => rfl

theorem plain_uint16 : PlainDec uint16 := by
  refine ⟨fun _ => rfl, fun v hv x x' => ?_⟩
  cases v with
  | null => exact absurd rfl hv
  | _ => rfl

theorem elements_over {vs : List Value} (h : Value.null ∉ vs) (old old' : List Str) :
    elements old vs = elements old' vs := by
  induction vs generalizing old old' with
  | nil => rfl
  | cons v vs ih =>
    simp only [List.mem_cons, not_or] at h
    rw [elements, elements, ih h.2 old.tail old'.tail, plain_string.2 v (fun e => h.1 e.symm) _
      (old'.headD [])]

theorem list_strings : ListDec strings := ⟨fun _ _ => rfl, fun _ h x x' => elements_over h x x'⟩

theorem entries_append {dec : Value → Except Str β} {l l' : List (Str × Value)} {m : GoMap Str β} :
    entries dec (l ++ l') m = match entries dec l m with
      | .error e => .error e
      | .ok m' => entries dec l' m' := by
  induction l generalizing m with
  | nil => rfl
  | cons p l ih =>
    obtain ⟨k, v⟩ := p
    simp only [List.cons_append, entries]
    cases dec v with
    | error e => rfl
    | ok b => exact ih

theorem join_map (dec : Value → Except Str β) : JoinDec (map dec) := by
  intro a b x y z h h'
  simp only [map] at h h' ⊢
  rw [entries_append, h]
  exact h'

theorem members_append {fields : List (Fld α)} {l l' : List (Str × Value)} {a : α} :
    members fields (l ++ l') a = match members fields l a with
      | .error e => .error e
      | .ok b => members fields l' b := by
  induction l generalizing a with
  | nil => rfl
  | cons p l ih =>
    obtain ⟨k, v⟩ := p
    simp only [List.cons_append, members]
    cases findField fields k with
    | none => rfl
    | some f =>
      simp only
      cases f.dec v (f.get a) with
      | error e => rfl
      | ok b => exact ih

theorem join_struct (fields : List (Fld α)) : JoinDec (struct fields) := by
  intro a b x y z h h'
  simp only [struct] at h h' ⊢
  rw [members_append, h]
  exact h'

theorem kinded_plain (n : Str) (get : α → β) (put : α → β → α) (dec : Value → β → Except Str β)
    (hn : n ∈ plainNames) (hd : PlainDec dec) : Kinded ⟨n, β, get, put, dec⟩ := .inl ⟨hn, hd⟩

theorem env_kinded : ∀ f ∈ envFields, Kinded f := by
  simp only [envFields, List.forall_mem_cons]
  exact ⟨.inr (.inl ⟨by decide, list_strings⟩), .inr (.inl ⟨by decide, list_strings⟩),
    .inr (.inr (.inl ⟨by decide, fun _ _ => rfl, join_map _⟩)), by simp⟩

theorem kinded_env (get : α → Sh.Env) (put : α → Sh.Env → α) :
    Kinded ⟨b!"Env", _, get, put, struct envFields⟩ :=
  .inr (.inr (.inr (.inr ⟨rfl, fun _ => rfl, join_struct _⟩)))

theorem sh_kinded : ∀ f ∈ shFields, Kinded f := by
  simp only [shFields, List.forall_mem_cons]
  exact ⟨kinded_plain _ _ _ _ (by decide) plain_int, kinded_env _ _, by simp⟩

theorem pg_kinded : ∀ f ∈ pgFields, Kinded f := by
  simp only [pgFields, List.forall_mem_cons]
  exact ⟨kinded_plain _ _ _ _ (by decide) plain_int, kinded_plain _ _ _ _ (by decide) plain_string,
    kinded_plain _ _ _ _ (by decide) plain_uint16, kinded_plain _ _ _ _ (by decide) plain_string,
    kinded_plain _ _ _ _ (by decide) plain_string, kinded_plain _ _ _ _ (by decide) plain_string,
    kinded_plain _ _ _ _ (by decide) plain_string, kinded_plain _ _ _ _ (by decide) plain_int, by simp⟩

theorem demo_kinded : ∀ f ∈ demoFields, Kinded f := by
  simp only [demoFields, List.forall_mem_cons]
  exact ⟨kinded_plain _ _ _ _ (by decide) plain_string, by simp⟩

theorem exec_kinded : ∀ f ∈ execFields, Kinded f := by
  simp only [execFields, List.forall_mem_cons]
  exact ⟨.inr (.inl ⟨by decide, list_strings⟩), kinded_env _ _, by simp⟩

theorem sql_kinded : ∀ f ∈ sqlFields, Kinded f := by
  simp only [sqlFields, List.forall_mem_cons]
  exact ⟨kinded_plain _ _ _ _ (by decide) plain_string, by simp⟩

theorem sleep_kinded : ∀ f ∈ sleepFields, Kinded f := by
  simp only [sleepFields, List.forall_mem_cons]
  exact ⟨kinded_plain _ _ _ _ (by decide) plain_int, by simp⟩

theorem target_kinded (tx : Text) : ∀ f ∈ targetFields tx, Kinded f := by
  simp only [targetFields, List.forall_mem_cons]
  exact ⟨kinded_plain _ _ _ _ (by decide) plain_string,
    .inr (.inr (.inr (.inl ⟨rfl, fun _ _ _ => rfl⟩))), by simp⟩

theorem task_kinded (tx : Text) : ∀ f ∈ taskFields tx, Kinded f := by
  simp only [taskFields, List.forall_mem_cons]
  exact ⟨.inr (.inl ⟨by decide, list_strings⟩), kinded_plain _ _ _ _ (by decide) plain_string,
    kinded_plain _ _ _ _ (by decide) plain_string,
    .inr (.inr (.inr (.inl ⟨rfl, fun _ _ _ => rfl⟩))), by simp⟩

theorem file_kinded (tx : Text) : ∀ f ∈ fileFields tx, Kinded f := by
  simp only [fileFields, List.forall_mem_cons]
  have h1 : b!"Targets" ∈ mapNames := by decide
  have h2 : b!"Tasks" ∈ mapNames := by decide
  exact ⟨.inr (.inr (.inl ⟨h1, fun _ _ => rfl, join_map _⟩)),
    .inr (.inr (.inl ⟨h2, fun _ _ => rfl, join_map _⟩)), by simp⟩

end Verif.Json.Twice
