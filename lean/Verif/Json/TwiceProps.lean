import Verif.Json.Twice
import Verif.Json.Examples

/-!
# C130: what is written twice counts once
-/

namespace Verif.Json.Twice
open Verif Json Spec Book Secret

variable {α β γ : Type}

/-- If the first succeeds, so does the second, with a related result. -/
def Keeps {ε : Type} (Q : α → β → Prop) (x : Except ε α) (x' : Except ε β) : Prop :=
  ∀ a, x = .ok a → ∃ a', x' = .ok a' ∧ Q a a'

theorem pairs_at {R : Str → Value → Value → Prop} {k : Str} {v v' : Value} (h : R k v v')
    (pre post : List (Str × Value)) : Pairs R (pre ++ (k, v) :: post) (pre ++ (k, v') :: post) := by
  induction pre with
  | nil => exact .cons ⟨rfl, .inr h⟩ (pairs_refl R post)
  | cons p pre ih => exact .cons ⟨rfl, .inl rfl⟩ ih

theorem members_keeps {fields : List (Fld α)} {Q : α → α → Prop} {R : Str → Value → Value → Prop}
    (hs : ∀ key f v v' a a', findField fields key = some f → v = v' ∨ R key v v' → Q a a' →
      Keeps (fun b b' => Q (f.put a b) (f.put a' b')) (f.dec v (f.get a)) (f.dec v' (f.get a')))
    {ms ms' : List (Str × Value)} (h : Pairs R ms ms') {a a' : α} (hq : Q a a') :
    Keeps Q (members fields ms a) (members fields ms' a') := by
  induction h generalizing a a' with
  | nil => intro b hb; obtain rfl := Except.ok.inj hb; exact ⟨a', rfl, hq⟩
  | @cons p p' ms ms' hp _ ih =>
    obtain ⟨key, v⟩ := p
    obtain ⟨key', v'⟩ := p'
    obtain ⟨hk, hv⟩ := hp
    obtain rfl : key = key' := hk
    intro c hc
    simp only [members] at hc ⊢
    cases hf : findField fields key with
    | none => rw [hf] at hc; cases hc
    | some f =>
      rw [hf] at hc
      simp only at hc ⊢
      cases hd : f.dec v (f.get a) with
      | error e => rw [hd] at hc; cases hc
      | ok b =>
        rw [hd] at hc
        obtain ⟨b', h1, h2⟩ := hs key f v v' a a' hf hv hq b hd
        rw [h1]
        exact ih h2 c hc

/-- Decoding an object with a change inside of one of its members. -/
theorem struct_keeps {fields : List (Fld α)} {p : Place} (hp : p.settings)
    (hsec : p ≠ .sect) {keep : α → γ} (hl : Lawful fields keep)
    (hk : ∀ f ∈ fields, Kinded f) {Q : α → α → Prop} (hr : ∀ a, Q a a)
    (hs : ∀ n q f v v' a a', Inside p n q → f ∈ fields → f.name = n → Idle q v v' → Q a a' →
      Keeps (fun b b' => Q (f.put a b) (f.put a' b')) (f.dec v (f.get a)) (f.dec v' (f.get a')))
    (hsame : ∀ f ∈ fields, ∀ v a a', Q a a' →
      Keeps (fun b b' => Q (f.put a b) (f.put a' b')) (f.dec v (f.get a)) (f.dec v (f.get a')))
    {v v' : Value} (h : Idle p v v') (a : α) :
    Keeps Q (struct fields v a) (struct fields v' a) := by
  cases h with
  | settles _ h =>
    intro b hb
    exact ⟨b, members_settles hl hk h hb, hr b⟩
  | again hn => exact absurd hp hn
  | entry => exact absurd rfl hsec
  | @inside _ q n k v v' pre post hin hsp hi =>
    refine members_keeps (R := fun k v v' => Spells n k ∧ Idle q v v') ?_
      (pairs_at ⟨hsp, hi⟩ pre post) (hr a)
    rintro key f w w' b b' hf (rfl | ⟨hsk, hi'⟩) hq
    · exact hsame f (hl.find_iff.1 hf).1 w b b' hq
    · obtain ⟨hm, hsf⟩ := hl.find_iff.1 hf
      have hna : n ∈ allNames := by cases hin <;> decide +kernel
      exact hs n q f w w' b b' hin hm (name_eq (hk f hm).mem hna hsf hsk) hi' hq

/-! ## Maps -/

theorem set_set {m : GoMap Str β} {k : Str} {x y : β} : (m.set k x).set k y = m.set k y := by
  induction m with
  | nil => simp [GoMap.set]
  | cons p m ih =>
    obtain ⟨a, u⟩ := p
    by_cases e : a = k
    · simp [GoMap.set, e]
    · simp [GoMap.set, e, ih]

theorem set_comm {m : GoMap Str β} {k j : Str} (h : j ≠ k) {x y z : β} :
    ((m.set k x).set j z).set k y = (m.set k y).set j z := by
  induction m with
  | nil => simp [GoMap.set, h.symm]
  | cons p m ih =>
    obtain ⟨a, u⟩ := p
    by_cases e : a = k
    · subst e
      simp [GoMap.set, h.symm]
    · by_cases e' : a = j
      · subst e'
        simp [GoMap.set, h]
        exact set_set
      · simp [GoMap.set, e, e', ih]

theorem entries_again {dec : Value → Except Str β} {id : Str} {v v' : Value}
    {mid post : List (Str × Value)} (hm : ∀ q ∈ mid, q.1 ≠ id) {m m' : GoMap Str β}
    (h : entries dec ((id, v) :: (mid ++ (id, v') :: post)) m = .ok m') :
    entries dec ((id, v') :: (mid ++ post)) m = .ok m' := by
  simp only [entries] at h ⊢
  cases h1 : dec v with
  | error e => rw [h1] at h; cases h
  | ok x =>
    rw [h1] at h
    simp only at h
    rw [entries_append] at h
    cases h2 : entries dec mid (m.set id x) with
    | error e => rw [h2] at h; cases h
    | ok m1 =>
      rw [h2] at h
      simp only [entries] at h
      cases h3 : dec v' with
      | error e => rw [h3] at h; cases h
      | ok y =>
        rw [h3] at h
        simp only at h ⊢
        rw [entries_append]
        have key : ∀ (mid : List (Str × Value)) (m m1 : GoMap Str β), (∀ q ∈ mid, q.1 ≠ id) →
            (∃ m0, m = GoMap.set m0 id x) → entries dec mid m = .ok m1 →
            entries dec mid (m.set id y) = .ok (m1.set id y) := by
          intro mid
          induction mid with
          | nil => intro m m1 _ _ h; obtain rfl := Except.ok.inj h; rfl
          | cons q mid ih =>
            obtain ⟨j, w⟩ := q
            rintro m m1 hq ⟨m0, rfl⟩ hh
            simp only [entries] at hh ⊢
            cases hw : dec w with
            | error e => rw [hw] at hh; cases hh
            | ok z =>
              rw [hw] at hh
              simp only at hh ⊢
              have hj : j ≠ id := hq (j, w) (by simp)
              have e : ((m0.set id x).set id y).set j z = ((m0.set id x).set j z).set id y := by
                rw [set_set, set_comm hj]
              rw [e]
              refine ih _ m1 (fun q hq' => hq q (by simp [hq'])) ?_ hh
              clear hh e ih
              -- the entry is still there
              refine ⟨(m0.set id x).set j z, ?_⟩
              induction m0 with
              | nil => simp [GoMap.set, hj.symm]
              | cons p m0 ih0 =>
                obtain ⟨a, u⟩ := p
                by_cases e : a = id
                · subst e
                  simp [GoMap.set, hj.symm]
                · by_cases e' : a = j
                  · subst e'
                    simp [GoMap.set, hj]
                    exact set_set.symm
                  · simp only [GoMap.set, e, e', if_false, List.cons.injEq, true_and]
                    exact ih0
        have := key mid (m.set id x) m1 hm ⟨m, rfl⟩ h2
        rw [set_set] at this
        rw [this]
        exact h

theorem entries_again' {dec : Value → Except Str β} {id : Str} {v v' : Value}
    {pre mid post : List (Str × Value)} (hm : ∀ q ∈ mid, q.1 ≠ id) {m m' : GoMap Str β}
    (h : entries dec (pre ++ (id, v) :: (mid ++ (id, v') :: post)) m = .ok m') :
    entries dec (pre ++ (id, v') :: (mid ++ post)) m = .ok m' := by
  rw [entries_append] at h ⊢
  cases h1 : entries dec pre m with
  | error e => rw [h1] at h; cases h
  | ok m1 => rw [h1] at h; exact entries_again hm h

theorem entries_keeps {V V' : Type} {dec : Value → Except Str V} {dec' : Value → Except Str V'}
    {Q : V → V' → Prop} {R : Value → Value → Prop}
    (hd : ∀ v v', v = v' ∨ R v v' → Keeps Q (dec v) (dec' v')) {ms ms' : List (Str × Value)}
    (h : Pairs (fun _ => R) ms ms') {m : GoMap Str V} {m' : GoMap Str V'} (hm : Maps Q m m') :
    Keeps (Maps Q) (entries dec ms m) (entries dec' ms' m') := by
  induction h generalizing m m' with
  | nil => intro x hx; obtain rfl := Except.ok.inj hx; exact ⟨m', rfl, hm⟩
  | @cons p p' ms ms' hp _ ih =>
    obtain ⟨key, v⟩ := p
    obtain ⟨key', v'⟩ := p'
    obtain ⟨hk, hv⟩ := hp
    obtain rfl : key = key' := hk
    intro x hx
    simp only [entries] at hx ⊢
    cases h1 : dec v with
    | error e => rw [h1] at hx; cases hx
    | ok b =>
      rw [h1] at hx
      obtain ⟨b', h2, h3⟩ := hd v v' hv b h1
      rw [h2]
      exact ih (hm.set key h3) x hx

/-! ## Configs -/

theorem same_eq {f : Fld α} {v : Value} {a a' : α} (h : a = a') :
    Keeps (fun b b' => f.put a b = f.put a' b') (f.dec v (f.get a)) (f.dec v (f.get a')) := by
  subst h
  exact fun b hb => ⟨b, hb, rfl⟩

theorem set_idle {dec : Value → Except Str β} {v v' : Value} (h : Idle .set v v') (x : GoMap Str β) :
    Keeps Eq (map dec v x) (map dec v' x) := by
  intro y hy
  cases h with
  | settles h => exact absurd h id
  | again _ hm => exact ⟨y, entries_again' hm hy, rfl⟩
  | inside h => cases h

theorem env_idle {v v' : Value} (h : Idle .env v v') (x : Sh.Env) :
    Keeps Eq (struct envFields v x) (struct envFields v' x) := by
  refine struct_keeps (p := .env) trivial (by simp) env_lawful env_kinded (fun _ => rfl) ?_
    (fun f _ v a a' h => same_eq h) h x
  rintro n q f v v' a a' hin hf hn hi rfl b hb
  cases hin with
  | set =>
    simp only [envFields, List.mem_cons, List.not_mem_nil, or_false] at hf
    rcases hf with rfl | rfl | rfl
    · exact absurd hn (by decide)
    · exact absurd hn (by decide)
    · obtain ⟨b', h1, rfl⟩ := set_idle hi _ b hb
      exact ⟨b, h1, rfl⟩

/-- Configs of any class. -/
theorem config_idle {fields : List (Fld α)} {keep : α → γ} (hl : Lawful fields keep)
    (hk : ∀ f ∈ fields, Kinded f)
    (he : ∀ f ∈ fields, f.name = b!"Env" → ∀ v v', Idle .env v v' → ∀ x, Keeps Eq (f.dec v x) (f.dec v' x))
    {v v' : Value} (h : Idle .config v v') (x : α) :
    Keeps Eq (struct fields v x) (struct fields v' x) := by
  refine struct_keeps (p := .config) trivial (by simp) hl hk (fun _ => rfl) ?_
    (fun f _ v a a' h => same_eq h) h x
  rintro n q f v v' a a' hin hf hn hi rfl b hb
  cases hin with
  | env =>
    obtain ⟨b', h1, rfl⟩ := he f hf hn v v' hi _ b hb
    exact ⟨b, h1, rfl⟩

theorem keeps_map {f : α → β} {x x' : Except Str α} (h : Keeps Eq x x') :
    Keeps Eq (x.map f) (x'.map f) := by
  intro b hb
  cases x with
  | error e => cases hb
  | ok a =>
    obtain ⟨a', rfl, rfl⟩ := h a rfl
    exact ⟨b, hb, rfl⟩

theorem target_idle {v v' : Value} (h : Idle .config v v') (t : Target) :
    Keeps Eq (decodeTarget v t) (decodeTarget v' t) := by
  cases t with
  | pg t =>
    refine keeps_map (config_idle pg_lawful pg_kinded ?_ h t)
    intro f hf hn
    simp only [pgFields, List.mem_cons, List.not_mem_nil, or_false] at hf
    rcases hf with rfl | rfl | rfl | rfl | rfl | rfl | rfl | rfl <;> exact absurd hn (by decide)
  | sh t =>
    refine keeps_map (config_idle sh_lawful sh_kinded ?_ h t)
    intro f hf hn
    simp only [shFields, List.mem_cons, List.not_mem_nil, or_false] at hf
    rcases hf with rfl | rfl
    · exact absurd hn (by decide)
    · exact fun v v' h x => env_idle h x
  | demo t =>
    refine keeps_map (config_idle demo_lawful demo_kinded ?_ h t)
    intro f hf hn
    simp only [demoFields, List.mem_cons, List.not_mem_nil, or_false] at hf
    subst hf
    exact absurd hn (by decide)

theorem task_idle {v v' : Value} (h : Idle .config v v') (c : Config) :
    Keeps Eq (decodeConfig v c) (decodeConfig v' c) := by
  have hno : ∀ c : Config, Keeps Eq ((struct noFields v ()).map fun _ => c)
      ((struct noFields v' ()).map fun _ => c) := fun c =>
    keeps_map (config_idle no_lawful (by simp [noFields]) (by simp [noFields]) h ())
  cases c with
  | pgExec x =>
    refine keeps_map (config_idle sql_lawful sql_kinded ?_ h x)
    intro f hf hn
    simp only [sqlFields, List.mem_cons, List.not_mem_nil, or_false] at hf
    subst hf
    exact absurd hn (by decide)
  | shExec x =>
    refine keeps_map (config_idle exec_lawful exec_kinded ?_ h x)
    intro f hf hn
    simp only [execFields, List.mem_cons, List.not_mem_nil, or_false] at hf
    rcases hf with rfl | rfl
    · exact absurd hn (by decide)
    · exact fun v v' h x => env_idle h x
  | sleep x =>
    refine keeps_map (config_idle sleep_lawful sleep_kinded ?_ h x)
    intro f hf hn
    simp only [sleepFields, List.mem_cons, List.not_mem_nil, or_false] at hf
    subst hf
    exact absurd hn (by decide)
  | _ => exact hno _

/-! ## Targets and tasks -/

section
variable (tx : Text)

/-- What is kept of a config. -/
def SameCfg (m m' : Str) : Prop := m = m' ∨ ∃ v v', m = tx.raw v ∧ m' = tx.raw v' ∧ Idle .config v v'

def SameTargetSrc (s s' : TargetSrc) : Prop := s.class_ = s'.class_ ∧ SameCfg tx s.config s'.config

def SameTaskSrc (s s' : TaskSrc) : Prop :=
  s.after = s'.after ∧ s.target = s'.target ∧ s.message = s'.message ∧ SameCfg tx s.config s'.config

/-- Pointers. -/
def Ptr (Q : α → α → Prop) : Option α → Option α → Prop
  | none, none => True
  | some s, some s' => Q s s'
  | _, _ => False

theorem target_entry_idle {v v' : Value} (h : Idle .entry v v') (s : TargetSrc) :
    Keeps (SameTargetSrc tx) (struct (targetFields tx) v s) (struct (targetFields tx) v' s) := by
  refine struct_keeps (p := .entry) trivial (by simp) (target_lawful tx) (target_kinded tx)
    (fun a => ⟨rfl, .inl rfl⟩) ?_ ?_ h s
  · rintro n q f v v' a a' hin hf hn hi ⟨h1, h2⟩ b hb
    cases hin with
    | config =>
      simp only [targetFields, List.mem_cons, List.not_mem_nil, or_false] at hf
      rcases hf with rfl | rfl
      · exact absurd (show b!"Class" = b!"Config" from hn) (by decide)
      · obtain rfl := Except.ok.inj hb
        exact ⟨_, rfl, h1, .inr ⟨v, v', rfl, rfl, hi⟩⟩
  · rintro f hf v a a' ⟨h1, h2⟩ b hb
    simp only [targetFields, List.mem_cons, List.not_mem_nil, or_false] at hf
    rcases hf with rfl | rfl
    · simp only [h1] at hb
      exact ⟨b, hb, rfl, h2⟩
    · exact ⟨b, hb, h1, .inl rfl⟩

theorem task_entry_idle {v v' : Value} (h : Idle .entry v v') (s : TaskSrc) :
    Keeps (SameTaskSrc tx) (struct (taskFields tx) v s) (struct (taskFields tx) v' s) := by
  refine struct_keeps (p := .entry) trivial (by simp) (task_lawful tx) (task_kinded tx)
    (fun a => ⟨rfl, rfl, rfl, .inl rfl⟩) ?_ ?_ h s
  · rintro n q f v v' a a' hin hf hn hi ⟨h1, h2, h3, h4⟩ b hb
    cases hin with
    | config =>
      simp only [taskFields, List.mem_cons, List.not_mem_nil, or_false] at hf
      rcases hf with rfl | rfl | rfl | rfl
      · exact absurd (show b!"After" = b!"Config" from hn) (by decide)
      · exact absurd (show b!"Target" = b!"Config" from hn) (by decide)
      · exact absurd (show b!"Message" = b!"Config" from hn) (by decide)
      · obtain rfl := Except.ok.inj hb
        exact ⟨_, rfl, h1, h2, h3, .inr ⟨v, v', rfl, rfl, hi⟩⟩
  · rintro f hf v a a' ⟨h1, h2, h3, h4⟩ b hb
    simp only [taskFields, List.mem_cons, List.not_mem_nil, or_false] at hf
    rcases hf with rfl | rfl | rfl | rfl
    · simp only [h1] at hb
      exact ⟨b, hb, rfl, h2, h3, h4⟩
    · simp only [h2] at hb
      exact ⟨b, hb, h1, rfl, h3, h4⟩
    · simp only [h3] at hb
      exact ⟨b, hb, h1, h2, rfl, h4⟩
    · exact ⟨b, hb, h1, h2, h3, .inl rfl⟩

theorem idle_obj {p : Place} {v v' : Value} (h : Idle p v v') :
    (∃ ms, v = .obj ms) ∧ ∃ ms', v' = .obj ms' := by
  cases h <;> exact ⟨⟨_, rfl⟩, ⟨_, rfl⟩⟩

theorem pointer_idle {fields : List (Fld α)} {zero : α} {Q : α → α → Prop} (hr : ∀ a, Q a a)
    (hs : ∀ v v', Idle .entry v v' → Keeps Q (struct fields v zero) (struct fields v' zero))
    (v v' : Value) (h : v = v' ∨ Idle .entry v v') :
    Keeps (Ptr Q) (pointer fields zero v) (pointer fields zero v') := by
  intro o ho
  rcases h with rfl | h
  · refine ⟨o, ho, ?_⟩
    cases o with
    | none => trivial
    | some s => exact hr s
  · have hk := hs v v' h
    obtain ⟨⟨ms, rfl⟩, ⟨ms', rfl⟩⟩ := idle_obj h
    simp only [pointer] at ho ⊢
    cases e : struct fields (.obj ms) zero with
    | error e' => rw [e] at ho; cases ho
    | ok a =>
      rw [e] at ho
      obtain rfl := Except.ok.inj ho
      obtain ⟨a', h1, h2⟩ := hk a e
      rw [h1]
      exact ⟨some a', rfl, h2⟩

theorem ptr_refl {Q : α → α → Prop} (hr : ∀ a, Q a a) (o : Option α) : Ptr Q o o := by
  cases o with
  | none => trivial
  | some s => exact hr s

/-- A section. -/
theorem sect_idle {fields : List (Fld α)} {zero : α} {Q : α → α → Prop} (hr : ∀ a, Q a a)
    (hs : ∀ v v', Idle .entry v v' → Keeps Q (struct fields v zero) (struct fields v' zero))
    {v v' : Value} (h : v = v' ∨ Idle .sect v v') {m m' : GoMap Str (Option α)} (hm : Maps (Ptr Q) m m') :
    Keeps (Maps (Ptr Q)) (map (pointer fields zero) v m) (map (pointer fields zero) v' m') := by
  have same : ∀ v, Keeps (Maps (Ptr Q)) (map (pointer fields zero) v m) (map (pointer fields zero) v m') := by
    intro v x hx
    cases v with
    | null => obtain rfl := Except.ok.inj hx; exact ⟨[], rfl, .nil⟩
    | obj ms => exact entries_keeps (pointer_idle hr hs) (pairs_refl _ ms) hm x hx
    | _ => cases hx
  rcases h with rfl | h
  · exact same v
  · cases h with
    | settles h => exact absurd h id
    | @again _ id v v' pre mid post _ hmid =>
      intro x hx
      have hx' : map (pointer fields zero) (.obj (pre ++ (id, v') :: (mid ++ post))) m = .ok x :=
        entries_again' hmid hx
      exact same _ x hx'
    | entry h => exact entries_keeps (pointer_idle hr hs) (pairs_at h _ _) hm
    | inside h => cases h

/-- Decoded files. -/
def SameSrcs (s s' : Src) : Prop :=
  Maps (Ptr (SameTargetSrc tx)) s.targets s'.targets ∧ Maps (Ptr (SameTaskSrc tx)) s.tasks s'.tasks

theorem file_idle {doc doc' : Value} (h : Idle .file doc doc') :
    Keeps (SameSrcs tx) (decodeFile tx doc) (decodeFile tx doc') := by
  have r1 : ∀ a, SameTargetSrc tx a a := fun a => ⟨rfl, .inl rfl⟩
  have r2 : ∀ a, SameTaskSrc tx a a := fun a => ⟨rfl, rfl, rfl, .inl rfl⟩
  refine struct_keeps (p := .file) trivial (by simp) (file_lawful tx) (file_kinded tx)
    (fun a => ⟨Maps.refl (ptr_refl r1) _, Maps.refl (ptr_refl r2) _⟩) ?_ ?_ h _
  · rintro n q f v v' a a' hin hf hn hi ⟨h1, h2⟩ b hb
    have hi : Idle .sect v v' := by cases hin <;> exact hi
    simp only [fileFields, List.mem_cons, List.not_mem_nil, or_false] at hf
    rcases hf with rfl | rfl
    · obtain ⟨b', e1, e2⟩ := sect_idle r1 (fun v v' h => target_entry_idle tx h _) (.inr hi) h1 b hb
      exact ⟨b', e1, e2, h2⟩
    · obtain ⟨b', e1, e2⟩ := sect_idle r2 (fun v v' h => task_entry_idle tx h _) (.inr hi) h2 b hb
      exact ⟨b', e1, h1, e2⟩
  · rintro f hf v a a' ⟨h1, h2⟩ b hb
    simp only [fileFields, List.mem_cons, List.not_mem_nil, or_false] at hf
    rcases hf with rfl | rfl
    · obtain ⟨b', e1, e2⟩ := sect_idle r1 (fun v v' h => target_entry_idle tx h _) (.inl rfl) h1 b hb
      exact ⟨b', e1, e2, h2⟩
    · obtain ⟨b', e1, e2⟩ := sect_idle r2 (fun v v' h => task_entry_idle tx h _) (.inl rfl) h2 b hb
      exact ⟨b', e1, h1, e2⟩

/-! ## The runbook -/

theorem cfg_same {m m' : Str} (h : SameCfg tx m m') {d : Str → α → Except Str α}
    (hd : ∀ v v', Idle .config v v' → ∀ x, Keeps Eq (d (tx.raw v) x) (d (tx.raw v') x)) (x y : α)
    (hy : (if m.length > 0 then d m x else .ok x) = .ok y) :
    (if m'.length > 0 then d m' x else .ok x) = .ok y := by
  rcases h with rfl | ⟨v, v', rfl, rfl, hi⟩
  · exact hy
  · have p : ∀ v, (tx.raw v).length > 0 := fun v => List.length_pos_of_ne_nil (tx.raw_ne v)
    rw [if_pos (p _)] at hy ⊢
    obtain ⟨y', h1, rfl⟩ := hd v v' hi x y hy
    exact h1

theorem decoder_target {v v' : Value} (h : Idle .config v v') (x : Target) :
    Keeps Eq ((decoder tx).target (tx.raw v) x) ((decoder tx).target (tx.raw v') x) := by
  simp only [decoder, tx.read_raw]
  exact target_idle h x

theorem decoder_config {v v' : Value} (h : Idle .config v v') (x : Config) :
    Keeps Eq ((decoder tx).config (tx.raw v) x) ((decoder tx).config (tx.raw v') x) := by
  simp only [decoder, tx.read_raw]
  exact task_idle h x

theorem loadTarget_idle (basedir : Str) {s s' : Option TargetSrc} (h : Ptr (SameTargetSrc tx) s s')
    {t : Target} (ht : loadTarget (decoder tx) basedir s = .ok t) :
    loadTarget (decoder tx) basedir s' = .ok t := by
  cases s with
  | none => cases ht
  | some s =>
    cases s' with
    | none => exact absurd h id
    | some s' =>
      obtain ⟨h1, h2⟩ : SameTargetSrc tx s s' := h
      simp only [loadTarget, ← h1] at ht ⊢
      cases e : newTarget basedir s.class_ with
      | none => rw [e] at ht; cases ht
      | some t0 =>
        rw [e] at ht
        simp only at ht ⊢
        cases e2 : (if s.config.length > 0 then (decoder tx).target s.config t0 else .ok t0) with
        | error x => rw [e2] at ht; cases ht
        | ok t1 =>
          rw [e2] at ht
          rw [cfg_same tx h2 (fun v v' h x => decoder_target tx h x) t0 t1 e2]
          exact ht

theorem loadTargets_idle (basedir : Str) {l l' : GoMap Str (Option TargetSrc)}
    (h : Maps (Ptr (SameTargetSrc tx)) l l') {m r : GoMap Str Target}
    (hr : loadTargets (decoder tx) basedir l m = .ok r) : loadTargets (decoder tx) basedir l' m = .ok r := by
  induction h generalizing m with
  | nil => exact hr
  | @cons p p' l l' hp _ ih =>
    obtain ⟨key, s⟩ := p
    obtain ⟨key', s'⟩ := p'
    obtain ⟨hk, hs⟩ := hp
    obtain rfl : key = key' := hk
    simp only [loadTargets] at hr ⊢
    cases e : loadTarget (decoder tx) basedir s with
    | ok t =>
      rw [e] at hr
      rw [loadTarget_idle tx basedir hs e]
      exact ih hr
    | panic => rw [e] at hr; cases hr
    | error x => rw [e] at hr; cases hr

theorem loadTask_idle {m : GoMap Str Target} {s s' : Option TaskSrc} (h : Ptr (SameTaskSrc tx) s s')
    {t : Task} (ht : loadTask (decoder tx) m s = .ok t) : loadTask (decoder tx) m s' = .ok t := by
  cases s with
  | none => cases ht
  | some s =>
    cases s' with
    | none => exact absurd h id
    | some s' =>
      obtain ⟨h1, h2, h3, h4⟩ : SameTaskSrc tx s s' := h
      simp only [loadTask, ← h1, ← h2, ← h3] at ht ⊢
      cases e : m.get? (splitTarget s.target).1 with
      | none => rw [e] at ht; cases ht
      | some t0 =>
        rw [e] at ht
        simp only at ht ⊢
        cases e1 : t0.newTaskConfig (splitTarget s.target).2 with
        | error x => rw [e1] at ht; cases ht
        | ok c0 =>
          rw [e1] at ht
          simp only at ht ⊢
          cases e2 : (if s.config.length > 0 then (decoder tx).config s.config c0 else .ok c0) with
          | error x => rw [e2] at ht; cases ht
          | ok t1 =>
            rw [e2] at ht
            rw [cfg_same tx h4 (fun v v' h x => decoder_config tx h x) c0 t1 e2]
            exact ht

theorem loadTasks_idle {m : GoMap Str Target} {l l' : GoMap Str (Option TaskSrc)}
    (h : Maps (Ptr (SameTaskSrc tx)) l l') {a r : GoMap Str Task}
    (hr : loadTasks (decoder tx) m l a = .ok r) : loadTasks (decoder tx) m l' a = .ok r := by
  induction h generalizing a with
  | nil => exact hr
  | @cons p p' l l' hp _ ih =>
    obtain ⟨key, s⟩ := p
    obtain ⟨key', s'⟩ := p'
    obtain ⟨hk, hs⟩ := hp
    obtain rfl : key = key' := hk
    simp only [loadTasks] at hr ⊢
    cases e : loadTask (decoder tx) m s with
    | ok t =>
      rw [e] at hr
      rw [loadTask_idle tx hs e]
      exact ih hr
    | panic => rw [e] at hr; cases hr
    | error x => rw [e] at hr; cases hr

theorem parse_idle {basedir : Str} {doc doc' : Value} (h : Idle .file doc doc') {book : Runbook}
    (hb : Json.parse tx basedir doc = .ok book) : Json.parse tx basedir doc' = .ok book := by
  obtain ⟨src, h1, h2⟩ := parse_iff.mp hb
  obtain ⟨src', h3, h4, h5⟩ := file_idle tx h src h1
  refine parse_iff.mpr ⟨src', h3, ?_⟩
  simp only [Book.parse] at h2 ⊢
  cases e : loadTargets (decoder tx) basedir src.targets [] with
  | panic => rw [e] at h2; cases h2
  | error x => rw [e] at h2; cases h2
  | ok ts =>
    rw [e] at h2
    rw [loadTargets_idle tx basedir h4 e]
    simp only at h2 ⊢
    cases e2 : loadTasks (decoder tx) ts src.tasks [] with
    | panic => rw [e2] at h2; cases h2
    | error x => rw [e2] at h2; cases h2
    | ok us =>
      rw [e2] at h2
      rw [loadTasks_idle tx h5 e2]
      exact h2

end

/-- **C130.** A file that is accepted is the same runbook without the members that do not count. -/
theorem C130_twice (tx : Text) (basedir : Str) (doc doc' : Value) (h : Without doc doc') (book : Runbook)
    (hb : Json.parse tx basedir doc = .ok book) : Json.parse tx basedir doc' = .ok book := by
  induction h with
  | refl => exact hb
  | step h _ ih => exact ih (parse_idle tx h hb)

/-- **C130.** So if nothing is left that is written twice, the runbook is what the rest of the file says. -/
theorem C130_reads (tx : Text) (basedir : Str) (doc doc' : Value) (h : Without doc doc') (hp : Plain doc')
    (book : Runbook) (hb : Json.parse tx basedir doc = .ok book) :
    Valid basedir doc' ∧ Describes basedir doc' book := by
  have hb' := C130_twice tx basedir doc doc' h book hb
  exact ⟨(C93_accepts_iff_partial tx basedir doc' hp).mp ⟨book, hb'⟩,
    (C93_reads_partial tx basedir doc' hp book hb').1⟩

/-! ## An example -/

/-- The target of the examples. -/
def entryX (config : List (Str × Value)) : Value :=
  .obj [(b!"class", .str b!"demo"), (b!"config", .obj config)]

def tasksX : Str × Value := (b!"tasks", .obj [(b!"a", .obj [(b!"target", .str b!"x/echo")])])

/-- A file with two lists of targets, both of which have the target x, and one of these has its string
twice. -/
def overlaid : Value := .obj [
  (b!"Targets", .obj [(b!"x", entryX [])]),
  (b!"targets", .obj [(b!"x", entryX [(b!"String", .str b!"no"), (b!"string", .str b!"hi")])]), tasksX]

/-- The same without what does not count. -/
def underlaid : Value := .obj [(b!"targets", .obj [(b!"x", entryX [(b!"string", .str b!"hi")])]), tasksX]

theorem spelled {n k : Str} (hn : Ascii n) (h : equalFold n k = true) : Spells n k := (equalFold_iff hn).mp h

theorem overlaid_without : Without overlaid underlaid := by
  have s1 : Idle .file overlaid (.obj [(b!"targets", .obj [(b!"x", entryX []),
      (b!"x", entryX [(b!"String", .str b!"no"), (b!"string", .str b!"hi")])]), tasksX]) :=
    .settles trivial (.joined (n := b!"Targets") (pre := []) (mid := []) (post := [tasksX]) (by decide)
      (spelled (by decide) (by decide)) (spelled (by decide) (by decide)) (by simp))
  have s2 : Idle .file (.obj [(b!"targets", .obj [(b!"x", entryX []),
      (b!"x", entryX [(b!"String", .str b!"no"), (b!"string", .str b!"hi")])]), tasksX])
      (.obj [(b!"targets", .obj [
      (b!"x", entryX [(b!"String", .str b!"no"), (b!"string", .str b!"hi")])]), tasksX]) :=
    .inside (pre := []) (post := [tasksX]) .targets (spelled (by decide) (by decide))
      (.again (pre := []) (mid := []) (post := []) id (by simp))
  have s3 : Idle .file (.obj [(b!"targets", .obj [
      (b!"x", entryX [(b!"String", .str b!"no"), (b!"string", .str b!"hi")])]), tasksX]) underlaid :=
    .inside (pre := []) (post := [tasksX]) .targets (spelled (by decide) (by decide))
      (.entry (pre := []) (post := []) (.inside (pre := [(b!"class", .str b!"demo")]) (post := []) .config
        (spelled (by decide) (by decide)) (.settles trivial (.later (n := b!"String") (pre := []) (mid := [])
          (post := []) (spelled (by decide) (by decide)) (spelled (by decide) (by decide)) (by simp)
          (.plain (by decide) (by simp))))))
  exact .step s1 (.step s2 (.step s3 (.refl _)))

/-- The hypotheses of C130 hold of it, and the runbook is the one with a single target that says hi. -/
example (tx : Text) : Plain underlaid ∧ Without overlaid underlaid ∧
    Json.parse tx b!"/" overlaid =
      .ok ⟨[(b!"x", .demo { string := b!"hi" })], [(b!"a", ⟨b!"x", [], [], .echo⟩)]⟩ := by
  refine ⟨plain_of (by decide +kernel), overlaid_without, ?_⟩
  have e : decodeFile tx overlaid = .ok ⟨[(b!"x", some ⟨b!"demo",
      tx.raw (.obj [(b!"String", .str b!"no"), (b!"string", .str b!"hi")])⟩)],
      [(b!"a", some ⟨[], b!"x/echo", [], []⟩)]⟩ := rfl
  rw [Json.parse, e]
  simp only [Book.parse, loadTargets, loadTarget_raw]
  rfl

/-- A `null` in a list that is written twice leaves what was there: such lists do not decide. -/
example : strings (.arr [.null, .str b!"b"]) [b!"a"] = .ok [b!"a", b!"b"] := rfl

end Verif.Json.Twice
