import Verif.Ragel.Machine

/-!
# Regular grammars with actions, and their linear forms

`Gram` is the fragment of ragel's language the `.rl` files use: character classes with actions on
the byte, leaving actions, sequence, alternative, repetition. `Derives g s es` says that `g` matches
`s` executing `es`.
-/

namespace Verif.Ragel
open Verif

/-- A set of bytes, as intervals. -/
abbrev Cls := List (Nat × Nat)

/-- Whether a byte is in the set. -/
def Cls.has (S : Cls) (b : UInt8) : Bool := S.any (fun i => Nat.ble i.1 b.toNat && Nat.ble b.toNat i.2)

/-- Grammars. -/
inductive Gram (A : Type) where
  /-- the empty string -/
  | eps
  /-- the empty string, executing an action -/
  | act (a : A)
  /-- one byte of a class, executing operations on it -/
  | cls (S : Cls) (ops : List (Op A))
  | seq (g h : Gram A)
  | alt (g h : Gram A)
  | star (g : Gram A)
deriving DecidableEq, Repr

/-- `g` matches `s`, executing `es`. -/
inductive Derives {A : Type} : Gram A → Str → List (Ev A) → Prop
  | eps : Derives .eps [] []
  | act (a : A) : Derives (.act a) [] [.act a]
  | cls {S : Cls} {ops : List (Op A)} {b : UInt8} (h : S.has b = true) :
      Derives (.cls S ops) [b] (ops.map (Op.on b))
  | seq {g h s t es fs} : Derives g s es → Derives h t fs → Derives (.seq g h) (s ++ t) (es ++ fs)
  | altL {g h s es} : Derives g s es → Derives (.alt g h) s es
  | altR {g h s es} : Derives h s es → Derives (.alt g h) s es
  | starNil {g} : Derives (.star g) [] []
  | starCons {g s t es fs} : Derives g s es → Derives (.star g) t fs →
      Derives (.star g) (s ++ t) (es ++ fs)

/-- A sequence of grammars matches. -/
inductive DerivesS {A : Type} : List (Gram A) → Str → List (Ev A) → Prop
  | nil : DerivesS [] [] []
  | cons {g gs s t es fs} : Derives g s es → DerivesS gs t fs → DerivesS (g :: gs) (s ++ t) (es ++ fs)

variable {A : Type}

/-- The ways to match the empty string. -/
def Gram.null : Gram A → List (List A)
  | .eps => [[]]
  | .act a => [[a]]
  | .cls _ _ => []
  | .seq g h => g.null.flatMap (fun x => h.null.map (fun y => x ++ y))
  | .alt g h => g.null ++ h.null
  | .star _ => [[]]

/-- The ways to match a first byte: its class, the operations executed on it, and what must match
the rest. -/
structure Lin (A : Type) where
  set : Cls
  ops : List (Op A)
  cont : List (Gram A)

/-- Execute actions before. -/
def Lin.pre (as : List A) (l : Lin A) : Lin A := { l with ops := as.map .act ++ l.ops }

/-- Continue with more. -/
def Lin.post (gs : List (Gram A)) (l : Lin A) : Lin A := { l with cont := l.cont ++ gs }

/-- The linear form of a grammar. -/
def Gram.lf : Gram A → List (Lin A)
  | .eps => []
  | .act _ => []
  | .cls S ops => [⟨S, ops, []⟩]
  | .seq g h => g.lf.map (Lin.post [h]) ++ g.null.flatMap (fun as => h.lf.map (Lin.pre as))
  | .alt g h => g.lf ++ h.lf
  | .star g => g.lf.map (Lin.post [.star g])

/-- The ways a sequence matches the empty string. -/
def nullS : List (Gram A) → List (List A)
  | [] => [[]]
  | g :: gs => g.null.flatMap (fun x => (nullS gs).map (fun y => x ++ y))

/-- The linear form of a sequence. -/
def lfS : List (Gram A) → List (Lin A)
  | [] => []
  | g :: gs => g.lf.map (Lin.post gs) ++ g.null.flatMap (fun as => (lfS gs).map (Lin.pre as))

/-- No repetition of a grammar that matches the empty string. -/
def Gram.wf : Gram A → Bool
  | .eps => true
  | .act _ => true
  | .cls _ _ => true
  | .seq g h => g.wf && h.wf
  | .alt g h => g.wf && h.wf
  | .star g => g.wf && g.null.isEmpty

theorem derives_eps {s : Str} {es : List (Ev A)} : Derives .eps s es ↔ s = [] ∧ es = [] :=
  ⟨fun h => by cases h; exact ⟨rfl, rfl⟩, fun ⟨h1, h2⟩ => by subst h1 h2; exact .eps⟩

theorem derives_act {a : A} {s : Str} {es : List (Ev A)} :
    Derives (.act a) s es ↔ s = [] ∧ es = [.act a] :=
  ⟨fun h => by cases h; exact ⟨rfl, rfl⟩, fun ⟨h1, h2⟩ => by subst h1 h2; exact .act a⟩

theorem derives_cls {S : Cls} {ops : List (Op A)} {s : Str} {es : List (Ev A)} :
    Derives (.cls S ops) s es ↔ ∃ b, S.has b = true ∧ s = [b] ∧ es = ops.map (Op.on b) :=
  ⟨fun h => by cases h with | cls h => exact ⟨_, h, rfl, rfl⟩,
   fun ⟨b, h, h1, h2⟩ => by subst h1 h2; exact .cls h⟩

theorem derives_seq {g h : Gram A} {s : Str} {es : List (Ev A)} :
    Derives (.seq g h) s es ↔ ∃ s1 s2 e1 e2, s = s1 ++ s2 ∧ es = e1 ++ e2 ∧ Derives g s1 e1 ∧
      Derives h s2 e2 :=
  ⟨fun h => by cases h with | seq h1 h2 => exact ⟨_, _, _, _, rfl, rfl, h1, h2⟩,
   fun ⟨s1, s2, e1, e2, h1, h2, h3, h4⟩ => by subst h1 h2; exact .seq h3 h4⟩

theorem derives_alt {g h : Gram A} {s : Str} {es : List (Ev A)} :
    Derives (.alt g h) s es ↔ Derives g s es ∨ Derives h s es :=
  ⟨fun h => by
    cases h with
    | altL h => exact Or.inl h
    | altR h => exact Or.inr h,
   fun h => h.elim .altL .altR⟩

theorem derives_star {g : Gram A} {s : Str} {es : List (Ev A)} :
    Derives (.star g) s es ↔ (s = [] ∧ es = []) ∨ ∃ s1 s2 e1 e2, s = s1 ++ s2 ∧ es = e1 ++ e2 ∧
      Derives g s1 e1 ∧ Derives (.star g) s2 e2 := by
  constructor
  · intro h
    cases h with
    | starNil => exact Or.inl ⟨rfl, rfl⟩
    | starCons h1 h2 => exact Or.inr ⟨_, _, _, _, rfl, rfl, h1, h2⟩
  · rintro (⟨rfl, rfl⟩ | ⟨s1, s2, e1, e2, rfl, rfl, h1, h2⟩)
    · exact .starNil
    · exact .starCons h1 h2

theorem derivesS_nil {s : Str} {es : List (Ev A)} : DerivesS [] s es ↔ s = [] ∧ es = [] :=
  ⟨fun h => by cases h; exact ⟨rfl, rfl⟩, fun ⟨h1, h2⟩ => by subst h1 h2; exact .nil⟩

theorem derivesS_cons {g : Gram A} {gs : List (Gram A)} {s : Str} {es : List (Ev A)} :
    DerivesS (g :: gs) s es ↔ ∃ s1 s2 e1 e2, s = s1 ++ s2 ∧ es = e1 ++ e2 ∧ Derives g s1 e1 ∧
      DerivesS gs s2 e2 :=
  ⟨fun h => by cases h with | cons h1 h2 => exact ⟨_, _, _, _, rfl, rfl, h1, h2⟩,
   fun ⟨s1, s2, e1, e2, h1, h2, h3, h4⟩ => by subst h1 h2; exact .cons h3 h4⟩

theorem derivesS_append {gs hs : List (Gram A)} {s : Str} {es : List (Ev A)} :
    DerivesS (gs ++ hs) s es ↔ ∃ s1 s2 e1 e2, s = s1 ++ s2 ∧ es = e1 ++ e2 ∧ DerivesS gs s1 e1 ∧
      DerivesS hs s2 e2 := by
  induction gs generalizing s es with
  | nil =>
    simp only [List.nil_append, derivesS_nil]
    constructor
    · intro h; exact ⟨[], s, [], es, rfl, rfl, ⟨rfl, rfl⟩, h⟩
    · rintro ⟨_, _, _, _, rfl, rfl, ⟨rfl, rfl⟩, h⟩; exact h
  | cons g gs ih =>
    simp only [List.cons_append, derivesS_cons, ih]
    constructor
    · rintro ⟨s1, _, e1, _, rfl, rfl, h1, s2, s3, e2, e3, rfl, rfl, h2, h3⟩
      exact ⟨s1 ++ s2, s3, e1 ++ e2, e3, by simp, by simp, ⟨s1, s2, e1, e2, rfl, rfl, h1, h2⟩, h3⟩
    · rintro ⟨_, s3, _, e3, rfl, rfl, ⟨s1, s2, e1, e2, rfl, rfl, h1, h2⟩, h3⟩
      exact ⟨s1, s2 ++ s3, e1, e2 ++ e3, by simp, by simp, h1, s2, s3, e2, e3, rfl, rfl, h2, h3⟩

theorem derivesS_one {g : Gram A} {s : Str} {es : List (Ev A)} :
    DerivesS [g] s es ↔ Derives g s es := by
  rw [derivesS_cons]
  constructor
  · rintro ⟨s1, s2, e1, e2, rfl, rfl, h1, h2⟩
    obtain ⟨rfl, rfl⟩ := derivesS_nil.mp h2
    simpa using h1
  · intro h
    exact ⟨s, [], es, [], by simp, by simp, h, .nil⟩

theorem null_iff {g : Gram A} (hw : g.wf = true) {es : List (Ev A)} :
    Derives g [] es ↔ ∃ as ∈ g.null, es = as.map .act := by
  induction g generalizing es with
  | eps => simp [derives_eps, Gram.null]
  | act a => simp [derives_act, Gram.null]
  | cls S ops => simp [derives_cls, Gram.null]
  | seq g h ihg ihh =>
    simp only [Gram.wf, Bool.and_eq_true] at hw
    rw [derives_seq]
    simp only [Gram.null, List.mem_flatMap, List.mem_map]
    constructor
    · rintro ⟨s1, s2, e1, e2, h0, rfl, h1, h2⟩
      obtain ⟨rfl, rfl⟩ := List.append_eq_nil_iff.mp h0.symm
      obtain ⟨x, hx, rfl⟩ := (ihg hw.1).mp h1
      obtain ⟨y, hy, rfl⟩ := (ihh hw.2).mp h2
      exact ⟨x ++ y, ⟨x, hx, y, hy, rfl⟩, by simp⟩
    · rintro ⟨_, ⟨x, hx, y, hy, rfl⟩, rfl⟩
      exact ⟨[], [], x.map .act, y.map .act, rfl, by simp, (ihg hw.1).mpr ⟨x, hx, rfl⟩,
        (ihh hw.2).mpr ⟨y, hy, rfl⟩⟩
  | alt g h ihg ihh =>
    simp only [Gram.wf, Bool.and_eq_true] at hw
    rw [derives_alt, ihg hw.1, ihh hw.2]
    simp only [Gram.null, List.mem_append]
    constructor
    · rintro (⟨x, hx, rfl⟩ | ⟨x, hx, rfl⟩)
      · exact ⟨x, Or.inl hx, rfl⟩
      · exact ⟨x, Or.inr hx, rfl⟩
    · rintro ⟨x, hx | hx, rfl⟩
      · exact Or.inl ⟨x, hx, rfl⟩
      · exact Or.inr ⟨x, hx, rfl⟩
  | star g ih =>
    simp only [Gram.wf, Bool.and_eq_true, List.isEmpty_iff] at hw
    rw [derives_star]
    simp only [Gram.null, List.mem_singleton, exists_eq_left, List.map_nil]
    constructor
    · rintro (⟨_, rfl⟩ | ⟨s1, s2, e1, e2, h0, rfl, h1, h2⟩)
      · rfl
      · obtain ⟨rfl, rfl⟩ := List.append_eq_nil_iff.mp h0.symm
        obtain ⟨x, hx, _⟩ := (ih hw.1).mp h1
        rw [hw.2] at hx
        cases hx
    · rintro rfl
      exact Or.inl ⟨trivial, rfl⟩

/-- `l` matches `b :: s` with `es`. -/
def Lin.Matches (l : Lin A) (b : UInt8) (s : Str) (es : List (Ev A)) : Prop :=
  l.set.has b = true ∧ ∃ es', DerivesS l.cont s es' ∧ es = l.ops.map (Op.on b) ++ es'

theorem matches_pre {as : List A} {l : Lin A} {b : UInt8} {s : Str} {es : List (Ev A)} :
    (l.pre as).Matches b s es ↔ ∃ es', l.Matches b s es' ∧ es = as.map .act ++ es' := by
  have hmap : (as.map Op.act).map (Op.on b) = as.map Ev.act := by
    simp [Function.comp_def, Op.on]
  unfold Lin.Matches Lin.pre
  simp only [List.map_append, hmap]
  constructor
  · rintro ⟨h1, es', h2, rfl⟩
    exact ⟨_, ⟨h1, es', h2, rfl⟩, by simp⟩
  · rintro ⟨_, ⟨h1, es', h2, rfl⟩, rfl⟩
    exact ⟨h1, es', h2, by simp⟩

theorem matches_post {gs : List (Gram A)} {l : Lin A} {b : UInt8} {s : Str} {es : List (Ev A)} :
    (l.post gs).Matches b s es ↔ ∃ s1 s2 e1 e2, s = s1 ++ s2 ∧ es = e1 ++ e2 ∧ l.Matches b s1 e1 ∧
      DerivesS gs s2 e2 := by
  unfold Lin.Matches Lin.post
  simp only [derivesS_append]
  constructor
  · rintro ⟨h1, _, ⟨s1, s2, e1, e2, rfl, rfl, h2, h3⟩, rfl⟩
    exact ⟨s1, s2, _, e2, rfl, (List.append_assoc _ _ _).symm, ⟨h1, e1, h2, rfl⟩, h3⟩
  · rintro ⟨s1, s2, _, e2, rfl, rfl, ⟨h1, e1, h2, rfl⟩, h3⟩
    exact ⟨h1, e1 ++ e2, ⟨s1, s2, e1, e2, rfl, rfl, h2, h3⟩, List.append_assoc _ _ _⟩

theorem lf_iff {g : Gram A} (hw : g.wf = true) {b : UInt8} {s : Str} {es : List (Ev A)} :
    Derives g (b :: s) es ↔ ∃ l ∈ g.lf, l.Matches b s es := by
  induction g generalizing s es with
  | eps => simp [derives_eps, Gram.lf]
  | act a => simp [derives_act, Gram.lf]
  | cls S ops =>
    simp only [derives_cls, Gram.lf, List.mem_singleton, exists_eq_left, Lin.Matches, derivesS_nil]
    constructor
    · rintro ⟨b', h, h1, rfl⟩
      obtain ⟨rfl, rfl⟩ := List.cons.inj h1
      exact ⟨h, [], by simp, by simp⟩
    · rintro ⟨h, _, ⟨rfl, rfl⟩, rfl⟩
      exact ⟨b, h, rfl, by simp⟩
  | seq g h ihg ihh =>
    simp only [Gram.wf, Bool.and_eq_true] at hw
    rw [derives_seq]
    simp only [Gram.lf, List.mem_append, List.mem_flatMap, List.mem_map]
    constructor
    · rintro ⟨s1, s2, e1, e2, h0, rfl, h1, h2⟩
      cases s1 with
      | nil =>
        obtain ⟨as, has, rfl⟩ := (null_iff hw.1).mp h1
        rw [List.nil_append] at h0
        rw [← h0] at h2
        obtain ⟨l, hl, hm⟩ := (ihh hw.2).mp h2
        exact ⟨l.pre as, Or.inr ⟨as, has, l, hl, rfl⟩, matches_pre.mpr ⟨_, hm, rfl⟩⟩
      | cons b' s1 =>
        rw [List.cons_append] at h0
        obtain ⟨rfl, rfl⟩ := List.cons.inj h0
        obtain ⟨l, hl, hm⟩ := (ihg hw.1).mp h1
        exact ⟨l.post [h], Or.inl ⟨l, hl, rfl⟩,
          matches_post.mpr ⟨s1, s2, e1, e2, rfl, rfl, hm, derivesS_one.mpr h2⟩⟩
    · rintro ⟨_, ⟨l, hl, rfl⟩ | ⟨as, has, l, hl, rfl⟩, hm⟩
      · obtain ⟨s1, s2, e1, e2, rfl, rfl, h1, h2⟩ := matches_post.mp hm
        exact ⟨b :: s1, s2, e1, e2, rfl, rfl, (ihg hw.1).mpr ⟨l, hl, h1⟩, derivesS_one.mp h2⟩
      · obtain ⟨es', h1, rfl⟩ := matches_pre.mp hm
        exact ⟨[], b :: s, as.map .act, es', rfl, rfl, (null_iff hw.1).mpr ⟨as, has, rfl⟩,
          (ihh hw.2).mpr ⟨l, hl, h1⟩⟩
  | alt g h ihg ihh =>
    simp only [Gram.wf, Bool.and_eq_true] at hw
    rw [derives_alt, ihg hw.1, ihh hw.2]
    simp only [Gram.lf, List.mem_append]
    constructor
    · rintro (⟨l, hl, h⟩ | ⟨l, hl, h⟩)
      · exact ⟨l, Or.inl hl, h⟩
      · exact ⟨l, Or.inr hl, h⟩
    · rintro ⟨l, hl | hl, h⟩
      · exact Or.inl ⟨l, hl, h⟩
      · exact Or.inr ⟨l, hl, h⟩
  | star g ih =>
    simp only [Gram.wf, Bool.and_eq_true, List.isEmpty_iff] at hw
    rw [derives_star]
    simp only [Gram.lf, List.mem_map]
    constructor
    · rintro (⟨h, _⟩ | ⟨s1, s2, e1, e2, h0, rfl, h1, h2⟩)
      · cases h
      · cases s1 with
        | nil =>
          obtain ⟨x, hx, _⟩ := (null_iff hw.1).mp h1
          rw [hw.2] at hx
          cases hx
        | cons b' s1 =>
          rw [List.cons_append] at h0
          obtain ⟨rfl, rfl⟩ := List.cons.inj h0
          obtain ⟨l, hl, hm⟩ := (ih hw.1).mp h1
          exact ⟨_, ⟨l, hl, rfl⟩,
            matches_post.mpr ⟨s1, s2, e1, e2, rfl, rfl, hm, derivesS_one.mpr h2⟩⟩
    · rintro ⟨_, ⟨l, hl, rfl⟩, hm⟩
      obtain ⟨s1, s2, e1, e2, rfl, rfl, h1, h2⟩ := matches_post.mp hm
      exact Or.inr ⟨b :: s1, s2, e1, e2, rfl, rfl, (ih hw.1).mpr ⟨l, hl, h1⟩, derivesS_one.mp h2⟩

/-- All grammars of a sequence are well formed. -/
def wfS (gs : List (Gram A)) : Bool := gs.all Gram.wf

theorem nullS_iff {gs : List (Gram A)} (hw : wfS gs = true) {es : List (Ev A)} :
    DerivesS gs [] es ↔ ∃ as ∈ nullS gs, es = as.map .act := by
  induction gs generalizing es with
  | nil => simp [derivesS_nil, nullS]
  | cons g gs ih =>
    simp only [wfS, List.all_cons, Bool.and_eq_true] at hw
    rw [derivesS_cons]
    simp only [nullS, List.mem_flatMap, List.mem_map]
    constructor
    · rintro ⟨s1, s2, e1, e2, h0, rfl, h1, h2⟩
      obtain ⟨rfl, rfl⟩ := List.append_eq_nil_iff.mp h0.symm
      obtain ⟨x, hx, rfl⟩ := (null_iff hw.1).mp h1
      obtain ⟨y, hy, rfl⟩ := (ih hw.2).mp h2
      exact ⟨x ++ y, ⟨x, hx, y, hy, rfl⟩, by simp⟩
    · rintro ⟨_, ⟨x, hx, y, hy, rfl⟩, rfl⟩
      exact ⟨[], [], x.map .act, y.map .act, rfl, by simp, (null_iff hw.1).mpr ⟨x, hx, rfl⟩,
        (ih hw.2).mpr ⟨y, hy, rfl⟩⟩

theorem lfS_iff {gs : List (Gram A)} (hw : wfS gs = true) {b : UInt8} {s : Str} {es : List (Ev A)} :
    DerivesS gs (b :: s) es ↔ ∃ l ∈ lfS gs, l.Matches b s es := by
  induction gs generalizing s es with
  | nil => simp [derivesS_nil, lfS]
  | cons g gs ih =>
    simp only [wfS, List.all_cons, Bool.and_eq_true] at hw
    rw [derivesS_cons]
    simp only [lfS, List.mem_append, List.mem_flatMap, List.mem_map]
    constructor
    · rintro ⟨s1, s2, e1, e2, h0, rfl, h1, h2⟩
      cases s1 with
      | nil =>
        obtain ⟨as, has, rfl⟩ := (null_iff hw.1).mp h1
        rw [List.nil_append] at h0
        rw [← h0] at h2
        obtain ⟨l, hl, hm⟩ := (ih hw.2).mp h2
        exact ⟨l.pre as, Or.inr ⟨as, has, l, hl, rfl⟩, matches_pre.mpr ⟨_, hm, rfl⟩⟩
      | cons b' s1 =>
        rw [List.cons_append] at h0
        obtain ⟨rfl, rfl⟩ := List.cons.inj h0
        obtain ⟨l, hl, hm⟩ := (lf_iff hw.1).mp h1
        exact ⟨l.post gs, Or.inl ⟨l, hl, rfl⟩,
          matches_post.mpr ⟨s1, s2, e1, e2, rfl, rfl, hm, h2⟩⟩
    · rintro ⟨_, ⟨l, hl, rfl⟩ | ⟨as, has, l, hl, rfl⟩, hm⟩
      · obtain ⟨s1, s2, e1, e2, rfl, rfl, h1, h2⟩ := matches_post.mp hm
        exact ⟨b :: s1, s2, e1, e2, rfl, rfl, (lf_iff hw.1).mpr ⟨l, hl, h1⟩, h2⟩
      · obtain ⟨es', h1, rfl⟩ := matches_pre.mp hm
        exact ⟨[], b :: s, as.map .act, es', rfl, rfl, (null_iff hw.1).mpr ⟨as, has, rfl⟩,
          (ih hw.2).mpr ⟨l, hl, h1⟩⟩

end Verif.Ragel
