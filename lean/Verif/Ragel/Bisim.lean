import Verif.Ragel.Gram

/-!
# A checked certificate that a machine implements a grammar

The certificate lists the sequences of grammars (`stacks`) that can remain to be matched, with their
linear forms (as indices into the list), and pairs of machine state and set of stacks. `check_sound`
proves that a certificate that passes the checks makes the machine's trace and the grammar's
derivations the same thing, for every input.
-/

namespace Verif.Ragel
open Verif

variable {A : Type}

/-- A linear form whose continuation is the number of a stack. -/
structure NLin (A : Type) where
  set : Cls
  ops : List (Op A)
  next : Nat

/-- Stack number `j`. -/
def stackAt (T : List (List (Gram A))) (j : Nat) : List (Gram A) :=
  match T[j]? with
  | some gs => gs
  | none => []

/-- Resolve a continuation number. -/
def NLin.resolve (T : List (List (Gram A))) (l : NLin A) : Lin A := ⟨l.set, l.ops, stackAt T l.next⟩

/-- A machine state, the stacks that can remain there, and for intervals of bytes the entry the
next byte leads to. -/
structure Entry where
  state : Nat
  items : List Nat
  segs : List (Nat × Nat × Nat)

/-- Element `i`. -/
def rowAt {X : Type} (L : List (List X)) (i : Nat) : List X :=
  match L[i]? with
  | some l => l
  | none => []

/-- The interval `lo..hi` is covered by the (sorted) segments. -/
def cover : List (Nat × Nat × Nat) → Nat → Nat → Bool
  | [], lo, hi => Nat.blt hi lo
  | (a, b, _) :: rest, lo, hi =>
    Nat.blt hi lo || bif Nat.blt b lo then cover rest lo hi else Nat.ble a lo && cover rest (b + 1) hi

/-- The set contains all of `lo..hi`. -/
def Cls.contains (S : Cls) (lo hi : Nat) : Bool := S.any (fun i => Nat.ble i.1 lo && Nat.ble hi i.2)

/-- The set contains nothing of `lo..hi`. -/
def Cls.misses (S : Cls) (lo hi : Nat) : Bool := S.all (fun i => Nat.blt hi i.1 || Nat.blt i.2 lo)

variable [DecidableEq A]

/-- One segment of an entry. -/
def checkSeg (lins : List (List (NLin A))) (E : List Entry) (rules : List (Rule A))
    (items : List Nat) (seg : Nat × Nat × Nat) : Bool :=
  match rules.find? (fun r => !(Nat.blt seg.2.1 r.lo || Nat.blt r.hi seg.1)), E[seg.2.2]? with
  | some r, some e' =>
    Nat.ble r.lo seg.1 && Nat.ble seg.2.1 r.hi && Nat.beq r.target e'.state &&
    items.all (fun i => (rowAt lins i).all (fun l =>
      l.set.misses seg.1 seg.2.1 ||
      (l.set.contains seg.1 seg.2.1 && decide (l.ops = r.ops) && e'.items.any (Nat.beq l.next)))) &&
    e'.items.all (fun j => items.any (fun i => (rowAt lins i).any (fun l =>
      Nat.beq l.next j && l.set.contains seg.1 seg.2.1)))
  | _, _ => false

/-- One entry. -/
def checkEntry (M : Machine A) (lins : List (List (NLin A))) (nulls : List (List (List A)))
    (E : List Entry) (e : Entry) : Bool :=
  match M.rows[e.state]? with
  | none => false
  | some row =>
    (bif Nat.blt e.state M.firstFinal then e.items.all (fun i => (rowAt nulls i).isEmpty)
     else e.items.all (fun i => (rowAt nulls i).all (fun as => decide (as = row.eof))) &&
       e.items.any (fun i => !(rowAt nulls i).isEmpty)) &&
    e.segs.all (checkSeg lins E row.rules e.items) &&
    row.rules.all (fun r => cover e.segs r.lo r.hi) &&
    e.items.all (fun i => (rowAt lins i).all (fun l => l.set.all (fun iv => cover e.segs iv.1 iv.2)))

/-- The certificate for the grammar part. -/
structure NfaOk (T : List (List (Gram A))) (lins : List (List (NLin A)))
    (nulls : List (List (List A))) : Prop where
  wf : T.all wfS = true
  lf : T.map lfS = lins.map (fun ls => ls.map (NLin.resolve T))
  null : T.map nullS = nulls

theorem blt_false {a b : Nat} (h : ¬ a < b) : Nat.blt a b = false := by
  rw [← Bool.not_eq_true, Nat.blt_eq]
  exact h

theorem cover_sound {segs : List (Nat × Nat × Nat)} {lo hi x : Nat} (h : cover segs lo hi = true)
    (h1 : lo ≤ x) (h2 : x ≤ hi) : ∃ seg ∈ segs, seg.1 ≤ x ∧ x ≤ seg.2.1 := by
  induction segs generalizing lo with
  | nil =>
    simp only [cover, Nat.blt_eq] at h
    omega
  | cons seg segs ih =>
    obtain ⟨a, b, n⟩ := seg
    simp only [cover, Bool.or_eq_true, Nat.blt_eq] at h
    rcases h with h | h
    · omega
    · by_cases hb : b < lo
      · have : Nat.blt b lo = true := by simpa using hb
        rw [this] at h
        obtain ⟨s, hs, h3⟩ := ih (lo := lo) h h1
        exact ⟨s, List.mem_cons_of_mem _ hs, h3⟩
      · have : Nat.blt b lo = false := blt_false hb
        rw [this] at h
        simp only [cond_false, Bool.and_eq_true, Nat.ble_eq] at h
        by_cases hx : x ≤ b
        · exact ⟨(a, b, n), List.mem_cons_self .., by simp; omega, hx⟩
        · obtain ⟨s, hs, h3⟩ := ih (lo := b + 1) h.2 (by omega)
          exact ⟨s, List.mem_cons_of_mem _ hs, h3⟩

theorem Cls.has_iff {S : Cls} {b : UInt8} :
    S.has b = true ↔ ∃ i ∈ S, i.1 ≤ b.toNat ∧ b.toNat ≤ i.2 := by
  simp [Cls.has]

theorem Cls.has_of_contains {S : Cls} {lo hi : Nat} {b : UInt8} (h : S.contains lo hi = true)
    (h1 : lo ≤ b.toNat) (h2 : b.toNat ≤ hi) : S.has b = true := by
  simp only [Cls.contains, List.any_eq_true, Bool.and_eq_true, Nat.ble_eq] at h
  obtain ⟨i, hi, h3, h4⟩ := h
  exact Cls.has_iff.mpr ⟨i, hi, by omega, by omega⟩

theorem Cls.not_has_of_misses {S : Cls} {lo hi : Nat} {b : UInt8} (h : S.misses lo hi = true)
    (h1 : lo ≤ b.toNat) (h2 : b.toNat ≤ hi) : S.has b = false := by
  simp only [Cls.misses, List.all_eq_true, Bool.or_eq_true, Nat.blt_eq] at h
  by_contra hc
  obtain ⟨i, hi, h3, h4⟩ := Cls.has_iff.mp (by simpa using hc)
  have := h i hi
  omega

omit [DecidableEq A] in
theorem rowAt_lins {T : List (List (Gram A))} {lins : List (List (NLin A))}
    {nulls : List (List (List A))} (hN : NfaOk T lins nulls) (i : Nat) :
    lfS (stackAt T i) = (rowAt lins i).map (NLin.resolve T) := by
  have h := congrArg (fun l => l[i]?) hN.lf
  simp only [List.getElem?_map] at h
  unfold stackAt rowAt
  cases hT : T[i]? with
  | none =>
    cases hl : lins[i]? with
    | none => rfl
    | some l => rw [hT, hl] at h; simp at h
  | some gs =>
    cases hl : lins[i]? with
    | none => rw [hT, hl] at h; simp at h
    | some l => rw [hT, hl] at h; simpa using h

omit [DecidableEq A] in
theorem rowAt_nulls {T : List (List (Gram A))} {lins : List (List (NLin A))}
    {nulls : List (List (List A))} (hN : NfaOk T lins nulls) {i : Nat} {n : Nat} (hi : T.length = n)
    (h : i < n) : nullS (stackAt T i) = rowAt nulls i := by
  rw [← hN.null]
  unfold stackAt rowAt
  simp only [List.getElem?_map]
  rw [List.getElem?_eq_getElem (by omega)]
  simp

omit [DecidableEq A] in
theorem wf_stackAt {T : List (List (Gram A))} {lins : List (List (NLin A))}
    {nulls : List (List (List A))} (hN : NfaOk T lins nulls) (i : Nat) : wfS (stackAt T i) = true := by
  unfold stackAt
  cases hT : T[i]? with
  | none => rfl
  | some gs => exact List.all_eq_true.mp hN.wf gs (List.mem_of_getElem? hT)

/-- All item numbers are in range. -/
def itemsOk (E : List Entry) (n : Nat) : Bool := E.all (fun e => e.items.all (fun i => Nat.blt i n))

/-- A certificate that passes: machine and grammar agree. -/
theorem check_sound {M : Machine A} {T : List (List (Gram A))} {lins : List (List (NLin A))}
    {nulls : List (List (List A))} (hN : NfaOk T lins nulls) {E : List Entry} {n : Nat}
    (hn : T.length = n) (hI : itemsOk E n = true) (hE : E.all (checkEntry M lins nulls E) = true)
    (s : Str) {e : Entry} (he : e ∈ E) (es : List (Ev A)) :
    M.trace e.state s = some es ↔ ∃ i ∈ e.items, DerivesS (stackAt T i) s es := by
  induction s generalizing e es with
  | nil =>
    have hc := List.all_eq_true.mp hE e he
    have hi : ∀ i ∈ e.items, nullS (stackAt T i) = rowAt nulls i := by
      intro i hi
      have := List.all_eq_true.mp (List.all_eq_true.mp hI e he) i hi
      exact rowAt_nulls hN hn (by simpa using this)
    unfold checkEntry at hc
    cases hrow : M.rows[e.state]? with
    | none => rw [hrow] at hc; cases hc
    | some row =>
      rw [hrow] at hc
      simp only [Bool.and_eq_true] at hc
      obtain ⟨⟨⟨hc, _⟩, _⟩, _⟩ := hc
      simp only [Machine.trace, Machine.eofActs, hrow]
      by_cases hq : e.state < M.firstFinal
      · have : Nat.blt e.state M.firstFinal = true := by simpa using hq
        rw [this] at hc
        simp only [cond_true, List.all_eq_true, List.isEmpty_iff] at hc
        simp only [hq, if_true, reduceCtorEq, false_iff, not_exists, not_and]
        intro i him hd
        obtain ⟨as, has, _⟩ := (nullS_iff (wf_stackAt hN i)).mp hd
        rw [hi i him, hc i him] at has
        cases has
      · have : Nat.blt e.state M.firstFinal = false := blt_false hq
        rw [this] at hc
        simp only [cond_false, Bool.and_eq_true, List.all_eq_true, List.any_eq_true,
          decide_eq_true_eq] at hc
        simp only [hq, if_false, Option.some.injEq]
        constructor
        · rintro rfl
          obtain ⟨i, him, hne⟩ := hc.2
          cases hr : rowAt nulls i with
          | nil => rw [hr] at hne; simp at hne
          | cons as rest =>
            refine ⟨i, him, (nullS_iff (wf_stackAt hN i)).mpr ⟨as, by rw [hi i him, hr]; simp, ?_⟩⟩
            rw [hc.1 i him as (by rw [hr]; simp)]
        · rintro ⟨i, him, hd⟩
          obtain ⟨as, has, rfl⟩ := (nullS_iff (wf_stackAt hN i)).mp hd
          rw [hi i him] at has
          rw [hc.1 i him as has]
  | cons b s ih =>
    have hc := List.all_eq_true.mp hE e he
    unfold checkEntry at hc
    cases hrow : M.rows[e.state]? with
    | none => rw [hrow] at hc; cases hc
    | some row =>
      rw [hrow] at hc
      simp only [Bool.and_eq_true] at hc
      obtain ⟨⟨⟨_, hsegs⟩, hrules⟩, hlins⟩ := hc
      simp only [Machine.trace, Machine.next, hrow]
      by_cases hseg : ∃ seg ∈ e.segs, seg.1 ≤ b.toNat ∧ b.toNat ≤ seg.2.1
      · obtain ⟨seg, hsm, hb1, hb2⟩ := hseg
        have hcs := List.all_eq_true.mp hsegs seg hsm
        unfold checkSeg at hcs
        split at hcs
        · rename_i r e' hr hE'
          simp only [Bool.and_eq_true, Nat.ble_eq, Nat.beq_eq] at hcs
          obtain ⟨⟨⟨⟨h1, h2⟩, h3⟩, h4⟩, h5⟩ := hcs
          have hfind : row.rules.find? (fun r => r.has b) = some r := by
            obtain ⟨_, as, bs, hab, has⟩ := List.find?_eq_some_iff_append.mp hr
            rw [List.find?_eq_some_iff_append]
            refine ⟨?_, as, bs, hab, ?_⟩
            · simp only [Rule.has, Bool.and_eq_true, Nat.ble_eq]; omega
            · intro a ha
              have := has a ha
              simp only [Bool.not_not, Bool.or_eq_true, Nat.blt_eq] at this
              simp only [Rule.has, Bool.not_eq_true', Bool.and_eq_false_iff]
              rcases this with h | h
              · left
                by_contra hcon
                simp only [Bool.not_eq_false, Nat.ble_eq] at hcon
                omega
              · right
                by_contra hcon
                simp only [Bool.not_eq_false, Nat.ble_eq] at hcon
                omega
          rw [hfind]
          have he' : e' ∈ E := List.mem_of_getElem? hE'
          simp only [Option.map_eq_some_iff]
          rw [h3]
          constructor
          · rintro ⟨es', ht, rfl⟩
            obtain ⟨j, hj, hd⟩ := (ih he' es').mp ht
            have := List.all_eq_true.mp h5 j hj
            simp only [List.any_eq_true, Bool.and_eq_true, Nat.beq_eq] at this
            obtain ⟨i, him, l, hl, hlj, hlc⟩ := this
            refine ⟨i, him, (lfS_iff (wf_stackAt hN i)).mpr ?_⟩
            rw [rowAt_lins hN i]
            refine ⟨l.resolve T, List.mem_map.mpr ⟨l, hl, rfl⟩,
              Cls.has_of_contains hlc hb1 hb2, es', by subst hlj; exact hd, ?_⟩
            have := List.all_eq_true.mp (List.all_eq_true.mp h4 i him) l hl
            simp only [Bool.or_eq_true, Bool.and_eq_true, decide_eq_true_eq] at this
            rcases this with h | h
            · have c1 := Cls.has_of_contains hlc hb1 hb2
              have c2 := Cls.not_has_of_misses h hb1 hb2
              rw [c1] at c2; cases c2
            · show r.ops.map (Op.on b) ++ es' = l.ops.map (Op.on b) ++ es'
              rw [h.1.2]
          · rintro ⟨i, him, hd⟩
            obtain ⟨l', hl', hm⟩ := (lfS_iff (wf_stackAt hN i)).mp hd
            rw [rowAt_lins hN i] at hl'
            obtain ⟨l, hl, rfl⟩ := List.mem_map.mp hl'
            obtain ⟨hb, es', hd', rfl⟩ := hm
            have := List.all_eq_true.mp (List.all_eq_true.mp h4 i him) l hl
            simp only [Bool.or_eq_true, Bool.and_eq_true, decide_eq_true_eq, List.any_eq_true,
              Nat.beq_eq] at this
            rcases this with h | ⟨⟨_, h6⟩, j, hj, hlj⟩
            · have c2 := Cls.not_has_of_misses h hb1 hb2
              have : l.set.has b = true := hb
              rw [this] at c2; cases c2
            · refine ⟨es', (ih he' es').mpr ⟨j, hj, by subst hlj; exact hd'⟩, ?_⟩
              show r.ops.map (Op.on b) ++ es' = l.ops.map (Op.on b) ++ es'
              rw [h6]
        · cases hcs
      · have hnone : row.rules.find? (fun r => r.has b) = none := by
          rw [List.find?_eq_none]
          intro r hr hb
          simp only [Rule.has, Bool.and_eq_true, Nat.ble_eq] at hb
          exact hseg (cover_sound (List.all_eq_true.mp hrules r hr) hb.1 hb.2)
        rw [hnone]
        simp only [reduceCtorEq, false_iff, not_exists, not_and]
        intro i him hd
        obtain ⟨l', hl', hm⟩ := (lfS_iff (wf_stackAt hN i)).mp hd
        rw [rowAt_lins hN i] at hl'
        obtain ⟨l, hl, rfl⟩ := List.mem_map.mp hl'
        obtain ⟨hb, _⟩ := hm
        obtain ⟨iv, hiv, h1, h2⟩ := Cls.has_iff.mp hb
        have := List.all_eq_true.mp (List.all_eq_true.mp (List.all_eq_true.mp hlins i him) l hl) iv hiv
        exact hseg (cover_sound this h1 h2)

end Verif.Ragel
