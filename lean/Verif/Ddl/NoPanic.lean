import Verif.Ddl.Parse

/-!
# The parsers do not panic: lemmas
-/

namespace Verif.Ddl
open Verif Verif.Ragel

theorem doAll_total {A μ : Type} {step : Nat → μ → Ev A → Option μ} (h : ∀ p m e, step p m e ≠ none)
    (p : Nat) (m : μ) (es : List (Ev A)) : doAll step p m es ≠ none := by
  induction es generalizing m with
  | nil => simp [doAll]
  | cons e es ih =>
    simp only [doAll]
    cases hs : step p m e with
    | none => exact absurd hs (h p m e)
    | some m' => exact ih m'

theorem exec_total {A μ : Type} {M : Machine A} {step : Nat → μ → Ev A → Option μ}
    (h : ∀ p m e, step p m e ≠ none) (q p : Nat) (m : μ) (s : Str) :
    M.exec step q p m s ≠ .panic := by
  induction s generalizing q p m with
  | nil =>
    simp only [Machine.exec]
    cases hd : doAll step p m ((M.eofActs q).map .act) with
    | none => exact absurd hd (doAll_total h _ _ _)
    | some m' => simp only; split <;> simp
  | cons b s ih =>
    simp only [Machine.exec]
    cases M.next q b with
    | none => simp
    | some r =>
      simp only
      cases hd : doAll step p m (r.ops.map (Op.on b)) with
      | none => exact absurd hd (doAll_total h _ _ _)
      | some m' => exact ih _ _ _

theorem parseForeignKey_total (s : Str) : parseForeignKey s ≠ .panic := by
  have h := exec_total (M := foreignKeyMachine) (step := fkStep)
    (by intro p m e; cases e with
      | push b => simp [fkStep]
      | act a => cases a <;> simp [fkStep]) foreignKeyMachine.start 0 {} s
  unfold parseForeignKey
  split <;> simp_all

theorem parseTrigger_total (s : Str) : parseTrigger s ≠ .panic := by
  have h := exec_total (M := triggerMachine) (step := triggerStep)
    (by intro p m e; cases e with
      | push b => simp [triggerStep]
      | act a => cases a <;> simp [triggerStep]) triggerMachine.start 0 {} s
  unfold parseTrigger
  split <;> simp_all

/-! ## ParseIndex: an operator class comes after a key -/

/-- Whether there is a key after the operations; `none` if an operator class is set without one. -/
def keyed (k : Bool) : List IndexAct → Option Bool
  | [] => some k
  | .addColumn :: as => keyed true as
  | .addExpression :: as => keyed true as
  | .setOpClass :: as => if k then keyed k as else none
  | _ :: as => keyed k as

/-- The non-buffer operations. -/
def acts : List (Op IndexAct) → List IndexAct
  | [] => []
  | .push :: r => acts r
  | .act a :: r => a :: acts r

/-- The states that can be reached without a key. -/
def unkeyed : List Nat :=
  [1, 2, 3, 4, 5, 6, 7, 8, 9, 46, 10, 47, 11, 48, 12, 49, 13, 50, 14, 51, 15, 52, 16, 17, 18, 19, 20, 21, 22,
   38, 23, 37, 39, 24, 40, 25, 41, 42, 43, 44, 45]

/-- Whether a rule keeps the invariant. -/
def ruleOk (q : Nat) (r : Rule IndexAct) : Bool :=
  match keyed (!unkeyed.contains q) (acts r.ops) with
  | none => false
  | some k => k || unkeyed.contains r.target

/-- Whether the rules and EOF actions of a state keep the invariant. -/
def rowOk (q : Nat) : Bool :=
  match indexMachine.rows[q]? with
  | none => true
  | some row => row.rules.all (ruleOk q) && (keyed (!unkeyed.contains q) row.eof).isSome

theorem rules_ok : ∀ q < indexMachine.rows.length, rowOk q = true := by decide +kernel

theorem do_keyed (p : Nat) (b : UInt8) (ops : List (Op IndexAct)) (m : IndexVars) (k : Bool)
    (hk : k = true → m.index.keys ≠ []) {k' : Bool} (h : keyed k (acts ops) = some k') :
    ∃ m', doAll indexStep p m (ops.map (Op.on b)) = some m' ∧ (k' = true → m'.index.keys ≠ []) := by
  induction ops generalizing m k with
  | nil =>
    simp only [acts, keyed, Option.some.injEq] at h
    subst h
    exact ⟨m, rfl, hk⟩
  | cons o ops ih =>
    cases o with
    | push =>
      simp only [acts] at h
      exact ih _ k (by exact hk) h
    | act a =>
      simp only [acts] at h
      cases a with
      | addColumn => exact ih _ true (by simp [Index.addColumn]) h
      | addExpression => exact ih _ true (by simp [Index.addExpression]) h
      | setOpClass =>
        simp only [keyed] at h
        split at h
        · rename_i hkt
          have hne := hk hkt
          simp only [List.map_cons, Op.on, doAll, indexStep, Index.setOpClass]
          cases hl : m.index.keys.getLast? with
          | none => exact absurd (List.getLast?_eq_none_iff.mp hl) hne
          | some x => exact ih _ k (by intro _; simp) h
        · cases h
      | setName => exact ih _ k hk h
      | setTable => exact ih _ k hk h
      | setUsing => exact ih _ k hk h
      | setWhere => exact ih _ k hk h
      | matchUnique => exact ih _ k hk h

theorem acts_map (as : List IndexAct) : acts (as.map Op.act) = as := by
  induction as with
  | nil => rfl
  | cons a as ih => exact congrArg (a :: ·) ih

theorem eof_keyed (p : Nat) (as : List IndexAct) (m : IndexVars) (k : Bool)
    (hk : k = true → m.index.keys ≠ []) (h : (keyed k as).isSome = true) :
    ∃ m', doAll indexStep p m (as.map .act) = some m' := by
  obtain ⟨k', h'⟩ := Option.isSome_iff_exists.mp h
  have ha : acts (as.map Op.act) = as := acts_map as
  obtain ⟨m', h1, _⟩ := do_keyed p 0 (as.map .act) m k hk (k' := k') (by rw [ha]; exact h')
  refine ⟨m', ?_⟩
  rw [← h1, List.map_map]
  rfl

theorem exec_keyed (q p : Nat) (m : IndexVars) (s : Str)
    (hq : unkeyed.contains q = false → m.index.keys ≠ []) :
    indexMachine.exec indexStep q p m s ≠ .panic := by
  induction s generalizing q p m with
  | nil =>
    simp only [Machine.exec, Machine.eofActs]
    cases hr : indexMachine.rows[q]? with
    | none => simp only [List.map_nil, doAll]; split <;> simp
    | some row =>
      have hlt : q < indexMachine.rows.length := (List.getElem?_eq_some_iff.mp hr).1
      have h := rules_ok q hlt
      rw [rowOk, hr] at h
      simp only [Bool.and_eq_true] at h
      obtain ⟨m', hm⟩ := eof_keyed p row.eof m _ (by simpa using hq) h.2
      simp only [hm]
      split <;> simp
  | cons b s ih =>
    simp only [Machine.exec]
    cases hn : indexMachine.next q b with
    | none => simp
    | some r =>
      simp only
      rw [Machine.next] at hn
      cases hr : indexMachine.rows[q]? with
      | none => rw [hr] at hn; cases hn
      | some row =>
        rw [hr] at hn
        have hlt : q < indexMachine.rows.length := (List.getElem?_eq_some_iff.mp hr).1
        have h := rules_ok q hlt
        rw [rowOk, hr] at h
        simp only [Bool.and_eq_true, List.all_eq_true] at h
        have h1 := h.1 r (List.mem_of_find?_eq_some hn)
        unfold ruleOk at h1
        cases hk : keyed (!unkeyed.contains q) (acts r.ops) with
        | none => rw [hk] at h1; cases h1
        | some k =>
          rw [hk] at h1
          obtain ⟨m', hm, hm'⟩ := do_keyed p b r.ops m _ (by simpa using hq) hk
          rw [hm]
          refine ih _ _ _ (fun ht => hm' ?_)
          simp only [Bool.or_eq_true] at h1
          rcases h1 with h1 | h1
          · exact h1
          · rw [ht] at h1; cases h1

theorem parseIndex_total (s : Str) : parseIndex s ≠ .panic := by
  have h := exec_keyed indexMachine.start 0 {} s (by decide)
  unfold parseIndex
  split <;> simp_all

end Verif.Ddl
