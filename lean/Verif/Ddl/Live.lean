import Verif.Ddl.PointSpec
import Verif.Ddl.NoPanic
import Verif.Ddl.CheckParse
import Verif.Ddl.Certs.Live

/-!
# The error states of the parsers: lemmas
-/

namespace Verif.Ddl
open Verif Verif.Ragel

/-- The state after reading a text; `none` if it is refused. -/
def _root_.Verif.Ragel.Machine.after {A : Type} (M : Machine A) : Nat → Str → Option Nat
  | q, [] => some q
  | q, b :: s =>
    match M.next q b with
    | none => none
    | some r => M.after r.target s

theorem after_append {A : Type} (M : Machine A) (q : Nat) (s t : Str) :
    M.after q (s ++ t) = (M.after q s).bind (fun q' => M.after q' t) := by
  induction s generalizing q with
  | nil => rfl
  | cons b s ih =>
    simp only [List.cons_append, Machine.after]
    cases M.next q b with
    | none => rfl
    | some r => exact ih _

/-- How a run that does not panic ends. -/
theorem exec_after {A μ : Type} {M : Machine A} {step : Nat → μ → Ev A → Option μ} (q p : Nat) (m : μ) (s : Str)
    (h : M.exec step q p m s ≠ .panic) :
    (M.after q s = none → M.exec step q p m s = .err 0) ∧
    ∀ q', M.after q s = some q' →
      (q' < M.firstFinal → M.exec step q p m s = .err q') ∧
      (M.firstFinal ≤ q' → ∃ m', M.exec step q p m s = .ok m') := by
  induction s generalizing q p m with
  | nil =>
    simp only [Machine.exec, Machine.after] at h ⊢
    cases hd : doAll step p m ((M.eofActs q).map .act) with
    | none => rw [hd] at h; exact absurd rfl h
    | some m' =>
      refine ⟨by simp, ?_⟩
      rintro q' ⟨rfl⟩
      exact ⟨fun h => by simp [h], fun h => ⟨m', by simp [Nat.not_lt.2 h]⟩⟩
  | cons b s ih =>
    simp only [Machine.exec, Machine.after] at h ⊢
    cases hn : M.next q b with
    | none => simp
    | some r =>
      simp only [hn] at h ⊢
      cases hd : doAll step p m (r.ops.map (Op.on b)) with
      | none => rw [hd] at h; exact absurd rfl h
      | some m' =>
        simp only [hd] at h ⊢
        exact ih _ _ _ h

/-- The certificate: every rule leads to a state that is not 0, and from every such state that is not final the byte
listed leads to one nearer to the end. -/
def live {A : Type} (M : Machine A) (cert : List (UInt8 × Nat)) : Bool :=
  M.rows.all (fun row => row.rules.all fun r => Nat.blt 0 r.target && Nat.blt r.target M.rows.length) &&
  (List.range M.rows.length).all fun q => Nat.beq q 0 || Nat.ble M.firstFinal q ||
    match cert[q]? with
    | none => false
    | some (b, k) =>
      match M.next q b with
      | none => false
      | some r => Nat.ble M.firstFinal r.target ||
        match cert[r.target]? with
        | none => false
        | some (_, k') => Nat.blt k' k

theorem live_target {A : Type} {M : Machine A} {cert : List (UInt8 × Nat)} (h : live M cert = true) {q : Nat}
    {b : UInt8} {r : Rule A} (hn : M.next q b = some r) : 0 < r.target ∧ r.target < M.rows.length := by
  unfold Machine.next at hn
  cases hr : M.rows[q]? with
  | none => simp [hr] at hn
  | some row =>
    simp only [hr] at hn
    simp only [live, Bool.and_eq_true] at h
    have h3 := List.all_eq_true.mp h.1 row (List.mem_of_getElem? hr)
    have h4 := List.all_eq_true.mp h3 r (List.mem_of_find?_eq_some hn)
    simpa using h4

theorem live_after {A : Type} {M : Machine A} {cert : List (UInt8 × Nat)} (h : live M cert = true) (s : Str) :
    ∀ q, 0 < q ∧ q < M.rows.length → ∀ q', M.after q s = some q' → 0 < q' ∧ q' < M.rows.length := by
  induction s with
  | nil => rintro q hq q' ⟨rfl⟩; exact hq
  | cons b s ih =>
    intro q hq q' ha
    simp only [Machine.after] at ha
    cases hn : M.next q b with
    | none => rw [hn] at ha; cases ha
    | some r => rw [hn] at ha; exact ih _ (live_target h hn) q' ha

/-- From every state but 0 a final one can be reached. -/
theorem live_reach {A : Type} {M : Machine A} {cert : List (UInt8 × Nat)} (h : live M cert = true) :
    ∀ k q, 0 < q → q < M.rows.length → (∀ b k', cert[q]? = some (b, k') → k' ≤ k) →
      ∃ t q', M.after q t = some q' ∧ M.firstFinal ≤ q' := by
  intro k
  induction k with
  | zero =>
    intro q h0 hq hk
    by_cases hf : M.firstFinal ≤ q
    · exact ⟨[], q, rfl, hf⟩
    · have h2 := h
      simp only [live, Bool.and_eq_true] at h2
      have h3 := List.all_eq_true.mp h2.2 q (List.mem_range.2 hq)
      simp only [Bool.or_eq_true, Nat.ble_eq] at h3
      rcases h3 with (h3 | h3) | h3
      · have := Nat.eq_of_beq_eq_true h3; omega
      · omega
      · split at h3
        · cases h3
        · rename_i b k' hc
          split at h3
          · cases h3
          · rename_i r hn
            rw [Bool.or_eq_true, Nat.ble_eq] at h3
            rcases h3 with h3 | h3
            · exact ⟨[b], r.target, by simp [Machine.after, hn], h3⟩
            · split at h3
              · cases h3
              · have := hk _ _ hc
                rw [Nat.blt_eq] at h3
                omega
  | succ k ih =>
    intro q h0 hq hk
    by_cases hf : M.firstFinal ≤ q
    · exact ⟨[], q, rfl, hf⟩
    · have h2 := h
      simp only [live, Bool.and_eq_true] at h2
      have h3 := List.all_eq_true.mp h2.2 q (List.mem_range.2 hq)
      simp only [Bool.or_eq_true, Nat.ble_eq] at h3
      rcases h3 with (h3 | h3) | h3
      · have := Nat.eq_of_beq_eq_true h3; omega
      · omega
      · split at h3
        · cases h3
        · rename_i b k' hc
          split at h3
          · cases h3
          · rename_i r hn
            rw [Bool.or_eq_true, Nat.ble_eq] at h3
            rcases h3 with h3 | h3
            · exact ⟨[b], r.target, by simp [Machine.after, hn], h3⟩
            · split at h3
              · cases h3
              · rename_i b' k'' hc'
                have := hk _ _ hc
                rw [Nat.blt_eq] at h3
                obtain ⟨t1, t2⟩ := live_target h hn
                obtain ⟨t, q', e1, e2⟩ := ih r.target t1 t2 (by
                  intro b'' k3 e
                  rw [hc'] at e
                  cases e
                  omega)
                exact ⟨b :: t, q', by simp [Machine.after, hn, e1], e2⟩

/-- A parser that runs a machine and does not panic. -/
structure Runs {A α : Type} (parse : Str → Outcome α) (M : Machine A) : Prop where
  refused : ∀ s, M.after M.start s = none → parse s = .err 0
  ended : ∀ s q, M.after M.start s = some q → q < M.firstFinal → parse s = .err q
  accepted : ∀ s q, M.after M.start s = some q → M.firstFinal ≤ q → ∃ x, parse s = .ok x

theorem runs_check : Runs parseCheck checkMachine := by
  have key : ∀ s, checkMachine.exec checkStep checkMachine.start 0 {} s ≠ .panic := fun s =>
    exec_total (by
      intro p m e; cases e with
      | push b => simp [checkStep]
      | act a => cases a <;> simp [checkStep]) _ _ _ _
  have np : ∀ s, parseCheck s ≠ .panic := by
    intro s
    rcases parseCheck_cases s with ⟨_, cs, h⟩ | ⟨_, _, _, c, _, h, _⟩ <;> rw [h] <;> simp
  refine ⟨?_, ?_, ?_⟩
  · intro s h
    have := (exec_after _ _ _ _ (key s)).1 h
    simp [parseCheck, this]
  · intro s q h hq
    have := ((exec_after _ _ _ _ (key s)).2 q h).1 hq
    simp [parseCheck, this]
  · intro s q h hq
    obtain ⟨m, e⟩ := ((exec_after _ _ _ _ (key s)).2 q h).2 hq
    have := np s
    simp only [parseCheck, e] at this ⊢
    split at this
    · rename_i hc; exact ⟨_, if_pos hc⟩
    · exact absurd rfl this

theorem runs_foreignKey : Runs parseForeignKey foreignKeyMachine := by
  have key : ∀ s, foreignKeyMachine.exec fkStep foreignKeyMachine.start 0 {} s ≠ .panic := by
    intro s h
    exact parseForeignKey_total s (by simp [parseForeignKey, h])
  refine ⟨?_, ?_, ?_⟩
  · intro s h
    have := (exec_after _ _ _ _ (key s)).1 h
    simp [parseForeignKey, this]
  · intro s q h hq
    have := ((exec_after _ _ _ _ (key s)).2 q h).1 hq
    simp [parseForeignKey, this]
  · intro s q h hq
    obtain ⟨m, e⟩ := ((exec_after _ _ _ _ (key s)).2 q h).2 hq
    exact ⟨m.fk, by simp only [parseForeignKey, e]⟩

theorem runs_index : Runs parseIndex indexMachine := by
  have key : ∀ s, indexMachine.exec indexStep indexMachine.start 0 {} s ≠ .panic := by
    intro s h
    exact parseIndex_total s (by simp [parseIndex, h])
  refine ⟨?_, ?_, ?_⟩
  · intro s h
    have := (exec_after _ _ _ _ (key s)).1 h
    simp [parseIndex, this]
  · intro s q h hq
    have := ((exec_after _ _ _ _ (key s)).2 q h).1 hq
    simp [parseIndex, this]
  · intro s q h hq
    obtain ⟨m, e⟩ := ((exec_after _ _ _ _ (key s)).2 q h).2 hq
    exact ⟨m.index, by simp only [parseIndex, e]⟩

theorem runs_trigger : Runs parseTrigger triggerMachine := by
  have key : ∀ s, triggerMachine.exec triggerStep triggerMachine.start 0 {} s ≠ .panic := by
    intro s h
    exact parseTrigger_total s (by simp [parseTrigger, h])
  refine ⟨?_, ?_, ?_⟩
  · intro s h
    have := (exec_after _ _ _ _ (key s)).1 h
    simp [parseTrigger, this]
  · intro s q h hq
    have := ((exec_after _ _ _ _ (key s)).2 q h).1 hq
    simp [parseTrigger, this]
  · intro s q h hq
    obtain ⟨m, e⟩ := ((exec_after _ _ _ _ (key s)).2 q h).2 hq
    exact ⟨m.trigger, by simp only [parseTrigger, e]⟩

theorem live_check : live checkMachine Certs.checkLive = true := by decide +kernel
theorem live_index : live indexMachine Certs.indexLive = true := by decide +kernel
theorem live_foreignKey : live foreignKeyMachine Certs.foreignKeyLive = true := by decide +kernel
theorem live_trigger : live triggerMachine Certs.triggerLive = true := by decide +kernel

end Verif.Ddl
