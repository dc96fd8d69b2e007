import Verif.Sched.Same

/-!
# C165: a limit that is not reached has no effect
-/

namespace Verif.Sched
open Verif Dag Spec

/-! ## Specification -/

/-- The number of tasks a target has. -/
def tasksOf (tasks : GoMap Str Task) (q : Str) : Nat := (tasks.filter (fun p => p.2.target = q)).length

/-- The same targets; the limit of each is the same, or both limits let all of its tasks be worked on at once. -/
structure AmpleLimits (targets targets' : GoMap Str Int) (tasks : GoMap Str Task) : Prop where
  keys : targets.keys = targets'.keys
  limits : ∀ q, getInt targets q = getInt targets' q ∨
    ((tasksOf tasks q : Int) ≤ getInt targets q ∧ (tasksOf tasks q : Int) ≤ getInt targets' q)

/-! ## Lemmas -/

variable {targets targets' : GoMap Str Int} {tasks : GoMap Str Task} {s s' : Scheduler}

theorem AmpleLimits.symm (h : AmpleLimits targets targets' tasks) : AmpleLimits targets' targets tasks :=
  ⟨h.keys.symm, fun q => (h.limits q).imp Eq.symm And.symm⟩

theorem buildReadyLoop_ample {cap cap' : GoMap Str Int} : ∀ (pend : List (Str × List Str)) (len : GoMap Str Int),
    GoMap.WF pend →
    (∀ e ∈ pend, getInt cap e.1 = getInt cap' e.1 ∨ ((e.2.length : Int) ≤ getInt cap e.1 - getInt len e.1 ∧
      (e.2.length : Int) ≤ getInt cap' e.1 - getInt len e.1)) →
    buildReadyLoop cap' pend len = buildReadyLoop cap pend len
  | [], _, _, _ => rfl
  | (q, ts) :: rest, len, wf, h => by
    have wf' : GoMap.WF rest := by
      simp only [GoMap.WF, GoMap.keys, List.map_cons, List.nodup_cons] at wf ⊢; exact wf.2
    have hq : q ∉ GoMap.keys rest := by
      simp only [GoMap.WF, GoMap.keys, List.map_cons, List.nodup_cons] at wf ⊢; exact wf.1
    have h0 := h (q, ts) (by simp)
    have hrest : ∀ e ∈ rest, getInt cap e.1 = getInt cap' e.1 ∨ ((e.2.length : Int) ≤ getInt cap e.1 - getInt len e.1 ∧
      (e.2.length : Int) ≤ getInt cap' e.1 - getInt len e.1) := fun e he => h e (by simp [he])
    have hset : ∀ v, ∀ e ∈ rest, getInt cap e.1 = getInt cap' e.1 ∨
        ((e.2.length : Int) ≤ getInt cap e.1 - getInt (len.set q v) e.1 ∧
          (e.2.length : Int) ≤ getInt cap' e.1 - getInt (len.set q v) e.1) := by
      intro v e he
      have hne : q ≠ e.1 := fun x => hq (by rw [x]; exact List.mem_map_of_mem he)
      rw [getInt_set, if_neg hne]
      exact hrest e he
    simp only at h0
    simp only [buildReadyLoop]
    by_cases h1 : ts.length < 1
    · simp only [h1, if_true]
      rw [buildReadyLoop_ample rest len wf' hrest]
    · simp only [h1, if_false]
      rcases h0 with e | ⟨a, b⟩
      · rw [← e]
        rw [buildReadyLoop_ample rest len wf' hrest, buildReadyLoop_ample rest _ wf' (hset _)]
      · have c1 : ¬ getInt cap q - getInt len q < 1 := by omega
        have c2 : ¬ getInt cap' q - getInt len q < 1 := by omega
        have k1 : (if getInt cap q - getInt len q > ts.length then ts.length else (getInt cap q - getInt len q).toNat) =
            ts.length := by split <;> omega
        have k2 : (if getInt cap' q - getInt len q > ts.length then ts.length else (getInt cap' q - getInt len q).toNat) =
            ts.length := by split <;> omega
        simp only [c1, c2, if_false, k1, k2]
        rw [buildReadyLoop_ample rest _ wf' (hset _)]

theorem released_le (wft : tasks.WF) {rep rel : List Str} {out : List (Str × Str)} (hi : SInv tasks s rep rel out) (q : Str) :
    (out.filter (fun p => p.1 = q)).length + (getQ s.pending q).length ≤ tasksOf tasks q := by
  have h1 := congrArg List.length (hi.fifo q)
  rw [List.length_append, List.length_map] at h1
  rw [h1]
  have hsub : ∀ t ∈ rel.filter (fun t => targetOf s.tasks t = q), t ∈ (tasks.filter (fun p => p.2.target = q)).map Prod.fst := by
    intro t ht
    obtain ⟨a, b⟩ := List.mem_filter.1 ht
    simp only [decide_eq_true_eq] at b
    have hk : t ∈ tasks.keys := by
      rw [← keys_depInput]
      exact hi.dep.part.mem_iff.1 (List.mem_append_left _ a)
    obtain ⟨task, hg⟩ := GoMap.exists_get?_of_mem_keys hk
    rw [hi.tasksEq, targetOf_eq hg] at b
    exact List.mem_map.2 ⟨(t, task), List.mem_filter.2 ⟨GoMap.mem_of_get? hg, by simpa using b⟩, rfl⟩
  have := (List.subperm_of_subset ((hi.released_nodup wft).filter _) hsub).length_le
  simpa [tasksOf] using this

/-- As many tasks are in the hands of a target as were handed out, at most. -/
def LenLe (s : Scheduler) (out : List (Str × Str)) : Prop :=
  ∀ q, getInt s.targetLen q ≤ ((out.filter (fun p => p.1 = q)).length : Int)

theorem new_ample (wft : tasks.WF) (ha : AmpleLimits targets targets' tasks) {r : GoMap Str (List Str)}
    (h : new targets tasks = some (.ok (s, r))) :
    new targets' tasks = some (.ok ({ s with targetCap := targets' }, r)) ∧ LenLe s (flat r) := by
  obtain ⟨g, hg, -, hd, hi, hw, -, -⟩ := new_pres wft h
  have hb := released_le wft hi
  have hwf : GoMap.WF (fillPending (tasks.map (fun p => (p.1, p.2.target))) (g.next []).2 []) :=
    fillPending_wf _ _ GoMap.WF.nil
  have hs := buildReadyLoop_spec targets _ (targets.map (fun p => (p.1, 0))) hwf
  have h0 : ∀ q, getInt (targets.map (fun p => (p.1, (0 : Int)))) q = 0 := by
    intro q; unfold getInt
    rw [GoMap.get?_map_val (fun _ _ => (0 : Int))]
    cases GoMap.get? targets q <;> rfl
  have hlen0 : targets'.map (fun p => (p.1, (0 : Int))) = targets.map (fun p => (p.1, (0 : Int))) := by
    have := congrArg (List.map (fun k => (k, (0 : Int)))) ha.keys
    simpa [GoMap.keys, Function.comp_def] using this.symm
  unfold new at h ⊢
  simp only [depInput] at hg
  rw [hg] at h ⊢
  simp only [Option.some.injEq, Except.ok.injEq, Prod.ext_iff] at h
  obtain ⟨e1, e2⟩ := h
  have hloop := buildReadyLoop_ample (cap := targets) (cap' := targets')
    (fillPending (tasks.map (fun p => (p.1, p.2.target))) (g.next []).2 []) (targets.map (fun p => (p.1, 0))) hwf (by
      intro e he
      refine (ha.limits e.1).imp_right ?_
      rintro ⟨a, b⟩
      have hsp := congrArg List.length (hs.split e.1)
      have hge : getQ (fillPending (tasks.map (fun p => (p.1, p.2.target))) (g.next []).2 []) e.1 = e.2 := by
        unfold getQ
        rw [GoMap.get?_of_mem hwf (k := e.1) (v := e.2) he]; rfl
      have hbe := hb e.1
      rw [flat_filter_length hw] at hbe
      rw [List.length_append, hge] at hsp
      have hsp' : (getQ r e.1).length + (getQ s.pending e.1).length = e.2.length := by
        rw [← e1, ← e2]; exact hsp
      rw [h0]
      constructor <;> omega)
  constructor
  · simp only [Scheduler.buildReady, hlen0, hloop, Option.some.injEq, Except.ok.injEq, Prod.mk.injEq]
    rw [← e1, ← e2]
    exact ⟨rfl, rfl⟩
  · intro q
    have a := hs.lenEq q
    rw [flat_filter_length hw, ← e1, ← e2]
    simp only [Scheduler.buildReady]
    rw [a, h0]
    simp

theorem next_ample (wft : tasks.WF) (ha : AmpleLimits targets targets' tasks) {rep rel : List Str} {out : List (Str × Str)}
    (hi : SInv tasks s rep rel out) (hcap : s.targetCap = targets) (hl : LenLe s out) (c : Str) :
    Scheduler.next { s with targetCap := targets' } c = ({ (s.next c).1 with targetCap := targets' }, (s.next c).2) ∧
    (s.next c).1.targetCap = targets ∧
    (∀ r, (s.next c).2 = some r → LenLe (s.next c).1 (out ++ flat r)) ∧
    ((s.next c).2 = none → LenLe (s.next c).1 out) := by
  have hnp : Scheduler.noPendingTasks { s with targetCap := targets' } = s.noPendingTasks := rfl
  cases e : s.noPendingTasks with
  | mk b p =>
    cases b with
    | true =>
      have h1 : s.next c = ({ s with pending := p }, none) := by
        unfold Scheduler.next; rw [e]
      have h2 : Scheduler.next { s with targetCap := targets' } c =
          ({ s with targetCap := targets', pending := p }, none) := by
        unfold Scheduler.next; rw [hnp, e]
      rw [h1, h2]
      exact ⟨rfl, hcap, by simp, fun _ => hl⟩
    | false =>
      have hw : p.WF := by
        have := (noPending_spec hi).1.wf
        rw [e] at this
        exact this
      cases e1 : s.next c with
      | mk s1 x =>
        cases x with
        | none =>
          exfalso
          unfold Scheduler.next at e1
          rw [e] at e1
          simp at e1
        | some r =>
          obtain ⟨hi1, hwr, -⟩ := next_pres hi c e1
          have hb := released_le wft hi1
          unfold Scheduler.next at e1 ⊢
          rw [hnp]
          rw [e] at e1 ⊢
          simp only [Prod.mk.injEq, Option.some.injEq] at e1
          obtain ⟨e2, e3⟩ := e1
          have hwf : GoMap.WF (fillPending s.tasks (s.deps.next c).2 p) := fillPending_wf _ _ hw
          have hs := buildReadyLoop_spec s.targetCap _ (s.targetLen.set (targetOf s.tasks c)
            (getInt s.targetLen (targetOf s.tasks c) - 1)) hwf
          have hdec : ∀ q, getInt (s.targetLen.set (targetOf s.tasks c)
              (getInt s.targetLen (targetOf s.tasks c) - 1)) q ≤ getInt s.targetLen q := by
            intro q; rw [getInt_set]; split
            · rename_i e; rw [e]; omega
            · exact le_refl _
          have hloop := buildReadyLoop_ample (cap := s.targetCap) (cap' := targets')
            (fillPending s.tasks (s.deps.next c).2 p) (s.targetLen.set (targetOf s.tasks c)
              (getInt s.targetLen (targetOf s.tasks c) - 1)) hwf (by
              intro e he
              rw [hcap]
              refine (ha.limits e.1).imp_right ?_
              rintro ⟨a, b⟩
              have hsp := congrArg List.length (hs.split e.1)
              have hge : getQ (fillPending s.tasks (s.deps.next c).2 p) e.1 = e.2 := by
                unfold getQ
                rw [GoMap.get?_of_mem hwf (k := e.1) (v := e.2) he]; rfl
              have hbe := hb e.1
              rw [List.filter_append, List.length_append, flat_filter_length hwr] at hbe
              rw [List.length_append, hge] at hsp
              have hsp' : (getQ r e.1).length + (getQ s1.pending e.1).length = e.2.length := by
                rw [← e2, ← e3]; exact hsp
              have h3 := hdec e.1
              have h4 := hl e.1
              constructor <;> omega)
          refine ⟨?_, ?_, ?_, by simp⟩
          · simp only [Scheduler.buildReady, hloop]
            rw [← e2, ← e3]
            rfl
          · rw [← e2]; exact hcap
          · intro r' hr'
            simp only [Option.some.injEq] at hr'
            intro q
            have a := hs.lenEq q
            have a' : getInt s1.targetLen q = getInt (s.targetLen.set (targetOf s.tasks c)
                (getInt s.targetLen (targetOf s.tasks c) - 1)) q + ((getQ r q).length : Int) := by
              rw [← e2, ← e3]; exact a
            rw [← hr', List.filter_append, List.length_append, flat_filter_length hwr]
            simp only [a']
            have h3 := hdec q
            have h4 := hl q
            push_cast
            omega

theorem History.ample (wft : tasks.WF) (ha : AmpleLimits targets targets' tasks) {out : List (Str × Str)} {calls : List Str}
    (h : History targets tasks s out calls) :
    History targets' tasks { s with targetCap := targets' } out calls ∧ s.targetCap = targets ∧ LenLe s out ∧
      ∃ rep rel, SInv tasks s rep rel out := by
  induction h with
  | new h =>
    obtain ⟨a, b⟩ := new_ample wft ha h
    obtain ⟨_, -, -, -, hi, -, -, hc⟩ := new_pres wft h
    exact ⟨.new a, hc, b, _, _, hi⟩
  | @next s s1 out calls r h c hn ih =>
    obtain ⟨i1, i2, i3, rep, rel, hi⟩ := ih
    obtain ⟨a, b, d, -⟩ := next_ample wft ha hi i2 i3 c
    rw [hn] at a b d
    exact ⟨.next i1 c a, b, d r rfl, _, _, (next_pres hi c hn).1⟩
  | @refused s s1 out calls h c hn ih =>
    obtain ⟨i1, i2, i3, rep, rel, hi⟩ := ih
    obtain ⟨a, b, -, d⟩ := next_ample wft ha hi i2 i3 c
    rw [hn] at a b d
    exact ⟨.refused i1 c a, b, d rfl, _, _, (next_refused hi c hn).1⟩

/-! ## C165 -/

/-- **C165, the scheduler.** The limits of some targets are changed, but before and after no such limit is lower than the
number of tasks the target has.  Then the scheduler hands out the same, in the same order, to every call, whatever is
reported to it; and it answers in the same way to the next call. -/
theorem C165_limits (wft : tasks.WF) (ha : AmpleLimits targets targets' tasks) {out : List (Str × Str)} {calls : List Str}
    (h : History targets tasks s out calls) :
    ∃ s', History targets' tasks s' out calls ∧ ∀ c, (s'.next c).2 = (s.next c).2 := by
  obtain ⟨h1, h2, h3, rep, rel, hi⟩ := h.ample wft ha
  exact ⟨_, h1, fun c => by rw [(next_ample wft ha hi h2 h3 c).1]⟩

/-- C165 is about something: of two targets with two tasks each, the limit of one is raised from two to five. -/
example : AmpleLimits [(b!"x", 2), (b!"y", 1)] [(b!"x", 5), (b!"y", 1)]
      [(b!"a", ⟨b!"x", []⟩), (b!"b", ⟨b!"x", [b!"a"]⟩), (b!"c", ⟨b!"y", []⟩), (b!"d", ⟨b!"y", []⟩)] ∧
    ∃ s out, History [(b!"x", 2), (b!"y", 1)]
      [(b!"a", ⟨b!"x", []⟩), (b!"b", ⟨b!"x", [b!"a"]⟩), (b!"c", ⟨b!"y", []⟩), (b!"d", ⟨b!"y", []⟩)] s out [b!"a"] ∧
      out = [(b!"x", b!"a"), (b!"y", b!"c"), (b!"x", b!"b")] := by
  refine ⟨⟨by decide +kernel, fun q => ?_⟩, _, _, .next (.new rfl) _ rfl, by decide +kernel⟩
  by_cases h : q = b!"x"
  · subst h; right; decide +kernel
  · left
    simp [getInt, GoMap.get?_cons, Ne.symm h]

/-- **C165, beyond it.** A limit that is lower than the number of tasks does have an effect. -/
theorem C165_low_limit : ∃ s s' out out',
    History [(b!"x", 1)] [(b!"a", ⟨b!"x", []⟩), (b!"b", ⟨b!"x", []⟩)] s out [] ∧
    History [(b!"x", 2)] [(b!"a", ⟨b!"x", []⟩), (b!"b", ⟨b!"x", []⟩)] s' out' [] ∧
    out = [(b!"x", b!"a")] ∧ out' = [(b!"x", b!"a"), (b!"x", b!"b")] :=
  ⟨_, _, _, _, .new rfl, .new rfl, by decide +kernel, by decide +kernel⟩

end Verif.Sched
