import Verif.Sched.Lemmas

/-! Histories of scheduler calls and the capacity invariant. -/

namespace Verif.Sched
open Verif Dag

/-- Any history of calls: `s` is the scheduler after `New` and some `Next` calls, `out` the
`(target, task)` pairs handed out so far and `calls` the arguments of the `Next` calls so far
(arbitrary strings). -/
inductive History (targets : GoMap Str Int) (tasks : GoMap Str Task) :
    Scheduler → List (Str × Str) → List Str → Prop
  | new {s : Scheduler} {r : GoMap Str (List Str)} (h : new targets tasks = some (.ok (s, r))) :
      History targets tasks s (flat r) []
  | next {s s' : Scheduler} {out : List (Str × Str)} {calls : List Str} {r : GoMap Str (List Str)}
      (h : History targets tasks s out calls) (c : Str) (hn : s.next c = (s', some r)) :
      History targets tasks s' (out ++ flat r) (calls ++ [c])
  | refused {s s' : Scheduler} {out : List (Str × Str)} {calls : List Str}
      (h : History targets tasks s out calls) (c : Str) (hn : s.next c = (s', none)) :
      History targets tasks s' out (calls ++ [c])

/-- A history in which `Next` is called at most once per handed-out task, with that task, and which
ends at the first `ErrNoPendingTasks` (as the runner does). -/
inductive Protocol (targets : GoMap Str Int) (tasks : GoMap Str Task) :
    Scheduler → List (Str × Str) → List Str → Prop
  | new {s : Scheduler} {r : GoMap Str (List Str)} (h : new targets tasks = some (.ok (s, r))) :
      Protocol targets tasks s (flat r) []
  | next {s s' : Scheduler} {out : List (Str × Str)} {completed : List Str}
      {r : GoMap Str (List Str)} (h : Protocol targets tasks s out completed) (q c : Str)
      (hout : (q, c) ∈ out) (hnew : c ∉ completed) (hn : s.next c = (s', some r)) :
      Protocol targets tasks s' (out ++ flat r) (completed ++ [c])

theorem Protocol.history {targets : GoMap Str Int} {tasks : GoMap Str Task} {s : Scheduler}
    {out : List (Str × Str)} {completed : List Str} (h : Protocol targets tasks s out completed) :
    History targets tasks s out completed := by
  induction h with
  | new h => exact History.new h
  | next _ q c _ _ hn ih => exact History.next ih c hn

/-- Tasks of target `q` handed out and not completed. -/
def inFlight (out : List (Str × Str)) (completed : List Str) (q : Str) : List Str :=
  ((out.filter (fun p => p.1 = q)).map Prod.snd).filter (fun t => t ∉ completed)

theorem History.inv {targets : GoMap Str Int} {tasks : GoMap Str Task} (wf : tasks.WF)
    {s : Scheduler} {out : List (Str × Str)} {calls : List Str}
    (h : History targets tasks s out calls) :
    ∃ reported released, SInv tasks s ([] :: reported) released out ∧
      (∀ x ∈ reported, x ∈ calls) ∧ Spec.Closed (depInput tasks) ∧ s.targetCap = targets := by
  induction h with
  | new h =>
    obtain ⟨g, _, h1, _, h2, _, _, h3⟩ := new_pres wf h
    exact ⟨[], _, h2, by simp, h1, h3⟩
  | @next s s' out calls r _ c hn ih =>
    obtain ⟨rep, rel, h1, h2, h3, h4⟩ := ih
    refine ⟨rep ++ [c], _, (next_pres h1 c hn).1, ?_, h3, ?_⟩
    · intro x hx
      rcases List.mem_append.mp hx with hx | hx
      · exact List.mem_append_left _ (h2 x hx)
      · exact List.mem_append_right _ hx
    · unfold Scheduler.next at hn
      split at hn
      · cases hn
      · simp only [Prod.mk.injEq] at hn
        rw [← hn.1]; exact h4
  | @refused s s' out calls _ c hn ih =>
    obtain ⟨rep, rel, h1, h2, h3, h4⟩ := ih
    refine ⟨rep, rel, (next_refused h1 c hn).1, fun x hx => List.mem_append_left _ (h2 x hx), h3, ?_⟩
    unfold Scheduler.next at hn
    split at hn
    · simp only [Prod.mk.injEq] at hn
      rw [← hn.1]; exact h4
    · simp at hn

/-- Capacity invariant of protocol histories. -/
structure CInv (targets : GoMap Str Int) (tasks : GoMap Str Task) (s : Scheduler)
    (out : List (Str × Str)) (completed : List Str) : Prop where
  cap : s.targetCap = targets
  nodup : completed.Nodup
  sub : ∀ c ∈ completed, ∃ q, (q, c) ∈ out
  lenEq : ∀ q, getInt s.targetLen q = ((out.filter (fun p => p.1 = q)).length : Int) -
    ((completed.filter (fun c => targetOf s.tasks c = q)).length : Int)
  le : (∀ q, 0 ≤ getInt targets q) → ∀ q, getInt s.targetLen q ≤ getInt targets q
  full : ∀ q, getQ s.pending q ≠ [] → getInt targets q ≤ getInt s.targetLen q

theorem flat_filter_length {r : GoMap Str (List Str)} (wf : r.WF) (q : Str) :
    ((flat r).filter (fun p => p.1 = q)).length = (getQ r q).length := by
  rw [flat_filter wf]; simp

theorem Protocol.inv {targets : GoMap Str Int} {tasks : GoMap Str Task} (wf : tasks.WF)
    {s : Scheduler} {out : List (Str × Str)} {completed : List Str}
    (h : Protocol targets tasks s out completed) :
    ∃ released, SInv tasks s ([] :: completed) released out ∧ Spec.Closed (depInput tasks) ∧
      CInv targets tasks s out completed ∧
      (∀ x t, s.deps.pending = x :: t → ∃ m, Spec.Edge (depInput tasks) x m ∧
        m ∉ [] :: completed) := by
  induction h with
  | @new s r h =>
    obtain ⟨g, hg, h1, h2, h3, h4, h5, h6⟩ := new_pres wf h
    refine ⟨_, h3, h1, ?_, ?_⟩
    · unfold Sched.new at h
      simp only [depInput] at hg
      rw [hg] at h
      simp only [Option.some.injEq, Except.ok.injEq] at h
      rw [Prod.ext_iff] at h
      obtain ⟨ha, hb⟩ := h
      simp only at ha hb
      have hwf : GoMap.WF (fillPending (tasks.map (fun p => (p.1, p.2.target))) (g.next []).2 []) :=
        fillPending_wf _ _ GoMap.WF.nil
      have hs := buildReadyLoop_spec targets _ (targets.map (fun p => (p.1, 0))) hwf
      have h0 : ∀ q, getInt (targets.map (fun p => (p.1, (0 : Int)))) q = 0 := by
        intro q; unfold getInt
        rw [GoMap.get?_map_val (fun _ _ => (0 : Int))]
        cases GoMap.get? targets q <;> rfl
      refine ⟨h6, by simp, by simp, ?_, ?_, ?_⟩
      · intro q
        have := hs.lenEq q
        rw [h0] at this
        rw [flat_filter_length h4, ← ha, ← hb]
        simp only [List.filter_nil, List.length_nil]
        have h' := this
        simp only [Scheduler.buildReady] at h' ⊢
        rw [h']; simp
      · intro hc q
        have := hs.le q (by rw [h0]; exact hc q)
        rw [← ha]; exact this
      · intro q hq
        rw [← ha] at hq ⊢
        exact hs.full q hq
    · intro x t hx
      rw [h5] at hx
      simpa using next_head_blocked h2 [] x t hx
  | @next s s' out completed r _ q c hout hnew hn ih =>
    obtain ⟨released, h1, h2, h3, h4⟩ := ih
    obtain ⟨a1, a2, a3⟩ := next_pres h1 c hn
    have htasks : s'.tasks = s.tasks := by rw [a1.tasksEq, h1.tasksEq]
    refine ⟨_, a1, h2, ?_, ?_⟩
    · unfold Scheduler.next at hn
      split at hn
      · cases hn
      · rename_i p he
        simp only [Prod.mk.injEq, Option.some.injEq] at hn
        have hp : s.noPendingTasks.2 = p := by rw [he]
        have hwf : GoMap.WF (fillPending s.tasks (s.deps.next c).2 p) :=
          fillPending_wf _ _ (hp ▸ (noPending_spec h1).1.wf)
        have hs := buildReadyLoop_spec s.targetCap _ (s.targetLen.set (targetOf s.tasks c)
          (getInt s.targetLen (targetOf s.tasks c) - 1)) hwf
        rw [h3.cap] at hs
        have hn1 := hn.1
        have hn2 := hn.2
        rw [← hn1, ← hn2]
        have hdec : ∀ q, getInt (s.targetLen.set (targetOf s.tasks c)
            (getInt s.targetLen (targetOf s.tasks c) - 1)) q =
            getInt s.targetLen q - (if targetOf s.tasks c = q then 1 else 0) := by
          intro q; rw [getInt_set]; split
          · rename_i e; rw [e]
          · simp
        refine ⟨h3.cap, ?_, ?_, ?_, ?_, ?_⟩
        · exact List.nodup_append.mpr ⟨h3.nodup, by simp, by
            simp; intro a ha e; exact hnew (e ▸ ha)⟩
        · intro x hx
          rcases List.mem_append.mp hx with hx | hx
          · obtain ⟨q', hq'⟩ := h3.sub x hx
            exact ⟨q', List.mem_append_left _ hq'⟩
          · simp at hx; subst hx; exact ⟨q, List.mem_append_left _ hout⟩
        · intro q'
          have e1 := hs.lenEq q'
          rw [hdec] at e1
          have e2 := h3.lenEq q'
          rw [List.filter_append, List.length_append, hn2, flat_filter_length a2,
            List.filter_append, List.length_append, ← hn2]
          simp only [Scheduler.buildReady, h3.cap] at e1 ⊢
          rw [e1]
          rw [e2]
          simp only [List.filter_cons, List.filter_nil, decide_eq_true_eq]
          generalize (getQ _ q').length = y
          by_cases e : targetOf s.tasks c = q'
          · simp only [e, if_true, List.length_singleton]; push_cast; omega
          · simp only [e, if_false, List.length_nil]; push_cast; omega
        · intro hc q'
          have := hs.le q' (by
            rw [hdec]
            have := h3.le hc q'
            split <;> omega)
          simpa only [Scheduler.buildReady, h3.cap] using this
        · intro q' hq'
          simp only [Scheduler.buildReady, h3.cap] at hq' ⊢
          exact hs.full q' hq'
    · intro x t hx
      rw [a3] at hx
      simpa using next_head_blocked h1.dep c x t hx

theorem inFlight_length {targets : GoMap Str Int} {tasks : GoMap Str Task} (wf : tasks.WF)
    {s : Scheduler} {out : List (Str × Str)} {completed : List Str}
    {reported released : List Str} (h1 : SInv tasks s reported released out)
    (h3 : CInv targets tasks s out completed) (q : Str) :
    ((inFlight out completed q).length : Int) = getInt s.targetLen q := by
  rw [h3.lenEq]
  set L := (out.filter (fun p => p.1 = q)).map Prod.snd with hL
  have hLn : L.Nodup := ((List.filter_sublist).map Prod.snd).nodup (h1.out_nodup wf)
  have hlen : (out.filter (fun p => p.1 = q)).length = L.length := by rw [hL]; simp
  have hsplit : L.length = (L.filter (fun t => t ∉ completed)).length +
      (L.filter (fun t => t ∈ completed)).length := by
    have := List.length_eq_length_filter_add (l := L) (fun t => decide (t ∉ completed))
    simpa using this
  have hperm : (L.filter (fun t => t ∈ completed)).Perm
      (completed.filter (fun c => targetOf s.tasks c = q)) := by
    refine (List.perm_ext_iff_of_nodup (hLn.filter _) (h3.nodup.filter _)).mpr ?_
    intro t
    simp only [List.mem_filter, decide_eq_true_eq, hL, List.mem_map, Prod.exists]
    constructor
    · rintro ⟨⟨q', t', ⟨ho, hq⟩, rfl⟩, hc⟩
      exact ⟨hc, hq ▸ (h1.mem_out ho).2⟩
    · rintro ⟨hc, hq⟩
      obtain ⟨q', hq'⟩ := h3.sub t hc
      have := (h1.mem_out hq').2
      exact ⟨⟨q', t, ⟨hq', by rw [← this, hq]⟩, rfl⟩, hc⟩
  rw [hlen, hsplit, hperm.length_eq]
  unfold inFlight
  rw [← hL]
  push_cast
  omega

end Verif.Sched
