import Verif.Sched.Same

/-!
# C158: a higher limit delays nothing
-/

namespace Verif.Sched
open Verif Dag Spec

variable {targets targets' : GoMap Str Int} {tasks : GoMap Str Task} {s s' : Scheduler}

theorem filter_fst_eq (out : List (Str × Str)) (q : Str) :
    out.filter (fun p => p.1 = q) = ((out.filter (fun p => p.1 = q)).map Prod.snd).map (fun t => (q, t)) := by
  rw [List.map_map]
  conv_lhs => rw [← List.map_id (out.filter (fun p => p.1 = q))]
  refine List.map_congr_left fun p hp => ?_
  have := (List.mem_filter.1 hp).2
  simp only [decide_eq_true_eq] at this
  rw [← this]; rfl

/-- Nothing waits. -/
def Drained (s : Scheduler) : Prop := s.deps.pending = [] ∧ ∀ q, getQ s.pending q = []

/-- The one that has more places, or has handed out everything, has handed out at least as much. -/
theorem prefix_of {rep rep' rel : List Str} {out out' : List (Str × Str)} {completed : List Str}
    (hi : SInv tasks s rep rel out) (hi' : SInv tasks s' rep' rel out') (hc : CInv targets tasks s out completed)
    (h0 : ∀ q, 0 ≤ getInt targets q) (hle : ∀ q, getInt targets q ≤ getInt targets' q)
    (h : CInv targets' tasks s' out' completed ∨ Drained s') (q : Str) :
    out.filter (fun p => p.1 = q) <+: out'.filter (fun p => p.1 = q) := by
  have hts : s.tasks = s'.tasks := hi.tasksEq.trans hi'.tasksEq.symm
  have e := hi.fifo q
  have e' := hi'.fifo q
  rw [hts, ← e'] at e
  rw [filter_fst_eq out, filter_fst_eq out']
  refine List.IsPrefix.map _ ?_
  refine List.prefix_of_prefix_length_le (List.prefix_append _ (getQ s.pending q)) ?_ ?_
  · rw [e]; exact List.prefix_append _ _
  by_cases hq : getQ s'.pending q = []
  · have := congrArg List.length e
    rw [hq] at this
    simp only [List.length_append, List.length_nil] at this
    omega
  · rcases h with h | h
    · have a := hc.le h0 q
      have b := h.full q hq
      have c := hle q
      have d := hc.lenEq q
      have d' := h.lenEq q
      rw [hts] at d
      simp only [List.length_map]
      omega
    · exact absurd (h.2 q) hq

theorem next_drained {nodes : GoMap Str (List Str)} {g : DepGraph} {done emitted : List Str}
    (h : DepInv nodes g done emitted) (hp : g.pending = []) (c : Str) : (g.next c).2 = [] ∧ (g.next c).1.pending = [] := by
  obtain ⟨-, a, -⟩ := next_inv h c
  rw [hp] at a
  exact List.append_eq_nil_iff.1 a.eq_nil

/-- Two schedulers with the same tasks release the same. -/
theorem Protocol.more (wft : tasks.WF) (h0 : ∀ q, 0 ≤ getInt targets q)
    (hle : ∀ q, getInt targets q ≤ getInt targets' q) {out out' : List (Str × Str)} {completed : List Str}
    (h : Protocol targets tasks s out completed) (h' : History targets' tasks s' out' completed) :
    ∃ rep rep' rel, SInv tasks s rep rel out ∧ SInv tasks s' rep' rel out' ∧ s.deps.pending = s'.deps.pending ∧
      (Protocol targets' tasks s' out' completed ∧ rep = rep' ∨ Drained s') := by
  induction h generalizing s' out' with
  | @new s r h =>
    generalize hc : ([] : List Str) = calls at h'
    cases h' with
    | @new _ r' h' =>
      obtain ⟨g, hg, -, hd, hi, -, e, -⟩ := new_pres wft h
      obtain ⟨g', hg', -, hd', hi', -, e', -⟩ := new_pres wft h'
      rw [hg] at hg'
      cases hg'
      exact ⟨_, _, _, hi, hi', by rw [e, e'], .inl ⟨.new h', rfl⟩⟩
    | next h1 c hn => simp at hc
    | refused h1 c hn => simp at hc
  | @next s s1 out completed r h q c hout hnew hn ih =>
    generalize hc : completed ++ [c] = calls at h'
    cases h' with
    | new h1 => simp at hc
    | @next s2 s2' out2 calls2 r' h1 c' hn' =>
      obtain ⟨rfl, e⟩ := List.append_inj' hc rfl
      cases e
      obtain ⟨rep, rep', rel, hi, hi', hp, hd⟩ := ih h1
      rcases hd with ⟨hpr, rfl⟩ | hd
      · obtain ⟨a, -, d⟩ := next_pres hi c hn
        obtain ⟨a', -, d'⟩ := next_pres hi' c hn'
        obtain ⟨hnx, hnp⟩ := next_same (fun _ _ => Iff.rfl) hi.dep hi'.dep hp c
        obtain ⟨_, -, -, hcc, -⟩ := h.inv wft
        obtain ⟨_, -, -, hcc', -⟩ := hpr.inv wft
        have hpre := prefix_of hi hi' hcc h0 hle (.inl hcc') q
        have hout' : (q, c) ∈ out2 := by
          have : (q, c) ∈ out.filter (fun p => p.1 = q) := by simp [hout]
          exact (List.mem_filter.1 (hpre.subset this)).1
        rw [← hnx] at a'
        exact ⟨_, _, _, a, a', by rw [d, d', hnp], .inl ⟨.next hpr q c hout' hnew hn', rfl⟩⟩
      · exfalso
        have := (noPending_spec hi').2.2 hd
        unfold Scheduler.next at hn'
        cases e : s2.noPendingTasks with
        | mk b p =>
          rw [e] at this hn'
          simp only at this
          subst this
          simp at hn'
    | @refused s2 s2' out2 calls2 h1 c' hn' =>
      obtain ⟨rfl, e⟩ := List.append_inj' hc rfl
      cases e
      obtain ⟨rep, rep', rel, hi, hi', hp, -⟩ := ih h1
      obtain ⟨a', b', d'⟩ := next_refused hi' c hn'
      obtain ⟨a, -, d⟩ := next_pres hi c hn
      have hd := (noPending_spec a').2.1 d'
      have hd2 := (noPending_spec hi').2.1 b'
      obtain ⟨e1, e2⟩ := next_drained hi.dep (hp.trans hd2.1) c
      rw [e1, List.append_nil] at a
      exact ⟨_, _, _, a, a', by rw [d, e2, hd.1], .inr hd⟩

/-- **C158.** Two schedulers have the same tasks, but the targets of the second have limits that are at least as high.  The
first is driven as the runner does it: it is told that tasks which it has handed out have ended, of each at most once.  The
second is told the same.  Then for every target it has handed out the same tasks in the same order, and perhaps more after
them. -/
theorem C158_higher_limits (wft : tasks.WF) (h0 : ∀ q, 0 ≤ getInt targets q)
    (hle : ∀ q, getInt targets q ≤ getInt targets' q) {out out' : List (Str × Str)} {completed : List Str}
    (h : Protocol targets tasks s out completed) (h' : History targets' tasks s' out' completed) (q : Str) :
    out.filter (fun p => p.1 = q) <+: out'.filter (fun p => p.1 = q) := by
  obtain ⟨rep, rep', rel, hi, hi', -, hd⟩ := h.more wft h0 hle h'
  obtain ⟨_, -, -, hcc, -⟩ := h.inv wft
  refine prefix_of hi hi' hcc h0 hle ?_ q
  rcases hd with ⟨hp, -⟩ | hd
  · obtain ⟨_, -, -, hcc', -⟩ := hp.inv wft
    exact .inl hcc'
  · exact .inr hd

/-- **C158, the other scheduler exists.** -/
theorem C158_exists (targets' : GoMap Str Int) {out : List (Str × Str)} {completed : List Str}
    (h : Protocol targets tasks s out completed) : ∃ s' out', History targets' tasks s' out' completed := by
  induction h with
  | @new s r h =>
    unfold new at h
    cases e : newDependencyGraph (tasks.map (fun p => (p.1, p.2.after))) with
    | none => rw [e] at h; simp at h
    | some x =>
      cases x with
      | error _ => rw [e] at h; simp at h
      | ok g => exact ⟨_, _, .new (by unfold new; rw [e])⟩
  | @next s s1 out completed r h q c hout hnew hn ih =>
    obtain ⟨s', out', h'⟩ := ih
    cases e : (s'.next c).2 with
    | none => exact ⟨_, _, .refused h' c (Prod.ext rfl e)⟩
    | some r' => exact ⟨_, _, .next h' c (Prod.ext rfl e)⟩

/-- C158 is about something: with one more place the third task is handed out before the first has ended, and the second
task of the other target waits for the same as before. -/
example : ∃ s s' out out',
    Protocol [(b!"x", 1), (b!"y", 1)]
      [(b!"a", ⟨b!"x", []⟩), (b!"b", ⟨b!"x", []⟩), (b!"c", ⟨b!"x", []⟩), (b!"d", ⟨b!"y", [b!"a"]⟩)] s out [b!"a"] ∧
    History [(b!"x", 2), (b!"y", 1)]
      [(b!"a", ⟨b!"x", []⟩), (b!"b", ⟨b!"x", []⟩), (b!"c", ⟨b!"x", []⟩), (b!"d", ⟨b!"y", [b!"a"]⟩)] s' out' [b!"a"] ∧
    out.filter (fun p => p.1 = b!"x") = [(b!"x", b!"a"), (b!"x", b!"b")] ∧
    out'.filter (fun p => p.1 = b!"x") = [(b!"x", b!"a"), (b!"x", b!"b"), (b!"x", b!"c")] :=
  ⟨_, _, _, _, .next (.new rfl) b!"x" _ (by decide +kernel) (by decide +kernel) rfl, .next (.new rfl) _ rfl,
    by decide +kernel, by decide +kernel⟩

end Verif.Sched
