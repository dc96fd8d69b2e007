import Verif.Dag.Exact

/-!
# C159: how long a task that can be started is withheld
-/

namespace Verif.Dag
open Verif Spec

variable {nodes : GoMap Str (List Str)} {g : DepGraph} {d : DirectedGraph}

theorem run_mono (g : DepGraph) (cs ds : List Str) {x : Str} (h : x ∈ (g.run cs).2.flatten) :
    x ∈ (g.run (cs ++ ds)).2.flatten := by
  rw [(run_append g cs ds).2, List.flatten_append]
  exact List.mem_append_left _ h

theorem run_snoc (g : DepGraph) (cs : List Str) (c : Str) :
    (g.run (cs ++ [c])).2.flatten = (g.run cs).2.flatten ++ ((g.run cs).1.next c).2 := by
  rw [(run_append g cs [c]).2, List.flatten_append]
  simp [DepGraph.run]

/-- A list without repetitions is divided by an element in one way. -/
theorem split_unique {x : Str} : ∀ {p a q b : List Str}, p ++ x :: q = a ++ x :: b → x ∉ p → x ∉ a → p = a
  | [], [], _, _, _, _, _ => rfl
  | [], y :: a, q, b, h, _, ha => by
    simp only [List.nil_append, List.cons_append, List.cons.injEq] at h
    exact absurd (by rw [h.1]; simp) ha
  | y :: p, [], q, b, h, hp, _ => by
    simp only [List.nil_append, List.cons_append, List.cons.injEq] at h
    exact absurd (by rw [h.1]; simp) hp
  | y :: p, z :: a, q, b, h, hp, ha => by
    simp only [List.cons_append, List.cons.injEq] at h
    rw [h.1, split_unique h.2 (fun g => hp (by simp [g])) (fun g => ha (by simp [g]))]

/-- The tasks before `x` that have not been released. -/
def waiting (g : DepGraph) (cs before : List Str) : List Str := before.filter (fun y => decide (y ∉ (g.run cs).2.flatten))

theorem within_aux (wf : nodes.WF) {before rest : List Str} {x : Str} (hd : newDirectedGraph nodes = .ok d)
    (ht : tsort d = some (.sorted (before ++ x :: rest))) (hg : newDependencyGraph nodes = some (.ok g)) :
    ∀ (calls cs : List Str), (∀ m, Edge nodes x m → m ∈ cs) → calls ≠ [] → (waiting g cs before).length ≤ calls.length →
      x ∈ (g.run (cs ++ calls)).2.flatten
  | [], _, _, h, _ => absurd rfl h
  | c :: calls, cs, hs, _, hl => by
    rw [show cs ++ c :: calls = (cs ++ [c]) ++ calls by simp]
    by_cases hrel : x ∈ (g.run cs).2.flatten
    · exact run_mono _ _ _ (run_mono _ _ _ hrel)
    by_cases hnx : x ∈ ((g.run cs).1.next c).2
    · refine run_mono _ _ _ ?_
      rw [run_snoc]
      exact List.mem_append_right _ hnx
    have hg0 : g.pending = before ++ x :: rest := by
      obtain ⟨dg, h1, h2⟩ : ∃ dg, newDirectedGraph nodes = .ok dg ∧ tsort dg = some (.sorted g.pending) := by
        have h := pending_eq wf hd ht hg []
        simp only [DepGraph.run, List.flatten_nil, List.not_mem_nil, not_false_eq_true, decide_true, List.filter_true] at h
        exact ⟨d, hd, by rw [h]; exact ht⟩
      rw [hd] at h1
      cases h1
      rw [ht] at h2
      simpa using h2.symm
    have h0 := (depInv_of_new wf hg).2
    have hperm := h0.part
    rw [List.nil_append, hg0] at hperm
    have hnd : (before ++ x :: rest).Nodup := hperm.nodup_iff.2 wf
    have hx : x ∈ nodes.keys := hperm.mem_iff.1 (by simp)
    obtain ⟨pre, u, post, e, hu, w, hw, -⟩ := (C11_exact wf hd ht hg cs c x hx hrel
      (fun m hm => List.mem_append_left _ (hs m hm))).1 hnx
    have hxb : x ∉ before := fun h => (List.nodup_append.1 hnd).2.2 x h x (by simp) rfl
    have e1 : waiting g cs before = pre ++ [u] := by
      rw [List.filter_append, List.filter_cons_of_pos (by simpa using hrel)] at e
      refine split_unique (x := x) (b := post) (q := List.filter (fun y => decide (y ∉ (g.run cs).2.flatten)) rest) ?_ ?_ ?_
      · rw [List.append_assoc]; exact e
      · exact fun h => hxb (List.mem_filter.1 h).1
      · intro h
        have hn2 : (pre ++ u :: x :: post).Nodup := by
          rw [← e, ← List.filter_cons_of_pos (by simpa using hrel), ← List.filter_append]
          exact hnd.filter _
        rw [show pre ++ u :: x :: post = (pre ++ [u]) ++ x :: post by simp] at hn2
        exact (List.nodup_append.1 hn2).2.2 x h x (by simp) rfl
    have e2 : (waiting g (cs ++ [c]) before).length < (waiting g cs before).length := by
      have hsub : (waiting g (cs ++ [c]) before) = (waiting g cs before).filter
          (fun y => decide (y ∉ ((g.run cs).1.next c).2)) := by
        unfold waiting
        rw [List.filter_filter]
        apply List.filter_congr
        intro y _
        rw [run_snoc, Bool.eq_iff_iff]
        simp [and_comm]
      rw [hsub]
      refine lt_of_le_of_ne (List.length_filter_le _ _) fun e3 => ?_
      have := List.length_filter_eq_length_iff.1 e3 u (by rw [e1]; simp)
      simp only [decide_eq_true_eq] at this
      exact this hu
    have e3 : 2 ≤ (waiting g cs before).length := by
      rw [e1]
      cases pre with
      | nil => simp at hw
      | cons a l => simp
    simp only [List.length_cons] at hl
    refine within_aux wf hd ht hg calls (cs ++ [c]) (fun m hm => List.mem_append_left _ (hs m hm)) ?_ (by omega)
    rintro rfl
    simp only [List.length_nil] at hl
    omega

/-- **C159.** All dependencies of a task have been reported.  `Next` is called again, at least once, and at least as often
as there are tasks before it in the order of `TSort`; whatever is reported by these calls, the task has been returned by
then. -/
theorem C159_within (wf : nodes.WF) {before rest : List Str} {x : Str} (hd : newDirectedGraph nodes = .ok d)
    (ht : tsort d = some (.sorted (before ++ x :: rest))) (hg : newDependencyGraph nodes = some (.ok g))
    (cs calls : List Str) (hs : ∀ m, Edge nodes x m → m ∈ cs) (h1 : calls ≠ []) (hl : before.length ≤ calls.length) :
    ∃ l ∈ (g.run (cs ++ calls)).2, x ∈ l := by
  refine List.mem_flatten.1 (within_aux wf hd ht hg calls cs hs h1 ?_)
  exact (List.length_filter_le _ _).trans hl

/-- C159 is about something: the last task could be started at once, and is withheld twice. -/
example : ∃ (d : DirectedGraph) (g : DepGraph),
    newDirectedGraph [(b!"a", []), (b!"b", []), (b!"c", [b!"a"]), (b!"d", [b!"b"]), (b!"e", []), (b!"f", [])] = .ok d ∧
    tsort d = some (.sorted ([b!"a", b!"b", b!"c", b!"d", b!"e"] ++ b!"f" :: [])) ∧
    newDependencyGraph [(b!"a", []), (b!"b", []), (b!"c", [b!"a"]), (b!"d", [b!"b"]), (b!"e", []), (b!"f", [])] =
      some (.ok g) ∧
    (g.run [b!"", b!"b", b!"e"]).2 = [[b!"a", b!"b", b!"e"], [b!"d"], [b!"f"]] :=
  ⟨_, _, rfl, by decide +kernel, rfl, by decide +kernel⟩

end Verif.Dag
