import Verif.Dag.Props

/-!
# C11: exactly which startable tasks are withheld
-/

namespace Verif.Dag
open Verif Spec

theorem next_sublist (g : DepGraph) (c : Str) : (g.next c).1.pending.Sublist g.pending := by
  set r : Str → Bool := fun id => decide (NodeSet.size (getSet
    (markCompleted c (getSet g.dependents c) g.dependencies) id) < 1) with hrdef
  obtain ⟨p1, p2, p3⟩ := popReady_spec r g.pending
  obtain ⟨s1, s2, s3⟩ := sweep_spec r (popReady r g.pending).2
  have hp : (g.next c).1.pending = (sweep r (popReady r g.pending).2).2 := rfl
  rw [hp]
  refine s3.trans ?_
  conv_rhs => rw [p1]
  exact List.sublist_append_right _ _

theorem run_sublist (g : DepGraph) (cs : List Str) : (g.run cs).1.pending.Sublist g.pending := by
  induction cs generalizing g with
  | nil => exact List.Sublist.refl _
  | cons c cs ih => exact (ih (g.next c).1).trans (next_sublist g c)

theorem sublist_eq_filter {l o : List Str} (h : l.Sublist o) (hn : o.Nodup) :
    l = o.filter (fun x => decide (x ∈ l)) := by
  induction h with
  | slnil => rfl
  | @cons l o a h ih =>
    have ha : a ∉ l := fun hl => (List.nodup_cons.mp hn).1 (h.subset hl)
    rw [List.filter_cons_of_neg (by simpa using ha)]
    exact ih (List.nodup_cons.mp hn).2
  | @cons_cons l o a h ih =>
    have ha : a ∉ o := (List.nodup_cons.mp hn).1
    rw [List.filter_cons_of_pos (by simp)]
    congr 1
    conv_lhs => rw [ih (List.nodup_cons.mp hn).2]
    apply List.filter_congr
    intro x hx
    have : x ≠ a := fun e => ha (e ▸ hx)
    simp [this]

/-- The unreleased tasks are kept in the order of `TSort`. -/
theorem pending_eq {nodes : GoMap Str (List Str)} (wf : nodes.WF) {g : DepGraph} {d : DirectedGraph}
    {order : List Str} (hd : newDirectedGraph nodes = .ok d) (ht : tsort d = some (.sorted order))
    (hg : newDependencyGraph nodes = some (.ok g)) (cs : List Str) :
    (g.run cs).1.pending = order.filter (fun x => decide (x ∉ (g.run cs).2.flatten)) := by
  have hgp : g.pending = order := by
    unfold newDependencyGraph at hg
    rw [hd] at hg
    simp only [ht] at hg
    cases hg
    obtain ⟨_, h2, _, _⟩ := newDirectedGraph_ok wf hd
    exact (fillDeps_spec d { dependencies := [], dependents := [], pending := order } h2.wf
      (by intro n _; rfl)).2.2
  have h := depInv_run wf hg cs
  have h0 := (depInv_of_new wf hg).2
  have hnd : order.Nodup := by
    have := h0.part.nodup_iff.mpr wf
    rw [List.nil_append, hgp] at this
    exact this
  have hs := run_sublist g cs
  rw [hgp] at hs
  conv_lhs => rw [sublist_eq_filter hs hnd]
  apply List.filter_congr
  intro x hx
  have hnd2 := h.part.nodup_iff.mpr wf
  rw [List.nodup_append] at hnd2
  have hxk : x ∈ nodes.keys := by
    have := h0.part.mem_iff (a := x)
    rw [List.nil_append, hgp] at this
    exact this.mp hx
  have := h.part.mem_iff.mpr hxk
  rw [List.mem_append] at this
  have hx2 : x ∈ (g.run cs).1.pending ↔ x ∉ (g.run cs).2.flatten :=
    ⟨fun hp he => hnd2.2.2 x he x hp rfl, fun he => this.resolve_left he⟩
  simp [hx2]

/-- The second loop: past the head of the list a startable task is skipped exactly if the one before it
was taken. -/
theorem sweep_exact (r : Str → Bool) : ∀ (l : List Str), l.Nodup → ∀ x ∈ l.tail, r x = true →
    (x ∉ (sweep r l).1 ↔ ∃ pre u post, l = pre ++ u :: x :: post ∧ u ∈ (sweep r l).1)
  | [], _, x, hx, _ => by simp at hx
  | [_], _, x, hx, _ => by simp at hx
  | h :: p :: rest, hn, x, hx, hr => by
    have hn1 := List.nodup_cons.mp hn
    have hn2 := List.nodup_cons.mp hn1.2
    have hsub : ∀ l : List Str, ∀ y ∈ (sweep r l).1, y ∈ l := fun l y hy =>
      (sweep_spec r l).1.mem_iff.mp (List.mem_append_left _ hy)
    by_cases hp : r p = true
    · have he : (sweep r (h :: p :: rest)).1 = p :: (sweep r rest).1 := by simp [sweep, hp]
      rw [he]
      have hh : h ∉ p :: (sweep r rest).1 := by
        intro hm
        rcases List.mem_cons.mp hm with e | e
        · exact hn1.1 (by simp [e])
        · exact hn1.1 (by simp [hsub _ _ e])
      rcases List.mem_cons.mp hx with rfl | hx
      · simp only [List.mem_cons, true_or, not_true_eq_false, false_iff]
        rintro ⟨pre, u, post, e, hu⟩
        cases pre with
        | nil =>
          simp only [List.nil_append, List.cons.injEq] at e
          exact hh (e.1 ▸ List.mem_cons.mpr hu)
        | cons a pre =>
          simp only [List.cons_append, List.cons.injEq] at e
          cases pre with
          | nil =>
            simp only [List.nil_append, List.cons.injEq] at e
            exact hn2.1 (by rw [e.2.2]; simp)
          | cons b pre =>
            simp only [List.cons_append, List.cons.injEq] at e
            exact hn2.1 (by rw [e.2.2]; simp)
      · have hxp : x ≠ p := fun e => hn2.1 (e ▸ hx)
        cases rest with
        | nil => simp at hx
        | cons q rest' =>
          have hq : q ∉ (sweep r (q :: rest')).1 := by
            have hq' : q ∉ rest' := (List.nodup_cons.mp hn2.2).1
            cases rest' with
            | nil => simp [sweep]
            | cons a t =>
              by_cases ha : r a = true
              · simp only [sweep, ha, if_true, List.mem_cons, not_or]
                exact ⟨fun e => hq' (by simp [e]), fun e => hq' (by simp [hsub _ _ e])⟩
              · simp only [sweep, ha]
                intro e
                exact hq' (hsub _ _ e)
          rcases List.mem_cons.mp hx with rfl | hx'
          · refine ⟨fun _ => ⟨[h], p, rest', rfl, by simp⟩, fun _ => ?_⟩
            rw [List.mem_cons, not_or]
            exact ⟨hxp, hq⟩
          · have ih := sweep_exact r (q :: rest') hn2.2 x hx' hr
            rw [List.mem_cons, not_or]
            constructor
            · rintro ⟨_, hx2⟩
              obtain ⟨pre, u, post, e, hu⟩ := ih.mp hx2
              exact ⟨h :: p :: pre, u, post, by rw [e]; rfl, List.mem_cons_of_mem _ hu⟩
            · rintro ⟨pre, u, post, e, hu⟩
              refine ⟨hxp, ih.mpr ?_⟩
              rcases pre with _ | ⟨a, _ | ⟨b, pre⟩⟩
              · simp only [List.nil_append, List.cons.injEq] at e
                exact absurd e.2.1.symm hxp
              · simp only [List.cons_append, List.nil_append, List.cons.injEq] at e
                exact absurd hx' (by
                  rw [← e.2.2.1]
                  exact (List.nodup_cons.mp hn2.2).1)
              · simp only [List.cons_append, List.cons.injEq] at e
                refine ⟨pre, u, post, e.2.2, ?_⟩
                rcases List.mem_cons.mp hu with e' | hu
                · exact absurd (show p ∈ q :: rest' by rw [e.2.2, ← e']; simp) hn2.1
                · exact hu
    · have he : (sweep r (h :: p :: rest)).1 = (sweep r (p :: rest)).1 := by simp [sweep, hp]
      rw [he]
      have hxp : x ≠ p := fun e => hp (e ▸ hr)
      have hx' : x ∈ (p :: rest).tail := (List.mem_cons.mp hx).resolve_left hxp
      rw [sweep_exact r (p :: rest) hn1.2 x hx' hr]
      constructor
      · rintro ⟨pre, u, post, e, hu⟩
        exact ⟨h :: pre, u, post, by rw [e]; rfl, hu⟩
      · rintro ⟨pre, u, post, e, hu⟩
        cases pre with
        | nil =>
          simp only [List.nil_append, List.cons.injEq] at e
          exact absurd e.2.1.symm hxp
        | cons a pre =>
          simp only [List.cons_append, List.cons.injEq] at e
          exact ⟨pre, u, post, e.2, hu⟩

/-- **C11, exactly.** A task that could be started, as all its dependencies have been reported, is
withheld by `Next` if and only if, in the order of `TSort` without the tasks released before, the task
right before it is released by this same call and some task before that one cannot be started. -/
theorem C11_exact {nodes : GoMap Str (List Str)} (wf : nodes.WF) {g : DepGraph} {d : DirectedGraph}
    {order : List Str} (hd : newDirectedGraph nodes = .ok d) (ht : tsort d = some (.sorted order))
    (hg : newDependencyGraph nodes = some (.ok g)) (cs : List Str) (c x : Str)
    (hx : x ∈ nodes.keys) (hrel : x ∉ (g.run cs).2.flatten)
    (hs : ∀ m, Spec.Edge nodes x m → m ∈ cs ++ [c]) :
    x ∉ ((g.run cs).1.next c).2 ↔
      ∃ pre u post, order.filter (fun y => decide (y ∉ (g.run cs).2.flatten)) = pre ++ u :: x :: post ∧
        u ∈ ((g.run cs).1.next c).2 ∧ ∃ w ∈ pre, ∃ m, Spec.Edge nodes w m ∧ m ∉ cs ++ [c] := by
  have h := depInv_run wf hg cs
  rw [← pending_eq wf hd ht hg cs]
  set G := (g.run cs).1 with hG
  set r : Str → Bool := fun id => decide (NodeSet.size (getSet
    (markCompleted c (getSet G.dependents c) G.dependencies) id) < 1) with hrdef
  obtain ⟨p1, p2, p3⟩ := popReady_spec r G.pending
  have he : (G.next c).2 = (popReady r G.pending).1 ++ (sweep r (popReady r G.pending).2).1 := rfl
  have hr : ∀ y, r y = true ↔ ∀ m, Spec.Edge nodes y m → m ∈ cs ++ [c] := next_isReady h c
  have hnd : G.pending.Nodup := by
    have := h.part.nodup_iff.mpr wf
    exact (List.nodup_append.mp this).2.1
  have hxp : x ∈ G.pending := by
    rcases List.mem_append.mp (h.part.mem_iff.mpr hx) with hh | hh
    · exact absurd hh hrel
    · exact hh
  obtain ⟨a, ha⟩ : ∃ a, a = (popReady r G.pending).1 := ⟨_, rfl⟩
  obtain ⟨b, hb⟩ : ∃ b, b = (popReady r G.pending).2 := ⟨_, rfl⟩
  rw [← ha, ← hb] at p1 he
  rw [← ha] at p2
  have p3' : ∀ y t, b = y :: t → r y = false := fun y t e => p3 y t (hb ▸ e)
  rw [p1] at hnd hxp ⊢
  have hnd2 := List.nodup_append.mp hnd
  have hsub : ∀ y ∈ (sweep r b).1, y ∈ b := fun y hy =>
    (sweep_spec r b).1.mem_iff.mp (List.mem_append_left _ hy)
  have hnr : ∀ w, r w = false ↔ ∃ m, Spec.Edge nodes w m ∧ m ∉ cs ++ [c] := by
    intro w
    rw [← Bool.not_eq_true, hr w]
    push Not
    rfl
  rw [he]
  constructor
  · intro hn
    rw [List.mem_append, not_or] at hn
    have hxb : x ∈ b := (List.mem_append.mp hxp).resolve_left hn.1
    cases e : b with
    | nil => rw [e] at hxb; simp at hxb
    | cons y t =>
      have hy : r y = false := p3' y t e
      have hxt : x ∈ b.tail := by
        rw [e] at hxb ⊢
        rcases List.mem_cons.mp hxb with e' | h'
        · rw [← e', (hr x).mpr hs] at hy
          cases hy
        · exact h'
      obtain ⟨pre, u, post, e2, hu⟩ := (sweep_exact r b hnd2.2.1 x hxt ((hr x).mpr hs)).mp hn.2
      refine ⟨a ++ pre, u, post, by rw [← e, e2, List.append_assoc], List.mem_append_right _ (e ▸ hu), y, ?_,
        (hnr y).mp hy⟩
      cases pre with
      | nil =>
        rw [e] at e2
        simp only [List.nil_append, List.cons.injEq] at e2
        rw [← e2.1] at hu
        rw [(sweep_spec r b).2.1 y hu] at hy
        cases hy
      | cons z pre =>
        rw [e] at e2
        simp only [List.cons_append, List.cons.injEq] at e2
        rw [e2.1]
        simp
  · rintro ⟨pre, u, post, e, hu, w, hw, hwr⟩
    have hwf : r w = false := (hnr w).mpr hwr
    -- everything from `w` on is in `b`
    have hwa : w ∉ a := fun h' => by rw [p2 w h'] at hwf; cases hwf
    obtain ⟨p', q', rfl⟩ := List.append_of_mem hw
    have hab : ∃ s, p' = a ++ s ∧ b = s ++ w :: q' ++ u :: x :: post := by
      rw [List.append_assoc, List.cons_append] at e
      rcases List.append_eq_append_iff.mp e with ⟨s, h1, h2⟩ | ⟨s, h1, h2⟩
      · exact ⟨s, h1, by rw [h2]; simp⟩
      · cases s with
        | nil => exact ⟨[], by rw [h1]; simp, by rw [← List.nil_append b, ← h2]; simp⟩
        | cons z s =>
          simp only [List.cons_append, List.cons.injEq] at h2
          exact absurd (by rw [h1, ← h2.1]; simp) hwa
    obtain ⟨s, hp', hb'⟩ := hab
    have hxt : x ∈ b.tail := by
      rw [hb']
      cases s <;> simp
    have hxb : x ∈ b := List.mem_of_mem_tail hxt
    have hub : u ∈ b := by rw [hb']; simp
    rw [List.mem_append, not_or]
    refine ⟨fun h' => hnd2.2.2 x h' x hxb rfl, (sweep_exact r b hnd2.2.1 x hxt ((hr x).mpr hs)).mpr
      ⟨s ++ w :: q', u, post, hb', ?_⟩⟩
    rcases List.mem_append.mp hu with h' | h'
    · exact absurd rfl (hnd2.2.2 u h' u hub)
    · exact h'

/-- b after a, and c, d independent: c is released, so that d is withheld, as b cannot be started. -/
example : ∃ (d : DirectedGraph) (g : DepGraph),
    newDirectedGraph [(b!"a", []), (b!"b", [b!"a"]), (b!"c", []), (b!"d", [])] = .ok d ∧
    tsort d = some (.sorted [b!"a", b!"b", b!"c", b!"d"]) ∧
    newDependencyGraph [(b!"a", []), (b!"b", [b!"a"]), (b!"c", []), (b!"d", [])] = some (.ok g) ∧
    (g.next b!"").2 = [b!"a", b!"c"] :=
  ⟨_, _, rfl, by decide, rfl, by decide⟩

end Verif.Dag
