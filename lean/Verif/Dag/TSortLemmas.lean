import Verif.Dag.Directed
import Mathlib.Data.List.Chain

/-! The depth first search of `TSort`: invariant, fuel sufficiency, outcome. -/

namespace Verif.Dag
open Verif Spec Relation

section
variable (E : Str → List Str) (P : Str → Prop) (N : List Str)

/-- What holds between visits while no cycle has been found. -/
structure DfsInv (v : Visitor) : Prop where
  cyc : v.cycle = none
  vis : ∀ x, x ∈ v.visited ↔ x ∈ v.sorted
  nd : v.sorted.Nodup
  disj : ∀ x ∈ v.sorted, x ∉ v.visiting
  topo : ∀ l1 x l2, v.sorted = l1 ++ x :: l2 → ∀ m ∈ E x, m ∈ l1
  snd : v.visiting.Nodup
  chain : v.visiting.IsChain (fun a b => a ∈ E b)
  pS : ∀ x ∈ v.sorted, P x
  pV : ∀ x ∈ v.visiting, P x

/-- What is known once a cycle has been found. A cycle that starts at a node named "" is reported as an empty one. -/
def CycPost (n : Str) (stack stack' : List Str) (cs : Str) (c : List Str) : Prop :=
  (cs ≠ [] ∧ cs ∈ stack ∧ stack' = c ++ stack ∧ stack'.Nodup ∧
    stack'.IsChain (fun a b => a ∈ E b) ∧
    ((c = [] ∧ cs = n) ∨ (∃ h, c.head? = some h ∧ cs ∈ E h) ∧ c.getLast? = some n)) ∨
  (cs = [] ∧ (IsReportedCycle (fun a b => b ∈ E a) c ∨ c = [] ∧ TransGen (fun a b => b ∈ E a) [] []))

/-- Outcome of a visit of `n` in state `v`. -/
def VisitPost (n : Str) (v v' : Visitor) (cs : Str) : Prop :=
  (v'.visiting = v.visiting ∧ DfsInv E P v' ∧ n ∈ v'.sorted ∧ v.sorted <+: v'.sorted ∧ cs = []) ∨
  (∃ c, v'.cycle = some c ∧ (∃ x, P x ∧ TransGen (fun a b => b ∈ E a) x x) ∧
    CycPost E n v.visiting v'.visiting cs c)

theorem chain_reaches {E : Str → List Str} {h : Str} {t : List Str}
    (hc : (h :: t).IsChain (fun a b => a ∈ E b)) {x : Str} (hx : x ∈ t) :
    TransGen (fun a b => b ∈ E a) x h := by
  induction t generalizing h with
  | nil => simp at hx
  | cons y t ih =>
    have hy : h ∈ E y := by
      cases hc with | cons_cons a _ => exact a
    have ht : (y :: t).IsChain (fun a b => a ∈ E b) := by
      cases hc with | cons_cons _ b => exact b
    rcases List.mem_cons.mp hx with rfl | hx
    · exact TransGen.single hy
    · exact (ih ht hx).tail hy

theorem visitEdges_spec (_hP : ∀ x, P x → ∀ m ∈ E x, P m) (n : Str) (v : Visitor)
    (rec : Str → Visitor → Option (Visitor × Str))
    (hnv : n ∉ v.visiting)
    (hrec : ∀ m ∈ E n, ∀ w : Visitor, DfsInv E P w → w.visiting = n :: v.visiting →
      ∃ w' cs, rec m w = some (w', cs) ∧ VisitPost E P m w w' cs)
    (ms : List Str) (w : Visitor) (hw : DfsInv E P w) (hwv : w.visiting = n :: v.visiting)
    (hpre : v.sorted <+: w.sorted) (done : List Str) (hms : E n = done ++ ms)
    (hdone : ∀ m ∈ done, m ∈ w.sorted) :
    ∃ v' cs, visitEdges rec n ms w = some (v', cs) ∧ VisitPost E P n v v' cs := by
  have hPn : P n := hw.pV n (by rw [hwv]; simp)
  induction ms generalizing w done with
  | nil =>
    refine ⟨_, _, rfl, Or.inl ⟨?_, ?_, ?_, ?_, rfl⟩⟩
    · simp [hwv]
    · have hns : n ∉ w.sorted := fun h => hw.disj n h (by rw [hwv]; simp)
      have hsnd := hw.snd; rw [hwv, List.nodup_cons] at hsnd
      refine ⟨hw.cyc, ?_, ?_, ?_, ?_, ?_, ?_, ?_, ?_⟩
      · intro x; simp [hw.vis]; tauto
      · exact List.nodup_append.mpr ⟨hw.nd, by simp, by
          simp; intro a ha e; exact hns (e ▸ ha)⟩
      · intro x hx
        simp only [hwv, List.erase_cons_head]
        rcases List.mem_append.mp hx with hx | hx
        · intro hv; exact hw.disj x hx (by rw [hwv]; exact List.mem_cons_of_mem _ hv)
        · simp at hx; subst hx; exact hsnd.1
      · intro l1 x l2 h m hm
        rcases List.append_eq_append_iff.mp h with ⟨a, ha, hb⟩ | ⟨a, ha, hb⟩
        · cases a with
          | nil =>
            simp at hb; obtain ⟨rfl, rfl⟩ := hb
            simp at ha; subst ha
            apply hdone; rw [hms] at hm; simpa using hm
          | cons y a => simp at hb
        · cases a with
          | nil =>
            simp at hb; obtain ⟨rfl, rfl⟩ := hb
            simp at ha; subst ha
            apply hdone; rw [hms] at hm; simpa using hm
          | cons y a =>
            simp at hb; obtain ⟨rfl, rfl⟩ := hb
            exact hw.topo l1 x a ha m hm
      · simp only [hwv, List.erase_cons_head]; exact hsnd.2
      · simp only [hwv, List.erase_cons_head]
        have := hw.chain; rw [hwv] at this; exact this.tail
      · intro x hx
        rcases List.mem_append.mp hx with hx | hx
        · exact hw.pS x hx
        · simp at hx; subst hx; exact hPn
      · intro x hx
        simp only [hwv, List.erase_cons_head] at hx
        exact hw.pV x (by rw [hwv]; exact List.mem_cons_of_mem _ hx)
    · simp
    · exact hpre.trans (List.prefix_append _ _)
  | cons m ms ih =>
    have hm : m ∈ E n := by rw [hms]; simp
    obtain ⟨w', cs, he, hpost⟩ := hrec m hm w hw hwv
    simp only [visitEdges, he]
    rcases hpost with ⟨h1, h2, h3, h4, h5⟩ | ⟨c, h1, h2, h3⟩
    · rw [h2.cyc]
      simp only []
      refine ih w' h2 (h1.trans hwv) (hpre.trans h4) (done ++ [m]) (by rw [hms]; simp) ?_
      intro x hx
      rcases List.mem_append.mp hx with hx | hx
      · exact h4.subset (hdone x hx)
      · simp at hx; subst hx; exact h3
    · rw [h1]; simp only []
      by_cases hcs : cs = []
      · simp only [hcs, ne_eq, not_true_eq_false, if_false]
        refine ⟨_, _, rfl, Or.inr ⟨c, h1, h2, ?_⟩⟩
        rcases h3 with ⟨a, _⟩ | ⟨_, b⟩
        · exact absurd hcs a
        · exact Or.inr ⟨rfl, b⟩
      · simp only [ne_eq, hcs, not_false_eq_true, if_true]
        refine ⟨_, _, rfl, Or.inr ⟨_, rfl, h2, ?_⟩⟩
        rcases h3 with ⟨_, b1, b2, b3, b4, b5⟩ | ⟨a, _⟩
        · rw [hwv] at b1 b2
          have hstk : w'.visiting = (c ++ [n]) ++ v.visiting := by rw [b2]; simp
          by_cases hn : n = cs
          · simp only [hn, if_true]
            right
            refine ⟨rfl, .inl ⟨?_, ?_, ?_⟩⟩
            · rw [hstk] at b3; subst hn; exact (List.nodup_append.mp b3).1
            · rw [hstk] at b4; subst hn; exact (List.isChain_append.mp b4).1
            · rcases b5 with ⟨rfl, rfl⟩ | ⟨⟨h, hh, hE⟩, _⟩
              · exact ⟨cs, cs, by simp, by simp, hn ▸ hm⟩
              · refine ⟨h, cs, ?_, by simp, hE⟩
                cases c with
                | nil => simp at hh
                | cons y c => simpa using hh
          · simp only [hn, if_false]
            left
            refine ⟨hcs, ?_, hstk, b3, b4, Or.inr ⟨?_, by simp⟩⟩
            · rcases List.mem_cons.mp b1 with e | e
              · exact absurd e.symm hn
              · exact e
            · rcases b5 with ⟨rfl, rfl⟩ | ⟨⟨h, hh, hE⟩, _⟩
              · exact ⟨n, by simp, hm⟩
              · refine ⟨h, ?_, hE⟩
                cases c with
                | nil => simp at hh
                | cons y c => simpa using hh
        · exact absurd a hcs

theorem visit_spec (hP : ∀ x, P x → ∀ m ∈ E x, P m) (hN : ∀ x, E x ≠ [] → x ∈ N)
    (fuel : Nat) (n : Str) (v : Visitor) (hv : DfsInv E P v) (hPn : P n)
    (hch : (n :: v.visiting).IsChain (fun a b => a ∈ E b))
    (hsub : ∀ x ∈ v.visiting, x ∈ N) (hf : N.length + 1 ≤ fuel + v.visiting.length) :
    ∃ v' cs, visit E fuel n v = some (v', cs) ∧ VisitPost E P n v v' cs := by
  induction fuel generalizing n v with
  | zero =>
    have := (List.subperm_of_subset hv.snd hsub).length_le
    omega
  | succ fuel ih =>
    simp only [visit]
    by_cases h1 : n ∈ v.visiting
    · simp only [h1, if_true, hv.cyc]
      refine ⟨_, _, rfl, Or.inr ⟨[], rfl, ⟨n, hPn, chain_reaches hch h1⟩, ?_⟩⟩
      by_cases hn : n = []
      · subst hn
        exact Or.inr ⟨rfl, .inr ⟨rfl, chain_reaches hch h1⟩⟩
      · exact Or.inl ⟨hn, h1, by simp, hv.snd, hv.chain, Or.inl ⟨rfl, rfl⟩⟩
    · simp only [h1, if_false]
      by_cases h2 : n ∈ v.visited
      · simp only [h2, if_true]
        exact ⟨_, _, rfl, Or.inl ⟨rfl, hv, (hv.vis n).mp h2, List.prefix_rfl, rfl⟩⟩
      · simp only [h2, if_false]
        refine visitEdges_spec E P hP n v (visit E fuel) h1 ?_ (E n) _ ?_ rfl ?_ [] rfl (by simp)
        · intro m hm w hw hwv
          have hne : E n ≠ [] := fun e => by simp [e] at hm
          refine ih m w hw (hP n hPn m hm) ?_ ?_ ?_
          · rw [hwv]; exact List.IsChain.cons_cons hm hch
          · intro x hx; rw [hwv] at hx
            rcases List.mem_cons.mp hx with rfl | hx
            · exact hN x hne
            · exact hsub x hx
          · rw [hwv]; simp only [List.length_cons]; omega
        · refine ⟨hv.cyc, hv.vis, hv.nd, ?_, hv.topo, ?_, hch, hv.pS, ?_⟩
          · intro x hx hc
            rcases List.mem_cons.mp hc with rfl | hc
            · exact h2 ((hv.vis x).mpr hx)
            · exact hv.disj x hx hc
          · exact List.nodup_cons.mpr ⟨h1, hv.snd⟩
          · intro x hx
            rcases List.mem_cons.mp hx with rfl | hx
            · exact hPn
            · exact hv.pV x hx
        · exact List.prefix_rfl

/-- Outcome of the main loop. -/
theorem tsortLoop_spec (hP : ∀ x, P x → ∀ m ∈ E x, P m) (hN : ∀ x, E x ≠ [] → x ∈ N)
    (fuel : Nat) (hf : N.length + 1 ≤ fuel) (ns : List Str) (hns : ∀ n ∈ ns, P n) (v : Visitor)
    (hv : DfsInv E P v) (hvis : v.visiting = []) :
    (∃ w, tsortLoop E fuel ns v = some (.sorted w.sorted) ∧ DfsInv E P w ∧
      (∀ n ∈ ns, n ∈ w.sorted) ∧ v.sorted <+: w.sorted) ∨
    (∃ c, tsortLoop E fuel ns v = some (.cyclic c) ∧
      (∃ x, P x ∧ TransGen (fun a b => b ∈ E a) x x) ∧
      (IsReportedCycle (fun a b => b ∈ E a) c ∨ c = [] ∧ TransGen (fun a b => b ∈ E a) [] [])) := by
  induction ns generalizing v with
  | nil => exact Or.inl ⟨v, rfl, hv, by simp, List.prefix_rfl⟩
  | cons n ns ih =>
    have hns' : ∀ m ∈ ns, P m := fun m hm => hns m (List.mem_cons_of_mem _ hm)
    simp only [tsortLoop]
    by_cases h : n ∈ v.visited
    · simp only [h, if_true]
      rcases ih hns' v hv hvis with ⟨w, h1, h2, h3, h4⟩ | hc
      · refine Or.inl ⟨w, h1, h2, ?_, h4⟩
        intro m hm
        rcases List.mem_cons.mp hm with rfl | hm
        · exact h4.subset ((hv.vis m).mp h)
        · exact h3 m hm
      · exact Or.inr hc
    · simp only [h, if_false]
      obtain ⟨v', cs, he, hpost⟩ := visit_spec E P N hP hN fuel n v hv (hns n (by simp))
        (by rw [hvis]; simp) (by rw [hvis]; simp) (by rw [hvis]; simpa using hf)
      simp only [he]
      rcases hpost with ⟨h1, h2, h3, h4, h5⟩ | ⟨c, h1, h2, h3⟩
      · rw [h2.cyc]
        simp only []
        rcases ih hns' v' h2 (h1.trans hvis) with ⟨w, a1, a2, a3, a4⟩ | hc
        · refine Or.inl ⟨w, a1, a2, ?_, h4.trans a4⟩
          intro m hm
          rcases List.mem_cons.mp hm with rfl | hm
          · exact a4.subset h3
          · exact a3 m hm
        · exact Or.inr hc
      · rw [h1]
        refine Or.inr ⟨c, rfl, h2, ?_⟩
        rcases h3 with ⟨_, b, _⟩ | ⟨_, b⟩
        · rw [hvis] at b; simp at b
        · exact b

end

/-- The edge relation of a concrete graph. -/
def GEdge (g : DirectedGraph) (n m : Str) : Prop := m ∈ getSet g n

theorem tsort_spec {g : DirectedGraph} (hg : GraphWF g) :
    (∃ l, tsort g = some (.sorted l) ∧ IsTopoOrder g.keys (GEdge g) l) ∨
    (∃ c, tsort g = some (.cyclic c) ∧ (∃ x, TransGen (GEdge g) x x) ∧
      (IsReportedCycle (GEdge g) c ∨ c = [] ∧ TransGen (GEdge g) [] [])) := by
  have hE : (fun a b => b ∈ sortStrs (getSet g a)) = GEdge g := by
    funext a b; simp [GEdge]
  have hv : DfsInv (fun n => sortStrs (getSet g n)) (fun x => x ∈ g.keys)
      { visited := [], visiting := [], cycle := none, sorted := [] } := by
    constructor <;> simp
  have := tsortLoop_spec (fun n => sortStrs (getSet g n)) (fun x => x ∈ g.keys) g.keys
    (by intro x _ m hm; rw [mem_sortStrs] at hm; exact (hg.mem_keys hm).2)
    (by
      intro x hx
      obtain ⟨m, hm⟩ := List.exists_mem_of_ne_nil _ hx
      rw [mem_sortStrs] at hm; exact (hg.mem_keys hm).1)
    (g.length + 1) (by simp [GoMap.keys]) (sortStrs g.keys) (by intro n hn; simpa using hn) _ hv rfl
  rcases this with ⟨w, h1, h2, h3, _⟩ | ⟨c, h1, ⟨x, _, h2⟩, h3⟩
  · refine Or.inl ⟨w.sorted, h1, h2.nd, fun x => ⟨h2.pS x, fun hx => h3 x (by simpa using hx)⟩, ?_⟩
    intro n m hn hm
    obtain ⟨l1, l2, he⟩ := List.append_of_mem (h3 n (by simpa using hn))
    have hm' := h2.topo l1 n l2 he m (by simpa [GEdge] using hm)
    obtain ⟨a, b, hab⟩ := List.append_of_mem hm'
    exact ⟨a, b, l2, by rw [he, hab]⟩
  · rw [hE] at h2 h3
    exact Or.inr ⟨c, h1, ⟨x, h2⟩, h3⟩

theorem IsTopoOrder.acyclic {N : List Str} {E : Str → Str → Prop} {l : List Str}
    (h : IsTopoOrder N E l) (hN : ∀ n m, E n m → n ∈ N) : Acyclic E := by
  have key : ∀ n m, TransGen E n m → ∃ l1 l2 l3, l = l1 ++ m :: l2 ++ n :: l3 := by
    intro n m hnm
    induction hnm with
    | single e => exact h.before _ _ (hN _ _ e) e
    | @tail b c _ e ih =>
      obtain ⟨a1, a2, a3, ha⟩ := ih
      obtain ⟨b1, b2, b3, hb⟩ := h.before _ _ (hN _ _ e) e
      have hnd := h.nodup
      -- position of `b` is unique
      have e1 : l = a1 ++ b :: (a2 ++ n :: a3) := by rw [ha]; simp
      have e2 : l = (b1 ++ c :: b2) ++ b :: b3 := by rw [hb]
      have hu : a1 = b1 ++ c :: b2 := by
        have hnd1 := hnd; rw [e1] at hnd1
        have hb1 : b ∉ a1 := fun hb => by
          have := (List.nodup_append.mp hnd1).2.2 b hb b (by simp); exact this rfl
        have hnd2 := hnd; rw [e2] at hnd2
        have hb2 : b ∉ b1 ++ c :: b2 := fun hb => by
          have := (List.nodup_append.mp hnd2).2.2 b hb b (by simp); exact this rfl
        have := e1.symm.trans e2
        rcases List.append_eq_append_iff.mp this with ⟨t, ht, ht'⟩ | ⟨t, ht, ht'⟩
        · cases t with
          | nil => simpa using ht.symm
          | cons y t => simp at ht'; rw [ht, ht'.1] at hb2; simp at hb2
        · cases t with
          | nil => simpa using ht
          | cons y t => simp at ht'; rw [ht, ht'.1] at hb1; simp at hb1
      exact ⟨b1, b2 ++ b :: a2, a3, by rw [ha, hu]; simp⟩
  intro n hn
  obtain ⟨l1, l2, l3, e⟩ := key n n hn
  have hnd := h.nodup
  rw [e] at hnd
  have := (List.nodup_append.mp hnd).2.2 n (by simp) n (by simp)
  exact this rfl

end Verif.Dag
