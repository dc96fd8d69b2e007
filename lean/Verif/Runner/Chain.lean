import Verif.Runner.Names
import Verif.Runner.Resume

/-!
# Tasks of a target that are put in order by their dependencies
-/

namespace Verif.Runner
open Verif Dag Sched

variable {targets targets' : GoMap Str Int} {tasks tasks' : GoMap Str Task} {st st' : St}

/-- `t` comes, directly or through others, after `m`, which has a name. -/
def Behind (tasks : GoMap Str Task) : Str → Str → Prop := Relation.TransGen fun a b => After tasks a b ∧ b ≠ b!""

/-- Of any two tasks of the target `q` one comes after the other. -/
def Chain (tasks : GoMap Str Task) (q : Str) : Prop :=
  ∀ a b ta tb, tasks.get? a = some ta → tasks.get? b = some tb → ta.target = q → tb.target = q → a ≠ b →
    Behind tasks a b ∨ Behind tasks b a

/-- Two lists that are in order, and in which nothing is left out before something, agree as far as they go. -/
theorem prefix_of_chain {α : Type} {F : α → α → Prop} {S : α → Prop} (hc : ∀ a b, S a → S b → a ≠ b → F a b ∨ F b a)
    {l l' : List α} (h1 : l.Nodup) (h1' : l'.Nodup) (h2 : ∀ a ∈ l, S a) (h2' : ∀ a ∈ l', S a)
    (h3 : l.Pairwise fun a b => ¬ F a b) (h3' : l'.Pairwise fun a b => ¬ F a b)
    (h4 : ∀ a ∈ l, ∀ m, S m → F a m → m ∈ l) (h4' : ∀ a ∈ l', ∀ m, S m → F a m → m ∈ l') :
    l <+: l' ∨ l' <+: l := by
  induction l generalizing l' S with
  | nil => exact .inl List.nil_prefix
  | cons a l ih =>
    cases l' with
    | nil => exact .inr List.nil_prefix
    | cons b l' =>
      by_cases e : a = b
      · subst e
        rw [List.nodup_cons] at h1 h1'
        rw [List.pairwise_cons] at h3 h3'
        have := ih (S := fun x => S x ∧ x ≠ a) (l' := l') (fun x y hx hy => hc x y hx.1 hy.1) h1.2 h1'.2
          (fun x hx => ⟨h2 x (List.mem_cons_of_mem _ hx), fun e => h1.1 (e ▸ hx)⟩)
          (fun x hx => ⟨h2' x (List.mem_cons_of_mem _ hx), fun e => h1'.1 (e ▸ hx)⟩) h3.2 h3'.2
          (fun x hx m hm hf => (List.mem_cons.1 (h4 x (List.mem_cons_of_mem _ hx) m hm.1 hf)).resolve_left hm.2)
          (fun x hx m hm hf => (List.mem_cons.1 (h4' x (List.mem_cons_of_mem _ hx) m hm.1 hf)).resolve_left hm.2)
        rcases this with h | h
        · exact .inl ((List.prefix_cons_inj a).2 h)
        · exact .inr ((List.prefix_cons_inj a).2 h)
      · exfalso
        have sa := h2 a (by simp)
        have sb := h2' b (by simp)
        rcases hc a b sa sb e with hf | hf
        · have := (List.mem_cons.1 (h4 a (by simp) b sb hf)).resolve_left (Ne.symm e)
          exact (List.pairwise_cons.1 h3).1 b this hf
        · have := (List.mem_cons.1 (h4' b (by simp) a sa hf)).resolve_left e
          exact (List.pairwise_cons.1 h3').1 a this hf

theorem pairwise_of_split {α : Type} {R : α → α → Prop} {l : List α}
    (h : ∀ pre a post, l = pre ++ a :: post → ∀ b ∈ post, R a b) : l.Pairwise R := by
  induction l with
  | nil => exact .nil
  | cons a l ih =>
    refine List.pairwise_cons.2 ⟨h [] a l rfl, ih fun pre x post e => h (a :: pre) x post (by rw [e]; rfl)⟩

/-- The tasks a target has begun, if nothing else is known. -/
theorem Reach.begunOn_order (wf : targets.WF) (wft : tasks.WF) (h : Reach targets tasks st) (q : Str) :
    (begunOn q st.trace).Nodup ∧ (∀ a ∈ begunOn q st.trace, ∃ task, tasks.get? a = some task ∧ task.target = q) ∧
    ((begunOn q st.trace).Pairwise fun a b => ¬ Behind tasks a b) ∧
    ∀ a ∈ begunOn q st.trace, ∀ m, (∃ task, tasks.get? m = some task ∧ task.target = q) → Behind tasks a m →
      m ∈ begunOn q st.trace := by
  obtain ⟨c1, c2, -⟩ := C19_run_at_most_once_one_per_target wf wft h
  have own : ∀ {st : St} (_ : Reach targets tasks st) {a m : Str}, .handleStart q a ∈ st.trace →
      (∃ task, tasks.get? m = some task ∧ task.target = q) → Behind tasks a m → .handleEnd q m true ∈ st.trace := by
    intro st h a m ha hm hb
    obtain ⟨q', hq'⟩ := (C138_killed_partial wf wft h).1 q a ha m hb
    obtain ⟨task, g1, g2⟩ := (C19_run_at_most_once_one_per_target wf wft h).2.1 q' m ((h.inv wf wft).2.endTr _ _ _ hq')
    obtain ⟨task', g3, g4⟩ := hm
    rw [g1] at g3
    cases g3
    rw [g2] at g4
    exact g4 ▸ hq'
  refine ⟨begunOn_nodup c1, fun a ha => c2 q a (mem_begunOn.1 ha), ?_, fun a ha m hm hb => ?_⟩
  · have hnd := begunOn_nodup (q := q) c1
    unfold begunOn at hnd ⊢
    rw [List.pairwise_filterMap]
    refine pairwise_of_split fun pre e post he e' he' a hea b heb hb => ?_
    cases e with
    | handleStart q1 a1 =>
      cases e' with
      | handleStart q2 b1 =>
        simp only [Option.ite_none_right_eq_some, Option.some.injEq] at hea heb
        obtain ⟨rfl, rfl⟩ := hea
        obtain ⟨rfl, rfl⟩ := heb
        obtain ⟨st0, st1, r0, hs, e0, e1⟩ := h.split he
        have r1 := Reach.step r0 hs
        have := own r1 (a := a1) (m := b1) (by rw [e1]; simp)
          (c2 _ _ (by rw [he]; exact List.mem_append_right _ (List.mem_cons_of_mem _ he'))) hb
        have := (r1.inv wf wft).2.endTr _ _ _ this
        rw [e1] at this
        rw [he, List.filterMap_append, List.nodup_append] at hnd
        rcases List.mem_append.1 this with hp | hp
        · refine hnd.2.2 b1 ?_ b1 ?_ rfl
          · exact List.mem_filterMap.2 ⟨_, hp, by simp⟩
          · exact List.mem_filterMap.2 ⟨_, List.mem_cons_of_mem _ he', by simp⟩
        · simp only [List.mem_singleton, Event.handleStart.injEq, true_and] at hp
          subst hp
          have := hnd.2.1
          rw [List.filterMap_cons_some (by simp : _ = some b1), List.nodup_cons] at this
          exact this.1 (List.mem_filterMap.2 ⟨_, he', by simp⟩)
      | _ => cases heb
    | _ => cases hea
  · exact mem_begunOn.2 ((h.inv wf wft).2.endTr _ _ _ (own h (mem_begunOn.1 ha) hm hb))

theorem after_perm (wft : tasks.WF) (ht : tasks.Perm tasks') : After tasks = After tasks' := by
  funext t m
  unfold After
  rw [GoMap.get?_perm wft ht]

/-- **C151.** The dependencies put the tasks of a target in order: of any two of them one comes after the other, directly or
through other tasks, of whatever targets.  Compare two runs, each at any moment, with any schedule, any outcomes, any limits
of concurrency and the entries of Go's maps listed in any order: the tasks the target has begun in the one are, in the same
order, the first it has begun in the other, or the other way round. -/
theorem C151_same_order (wf : targets.WF) (wft : tasks.WF) (wf' : targets'.WF) (ht : tasks.Perm tasks') {q : Str}
    (hq : Chain tasks q) (h : Reach targets tasks st) (h' : Reach targets' tasks' st') :
    begunOn q st.trace <+: begunOn q st'.trace ∨ begunOn q st'.trace <+: begunOn q st.trace := by
  have wft' : tasks'.WF := (ht.map Prod.fst).nodup_iff.1 wft
  obtain ⟨a1, a2, a3, a4⟩ := h.begunOn_order wf wft q
  obtain ⟨b1, b2, b3, b4⟩ := h'.begunOn_order wf' wft' q
  have eb : Behind tasks' = Behind tasks := by unfold Behind; rw [after_perm wft ht]
  have eg : ∀ k, tasks'.get? k = tasks.get? k := fun k => (GoMap.get?_perm wft ht k).symm
  simp only [eb, eg] at b2 b3 b4
  exact prefix_of_chain (S := fun a => ∃ task, tasks.get? a = some task ∧ task.target = q)
    (fun a b ⟨ta, g1, g2⟩ ⟨tb, g3, g4⟩ hne => hq a b ta tb g1 g3 g2 g4 hne) a1 b1 a2 b2 a3 b3 a4 b4

/-- **C151, the order.** A task that comes after another of the same target is begun after it. -/
theorem C151_in_order (wf : targets.WF) (wft : tasks.WF) {q : Str} (hq : Chain tasks q) (h : Reach targets tasks st) :
    (begunOn q st.trace).Pairwise fun a b => Behind tasks b a := by
  obtain ⟨a1, a2, a3, -⟩ := h.begunOn_order wf wft q
  refine (a1.and a3).imp_of_mem fun {a b} ha hb hn => ?_
  obtain ⟨ta, g1, g2⟩ := a2 a ha
  obtain ⟨tb, g3, g4⟩ := a2 b hb
  exact (hq a b ta tb g1 g3 g2 g4 hn.1).resolve_left hn.2

/-- A run that has returned nil has begun all tasks of every target, or none at all. -/
theorem begunOn_all (wf : targets.WF) (wft : tasks.WF) (h : Reach targets tasks st) (hret : st.main = .returned none)
    (hv : ValidDeps tasks) {q a : Str} {task : Task} (hg : tasks.get? a = some task) (hq : task.target = q) :
    a ∈ begunOn q st.trace := by
  obtain ⟨-, q', hq'⟩ := C20_nil_means_all_succeeded_partial wf wft hv h hret a (GoMap.mem_keys_of_get? hg)
  have hs := (h.inv wf wft).2.endTr _ _ _ hq'
  obtain ⟨task', g1, g2⟩ := (C19_run_at_most_once_one_per_target wf wft h).2.1 _ _ hs
  rw [hg] at g1
  cases g1
  rw [hq] at g2
  exact mem_begunOn.2 (g2 ▸ hs)

/-- **C151, successful runs.** Two runs that return nil have begun the same tasks of the target in the same order. -/
theorem C151_success (wf : targets.WF) (wft : tasks.WF) (wf' : targets'.WF) (ht : tasks.Perm tasks') {q : Str}
    (hq : Chain tasks q) (h : Reach targets tasks st) (h' : Reach targets' tasks' st') (hret : st.main = .returned none)
    (hret' : st'.main = .returned none) : begunOn q st.trace = begunOn q st'.trace := by
  have wft' : tasks'.WF := (ht.map Prod.fst).nodup_iff.1 wft
  have none_of : ∀ {targets tasks st}, GoMap.WF targets → GoMap.WF tasks → ¬ ValidDeps tasks → Reach targets tasks st →
      begunOn q st.trace = [] := by
    intro targets tasks st wf wft hv h
    rw [List.eq_nil_iff_forall_not_mem]
    intro t ht
    have := mem_executed.2 ⟨q, mem_begunOn.1 ht⟩
    rw [nothing_executed wf wft hv h] at this
    cases this
  by_cases hv : ValidDeps tasks
  swap
  · rw [none_of wf wft hv h, none_of wf' wft' (fun hv' => hv (validDeps_perm wft' ht.symm hv')) h']
  have hv' := validDeps_perm wft ht hv
  have eg : ∀ k, tasks'.get? k = tasks.get? k := fun k => (GoMap.get?_perm wft ht k).symm
  have eq_of : ∀ {l l' : List Str}, l'.Nodup → l <+: l' → (∀ a ∈ l', a ∈ l) → l = l' := by
    rintro l _ hn ⟨r, rfl⟩ ha
    cases r with
    | nil => simp
    | cons a r => exact absurd rfl ((List.nodup_append.1 hn).2.2 a (ha a (by simp)) a (by simp))
  obtain ⟨a1, a2, -⟩ := h.begunOn_order wf wft q
  obtain ⟨b1, b2, -⟩ := h'.begunOn_order wf' wft' q
  rcases C151_same_order wf wft wf' ht hq h h' with p | p
  · refine eq_of b1 p fun a ha => ?_
    obtain ⟨task, g1, g2⟩ := b2 a ha
    exact begunOn_all wf wft h hret hv (eg a ▸ g1) g2
  · refine (eq_of a1 p fun a ha => ?_).symm
    obtain ⟨task, g1, g2⟩ := a2 a ha
    exact begunOn_all wf' wft' h' hret' hv' ((eg a).trans g1) g2

def chainTasks : GoMap Str Task := [(b!"a", ⟨b!"x", []⟩), (b!"b", ⟨b!"y", [b!"a"]⟩), (b!"c", ⟨b!"x", [b!"b"]⟩)]

/-- c comes after a because it comes after b, a task of another target. -/
example : Chain chainTasks b!"x" ∧ Chain chainTasks b!"y" := by
  have ca : Behind chainTasks b!"c" b!"a" :=
    .tail (b := b!"b") (.single ⟨⟨_, rfl, by decide⟩, by decide⟩) ⟨⟨_, rfl, by decide⟩, by decide⟩
  constructor <;>
  · intro a b ta tb h1 h2 h3 h4 hne
    have h1 := GoMap.mem_of_get? h1
    have h2 := GoMap.mem_of_get? h2
    simp only [chainTasks, List.mem_cons, Prod.mk.injEq, List.not_mem_nil, or_false] at h1 h2
    rcases h1 with ⟨rfl, rfl⟩ | ⟨rfl, rfl⟩ | ⟨rfl, rfl⟩ <;> rcases h2 with ⟨rfl, rfl⟩ | ⟨rfl, rfl⟩ | ⟨rfl, rfl⟩ <;>
      first
        | exact absurd h3 (by decide)
        | exact absurd h4 (by decide)
        | exact absurd rfl hne
        | exact .inl ca
        | exact .inr ca

end Verif.Runner
