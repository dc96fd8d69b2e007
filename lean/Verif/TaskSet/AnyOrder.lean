import Verif.TaskSet.Bound
import Verif.TaskSet.RunProps
import Mathlib.Data.List.Induction

/-!
# C168: the tasks of a batch begin and end in any order
-/

namespace Verif.TaskSet

variable {τ ε : Type} [DecidableEq τ] {cap : Nat} {s : St τ ε}

/-! ## Specification -/

/-- It is this task that begins. -/
def TaskEv.isBegin (t : τ) : TaskEv τ ε → Bool
  | .begins u => u = t
  | .ends _ _ => false

/-- It is this task that ends. -/
def TaskEv.isEnd (t : τ) : TaskEv τ ε → Bool
  | .begins _ => false
  | .ends u _ => u = t

/-- No task begins more often than it has been sent, and at no time has a task ended more often than it has begun. -/
structure InSomeOrder (batch : List τ) (tr : List (TaskEv τ ε)) : Prop where
  sent : ∀ t, tr.countP (TaskEv.isBegin t) ≤ batch.count t
  begun : ∀ p, p <+: tr → ∀ t, p.countP (TaskEv.isEnd t) ≤ p.countP (TaskEv.isBegin t)

/-- The task and its outcome, if one ends. -/
def TaskEv.outcome : TaskEv τ ε → Option (τ × ε)
  | .begins _ => none
  | .ends t e => some (t, e)

/-! ## Lemmas -/

theorem Seen.counts {tr : List (TaskEv τ ε)} (h : Seen cap tr s) (t : τ) :
    tr.countP (TaskEv.isBegin t) = s.started.count t ∧ tr.countP (TaskEv.isEnd t) = (s.ran.map Prod.fst).count t := by
  induction h with
  | init => simp
  | other _ _ h1 h2 ih => rw [h1, h2]; exact ih
  | begins _ _ u h1 h2 ih =>
    rw [h1, h2]
    simp only [List.countP_append, List.count_append, ih.1, ih.2]
    by_cases e : u = t <;> simp [TaskEv.isBegin, TaskEv.isEnd, e]
  | ends _ _ u x h1 h2 ih =>
    rw [h1, h2]
    simp only [List.map_append, List.countP_append, List.count_append, ih.1, ih.2]
    by_cases e : u = t <;> simp [TaskEv.isBegin, TaskEv.isEnd, e]

theorem Seen.inv {tr : List (TaskEv τ ε)} (h : Seen cap tr s) : Inv cap s :=
  inv_of_reachable ((C167_all_seen cap s).mpr ⟨tr, h⟩)

theorem Seen.now {tr : List (TaskEv τ ε)} (h : Seen cap tr s) (t : τ) :
    tr.countP (TaskEv.isEnd t) ≤ tr.countP (TaskEv.isBegin t) ∧ tr.countP (TaskEv.isBegin t) ≤ s.submitted.count t := by
  obtain ⟨a, b⟩ := h.counts t
  have c := h.inv.submitted.count_eq t
  have d := h.inv.started.count_eq t
  simp only [List.count_append] at c d
  omega

theorem Seen.always {tr : List (TaskEv τ ε)} (h : Seen cap tr s) :
    ∀ p, p <+: tr → ∀ t, p.countP (TaskEv.isEnd t) ≤ p.countP (TaskEv.isBegin t) := by
  induction h with
  | init => intro p hp t; simp [List.prefix_nil.mp hp]
  | other _ _ _ _ ih => exact ih
  | begins h hs u h1 h2 ih =>
    intro p hp t
    rcases List.prefix_concat_iff.mp hp with rfl | hp
    · exact ((Seen.begins h hs u h1 h2).now t).1
    · exact ih p hp t
  | ends h hs u x h1 h2 ih =>
    intro p hp t
    rcases List.prefix_concat_iff.mp hp with rfl | hp
    · exact ((Seen.ends h hs u x h1 h2).now t).1
    · exact ih p hp t

theorem InSomeOrder.seen (cap : Nat) (batch : List τ) : ∀ {tr : List (TaskEv τ ε)}, InSomeOrder batch tr →
    ∃ (s : St τ ε) (rest : List τ), Seen cap tr s ∧ s.pc = .spawn rest ∧ s.queue = [] ∧ s.submitted = batch ∧
      s.results = [] ∧ s.received = [] := by
  intro tr
  induction tr using List.reverseRecOn with
  | nil =>
    intro _
    exact ⟨_, batch, .other .init (.inl (.sendDirect _ batch rfl rfl rfl)) rfl rfl, rfl, rfl, rfl, rfl, rfl⟩
  | append_singleton tr x ih =>
    intro h
    obtain ⟨s, rest, h1, h2, h3, h4, h5⟩ := ih ⟨fun t => by have := h.sent t; rw [List.countP_append] at this; omega,
      fun p hp => h.begun p (hp.trans (List.prefix_append _ _))⟩
    cases x with
    | begins t =>
      have a := h.sent t
      obtain ⟨b, -⟩ := h1.counts t
      have c := h1.inv.submitted.count_eq t
      simp [h2, h3, h4, Pc.rest] at c
      simp [TaskEv.isBegin] at a
      obtain ⟨l, r, rfl⟩ := List.append_of_mem (List.count_pos_iff.mp (show 0 < rest.count t by omega))
      exact ⟨_, l ++ r, .begins h1 (.inr (.spawn s l r t h2)) t rfl rfl, rfl, h3, h4, h5⟩
    | ends t e =>
      have a := h.begun _ (List.prefix_refl _) t
      obtain ⟨b, b'⟩ := h1.counts t
      have c := h1.inv.started.count_eq t
      rw [List.count_append] at c
      simp [TaskEv.isBegin, TaskEv.isEnd] at a
      obtain ⟨l, r, hl⟩ := List.append_of_mem (List.count_pos_iff.mp (show 0 < s.executing.count t by omega))
      exact ⟨_, rest, .ends h1 (.inr (.finish s l r t e hl)) t e rfl rfl, h2, h3, h4, h5⟩

theorem Seen.outcomes {tr : List (TaskEv τ ε)} (h : Seen cap tr s) : s.ran = tr.filterMap TaskEv.outcome := by
  induction h with
  | init => rfl
  | other _ _ _ h2 ih => rw [h2]; exact ih
  | begins _ _ u h1 h2 ih => rw [h2, ih]; simp [TaskEv.outcome]
  | ends _ _ u x h1 h2 ih => rw [h2, ih]; simp [TaskEv.outcome]

theorem Seen.deliver {tr : List (TaskEv τ ε)} : ∀ {rs : List (τ × ε)} {s : St τ ε}, Seen cap tr s → s.pc = .select →
    s.results = [] → rs.Subperm s.finished →
    ∃ s', Seen cap tr s' ∧ s'.submitted = s.submitted ∧ s'.received = s.received ++ rs
  | [], s, h, _, _, _ => ⟨s, h, rfl, by simp⟩
  | r :: rs, s, h, hp, hr, hf => by
    obtain ⟨l, l', hl⟩ := List.append_of_mem (hf.subset List.mem_cons_self)
    have hsub : rs.Subperm (l ++ l') := by
      rw [hl] at hf
      exact (List.subperm_cons r).mp (hf.trans List.perm_middle.subperm)
    have h1 := Seen.other h (.inr (.relay s l l' r hp hl)) rfl rfl
    have h2 := Seen.other h1 (.inr (.recvDirect _ r hr rfl)) rfl rfl
    obtain ⟨s', a, b, c⟩ := Seen.deliver (rs := rs) h2 rfl hr hsub
    exact ⟨s', a, b, by rw [c]; simp⟩

/-! ## C168 -/

/-- **C168.** What can be seen of the tasks once the client has sent certain tasks is exactly this: each begins no more often
than it was sent and ends no more often than it has begun, with any outcome and in any order; and one batch is enough for all
of that. -/
theorem C168_any_order (cap : Nat) (batch : List τ) (tr : List (TaskEv τ ε)) :
    (∃ s, Seen cap tr s ∧ s.submitted = batch) ↔ InSomeOrder batch tr := by
  constructor
  · rintro ⟨s, h, rfl⟩
    exact ⟨fun t => (h.now t).2, h.always⟩
  · intro h
    obtain ⟨s, -, h1, -, -, h2, -⟩ := h.seen cap batch
    exact ⟨s, h1, h2⟩

/-- **C168, results.** When all tasks that were sent have begun, the client may have got the outcomes of any of those that
have ended, in any order, and nothing else. -/
theorem C168_results (cap : Nat) (batch : List τ) (tr : List (TaskEv τ ε))
    (hall : ∀ t, tr.countP (TaskEv.isBegin t) = batch.count t) (rs : List (τ × ε)) :
    (∃ s, Seen cap tr s ∧ s.submitted = batch ∧ s.received = rs) ↔
      InSomeOrder batch tr ∧ rs.Subperm (tr.filterMap TaskEv.outcome) := by
  constructor
  · rintro ⟨s, h, rfl, rfl⟩
    refine ⟨(C168_any_order cap _ tr).mp ⟨s, h, rfl⟩, ?_⟩
    rw [← h.outcomes]
    exact (List.sublist_append_right _ _).subperm.trans h.inv.ran.symm.subperm
  · rintro ⟨h, hrs⟩
    obtain ⟨s, rest, h1, h2, h3, h4, h5, h6⟩ := h.seen cap batch
    have hrest : rest = [] := by
      rw [List.eq_nil_iff_forall_not_mem]
      intro t ht
      have a := hall t
      have b := (h1.counts t).1
      have c := h1.inv.submitted.count_eq t
      simp [h2, h3, h4, Pc.rest] at c
      have := List.count_pos_iff.mpr ht
      omega
    subst hrest
    have hran := h1.inv.ran
    simp [h2, h5, h6, Pc.hand] at hran
    rw [← h1.outcomes] at hrs
    obtain ⟨s', a, b, c⟩ := Seen.deliver (rs := rs) (Seen.other h1 (.inr (.spawned s h2)) rfl rfl) rfl h5
      (hrs.trans hran.subperm)
    exact ⟨s', a, b.trans h4, by rw [c]; simp [h6]⟩

/-- `C168_results` is about something: two tasks have ended, and the client has got the outcome of the one that ended last. -/
example : (∀ t, ([.begins 1, .begins 2, .ends 2 false, .ends 1 true] : List (TaskEv Nat Bool)).countP (TaskEv.isBegin t) =
      [1, 2].count t) ∧
    ∃ s, Seen (τ := Nat) (ε := Bool) 1 [.begins 1, .begins 2, .ends 2 false, .ends 1 true] s ∧ s.submitted = [1, 2] ∧
      s.received = [(1, true)] := by
  constructor
  · intro t; simp [TaskEv.isBegin, List.countP_cons, List.count_cons]
  · have h0 : Seen (τ := Nat) (ε := Bool) 1 [] _ := .other .init (.inl (.sendDirect _ [1, 2] rfl rfl rfl)) rfl rfl
    have h1 := Seen.begins h0 (.inr (.spawn _ [] [2] 1 rfl)) 1 rfl rfl
    have h2 := Seen.begins h1 (.inr (.spawn _ [] [] 2 rfl)) 2 rfl rfl
    have h3 := Seen.ends h2 (.inr (.finish _ [1] [] 2 false rfl)) 2 false rfl rfl
    have h4 := Seen.ends h3 (.inr (.finish _ [] [] 1 true rfl)) 1 true rfl rfl
    have h5 := Seen.other h4 (.inr (.spawned _ rfl)) rfl rfl
    have h6 := Seen.other h5 (.inr (.relay _ [(2, false)] [] (1, true) rfl rfl)) rfl rfl
    exact ⟨_, .other h6 (.inr (.recvDirect _ (1, true) rfl rfl)) rfl rfl, rfl, rfl⟩

/-- C168 is about something: of three tasks the last begins first and the second ends before the first begins; and a task
that ends before it begins is not in some order. -/
example : InSomeOrder (ε := Bool) [1, 2, 3] [.begins 3, .begins 2, .ends 2 false, .begins 1, .ends 1 true, .ends 3 true] ∧
    ¬ InSomeOrder (ε := Bool) [1, 2, 3] [.ends 3 true, .begins 3] := by
  constructor
  · rw [← C168_any_order 1]
    have h0 : Seen (τ := Nat) (ε := Bool) 1 [] _ := .other .init (.inl (.sendDirect _ [1, 2, 3] rfl rfl rfl)) rfl rfl
    have h1 := Seen.begins h0 (.inr (.spawn _ [1, 2] [] 3 rfl)) 3 rfl rfl
    have h2 := Seen.begins h1 (.inr (.spawn _ [1] [] 2 rfl)) 2 rfl rfl
    have h3 := Seen.ends h2 (.inr (.finish _ [3] [] 2 false rfl)) 2 false rfl rfl
    have h4 := Seen.begins h3 (.inr (.spawn _ [] [] 1 rfl)) 1 rfl rfl
    have h5 := Seen.ends h4 (.inr (.finish _ [3] [] 1 true rfl)) 1 true rfl rfl
    have h6 := Seen.ends h5 (.inr (.finish _ [] [] 3 true rfl)) 3 true rfl rfl
    exact ⟨_, h6, rfl⟩
  · intro h
    exact absurd (h.begun [.ends 3 true] ⟨[.begins 3], rfl⟩ 3) (by decide)

end Verif.TaskSet
