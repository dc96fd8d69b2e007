import Verif.Run.Sequence

/-!
# C108: nothing but a failing task or connection keeps a run from succeeding
-/

namespace Verif.Run
open Verif Book Spec

variable {dec : Decoder} {basedir : Str} {proc : Proc} {src : Src} {book : Runbook} {st : Runner.St} {w : World}

/-- Connecting succeeds if every attempt is accepted. -/
theorem connectLoop_true (cfg : Pg.ConnConfig) (max : Int) (n delay : Nat) (conn : Option Nat)
    (h : (n : Int) ≤ max ∨ conn ≠ none) : ∃ i, (Pg.connectLoop (fun _ => true) cfg max n delay conn).2 = .conn i := by
  fun_induction Pg.connectLoop (fun _ => true) cfg max n delay conn with
  | case1 n delay conn hn _ r ih => exact ih (.inr (by simp))
  | case2 n delay conn hn h' => simp at h'
  | case3 n delay conn hn h' => simp at h'
  | case4 n delay conn hn =>
    rcases h with h | h
    · exact absurd h hn
    · cases conn with
      | none => exact absurd rfl h
      | some i => exact ⟨i, rfl⟩

theorem configure_some {env : Pg.ConnConfig} {o : Pg.Options} (h : o.sslMode = [] ∨ o.sslMode ∈ Pg.sslModes) :
    ∃ cfg, Pg.configure env o = .ok cfg := by
  have key : ∀ (cfg : Pg.ConnConfig) m, m ∈ Pg.sslModes → ∃ cfg', Pg.applySSLMode cfg m = .ok cfg' := by
    intro cfg m hm
    simp only [Pg.sslModes, List.mem_cons, List.not_mem_nil, or_false] at hm
    rcases hm with rfl | rfl | rfl | rfl | rfl <;> exact ⟨_, rfl⟩
  unfold Pg.configure
  simp only
  by_cases h1 : o.sslMode = [] ∧ Pg.firstOfString o.password env.password ≠ []
  · rw [if_pos h1, if_pos (by decide)]
    exact key _ _ (by decide)
  · rw [if_neg h1]
    by_cases h2 : o.sslMode = []
    · rw [if_neg (by simpa using h2)]
      exact ⟨_, rfl⟩
    · rw [if_pos h2]
      exact key _ _ (h.resolve_left h2)

/-- The settings of a target with which it can be connected to: the environment is well formed, so is the `sslmode`,
and at least one attempt is made. -/
def Connectable (proc : Proc) (t : PgTarget) : Prop :=
  (∃ env, proc.libpq = .ok env) ∧ (t.sslmode = [] ∨ t.sslmode ∈ Pg.sslModes) ∧ 0 ≤ t.connectRetries

theorem start_true {t : Target} (h : ∀ p, t = .pg p → Connectable proc p) :
    ∃ net t' conn, start proc (fun _ => true) t = (net, some (t', conn)) := by
  cases t with
  | pg t =>
    obtain ⟨⟨env, e1⟩, e2, e3⟩ := h t rfl
    obtain ⟨cfg, e4⟩ := configure_some (env := env) (o := options t) e2
    obtain ⟨i, hi⟩ := connectLoop_true cfg (options t).connectRetries 0 100 none (.inl (by simpa [options] using e3))
    refine ⟨(Pg.connectLoop (fun _ => true) cfg (options t).connectRetries 0 100 none).1, .pg t, some true, ?_⟩
    simp only [start, Pg.new, e1, e4]
    rw [hi]
  | sh t => exact ⟨_, _, _, rfl⟩
  | demo t => exact ⟨_, _, _, rfl⟩

/-- Nothing has failed. -/
def Calm (st : Runner.St) : Prop := (∀ q, .startFailed q ∉ st.trace) ∧ ∀ q t, .handleEnd q t false ∉ st.trace

/-- Where only failing would lead on, nothing does. -/
theorem calm_step (hj : Json dec) (hw1 : src.targets.WF) (hw2 : src.tasks.WF)
    (h : Reach dec basedir proc src (.running book st w)) (hc : Calm st)
    (hfail : ∀ q f, ¬ IsTask book q .fail f) (hconn : ∀ q t, (q, .pg t) ∈ book.targets → Connectable proc t)
    {s' : Runner.St × World} (ha : Act proc book (st, w) s') : ∃ s'', Act proc book (st, w) s'' ∧ Calm s''.1 := by
  have hp := parsed hj hw1 hw2 h.parse
  have hi := h.inv hj hw1 hw2
  have ext : ∀ e : Runner.Event, (∀ q, e ≠ .startFailed q) → (∀ q t, e ≠ .handleEnd q t false) →
      ∀ tr : List Runner.Event, (∀ q, .startFailed q ∉ tr) ∧ (∀ q t, .handleEnd q t false ∉ tr) →
      (∀ q, .startFailed q ∉ tr ++ [e]) ∧ ∀ q t, .handleEnd q t false ∉ tr ++ [e] := by
    intro e h1 h2 tr htr
    constructor
    · intro q hin
      rcases List.mem_append.1 hin with hin | hin
      · exact htr.1 q hin
      · exact h1 q (List.mem_singleton.1 hin).symm
    · intro q t hin
      rcases List.mem_append.1 hin with hin | hin
      · exact htr.2 q t hin
      · exact h2 q t (List.mem_singleton.1 hin).symm
  have hnp : ¬ Panics book st w := h.noPanics hj hw1 hw2
    (fun q p hq => (hconn q p (GoMap.mem_of_get? hq)).2.2)
  have beginning : ∀ {q rest tgt}, st.main = .starting (q :: rest) → w.targets.get? q = some tgt →
      ∃ s'', Act proc book (st, w) s'' ∧ Calm s''.1 := by
    intro q rest tgt hm hq
    obtain ⟨t, ht, hnow⟩ := hi.get hq
    obtain ⟨net, t', conn, e⟩ := start_true (proc := proc) (t := tgt) (by
      rintro p rfl
      cases t with
      | pg t => simp only [Now] at hnow; cases hnow; exact hconn q _ (GoMap.mem_of_get? ht)
      | sh t => simp only [Now] at hnow; cases hnow
      | demo t => obtain ⟨_, e, _⟩ := hnow; cases e)
    exact ⟨_, Act.started q rest tgt t' conn net _ hm hq e, ext _ (by simp) (by simp) _ hc⟩
  cases ha with
  | started q rest tgt tgt' conn net ok hm hq hs => exact beginning hm hq
  | startFailed q rest tgt net ok hm hq hs => exact beginning hm hq
  | handled q t task tgt tgt' ok out calls e hr ht hq hh =>
    rcases e : handle q tgt (w.conns.get? q) task.config w.stdout (true, []) with _ | ⟨ok, u', out, calls⟩
    · exact absurd (Panics.handle q t task tgt _ hr ht hq e) hnp
    · refine ⟨_, Act.handled q t task tgt u' ok out calls (true, []) hr ht hq e, ext _ (by simp) ?_ _ hc⟩
      rintro q' t' ⟨⟩
      obtain ⟨task', ht', hown⟩ := running_own hp h.runner hr
      rw [ht] at ht'
      cases ht'
      obtain ⟨tgt0, h1, h2⟩ := hp.task t task ht
      rw [hown] at h1
      obtain ⟨t0, h3, h4⟩ := hi.get hq
      rw [h1] at h3
      cases h3
      cases tgt0 with
      | pg p =>
        simp only [Now] at h4
        subst h4
        obtain ⟨sql, e'⟩ := h2
        rw [e'] at e
        simp only [handle] at e
        split at e <;> simp at e
      | sh p =>
        simp only [Now] at h4
        subst h4
        obtain ⟨a, b, c, e'⟩ := h2
        rw [e'] at e
        simp only [handle] at e
        split at e <;> simp at e
      | demo p =>
        obtain ⟨d, rfl, _⟩ := h4
        simp only at h2
        rcases h2 with e' | e' | e' | e' | ⟨x, e'⟩ <;> rw [e'] at e
        · simp [handle, munge] at e
        · exact hfail q t ⟨task, GoMap.mem_of_get? ht, hown, e'⟩
        · simp only [handle, munge] at e
          cases hr : Demo.rev { d with stdout := w.stdout } <;> simp [hr] at e
        · simp [handle, munge] at e
        · simp [handle, munge] at e
  | stopped q tgt closes hs hq e =>
    exact ⟨_, Act.stopped q tgt closes hs hq e, ext _ (by simp) (by simp) _ hc⟩
  | other hs h1 h2 h3 h4 =>
    refine ⟨_, Act.other hs h1 h2 h3 h4, ?_⟩
    cases hs with
    | targetStartFail => exact absurd rfl (h2 _)
    | handleEnd => exact absurd rfl (h3 _ _ _)
    | targetStart => exact ext _ (by simp) (by simp) _ hc
    | routerSend => exact ext _ (by simp) (by simp) _ hc
    | targetStop => exact ext _ (by simp) (by simp) _ hc
    | _ => exact hc

/-- **C108.** A file with tasks, none of them a `fail` task, whose connections are properly set up: from every state in
which nothing has failed the run can go on to one in which `Run` has returned nil; and wherever nothing can happen any
more and nothing has failed, it has.  If the dependencies are in order, all tasks have then been carried out (C85,
C86). -/
theorem C108_can_succeed (hj : Json dec) (hw1 : src.targets.WF) (hw2 : src.tasks.WF) (hne : src.tasks ≠ [])
    (h : Reach dec basedir proc src (.running book st w))
    (hfail : ∀ q f, ¬ IsTask book q .fail f) (hconn : ∀ q t, (q, .pg t) ∈ book.targets → Connectable proc t)
    (hs : ∀ q, .startFailed q ∉ st.trace) (hok : ∀ q t, .handleEnd q t false ∉ st.trace) :
    (∃ st' w', Relation.ReflTransGen (Act proc book) (st, w) (st', w') ∧
      Reach dec basedir proc src (.running book st' w') ∧ st'.main = .returned none) ∧
    ((∀ s', ¬ Act proc book (st, w) s') → st.main = .returned none) := by
  have hp := parsed hj hw1 hw2 h.parse
  have fin : ∀ {st w}, Reach dec basedir proc src (.running book st w) → Calm st →
      (∀ s', ¬ Act proc book (st, w) s') → st.main = .returned none := by
    intro st w h hc hend
    have hnp : ¬ Panics book st w := h.noPanics hj hw1 hw2 (fun q p hq => (hconn q p (GoMap.mem_of_get? hq)).2.2)
    exact Runner.C21_no_deadlock_when_all_succeed_partial hp.wf1 hp.wf2 hp.validTargets hp.limits
      (fun hnil => hne ((jobs_nil hw1 hw2 h.parse).1 hnil)) h.runner hc.1 hc.2 (h.terminal hj hw1 hw2 hnp hend)
  refine ⟨?_, fin h ⟨hs, hok⟩⟩
  have hc : Calm st := ⟨hs, hok⟩
  clear hs hok
  generalize hn : Runner.measure (limits book) (jobs book) st = n
  induction n using Nat.strong_induction_on generalizing st w with
  | _ n ih =>
    by_cases hst : ∃ s', Act proc book (st, w) s'
    · obtain ⟨s', ha⟩ := hst
      obtain ⟨⟨st1, w1⟩, ha, hc1⟩ := calm_step hj hw1 hw2 h hc hfail hconn ha
      obtain ⟨hc', hf'⟩ := h.runner.inv hp.wf1 hp.wf2
      have := Runner.measure_decreases hp.wf1 hp.wf2 hc' hf' ha.step
      obtain ⟨st2, w2, h1, h2⟩ := ih _ (hn ▸ this) (Reach.act h ha) hc1 rfl
      exact ⟨st2, w2, Relation.ReflTransGen.head ha h1, h2⟩
    · exact ⟨st, w, .refl, h, fin h hc fun s' ha => hst ⟨s', ha⟩⟩

/-- A run that succeeds exists, if the channels can be made. -/
theorem exists_success (hj : Json dec) (hw1 : src.targets.WF) (hw2 : src.tasks.WF) (hne : src.tasks ≠ [])
    (hb : parse dec basedir src = .ok book) (hm : Runner.capacity (limits book) ≤ proc.maxChan)
    (hfail : ∀ q f, ¬ IsTask book q .fail f) (hconn : ∀ q t, (q, .pg t) ∈ book.targets → Connectable proc t) :
    ∃ st w, Reach dec basedir proc src (.running book st w) ∧ st.main = .returned none := by
  obtain ⟨⟨st, w, _, h, hr⟩, _⟩ := C108_can_succeed hj hw1 hw2 hne
    (Reach.start hb hm (limits book).keys (List.Perm.refl _)) hfail hconn (by simp [Runner.init]) (by simp [Runner.init])
  exact ⟨st, w, h, hr⟩

end Verif.Run
