import Verif.Runner.Examples

/-!
# C105, C106: what a task has to wait for
-/

namespace Verif.Runner
open Verif Dag Sched

/-! ## The words -/

/-- From `st` the program can come to `st'` without any `Handle` returning. -/
def Quietly (targets : GoMap Str Int) (tasks : GoMap Str Task) : St → St → Prop :=
  Relation.ReflTransGen fun a b => Step targets tasks a b ∧ ∀ q t ok, b.trace ≠ a.trace ++ [.handleEnd q t ok]

/-- `Handle` of target `q` has been called for task `t` and has not returned. -/
def InProgress (st : St) (q t : Str) : Prop :=
  .handleStart q t ∈ st.trace ∧ ∀ ok, .handleEnd q t ok ∉ st.trace

/-- Nothing has failed, and every target has been started. -/
structure Fine (targets : GoMap Str Int) (st : St) : Prop where
  started : ∀ q ∈ targets.keys, .started q ∈ st.trace
  starts : ∀ q, .startFailed q ∉ st.trace
  handles : ∀ q t, .handleEnd q t false ∉ st.trace

variable {targets : GoMap Str Int} {tasks : GoMap Str Task}

/-! ## Lemmas -/

theorem nRuns_pos {st : St} {q t : Str} (hq : q ∈ targets.keys)
    (h : st.tgt q = .running t) : 1 ≤ nRuns targets st t := by
  unfold nRuns
  rw [Nat.one_le_iff_ne_zero, ← Nat.pos_iff_ne_zero, List.countP_pos_iff]
  exact ⟨q, hq, by simp [h, TgtPC.runs]⟩

/-- A task that was handed out and not started is on its way to its target. -/
theorem on_its_way (wf : targets.WF) (wft : tasks.WF) {st : St} (h : Reach targets tasks st) {q t : Str}
    (ho : (q, t) ∈ st.out) (hn : .handleStart q t ∉ st.trace) : (q, t) ∈ st.before := by
  obtain ⟨hc, hf⟩ := h.inv wf wft
  have h0 : starts st.trace t = 0 := by
    rw [starts, List.countP_eq_zero]
    intro e he hs
    cases e with
    | handleStart q' t' =>
      have : t' = t := by simpa [Event.isStart] using hs
      subst this
      have ho' := hf.runOut _ _ he
      rcases hf.protocol with e | ⟨s, hp⟩
      · rw [e] at ho; cases ho
      · obtain ⟨k1, h1, h2⟩ := (C13_handed_out_once_on_own_target wft hp.history).2 _ _ ho
        obtain ⟨k2, h3, h4⟩ := (C13_handed_out_once_on_own_target wft hp.history).2 _ _ ho'
        rw [h1] at h3
        cases h3
        rw [h2] at h4
        exact hn (h4 ▸ he)
    | _ => simp [Event.isStart] at hs
  have h1 := hf.count t
  have h2 := hf.nstarts t
  have h3 : 1 ≤ (st.out.map Prod.snd).count t := List.one_le_count_iff.2 (List.mem_map.2 ⟨_, ho, rfl⟩)
  have h4 : t ∈ st.before.map Prod.snd := List.one_le_count_iff.1 (by omega)
  obtain ⟨⟨q', t'⟩, hb, rfl⟩ := List.mem_map.1 h4
  have ho' := hf.beforeOut _ hb
  rcases hf.protocol with e | ⟨s, hp⟩
  · rw [e] at ho; cases ho
  · obtain ⟨k1, h1, h2⟩ := (C13_handed_out_once_on_own_target wft hp.history).2 _ _ ho
    obtain ⟨k2, h3, h4⟩ := (C13_handed_out_once_on_own_target wft hp.history).2 _ _ ho'
    rw [h1] at h3
    cases h3
    rw [h2] at h4
    exact h4 ▸ hb

/-- If every target takes one task at a time, the router never has to wait for a task to end. -/
theorem receiver_idle (wf : targets.WF) (wft : tasks.WF) (hv : ValidTargets targets tasks)
    (hlim : ∀ q n, targets.get? q = some n → n = 1) {st : St} (h : Reach targets tasks st)
    (hfine : Fine targets st) {q t : Str} (hr : st.router = .hold q t) : st.tgt q = .idle := by
  obtain ⟨hc, hf⟩ := h.inv wf wft
  have hb : (q, t) ∈ st.before := by simp [St.before, hr, RouterPC.held]
  have ho := hf.beforeOut _ hb
  rcases hf.protocol with e | ⟨s, hp⟩
  · rw [e] at ho; cases ho
  · obtain ⟨task, h1, h2⟩ := (C13_handed_out_once_on_own_target wft hp.history).2 _ _ ho
    obtain ⟨n, h3, -⟩ := hv t task h1
    rw [h2] at h3
    obtain rfl := hlim q n h3
    have hq : q ∈ targets.keys := GoMap.mem_keys_of_mem (GoMap.mem_of_get? h3)
    have hlen := C14_concurrency_limit wft (fun q n h => by rw [hlim q n h]; decide) hp q 1 h3
    have hbc : 1 ≤ (st.before.map Prod.snd).count t := List.one_le_count_iff.2 (List.mem_map.2 ⟨_, hb, rfl⟩)
    -- no other task of the target is on its way or in progress
    have key : ∀ t', (q, t') ∈ st.out → 1 ≤ nRuns targets st t' + nReports targets st t' → False := by
      intro t' ho' hpos
      have c1 := hf.le_one wft t
      have c2 := hf.le_one wft t'
      have a1 := after_count st t
      have a2 := after_count st t'
      have hne : t ≠ t' := by rintro rfl; omega
      have n1 : t ∉ st.completed := by rw [← List.count_eq_zero]; omega
      have n2 : t' ∉ st.completed := by rw [← List.count_eq_zero]; omega
      have m1 : t ∈ inFlight st.out st.completed q := by
        simp only [inFlight, List.mem_filter, List.mem_map, decide_eq_true_eq, Prod.exists]
        exact ⟨⟨q, t, ⟨ho, rfl⟩, rfl⟩, n1⟩
      have m2 : t' ∈ inFlight st.out st.completed q := by
        simp only [inFlight, List.mem_filter, List.mem_map, decide_eq_true_eq, Prod.exists]
        exact ⟨⟨q, t', ⟨ho', rfl⟩, rfl⟩, n2⟩
      match hl : inFlight st.out st.completed q, hlen with
      | [], _ => rw [hl] at m1; cases m1
      | [x], _ =>
        rw [hl, List.mem_singleton] at m1 m2
        exact hne (m1.trans m2.symm)
      | x :: y :: l, hlen =>
        simp only [List.length_cons] at hlen
        omega
    cases e : st.tgt q with
    | idle => rfl
    | notStarted =>
      have := (h.tinv wf wft).startedIff q
      rw [e, if_pos rfl, List.count_eq_zero] at this
      exact absurd (hfine.started q hq) this
    | running t' =>
      exact (key t' (hf.runOut _ _ (hf.runTr _ _ e)) (by have := nRuns_pos hq e; omega)).elim
    | reporting t' ok =>
      exact (key t' (hf.runOut _ _ (hf.endTr _ _ _ (hc.reportErr _ _ _ e)))
        (by have := nReports_pos hq e; omega)).elim
    | stopping =>
      rcases hc.leave q (.inl e) with e | e | ⟨t', e⟩
      · rw [hr] at e; cases e
      · rw [hr] at e; cases e
      · exact (hfine.handles q t' e).elim
    | stopped =>
      rcases hc.leave q (.inr e) with e | e | ⟨t', e⟩
      · rw [hr] at e; cases e
      · rw [hr] at e; cases e
      · exact (hfine.handles q t' e).elim

/-- How far the tasks are from their targets. -/
def distance (st : St) : Nat := 3 * st.sched.todo.length + 2 * st.ready.length + st.router.held.length

theorem starts_quietly (wf : targets.WF) (wft : tasks.WF) (hv : ValidTargets targets tasks)
    (hlim : ∀ q n, targets.get? q = some n → n = 1) {q t : Str} (n : Nat) :
    ∀ st, Reach targets tasks st → Fine targets st → st.router ≠ .notStarted → distance st = n →
      (q, t) ∈ st.before → ∃ st', Quietly targets tasks st st' ∧ .handleStart q t ∈ st'.trace := by
  induction n using Nat.strongRecOn with
  | _ n ih =>
    intro st h hfine hr hn hb
    obtain ⟨hc, hf⟩ := h.inv wf wft
    have go : ∀ st', Step targets tasks st st' → (st'.trace = st.trace ∨
        ∃ q' t', st'.trace = st.trace ++ [.handleStart q' t']) → distance st' < n →
        st'.router ≠ .notStarted → ((q, t) ∈ st'.before ∨ .handleStart q t ∈ st'.trace) →
        ∃ st'', Quietly targets tasks st st'' ∧ .handleStart q t ∈ st''.trace := by
      intro st' hs htr hd hr' hb'
      have hq : ∀ q t ok, st'.trace ≠ st.trace ++ [.handleEnd q t ok] := by
        intro q t ok e
        rcases htr with e' | ⟨q', t', e'⟩ <;> rw [e'] at e
        · simp at e
        · simp at e
      rcases hb' with hb' | hb'
      · have hfine' : Fine targets st' := by
          rcases htr with e | ⟨q', t', e⟩
          · exact ⟨by rw [e]; exact hfine.started, by rw [e]; exact hfine.starts, by rw [e]; exact hfine.handles⟩
          · refine ⟨fun q hq => ?_, fun q => ?_, fun q t => ?_⟩
            · rw [e]; exact List.mem_append_left _ (hfine.started q hq)
            · rw [e]; simpa using hfine.starts q
            · rw [e]; simpa using hfine.handles q t
        obtain ⟨st'', h1, h2⟩ := ih _ hd st' (.step h hs) hfine' hr' rfl hb'
        exact ⟨st'', .head ⟨hs, hq⟩ h1, h2⟩
      · exact ⟨st', .single ⟨hs, hq⟩, hb'⟩
    cases e : st.router with
    | notStarted => exact absurd e hr
    | hold q' t' =>
      have hi := receiver_idle wf wft hv hlim h hfine e
      refine go _ (.routerSend st q' t' e hi) (.inr ⟨q', t', rfl⟩) ?_ (by simp) ?_
      · rw [← hn]
        simp [distance, e, RouterPC.held]
      · by_cases hqt : (q, t) = (q', t')
        · cases hqt
          exact .inr (by simp)
        · left
          simp only [St.before, e, RouterPC.held, List.mem_append, List.mem_singleton] at hb ⊢
          simpa [hqt] using hb
    | recv =>
      cases er : st.ready with
      | cons p rest =>
        obtain ⟨q', t'⟩ := p
        refine go _ (.routerRecv st q' t' rest e er) (.inl rfl) ?_ (by simp) (.inl ?_)
        · rw [← hn]
          simp [distance, e, er, RouterPC.held]
          omega
        · simp only [St.before, e, er, RouterPC.held, List.mem_append, List.mem_cons, List.not_mem_nil,
            or_false] at hb ⊢
          tauto
      | nil =>
        cases es : st.sched with
        | start => simp [St.before, e, er, es, SchedPC.todo, RouterPC.held] at hb
        | stopped => simp [St.before, e, er, es, SchedPC.todo, RouterPC.held] at hb
        | sending s todo =>
          cases todo with
          | nil => simp [St.before, e, er, es, SchedPC.todo, RouterPC.held] at hb
          | cons p todo =>
            have hcap := (C24_channels_never_overflow wf wft hv
              (fun q n h => by rw [hlim q n h]) h).2.1 s p todo es
            refine go _ (.schedSend st s p todo es hcap) (.inl rfl) ?_ (by rw [e]; simp) (.inl ?_)
            · rw [← hn]
              simp [distance, es, SchedPC.todo]
              omega
            · simp only [St.before, e, er, es, SchedPC.todo, RouterPC.held, List.mem_append, List.mem_cons,
                List.not_mem_nil, or_false, false_or] at hb ⊢
              tauto
    | waitWg =>
      obtain ⟨h1, h2⟩ := hc.closing (.inl e)
      simp [St.before, e, h1, h2, SchedPC.todo, RouterPC.held] at hb
    | stopped =>
      obtain ⟨h1, h2⟩ := hc.closing (.inr e)
      simp [St.before, e, h1, h2, SchedPC.todo, RouterPC.held] at hb

/-! ## C105 -/

/-- **C105.** If every target has concurrency 1 and nothing has failed, a task that the scheduler has handed
out (C11, C12 and C17 say when) can start at once: no task that is in progress has to end before. -/
theorem C105_no_waiting_partial (wf : targets.WF) (wft : tasks.WF) (hv : ValidTargets targets tasks)
    (hlim : ∀ q n, targets.get? q = some n → n = 1) {st : St} (h : Reach targets tasks st)
    (hfine : Fine targets st) {q t : Str} (ho : (q, t) ∈ st.out) :
    ∃ st', Quietly targets tasks st st' ∧ .handleStart q t ∈ st'.trace := by
  by_cases hn : .handleStart q t ∈ st.trace
  · exact ⟨st, .refl, hn⟩
  · have hb := on_its_way wf wft h ho hn
    obtain ⟨hc, hf⟩ := h.inv wf wft
    by_cases hr : st.router = .notStarted
    · obtain ⟨l, hl⟩ := hc.router0.1 hr
      cases l with
      | cons x l =>
        have e := hc.next_notStarted x l hl
        obtain ⟨-, h2, -⟩ := hc.starting _ hl
        have := (h.tinv wf wft).startedIff x
        rw [e, if_pos rfl, List.count_eq_zero] at this
        exact absurd (hfine.started x (h2 x (by simp))) this
      | nil =>
        have hs := Step.targetsStarted (targets := targets) (tasks := tasks) st hl
        obtain ⟨st', h1, h2⟩ := starts_quietly wf wft hv hlim (q := q) (t := t) _ _ (.step h hs)
          ⟨hfine.started, hfine.starts, hfine.handles⟩ (by simp) rfl (by
            simpa [St.before, hr, RouterPC.held] using hb)
        exact ⟨st', .head ⟨hs, by simp⟩ h1, h2⟩
    · exact starts_quietly wf wft hv hlim _ st h hfine hr rfl hb

def busyTargets : GoMap Str Int := [(b!"x", 2), (b!"y", 1)]
def busyTasks : GoMap Str Task := [(b!"a", ⟨b!"x", []⟩), (b!"b", ⟨b!"x", []⟩), (b!"c", ⟨b!"y", []⟩)]

/-- **C105 refuted** for targets with a higher concurrency: task "c" depends on nothing and its target "y" is
idle, yet it is not started unless task "a" of target "x" ends. -/
theorem C105_refuted : ∃ st, Reach busyTargets busyTasks st ∧ Fine busyTargets st ∧
    st.tgt b!"y" = .idle ∧ (b!"y", b!"c") ∈ st.out ∧
    ∀ st', Quietly busyTargets busyTasks st st' → ∀ q, .handleStart q b!"c" ∉ st'.trace := by
  have r0 : Reach busyTargets busyTasks _ := Reach.init [b!"x", b!"y"] (List.Perm.refl _)
  have r1 := Reach.step r0 (Step.targetStart _ b!"x" [b!"y"] rfl)
  have r2 := Reach.step r1 (Step.targetStart _ b!"y" [] rfl)
  have r3 := Reach.step r2 (Step.targetsStarted _ rfl)
  have r4 := Reach.step r3 (Step.schedNew _ _ _ _ rfl rfl (List.Perm.refl _))
  have r5 := Reach.step r4 (Step.schedSend _ _ (b!"x", b!"a") [(b!"x", b!"b"), (b!"y", b!"c")] rfl (by decide))
  have r6 := Reach.step r5 (Step.schedSend _ _ (b!"x", b!"b") [(b!"y", b!"c")] rfl (by decide))
  have r7 := Reach.step r6 (Step.routerRecv _ b!"x" b!"a" [(b!"x", b!"b")] rfl rfl)
  have r8 := Reach.step r7 (Step.routerSend _ b!"x" b!"a" rfl rfl)
  have r9 := Reach.step r8 (Step.routerRecv _ b!"x" b!"b" [] rfl rfl)
  refine ⟨_, r9, ⟨by decide, by simp [init], by simp [init]⟩, rfl, by decide, ?_⟩
  intro st' hq
  have hinv : st'.tgt b!"x" = .running b!"a" ∧ st'.router = .hold b!"x" b!"b" ∧
      (∀ rest, st'.main ≠ .starting rest) ∧ ∀ q, .handleStart q b!"c" ∉ st'.trace := by
    induction hq with
    | refl => refine ⟨rfl, rfl, by simp, by simp [init]⟩
    | tail _ hs ih =>
      obtain ⟨hs, hno⟩ := hs
      obtain ⟨h1, h2, h3, h4⟩ := ih
      cases hs <;> grind
  exact hinv.2.2.2

def skipTargets : GoMap Str Int := [(b!"w", 1), (b!"x", 1), (b!"y", 1)]
def skipTasks : GoMap Str Task :=
  [(b!"a", ⟨b!"w", []⟩), (b!"b", ⟨b!"w", [b!"a"]⟩), (b!"c", ⟨b!"x", []⟩), (b!"d", ⟨b!"y", []⟩)]

/-- **C105 refuted** also if every target has concurrency 1, for a task that the scheduler has not handed out
although it could have (C11): task "d" depends on nothing and is the only task of its target, yet it is not
started before "a" or "c" has ended. -/
theorem C105_refuted_skipped : ∃ st, Reach skipTargets skipTasks st ∧ Fine skipTargets st ∧
    st.tgt b!"y" = .idle ∧
    ∀ st', Quietly skipTargets skipTasks st st' → ∀ q, .handleStart q b!"d" ∉ st'.trace := by
  have r0 : Reach skipTargets skipTasks _ := Reach.init [b!"w", b!"x", b!"y"] (List.Perm.refl _)
  have r1 := Reach.step r0 (Step.targetStart _ b!"w" [b!"x", b!"y"] rfl)
  have r2 := Reach.step r1 (Step.targetStart _ b!"x" [b!"y"] rfl)
  have r3 := Reach.step r2 (Step.targetStart _ b!"y" [] rfl)
  have r4 := Reach.step r3 (Step.targetsStarted _ rfl)
  have r5 := Reach.step r4 (Step.schedNew _ _ _ _ rfl rfl (List.Perm.refl _))
  have r6 := Reach.step r5 (Step.schedSend _ _ (b!"w", b!"a") [(b!"x", b!"c")] rfl (by decide))
  have r7 := Reach.step r6 (Step.schedSend _ _ (b!"x", b!"c") [] rfl (by decide))
  have r8 := Reach.step r7 (Step.routerRecv _ b!"w" b!"a" [(b!"x", b!"c")] rfl rfl)
  have r9 := Reach.step r8 (Step.routerSend _ b!"w" b!"a" rfl rfl)
  have r10 := Reach.step r9 (Step.routerRecv _ b!"x" b!"c" [] rfl rfl)
  have r11 := Reach.step r10 (Step.routerSend _ b!"x" b!"c" rfl rfl)
  refine ⟨_, r11, ⟨by decide, by simp [init], by simp [init]⟩, rfl, ?_⟩
  intro st' hq
  have hinv : (∃ s, st'.sched = .sending s []) ∧ st'.ready = [] ∧ st'.router = .recv ∧ st'.ended = [] ∧
      st'.done = [] ∧ st'.doneClosed = false ∧ st'.main = .loop1 ∧
      (∀ q, st'.tgt q ≠ .stopping ∧ ∀ t ok, st'.tgt q ≠ .reporting t ok) ∧
      ∀ q, .handleStart q b!"d" ∉ st'.trace := by
    induction hq with
    | refl =>
      refine ⟨⟨_, rfl⟩, rfl, rfl, rfl, rfl, rfl, rfl, ?_, by simp [init]⟩
      intro q
      simp only [Function.update_apply, init]
      grind
    | tail _ hs ih =>
      obtain ⟨hs, hno⟩ := hs
      obtain ⟨⟨s, h1⟩, h2, h3, h4, h5, h6, h7, h8, h9⟩ := ih
      cases hs <;> grind
  exact hinv.2.2.2.2.2.2.2.2

/-! ## C106 -/

theorem Quietly.no_end {st st' : St} (h : Quietly targets tasks st st') {q t : Str}
    (hn : ∀ ok, .handleEnd q t ok ∉ st.trace) : ∀ ok, .handleEnd q t ok ∉ st'.trace := by
  induction h with
  | refl => exact hn
  | tail _ hs ih =>
    obtain ⟨hs, hno⟩ := hs
    cases hs <;> simp_all

/-- **C106.** If every target has concurrency 1 and nothing has failed, then each target can work on the task that
was handed out to it while the tasks of other targets are in progress: no task needs to end. -/
theorem C106_in_progress_partial (wf : targets.WF) (wft : tasks.WF) (hv : ValidTargets targets tasks)
    (hlim : ∀ q n, targets.get? q = some n → n = 1) {st : St} (h : Reach targets tasks st)
    (hfine : Fine targets st) {q t : Str} (ho : (q, t) ∈ st.out) (hn : ∀ ok, .handleEnd q t ok ∉ st.trace) :
    ∃ st', Quietly targets tasks st st' ∧ InProgress st' q t ∧ ∀ q' t', InProgress st q' t' → InProgress st' q' t' := by
  obtain ⟨st', h1, h2⟩ := C105_no_waiting_partial wf wft hv hlim h hfine ho
  refine ⟨st', h1, ⟨h2, h1.no_end hn⟩, fun q' t' hp => ⟨?_, h1.no_end hp.2⟩⟩
  clear h2
  induction h1 with
  | refl => exact hp.1
  | tail _ hs ih =>
    obtain ⟨hs, -⟩ := hs
    cases hs <;> simp_all

/-- **C106 refuted**, for every runbook: no two tasks of a target are ever in progress at the same time, whatever
its concurrency is. -/
theorem C106_refuted (wf : targets.WF) (wft : tasks.WF) {st : St} (h : Reach targets tasks st) {q a b : Str}
    (ha : InProgress st q a) (hb : InProgress st q b) : a = b := by
  have ht := h.tinv wf wft
  rcases ht.progress q a ha.1 with e1 | ⟨ok, e1⟩
  · rcases ht.progress q b hb.1 with e2 | ⟨ok, e2⟩
    · rw [e1] at e2
      simpa using e2
    · exact absurd e2 (hb.2 ok)
  · exact absurd e1 (ha.2 ok)

/-! ## A case that meets the hypotheses -/

def pairTargets : GoMap Str Int := [(b!"x", 1), (b!"y", 1)]
def pairTasks : GoMap Str Task := [(b!"a", ⟨b!"x", []⟩), (b!"c", ⟨b!"y", []⟩)]

/-- "a" is in progress on "x", "c" was handed out and has not started. -/
theorem pair_reach : ∃ st, Reach pairTargets pairTasks st ∧ Fine pairTargets st ∧ InProgress st b!"x" b!"a" ∧
    (b!"y", b!"c") ∈ st.out ∧ .handleStart b!"y" b!"c" ∉ st.trace ∧
    ∀ ok, .handleEnd b!"y" b!"c" ok ∉ st.trace := by
  have r0 : Reach pairTargets pairTasks _ := Reach.init [b!"x", b!"y"] (List.Perm.refl _)
  have r1 := Reach.step r0 (Step.targetStart _ b!"x" [b!"y"] rfl)
  have r2 := Reach.step r1 (Step.targetStart _ b!"y" [] rfl)
  have r3 := Reach.step r2 (Step.targetsStarted _ rfl)
  have r4 := Reach.step r3 (Step.schedNew _ _ _ _ rfl rfl (List.Perm.refl _))
  have r5 := Reach.step r4 (Step.schedSend _ _ (b!"x", b!"a") [(b!"y", b!"c")] rfl (by decide))
  have r6 := Reach.step r5 (Step.routerRecv _ b!"x" b!"a" [] rfl rfl)
  have r7 := Reach.step r6 (Step.routerSend _ b!"x" b!"a" rfl rfl)
  exact ⟨_, r7, ⟨by decide, by simp [init], by simp [init]⟩, ⟨by simp, by simp [init]⟩, by decide,
    by simp [init], by simp [init]⟩

/-- Then both can be in progress at the same time. -/
example : ∃ st st', Reach pairTargets pairTasks st ∧ .handleStart b!"y" b!"c" ∉ st.trace ∧
    Quietly pairTargets pairTasks st st' ∧
    InProgress st' b!"x" b!"a" ∧ InProgress st' b!"y" b!"c" := by
  obtain ⟨st, h, hf, ha, ho, hs, he⟩ := pair_reach
  have hlim : ∀ q n, pairTargets.get? q = some n → n = 1 := by
    intro q n h
    have := GoMap.mem_of_get? h
    simp [pairTargets] at this
    grind
  have hv : ValidTargets pairTargets pairTasks := by
    intro t k hk
    have := GoMap.mem_of_get? hk
    simp only [pairTasks, List.mem_cons, List.not_mem_nil, or_false, Prod.mk.injEq] at this
    rcases this with ⟨rfl, rfl⟩ | ⟨rfl, rfl⟩
    · exact ⟨1, by decide, by decide⟩
    · exact ⟨1, by decide, by decide⟩
  obtain ⟨st', h1, h2, h3⟩ := C106_in_progress_partial (by decide) (by decide) hv hlim h hf ho he
  exact ⟨st, st', h, hs, h1, h3 _ _ ha, h2⟩

end Verif.Runner
