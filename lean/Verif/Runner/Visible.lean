import Verif.Runner.RaceProps

/-!
# C134: a task sees what its dependencies have done

That `Handle` has returned for a dependency before it is called for a task (C18) is a matter of one order of all events.
Goroutines see each other's effects only if one event happens before another in the sense of the Go memory model.
-/

namespace Verif.Runner
open Verif Dag Sched

variable {targets : GoMap Str Int} {tasks : GoMap Str Task}

/-- Every return of `Handle` for task `m` satisfies `P`. -/
def Ends (tr : List Ev) (m : Str) (P : Nat → Prop) : Prop :=
  ∀ (i : Nat) (e : Ev) (ok : Bool), tr[i]? = some e → e.op = .ends m ok → P i

/-- Dependencies that are waited for. -/
def Waits (tasks : GoMap Str Task) (t m : Str) : Prop := After tasks t m ∧ m ≠ b!""

/-- How far the end of a task has been made known. -/
structure Known (tasks : GoMap Str Task) (st : St) (tr : List Ev) : Prop where
  reporting : ∀ q m ok, st.tgt q = .reporting m ok → Ends tr m (Past tr (.target q))
  ended : ∀ m, m ∈ st.ended.map Prod.fst → Ends tr m (Sent tr (.ended m))
  sendDone : ∀ m, st.main = .sendDone m → Ends tr m (Past tr .main)
  done : ∀ m, m ∈ st.done → Ends tr m (Sent tr (.done m))
  completed : ∀ m, m ∈ st.completed → Ends tr m (Past tr .scheduler)
  ready : ∀ t m, t ∈ st.ready.map Prod.snd → Waits tasks t m → Ends tr m (Sent tr (.ready t))
  held : ∀ q t m, st.router = .hold q t → Waits tasks t m → Ends tr m (Past tr .router)
  before : ∀ (j : Nat) (e : Ev) t m, tr[j]? = some e → e.op = .begins t → Waits tasks t m → Ends tr m fun i => HB tr i j
  begins : ∀ (j : Nat) (e : Ev) t, tr[j]? = some e → e.op = .begins t → ∃ q, .handleStart q t ∈ st.trace
  ends : ∀ q t ok, .handleEnd q t ok ∈ st.trace → (⟨.target q, .ends t ok⟩ : Ev) ∈ tr
  over : ∀ m ok, (∃ e ∈ tr, e.op = .ends m ok) → ∃ q, .handleEnd q m ok ∈ st.trace

theorem Known.init (order : List Str) : Known tasks (init order) begun := by
  have no : ∀ m P, Ends begun m P := by
    intro m P i e ok hi he
    have := List.mem_of_getElem? hi
    simp only [begun, List.mem_cons, List.not_mem_nil, or_false] at this
    rcases this with rfl | rfl | rfl <;> cases he
  constructor
  case begins =>
    intro j e t hj he
    have := List.mem_of_getElem? hj
    simp only [begun, List.mem_cons, List.not_mem_nil, or_false] at this
    rcases this with rfl | rfl | rfl <;> cases he
  case ends => simp [Runner.init]
  case over =>
    rintro m ok ⟨e, he, ho⟩
    simp only [begun, List.mem_cons, List.not_mem_nil, or_false] at he
    rcases he with rfl | rfl | rfl <;> cases ho
  all_goals
    intros
    exact no _ _

section step
variable {st st' : St} {tr evs : List Ev}

theorem ends_app {m : Str} {P : Nat → Prop} (h : Ends tr m P)
    (h' : ∀ e ∈ evs, ∀ ok, e.op = .ends m ok → ∀ i : Nat, (tr ++ evs)[i]? = some e → P i) : Ends (tr ++ evs) m P := by
  intro i e ok hi he
  by_cases hl : i < tr.length
  · rw [List.getElem?_append_left hl] at hi
    exact h i e ok hi he
  · refine h' e ?_ ok he i hi
    rw [List.getElem?_append_right (by omega)] at hi
    exact List.mem_of_getElem? hi

theorem Ends.imp {m : Str} {P P' : Nat → Prop} (h : Ends tr m P) (h' : ∀ i, P i → P' i) : Ends tr m P' :=
  fun i e ok hi he => h' i (h i e ok hi he)

theorem Ends.app {m : Str} {P P' : Nat → Prop} (h : Ends tr m P) (h' : ∀ i, P i → P' i)
    (hn : ∀ e ∈ evs, ∀ ok, e.op ≠ .ends m ok) : Ends (tr ++ evs) m P' :=
  ends_app (h.imp h') fun e he ok ho => absurd ho (hn e he ok)

theorem Ends.past {m : Str} {g : Gor} (h : Ends tr m (Past tr g)) (hn : ∀ e ∈ evs, ∀ ok, e.op ≠ .ends m ok) :
    Ends (tr ++ evs) m (Past (tr ++ evs) g) := h.app (fun _ hi => hi.mono evs) hn

theorem Ends.sent {m : Str} {c : Msg} (h : Ends tr m (Sent tr c)) (hn : ∀ e ∈ evs, ∀ ok, e.op ≠ .ends m ok) :
    Ends (tr ++ evs) m (Sent (tr ++ evs) c) := h.app (fun _ hi => hi.mono evs) hn

theorem Ends.recv {m : Str} {c : Msg} (h : Ends tr m (Sent tr c)) (g : Gor) :
    Ends (tr ++ [⟨g, .recv c⟩]) m (Past (tr ++ [⟨g, .recv c⟩]) g) :=
  h.app (fun _ hi => hi.recv g) (by simp)

theorem Ends.send {m : Str} {g : Gor} (h : Ends tr m (Past tr g)) (c : Msg) :
    Ends (tr ++ [⟨g, .send c⟩]) m (Sent (tr ++ [⟨g, .send c⟩]) c) :=
  h.app (fun _ hi => hi.sent c) (by simp)

theorem Ends.hb {m : Str} {k : Nat} (h : Ends tr m fun i => HB tr i k) (hn : ∀ e ∈ evs, ∀ ok, e.op ≠ .ends m ok) :
    Ends (tr ++ evs) m fun i => HB (tr ++ evs) i k := h.app (fun _ hi => hi.mono evs) hn

/-- Where `Handle` returns. -/
theorem Does.ends_running (hd : Does targets tasks st st' evs) {m : Str} : ∀ e ∈ evs, ∀ ok, e.op = .ends m ok →
    ∃ q, st.tgt q = .running m ∧ st'.tgt q = .reporting m ok ∧ e = ⟨.target q, .ends m ok⟩ := by
  intro e he ok ho
  cases hd
  case handleEnd q t ok' h =>
    have : e = ⟨.target q, .ends t ok'⟩ := by grind
    subst this
    simp only [Op.ends.injEq] at ho
    obtain ⟨rfl, rfl⟩ := ho
    exact ⟨q, h, by simp, rfl⟩
  all_goals
    exfalso
    first
    | (have := mem_created he; grind)
    | grind (splits := 20) (gen := 20) (ematch := 20)

/-- A task that is elsewhere does not end. -/
theorem Does.not_ends (wft : tasks.WF) (hc : Ctl targets st) (hf : Flow targets tasks st)
    (hd : Does targets tasks st st' evs) {m : Str} (h : 1 ≤ nReports targets st m + st.after.count m) :
    ∀ e ∈ evs, ∀ ok, e.op ≠ .ends m ok := by
  intro e he ok ho
  obtain ⟨q, hq, -⟩ := hd.ends_running e he ok ho
  have := nRuns_pos (hc.isTarget q (by rw [hq]; simp)) hq
  have := hf.le_one wft m
  omega

theorem completed_after {m : Str} (h : m ∈ st.completed) : 1 ≤ st.after.count m := by
  have := List.one_le_count_iff.2 h
  rw [after_count]
  omega

/-- What a task waits for that has been handed out is done with. -/
theorem Flow.waits (wft : tasks.WF) (hf : Flow targets tasks st) {q t m : Str} (ho : (q, t) ∈ st.out)
    (hw : Waits tasks t m) : m ∈ st.completed := by
  rcases hf.protocol with e | ⟨s, hp⟩
  · rw [e] at ho; cases ho
  · exact C12_scheduler_dependencies_partial wft hp.history ho hw.1 hw.2

theorem Known.step_reporting (wft : tasks.WF) (hc : Ctl targets st) (hf : Flow targets tasks st)
    (h : Known tasks st tr) (hd : Does targets tasks st st' evs) (q m : Str) (ok : Bool) (ht : st'.tgt q = .reporting m ok) :
    Ends (tr ++ evs) m (Past (tr ++ evs) (.target q)) := by
  by_cases h0 : st.tgt q = .reporting m ok
  · have := nReports_pos (hc.isTarget q (by rw [h0]; simp)) h0
    exact (h.reporting q m ok h0).past (hd.not_ends wft hc hf (by omega))
  · cases hd
    case handleEnd q' t ok' hs =>
      have : q = q' ∧ m = t ∧ ok = ok' := by
        simp only [Function.update_apply] at ht
        grind
      obtain ⟨rfl, rfl, rfl⟩ := this
      refine ends_app (fun i e ok hi he => ?_) fun e he ok ho i hi => ?_
      · obtain ⟨q', h0⟩ := h.over m ok ⟨e, List.mem_of_getElem? hi, he⟩
        have h1 : 1 ≤ Runner.ends st.trace m := List.one_le_countP_iff.2 ⟨_, h0, by simp [Event.isEnd]⟩
        rw [hf.nends] at h1
        have h2 := nRuns_pos (hc.isTarget q (by rw [hs]; simp)) hs
        have h3 := hf.le_one wft m
        omega
      · have : e = ⟨.target q, .ends m ok⟩ := by grind
        have h1 := past_own hi
        rw [this] at h1
        exact h1
    all_goals
      exfalso
      first
      | exact h0 ht
      | (simp only [Function.update_apply] at ht; grind)

theorem Known.step_ended (wft : tasks.WF) (hc : Ctl targets st) (hf : Flow targets tasks st)
    (h : Known tasks st tr) (hd : Does targets tasks st st' evs) (m : Str) (ht : m ∈ st'.ended.map Prod.fst) :
    Ends (tr ++ evs) m (Sent (tr ++ evs) (.ended m)) := by
  by_cases h0 : m ∈ st.ended.map Prod.fst
  · have := List.one_le_count_iff.2 h0
    have := after_count st m
    exact (h.ended m h0).sent (hd.not_ends wft hc hf (by omega))
  · cases hd
    case report q t ok hs hcap =>
      have : m = t := by
        simp only [List.map_append, List.mem_append, List.map_cons, List.map_nil, List.mem_singleton] at ht
        exact ht.resolve_left h0
      subst this
      have h1 := ((h.reporting q m ok hs).past (evs := [⟨.target q, .read (.readyMsg m)⟩, ⟨.target q, .write (.endedMsg m)⟩])
        (by simp)).send (.ended m)
      simpa using h1
    all_goals
      exfalso
      first
      | exact h0 ht
      | simp_all

theorem Known.step_sendDone (wft : tasks.WF) (hc : Ctl targets st) (hf : Flow targets tasks st)
    (h : Known tasks st tr) (hd : Does targets tasks st st' evs) (m : Str) (ht : st'.main = .sendDone m) :
    Ends (tr ++ evs) m (Past (tr ++ evs) .main) := by
  by_cases h0 : st.main = .sendDone m
  · have := after_count st m
    refine (h.sendDone m h0).past (hd.not_ends wft hc hf ?_)
    simp only [h0, MainPC.held, List.count_cons_self] at this
    omega
  · cases hd
    case mainOk t rest hs he =>
      simp only [MainPC.sendDone.injEq] at ht
      subst ht
      have h1 := ((h.ended t (by simp [he])).recv .main).past (evs := [⟨.main, .read (.endedMsg t)⟩]) (by simp)
      simpa using h1
    all_goals
      exfalso
      first
      | exact h0 ht
      | simp_all

theorem Known.step_done (wft : tasks.WF) (hc : Ctl targets st) (hf : Flow targets tasks st)
    (h : Known tasks st tr) (hd : Does targets tasks st st' evs) (m : Str) (ht : m ∈ st'.done) :
    Ends (tr ++ evs) m (Sent (tr ++ evs) (.done m)) := by
  by_cases h0 : m ∈ st.done
  · have := List.one_le_count_iff.2 h0
    have := after_count st m
    exact (h.done m h0).sent (hd.not_ends wft hc hf (by omega))
  · cases hd
    case mainSend t hs hcap =>
      have : m = t := by
        simp only [List.mem_append, List.mem_singleton] at ht
        exact ht.resolve_left h0
      subst this
      have h1 := ((h.sendDone m hs).past (evs := [⟨.main, .read .done⟩, ⟨.main, .read (.endedMsg m)⟩])
        (by simp)).send (.done m)
      simpa using h1
    all_goals
      exfalso
      first
      | exact h0 ht
      | simp_all

theorem Known.step_completed (wft : tasks.WF) (hc : Ctl targets st) (hf : Flow targets tasks st)
    (h : Known tasks st tr) (hd : Does targets tasks st st' evs) (m : Str) (ht : m ∈ st'.completed) :
    Ends (tr ++ evs) m (Past (tr ++ evs) .scheduler) := by
  by_cases h0 : m ∈ st.completed
  · have := completed_after h0
    exact (h.completed m h0).past (hd.not_ends wft hc hf (by omega))
  · cases hd
    case schedNext s s' c rest r r' hs hdn hn hp =>
      have : m = c := by
        simp only [List.mem_append, List.mem_singleton] at ht
        exact ht.resolve_left h0
      subst this
      have h1 := ((h.done m (by simp [hdn])).recv .scheduler).past (evs := [⟨.scheduler, .write .sched⟩]) (by simp)
      simpa using h1
    all_goals
      exfalso
      first
      | exact h0 ht
      | simp_all

theorem Known.step_ready (wft : tasks.WF) (hc : Ctl targets st) (hf : Flow targets tasks st)
    (h : Known tasks st tr) (hd : Does targets tasks st st' evs) (t m : Str) (ht : t ∈ st'.ready.map Prod.snd)
    (hw : Waits tasks t m) : Ends (tr ++ evs) m (Sent (tr ++ evs) (.ready t)) := by
  by_cases h0 : t ∈ st.ready.map Prod.snd
  · obtain ⟨⟨q, t'⟩, hp, rfl⟩ := List.mem_map.1 h0
    have h1 := completed_after (hf.waits wft (hf.beforeOut (q, t') (by simp [St.before, hp])) hw)
    exact (h.ready _ m h0 hw).sent (hd.not_ends wft hc hf (by omega))
  · cases hd
    case schedSend s p todo hs hcap =>
      have : t = p.2 := by
        simp only [List.map_append, List.mem_append, List.map_cons, List.map_nil, List.mem_singleton] at ht
        exact ht.resolve_left h0
      subst this
      have h1 := hf.waits wft (hf.beforeOut p (by simp [St.before, hs, SchedPC.todo])) hw
      have h2 := ((h.completed m h1).past (evs := [⟨.scheduler, .read .runner⟩, ⟨.scheduler, .write (.readyMsg p.2)⟩])
        (by simp)).send (.ready p.2)
      simpa using h2
    all_goals
      exfalso
      first
      | exact h0 ht
      | simp_all

theorem Known.step_held (wft : tasks.WF) (hc : Ctl targets st) (hf : Flow targets tasks st)
    (h : Known tasks st tr) (hd : Does targets tasks st st' evs) (q t m : Str) (ht : st'.router = .hold q t)
    (hw : Waits tasks t m) : Ends (tr ++ evs) m (Past (tr ++ evs) .router) := by
  by_cases h0 : st.router = .hold q t
  · have h1 := completed_after (hf.waits wft (hf.beforeOut (q, t) (by simp [St.before, h0, RouterPC.held])) hw)
    exact (h.held q t m h0 hw).past (hd.not_ends wft hc hf (by omega))
  · cases hd
    case routerRecv q' t' rest hs hr =>
      simp only [RouterPC.hold.injEq] at ht
      obtain ⟨rfl, rfl⟩ := ht
      have h1 := (((h.ready t' m (by simp [hr]) hw).sent (evs := [⟨.router, .read .runner⟩]) (by simp)).recv .router).past
        (evs := [⟨.router, .read (.readyMsg t')⟩]) (by simp)
      simpa using h1
    all_goals
      exfalso
      first
      | exact h0 ht
      | simp_all

theorem Known.step_begins (h : Known tasks st tr) (hd : Does targets tasks st st' evs) (j : Nat) (e : Ev) (t : Str)
    (hj : (tr ++ evs)[j]? = some e) (he : e.op = .begins t) : ∃ q, .handleStart q t ∈ st'.trace := by
  by_cases hl : j < tr.length
  · rw [List.getElem?_append_left hl] at hj
    obtain ⟨q, hq⟩ := h.begins j e t hj he
    refine ⟨q, ?_⟩
    rcases step_trace hd.step with h1 | ⟨x, h1⟩ <;> rw [h1] <;> simp [hq]
  · rw [List.getElem?_append_right (by omega)] at hj
    have hm := List.mem_of_getElem? hj
    cases hd
    case routerSend q t' hs hr =>
      have : e = ⟨.target q, .begins t'⟩ := by grind (splits := 20) (gen := 20) (ematch := 20)
      subst this
      simp only [Op.begins.injEq] at he
      subst he
      exact ⟨q, by simp⟩
    all_goals
      exfalso
      first
      | (have := mem_created hm; grind)
      | grind (splits := 20) (gen := 20) (ematch := 20)

theorem Known.step_before (wft : tasks.WF) (hc : Ctl targets st) (hf : Flow targets tasks st)
    (h : Known tasks st tr) (hd : Does targets tasks st st' evs) (j : Nat) (e : Ev) (t m : Str)
    (hj : (tr ++ evs)[j]? = some e) (he : e.op = .begins t) (hw : Waits tasks t m) :
    Ends (tr ++ evs) m fun i => HB (tr ++ evs) i j := by
  by_cases hl : j < tr.length
  · rw [List.getElem?_append_left hl] at hj
    obtain ⟨q, hq⟩ := h.begins j e t hj he
    have h1 := completed_after (hf.waits wft (hf.runOut q t hq) hw)
    exact (h.before j e t m hj he hw).app (fun i hi => hi.mono evs) (hd.not_ends wft hc hf (by omega))
  · rw [List.getElem?_append_right (by omega)] at hj
    have hm := List.mem_of_getElem? hj
    cases hd
    case routerSend q t' hs hr =>
      have : e = ⟨.target q, .begins t'⟩ := by grind (splits := 20) (gen := 20) (ematch := 20)
      subst this
      simp only [Op.begins.injEq] at he
      subst he
      have hj' : j = tr.length + 5 := by
        rcases h3 : j - tr.length with _ | _ | _ | _ | _ | _ | _ | _ | n <;> rw [h3] at hj <;> simp at hj
        omega
      have h1 := ((((h.held q t' m hs hw).past (evs := [⟨.router, .read (.readyMsg t')⟩, ⟨.router, .read .channels⟩])
        (by simp)).send (.routed t')).recv (.target q)).past (evs := [⟨.target q, .read (.readyMsg t')⟩]) (by simp)
      have h2 : Ends _ m fun i => HB _ i _ := h1.app (evs := [⟨.target q, .begins t'⟩]) (fun i hi =>
        Past.last (e := ⟨.target q, .begins t'⟩) hi) (by simp)
      have h3 := h2.hb (evs := [⟨.target q, .read (.settings q)⟩, ⟨.target q, .write (.state q)⟩]) (by simp)
      rw [hj']
      simpa using h3
    all_goals
      exfalso
      first
      | (have := mem_created hm; grind)
      | grind (splits := 20) (gen := 20) (ematch := 20)

theorem Known.step_ends (h : Known tasks st tr) (hd : Does targets tasks st st' evs) (q t : Str) (ok : Bool)
    (ht : .handleEnd q t ok ∈ st'.trace) : (⟨.target q, .ends t ok⟩ : Ev) ∈ tr ++ evs := by
  by_cases h0 : .handleEnd q t ok ∈ st.trace
  · exact List.mem_append_left _ (h.ends q t ok h0)
  · cases hd
    case handleEnd q' t' ok' hs =>
      have : q = q' ∧ t = t' ∧ ok = ok' := by
        simp only [List.mem_append, List.mem_singleton, Event.handleEnd.injEq] at ht
        exact ht.resolve_left h0
      obtain ⟨rfl, rfl, rfl⟩ := this
      simp
    all_goals
      exfalso
      first
      | exact h0 ht
      | simp_all

theorem Known.step_over (h : Known tasks st tr) (hd : Does targets tasks st st' evs) (m : Str) (ok : Bool)
    (ht : ∃ e ∈ tr ++ evs, e.op = .ends m ok) : ∃ q, .handleEnd q m ok ∈ st'.trace := by
  obtain ⟨e, hx, ho⟩ := ht
  rcases List.mem_append.1 hx with he | he
  · obtain ⟨q, hq⟩ := h.over m ok ⟨e, he, ho⟩
    refine ⟨q, ?_⟩
    rcases step_trace hd.step with h1 | ⟨x, h1⟩ <;> rw [h1] <;> simp [hq]
  · clear hx
    cases hd
    case handleEnd q t ok' hs =>
      have : e = ⟨.target q, .ends t ok'⟩ := by grind
      subst this
      simp only [Op.ends.injEq] at ho
      obtain ⟨rfl, rfl⟩ := ho
      exact ⟨q, by simp⟩
    all_goals
      exfalso
      first
      | (have := mem_created he; grind)
      | grind (splits := 20) (gen := 20) (ematch := 20)

theorem Known.step (wft : tasks.WF) (hc : Ctl targets st) (hf : Flow targets tasks st) (h : Known tasks st tr)
    (hd : Does targets tasks st st' evs) : Known tasks st' (tr ++ evs) where
  reporting := h.step_reporting wft hc hf hd
  ended := h.step_ended wft hc hf hd
  sendDone := h.step_sendDone wft hc hf hd
  done := h.step_done wft hc hf hd
  completed := h.step_completed wft hc hf hd
  ready := h.step_ready wft hc hf hd
  held := h.step_held wft hc hf hd
  before := h.step_before wft hc hf hd
  begins := h.step_begins hd
  ends := h.step_ends hd
  over := h.step_over hd

end step

theorem Watched.known (wf : targets.WF) (wft : tasks.WF) {st : St} {tr : List Ev} (h : Watched targets tasks st tr) :
    Known tasks st tr := by
  induction h with
  | init order h => exact Known.init order
  | step h hd ih =>
    obtain ⟨hc, hf⟩ := h.reach.inv wf wft
    exact ih.step wft hc hf hd

/-- **C134 (partial).** When `Handle` is called for a task, it has returned without an error for everything the task is
after, once, and that has happened before. Missing: a dependency on a task named "" (`C134_refuted`). -/
theorem C134_visible_partial (wf : targets.WF) (wft : tasks.WF) {st : St} {tr : List Ev} (h : Watched targets tasks st tr)
    {j : Nat} {g : Gor} {t m : Str} (hj : tr[j]? = some ⟨g, .begins t⟩) (hm : After tasks t m) (hm0 : m ≠ b!"") :
    (∃ (i : Nat) (q : Str), tr[i]? = some ⟨.target q, .ends m true⟩ ∧ HB tr i j) ∧
      ∀ (i : Nat) (g' : Gor) (ok : Bool), tr[i]? = some ⟨g', .ends m ok⟩ → ok = true ∧ HB tr i j := by
  have hk := h.known wf wft
  obtain ⟨hc, hf⟩ := h.reach.inv wf wft
  obtain ⟨q, hq⟩ := hk.begins j _ t hj rfl
  have hmc := hf.waits wft (hf.runOut q t hq) ⟨hm, hm0⟩
  obtain ⟨q', hq'⟩ := hf.okTr m (.inr (.inr hmc))
  have hb := hk.before j _ t m hj rfl ⟨hm, hm0⟩
  obtain ⟨i, hi⟩ := List.getElem?_of_mem (hk.ends q' m true hq')
  refine ⟨⟨i, q', hi, hb i _ true hi rfl⟩, fun i g' ok hi => ⟨?_, hb i _ ok hi rfl⟩⟩
  obtain ⟨q'', h'⟩ := hk.over m ok ⟨_, List.mem_of_getElem? hi, rfl⟩
  cases ok
  · exact (not_both wf wft h.reach h' hq').elim
  · rfl

/-- **C134 refuted** for a dependency on a task named "": `Handle` is called for "b", which is after it, and has not
returned for it. -/
theorem C134_refuted : ∃ (st : St) (tr : List Ev), Watched unnamedTargets unnamedTasks st tr ∧
    After unnamedTasks b!"b" b!"" ∧ (⟨.target b!"y", .begins b!"b"⟩ : Ev) ∈ tr ∧
    ∀ g ok, (⟨g, .ends b!"" ok⟩ : Ev) ∉ tr := by
  have r0 : Watched unnamedTargets unnamedTasks _ _ := Watched.init [b!"x", b!"y"] (List.Perm.refl _)
  have r1 := Watched.step r0 (Does.targetStart _ b!"x" [b!"y"] rfl)
  have r2 := Watched.step r1 (Does.targetStart _ b!"y" [] rfl)
  have r3 := Watched.step r2 (Does.targetsStarted _ rfl)
  have r4 := Watched.step r3 (Does.schedNew _ _ _ _ rfl rfl (List.Perm.refl _))
  have r5 := Watched.step r4 (Does.schedSend _ _ (b!"x", b!"") [(b!"y", b!"b")] rfl (by decide))
  have r6 := Watched.step r5 (Does.schedSend _ _ (b!"y", b!"b") [] rfl (by decide))
  have r7 := Watched.step r6 (Does.routerRecv _ b!"x" b!"" [(b!"y", b!"b")] rfl rfl)
  have r8 := Watched.step r7 (Does.routerSend _ b!"x" b!"" rfl rfl)
  have r10 := Watched.step r8 (Does.routerRecv _ b!"y" b!"b" [] rfl rfl)
  have r11 := Watched.step r10 (Does.routerSend _ b!"y" b!"b" rfl rfl)
  refine ⟨_, _, r11, ⟨_, rfl, by decide⟩, by decide, ?_⟩
  intro g ok
  simp [begun, created, GoMap.keys, unnamedTargets]

/-- The hypotheses of `C134_visible_partial` are met: the second task begins. -/
example : ∃ (st : St) (tr : List Ev), okTargets.WF ∧ okTasks.WF ∧ Watched okTargets okTasks st tr ∧ After okTasks b!"b" b!"a" ∧
    (⟨.target b!"x", .begins b!"b"⟩ : Ev) ∈ tr := by
  have r0 : Watched okTargets okTasks _ _ := Watched.init [b!"x"] (List.Perm.refl _)
  have r1 := Watched.step r0 (Does.targetStart _ b!"x" [] rfl)
  have r2 := Watched.step r1 (Does.targetsStarted _ rfl)
  have r3 := Watched.step r2 (Does.schedNew _ _ _ _ rfl rfl (List.Perm.refl _))
  have r4 := Watched.step r3 (Does.schedSend _ _ (b!"x", b!"a") [] rfl (by decide))
  have r5 := Watched.step r4 (Does.routerRecv _ b!"x" b!"a" [] rfl rfl)
  have r6 := Watched.step r5 (Does.routerSend _ b!"x" b!"a" rfl rfl)
  have r7 := Watched.step r6 (Does.handleEnd _ b!"x" b!"a" true rfl)
  have r8 := Watched.step r7 (Does.report _ b!"x" b!"a" true rfl (by decide))
  have r9 := Watched.step r8 (Does.mainOk _ b!"a" [] rfl rfl)
  have r10 := Watched.step r9 (Does.mainSend _ b!"a" rfl (by decide))
  have r11 := Watched.step r10 (Does.schedNext _ _ _ b!"a" [] _ _ rfl rfl rfl (List.Perm.refl _))
  have r12 := Watched.step r11 (Does.schedSend _ _ (b!"x", b!"b") [] rfl (by decide))
  have r13 := Watched.step r12 (Does.routerRecv _ b!"x" b!"b" [] rfl rfl)
  have r14 := Watched.step r13 (Does.routerSend _ b!"x" b!"b" rfl rfl)
  exact ⟨_, _, by decide, by decide, r14, ⟨_, rfl, by decide⟩, by decide⟩

end Verif.Runner
