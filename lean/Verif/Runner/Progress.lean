import Verif.Runner.Flow

/-! Channel occupancy, progress and termination of the runner. -/

namespace Verif.Runner
open Verif Dag Sched

variable {targets : GoMap Str Int} {tasks : GoMap Str Task}

/-! ### How many tasks can be in flight -/

theorem sum_map_le_nat (l : List Str) (f g : Str → Nat) (h : ∀ x ∈ l, f x ≤ g x) :
    (l.map f).sum ≤ (l.map g).sum := by
  induction l with
  | nil => simp
  | cons a l ih =>
    have h1 := h a (List.mem_cons_self ..)
    have h2 := ih (fun x hx => h x (List.mem_cons_of_mem _ hx))
    simp only [List.map_cons, List.sum_cons]; omega

theorem sum_map_le_int (l : List Str) (f g : Str → Int) (h : ∀ x ∈ l, f x ≤ g x) :
    (l.map f).sum ≤ (l.map g).sum := by
  induction l with
  | nil => simp
  | cons a l ih =>
    have h1 := h a (List.mem_cons_self ..)
    have h2 := ih (fun x hx => h x (List.mem_cons_of_mem _ hx))
    simp only [List.map_cons, List.sum_cons]; omega

theorem sum_nonneg_int (l : List Int) (h : ∀ x ∈ l, 0 ≤ x) : 0 ≤ l.sum := by
  induction l with
  | nil => simp
  | cons a l ih =>
    have h1 := h a (List.mem_cons_self ..)
    have h2 := ih (fun x hx => h x (List.mem_cons_of_mem _ hx))
    simp only [List.sum_cons]; omega

theorem length_le_sum_filter {keys : List Str} (L : List (Str × Str)) (h : ∀ p ∈ L, p.1 ∈ keys) :
    L.length ≤ (keys.map (fun q => (L.filter (fun p => p.1 = q)).length)).sum := by
  induction L with
  | nil => simp
  | cons a l ih =>
    have ih' := ih (fun p hp => h p (List.mem_cons_of_mem _ hp))
    have ha := h a (List.mem_cons_self ..)
    have key : (keys.map (fun q => (l.filter (fun p => p.1 = q)).length)).sum + 1 ≤
        (keys.map (fun q => ((a :: l).filter (fun p => p.1 = q)).length)).sum := by
      clear ih ih' h
      revert ha
      induction keys with
      | nil => intro ha; cases ha
      | cons k ks ihk =>
        intro ha
        have hmono : ∀ ks : List Str, (ks.map (fun q => (l.filter (fun p => p.1 = q)).length)).sum ≤
            (ks.map (fun q => ((a :: l).filter (fun p => p.1 = q)).length)).sum := by
          intro ks
          apply sum_map_le_nat
          intro q _
          simp only [List.filter_cons]
          split <;> simp
        simp only [List.map_cons, List.sum_cons]
        rcases List.mem_cons.mp ha with e | e
        · have := hmono ks
          simp only [List.filter_cons, e, decide_true, if_true, List.length_cons] at *
          omega
        · have := ihk e
          have h1 := hmono [k]
          simp only [List.map_cons, List.sum_cons, List.map_nil, List.sum_nil] at h1
          omega
    simp only [List.length_cons]
    omega

theorem sum_limits (wf : targets.WF) :
    (targets.keys.map (fun q => getInt targets q)).sum = (targets.map Prod.snd).sum := by
  unfold GoMap.keys
  rw [List.map_map]
  congr 1
  apply List.map_congr_left
  intro p hp
  simp [getInt, GoMap.get?_of_mem wf hp]

theorem sum_cast (l : List Str) (f : Str → Nat) :
    (((l.map f).sum : Nat) : Int) = (l.map (fun q => (f q : Int))).sum := by
  induction l with
  | nil => rfl
  | cons a l ih => simp [ih]

/-- Uncompleted handed-out tasks. -/
def uncompleted (out : List (Str × Str)) (completed : List Str) : List (Str × Str) :=
  out.filter (fun p => p.2 ∉ completed)

theorem uncompleted_le (wf : targets.WF) (wft : tasks.WF) (hv : ValidTargets targets tasks)
    (hlim : ∀ q n, targets.get? q = some n → 0 ≤ n) {s : Scheduler} {out : List (Str × Str)}
    {completed : List Str} (h : Protocol targets tasks s out completed) :
    ((uncompleted out completed).length : Int) ≤ (targets.map Prod.snd).sum := by
  have h1 := length_le_sum_filter (keys := targets.keys) (uncompleted out completed) (by
    rintro ⟨q, t⟩ hp
    obtain ⟨task, ht, e⟩ := (C13_handed_out_once_on_own_target wft h.history).2 q t
      (List.mem_filter.mp hp).1
    obtain ⟨n, hn, _⟩ := hv t task ht
    simp only
    rw [← e]; exact GoMap.mem_keys_of_get? hn)
  have h2 : (((targets.keys.map (fun q =>
      ((uncompleted out completed).filter (fun p => p.1 = q)).length)).sum : Nat) : Int) ≤
      (targets.map Prod.snd).sum := by
    rw [sum_cast, ← sum_limits wf]
    apply sum_map_le_int
    intro q hq
    obtain ⟨n, hn⟩ := GoMap.exists_get?_of_mem_keys hq
    have h3 := C14_concurrency_limit wft hlim h q n hn
    have h4 : ((uncompleted out completed).filter (fun p => p.1 = q)).length =
        (inFlight out completed q).length := by
      unfold uncompleted inFlight
      rw [List.filter_map, List.length_map, List.filter_filter, List.filter_filter]
      congr 1
      apply List.filter_congr
      intro p _
      simp [Function.comp, Bool.and_comm]
    rw [h4]
    simpa [getInt, hn] using h3
  omega

/-- Tasks in the channels and being sent on them. -/
def St.inChannels (st : St) : List Str :=
  st.before.map Prod.snd ++ (st.ended.map Prod.fst ++ st.main.held ++ st.done)

theorem Flow.protocol {st : St} (h : Flow targets tasks st) :
    st.out = [] ∨ ∃ s, Protocol targets tasks s st.out st.completed := by
  cases hs : st.sched with
  | start => exact Or.inl (h.sched0 hs).1
  | sending s l => exact Or.inr ⟨s, h.sched1 s l hs⟩
  | stopped =>
    rcases h.sched2 hs with ⟨_, ho, _⟩ | ⟨s, hp, _⟩
    · exact Or.inl ho
    · exact Or.inr ⟨s, hp⟩

/-- Every location holds a task at most once, and excludes the others. -/
theorem Flow.le_one (wft : tasks.WF) {st : St} (h : Flow targets tasks st) (t : Str) :
    (st.before.map Prod.snd).count t + nRuns targets st t + nReports targets st t +
      st.after.count t ≤ 1 := by
  rw [← h.count]; exact List.nodup_iff_count_le_one.mp (h.out_nodup wft) t

theorem after_count (st : St) (t : Str) : st.after.count t = (st.ended.map Prod.fst).count t +
    st.main.held.count t + st.done.count t + st.completed.count t + st.dropped.count t := by
  simp [St.after]; omega

theorem nReports_pos {st : St} {q t : Str} {ok : Bool} (hq : q ∈ targets.keys)
    (h : st.tgt q = .reporting t ok) : 1 ≤ nReports targets st t := by
  unfold nReports
  rw [Nat.one_le_iff_ne_zero, ← Nat.pos_iff_ne_zero, List.countP_pos_iff]
  exact ⟨q, hq, by simp [h, TgtPC.reports]⟩

theorem occupancy (wf : targets.WF) (wft : tasks.WF) (hv : ValidTargets targets tasks)
    (hlim : ∀ q n, targets.get? q = some n → 0 ≤ n) {st : St} (hc : Ctl targets st)
    (h : Flow targets tasks st) :
    (st.inChannels.length : Int) ≤ (targets.map Prod.snd).sum ∧
    (∀ q t ok, st.tgt q = .reporting t ok →
      (st.inChannels.length : Int) + 1 ≤ (targets.map Prod.snd).sum) := by
  have hsum0 : 0 ≤ (targets.map Prod.snd).sum := by
    apply sum_nonneg_int
    intro n hn
    obtain ⟨⟨q, n'⟩, hp, rfl⟩ := List.mem_map.mp hn
    exact hlim q _ (GoMap.get?_of_mem wf hp)
  have key : ∀ W : List Str, (∀ t, W.count t ≤ (st.before.map Prod.snd).count t +
      nReports targets st t + ((st.ended.map Prod.fst).count t +
      st.main.held.count t + st.done.count t)) →
      (W.length : Int) ≤ (targets.map Prod.snd).sum := by
    intro W hW
    have hnd : W.Nodup := by
      rw [List.nodup_iff_count_le_one]; intro t
      have := hW t; have := h.le_one wft t; have := after_count st t; omega
    have hsub : W ⊆ (uncompleted st.out st.completed).map Prod.snd := by
      intro t ht
      have h1 : 1 ≤ W.count t := List.one_le_count_iff.mpr ht
      have h2 := hW t; have h3 := h.le_one wft t; have h4 := after_count st t
      have h5 := h.count t
      have hc0 : t ∉ st.completed := by rw [← List.count_eq_zero]; omega
      have hout : t ∈ st.out.map Prod.snd := by rw [← List.one_le_count_iff]; omega
      obtain ⟨⟨q, t'⟩, ho, rfl⟩ := List.mem_map.mp hout
      exact List.mem_map.mpr ⟨_, List.mem_filter.mpr ⟨ho, by simpa using hc0⟩, rfl⟩
    have hlen := (hnd.subperm hsub).length_le
    rw [List.length_map] at hlen
    rcases h.protocol with ho | ⟨s, hp⟩
    · rw [ho] at hlen; simp [uncompleted] at hlen; subst hlen; simpa using hsum0
    · have := uncompleted_le wf wft hv hlim hp; omega
  constructor
  · apply key
    intro t
    simp only [St.inChannels, List.count_append]; omega
  · intro q t ok hr
    have hq := hc.isTarget q (by rw [hr]; simp)
    have := key (t :: st.inChannels) (by
      intro t'
      simp only [St.inChannels, List.count_append, List.count_cons]
      split
      · rename_i e
        have e : t = t' := by simpa using e
        subst e
        have := nReports_pos (targets := targets) hq hr
        omega
      · omega)
    simpa using this

/-! ### Something is always in flight -/

theorem protocol_inflight (wft : tasks.WF) (hv : ValidTargets targets tasks) (hne : tasks ≠ [])
    {s : Scheduler} {out : List (Str × Str)} {completed : List Str}
    (h : Protocol targets tasks s out completed) : ∃ q c, (q, c) ∈ out ∧ c ∉ completed := by
  by_cases hall : ∃ t ∈ tasks.keys, ∀ q, (q, t) ∉ out
  · exact C15_never_stalls wft hv h hall
  · have hall : ∀ t ∈ tasks.keys, ∃ q, (q, t) ∈ out := by
      intro t ht; by_contra hn; exact hall ⟨t, ht, fun q hq => hn ⟨q, hq⟩⟩
    cases h with
    | new h =>
      obtain ⟨p, hp⟩ := List.exists_mem_of_ne_nil _ hne
      obtain ⟨q, hq⟩ := hall p.1 (GoMap.mem_keys_of_mem hp)
      exact ⟨q, p.1, hq, by simp⟩
    | @next s s' out completed r h q c hout hnew hn =>
      have hnot : ¬ ∀ t ∈ tasks.keys, ∃ q, (q, t) ∈ out := by
        intro ha
        have := (C16_errNoPendingTasks_exact wft h.history c).mpr ha
        rw [hn] at this; cases this
      push Not at hnot
      obtain ⟨t, ht, hnt⟩ := hnot
      obtain ⟨q', hq'⟩ := hall t ht
      refine ⟨q', t, hq', ?_⟩
      intro hcm
      rcases List.mem_append.mp hcm with hcm | hcm
      · obtain ⟨rel, _, _, h3, _⟩ := h.inv wft
        obtain ⟨q'', hq''⟩ := h3.sub t hcm
        exact hnt q'' hq''
      · simp only [List.mem_singleton] at hcm; subst hcm
        exact hnt q hout

/-! ### Progress -/

theorem new_ne_none (wft : tasks.WF) : new targets tasks ≠ none := by
  have wf' : (depInput tasks).WF := by
    simpa [depInput, GoMap.WF, GoMap.keys, Function.comp_def] using wft
  unfold new
  rcases newDependencyGraph_cases wf' with ⟨n, m, e, _⟩ | ⟨c, e, _⟩ | ⟨g, e, _⟩ <;>
    · simp only [depInput] at e; rw [e]; simp

/-- A task of a limit-1 target that ended with an error excludes others of that target from
waiting. -/
theorem failed_excludes (wft : tasks.WF) (hlim : ∀ q n, targets.get? q = some n → 0 ≤ n)
    {st : St} (h : Flow targets tasks st) {q t t' : Str} (hf : .handleEnd q t false ∈ st.trace)
    (h1 : targets.get? q = some 1) (hb : (q, t') ∈ st.before) : False := by
  have ho : (q, t) ∈ st.out := h.runOut q t (h.endTr q t false hf)
  have ho' : (q, t') ∈ st.out := h.beforeOut _ hb
  rcases h.protocol with e | ⟨s, hp⟩
  · rw [e] at ho; cases ho
  have hl := C14_concurrency_limit wft hlim hp q 1 h1
  have hends : 1 ≤ ends st.trace t := by
    unfold ends
    rw [Nat.one_le_iff_ne_zero, ← Nat.pos_iff_ne_zero, List.countP_pos_iff]
    exact ⟨_, hf, by simp [Event.isEnd]⟩
  have hle := h.le_one wft t
  have hne := h.nends t
  have hb' : 1 ≤ (st.before.map Prod.snd).count t' :=
    List.one_le_count_iff.mpr (List.mem_map.mpr ⟨_, hb, rfl⟩)
  have hle' := h.le_one wft t'
  have hac' := after_count st t'
  have htc' : t' ∉ st.completed := by rw [← List.count_eq_zero]; omega
  have htt : t ≠ t' := by
    rintro rfl; omega
  -- t is not completed, since a completed task ended without error
  have htc : t ∉ st.completed := by
    intro hc
    obtain ⟨q2, h2⟩ := h.okTr t (Or.inr (Or.inr hc))
    have : 2 ≤ ends st.trace t := by
      unfold ends
      have hsub : List.Subperm [Event.handleEnd q t false, .handleEnd q2 t true] st.trace :=
        List.Nodup.subperm (by simp) (by
          intro e he
          simp only [List.mem_cons, List.not_mem_nil, or_false] at he
          rcases he with rfl | rfl
          · exact hf
          · exact h2)
      have := hsub.countP_le (Event.isEnd t)
      simpa [Event.isEnd] using this
    omega
  have hsub : List.Subperm [t, t'] (inFlight st.out st.completed q) := by
    refine List.Nodup.subperm (by simp [htt]) ?_
    intro x hx
    simp only [List.mem_cons, List.not_mem_nil, or_false] at hx
    unfold inFlight
    rcases hx with rfl | rfl
    · exact List.mem_filter.mpr ⟨List.mem_map.mpr ⟨_, List.mem_filter.mpr ⟨ho, by simp⟩, rfl⟩,
        by simpa using htc⟩
    · exact List.mem_filter.mpr ⟨List.mem_map.mpr ⟨_, List.mem_filter.mpr ⟨ho', by simp⟩, rfl⟩,
        by simpa using htc'⟩
  have := hsub.length_le
  simp only [List.length_cons, List.length_nil] at this
  omega

theorem progress' (wf : targets.WF) (wft : tasks.WF) (hv : ValidTargets targets tasks)
    (hlim : ∀ q n, targets.get? q = some n → 0 ≤ n) (hne : tasks ≠ [])
    {st : St} (hc : Ctl targets st) (h : Flow targets tasks st)
    (hfail : ∀ q t t', .handleEnd q t false ∈ st.trace → (q, t') ∉ st.before)
    (hret : ∀ e, st.main ≠ .returned e) : ∃ st', Step targets tasks st st' := by
  by_contra hno
  have hno : ∀ st', ¬ Step targets tasks st st' := fun st' hs => hno ⟨st', hs⟩
  obtain ⟨hocc, hoccr⟩ := occupancy wf wft hv hlim hc h
  have hcap : capacity targets = 2 * (targets.map Prod.snd).sum := rfl
  have hlen : st.inChannels.length = st.sched.todo.length + st.ready.length +
      st.router.held.length + (st.ended.length + st.main.held.length + st.done.length) := by
    simp [St.inChannels, St.before]; omega
  -- targets
  have htgt : ∀ q, st.tgt q = .notStarted ∨ st.tgt q = .idle ∨ st.tgt q = .stopped := by
    intro q
    cases e : st.tgt q with
    | notStarted => simp
    | idle => simp
    | running t => exact absurd (Step.handleEnd st q t true e) (hno _)
    | reporting t ok =>
      exact absurd (Step.report st q t ok e (by have := hoccr q t ok e; omega)) (hno _)
    | stopping => exact absurd (Step.targetStop st q e) (hno _)
    | stopped => simp
  -- main
  have hmain : (st.main = .loop1 ∨ ∃ t, st.main = .loop2 (some t)) ∧ st.ended = [] ∧
      st.router ≠ .stopped := by
    cases e : st.main with
    | starting l =>
      cases l with
      | nil => exact absurd (Step.targetsStarted st e) (hno _)
      | cons q l => exact absurd (Step.targetStart st q l e) (hno _)
    | failing q => exact absurd (Step.returnStartErr st q e) (hno _)
    | sendDone t =>
      exact absurd (Step.mainSend st t e (by
        have : st.main.held.length = 1 := by rw [e]; rfl
        omega)) (hno _)
    | returned x => exact absurd e (hret x)
    | loop1 =>
      have hen : st.ended = [] := by
        cases e' : st.ended with
        | nil => rfl
        | cons p rest =>
          obtain ⟨t, ok⟩ := p
          cases ok
          · exact absurd (Step.mainErr st t rest e e') (hno _)
          · exact absurd (Step.mainOk st t rest e e') (hno _)
      exact ⟨by simp, hen, fun hr => hno _ (Step.mainEnd1 st e hen hr)⟩
    | loop2 x =>
      have hen : st.ended = [] := by
        cases e' : st.ended with
        | nil => rfl
        | cons p rest =>
          obtain ⟨t, ok⟩ := p
          exact absurd (Step.mainDrain st x t ok rest e e') (hno _)
      have hr : st.router ≠ .stopped := fun hr => hno _ (Step.mainReturn st x e hen hr)
      cases x with
      | none => exact absurd (hc.loop2 e).1 hr
      | some t => exact ⟨by simp, hen, hr⟩
  obtain ⟨hm, hen, hrs⟩ := hmain
  have hallst : ∀ q ∈ targets.keys, st.tgt q ≠ .notStarted := by
    apply hc.started
    rcases hm with e | ⟨t, e⟩ <;> rw [e] <;> rfl
  have hmheld : st.main.held = [] := by
    rcases hm with e | ⟨t, e⟩ <;> rw [e] <;> rfl
  cases hr : st.router with
  | notStarted =>
    obtain ⟨l, hl⟩ := hc.router0.mp hr
    rcases hm with e | ⟨t, e⟩ <;> rw [e] at hl <;> cases hl
  | stopped => exact hrs hr
  | waitWg =>
    refine hno _ (Step.routerDone st hr ?_)
    intro q
    rcases htgt q with e | e | e
    · exact Or.inl e
    · exact absurd (Step.targetClosed st q e (Or.inl hr)) (hno _)
    · exact Or.inr e
  | hold q t =>
    have hb : (q, t) ∈ st.before := by simp [St.before, hr, RouterPC.held]
    have ho := h.beforeOut _ hb
    have hq : q ∈ targets.keys := by
      rcases h.protocol with e | ⟨s, hp⟩
      · rw [e] at ho; cases ho
      · obtain ⟨task, ht, e⟩ := (C13_handed_out_once_on_own_target wft hp.history).2 q t ho
        obtain ⟨n, hn, _⟩ := hv t task ht
        rw [← e]; exact GoMap.mem_keys_of_get? hn
    rcases htgt q with e | e | e
    · exact hallst q hq e
    · exact hno _ (Step.routerSend st q t hr e)
    · rcases hc.leave q (Or.inr e) with e | e | ⟨t0, hf⟩
      · rw [hr] at e; cases e
      · rw [hr] at e; cases e
      · exact hfail q t0 t hf hb
  | recv =>
    have hrd : st.ready = [] := by
      cases e : st.ready with
      | nil => rfl
      | cons p rest => exact absurd (Step.routerRecv st p.1 p.2 rest hr e) (hno _)
    cases hs : st.sched with
    | start =>
      cases hn : new targets tasks with
      | none => exact new_ne_none wft hn
      | some x =>
        cases x with
        | error e => exact hno _ (Step.schedNewErr st e hs hn)
        | ok p => exact hno _ (Step.schedNew st p.1 p.2 p.2 hs hn (List.Perm.refl _))
    | stopped => exact hno _ (Step.routerClosed st hr hrd hs)
    | sending s l =>
      cases l with
      | cons p l =>
        refine hno _ (Step.schedSend st s p l hs ?_)
        have : st.sched.todo.length = l.length + 1 := by rw [hs]; rfl
        omega
      | nil =>
        have hd : st.done = [] := by
          cases e : st.done with
          | nil => rfl
          | cons c rest =>
            exfalso
            cases hn : s.next c with
            | mk s' x =>
              cases x with
              | none => exact hno _ (Step.schedRefused st s s' c rest hs e hn)
              | some r =>
                exact hno _ (Step.schedNext st s s' c rest r r hs e hn (List.Perm.refl _))
        have hdc : ¬ st.doneClosed = true := fun e => hno _ (Step.schedClosed st s hs hd e)
        obtain ⟨q, c, ho, hnc⟩ := protocol_inflight wft hv hne (h.sched1 s [] hs)
        have hcnt := h.count c
        have h1 : 1 ≤ (st.out.map Prod.snd).count c :=
          List.one_le_count_iff.mpr (List.mem_map.mpr ⟨_, ho, rfl⟩)
        have hb : st.before = [] := by simp [St.before, hs, hrd, hr, SchedPC.todo, RouterPC.held]
        have hrun : nRuns targets st c = 0 := by
          unfold nRuns
          rw [List.countP_eq_zero]
          intro q _
          rcases htgt q with e | e | e <;> simp [e, TgtPC.runs]
        have hrep : nReports targets st c = 0 := by
          unfold nReports
          rw [List.countP_eq_zero]
          intro q _
          rcases htgt q with e | e | e <;> simp [e, TgtPC.reports]
        have hdrop : st.dropped = [] := by
          cases e : st.dropped with
          | nil => rfl
          | cons t l =>
            rcases h.dropOk t (by simp [e]) with e' | ⟨e', _⟩
            · exact absurd e' hdc
            · rw [hs] at e'; cases e'
        have hcc : st.completed.count c = 0 := List.count_eq_zero.mpr hnc
        have hac := after_count st c
        rw [hen, hmheld, hd, hdrop, hcc] at hac
        rw [hb, hrun, hrep, hac] at hcnt
        simp only [List.map_nil, List.count_nil] at hcnt
        omega

theorem progress (wf : targets.WF) (wft : tasks.WF) (hv : ValidTargets targets tasks)
    (hlim : ∀ q n, targets.get? q = some n → 0 ≤ n) (hne : tasks ≠ [])
    {st : St} (hc : Ctl targets st) (h : Flow targets tasks st)
    (hfail : ∀ q t, .handleEnd q t false ∈ st.trace → targets.get? q = some 1)
    (hret : ∀ e, st.main ≠ .returned e) : ∃ st', Step targets tasks st st' :=
  progress' wf wft hv hlim hne hc h
    (fun q t _ hf hb => failed_excludes wft hlim h hf (hfail q t hf) hb) hret

/-! ### Termination -/

def SchedPC.weight : SchedPC → Nat
  | .start => 2
  | .sending _ _ => 1
  | .stopped => 0

def RouterPC.weight : RouterPC → Nat
  | .notStarted => 3
  | .recv => 2
  | .hold _ _ => 2
  | .waitWg => 1
  | .stopped => 0

def TgtPC.weight : TgtPC → Nat
  | .notStarted => 3
  | .idle => 2
  | .running _ => 8
  | .reporting _ _ => 7
  | .stopping => 1
  | .stopped => 0

def MainPC.weight : MainPC → Nat
  | .starting _ => 4
  | .failing _ => 1
  | .loop1 => 3
  | .sendDone _ => 3
  | .loop2 _ => 2
  | .returned _ => 0

def tgtWeight (targets : GoMap Str Int) (st : St) : Nat :=
  (targets.keys.map (fun q => (st.tgt q).weight)).sum

/-- Decreases with every step. -/
def measure (targets : GoMap Str Int) (tasks : GoMap Str Task) (st : St) : Nat :=
  10 * (tasks.length - st.out.length) + 9 * st.sched.todo.length + 8 * st.ready.length +
  7 * st.router.held.length + tgtWeight targets st + 4 * st.ended.length +
  3 * st.main.held.length + 2 * st.done.length + st.sched.weight + st.router.weight +
  st.main.weight

theorem sum_update {keys : List Str} (hn : keys.Nodup) {q : Str} (hq : q ∈ keys)
    (f : Str → TgtPC) (v : TgtPC) (w : TgtPC → Nat) :
    (keys.map (fun x => w (Function.update f q v x))).sum + w (f q) =
      (keys.map (fun x => w (f x))).sum + w v := by
  induction keys with
  | nil => cases hq
  | cons a l ih =>
    rw [List.nodup_cons] at hn
    simp only [List.map_cons, List.sum_cons]
    by_cases e : a = q
    · subst e
      have : l.map (fun x => w (Function.update f a v x)) = l.map (fun x => w (f x)) := by
        apply List.map_congr_left
        intro x hx
        have : x ≠ a := fun e => hn.1 (e ▸ hx)
        simp [Function.update_of_ne this]
      rw [this]; simp; omega
    · have hq' : q ∈ l := by
        rcases List.mem_cons.mp hq with h | h
        · exact absurd h.symm e
        · exact h
      have := ih hn.2 hq'
      simp only [Function.update_of_ne e]; omega

theorem tgtWeight_update (wf : targets.WF) {st st' : St} {q : Str} {v : TgtPC}
    (hq : q ∈ targets.keys) (h : st'.tgt = Function.update st.tgt q v) :
    tgtWeight targets st' + (st.tgt q).weight = tgtWeight targets st + v.weight := by
  unfold tgtWeight; rw [h]; exact sum_update wf hq _ _ _

theorem out_length_le (wft : tasks.WF) {st : St} (h : Flow targets tasks st) :
    st.out.length ≤ tasks.length := by
  have hsub : (st.out.map Prod.snd) ⊆ tasks.keys := by
    intro t ht
    obtain ⟨⟨q, t'⟩, ho, rfl⟩ := List.mem_map.mp ht
    rcases h.protocol with e | ⟨s, hp⟩
    · rw [e] at ho; cases ho
    · obtain ⟨task, ht, e⟩ := (C13_handed_out_once_on_own_target wft hp.history).2 q t' ho
      exact GoMap.mem_keys_of_get? ht
  have := ((h.out_nodup wft).subperm hsub).length_le
  simpa [GoMap.keys] using this

theorem measure_decreases (wf : targets.WF) (wft : tasks.WF) {st st' : St} (hc : Ctl targets st)
    (h : Flow targets tasks st) (hs : Step targets tasks st st') :
    measure targets tasks st' < measure targets tasks st := by
  have hlen' := out_length_le wft (h.step wf wft hc hs)
  have hr0 := hc.router0
  cases hs with
  | schedNew s r r' hh hn hp =>
    have hl := (flat_perm hp).length_eq
    simp [measure, SchedPC.todo, SchedPC.weight, tgtWeight, hh] at hlen' ⊢
    omega
  | schedNext s s' c rest r r' hh hd hn hp =>
    have hl := (flat_perm hp).length_eq
    simp [measure, SchedPC.todo, SchedPC.weight, tgtWeight, hh, hd] at hlen' ⊢
    omega
  | targetStart q rest h =>
    have h1 := hc.starting _ h
    have hq := h1.2.1 q (by simp)
    have h2 := (h1.2.2 q hq).mpr (by simp)
    have e1 := tgtWeight_update wf (st := st)
      (st' := { st with tgt := Function.update st.tgt q .idle }) hq rfl
    simp [measure, tgtWeight, h2, h, TgtPC.weight, MainPC.weight, MainPC.held] at e1 ⊢
    omega
  | routerSend q t' h ht =>
    have hq := hc.isTarget q (by rw [ht]; simp)
    have e1 := tgtWeight_update wf (st := st)
      (st' := { st with tgt := Function.update st.tgt q (.running t') }) hq rfl
    simp [measure, tgtWeight, h, ht, TgtPC.weight, RouterPC.weight, RouterPC.held] at e1 ⊢
    omega
  | handleEnd q t' ok h =>
    have hq := hc.isTarget q (by rw [h]; simp)
    have e1 := tgtWeight_update wf (st := st)
      (st' := { st with tgt := Function.update st.tgt q (.reporting t' ok) }) hq rfl
    simp [measure, tgtWeight, h, TgtPC.weight] at e1 ⊢
    omega
  | report q t' ok h hl =>
    have hq := hc.isTarget q (by rw [h]; simp)
    have e1 := tgtWeight_update wf (st := st)
      (st' := { st with tgt := Function.update st.tgt q (if ok then .idle else .stopping) }) hq rfl
    cases ok <;> simp [measure, tgtWeight, h, TgtPC.weight] at e1 ⊢ <;> omega
  | targetClosed q h hr =>
    have hq := hc.isTarget q (by rw [h]; simp)
    have e1 := tgtWeight_update wf (st := st)
      (st' := { st with tgt := Function.update st.tgt q .stopping }) hq rfl
    simp [measure, tgtWeight, h, TgtPC.weight] at e1 ⊢
    omega
  | targetStop q h =>
    have hq := hc.isTarget q (by rw [h]; simp)
    have e1 := tgtWeight_update wf (st := st)
      (st' := { st with tgt := Function.update st.tgt q .stopped }) hq rfl
    simp [measure, tgtWeight, h, TgtPC.weight] at e1 ⊢
    omega
  | _ =>
    simp_all [measure, tgtWeight, TgtPC.weight, SchedPC.weight, RouterPC.weight, MainPC.weight,
      SchedPC.todo, RouterPC.held, MainPC.held]
    try omega

end Verif.Runner
