import Verif.Sched.Same

/-!
# C157: the names of targets do not matter
-/

namespace Verif.Sched
open Verif Dag Spec

/-! ## Specification -/

/-- Two runbooks that differ in the names of their targets, which `f` translates, and in the order in which things are
listed. -/
structure Renamed (f : Str → Str) (targets targets' : GoMap Str Int) (tasks tasks' : GoMap Str Task) : Prop where
  inj : Function.Injective f
  limits : (targets.map (fun p => (f p.1, p.2))).Perm targets'
  targets : (tasks.map (fun p => (p.1, f p.2.target))).Perm (tasks'.map (fun p => (p.1, p.2.target)))
  after : ∀ t m, After tasks t m ↔ After tasks' t m

/-! ## Lemmas -/

variable {f : Str → Str} {targets targets' : GoMap Str Int} {tasks tasks' : GoMap Str Task} {s s' : Scheduler}

theorem Renamed.keys (h : Renamed f targets targets' tasks tasks') : tasks.keys.Perm tasks'.keys := by
  have := h.targets.map Prod.fst
  simpa [GoMap.keys, Function.comp_def] using this

theorem Renamed.edge (h : Renamed f targets targets' tasks tasks') (n m : Str) :
    Edge (depInput tasks) n m ↔ Edge (depInput tasks') n m := by
  rw [edge_depInput, edge_depInput, h.after]

/-- Two schedulers that are to hand out the same, up to the names of the targets. -/
structure Moved (f : Str → Str) (known : List Str) (s s' : Scheduler) : Prop where
  deps : s.deps.pending = s'.deps.pending
  target : ∀ t ∈ known, targetOf s'.tasks t = f (targetOf s.tasks t)
  queue : ∀ q, getQ s'.pending (f q) = getQ s.pending q
  other : ∀ q', (∀ q, f q ≠ q') → getQ s'.pending q' = []
  cap : ∀ q, getInt s'.targetCap (f q) = getInt s.targetCap q
  len : ∀ q, getInt s'.targetLen (f q) = getInt s.targetLen q

theorem Moved.buildReady {known : List Str} (h : Moved f known s s') (wf : s.pending.WF) (wf' : s'.pending.WF) :
    Moved f known s.buildReady.1 s'.buildReady.1 ∧ ∀ q, getQ s'.buildReady.2 (f q) = getQ s.buildReady.2 q := by
  have hs := buildReadyLoop_spec s.targetCap s.pending s.targetLen wf
  have hs' := buildReadyLoop_spec s'.targetCap s'.pending s'.targetLen wf'
  have hr : ∀ q, getQ s'.buildReady.2 (f q) = getQ s.buildReady.2 q := by
    intro q
    have a := buildReadyLoop_getQ s.targetCap s.pending s.targetLen wf q
    have a' := buildReadyLoop_getQ s'.targetCap s'.pending s'.targetLen wf' (f q)
    rw [h.queue, h.cap, h.len] at a'
    exact a'.trans a.symm
  refine ⟨⟨h.deps, h.target, ?_, ?_, h.cap, ?_⟩, hr⟩
  · intro q
    have a : getQ s.buildReady.2 q ++ getQ s.buildReady.1.pending q = getQ s.pending q := hs.split q
    have a' : getQ s'.buildReady.2 (f q) ++ getQ s'.buildReady.1.pending (f q) = getQ s'.pending (f q) := hs'.split (f q)
    rw [h.queue, ← a, hr] at a'
    exact List.append_cancel_left a'
  · intro q' hq'
    have a' : getQ s'.buildReady.2 q' ++ getQ s'.buildReady.1.pending q' = getQ s'.pending q' := hs'.split q'
    rw [h.other q' hq'] at a'
    exact (List.append_eq_nil_iff.1 a').2
  · intro q
    have a : getInt s.buildReady.1.targetLen q = getInt s.targetLen q + (getQ s.buildReady.2 q).length := hs.lenEq q
    have a' : getInt s'.buildReady.1.targetLen (f q) = getInt s'.targetLen (f q) + (getQ s'.buildReady.2 (f q)).length :=
      hs'.lenEq (f q)
    rw [a, a', hr, h.len]

theorem filter_moved (hf : Function.Injective f) {m m' : GoMap Str Str} {known l : List Str}
    (ht : ∀ t ∈ known, targetOf m' t = f (targetOf m t)) (hl : ∀ t ∈ l, t ∈ known) (q : Str) :
    l.filter (fun t => targetOf m' t = f q) = l.filter (fun t => targetOf m t = q) := by
  apply List.filter_congr
  intro t h
  rw [ht t (hl t h)]
  exact decide_eq_decide.2 hf.eq_iff

theorem filter_other {m m' : GoMap Str Str} {known l : List Str}
    (ht : ∀ t ∈ known, targetOf m' t = f (targetOf m t)) (hl : ∀ t ∈ l, t ∈ known) {q' : Str} (hq : ∀ q, f q ≠ q') :
    l.filter (fun t => targetOf m' t = q') = [] := by
  rw [List.filter_eq_nil_iff]
  intro t h
  rw [ht t (hl t h)]
  simpa using hq _

theorem next_known {nodes : GoMap Str (List Str)} {g : DepGraph} {done emitted : List Str}
    (h : DepInv nodes g done emitted) (c : Str) : ∀ t ∈ (g.next c).2, t ∈ nodes.keys := by
  intro t ht
  obtain ⟨a, -, -⟩ := next_inv h c
  exact a.part.mem_iff.1 (List.mem_append_left _ (List.mem_append_right _ ht))

theorem noPending_moved {known : List Str} {rep rel rel' : List Str} {out out' : List (Str × Str)}
    (h : Moved f known s s') (hi : SInv tasks s rep rel out) (hi' : SInv tasks' s' rep rel' out') :
    s.noPendingTasks.1 = s'.noPendingTasks.1 := by
  rw [Bool.eq_iff_iff, (noPending_spec hi).2, (noPending_spec hi').2, h.deps]
  refine and_congr_right fun _ => ⟨fun g q' => ?_, fun g q => by rw [← h.queue]; exact g _⟩
  by_cases hq : ∃ q, f q = q'
  · obtain ⟨q, rfl⟩ := hq
    rw [h.queue]; exact g q
  · exact h.other q' fun q e => hq ⟨q, e⟩

/-- What two such schedulers answer when a task has ended. -/
theorem Moved.next (hf : Function.Injective f) (hE : ∀ n m, Edge (depInput tasks) n m ↔ Edge (depInput tasks') n m)
    {rep rel rel' : List Str} {out out' : List (Str × Str)} (h : Moved f tasks.keys s s')
    (hi : SInv tasks s rep rel out) (hi' : SInv tasks' s' rep rel' out') {c : Str} (hc : c ∈ tasks.keys) :
    Moved f tasks.keys (s.next c).1 (s'.next c).1 ∧ ((s.next c).2 = none ↔ (s'.next c).2 = none) ∧
    ∀ r r', (s.next c).2 = some r → (s'.next c).2 = some r' → ∀ q, getQ r' (f q) = getQ r q := by
  have hno := noPending_moved h hi hi'
  obtain ⟨hnx, hnp⟩ := next_same hE hi.dep hi'.dep h.deps c
  have hkn : ∀ t ∈ (s.deps.next c).2, t ∈ tasks.keys := by
    intro t ht
    rw [← keys_depInput]; exact next_known hi.dep c t ht
  have hw := (noPending_spec hi).1.wf
  have hw' := (noPending_spec hi').1.wf
  simp only at hw hw'
  have hq := noPending_queue hi.wf
  have hq' := noPending_queue hi'.wf
  unfold Scheduler.next
  cases e : s.noPendingTasks with
  | mk b p =>
    cases e' : s'.noPendingTasks with
    | mk b' p' =>
      rw [e, e'] at hno
      rw [e] at hw hq
      rw [e'] at hw' hq'
      simp only at hno hw hw' hq hq'
      subst hno
      cases b with
      | true =>
        refine ⟨⟨h.deps, h.target, fun q => ?_, fun q' g => ?_, h.cap, h.len⟩, Iff.rfl, by simp⟩
        · rw [hq, hq', h.queue]
        · rw [hq', h.other q' g]
      | false =>
        have hmid : Moved f tasks.keys
            { s with deps := (s.deps.next c).1,
                     targetLen := s.targetLen.set (targetOf s.tasks c) (getInt s.targetLen (targetOf s.tasks c) - 1),
                     pending := fillPending s.tasks (s.deps.next c).2 p }
            { s' with deps := (s'.deps.next c).1,
                      targetLen := s'.targetLen.set (targetOf s'.tasks c) (getInt s'.targetLen (targetOf s'.tasks c) - 1),
                      pending := fillPending s'.tasks (s'.deps.next c).2 p' } := by
          refine ⟨hnp, h.target, fun q => ?_, fun q' g => ?_, h.cap, fun q => ?_⟩
          · simp only [fillPending_getQ]
            rw [hq, hq', h.queue, ← hnx, filter_moved hf h.target hkn]
          · simp only [fillPending_getQ]
            rw [hq', h.other q' g, ← hnx, filter_other h.target hkn g]; rfl
          · simp only [getInt_set, h.target c hc, h.len, hf.eq_iff]
        obtain ⟨a, b⟩ := hmid.buildReady (fillPending_wf _ _ hw) (fillPending_wf _ _ hw')
        refine ⟨a, by simp, ?_⟩
        intro r r' hr hr'
        simp only [Option.some.injEq] at hr hr'
        rw [← hr, ← hr']
        exact b

theorem get?_rename {V : Type} (hf : Function.Injective f) (m : GoMap Str V) (q : Str) :
    GoMap.get? (m.map (fun p => (f p.1, p.2))) (f q) = GoMap.get? m q := by
  induction m with
  | nil => rfl
  | cons p m ih =>
    obtain ⟨a, v⟩ := p
    simp only [List.map_cons, GoMap.get?_cons, hf.eq_iff]
    split
    · rfl
    · exact ih

/-- What two such schedulers hand out at once. -/
theorem Moved.new (wf : targets.WF) (wft : tasks.WF) (hr : Renamed f targets targets' tasks tasks')
    {r r' : GoMap Str (List Str)} (h : new targets tasks = some (.ok (s, r)))
    (h' : Sched.new targets' tasks' = some (.ok (s', r'))) :
    Moved f tasks.keys s s' ∧ ∀ q, getQ r' (f q) = getQ r q := by
  have wft' : tasks'.WF := hr.keys.nodup_iff.1 wft
  obtain ⟨g, hg, -, hd, -, -, -, -⟩ := new_pres wft h
  obtain ⟨g', hg', -, hd', -, -, -, -⟩ := new_pres wft' h'
  have hE := hr.edge
  have hpend := graph_of_same (depInput_wf wft) (depInput_wf wft')
    (by rw [keys_depInput, keys_depInput]; exact hr.keys) hE hg hg'
  obtain ⟨hnx, hnp⟩ := next_same hE hd hd' hpend []
  have hkn : ∀ t ∈ (g.next []).2, t ∈ tasks.keys := by
    intro t ht
    rw [← keys_depInput]; exact next_known hd [] t ht
  unfold Sched.new at h h'
  simp only [depInput] at hg hg'
  rw [hg] at h
  rw [hg'] at h'
  simp only [Option.some.injEq, Except.ok.injEq, Prod.ext_iff] at h h'
  have htgt : ∀ t ∈ tasks.keys, targetOf (tasks'.map (fun p => (p.1, p.2.target))) t =
      f (targetOf (tasks.map (fun p => (p.1, p.2.target))) t) := by
    intro t ht
    unfold targetOf
    rw [← GoMap.get?_perm (m := tasks.map (fun p => (p.1, f p.2.target)))
      (by simpa [GoMap.WF, GoMap.keys, Function.comp_def] using wft) hr.targets]
    rw [GoMap.get?_map_val (fun _ (v : Task) => f v.target), GoMap.get?_map_val (fun _ (v : Task) => v.target)]
    cases e : GoMap.get? tasks t with
    | none => exact absurd ht (GoMap.get?_eq_none.1 e)
    | some v => rfl
  have hmid : Moved f tasks.keys
      { deps := (g.next []).1, tasks := tasks.map (fun p => (p.1, p.2.target)),
        pending := fillPending (tasks.map (fun p => (p.1, p.2.target))) (g.next []).2 [],
        targetCap := targets, targetLen := targets.map (fun p => (p.1, 0)) }
      { deps := (g'.next []).1, tasks := tasks'.map (fun p => (p.1, p.2.target)),
        pending := fillPending (tasks'.map (fun p => (p.1, p.2.target))) (g'.next []).2 [],
        targetCap := targets', targetLen := targets'.map (fun p => (p.1, 0)) } := by
    refine ⟨hnp, htgt, fun q => ?_, fun q' hq' => ?_, fun q => ?_, fun q => ?_⟩
    · simp only [fillPending_getQ]
      rw [← hnx, filter_moved hr.inj htgt hkn]; rfl
    · simp only [fillPending_getQ]
      rw [← hnx, filter_other htgt hkn hq']; rfl
    · unfold getInt
      have wf1 : GoMap.WF (targets.map (fun p => (f p.1, p.2))) := by
        have : (targets.keys.map f).Nodup := wf.map hr.inj
        simpa [GoMap.WF, GoMap.keys, Function.comp_def] using this
      rw [← GoMap.get?_perm wf1 hr.limits, get?_rename hr.inj]
    · have h0 : ∀ (l : GoMap Str Int) q, getInt (l.map (fun p => (p.1, (0 : Int)))) q = 0 := by
        intro l q; unfold getInt
        rw [GoMap.get?_map_val (fun _ _ => (0 : Int))]
        cases GoMap.get? l q <;> rfl
      simp only [h0]
  obtain ⟨a, b⟩ := hmid.buildReady (fillPending_wf _ _ GoMap.WF.nil) (fillPending_wf _ _ GoMap.WF.nil)
  rw [← h.1, ← h'.1, ← h.2, ← h'.2]
  exact ⟨a, b⟩

theorem flat_moved {r r' : GoMap Str (List Str)} (w : r.WF) (w' : r'.WF) (h : ∀ q, getQ r' (f q) = getQ r q) (q : Str) :
    (flat r').filter (fun p => p.1 = f q) = ((flat r).filter (fun p => p.1 = q)).map (fun p => (f p.1, p.2)) := by
  rw [flat_filter w, flat_filter w', h, List.map_map]
  rfl

/-- Two such schedulers that were told of the same completions. -/
theorem History.moved (wf : targets.WF) (wft : tasks.WF) (hr : Renamed f targets targets' tasks tasks')
    {out out' : List (Str × Str)} {calls : List Str} (hk : ∀ c ∈ calls, c ∈ tasks.keys)
    (h : History targets tasks s out calls) (h' : History targets' tasks' s' out' calls) :
    ∃ rep rel rel', Moved f tasks.keys s s' ∧ SInv tasks s rep rel out ∧ SInv tasks' s' rep rel' out' ∧
      ∀ q, out'.filter (fun p => p.1 = f q) = (out.filter (fun p => p.1 = q)).map (fun p => (f p.1, p.2)) := by
  have wft' : tasks'.WF := hr.keys.nodup_iff.1 wft
  have hE := hr.edge
  induction h generalizing s' out' with
  | @new s r h =>
    generalize hc : ([] : List Str) = calls at h'
    cases h' with
    | @new _ r' h' =>
      obtain ⟨a, b⟩ := Moved.new wf wft hr h h'
      obtain ⟨_, -, -, -, hi, hw, -, -⟩ := new_pres wft h
      obtain ⟨_, -, -, -, hi', hw', -, -⟩ := new_pres wft' h'
      exact ⟨_, _, _, a, hi, hi', flat_moved hw hw' b⟩
    | next h1 c hn => simp at hc
    | refused h1 c hn => simp at hc
  | @next s s1 out calls r h c hn ih =>
    have hkc : c ∈ tasks.keys := hk c (by simp)
    have hk' : ∀ c ∈ calls, c ∈ tasks.keys := fun x hx => hk x (by simp [hx])
    generalize hc : calls ++ [c] = calls' at h'
    cases h' with
    | new h1 => simp at hc
    | @next s2 s2' out2 calls2 r' h1 c' hn' =>
      obtain ⟨rfl, e⟩ := List.append_inj' hc rfl
      cases e
      obtain ⟨rep, rel, rel', hal, hi, hi', hf⟩ := ih hk' h1
      obtain ⟨a, -, b⟩ := hal.next hr.inj hE hi hi' hkc
      rw [hn, hn'] at a b
      obtain ⟨p1, w1, -⟩ := next_pres hi c hn
      obtain ⟨p2, w2, -⟩ := next_pres hi' c hn'
      refine ⟨_, _, _, a, p1, p2, fun q => ?_⟩
      rw [List.filter_append, List.filter_append, List.map_append, hf, flat_moved w1 w2 (b r r' rfl rfl)]
    | @refused s2 s2' out2 calls2 h1 c' hn' =>
      obtain ⟨rfl, e⟩ := List.append_inj' hc rfl
      cases e
      obtain ⟨rep, rel, rel', hal, hi, hi', hf⟩ := ih hk' h1
      obtain ⟨-, b, -⟩ := hal.next hr.inj hE hi hi' hkc
      rw [hn, hn'] at b
      simp at b
  | @refused s s1 out calls h c hn ih =>
    have hkc : c ∈ tasks.keys := hk c (by simp)
    have hk' : ∀ c ∈ calls, c ∈ tasks.keys := fun x hx => hk x (by simp [hx])
    generalize hc : calls ++ [c] = calls' at h'
    cases h' with
    | new h1 => simp at hc
    | @next s2 s2' out2 calls2 r' h1 c' hn' =>
      obtain ⟨rfl, e⟩ := List.append_inj' hc rfl
      cases e
      obtain ⟨rep, rel, rel', hal, hi, hi', hf⟩ := ih hk' h1
      obtain ⟨-, b, -⟩ := hal.next hr.inj hE hi hi' hkc
      rw [hn, hn'] at b
      simp at b
    | @refused s2 s2' out2 calls2 h1 c' hn' =>
      obtain ⟨rfl, e⟩ := List.append_inj' hc rfl
      cases e
      obtain ⟨rep, rel, rel', hal, hi, hi', hf⟩ := ih hk' h1
      obtain ⟨a, -, -⟩ := hal.next hr.inj hE hi hi' hkc
      rw [hn, hn'] at a
      exact ⟨_, _, _, a, (next_refused hi c hn).1, (next_refused hi' c hn').1, hf⟩

/-! ## C157 -/

/-- **C157.** The targets of a runbook are given other names, no two of them the same.  Schedulers are made from the two
and told that the same tasks have ended, in the same order.  Then the second has handed out for every target what the first
has for the target of the old name, in the same order, and for no other targets anything; and to the next call they both
answer that nothing is pending, or both hand out the same tasks in the same order. -/
theorem C157_renamed (wf : targets.WF) (wft : tasks.WF) (hr : Renamed f targets targets' tasks tasks')
    {out out' : List (Str × Str)} {calls : List Str} (hk : ∀ c ∈ calls, c ∈ tasks.keys)
    (h : History targets tasks s out calls) (h' : History targets' tasks' s' out' calls) :
    (∀ q, out'.filter (fun p => p.1 = f q) = (out.filter (fun p => p.1 = q)).map (fun p => (f p.1, p.2))) ∧
    (∀ q' t, (q', t) ∈ out' → ∃ q, q' = f q ∧ (q, t) ∈ out) ∧
    ∀ c ∈ tasks.keys, ((s.next c).2 = none ∧ (s'.next c).2 = none) ∨
      ∃ r r', (s.next c).2 = some r ∧ (s'.next c).2 = some r' ∧
        ∀ q, (flat r').filter (fun p => p.1 = f q) = ((flat r).filter (fun p => p.1 = q)).map (fun p => (f p.1, p.2)) := by
  have hE := hr.edge
  obtain ⟨rep, rel, rel', hal, hi, hi', hf⟩ := h.moved wf wft hr hk h'
  refine ⟨hf, fun q' t ht => ?_, fun c hc => ?_⟩
  · obtain ⟨h1, h2⟩ := hi'.mem_out ht
    have hkey : t ∈ tasks.keys := by
      refine hr.keys.mem_iff.2 ?_
      rw [← keys_depInput]
      exact hi'.dep.part.mem_iff.1 (List.mem_append_left _ h1)
    rw [hal.target t hkey] at h2
    refine ⟨_, h2.symm, ?_⟩
    have hm : (q', t) ∈ out'.filter (fun p => p.1 = f (targetOf s.tasks t)) := by simp [ht, h2]
    rw [hf] at hm
    obtain ⟨⟨a, b⟩, hx, e⟩ := List.mem_map.1 hm
    simp only [List.mem_filter, decide_eq_true_eq] at hx
    cases e
    rw [← hx.2]; exact hx.1
  · obtain ⟨-, b, d⟩ := hal.next hr.inj hE hi hi' hc
    cases e : (s.next c).2 with
    | none => exact .inl ⟨rfl, b.1 e⟩
    | some r =>
      cases e' : (s'.next c).2 with
      | none => rw [b.2 e'] at e; cases e
      | some r' =>
        refine .inr ⟨r, r', rfl, rfl, ?_⟩
        obtain ⟨-, w1, -⟩ := next_pres hi c (Prod.ext rfl e)
        obtain ⟨-, w2, -⟩ := next_pres hi' c (Prod.ext rfl e')
        exact flat_moved w1 w2 (d r r' e e')

/-- C157 is about something: every target's name gets a letter more. -/
example : ∃ s s' out out', Renamed (b!"p" ++ ·) [(b!"", 1), (b!"y", 2)] [(b!"py", 2), (b!"p", 1)]
      [(b!"a", ⟨b!"", []⟩), (b!"b", ⟨b!"y", []⟩), (b!"c", ⟨b!"", []⟩)]
      [(b!"b", ⟨b!"py", []⟩), (b!"c", ⟨b!"p", []⟩), (b!"a", ⟨b!"p", []⟩)] ∧
    History [(b!"", 1), (b!"y", 2)] [(b!"a", ⟨b!"", []⟩), (b!"b", ⟨b!"y", []⟩), (b!"c", ⟨b!"", []⟩)] s out [b!"a"] ∧
    History [(b!"py", 2), (b!"p", 1)] [(b!"b", ⟨b!"py", []⟩), (b!"c", ⟨b!"p", []⟩), (b!"a", ⟨b!"p", []⟩)] s' out' [b!"a"] ∧
    out.filter (fun p => p.1 = b!"") = [(b!"", b!"a"), (b!"", b!"c")] := by
  refine ⟨_, _, _, _, ⟨fun a b h => List.append_cancel_left h, by decide +kernel, by decide +kernel, fun t m => ?_⟩,
    .next (.new rfl) _ rfl, .next (.new rfl) _ rfl, by decide +kernel⟩
  have key : ∀ (l : GoMap Str Task), (∀ p ∈ l, p.2.after = []) → ¬ After l t m := by
    rintro l hl ⟨x, h1, h2⟩
    rw [hl _ (GoMap.mem_of_get? h1)] at h2
    cases h2
  exact ⟨fun h => absurd h (key _ (by decide +kernel)), fun h => absurd h (key _ (by decide +kernel))⟩

/-- **C157, made or not.** A scheduler can be made from the one if and only if it can be made from the other. -/
theorem C157_made (wft : tasks.WF) (hr : Renamed f targets targets' tasks tasks') :
    (∃ x, new targets tasks = some (.ok x)) ↔ ∃ x, new targets' tasks' = some (.ok x) := by
  let mid : GoMap Str Task := tasks.map fun p => (p.1, ⟨f p.2.target, p.2.after⟩)
  have hin : depInput mid = depInput tasks := by simp [mid, depInput, Function.comp_def]
  have hmid : SameTasks mid tasks' :=
    ⟨by simpa [mid, Function.comp_def] using hr.targets, fun t m => by
      rw [← hr.after, ← edge_depInput, ← edge_depInput, hin]⟩
  have wfm : mid.WF := by simpa [mid, GoMap.WF, GoMap.keys, Function.comp_def] using wft
  rw [← C156_made wfm hmid targets targets']
  have key : ∀ t : GoMap Str Task, (∃ x, new targets t = some (.ok x)) ↔
      ∃ g, newDependencyGraph (depInput t) = some (.ok g) := by
    intro t
    unfold new depInput
    cases newDependencyGraph (t.map fun p => (p.1, p.2.after)) with
    | none => simp
    | some x => cases x <;> simp
  rw [key, key, hin]

/-- **C157, beyond it.** That only tasks of the runbook are reported matters: what is not one counts as a task of the
target without a name.  So a scheduler that is told of one hands out a task of that target too many, which it does not if
the target has a name. -/
theorem C157_unknown : ∃ s s' out out' r r',
    History [(b!"", 1)] [(b!"a", ⟨b!"", []⟩), (b!"b", ⟨b!"", []⟩)] s out [] ∧
    History [(b!"p", 1)] [(b!"a", ⟨b!"p", []⟩), (b!"b", ⟨b!"p", []⟩)] s' out' [] ∧
    (s.next b!"none").2 = some r ∧ (s'.next b!"none").2 = some r' ∧
    flat r = [(b!"", b!"b")] ∧ flat r' = [] :=
  ⟨_, _, _, _, _, _, .new rfl, .new rfl, rfl, rfl, by decide +kernel, by decide +kernel⟩

end Verif.Sched
