import Verif.Sched.TaskNames
import Verif.Sched.Rename

/-!
# C163: the names of tasks matter to the scheduler only through their order
-/

namespace Verif.Sched
open Verif Dag Spec

/-! ## Specification -/

/-- The second runbook is the first one with its tasks renamed by `f`, which keeps the alphabetical order of the names and
which names are empty.  The order in which tasks and their dependencies are listed is free. -/
structure TasksRenamed (f : Str → Str) (tasks tasks' : GoMap Str Task) : Prop where
  ascending : ∀ a ∈ tasks.keys, ∀ b ∈ tasks.keys, Str.lt a b = true → Str.lt (f a) (f b) = true
  nameless : ∀ a ∈ tasks.keys, f a = [] ↔ a = []
  targets : (tasks.map (fun p => (f p.1, p.2.target))).Perm (tasks'.map (fun p => (p.1, p.2.target)))
  after : ∀ n' m', After tasks' n' m' ↔ ∃ n m, After tasks n m ∧ f n = n' ∧ f m = m'

/-! ## Lemmas -/

variable {f : Str → Str} {targets targets' : GoMap Str Int} {tasks tasks' : GoMap Str Task} {s s' : Scheduler}

theorem TasksRenamed.keys (h : TasksRenamed f tasks tasks') : (tasks.keys.map f).Perm tasks'.keys := by
  have := h.targets.map Prod.fst
  simpa [GoMap.keys, Function.comp_def] using this

theorem TasksRenamed.translated (h : TasksRenamed f tasks tasks') : Translated f (depInput tasks) (depInput tasks') := by
  refine ⟨?_, ?_, ?_, fun n' m' => ?_⟩
  · rw [keys_depInput]; exact h.ascending
  · rw [keys_depInput]; exact h.nameless
  · rw [keys_depInput, keys_depInput]; exact h.keys
  · simp only [edge_depInput]; exact h.after n' m'

theorem TasksRenamed.inj (h : TasksRenamed f tasks tasks') : ∀ a ∈ tasks.keys, ∀ b ∈ tasks.keys, f a = f b → a = b :=
  inj_of_ascending h.ascending

theorem TasksRenamed.wf (h : TasksRenamed f tasks tasks') (wf : tasks.WF) : tasks'.WF := by
  refine h.keys.nodup_iff.1 ?_
  exact List.Nodup.map_on (fun a ha b hb e => h.inj a ha b hb e) wf

theorem get?_rename_on {V W : Type} (g : V → W) {k : Str} : ∀ (m : GoMap Str V), (∀ a ∈ m.keys, f a = f k → a = k) →
    GoMap.get? (m.map (fun p => (f p.1, g p.2))) (f k) = (GoMap.get? m k).map g
  | [], _ => rfl
  | (a, v) :: m, h => by
    simp only [List.map_cons, GoMap.get?_cons]
    by_cases e : a = k
    · subst e; simp
    · have e' : f a ≠ f k := fun x => e (h a (by simp [GoMap.keys]) x)
      rw [if_neg e, if_neg e']
      exact get?_rename_on g m (fun b hb => h b (by simp only [GoMap.keys, List.map_cons, List.mem_cons]; exact .inr hb))

/-- Two schedulers that are to hand out the same, up to the names of the tasks. -/
structure Carried (f : Str → Str) (known : List Str) (s s' : Scheduler) : Prop where
  deps : s'.deps.pending = s.deps.pending.map f
  target : ∀ t ∈ known, targetOf s'.tasks (f t) = targetOf s.tasks t
  queue : ∀ q, getQ s'.pending q = (getQ s.pending q).map f
  cap : ∀ q, getInt s'.targetCap q = getInt s.targetCap q
  len : ∀ q, getInt s'.targetLen q = getInt s.targetLen q

theorem Carried.buildReady {known : List Str} (h : Carried f known s s') (wf : s.pending.WF) (wf' : s'.pending.WF) :
    Carried f known s.buildReady.1 s'.buildReady.1 ∧ ∀ q, getQ s'.buildReady.2 q = (getQ s.buildReady.2 q).map f := by
  have hs := buildReadyLoop_spec s.targetCap s.pending s.targetLen wf
  have hs' := buildReadyLoop_spec s'.targetCap s'.pending s'.targetLen wf'
  have hr : ∀ q, getQ s'.buildReady.2 q = (getQ s.buildReady.2 q).map f := by
    intro q
    have a := buildReadyLoop_getQ s.targetCap s.pending s.targetLen wf q
    have a' := buildReadyLoop_getQ s'.targetCap s'.pending s'.targetLen wf' q
    rw [h.queue, h.cap, h.len, ← List.map_take, ← a] at a'
    exact a'
  refine ⟨⟨h.deps, h.target, ?_, h.cap, ?_⟩, hr⟩
  · intro q
    have a : getQ s.buildReady.2 q ++ getQ s.buildReady.1.pending q = getQ s.pending q := hs.split q
    have a' : getQ s'.buildReady.2 q ++ getQ s'.buildReady.1.pending q = getQ s'.pending q := hs'.split q
    rw [h.queue, ← a, hr, List.map_append] at a'
    exact List.append_cancel_left a'
  · intro q
    have a : getInt s.buildReady.1.targetLen q = getInt s.targetLen q + (getQ s.buildReady.2 q).length := hs.lenEq q
    have a' : getInt s'.buildReady.1.targetLen q = getInt s'.targetLen q + (getQ s'.buildReady.2 q).length := hs'.lenEq q
    rw [a, a', hr, h.len, List.length_map]

theorem filter_carried {m m' : GoMap Str Str} {known l : List Str}
    (ht : ∀ t ∈ known, targetOf m' (f t) = targetOf m t) (hl : ∀ t ∈ l, t ∈ known) (q : Str) :
    (l.map f).filter (fun t => targetOf m' t = q) = (l.filter (fun t => targetOf m t = q)).map f := by
  rw [List.filter_map]
  congr 1
  apply List.filter_congr
  intro t h
  simp [ht t (hl t h)]

theorem noPending_carried {known : List Str} {rep rep' rel rel' : List Str} {out out' : List (Str × Str)}
    (h : Carried f known s s') (hi : SInv tasks s rep rel out) (hi' : SInv tasks' s' rep' rel' out') :
    s.noPendingTasks.1 = s'.noPendingTasks.1 := by
  rw [Bool.eq_iff_iff, (noPending_spec hi).2, (noPending_spec hi').2, h.deps, List.map_eq_nil_iff]
  refine and_congr_right fun _ => forall_congr' fun q => ?_
  rw [h.queue, List.map_eq_nil_iff]

/-- What two such schedulers answer when a task has ended. -/
theorem Carried.next (hr : TasksRenamed f tasks tasks') (hcl : Closed (depInput tasks))
    {rep rep' rel rel' : List Str} {out out' : List (Str × Str)} (h : Carried f tasks.keys s s')
    (hi : SInv tasks s rep rel out) (hi' : SInv tasks' s' rep' rel' out')
    (hrep : ∀ m ∈ tasks.keys, f m ∈ rep' ↔ m ∈ rep) {c : Str} (hc : c ∈ tasks.keys) :
    Carried f tasks.keys (s.next c).1 (s'.next (f c)).1 ∧ ((s.next c).2 = none ↔ (s'.next (f c)).2 = none) ∧
    ∀ r r', (s.next c).2 = some r → (s'.next (f c)).2 = some r' → ∀ q, getQ r' q = (getQ r q).map f := by
  have hno := noPending_carried h hi hi'
  obtain ⟨hnx, hnp⟩ := next_ren hr.translated hcl hi.dep hi'.dep h.deps (c := c) (c' := f c) (fun m hm => by
    rw [keys_depInput] at hm
    simp only [List.mem_append, List.mem_singleton, hrep m hm]
    exact or_congr_right ⟨hr.inj m hm c hc, fun e => by rw [e]⟩)
  have hkn : ∀ t ∈ (s.deps.next c).2, t ∈ tasks.keys := by
    intro t ht
    rw [← keys_depInput]; exact next_known hi.dep c t ht
  have hw := (noPending_spec hi).1.wf
  have hw' := (noPending_spec hi').1.wf
  simp only at hw hw'
  have hq := noPending_queue hi.wf
  have hq' := noPending_queue hi'.wf
  unfold Scheduler.next
  cases e : s.noPendingTasks with
  | mk b p =>
    cases e' : s'.noPendingTasks with
    | mk b' p' =>
      rw [e, e'] at hno
      rw [e] at hw hq
      rw [e'] at hw' hq'
      simp only at hno hw hw' hq hq'
      subst hno
      cases b with
      | true =>
        refine ⟨⟨h.deps, h.target, fun q => ?_, h.cap, h.len⟩, Iff.rfl, by simp⟩
        rw [hq, hq', h.queue]
      | false =>
        have hmid : Carried f tasks.keys
            { s with deps := (s.deps.next c).1,
                     targetLen := s.targetLen.set (targetOf s.tasks c) (getInt s.targetLen (targetOf s.tasks c) - 1),
                     pending := fillPending s.tasks (s.deps.next c).2 p }
            { s' with deps := (s'.deps.next (f c)).1,
                      targetLen := s'.targetLen.set (targetOf s'.tasks (f c))
                        (getInt s'.targetLen (targetOf s'.tasks (f c)) - 1),
                      pending := fillPending s'.tasks (s'.deps.next (f c)).2 p' } := by
          refine ⟨hnp, h.target, fun q => ?_, h.cap, fun q => ?_⟩
          · simp only [fillPending_getQ]
            rw [hq, hq', h.queue, hnx, filter_carried h.target hkn, List.map_append]
          · simp only [getInt_set, h.target c hc, h.len]
        obtain ⟨a, b⟩ := hmid.buildReady (fillPending_wf _ _ hw) (fillPending_wf _ _ hw')
        refine ⟨a, by simp, ?_⟩
        intro r r' hr hr'
        simp only [Option.some.injEq] at hr hr'
        rw [← hr, ← hr']
        exact b

/-- What two such schedulers hand out at once. -/
theorem Carried.new (wf : targets.WF) (wft : tasks.WF) (hq : targets.Perm targets') (hr : TasksRenamed f tasks tasks')
    {r r' : GoMap Str (List Str)} (h : new targets tasks = some (.ok (s, r)))
    (h' : Sched.new targets' tasks' = some (.ok (s', r'))) :
    Carried f tasks.keys s s' ∧ ∀ q, getQ r' q = (getQ r q).map f := by
  have wft' : tasks'.WF := hr.wf wft
  obtain ⟨g, hg, hcl, hd, -, -, -, -⟩ := new_pres wft h
  obtain ⟨g', hg', -, hd', -, -, -, -⟩ := new_pres wft' h'
  have hpend : g'.pending = g.pending.map f := by
    obtain ⟨d, a, b⟩ := pending_tsort (depInput_wf wft) hg
    obtain ⟨d', a', b'⟩ := pending_tsort (depInput_wf wft') hg'
    obtain ⟨d2, x, y, -⟩ := C162_order (depInput_wf wft) hr.translated a
    rw [a'] at x
    cases x
    rw [y _ b] at b'
    simpa using b'.symm
  obtain ⟨hnx, hnp⟩ := next_ren hr.translated hcl hd hd' hpend (c := []) (c' := []) (fun m hm => by
    rw [keys_depInput] at hm
    simpa using hr.nameless m hm)
  have hkn : ∀ t ∈ (g.next []).2, t ∈ tasks.keys := by
    intro t ht
    rw [← keys_depInput]; exact next_known hd [] t ht
  unfold Sched.new at h h'
  simp only [depInput] at hg hg'
  rw [hg] at h
  rw [hg'] at h'
  simp only [Option.some.injEq, Except.ok.injEq, Prod.ext_iff] at h h'
  have htgt : ∀ t ∈ tasks.keys, targetOf (tasks'.map (fun p => (p.1, p.2.target))) (f t) =
      targetOf (tasks.map (fun p => (p.1, p.2.target))) t := by
    intro t ht
    unfold targetOf
    have wfm : GoMap.WF (tasks.map (fun p => (f p.1, p.2.target))) := by
      have : (tasks.keys.map f).Nodup := List.Nodup.map_on (fun a ha b hb e => hr.inj a ha b hb e) wft
      simpa [GoMap.WF, GoMap.keys, Function.comp_def] using this
    rw [← GoMap.get?_perm wfm hr.targets, get?_rename_on Task.target tasks (fun a ha e => hr.inj a ha t ht e),
      GoMap.get?_map_val (fun _ (v : Task) => v.target)]
  have hmid : Carried f tasks.keys
      { deps := (g.next []).1, tasks := tasks.map (fun p => (p.1, p.2.target)),
        pending := fillPending (tasks.map (fun p => (p.1, p.2.target))) (g.next []).2 [],
        targetCap := targets, targetLen := targets.map (fun p => (p.1, 0)) }
      { deps := (g'.next []).1, tasks := tasks'.map (fun p => (p.1, p.2.target)),
        pending := fillPending (tasks'.map (fun p => (p.1, p.2.target))) (g'.next []).2 [],
        targetCap := targets', targetLen := targets'.map (fun p => (p.1, 0)) } := by
    refine ⟨hnp, htgt, fun q => ?_, fun q => ?_, fun q => ?_⟩
    · simp only [fillPending_getQ]
      rw [hnx, filter_carried htgt hkn]; rfl
    · unfold getInt
      rw [GoMap.get?_perm wf hq]
    · have h0 : ∀ (l : GoMap Str Int) q, getInt (l.map (fun p => (p.1, (0 : Int)))) q = 0 := by
        intro l q; unfold getInt
        rw [GoMap.get?_map_val (fun _ _ => (0 : Int))]
        cases GoMap.get? l q <;> rfl
      simp only [h0]
  obtain ⟨a, b⟩ := hmid.buildReady (fillPending_wf _ _ GoMap.WF.nil) (fillPending_wf _ _ GoMap.WF.nil)
  rw [← h.1, ← h'.1, ← h.2, ← h'.2]
  exact ⟨a, b⟩

theorem flat_carried {r r' : GoMap Str (List Str)} (w : r.WF) (w' : r'.WF) (h : ∀ q, getQ r' q = (getQ r q).map f) (q : Str) :
    (flat r').filter (fun p => p.1 = q) = ((flat r).filter (fun p => p.1 = q)).map (fun p => (p.1, f p.2)) := by
  rw [flat_filter w, flat_filter w', h, List.map_map, List.map_map]
  rfl

theorem rep_snoc (hr : TasksRenamed f tasks tasks') {rep rep' : List Str} (h : ∀ m ∈ tasks.keys, f m ∈ rep' ↔ m ∈ rep)
    {c : Str} (hc : c ∈ tasks.keys) : ∀ m ∈ tasks.keys, f m ∈ rep' ++ [f c] ↔ m ∈ rep ++ [c] := by
  intro m hm
  simp only [List.mem_append, List.mem_singleton, h m hm]
  exact or_congr_right ⟨hr.inj m hm c hc, fun e => by rw [e]⟩

/-- Two such schedulers that were told of the same completions. -/
theorem History.carried (wf : targets.WF) (wft : tasks.WF) (hq : targets.Perm targets') (hr : TasksRenamed f tasks tasks')
    {out out' : List (Str × Str)} {calls : List Str} (hk : ∀ c ∈ calls, c ∈ tasks.keys)
    (h : History targets tasks s out calls) (h' : History targets' tasks' s' out' (calls.map f)) :
    ∃ rep rep' rel rel', Carried f tasks.keys s s' ∧ Closed (depInput tasks) ∧ SInv tasks s rep rel out ∧
      SInv tasks' s' rep' rel' out' ∧ (∀ m ∈ tasks.keys, f m ∈ rep' ↔ m ∈ rep) ∧
      ∀ q, out'.filter (fun p => p.1 = q) = (out.filter (fun p => p.1 = q)).map (fun p => (p.1, f p.2)) := by
  have wft' : tasks'.WF := hr.wf wft
  induction h generalizing s' out' with
  | @new s r h =>
    generalize hc : ([] : List Str).map f = calls at h'
    cases h' with
    | @new _ r' h' =>
      obtain ⟨a, b⟩ := Carried.new wf wft hq hr h h'
      obtain ⟨_, -, hcl, -, hi, hw, -, -⟩ := new_pres wft h
      obtain ⟨_, -, -, -, hi', hw', -, -⟩ := new_pres wft' h'
      refine ⟨_, _, _, _, a, hcl, hi, hi', fun m hm => ?_, flat_carried hw hw' b⟩
      simpa using hr.nameless m hm
    | next h1 c hn => simp at hc
    | refused h1 c hn => simp at hc
  | @next s s1 out calls r h c hn ih =>
    have hkc : c ∈ tasks.keys := hk c (by simp)
    have hk' : ∀ c ∈ calls, c ∈ tasks.keys := fun x hx => hk x (by simp [hx])
    generalize hc : (calls ++ [c]).map f = calls' at h'
    rw [List.map_append] at hc
    cases h' with
    | new h1 => simp at hc
    | @next s2 s2' out2 calls2 r' h1 c' hn' =>
      obtain ⟨rfl, e⟩ := List.append_inj' hc rfl
      cases e
      obtain ⟨rep, rep', rel, rel', hal, hcl, hi, hi', hrep, hf⟩ := ih hk' h1
      obtain ⟨a, -, b⟩ := hal.next hr hcl hi hi' hrep hkc
      rw [hn, hn'] at a b
      obtain ⟨p1, w1, -⟩ := next_pres hi c hn
      obtain ⟨p2, w2, -⟩ := next_pres hi' (f c) hn'
      refine ⟨_, _, _, _, a, hcl, p1, p2, rep_snoc hr hrep hkc, fun q => ?_⟩
      rw [List.filter_append, List.filter_append, List.map_append, hf, flat_carried w1 w2 (b r r' rfl rfl)]
    | @refused s2 s2' out2 calls2 h1 c' hn' =>
      obtain ⟨rfl, e⟩ := List.append_inj' hc rfl
      cases e
      obtain ⟨rep, rep', rel, rel', hal, hcl, hi, hi', hrep, hf⟩ := ih hk' h1
      obtain ⟨-, b, -⟩ := hal.next hr hcl hi hi' hrep hkc
      rw [hn, hn'] at b
      simp at b
  | @refused s s1 out calls h c hn ih =>
    have hkc : c ∈ tasks.keys := hk c (by simp)
    have hk' : ∀ c ∈ calls, c ∈ tasks.keys := fun x hx => hk x (by simp [hx])
    generalize hc : (calls ++ [c]).map f = calls' at h'
    rw [List.map_append] at hc
    cases h' with
    | new h1 => simp at hc
    | @next s2 s2' out2 calls2 r' h1 c' hn' =>
      obtain ⟨rfl, e⟩ := List.append_inj' hc rfl
      cases e
      obtain ⟨rep, rep', rel, rel', hal, hcl, hi, hi', hrep, hf⟩ := ih hk' h1
      obtain ⟨-, b, -⟩ := hal.next hr hcl hi hi' hrep hkc
      rw [hn, hn'] at b
      simp at b
    | @refused s2 s2' out2 calls2 h1 c' hn' =>
      obtain ⟨rfl, e⟩ := List.append_inj' hc rfl
      cases e
      obtain ⟨rep, rep', rel, rel', hal, hcl, hi, hi', hrep, hf⟩ := ih hk' h1
      obtain ⟨a, -, -⟩ := hal.next hr hcl hi hi' hrep hkc
      rw [hn, hn'] at a
      exact ⟨_, _, _, _, a, hcl, (next_refused hi c hn).1, (next_refused hi' (f c) hn').1, hrep, hf⟩

/-! ## C163 -/

/-- **C163.** The tasks of a runbook are given other names that are in the same alphabetical order, and a task without a
name stays without one.  Schedulers are made from the two and told that the same tasks have ended, in the same order.  Then
the second has handed out for every target what the first has, in the same order and under the new names; and to the next
call they both answer that nothing is pending, or both hand out the same tasks in the same order. -/
theorem C163_renamed (wf : targets.WF) (wft : tasks.WF) (hq : targets.Perm targets') (hr : TasksRenamed f tasks tasks')
    {out out' : List (Str × Str)} {calls : List Str} (hk : ∀ c ∈ calls, c ∈ tasks.keys)
    (h : History targets tasks s out calls) (h' : History targets' tasks' s' out' (calls.map f)) :
    (∀ q, out'.filter (fun p => p.1 = q) = (out.filter (fun p => p.1 = q)).map (fun p => (p.1, f p.2))) ∧
    ∀ c ∈ tasks.keys, ((s.next c).2 = none ∧ (s'.next (f c)).2 = none) ∨
      ∃ r r', (s.next c).2 = some r ∧ (s'.next (f c)).2 = some r' ∧
        ∀ q, (flat r').filter (fun p => p.1 = q) = ((flat r).filter (fun p => p.1 = q)).map (fun p => (p.1, f p.2)) := by
  obtain ⟨rep, rep', rel, rel', hal, hcl, hi, hi', hrep, hf⟩ := h.carried wf wft hq hr hk h'
  refine ⟨hf, fun c hc => ?_⟩
  obtain ⟨-, b, d⟩ := hal.next hr hcl hi hi' hrep hc
  cases e : (s.next c).2 with
  | none => exact .inl ⟨rfl, b.1 e⟩
  | some r =>
    cases e' : (s'.next (f c)).2 with
    | none => rw [b.2 e'] at e; cases e
    | some r' =>
      refine .inr ⟨r, r', rfl, rfl, ?_⟩
      obtain ⟨-, w1, -⟩ := next_pres hi c (Prod.ext rfl e)
      obtain ⟨-, w2, -⟩ := next_pres hi' (f c) (Prod.ext rfl e')
      exact flat_carried w1 w2 (d r r' e e')

/-- **C163, made.** A scheduler that can be made from the one can be made from the other. -/
theorem C163_made (wft : tasks.WF) (hr : TasksRenamed f tasks tasks') (targets targets' : GoMap Str Int)
    (h : ∃ x, new targets tasks = some (.ok x)) : ∃ x, new targets' tasks' = some (.ok x) := by
  have key : ∀ (q : GoMap Str Int) (t : GoMap Str Task), (∃ x, new q t = some (.ok x)) ↔
      ∃ g, newDependencyGraph (depInput t) = some (.ok g) := by
    intro q t
    unfold new depInput
    cases newDependencyGraph (t.map fun p => (p.1, p.2.after)) with
    | none => simp
    | some x => cases x <;> simp
  rw [key] at h ⊢
  obtain ⟨g, hg⟩ := h
  obtain ⟨g', hg', -⟩ := C162_calls (depInput_wf wft) hr.translated hg
  exact ⟨g', hg'⟩

/-- C163 is about something: every task's name gets a letter more. -/
example : ∃ s s' out out', TasksRenamed (b!"p" ++ ·)
      [(b!"a", ⟨b!"x", []⟩), (b!"b", ⟨b!"y", []⟩), (b!"c", ⟨b!"x", []⟩)]
      [(b!"pb", ⟨b!"y", []⟩), (b!"pc", ⟨b!"x", []⟩), (b!"pa", ⟨b!"x", []⟩)] ∧
    History [(b!"x", 1), (b!"y", 2)] [(b!"a", ⟨b!"x", []⟩), (b!"b", ⟨b!"y", []⟩), (b!"c", ⟨b!"x", []⟩)] s out [b!"a"] ∧
    History [(b!"y", 2), (b!"x", 1)] [(b!"pb", ⟨b!"y", []⟩), (b!"pc", ⟨b!"x", []⟩), (b!"pa", ⟨b!"x", []⟩)] s' out'
      ([b!"a"].map (b!"p" ++ ·)) ∧
    out'.filter (fun p => p.1 = b!"x") = [(b!"x", b!"pa"), (b!"x", b!"pc")] := by
  refine ⟨_, _, _, _, ⟨by decide +kernel, by decide +kernel, by decide +kernel, fun t m => ?_⟩,
    .next (.new rfl) _ rfl, .next (calls := []) (.new rfl) _ rfl, by decide +kernel⟩
  have key : ∀ (l : GoMap Str Task) (t m : Str), (∀ p ∈ l, p.2.after = []) → ¬ After l t m := by
    rintro l t m hl ⟨x, h1, h2⟩
    rw [hl _ (GoMap.mem_of_get? h1)] at h2
    cases h2
  exact ⟨fun h => absurd h (key _ _ _ (by decide +kernel)),
    fun ⟨_, _, h, _⟩ => absurd h (key _ _ _ (by decide +kernel))⟩

/-- **C163, beyond it.** That the names keep their order matters: of two tasks of a target that does one at a time, the one
whose name comes first is handed out first. -/
theorem C163_order_matters : ∃ s s' out out',
    History [(b!"x", 1)] [(b!"a", ⟨b!"x", []⟩), (b!"b", ⟨b!"x", []⟩)] s out [] ∧
    History [(b!"x", 1)] [(b!"z", ⟨b!"x", []⟩), (b!"b", ⟨b!"x", []⟩)] s' out' [] ∧
    out = [(b!"x", b!"a")] ∧ out' = [(b!"x", b!"b")] :=
  ⟨_, _, _, _, .new rfl, .new rfl, by decide +kernel, by decide +kernel⟩

end Verif.Sched
