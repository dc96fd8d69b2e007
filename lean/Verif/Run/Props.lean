import Verif.Run.Net

/-!
# Properties C85-C88: running a runbook file

`Reach dec basedir proc src p`: on the decoded runbook `src`, some schedule, with some outcome of
every command, SQL statement and connection, brings `runbook.Run` to `p`.  In `.running book st w`,
`st.trace` holds the observable events, `w` the effects, and `st.main = .returned e` says that `Run`
has returned `e` (`none` is nil, exit status 0).
-/

namespace Verif.Run
open Verif Book Spec Sh.Spec

variable {dec : Decoder} {basedir : Str} {proc : Proc} {environ : List Str} {src : Src} {book : Runbook}
  {st st' : Runner.St} {w w' : World}

theorem Parsed.wf1 (hp : Parsed basedir book) : (limits book).WF := by
  unfold GoMap.WF; rw [keys_limits]; exact hp.wfT

theorem Parsed.wf2 (hp : Parsed basedir book) : (jobs book).WF := by
  unfold GoMap.WF; rw [keys_jobs]; exact hp.wfK

theorem after_iff (hw1 : src.targets.WF) (hw2 : src.tasks.WF)
    (h : parse dec basedir src = .ok book) (t m : Str) :
    Sched.After (jobs book) t m ↔ DependsOn src t m := by
  obtain ⟨k1, k2, hT, hK⟩ := C35_parse_result dec basedir src book hw1 hw2 h
  have wfK : book.tasks.WF := by unfold GoMap.WF; rw [k2]; exact hw2
  constructor
  · rintro ⟨job, hj, hm⟩
    rw [get_jobs] at hj
    cases e : book.tasks.get? t with
    | none => rw [e] at hj; cases hj
    | some task =>
      rw [e] at hj
      cases hj
      obtain ⟨s, hs, cls, tgt, c0, c1, _, _, _, _, _, ha, _⟩ := (hK t task).mp (GoMap.mem_of_get? e)
      exact ⟨s, hs, ha ▸ hm⟩
  · rintro ⟨s, hs, hm⟩
    have hk : t ∈ book.tasks.keys := by rw [k2]; exact GoMap.mem_keys_of_mem hs
    obtain ⟨task, e⟩ := GoMap.exists_get?_of_mem_keys hk
    obtain ⟨s', hs', cls, tgt, c0, c1, _, _, _, _, _, ha, _⟩ := (hK t task).mp (GoMap.mem_of_get? e)
    have h1 := GoMap.get?_of_mem hw2 hs
    rw [GoMap.get?_of_mem hw2 hs'] at h1
    cases h1
    exact ⟨_, by rw [get_jobs, e]; rfl, by simpa [ha] using hm⟩

theorem validDeps (hw1 : src.targets.WF) (hw2 : src.tasks.WF)
    (h : parse dec basedir src = .ok book) (ho : Ordered src) : Runner.ValidDeps (jobs book) := by
  have he : Sched.After (jobs book) = DependsOn src := by
    funext t m; exact propext (after_iff hw1 hw2 h t m)
  refine ⟨?_, ?_⟩
  · intro t m hm
    rw [he] at hm
    obtain ⟨o, ho'⟩ := ho.closed t m hm
    rw [keys_jobs, (C35_parse_result dec basedir src book hw1 hw2 h).2.1]
    exact GoMap.mem_keys_of_mem ho'
  · rw [he]; exact ho.acyclic

/-! ## C85 -/

/-- Where a task that ended stands in the trace. -/
theorem place (hp : Parsed basedir book) (h : Runner.Reach (limits book) (jobs book) st)
    {q id : Str} {ok : Bool} (he : .handleEnd q id ok ∈ st.trace) :
    ∃ pre mid post, st.trace = pre ++ .handleStart q id :: (mid ++ .handleEnd q id ok :: post) ∧
      ∀ q', .handleStart q' id ∉ pre ++ mid ++ post := by
  obtain ⟨hc, hf⟩ := h.inv hp.wf1 hp.wf2
  have hle := (Runner.C19_run_at_most_once_one_per_target hp.wf1 hp.wf2 h).1 id
  have hs := hf.endTr q id ok he
  obtain ⟨pre, rest, e⟩ := List.append_of_mem hs
  rw [e] at hle
  have hcount : ∀ q', .handleStart q' id ∉ pre ++ rest := by
    intro q' hq'
    have h1 : 1 ≤ (pre ++ rest).countP (Runner.Event.isStart id) := by
      rw [Nat.one_le_iff_ne_zero, ← Nat.pos_iff_ne_zero, List.countP_pos_iff]
      exact ⟨_, hq', by simp [Runner.Event.isStart]⟩
    simp only [Runner.starts, List.countP_append, List.countP_cons, Runner.Event.isStart,
      decide_true, if_pos] at hle h1
    omega
  have hend : .handleEnd q id ok ∈ rest := by
    rw [e] at he
    rcases List.mem_append.mp he with he | he
    · exfalso
      obtain ⟨st0, st1, h0, _, e0, _⟩ := h.split e
      have := (h0.inv hp.wf1 hp.wf2).2.endTr q id ok (e0 ▸ he)
      exact hcount q (List.mem_append_left _ (e0 ▸ this))
    · rcases List.mem_cons.mp he with he | he
      · cases he
      · exact he
  obtain ⟨mid, post, e'⟩ := List.append_of_mem hend
  refine ⟨pre, mid, post, by rw [e, e'], ?_⟩
  intro q' hq'
  refine hcount q' ?_
  rw [e']
  simp only [List.mem_append, List.mem_cons] at hq' ⊢
  tauto

/-- **C85 (partial).** For a file whose dependencies name its own tasks without a cycle: if `Run` returned nil,
every task written in the file was handled exactly once, on the target it is written for, returned nil, and
every task it is written to come after, but for one named "", had returned nil before it was started.
Missing: cyclic and dangling dependencies, which are accepted (`C85_refuted`), and dependencies on a task
named "" (`C12_refuted`). -/
theorem C85_success_means_done_partial (hj : Json dec) (hw1 : src.targets.WF) (hw2 : src.tasks.WF)
    (ho : Ordered src)
    (h : Reach dec basedir proc src (.running book st w)) (hret : st.main = .returned none) :
    ∀ id s, (id, some s) ∈ src.tasks → ∃ q cls pre mid post,
      Book.Spec.RefersTo s.target q cls ∧
      st.trace = pre ++ .handleStart q id :: (mid ++ .handleEnd q id true :: post) ∧
      (∀ q', .handleStart q' id ∉ pre ++ mid ++ post) ∧
      ∀ m ∈ s.after, m ≠ [] → ∃ q', .handleEnd q' m true ∈ pre := by
  intro id s hs
  have hp := parsed hj hw1 hw2 h.parse
  have hv := validDeps hw1 hw2 h.parse ho
  obtain ⟨k1, k2, hT, hK⟩ := C35_parse_result dec basedir src book hw1 hw2 h.parse
  have hk : id ∈ (jobs book).keys := by
    rw [keys_jobs, k2]; exact GoMap.mem_keys_of_mem hs
  obtain ⟨_, q, hq⟩ := Runner.C20_nil_means_all_succeeded_partial hp.wf1 hp.wf2 hv h.runner hret id hk
  obtain ⟨pre, mid, post, e, hno⟩ := place hp h.runner hq
  obtain ⟨job, hjob, htgt⟩ := (Runner.C19_run_at_most_once_one_per_target hp.wf1 hp.wf2 h.runner).2.1
    q id (by rw [e]; simp)
  rw [get_jobs] at hjob
  cases e' : book.tasks.get? id with
  | none => rw [e'] at hjob; cases hjob
  | some task =>
    rw [e'] at hjob
    cases hjob
    obtain ⟨s', hs', cls, tgt, c0, c1, href, _⟩ := (hK id task).mp (GoMap.mem_of_get? e')
    have h1 := GoMap.get?_of_mem hw2 hs
    rw [GoMap.get?_of_mem hw2 hs'] at h1
    cases h1
    refine ⟨q, cls, pre, mid, post, htgt ▸ href, e, hno, ?_⟩
    intro m hm hm0
    obtain ⟨q', _, _, _, hend⟩ := Runner.C18_run_dependency_order_partial hp.wf1 hp.wf2
      h.runner e ((after_iff hw1 hw2 h.parse id m).mpr ⟨_, hs, hm⟩) hm0
    exact ⟨q', hend⟩

/-- A decoder of which nothing is needed. -/
def noConfig : Decoder := ⟨fun _ t => .ok t, fun _ c => .ok c⟩

theorem noConfig_json : Json noConfig := by
  constructor <;> intros <;> simp_all [noConfig] <;> (try subst_vars) <;> simp

/-- A process with no environment. -/
def proc0 : Proc := ⟨[], .ok {}, 1000⟩

/-- A file with one task that is written to come after itself. -/
def cycSrc : Src :=
  ⟨[(b!"d", some ⟨b!"demo", []⟩)], [(b!"a", some ⟨[b!"a"], b!"d/echo", [], []⟩)]⟩

/-- **C85 refuted.** A file with a circular dependency is accepted, and `Run` returns nil without
having handled its task. -/
theorem C85_refuted : ∃ book st w, Reach noConfig b!"/" proc0 cycSrc (.running book st w) ∧
    st.main = .returned none ∧ st.trace = [.started b!"d", .stopped b!"d"] ∧ w.stdout = [] := by
  have r0 : Reach noConfig b!"/" proc0 cycSrc _ :=
    Reach.start (book := ⟨[(b!"d", .demo {})], [(b!"a", ⟨b!"d", [b!"a"], [], .echo⟩)]⟩) rfl
      (by decide) [b!"d"] (List.Perm.refl _)
  have r1 := Reach.act r0 (Act.started b!"d" [] (.demo {}) (.demo {}) none [] (fun _ => true) rfl rfl rfl)
  have r2 := Reach.act r1 (Act.other (Runner.Step.targetsStarted _ rfl) (by simp) (by simp) (by simp) (by simp))
  have r3 := Reach.act r2 (Act.other (Runner.Step.schedNewErr _ _ rfl rfl) (by simp) (by simp) (by simp) (by simp))
  have r4 := Reach.act r3 (Act.other (Runner.Step.routerClosed _ rfl rfl rfl) (by simp) (by simp) (by simp) (by simp))
  have r5 := Reach.act r4 (Act.other (Runner.Step.targetClosed _ b!"d" rfl (Or.inl rfl)) (by simp) (by simp) (by simp) (by simp))
  have r6 := Reach.act r5 (Act.stopped b!"d" (.demo {}) false rfl rfl rfl)
  have r7 := Reach.act r6 (Act.other (Runner.Step.routerDone _ rfl (by
    intro q
    by_cases e : q = b!"d"
    · subst e; exact Or.inr rfl
    · simp [Function.update_of_ne e, Runner.init])) (by simp) (by simp) (by simp) (by simp))
  have r8 := Reach.act r7 (Act.other (Runner.Step.mainEnd1 _ rfl rfl rfl) (by simp) (by simp) (by simp) (by simp))
  have r9 := Reach.act r8 (Act.other (Runner.Step.mainReturn _ none rfl rfl rfl) (by simp) (by simp) (by simp) (by simp))
  exact ⟨_, _, _, r9, rfl, rfl, rfl⟩

/-! ## C86 -/

theorem callsOf_does (hp : Parsed basedir book) {id : Str} {task : Task} {tgt : Target}
    (hk : book.tasks.get? id = some task) (ht : book.targets.get? task.target = some tgt) :
    Does environ task.target tgt task.config (callsOf environ book task.target id) := by
  obtain ⟨tgt', h1, h2⟩ := hp.task id task hk
  rw [ht] at h1
  cases h1
  have hcfg : configOf book id = task.config := by simp [configOf, hk]
  cases tgt with
  | pg t =>
    obtain ⟨sql, hc⟩ := h2
    have : callsOf environ book task.target id = [.sql task.target sql] := by
      unfold callsOf; rw [ht, hcfg, hc]
    rw [this, hc]; exact .sql
  | sh t =>
    obtain ⟨arg0, rest, env, hc⟩ := h2
    have : callsOf environ book task.target id = [.command ⟨arg0, rest, t.basedir,
        env.apply (t.env.apply environ)⟩] := by
      unfold callsOf; rw [ht, hcfg, hc]; rfl
    rw [this, hc]
    refine .command rfl rfl rfl ?_
    intro h1 h2 k v hk
    have hl : ∀ {e : Sh.Env}, Legal e → Sh.LegalSet e := by
      intro e he
      refine ⟨he.1, fun k hk => ?_⟩
      obtain ⟨p, hp, rfl⟩ := List.mem_map.mp hk
      exact he.2 _ _ hp
    exact Sh.C30_command_environment ⟨arg0 :: rest, env⟩ t environ _ rfl (hl h1) (hl h2) k v hk
  | demo t =>
    have : callsOf environ book task.target id = [] := by
      unfold callsOf; rw [ht]
    rw [this]; exact .demo

theorem filter_callsAt {id : Str} : ∀ e : Runner.Event,
    (callsAt environ book e).filter (fun c => c.1 = id) =
      if e.isEnd id = true then callsAt environ book e else [] := by
  intro e
  cases e with
  | handleEnd q t ok =>
    simp only [callsAt, Runner.Event.isEnd]
    by_cases h : t = id
    · subst h; simp [List.filter_map, Function.comp_def]
    · simp [List.filter_map, Function.comp_def, h]
  | _ => simp [callsAt]

theorem filter_calls {id : Str} : ∀ tr : List Runner.Event,
    (tr.flatMap (callsAt environ book)).filter (fun c => c.1 = id) =
      (tr.filter fun e => e.isEnd id).flatMap (callsAt environ book) := by
  intro tr
  induction tr with
  | nil => rfl
  | cons e tr ih =>
    rw [List.flatMap_cons, List.filter_append, ih, filter_callsAt]
    by_cases h : e.isEnd id = true
    · simp [h]
    · simp [h]

/-- **C86.** A task does what its config says, once and nothing else: when it has ended, what was done
in its name is to send its SQL, once, over the connection of its target, or to run its command, once,
with its arguments, in the directory of the runbook file and with the environment of the process
filtered and extended by the target and the task (nothing for demo tasks); and it is reported as
successful iff that succeeded.  Until it has ended nothing is recorded. -/
theorem C86_effects (hj : Json dec) (hw1 : src.targets.WF) (hw2 : src.tasks.WF)
    (h : Reach dec basedir proc src (.running book st w)) {id : Str} {task : Task} {tgt : Target}
    (hk : (id, task) ∈ book.tasks) (ht : (task.target, tgt) ∈ book.targets) :
    (∀ q ok, .handleEnd q id ok ∈ st.trace → q = task.target ∧
      ∃ calls, Does proc.environ task.target tgt task.config calls ∧
        w.calls.filter (fun c => c.1 = id) = calls.map (fun c => (id, c, ok))) ∧
    ((∀ q ok, .handleEnd q id ok ∉ st.trace) → w.calls.filter (fun c => c.1 = id) = []) ∧
    (∀ t, tgt = .sh t → t.basedir = basedir) := by
  have hp := parsed hj hw1 hw2 h.parse
  have hk := GoMap.get?_of_mem hp.wfK hk
  have ht := GoMap.get?_of_mem hp.wfT ht
  have hcalls := h.calls hj hw1 hw2
  refine ⟨?_, ?_, ?_⟩
  · intro q ok he
    obtain ⟨task', t0, d, h1, h2, _⟩ := h.outcome hj hw1 hw2 he
    rw [hk] at h1
    cases h1
    subst h2
    refine ⟨rfl, _, callsOf_does hp hk ht, ?_⟩
    rw [hcalls, filter_calls]
    obtain ⟨a, b, e⟩ := List.append_of_mem he
    have hle := (h.runner.inv hp.wf1 hp.wf2).2.nends id
    have hle' := (h.runner.inv hp.wf1 hp.wf2).2.le_one hp.wf2 id
    have hends : Runner.ends st.trace id ≤ 1 := by omega
    have hab : a.countP (Runner.Event.isEnd id) = 0 ∧ b.countP (Runner.Event.isEnd id) = 0 := by
      rw [e] at hends
      simp only [Runner.ends, List.countP_append, List.countP_cons, Runner.Event.isEnd,
        decide_true, if_pos] at hends
      omega
    have hz : ∀ l : List Runner.Event, l.countP (Runner.Event.isEnd id) = 0 →
        l.filter (fun e => e.isEnd id) = [] := by
      intro l hl
      rw [List.countP_eq_length_filter] at hl
      exact List.length_eq_zero_iff.mp hl
    rw [e, List.filter_append, List.filter_cons, hz a hab.1, hz b hab.2]
    simp [Runner.Event.isEnd, callsAt]
  · intro hno
    rw [hcalls, filter_calls]
    have : st.trace.filter (fun e => e.isEnd id) = [] := by
      rw [List.filter_eq_nil_iff]
      intro e he hi
      cases e with
      | handleEnd q t ok =>
        simp only [Runner.Event.isEnd, decide_eq_true_eq] at hi
        subst hi
        exact hno q ok he
      | _ => simp [Runner.Event.isEnd] at hi
    rw [this]; rfl
  · rintro t rfl
    exact hp.basedir _ t ht

/-- **C86, order (partial).** Whatever is done in the name of a task is done after everything that is
done in the name of the tasks it is written to come after, all of which succeeded, but for one named "".
Missing: a dependency on a task named "" (`C12_refuted`). -/
theorem C86_order_partial (hj : Json dec) (hw1 : src.targets.WF) (hw2 : src.tasks.WF)
    (h : Reach dec basedir proc src (.running book st w))
    {id m : Str} (hd : DependsOn src id m) (hm0 : m ≠ []) {pre post : List (Str × Call × Bool)} {c : Call} {ok : Bool}
    (hc : w.calls = pre ++ (id, c, ok) :: post) :
    (∀ c' ok', (m, c', ok') ∈ w.calls → ok' = true ∧ (m, c', ok') ∈ pre) ∧
    (∀ c' ok', (m, c', ok') ∉ post) := by
  have hp := parsed hj hw1 hw2 h.parse
  obtain ⟨k1, k2, hT, hK⟩ := C35_parse_result dec basedir src book hw1 hw2 h.parse
  have hcalls := h.calls hj hw1 hw2
  have hin : (id, c, ok) ∈ st.trace.flatMap (callsAt proc.environ book) := by
    rw [← hcalls, hc]; simp
  obtain ⟨e, he, hce⟩ := List.mem_flatMap.mp hin
  have hev : ∃ q, e = .handleEnd q id ok := by
    cases e with
    | handleEnd q t ok' =>
      simp only [callsAt, List.mem_map, Prod.mk.injEq] at hce
      obtain ⟨_, _, rfl, _, rfl⟩ := hce
      exact ⟨q, rfl⟩
    | _ => simp [callsAt] at hce
  obtain ⟨q, rfl⟩ := hev
  obtain ⟨p1, mid, p2, etr, hno⟩ := place hp h.runner he
  obtain ⟨q', _, _, _, hend⟩ := Runner.C18_run_dependency_order_partial hp.wf1 hp.wf2
    h.runner etr ((after_iff hw1 hw2 h.parse id m).mpr hd) hm0
  -- the calls, split at the end of the task
  have hsplit : w.calls = p1.flatMap (callsAt proc.environ book) ++ (mid.flatMap (callsAt proc.environ book) ++
      (callsAt proc.environ book (.handleEnd q id ok) ++ p2.flatMap (callsAt proc.environ book))) := by
    rw [hcalls, etr]; simp [callsAt]
  -- every event of m is in p1
  have hm1 : ∀ q2 ok2, .handleEnd q2 m ok2 ∈ st.trace → ok2 = true ∧ .handleEnd q2 m ok2 ∈ p1 ∧
      .handleEnd q2 m ok2 ∉ mid ∧ .handleEnd q2 m ok2 ∉ p2 := by
    have hle := (h.runner.inv hp.wf1 hp.wf2).2.nends m
    have hle' := (h.runner.inv hp.wf1 hp.wf2).2.le_one hp.wf2 m
    have hends : Runner.ends st.trace m ≤ 1 := by omega
    rw [etr] at hends
    have h1 : 1 ≤ p1.countP (Runner.Event.isEnd m) := by
      rw [Nat.one_le_iff_ne_zero, ← Nat.pos_iff_ne_zero, List.countP_pos_iff]
      exact ⟨_, hend, by simp [Runner.Event.isEnd]⟩
    simp only [Runner.ends, List.countP_append, List.countP_cons] at hends
    have hnot : ∀ l : List Runner.Event, l.countP (Runner.Event.isEnd m) = 0 →
        ∀ q2 ok2, .handleEnd q2 m ok2 ∉ l := by
      intro l hl q2 ok2 hx
      rw [List.countP_eq_zero] at hl
      exact hl _ hx (by simp [Runner.Event.isEnd])
    intro q2 ok2 h2
    have hmid := hnot mid (by omega) q2 ok2
    have hp2 := hnot p2 (by omega) q2 ok2
    have hidm : id ≠ m := by
      rintro rfl
      simp only [Runner.Event.isEnd, decide_true, if_pos] at hends
      omega
    have hin1 : .handleEnd q2 m ok2 ∈ p1 := by
      rw [etr] at h2
      simp only [List.mem_append, List.mem_cons, Runner.Event.handleEnd.injEq] at h2
      rcases h2 with h2 | h2 | h2 | h2 | h2
      · exact h2
      · cases h2
      · exact absurd h2 hmid
      · exact absurd h2.2.1.symm hidm
      · exact absurd h2 hp2
    refine ⟨?_, hin1, hmid, hp2⟩
    have hlen : p1.countP (Runner.Event.isEnd m) ≤ 1 := by omega
    by_contra hok
    have hne2 : Runner.Event.handleEnd q2 m ok2 ≠ .handleEnd q' m true := by
      simp only [ne_eq, Runner.Event.handleEnd.injEq, not_and]; exact fun _ _ => hok
    have hsub : List.Subperm [Runner.Event.handleEnd q2 m ok2, .handleEnd q' m true] p1 :=
      List.Nodup.subperm (by simpa using hne2) (by
        intro x hx
        simp only [List.mem_cons, List.not_mem_nil, or_false] at hx
        rcases hx with rfl | rfl
        · exact hin1
        · exact hend)
    have := hsub.countP_le (Runner.Event.isEnd m)
    simp [Runner.Event.isEnd] at this
    omega
  have hmem : ∀ c' ok', (m, c', ok') ∈ w.calls →
      ∃ q2, .handleEnd q2 m ok' ∈ st.trace ∧ (m, c', ok') ∈ callsAt proc.environ book (.handleEnd q2 m ok') := by
    intro c' ok' hx
    rw [hcalls] at hx
    obtain ⟨e, he', hce'⟩ := List.mem_flatMap.mp hx
    cases e with
    | handleEnd q2 t ok2 =>
      have hce2 := hce'
      simp only [callsAt, List.mem_map, Prod.mk.injEq] at hce'
      obtain ⟨_, _, rfl, _, rfl⟩ := hce'
      exact ⟨q2, he', hce2⟩
    | _ => simp [callsAt] at hce'
  -- nothing of the task stands in the calls of p1
  have hnid : ∀ c' ok', (id, c', ok') ∉ p1.flatMap (callsAt proc.environ book) := by
    intro c' ok' hx
    obtain ⟨e, he', hce'⟩ := List.mem_flatMap.mp hx
    cases e with
    | handleEnd q2 t ok2 =>
      simp only [callsAt, List.mem_map, Prod.mk.injEq] at hce'
      obtain ⟨_, _, rfl, _, rfl⟩ := hce'
      obtain ⟨st0, st1, h0, _, e0, _⟩ := h.runner.split etr
      have := (h0.inv hp.wf1 hp.wf2).2.endTr q2 t ok2 (e0 ▸ he')
      exact hno q2 (by rw [List.mem_append, List.mem_append]; exact Or.inl (Or.inl (e0 ▸ this)))
    | _ => simp [callsAt] at hce'
  -- so the calls of p1 are a prefix of what precedes the call
  have hpre : ∃ r, pre = p1.flatMap (callsAt proc.environ book) ++ r := by
    rw [hsplit] at hc
    rcases List.append_eq_append_iff.mp hc with ⟨a, h1, h2⟩ | ⟨a, h1, h2⟩
    · exact ⟨a, h1⟩
    · cases a with
      | nil => exact ⟨[], by simpa using h1.symm⟩
      | cons x a =>
        rw [List.cons_append, List.cons.injEq] at h2
        exact absurd (by rw [h1, ← h2.1]; simp) (hnid c ok)
  obtain ⟨r, hr⟩ := hpre
  have key : ∀ c' ok', (m, c', ok') ∈ w.calls → ok' = true ∧ (m, c', ok') ∈ pre := by
    intro c' ok' hx
    obtain ⟨q2, h1, h2⟩ := hmem c' ok' hx
    obtain ⟨h3, h4, _, _⟩ := hm1 q2 ok' h1
    refine ⟨h3, ?_⟩
    rw [hr]
    exact List.mem_append_left _ (List.mem_flatMap.mpr ⟨_, h4, h2⟩)
  refine ⟨key, ?_⟩
  intro c' ok' hx
  rw [hsplit, hr, List.append_assoc, List.append_cancel_left_eq] at hc
  have hx' : (m, c', ok') ∈ mid.flatMap (callsAt proc.environ book) ++
      (callsAt proc.environ book (.handleEnd q id ok) ++ p2.flatMap (callsAt proc.environ book)) := by
    rw [hc]; simp [hx]
  have hidm : id ≠ m := by
    rintro rfl
    obtain ⟨_, h4, _, _⟩ := hm1 q ok he
    have h5 : .handleEnd q id ok ∈ p1 := by assumption
    obtain ⟨st0, st1, h0, _, e0, _⟩ := h.runner.split etr
    have := (h0.inv hp.wf1 hp.wf2).2.endTr q id ok (e0 ▸ h5)
    exact hno q (by rw [List.mem_append, List.mem_append]; exact Or.inl (Or.inl (e0 ▸ this)))
  have hcase : ∀ l : List Runner.Event, (∀ q2 ok2, .handleEnd q2 m ok2 ∉ l) →
      (m, c', ok') ∉ l.flatMap (callsAt proc.environ book) := by
    intro l hl hx
    obtain ⟨e, he', hce'⟩ := List.mem_flatMap.mp hx
    cases e with
    | handleEnd q2 t ok2 =>
      simp only [callsAt, List.mem_map, Prod.mk.injEq] at hce'
      obtain ⟨_, _, rfl, _, rfl⟩ := hce'
      exact hl q2 ok2 he'
    | _ => simp [callsAt] at hce'
  rcases List.mem_append.mp hx' with hx' | hx'
  · exact hcase mid (fun q2 ok2 hh => (hm1 q2 ok2 (by rw [etr]; simp [hh])).2.2.1 hh) hx'
  · rcases List.mem_append.mp hx' with hx' | hx'
    · simp only [callsAt, List.mem_map, Prod.mk.injEq] at hx'
      obtain ⟨_, _, h1, _⟩ := hx'
      exact hidm h1
    · exact hcase p2 (fun q2 ok2 hh => (hm1 q2 ok2 (by rw [etr]; simp [hh])).2.2.2 hh) hx'

/-! ## C87 -/

/-- **C87.** If `Run` fails, then because a database could not be connected to (the environment or the
`sslmode` is malformed, or the last attempt failed), or because of a task of the file that is a `fail`
task or whose command or SQL failed. -/
theorem C87_failure_has_a_cause (hj : Json dec) (hw1 : src.targets.WF) (hw2 : src.tasks.WF)
    (h : Reach dec basedir proc src (.running book st w)) {e : Runner.RunErr}
    (hret : st.main = .returned (some e)) :
    (∃ q t, e = .start q ∧ (q, .pg t) ∈ book.targets ∧ ConnectFails proc t (netOf w.net q)) ∨
    (∃ id task, e = .task id ∧ (id, task) ∈ book.tasks ∧
      (task.config = .fail ∨ ∃ c, (id, c, false) ∈ w.calls)) := by
  have hp := parsed hj hw1 hw2 h.parse
  obtain ⟨h1, h2, _⟩ := Runner.C23_run_reports_failure hp.wf1 hp.wf2 h.runner
  cases e with
  | start q =>
    obtain ⟨t, ok, e, ht, _, hnet, he⟩ := (h.ninv hj hw1 hw2).failed q (h1 q hret)
    exact Or.inl ⟨q, t, rfl, GoMap.mem_of_get? ht, hnet ▸ new_err he rfl⟩
  | task id =>
    obtain ⟨q, hq⟩ := h2 id hret
    obtain ⟨task, t0, d, h3, h4, h5, h6⟩ := h.outcome hj hw1 hw2 hq
    refine Or.inr ⟨id, task, rfl, GoMap.mem_of_get? h3, ?_⟩
    subst h4
    obtain ⟨_, calls, hd, hc⟩ := (C86_effects hj hw1 hw2 h (GoMap.mem_of_get? h3)
      (GoMap.mem_of_get? h5)).1 _ false hq
    have hmem : ∀ c, calls = [c] → ∃ c, (id, c, false) ∈ w.calls := by
      rintro c rfl
      refine ⟨c, ?_⟩
      have : (id, c, false) ∈ w.calls.filter (fun c => c.1 = id) := by rw [hc]; simp
      exact (List.mem_filter.mp this).1
    generalize hcf : task.config = cf at hd h6
    generalize htg : t0 = tg at hd
    cases hd with
    | sql => exact Or.inr (hmem _ rfl)
    | command _ _ _ _ => exact Or.inr (hmem _ rfl)
    | demo =>
      subst htg
      cases h6
      exact Or.inl rfl

/-- **C87, panics (partial).** On a file without null targets and tasks and without a negative number
of retries, whose channels can be made, the program does not panic, in no schedule.
Missing: null targets and tasks (`C35_refuted`), a negative number of retries and a sum of concurrency
limits that is too large (`C87_refuted_retries`, `C87_refuted_concurrency`). -/
theorem C87_no_panic_partial (hj : Json dec) (hw1 : src.targets.WF) (hw2 : src.tasks.WF)
    (h1 : ∀ id o, (id, o) ∈ src.targets → o ≠ none) (h2 : ∀ id o, (id, o) ∈ src.tasks → o ≠ none)
    (h3 : ∀ book, parse dec basedir src = .ok book →
      (∀ q t, (q, .pg t) ∈ book.targets → 0 ≤ t.connectRetries) ∧
      2 * (book.targets.map fun t => t.2.concurrencyLimit).sum ≤ proc.maxChan) :
    ¬ Reach dec basedir proc src .panicked := by
  intro h
  cases h with
  | parsePanic h => exact C35_parse_never_panics_partial dec basedir src h1 h2 h
  | makePanic h hm =>
    have := (h3 _ h).2
    simp only [Runner.capacity, limits, List.map_map, Function.comp_def] at hm
    omega
  | panic h hp =>
    exact h.noPanics hj hw1 hw2
      (fun q t ht => (h3 _ h.parse).1 q t (GoMap.mem_of_get? ht)) hp

/-- A file that is not accepted is not executed: the program has either an error or a runbook. -/
theorem C87_rejected_not_run (e : Err) (hr : Reach dec basedir proc src (.rejected e)) :
    ∀ book st w, ¬ Reach dec basedir proc src (.running book st w) := by
  intro book st w h
  cases hr with
  | rejected he => rw [h.parse] at he; cases he

/-! ## C88 -/

/-- **C88, bound.** Every run of a file is finite: it takes at most
`10 * #tasks + 3 * #targets + 9` actions, whatever fails. -/
theorem C88_every_run_is_finite (hj : Json dec) (hw1 : src.targets.WF) (hw2 : src.tasks.WF)
    (hparse : parse dec basedir src = .ok book) {order : List Str}
    (ho : order.Perm src.targets.keys) (run : Nat → Runner.St × World)
    (h0 : run 0 = (Runner.init order, { targets := book.targets })) (n : Nat)
    (hs : ∀ i, i < n → Act proc book (run i) (run (i + 1))) :
    n ≤ 10 * src.tasks.length + 3 * src.targets.length + 9 := by
  have hp := parsed hj hw1 hw2 hparse
  obtain ⟨k1, k2, _⟩ := C35_parse_result dec basedir src book hw1 hw2 hparse
  have h := Runner.C21_every_schedule_is_finite hp.wf1 hp.wf2 (order := order)
    (by rw [keys_limits, k1]; exact ho) (fun i => (run i).1) (by simp [h0]) n
    (fun i hi => (hs i hi).step)
  have e1 : (jobs book).length = src.tasks.length := by
    have := congrArg List.length k2
    simpa [jobs, GoMap.keys] using this
  have e2 : (limits book).length = src.targets.length := by
    have := congrArg List.length k1
    simpa [limits, GoMap.keys] using this
  rw [e1, e2] at h
  exact h

/-- From every state, the program comes to one where nothing can happen any more. -/
theorem C88_comes_to_an_end (hj : Json dec) (hw1 : src.targets.WF) (hw2 : src.tasks.WF)
    (h : Reach dec basedir proc src (.running book st w)) :
    ∃ st' w', Relation.ReflTransGen (Act proc book) (st, w) (st', w') ∧
      Reach dec basedir proc src (.running book st' w') ∧
      ∀ s', ¬ Act proc book (st', w') s' := by
  have hp := parsed hj hw1 hw2 h.parse
  generalize hn : Runner.measure (limits book) (jobs book) st = n
  induction n using Nat.strong_induction_on generalizing st w with
  | _ n ih =>
    by_cases hs : ∃ s', Act proc book (st, w) s'
    · obtain ⟨⟨st1, w1⟩, ha⟩ := hs
      obtain ⟨hc, hf⟩ := h.runner.inv hp.wf1 hp.wf2
      have := Runner.measure_decreases hp.wf1 hp.wf2 hc hf ha.step
      obtain ⟨st2, w2, h1, h2⟩ := ih _ (hn ▸ this) (Reach.act h ha) rfl
      exact ⟨st2, w2, Relation.ReflTransGen.head ha h1, h2⟩
    · exact ⟨st, w, .refl, h, fun s' ha => hs ⟨s', ha⟩⟩

/-- **C88 (partial).** On a file with at least one task, if only targets with concurrency 1 have
failing tasks: wherever nothing can happen any more, `Run` has returned or the program panics (see
C87).
Missing: files without tasks and failures on targets with concurrency 2 or more
(`C88_refuted_no_tasks`, `C88_refuted_failure`). -/
theorem C88_run_returns_partial (hj : Json dec) (hw1 : src.targets.WF) (hw2 : src.tasks.WF)
    (hne : src.tasks ≠ []) (h : Reach dec basedir proc src (.running book st w))
    (hfail : ∀ q id, .handleEnd q id false ∈ st.trace →
      ∃ t, (q, t) ∈ book.targets ∧ t.concurrencyLimit = 1)
    (hend : ∀ s', ¬ Act proc book (st, w) s') (hnp : ¬ Panics book st w) :
    ∃ e, st.main = .returned e := by
  have hp := parsed hj hw1 hw2 h.parse
  obtain ⟨k1, k2, _⟩ := C35_parse_result dec basedir src book hw1 hw2 h.parse
  have hv : Sched.ValidTargets (limits book) (jobs book) := by
    intro t job hjob
    rw [get_jobs] at hjob
    cases e : book.tasks.get? t with
    | none => rw [e] at hjob; cases hjob
    | some task =>
      rw [e] at hjob
      cases hjob
      obtain ⟨tgt, ht, _⟩ := hp.task t task e
      exact ⟨_, by rw [get_limits, ht]; rfl, hp.limit _ _ ht⟩
  obtain ⟨e, he, _⟩ := Runner.C22_no_deadlock_on_failure_partial hp.wf1 hp.wf2 hv
    (by
      intro q n hq
      rw [get_limits] at hq
      cases e : book.targets.get? q with
      | none => rw [e] at hq; cases hq
      | some t => rw [e] at hq; cases hq; exact hp.limit q t e)
    (by
      intro hnil
      apply hne
      have := congrArg List.length k2
      simp only [GoMap.keys, List.length_map] at this
      have h0 : (jobs book).length = 0 := by rw [hnil]; rfl
      simp only [jobs, List.length_map] at h0
      exact List.length_eq_zero_iff.mp (by omega))
    h.runner
    (by
      intro q t hq
      obtain ⟨tgt, h1, h2⟩ := hfail q t hq
      rw [get_limits, GoMap.get?_of_mem hp.wfT h1]
      simp [h2])
    (h.terminal hj hw1 hw2 hnp hend)
  exact ⟨e, he⟩

end Verif.Run
