import Verif.Runner.Outcome
import Verif.Runner.SameBook
import Verif.Runner.Exact

/-!
# C166: a dependency that follows from others requires nothing new
-/

namespace Verif.Runner
open Verif Dag Sched

/-! ## Specification -/

/-- The same tasks with the same targets; and a task waits for another, directly or through others, in the one if and only
if it does in the other. -/
structure SameWaits (tasks tasks' : GoMap Str Task) : Prop where
  targets : tasks.map (fun p => (p.1, p.2.target)) = tasks'.map (fun p => (p.1, p.2.target))
  waits : ∀ t m, Below tasks t m ↔ Below tasks' t m

/-! ## Lemmas -/

variable {targets : GoMap Str Int} {tasks tasks' : GoMap Str Task} {st st' : St}

theorem SameWaits.symm (h : SameWaits tasks tasks') : SameWaits tasks' tasks :=
  ⟨h.targets.symm, fun t m => (h.waits t m).symm⟩

theorem SameWaits.keys (h : SameWaits tasks tasks') : tasks.keys = tasks'.keys := by
  have := congrArg (List.map Prod.fst) h.targets
  simpa [GoMap.keys, Function.comp_def] using this

theorem SameWaits.wf (h : SameWaits tasks tasks') (wft : tasks.WF) : tasks'.WF := by
  unfold GoMap.WF at wft ⊢; rw [← h.keys]; exact wft

theorem SameWaits.validDeps (h : SameWaits tasks tasks') (hv : ValidDeps tasks) : ValidDeps tasks' := by
  refine ⟨fun t m ha => ?_, fun n hn => hv.acyclic n ((h.waits n n).mpr hn)⟩
  rw [← h.keys]
  have hb : Below tasks t m := (h.waits t m).mpr (.single ha)
  cases hb with
  | single ha' => exact hv.closed _ _ ha'
  | tail _ ha' => exact hv.closed _ _ ha'

theorem SameWaits.failsFirst (h : SameWaits tasks tasks') {outcome : Str → Bool} {t : Str}
    (hf : FailsFirst tasks outcome t) : FailsFirst tasks' outcome t :=
  ⟨h.keys ▸ hf.task, hf.fails, fun m hm hb => hf.below m (h.keys ▸ hm) ((h.waits t m).mpr hb)⟩

theorem new_accepts (wft : tasks.WF) : (∃ x, new targets tasks = some (.ok x)) ↔ ValidDeps tasks := by
  constructor
  · rintro ⟨x, hx⟩
    by_contra hv
    obtain ⟨e, he⟩ := new_error (targets := targets) wft hv
    rw [hx] at he
    simp at he
  · intro hv
    cases e : new targets tasks with
    | none => exact absurd e (new_ne_none wft)
    | some x =>
      cases x with
      | error e' => exact absurd e (new_ok wft hv e')
      | ok x => exact ⟨x, rfl⟩

/-! ## C166 -/

/-- **C166, acceptance.** The scheduler accepts the dependencies of both or of neither. -/
theorem C166_accepted (wft : tasks.WF) (h : SameWaits tasks tasks') :
    (∃ x, new targets tasks = some (.ok x)) ↔ ∃ x, new targets tasks' = some (.ok x) := by
  rw [new_accepts wft, new_accepts (h.wf wft)]
  exact ⟨h.validDeps, h.symm.validDeps⟩

/-- **C166, order.** When a run of the one begins a task, all that the task waits for in the other, directly or through
others, has ended with success. -/
theorem C166_waits (wf : targets.WF) (wft : tasks.WF) (hn : b!"" ∉ tasks.keys) (hw : SameWaits tasks tasks')
    (h : Reach targets tasks' st) {pre post : List Event} {q t : Str} (ht : st.trace = pre ++ .handleStart q t :: post)
    {m : Str} (hb : Below tasks t m) (hm : m ∈ tasks.keys) : ∃ q', .handleEnd q' m true ∈ pre := by
  obtain ⟨st0, st1, h0, hs, e0, e1⟩ := h.split ht
  obtain ⟨q', hq⟩ := below_ended wf (hw.wf wft) (hw.keys ▸ hn) (h0.step hs) ((hw.waits t m).mp hb)
    (q := q) (by rw [e1]; simp) (hw.keys ▸ hm)
  rw [e1] at hq
  exact ⟨q', by simpa using hq⟩

/-- **C166, result.** Let it be fixed which tasks succeed and which fail, and let all targets start.  If a run of the one and
a run of the other return, then both return nil or neither does; and the error that the one returns is that of a task that
fails and waits, in the other, for none that does. -/
theorem C166_result (wf : targets.WF) (wft : tasks.WF) (hn : b!"" ∉ tasks.keys) (hv : ValidDeps tasks)
    (hw : SameWaits tasks tasks') (outcome : Str → Bool) (h : Reach targets tasks st) (h' : Reach targets tasks' st')
    (hk : Keeps outcome st) (hk' : Keeps outcome st') {e e' : Option RunErr} (hret : st.main = .returned e)
    (hret' : st'.main = .returned e') :
    (e = none ↔ e' = none) ∧ (∀ x, e' = some x → ∃ t, x = .task t ∧ FailsFirst tasks outcome t) ∧
      ((∀ f g, FailsFirst tasks outcome f → FailsFirst tasks outcome g → f = g) → e = e') := by
  have a := C144_which wf wft hn hv outcome h hk hret
  have b := C144_which wf (hw.wf wft) (hw.keys ▸ hn) (hw.validDeps hv) outcome h' hk' hret'
  rcases a with ⟨rfl, a⟩ | ⟨t, rfl, a⟩ <;> rcases b with ⟨rfl, b⟩ | ⟨t', rfl, b⟩
  · exact ⟨Iff.rfl, by simp, fun _ => rfl⟩
  · have := a t' (hw.keys ▸ b.task)
    rw [b.fails] at this; cases this
  · have := b t (hw.keys ▸ a.task)
    rw [a.fails] at this; cases this
  · refine ⟨by simp, ?_, fun hone => by rw [hone t t' a (hw.symm.failsFirst b)]⟩
    rintro x hx
    cases hx
    exact ⟨t', rfl, hw.symm.failsFirst b⟩

/-! ## A concrete case -/

/-- "a" waits for "z", which waits for "b" and "y". -/
def plainTasks : GoMap Str Task := [(b!"a", ⟨b!"x", [b!"z"]⟩), (b!"b", ⟨b!"x", []⟩), (b!"y", ⟨b!"x", []⟩),
  (b!"z", ⟨b!"x", [b!"b", b!"y"]⟩)]

/-- The same, and it is written that "a" waits for "y". -/
def impliedTasks : GoMap Str Task := [(b!"a", ⟨b!"x", [b!"y", b!"z"]⟩), (b!"b", ⟨b!"x", []⟩), (b!"y", ⟨b!"x", []⟩),
  (b!"z", ⟨b!"x", [b!"b", b!"y"]⟩)]

theorem plain_after (t m : Str) : After plainTasks t m ↔
    (t = b!"a" ∧ m = b!"z") ∨ (t = b!"z" ∧ (m = b!"b" ∨ m = b!"y")) := by
  constructor
  · rintro ⟨task, h1, h2⟩
    have := GoMap.mem_of_get? h1
    simp only [plainTasks, List.mem_cons, Prod.mk.injEq, List.not_mem_nil, or_false] at this
    rcases this with ⟨rfl, rfl⟩ | ⟨rfl, rfl⟩ | ⟨rfl, rfl⟩ | ⟨rfl, rfl⟩ <;> simp_all
  · rintro (⟨rfl, rfl⟩ | ⟨rfl, rfl | rfl⟩)
    · exact ⟨⟨b!"x", [b!"z"]⟩, by decide +kernel, by simp⟩
    · exact ⟨⟨b!"x", [b!"b", b!"y"]⟩, by decide +kernel, by simp⟩
    · exact ⟨⟨b!"x", [b!"b", b!"y"]⟩, by decide +kernel, by simp⟩

theorem implied_after (t m : Str) : After impliedTasks t m ↔ After plainTasks t m ∨ (t = b!"a" ∧ m = b!"y") := by
  rw [plain_after]
  constructor
  · rintro ⟨task, h1, h2⟩
    have := GoMap.mem_of_get? h1
    simp only [impliedTasks, List.mem_cons, Prod.mk.injEq, List.not_mem_nil, or_false] at this
    rcases this with ⟨rfl, rfl⟩ | ⟨rfl, rfl⟩ | ⟨rfl, rfl⟩ | ⟨rfl, rfl⟩ <;> simp_all
    rcases h2 with h2 | h2 <;> simp [h2]
  · rintro ((⟨rfl, rfl⟩ | ⟨rfl, rfl | rfl⟩) | ⟨rfl, rfl⟩)
    · exact ⟨⟨b!"x", [b!"y", b!"z"]⟩, by decide +kernel, by simp⟩
    · exact ⟨⟨b!"x", [b!"b", b!"y"]⟩, by decide +kernel, by simp⟩
    · exact ⟨⟨b!"x", [b!"b", b!"y"]⟩, by decide +kernel, by simp⟩
    · exact ⟨⟨b!"x", [b!"y", b!"z"]⟩, by decide +kernel, by simp⟩

theorem implied_same : SameWaits plainTasks impliedTasks := by
  refine ⟨by decide +kernel, fun t m => ⟨fun h => ?_, fun h => ?_⟩⟩
  · exact Relation.TransGen.mono (fun a b hab => (implied_after a b).mpr (.inl hab)) _ _ h
  · refine Relation.TransGen.trans_induction_on h (fun {a b} hab => ?_) (fun _ _ h1 h2 => h1.trans h2)
    rcases (implied_after a b).mp hab with h1 | ⟨rfl, rfl⟩
    · exact .single h1
    · exact .tail (.single ((plain_after _ b!"z").mpr (.inl ⟨rfl, rfl⟩))) ((plain_after _ _).mpr (.inr ⟨rfl, .inr rfl⟩))

/-- **C166, what may change.** It may change in which order the target is handed the tasks that it can begin. -/
theorem C166_order_may_change : SameWaits plainTasks impliedTasks ∧ ∃ s s',
    new [(b!"x", 2)] plainTasks = some (.ok (s, [(b!"x", [b!"b", b!"y"])])) ∧
    new [(b!"x", 2)] impliedTasks = some (.ok (s', [(b!"x", [b!"y", b!"b"])])) :=
  ⟨implied_same, _, _, rfl, rfl⟩

/-- C166 is about something: a run of the one has begun "y" and one of the other "b". -/
example : (∃ st, Reach [(b!"x", 2)] impliedTasks st ∧ st.trace = [.started b!"x", .handleStart b!"x" b!"y"]) ∧
    ∃ st, Reach [(b!"x", 2)] plainTasks st ∧ st.trace = [.started b!"x", .handleStart b!"x" b!"b"] :=
  ⟨⟨_, ((((((Reach.init [b!"x"] (.refl _)).step (.targetStart _ _ _ rfl)).step (.targetsStarted _ rfl)).step
      (.schedNew _ _ _ _ rfl rfl (.refl _))).step (.schedSend _ _ _ _ rfl (by decide +kernel))).step
      (.routerRecv _ _ _ _ rfl rfl)).step (.routerSend _ _ _ rfl rfl), rfl⟩,
    ⟨_, ((((((Reach.init [b!"x"] (.refl _)).step (.targetStart _ _ _ rfl)).step (.targetsStarted _ rfl)).step
      (.schedNew _ _ _ _ rfl rfl (.refl _))).step (.schedSend _ _ _ _ rfl (by decide +kernel))).step
      (.routerRecv _ _ _ _ rfl rfl)).step (.routerSend _ _ _ rfl rfl), rfl⟩⟩

end Verif.Runner
