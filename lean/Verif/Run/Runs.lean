import Verif.Run.Examples

/-!
# Concrete runs: refutations of C88, and runs that meet the hypotheses of C85-C89
-/

namespace Verif.Run
open Verif Book Spec

/-- A decoder for which the config of a sh target says whether two tasks may run at once, and that of
its tasks is the command. -/
def shConfig : Decoder :=
  ⟨fun m t => match t with
    | .sh s => .ok (.sh { s with concurrency := if m = b!"2" then 2 else 1 })
    | t => .ok t,
   fun m c => match c with
    | .shExec x => .ok (.shExec { x with args := [m, b!"-v"] })
    | c => .ok c⟩

theorem shConfig_json : Json shConfig := by
  constructor <;> intros <;> simp_all [shConfig] <;> (try subst_vars) <;> simp

local macro "other" t:term : term => `(Act.other $t (by simp) (by simp) (by simp) (by simp))

/-! ## C88 refuted -/

/-- A file without tasks. -/
def emptySrc : Src := ⟨[(b!"d", some ⟨b!"demo", []⟩)], []⟩

/-- **C88 refuted.** On a file without tasks `Run` waits forever. -/
theorem C88_refuted_no_tasks : ∃ book st w, Reach noConfig b!"/" proc0 emptySrc (.running book st w) ∧
    (∀ s', ¬ Act proc0 book (st, w) s') ∧ ¬ Panics book st w ∧ ∀ e, st.main ≠ .returned e := by
  have r0 : Reach noConfig b!"/" proc0 emptySrc _ :=
    Reach.start (book := ⟨[(b!"d", .demo {})], []⟩) rfl (by decide) [b!"d"] (List.Perm.refl _)
  have r1 := Reach.act r0 (Act.started b!"d" [] (.demo {}) _ _ _ (fun _ => true) rfl rfl rfl)
  have r2 := Reach.act r1 (other (Runner.Step.targetsStarted _ rfl))
  obtain ⟨s, hn⟩ : ∃ s, Sched.new (limits ⟨[(b!"d", .demo {})], []⟩) (jobs ⟨[(b!"d", .demo {})], []⟩) =
    some (.ok (s, [])) := ⟨_, rfl⟩
  have r3 := Reach.act r2 (other (Runner.Step.schedNew _ s [] [] rfl hn (List.Perm.refl _)))
  refine ⟨_, _, _, r3, ?_, r3.noPanics noConfig_json (by decide) (by decide) (by
    intro q p hq
    simp only [GoMap.get?_cons, GoMap.get?_nil] at hq
    split at hq <;> cases hq), by simp [Runner.init]⟩
  rintro ⟨st', w'⟩ ha
  have htgt : ∀ q, Function.update (fun _ : Str => Runner.TgtPC.notStarted) b!"d" .idle q = .notStarted ∨
      Function.update (fun _ : Str => Runner.TgtPC.notStarted) b!"d" .idle q = .idle := by
    intro q; by_cases e : q = b!"d"
    · subst e; simp
    · simp [Function.update_of_ne e]
  have hs := ha.step
  cases hs <;> simp_all [Runner.init, Sched.flat] <;> grind

/-- Two commands, which may run at once. -/
def twoSrc : Src := ⟨[(b!"x", some ⟨b!"sh", b!"2"⟩)],
  [(b!"a", some ⟨[], b!"x/exec", [], b!"false"⟩), (b!"b", some ⟨[], b!"x/exec", [], b!"true"⟩)]⟩

def twoBook : Runbook where
  targets := [(b!"x", .sh { basedir := b!"/", concurrency := 2 })]
  tasks := [(b!"a", ⟨b!"x", [], [], .shExec ⟨[b!"false", b!"-v"], {}⟩⟩),
    (b!"b", ⟨b!"x", [], [], .shExec ⟨[b!"true", b!"-v"], {}⟩⟩)]

/-- **C88 refuted.** If the first of two commands on a target with concurrency 2 fails, `Run` can wait
forever. -/
theorem C88_refuted_failure : ∃ st w, Reach shConfig b!"/" proc0 twoSrc (.running twoBook st w) ∧
    (∀ s', ¬ Act proc0 twoBook (st, w) s') ∧ ¬ Panics twoBook st w ∧ (∀ e, st.main ≠ .returned e) ∧
    w.calls = [(b!"a", .command ⟨b!"false", [b!"-v"], b!"/", []⟩, false)] := by
  have r0 : Reach shConfig b!"/" proc0 twoSrc (.running twoBook _ _) :=
    Reach.start (book := twoBook) rfl (by decide) [b!"x"] (List.Perm.refl _)
  have r1 := Reach.act r0 (Act.started b!"x" [] _ _ _ _ (fun _ => true) rfl rfl rfl)
  have r2 := Reach.act r1 (other (Runner.Step.targetsStarted _ rfl))
  have r3 := Reach.act r2 (other (Runner.Step.schedNew _ _ _ _ rfl rfl (List.Perm.refl _)))
  have r4 := Reach.act r3 (other (Runner.Step.schedSend _ _ (b!"x", b!"a") [(b!"x", b!"b")] rfl (by decide)))
  have r5 := Reach.act r4 (other (Runner.Step.schedSend _ _ (b!"x", b!"b") [] rfl (by decide)))
  have r6 := Reach.act r5 (other (Runner.Step.routerRecv _ b!"x" b!"a" [(b!"x", b!"b")] rfl rfl))
  have r7 := Reach.act r6 (other (Runner.Step.routerSend _ b!"x" b!"a" rfl rfl))
  have r8 := Reach.act r7 (Act.handled b!"x" b!"a" _ _ _ _ _ _ (false, []) rfl rfl rfl rfl)
  have r9 := Reach.act r8 (other (Runner.Step.report _ b!"x" b!"a" false rfl (by decide)))
  have r10 := Reach.act r9 (Act.stopped b!"x" _ _ rfl rfl rfl)
  have r11 := Reach.act r10 (other (Runner.Step.routerRecv _ b!"x" b!"b" [] rfl rfl))
  have r12 := Reach.act r11 (other (Runner.Step.mainErr _ b!"a" [] rfl rfl))
  have r13 := Reach.act r12 (other (Runner.Step.schedClosed _ _ rfl rfl rfl))
  refine ⟨_, _, r13, ?_, r13.noPanics shConfig_json (by decide) (by decide) (by
    intro q p hq
    simp only [twoBook, GoMap.get?_cons, GoMap.get?_nil] at hq
    split at hq <;> cases hq), by simp, rfl⟩
  rintro ⟨st', w'⟩ ha
  have hs := ha.step
  cases hs <;> simp_all [Runner.init, Function.update_apply] <;> grind

/-! ## A successful run and a failed one -/

/-- Two commands, one after the other. -/
def okSrc : Src := ⟨[(b!"x", some ⟨b!"sh", b!"1"⟩)],
  [(b!"a", some ⟨[], b!"x/exec", [], b!"make"⟩), (b!"b", some ⟨[b!"a"], b!"x/exec", [], b!"ls"⟩)]⟩

def okBook : Runbook where
  targets := [(b!"x", .sh { basedir := b!"/", concurrency := 1 })]
  tasks := [(b!"a", ⟨b!"x", [], [], .shExec ⟨[b!"make", b!"-v"], {}⟩⟩),
    (b!"b", ⟨b!"x", [b!"a"], [], .shExec ⟨[b!"ls", b!"-v"], {}⟩⟩)]

theorem ok_ordered : Ordered okSrc := by
  refine ordered_of [b!"a", b!"b"] ?_
  simp [okSrc, GoMap.keys]

theorem okRun : ∃ st w, Reach shConfig b!"/" { proc0 with environ := [b!"HOME=/root"] } okSrc (.running okBook st w) ∧
    st.main = .returned none ∧ w.stdout = b!"made\nls" ∧
    w.calls = [(b!"a", .command ⟨b!"make", [b!"-v"], b!"/", [b!"HOME=/root"]⟩, true),
      (b!"b", .command ⟨b!"ls", [b!"-v"], b!"/", [b!"HOME=/root"]⟩, true)] := by
  have r0 : Reach shConfig b!"/" { proc0 with environ := [b!"HOME=/root"] } okSrc (.running okBook _ _) :=
    Reach.start (book := okBook) rfl (by decide) [b!"x"] (List.Perm.refl _)
  have r1 := Reach.act r0 (Act.started b!"x" [] _ _ _ _ (fun _ => true) rfl rfl rfl)
  have r2 := Reach.act r1 (other (Runner.Step.targetsStarted _ rfl))
  have r3 := Reach.act r2 (other (Runner.Step.schedNew _ _ _ _ rfl rfl (List.Perm.refl _)))
  have r4 := Reach.act r3 (other (Runner.Step.schedSend _ _ (b!"x", b!"a") [] rfl (by decide)))
  have r5 := Reach.act r4 (other (Runner.Step.routerRecv _ b!"x" b!"a" [] rfl rfl))
  have r6 := Reach.act r5 (other (Runner.Step.routerSend _ b!"x" b!"a" rfl rfl))
  have r7 := Reach.act r6 (Act.handled b!"x" b!"a" _ _ _ _ _ _ (true, b!"made\n") rfl rfl rfl rfl)
  have r8 := Reach.act r7 (other (Runner.Step.report _ b!"x" b!"a" true rfl (by decide)))
  have r9 := Reach.act r8 (other (Runner.Step.mainOk _ b!"a" [] rfl rfl))
  have r10 := Reach.act r9 (other (Runner.Step.mainSend _ b!"a" rfl (by decide)))
  have r11 := Reach.act r10 (other (Runner.Step.schedNext _ _ _ b!"a" [] _ _ rfl rfl rfl (List.Perm.refl _)))
  have r12 := Reach.act r11 (other (Runner.Step.schedSend _ _ (b!"x", b!"b") [] rfl (by decide)))
  have r13 := Reach.act r12 (other (Runner.Step.routerRecv _ b!"x" b!"b" [] rfl rfl))
  have r14 := Reach.act r13 (other (Runner.Step.routerSend _ b!"x" b!"b" rfl rfl))
  have r15 := Reach.act r14 (Act.handled b!"x" b!"b" _ _ _ _ _ _ (true, b!"ls") rfl rfl rfl rfl)
  have r16 := Reach.act r15 (other (Runner.Step.report _ b!"x" b!"b" true rfl (by decide)))
  have r17 := Reach.act r16 (other (Runner.Step.mainOk _ b!"b" [] rfl rfl))
  have r18 := Reach.act r17 (other (Runner.Step.mainSend _ b!"b" rfl (by decide)))
  have r19 := Reach.act r18 (other (Runner.Step.schedRefused _ _ _ b!"b" [] rfl rfl rfl))
  have r20 := Reach.act r19 (other (Runner.Step.routerClosed _ rfl rfl rfl))
  have r21 := Reach.act r20 (other (Runner.Step.targetClosed _ b!"x" rfl (Or.inl rfl)))
  have r22 := Reach.act r21 (Act.stopped b!"x" _ _ rfl rfl rfl)
  have r23 := Reach.act r22 (other (Runner.Step.routerDone _ rfl (by
    intro q
    by_cases e : q = b!"x"
    · subst e; exact Or.inr rfl
    · simp [Function.update_of_ne e, Runner.init])))
  have r24 := Reach.act r23 (other (Runner.Step.mainEnd1 _ rfl rfl rfl))
  have r25 := Reach.act r24 (other (Runner.Step.mainReturn _ none rfl rfl rfl))
  exact ⟨_, _, r25, rfl, rfl, rfl⟩

/-- The run meets the hypotheses of C85, C86 and C88. -/
example : Json shConfig ∧ okSrc.targets.WF ∧ okSrc.tasks.WF ∧ Ordered okSrc ∧
    (∀ o, ([], o) ∉ okSrc.tasks) ∧ okSrc.tasks ≠ [] ∧ DependsOn okSrc b!"b" b!"a" :=
  ⟨shConfig_json, by decide, by decide, ok_ordered, by simp [okSrc], by simp [okSrc],
    depends_iff.mp (by decide)⟩

/-- A run in which a command fails: the hypotheses of C87, and of C88 for a failure. -/
example : ∃ st w, Reach shConfig b!"/" proc0 okSrc (.running okBook st w) ∧
    st.main = .returned (some (.task b!"a")) ∧
    w.calls = [(b!"a", .command ⟨b!"make", [b!"-v"], b!"/", []⟩, false)] := by
  have r0 : Reach shConfig b!"/" proc0 okSrc (.running okBook _ _) :=
    Reach.start (book := okBook) rfl (by decide) [b!"x"] (List.Perm.refl _)
  have r1 := Reach.act r0 (Act.started b!"x" [] _ _ _ _ (fun _ => true) rfl rfl rfl)
  have r2 := Reach.act r1 (other (Runner.Step.targetsStarted _ rfl))
  have r3 := Reach.act r2 (other (Runner.Step.schedNew _ _ _ _ rfl rfl (List.Perm.refl _)))
  have r4 := Reach.act r3 (other (Runner.Step.schedSend _ _ (b!"x", b!"a") [] rfl (by decide)))
  have r5 := Reach.act r4 (other (Runner.Step.routerRecv _ b!"x" b!"a" [] rfl rfl))
  have r6 := Reach.act r5 (other (Runner.Step.routerSend _ b!"x" b!"a" rfl rfl))
  have r7 := Reach.act r6 (Act.handled b!"x" b!"a" _ _ _ _ _ _ (false, []) rfl rfl rfl rfl)
  have r8 := Reach.act r7 (other (Runner.Step.report _ b!"x" b!"a" false rfl (by decide)))
  have r9 := Reach.act r8 (other (Runner.Step.mainErr _ b!"a" [] rfl rfl))
  have r10 := Reach.act r9 (other (Runner.Step.schedClosed _ _ rfl rfl rfl))
  have r11 := Reach.act r10 (other (Runner.Step.routerClosed _ rfl rfl rfl))
  have r12 := Reach.act r11 (Act.stopped b!"x" _ _ rfl rfl rfl)
  have r13 := Reach.act r12 (other (Runner.Step.routerDone _ rfl (by
    intro q
    by_cases e : q = b!"x"
    · subst e; exact Or.inr rfl
    · simp [Function.update_of_ne e, Runner.init])))
  have r14 := Reach.act r13 (other (Runner.Step.mainReturn _ (some b!"a") rfl rfl rfl))
  exact ⟨_, _, r14, rfl, rfl⟩

end Verif.Run
