import Verif.Run.Connections

/-!
# Concrete runs with databases: refutations of C87 and C92, and runs that meet the hypotheses of C91
and C92
-/

namespace Verif.Run
open Verif Book Spec

/-- A decoder that reads `connect_retries: r` for every pg target but those with the config "down", and
the config of a pg task as its SQL. -/
def pgConfig (r : Int) : Decoder :=
  ⟨fun m t => match t with
    | .pg p => .ok (.pg { p with
        host := if m = b!"down" then b!"nowhere" else b!"db"
        connectRetries := if m = b!"down" then 0 else r })
    | t => .ok t,
   fun m c => match c with
    | .pgExec _ => .ok (.pgExec m)
    | c => .ok c⟩

theorem pgConfig_json (r : Int) : Json (pgConfig r) := by
  constructor <;> intros <;> simp_all [pgConfig] <;> (try subst_vars) <;> simp

local macro "other" t:term : term => `(Act.other $t (by simp) (by simp) (by simp) (by simp))

/-- One database and one statement. -/
def dbSrc : Src := ⟨[(b!"x", some ⟨b!"pg", b!"up"⟩)], [(b!"a", some ⟨[], b!"x/exec", [], b!"select 1"⟩)]⟩

def dbTarget (r : Int) : PgTarget := { host := b!"db", connectRetries := r }

def dbBook (r : Int) : Runbook where
  targets := [(b!"x", .pg (dbTarget r))]
  tasks := [(b!"a", ⟨b!"x", [], [], .pgExec b!"select 1"⟩)]

theorem db_parse (r : Int) : parse (pgConfig r) b!"/" dbSrc = .ok (dbBook r) := rfl

/-! ## C87 refuted -/

theorem start_negative : start proc0 (fun _ => true) (.pg (dbTarget (-1))) =
    ([], some (.pg (dbTarget (-1)), some false)) := by
  have : Pg.new proc0.libpq (fun _ => true) (options (dbTarget (-1))) = ([], .nilConn) := by
    have hc : Pg.configure {} (options (dbTarget (-1))) = .ok { host := b!"db" } := by decide +kernel
    rw [show proc0.libpq = .ok {} from rfl, Pg.new_loop _ hc, Pg.connectLoop.eq_def]
    rfl
  simp [start, this]

/-- **C87 refuted.** With `connect_retries: -1` the program panics when it handles its first statement,
without having connected to the database. -/
theorem C87_refuted_retries : Json (pgConfig (-1)) ∧
    Reach (pgConfig (-1)) b!"/" proc0 dbSrc .panicked ∧
    ∃ st w, Reach (pgConfig (-1)) b!"/" proc0 dbSrc (.running (dbBook (-1)) st w) ∧
      Panics (dbBook (-1)) st w ∧ w.net = [] := by
  have r0 : Reach (pgConfig (-1)) b!"/" proc0 dbSrc (.running (dbBook (-1)) _ _) :=
    Reach.start (db_parse (-1)) (by decide) [b!"x"] (List.Perm.refl _)
  have r1 := Reach.act r0 (Act.started b!"x" [] _ _ _ _ (fun _ => true) rfl rfl start_negative)
  have r2 := Reach.act r1 (other (Runner.Step.targetsStarted _ rfl))
  have r3 := Reach.act r2 (other (Runner.Step.schedNew _ _ _ _ rfl rfl (List.Perm.refl _)))
  have r4 := Reach.act r3 (other (Runner.Step.schedSend _ _ (b!"x", b!"a") [] rfl (by decide)))
  have r5 := Reach.act r4 (other (Runner.Step.routerRecv _ b!"x" b!"a" [] rfl rfl))
  have r6 := Reach.act r5 (other (Runner.Step.routerSend _ b!"x" b!"a" rfl rfl))
  refine ⟨pgConfig_json _, Reach.panic r6 ?_, _, _, r6, ?_, rfl⟩ <;>
    exact Panics.handle b!"x" b!"a" _ _ (true, []) rfl rfl rfl rfl

/-- A decoder that reads `concurrency: n` for every sh target. -/
def wideConfig (n : Int) : Decoder :=
  ⟨fun _ t => match t with
    | .sh s => .ok (.sh { s with concurrency := n })
    | t => .ok t,
   fun m c => match c with
    | .shExec x => .ok (.shExec { x with args := [m] })
    | c => .ok c⟩

theorem wideConfig_json (n : Int) : Json (wideConfig n) := by
  constructor <;> intros <;> simp_all [wideConfig] <;> (try subst_vars) <;> simp

/-- **C87 refuted.** Whatever channels the process can make, with a `concurrency` that is larger the
program panics: on a runbook of one command that could have been run. -/
theorem C87_refuted_concurrency (proc : Proc) (n : Int) (h1 : 1 ≤ n) (h2 : proc.maxChan < 2 * n) :
    Json (wideConfig n) ∧ Reach (wideConfig n) b!"/" proc
      ⟨[(b!"x", some ⟨b!"sh", b!"{}"⟩)], [(b!"a", some ⟨[], b!"x/exec", [], b!"true"⟩)]⟩ .panicked := by
  refine ⟨wideConfig_json n, Reach.makePanic
    (book := ⟨[(b!"x", .sh { basedir := b!"/", concurrency := n })],
      [(b!"a", ⟨b!"x", [], [], .shExec ⟨[b!"true"], {}⟩⟩)]⟩) ?_ ?_⟩
  · have hn : ¬ n < 1 := by omega
    simp [parse, loadTargets, loadTarget, newTarget, wideConfig, Target.analyze, hn, GoMap.set,
      loadTasks, loadTask, splitTarget, Sh.indexByte, GoMap.get?, Target.newTaskConfig, Config.check,
      Sh.Exec.check, show Sh.validateArg0 b!"true" = none from rfl]
  · simpa [Runner.capacity, limits, Target.concurrencyLimit] using h2

/-! ## Complete runs with a database -/

theorem dbRun (r : Int) (ok : Nat → Bool) (net : List Pg.Event)
    (hs : start proc0 ok (.pg (dbTarget r)) = (net, some (.pg (dbTarget r), some true))) :
    ∃ st w, Reach (pgConfig r) b!"/" proc0 dbSrc (.running (dbBook r) st w) ∧
      st.main = .returned none ∧ w.net = net.map (fun e => (b!"x", e)) ∧ w.closed = [b!"x"] ∧
      w.calls = [(b!"a", .sql b!"x" b!"select 1", true)] := by
  have r0 : Reach (pgConfig r) b!"/" proc0 dbSrc (.running (dbBook r) _ _) :=
    Reach.start (db_parse r) (by exact (show (2 : Int) ≤ 1000 by decide)) [b!"x"] (List.Perm.refl _)
  have r1 := Reach.act r0 (Act.started b!"x" [] _ _ _ _ ok rfl rfl hs)
  have r2 := Reach.act r1 (other (Runner.Step.targetsStarted _ rfl))
  have r3 := Reach.act r2 (other (Runner.Step.schedNew _ _ _ _ rfl rfl (List.Perm.refl _)))
  have r4 := Reach.act r3 (other (Runner.Step.schedSend _ _ (b!"x", b!"a") [] rfl (by exact (show (0 : Int) < 2 by decide))))
  have r5 := Reach.act r4 (other (Runner.Step.routerRecv _ b!"x" b!"a" [] rfl rfl))
  have r6 := Reach.act r5 (other (Runner.Step.routerSend _ b!"x" b!"a" rfl rfl))
  have r7 := Reach.act r6 (Act.handled b!"x" b!"a" _ _ _ _ _ _ (true, []) rfl rfl rfl rfl)
  have r8 := Reach.act r7 (other (Runner.Step.report _ b!"x" b!"a" true rfl (by exact (show (0 : Int) < 2 by decide))))
  have r9 := Reach.act r8 (other (Runner.Step.mainOk _ b!"a" [] rfl rfl))
  have r10 := Reach.act r9 (other (Runner.Step.mainSend _ b!"a" rfl (by exact (show (0 : Int) < 2 by decide))))
  have r11 := Reach.act r10 (other (Runner.Step.schedRefused _ _ _ b!"a" [] rfl rfl rfl))
  have r12 := Reach.act r11 (other (Runner.Step.routerClosed _ rfl rfl rfl))
  have r13 := Reach.act r12 (other (Runner.Step.targetClosed _ b!"x" rfl (Or.inl rfl)))
  have r14 := Reach.act r13 (Act.stopped b!"x" _ _ rfl rfl rfl)
  have r15 := Reach.act r14 (other (Runner.Step.routerDone _ rfl (by
    intro q
    by_cases e : q = b!"x"
    · subst e; exact Or.inr rfl
    · simp [Function.update_of_ne e, Runner.init])))
  have r16 := Reach.act r15 (other (Runner.Step.mainEnd1 _ rfl rfl rfl))
  have r17 := Reach.act r16 (other (Runner.Step.mainReturn _ none rfl rfl rfl))
  exact ⟨_, _, r17, rfl, by simp, rfl, rfl⟩

/-- Without retries, and a server that accepts. -/
theorem start_once (ok : Nat → Bool) (h : ok 0 = true) : start proc0 ok (.pg (dbTarget 0)) =
    ([.connect { host := b!"db" } true], some (.pg (dbTarget 0), some true)) := by
  have hc : Pg.configure {} (options (dbTarget 0)) = .ok { host := b!"db" } := by decide +kernel
  have hn : Pg.new proc0.libpq ok (options (dbTarget 0)) =
      ([.connect { host := b!"db" } true], .conn 0) := by
    rw [show proc0.libpq = .ok {} from rfl, Pg.new_loop _ hc]
    simp [Pg.connectLoop, options, dbTarget, h]
  simp [start, hn]

/-- With one retry, and a server that accepts. -/
theorem start_twice : start proc0 (fun _ => true) (.pg (dbTarget 1)) =
    ([.connect { host := b!"db" } true, .connect { host := b!"db" } true],
      some (.pg (dbTarget 1), some true)) := by
  have hc : Pg.configure {} (options (dbTarget 1)) = .ok { host := b!"db" } := by decide +kernel
  have hn : Pg.new proc0.libpq (fun _ => true) (options (dbTarget 1)) =
      ([.connect { host := b!"db" } true, .connect { host := b!"db" } true], .conn 1) := by
    rw [show proc0.libpq = .ok {} from rfl, Pg.new_loop _ hc]
    simp [Pg.connectLoop, options, dbTarget]
  simp [start, hn]

/-- A run that meets the hypotheses of C91 and C92: one connection is opened, the statement sent, and
the connection closed. -/
example : ∃ st w, Reach (pgConfig 0) b!"/" proc0 dbSrc (.running (dbBook 0) st w) ∧
    st.main = .returned none ∧ w.net = [(b!"x", .connect { host := b!"db" } true)] ∧
    w.closed = [b!"x"] ∧ w.calls = [(b!"a", .sql b!"x" b!"select 1", true)] :=
  dbRun 0 (fun _ => true) _ (start_once _ rfl)

/-- It meets those of `C87_no_panic_partial` too. -/
example : ¬ Reach (pgConfig 0) b!"/" proc0 dbSrc .panicked := by
  refine C87_no_panic_partial (pgConfig_json 0) (by decide) (by decide) ?_ ?_ ?_
  · intro id o h; simp [dbSrc] at h; simp [h]
  · intro id o h; simp [dbSrc] at h; simp [h]
  · intro book h
    rw [db_parse] at h
    cases h
    refine ⟨?_, by decide⟩
    intro q t ht
    simp only [dbBook, List.mem_singleton, Prod.mk.injEq, Target.pg.injEq] at ht
    rw [ht.2]
    decide

/-! ## C92 refuted -/

/-- Two databases, of which the second is down. -/
def downSrc : Src := ⟨[(b!"x", some ⟨b!"pg", b!"up"⟩), (b!"y", some ⟨b!"pg", b!"down"⟩)],
  [(b!"a", some ⟨[], b!"x/exec", [], b!"select 1"⟩)]⟩

def downBook : Runbook where
  targets := [(b!"x", .pg (dbTarget 0)), (b!"y", .pg { host := b!"nowhere" })]
  tasks := [(b!"a", ⟨b!"x", [], [], .pgExec b!"select 1"⟩)]

theorem start_down : start proc0 (fun _ => false) (.pg { host := b!"nowhere" }) =
    ([.connect { host := b!"nowhere" } false], none) := by
  have hc : Pg.configure {} (options { host := b!"nowhere" }) = .ok { host := b!"nowhere" } := by
    decide +kernel
  have hn : Pg.new proc0.libpq (fun _ => false) (options { host := b!"nowhere" }) =
      ([.connect { host := b!"nowhere" } false], .err (.attempt 0)) := by
    rw [show proc0.libpq = .ok {} from rfl, Pg.new_loop _ hc]
    simp [Pg.connectLoop, options]
  simp [start, hn]

/-- **C92 refuted.** With `connect_retries: 1` and a server that accepts, a successful run opens two
connections and closes one.  And if another target cannot be connected to, `Run` returns without
closing the connection it has. -/
theorem C92_refuted :
    (∃ st w, Reach (pgConfig 1) b!"/" proc0 dbSrc (.running (dbBook 1) st w) ∧
      st.main = .returned none ∧ (Pg.attempts (netOf w.net b!"x")).count true = 2 ∧
      w.closed.count b!"x" = 1) ∧
    (∃ st w, Reach (pgConfig 0) b!"/" proc0 downSrc (.running downBook st w) ∧
      st.main = .returned (some (.start b!"y")) ∧
      (Pg.attempts (netOf w.net b!"x")).count true = 1 ∧ w.closed = []) := by
  constructor
  · obtain ⟨st, w, h1, h2, h3, h4, _⟩ := dbRun 1 (fun _ => true) _ start_twice
    refine ⟨st, w, h1, h2, ?_, ?_⟩
    · rw [h3]; decide +kernel
    · rw [h4]; decide
  · have r0 : Reach (pgConfig 0) b!"/" proc0 downSrc (.running downBook _ _) :=
      Reach.start (book := downBook) rfl (by decide) [b!"x", b!"y"] (List.Perm.refl _)
    have r1 := Reach.act r0 (Act.started b!"x" [b!"y"] _ _ _ _ (fun _ => true) rfl rfl
      (start_once _ rfl))
    have r2 := Reach.act r1 (Act.startFailed b!"y" [] _ _ (fun _ => false) rfl rfl start_down)
    have r3 := Reach.act r2 (other (Runner.Step.returnStartErr _ b!"y" rfl))
    exact ⟨_, _, r3, rfl, by decide +kernel, rfl⟩

/-! ## C86 refuted -/

/-- Two databases; the statement "b" on the second is to come after the one of the task "" on the
first. -/
def unnamedSrc : Src := ⟨[(b!"x", some ⟨b!"pg", b!"up"⟩), (b!"y", some ⟨b!"pg", b!"up"⟩)],
  [(b!"", some ⟨[], b!"x/exec", [], b!"create"⟩), (b!"b", some ⟨[b!""], b!"y/exec", [], b!"drop"⟩)]⟩

def unnamedBook : Runbook where
  targets := [(b!"x", .pg (dbTarget 0)), (b!"y", .pg (dbTarget 0))]
  tasks := [(b!"", ⟨b!"x", [], [], .pgExec b!"create"⟩), (b!"b", ⟨b!"y", [b!""], [], .pgExec b!"drop"⟩)]

/-- **C86 refuted** for a task after one named "": its statement is executed although that of "" has
failed. -/
theorem C86_refuted : Json (pgConfig 0) ∧ Spec.DependsOn unnamedSrc b!"b" b!"" ∧
    ∃ st w, Reach (pgConfig 0) b!"/" proc0 unnamedSrc (.running unnamedBook st w) ∧
      w.calls = [(b!"", .sql b!"x" b!"create", false), (b!"b", .sql b!"y" b!"drop", true)] := by
  have r0 : Reach (pgConfig 0) b!"/" proc0 unnamedSrc (.running unnamedBook _ _) :=
    Reach.start (book := unnamedBook) rfl (by decide) [b!"x", b!"y"] (List.Perm.refl _)
  have r1 := Reach.act r0 (Act.started b!"x" [b!"y"] _ _ _ _ (fun _ => true) rfl rfl
    (start_once _ rfl))
  have r2 := Reach.act r1 (Act.started b!"y" [] _ _ _ _ (fun _ => true) rfl rfl (start_once _ rfl))
  have r3 := Reach.act r2 (other (Runner.Step.targetsStarted _ rfl))
  have r4 := Reach.act r3 (other (Runner.Step.schedNew _ _ _ _ rfl rfl (List.Perm.refl _)))
  have r5 := Reach.act r4 (other (Runner.Step.schedSend _ _ (b!"x", b!"") [(b!"y", b!"b")] rfl (by decide)))
  have r6 := Reach.act r5 (other (Runner.Step.schedSend _ _ (b!"y", b!"b") [] rfl (by decide)))
  have r7 := Reach.act r6 (other (Runner.Step.routerRecv _ b!"x" b!"" [(b!"y", b!"b")] rfl rfl))
  have r8 := Reach.act r7 (other (Runner.Step.routerSend _ b!"x" b!"" rfl rfl))
  have r9 := Reach.act r8 (Act.handled b!"x" b!"" _ _ _ _ _ _ (false, []) rfl rfl rfl rfl)
  have r10 := Reach.act r9 (other (Runner.Step.routerRecv _ b!"y" b!"b" [] rfl rfl))
  have r11 := Reach.act r10 (other (Runner.Step.routerSend _ b!"y" b!"b" rfl rfl))
  have r12 := Reach.act r11 (Act.handled b!"y" b!"b" _ _ _ _ _ _ (true, []) rfl rfl rfl rfl)
  refine ⟨pgConfig_json _, ?_, _, _, r12, rfl⟩
  exact ⟨⟨[b!""], b!"y/exec", [], b!"drop"⟩, by simp [unnamedSrc], by simp⟩

end Verif.Run
