import Verif.Main.Inspect
import Verif.Main.Examples
import Verif.Main.RunCmd

/-!
# C96: the exit status
-/

namespace Verif.Main
open Verif Cmd Spec Sql

variable {F N : Type} {env : Env F N} {w : World}

theorem write_all {os : Os} (hw : Writes os) (text : Str) (w : World) :
    write os .stdout text w = ({ w with stdout := w.stdout ++ text }, false) := by
  simp [write, hw text]

theorem left_stdout {os : Os} (hw : Writes os) (text : Str) (w : World) :
    Left [] text w (write os .stdout text w).1 := by
  rw [write_all hw]
  simp [Left]

theorem writes_honest {os : Os} (hw : Writes os) : Honest os := fun t _ => by rw [hw t]

theorem openOutput_cases (os : Os) (output : Str) (w : World) :
    (∃ dest w', openOutput os (if output = [] then b!"-" else output) w = some (dest, w') ∧
      (Seen output w w'.files ∧ dest = destOf output) ∧ w'.stdout = w.stdout ∧
      ∀ text, Writes os → Left output text w (write os dest text w').1) ∨
    (openOutput os (if output = [] then b!"-" else output) w = none ∧ os.openFails output = true) := by
  unfold openOutput openTrunc Seen Left destOf
  by_cases hd : output = [] ∨ output = b!"-"
  · have e : (if output = [] then b!"-" else output) = b!"-" := by
      rcases hd with rfl | rfl <;> rfl
    rw [e]
    simp only [ne_eq, not_true, if_false, if_pos hd]
    refine .inl ⟨.stdout, w, rfl, ⟨rfl, rfl⟩, rfl, ?_⟩
    intro text hw
    simp [write, hw text]
  · obtain ⟨h1, h2⟩ := not_or.mp hd
    rw [if_neg h1]
    simp only [if_neg hd]
    rw [if_pos h2]
    cases hf : os.openFails output with
    | true => exact .inr ⟨rfl, rfl⟩
    | false =>
      refine .inl ⟨_, _, rfl, ⟨⟨by simp [setFile], ?_⟩, rfl⟩, rfl, ?_⟩
      · intro name hn; simp [setFile, hn]
      · intro text hw
        refine ⟨by simp [write, contents, setFile, hw text], ?_, rfl⟩
        intro name hn
        simp [write, setFile, hn]

theorem padRight_spec (n : Nat) (hn : n ≤ 1000000) (s : Str) :
    ∃ gap, padRight n s = s ++ gap ∧ ∀ c ∈ gap, c = 32 := by
  refine ⟨List.replicate (n - runeCount s) 32, ?_, fun c hc => List.eq_of_mem_replicate hc⟩
  rw [padRight, if_neg (by omega)]

theorem depLines (deps : List (Str × Str)) (d : Str × Str) (h : d ∈ deps) : ∃ pre gap gap' post,
    b!"\n" ++ deps.flatMap depLine = pre ++ b!"\n" ++ d.1 ++ gap ++ d.2 ++ gap' ++ b!"\n" ++ post ∧
    (∀ c ∈ gap, c = 32) ∧ gap ≠ [] ∧ ∀ c ∈ gap', c = 32 := by
  have hline : ∀ x, ∃ init, depLine x = init ++ b!"\n" := fun x => ⟨_, rfl⟩
  have hends : ∀ l : List (Str × Str), ∃ init, b!"\n" ++ l.flatMap depLine = init ++ b!"\n" := by
    intro l
    rcases List.eq_nil_or_concat l with rfl | ⟨l, x, rfl⟩
    · exact ⟨[], rfl⟩
    · obtain ⟨init, hi⟩ := hline x
      exact ⟨b!"\n" ++ l.flatMap depLine ++ init, by simp [hi]⟩
  obtain ⟨l, r, rfl⟩ := List.append_of_mem h
  obtain ⟨pre, hp⟩ := hends l
  obtain ⟨g, hg, hg'⟩ := padRight_spec 40 (by decide) d.1
  obtain ⟨g2, hg2, hg2'⟩ := padRight_spec 35 (by decide) d.2
  refine ⟨pre, g ++ b!" ", g2, r.flatMap depLine, ?_, ?_, by simp, hg2'⟩
  · rw [List.flatMap_append, ← List.append_assoc, hp, List.flatMap_cons, depLine, hg, hg2]
    simp
  · intro c hc
    rcases List.mem_append.mp hc with h | h
    · exact hg' c h
    · simpa using h

/-- What has been printed before stays, and the rest of the output is what follows. -/
def Extends (w w' : World) : Prop := ∃ out, w'.stdout = w.stdout ++ out

theorem write_extends (os : Os) (dest : Writer) (text : Str) (w : World) :
    Extends w (write os dest text w).1 := by
  cases dest with
  | stdout => exact ⟨_, rfl⟩
  | file => exact ⟨[], by simp [write]⟩

theorem runInspect_extends (os : Os) (d : Except Unit Str) (output : Str) (w : World) :
    Extends w (runInspect os d output w).1 := by
  cases d with
  | error => exact ⟨[], by simp [runInspect]⟩
  | ok text =>
    unfold runInspect
    rcases openOutput_cases os output w with ⟨dest, w', h1, _, h3, _⟩ | ⟨h1, _⟩
    · simp only [h1]
      obtain ⟨out, h⟩ := write_extends os dest text w'
      exact ⟨out, by rw [h, h3]⟩
    · simp only [h1]
      exact ⟨[], by simp⟩

theorem dot_target_ne (c : DotCmd) : c.target ≠ [] := by
  unfold DotCmd.target
  split
  · assumption
  · split <;> simp

/-- What every command comes to. -/
theorem run_cases (env : Env F N) (hw : Writes env.os) (c : Command) (w : World) :
    ((c.run env w).result = .ok ∧ Done env w (c.run env w).world c) ∨
    ((c.run env w).result = .failed ∧ Extends w (c.run env w).world) := by
  have same : ∀ {x : Prop} {w' : World}, x → w' = w → x ∧ Extends w w' := by
    rintro x w' hx rfl
    exact ⟨hx, [], by simp⟩
  cases c with
  | ping s =>
    simp only [Command.run, ping]
    rcases withConn_cases env s w _ with ⟨h1, h2, _⟩ | ⟨e, cfg, h1, h2, h3, h4⟩
    · exact .inr (same h1 h2)
    · rw [h4]
      simp only
      cases hv : env.version 0 with
      | error => exact .inr ⟨rfl, [], by simp⟩
      | ok v => exact .inl ⟨rfl, e, cfg, v, h1, h2, h3, hv, left_stdout hw _ w⟩
  | inspect c =>
    simp only [Command.run, InspectCmd.run]
    rcases withConn_cases env c.server w _ with ⟨h1, h2, _⟩ | ⟨e, cfg, h1, h2, h3, h4⟩
    · exact .inr (same h1 h2)
    · rw [h4]
      simp only
      cases hx : (runInspect env.os (match Pg.inspect env.parseFloat env.sort (env.serve 0) c.sort with
          | .error _ => .error ()
          | .ok d => .ok (env.print (Hcl.write env.hcl (Hcl.ofInspect d)))) c.output w).2 with
      | success =>
        obtain ⟨text, ht, hl⟩ := runInspect_success (writes_honest hw) hx
        refine .inl ⟨rfl, ?_⟩
        cases hi : Pg.inspect env.parseFloat env.sort (env.serve 0) c.sort with
        | error => rw [hi] at ht; cases ht
        | ok d =>
          rw [hi] at ht hl
          cases ht
          exact ⟨d, _, hi, rfl, hl⟩
      | failure => exact .inr ⟨rfl, runInspect_extends _ _ _ _⟩
  | list file =>
    simp only [Command.run, runbookList]
    cases hp : env.libs.parse w.files file with
    | error => exact .inr ⟨rfl, [], by simp⟩
    | ok book =>
      refine .inl ⟨rfl, book, _, hp, ?_, left_stdout hw _ w⟩
      rintro ⟨h1, h2, h3⟩
      obtain ⟨ids, lines, column, g1, g2, g3, g4, _⟩ := C63_list_partial book h1 h2 h3
      exact ⟨ids, lines, column, g1, g2, g3, g4⟩
  | dot c =>
    simp only [Command.run, DotCmd.run]
    have ht := dot_target_ne c
    rcases openOutput_cases env.os c.target w with ⟨dest, w', h1, ⟨h2, _⟩, h3, h4⟩ | ⟨h1, _⟩
    · rw [if_neg ht] at h1
      simp only [h1]
      cases hp : env.libs.parse w'.files c.file with
      | error => exact .inr ⟨rfl, [], by simp [h3]⟩
      | ok book => exact .inl ⟨rfl, w'.files, book, h2, hp, h4 _ hw⟩
    · rw [if_neg ht] at h1
      simp only [h1]
      exact .inr ⟨rfl, [], by simp⟩
  | eval c =>
    simp only [Command.run, EvalCmd.run]
    have e : (if c.output ≠ [] then c.output else b!"-") = if c.output = [] then b!"-" else c.output := by
      by_cases h : c.output = [] <;> simp [h]
    rw [e]
    rcases openOutput_cases env.os c.output w with ⟨dest, w', h1, ⟨h2, hdest⟩, h3, h4⟩ | ⟨h1, _⟩
    · simp only [h1]
      cases hp : env.libs.eval w'.files c.file (c.useColor env.terminal dest) with
      | error => exact .inr ⟨rfl, [], by simp [h3]⟩
      | ok text =>
        refine .inl ⟨?_, w'.files, _, text, h2, ?_, hp, h4 _ hw⟩
        · simp [write_error, hw text, End.ofExit]
        · rw [EvalCmd.useColor, hdest]
          by_cases h1 : c.color = b!"auto"
          · rw [if_pos h1, h1]; simp
          · rw [if_neg h1]; simp [h1]
    · simp only [h1]
      exact .inr ⟨rfl, [], by simp⟩
  | version build long =>
    refine .inl ⟨rfl, _, left_stdout hw _ w, ?_, ?_⟩
    · rintro rfl; rfl
    · rintro deps rfl hd d hd'
      simp only [hd]
      exact depLines deps d hd'

/-- **C96 (partial).** As long as writing does not fail: if `pgutil` (with any command but `runbook run`)
exits with status 0 the command has done its job; otherwise it exits with status 1, and the last thing
it has printed is the error.
Missing: `runbook list`, `runbook dot`, `ping` and `version` do not notice when writing fails
(`C96_refuted`). -/
theorem C96_exit_status_partial (env : Env F N) (hw : Writes env.os) (message : Str) (c : Command)
    (w w' : World) (code : Nat) (h : main env message (some c) w = (w', code)) :
    (code = 0 ∧ Done env w w' c) ∨
    (code = 1 ∧ ∃ out, w'.stdout = w.stdout ++ out ++ message ++ b!"\n") := by
  simp only [main] at h
  rcases run_cases env hw c w with ⟨h1, h2⟩ | ⟨h1, out, h2⟩
  · rw [h1] at h
    simp only [finish, Prod.mk.injEq] at h
    obtain ⟨rfl, rfl⟩ := h
    exact .inl ⟨rfl, h2⟩
  · rw [h1] at h
    simp only [finish, write_all hw, Prod.mk.injEq] at h
    obtain ⟨rfl, rfl⟩ := h
    exact .inr ⟨rfl, out, by simp [h2]⟩

/-- **C96, runs.** `runbook run` exits with status 0 only if every task the file lists has been carried
out, on its target, exactly once and successfully (see C94 for the hypotheses on the file). -/
theorem C96_run (tx : Json.Text) (basedir : Str) (proc : Run.Proc) (doc : Json.Value)
    (hp : Json.Spec.Plain doc) (ho : Json.Spec.Ordered doc)
    {code : Nat} {out : Str} (h : RunEnds tx basedir proc doc code out) (hc : code = 0) :
    ∃ book st w, Json.Runs tx basedir proc doc (.running book st w) ∧ out = w.stdout ∧
      ∀ id v, Json.Spec.Lists doc b!"Tasks" id v → ∃ task tgt calls,
        Json.Spec.TaskIs (Json.Spec.HasTarget basedir doc) v task ∧
        Json.Spec.HasTarget basedir doc task.target tgt ∧
        Run.Spec.Does proc.environ task.target tgt task.config calls ∧
        w.calls.filter (fun c => c.1 = id) = calls.map (fun c => (id, c, true)) ∧
        .handleEnd task.target id true ∈ st.trace := by
  cases h with
  | rejected | panicked | failed => cases hc
  | returned h hr =>
    refine ⟨_, _, _, h, rfl, ?_⟩
    intro id v hl
    obtain ⟨task, tgt, calls, pre, mid, post, h1, h2, h3, _, h5, h6, _⟩ :=
      Json.C94_success_means_done hp ho h hr hl
    exact ⟨task, tgt, calls, h1, h2, h5, h6, by rw [h3]; simp⟩

/-- A command line that is not understood is an error. -/
theorem C96_usage (env : Env F N) (hw : Writes env.os) (message : Str) (w : World) :
    main env message none w = ({ w with stdout := w.stdout ++ (message ++ b!"\n") }, 1) := by
  simp [main, finish, write_all hw]

/-- **C96 refuted.** When standard output cannot be written, `ping`, `runbook list`, `runbook dot` and
`version` exit with status 0 all the same. -/
theorem C96_refuted (env : Env F N) (hw : ∀ t, env.os.write t = ([], true)) (message : Str) (w : World) :
    (∀ build long, main env message (some (.version build long)) w = (w, 0)) ∧
    (∀ file book, env.libs.parse w.files file = .ok book →
      main env message (some (.list file)) w = (w, 0)) ∧
    (∀ c book, DotCmd.target c = b!"-" → env.libs.parse w.files c.file = .ok book →
      main env message (some (.dot c)) w = (w, 0)) ∧
    ∀ s e cfg v, env.libpq = .ok e → Pg.configure e (Server.options s) = .ok cfg → env.accepts 0 = true →
      env.version 0 = .ok v → main env message (some (.ping s)) w = (w, 0) := by
  have hwr : ∀ text (w : World), (write env.os .stdout text w).1 = w := by
    intro text w
    simp [write, hw]
  refine ⟨?_, ?_, ?_, ?_⟩
  · intro build long
    simp [main, Command.run, version, finish, hwr]
  · intro file book h
    simp [main, Command.run, runbookList, finish, h, hwr]
  · intro c book ht h
    simp [main, Command.run, DotCmd.run, openOutput, ht, h, hwr, finish, End.ofExit]
  · intro s e cfg v h1 h2 h3 h4
    simp only [main, Command.run, ping]
    rcases new_once env.libpq env.accepts s with ⟨e', h⟩ | ⟨e', cfg', g1, g2, g3⟩
    · exfalso
      rw [h1] at h
      simp only [Pg.new, h2] at h
      rw [Pg.connectLoop] at h
      simp [Server.options, h3] at h
    · simp [withConn, g3, h3, h4, hwr, finish]

/-- A runbook that is listed, a server that is reached: the hypotheses are met. -/
example : ∃ (env : Env Int Int) (w : World) (book : Book.Runbook) (cfg : Pg.ConnConfig),
    (∀ t, env.os.write t = ([], true)) ∧ env.libs.parse w.files b!"a" = .ok book ∧
    Pg.configure { user := b!"shop" } (Server.options { host := b!"db" }) = .ok cfg ∧
    env.libpq = .ok { user := b!"shop" } ∧ env.accepts 0 = true ∧ env.version 0 = .ok b!"PostgreSQL 11.4" :=
  ⟨{ shopEnv with
      os := { openFails := fun _ => false, write := fun _ => ([], true) }
      libs := { shopEnv.libs with parse := fun _ _ => .ok { targets := [], tasks := [] } } },
    { files := fun _ => none }, { targets := [], tasks := [] }, _, fun _ => rfl, rfl, rfl, rfl, rfl, rfl⟩

/-- A successful and a failing command. -/
example : Writes shopEnv.os ∧
    main shopEnv b!"" (some (.ping { host := b!"db" })) { files := fun _ => none, stdout := b!"$ " } =
      ({ files := fun _ => none, stdout := b!"$ PostgreSQL 11.4\n" }, 0) ∧
    main shopEnv b!"not found" (some (.list b!"x")) { files := fun _ => none, stdout := b!"$ " } =
      ({ files := fun _ => none, stdout := b!"$ not found\n" }, 1) := by
  refine ⟨fun _ => rfl, ?_, rfl⟩
  have hn : Pg.new shopEnv.libpq shopEnv.accepts (Server.options { host := b!"db" }) =
      ([.connect { user := b!"shop", host := b!"db" } true], .conn 0) := by decide +kernel
  simp only [main, Command.run, ping, withConn, hn]
  rfl

end Verif.Main
