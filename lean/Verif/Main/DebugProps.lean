import Verif.Main.Debug
import Verif.Main.Examples

/-!
# C132: the debug log
-/

namespace Verif.Main
open Verif Cmd Spec

variable {F N : Type}

/-- The file a command writes to, if there is one. -/
def Command.target : Command → Option Str
  | .inspect c => if c.output = [] ∨ c.output = b!"-" then none else some c.output
  | .eval c => if c.output = [] ∨ c.output = b!"-" then none else some c.output
  | .dot c => if c.target = b!"-" then none else some c.target
  | _ => none

/-- The same files, but for this one. -/
def Besides (name : Str) (f g : Str → Option Str) : Prop := ∀ n, n ≠ name → f n = g n

/-- Reading a runbook does not depend on what is in this file: it is neither the runbook nor imported by it. -/
def Unread (libs : Libs) (name : Str) : Prop :=
  ∀ f g, Besides name f g → libs.parse f = libs.parse g ∧ libs.eval f = libs.eval g

section lemmas

theorem append_spec (os : Os) (name : Str) (lines : List Str) (w : World) :
    (append os name lines w).stdout = w.stdout ∧ Besides name (append os name lines w).files w.files ∧
    contents (append os name lines w).files name =
      contents w.files name ++ lines.flatMap fun l => (os.write l).1 := by
  induction lines generalizing w with
  | nil => simp [append, Besides]
  | cons l lines ih =>
    obtain ⟨h1, h2, h3⟩ := ih (write os (.file name) l w).1
    refine ⟨h1.trans rfl, fun n hn => (h2 n hn).trans ?_, ?_⟩
    · simp [write, setFile, hn]
    · rw [append, h3]
      simp [write, setFile, contents]

theorem append_isSome (os : Os) (name : Str) (lines : List Str) (w : World)
    (h : (w.files name).isSome = true) : ((append os name lines w).files name).isSome = true := by
  induction lines generalizing w with
  | nil => exact h
  | cons l lines ih => exact ih _ (by simp [write, setFile])

theorem append_some {os : Os} {name old : Str} (lines : List Str) {w : World}
    (h : w.files name = some old) :
    (append os name lines w).files name = some (old ++ lines.flatMap fun l => (os.write l).1) := by
  have h1 := append_isSome os name lines w (by rw [h]; rfl)
  have h2 := (append_spec os name lines w).2.2
  cases hf : (append os name lines w).files name with
  | none => rw [hf] at h1; cases h1
  | some c =>
    simp only [contents, hf, h] at h2
    rw [h2]

/-- Two worlds that differ in what is in the file `name`. -/
structure Twin (name : Str) (w w' : World) : Prop where
  stdout : w.stdout = w'.stdout
  files : Besides name w.files w'.files

theorem write_twin (os : Os) {name : Str} {w w' : World} (h : Twin name w w') (text : Str) (dest : Writer)
    (hd : dest ≠ .file name) :
    Twin name (write os dest text w).1 (write os dest text w').1 ∧
    (write os dest text w).1.files name = w.files name ∧
    (write os dest text w').1.files name = w'.files name := by
  cases dest with
  | stdout => exact ⟨⟨by simp [write, h.stdout], h.files⟩, rfl, rfl⟩
  | file f =>
    have hf : name ≠ f := fun e => hd (by rw [e])
    refine ⟨⟨h.stdout, fun n hn => ?_⟩, by simp [write, setFile, hf], by simp [write, setFile, hf]⟩
    have : contents w.files f = contents w'.files f := by
      unfold contents; rw [h.files f (fun e => hf e.symm)]
    simp only [write, setFile, this]
    split
    · rfl
    · exact h.files n hn

theorem open_twin (os : Os) {name : Str} {w w' : World} (h : Twin name w w') (output : Str)
    (ho : output = b!"-" ∨ output ≠ name) :
    (openOutput os output w = none ∧ openOutput os output w' = none) ∨
    ∃ dest v v', openOutput os output w = some (dest, v) ∧ openOutput os output w' = some (dest, v') ∧
      dest ≠ .file name ∧ Twin name v v' ∧ v.files name = w.files name ∧ v'.files name = w'.files name := by
  unfold openOutput
  by_cases hd : output = b!"-"
  · simp only [hd, ne_eq, not_true, if_false]
    exact .inr ⟨_, _, _, rfl, rfl, by simp, h, rfl, rfl⟩
  · have hn : name ≠ output := (ho.resolve_left hd).symm
    simp only [ne_eq, hd, not_false_eq_true, if_true, openTrunc]
    cases os.openFails output with
    | true => exact .inl ⟨rfl, rfl⟩
    | false =>
      refine .inr ⟨_, _, _, rfl, rfl, by simpa using hn.symm, ⟨h.stdout, fun n hx => ?_⟩, ?_, ?_⟩
      · simp only [setFile]
        split
        · rfl
        · exact h.files n hx
      · simp [setFile, hn]
      · simp [setFile, hn]

/-- A command that neither writes to nor reads a file does the same whatever is in it, and leaves it alone. -/
theorem run_twin (env : Env F N) {name : Str} (hr : Unread env.libs name) (c : Command)
    (hc : c.target ≠ some name) {w w' : World} (h : Twin name w w') :
    Twin name (c.run env w).world (c.run env w').world ∧ (c.run env w).result = (c.run env w').result ∧
    (c.run env w).world.files name = w.files name ∧ (c.run env w').world.files name = w'.files name := by
  have conn : ∀ s (use use' : Nat → World × End),
      (∀ i, Twin name (use i).1 (use' i).1 ∧ (use i).2 = (use' i).2 ∧
        (use i).1.files name = w.files name ∧ (use' i).1.files name = w'.files name) →
      Twin name (withConn env s w use).world (withConn env s w' use').world ∧
      (withConn env s w use).result = (withConn env s w' use').result ∧
      (withConn env s w use).world.files name = w.files name ∧
      (withConn env s w' use').world.files name = w'.files name := by
    intro s use use' hu
    simp only [withConn]
    cases (Pg.new env.libpq env.accepts s.options).2 with
    | err e => exact ⟨h, rfl, rfl, rfl⟩
    | nilConn => exact ⟨h, rfl, rfl, rfl⟩
    | conn i => exact hu i
  cases c with
  | ping s =>
    refine conn _ _ _ fun i => ?_
    cases env.version i with
    | error e => exact ⟨h, rfl, rfl, rfl⟩
    | ok v =>
      obtain ⟨h1, h2, h3⟩ := write_twin env.os h (v ++ b!"\n") .stdout (by simp)
      exact ⟨h1, rfl, h2, h3⟩
  | inspect c =>
    refine conn _ _ _ fun i => ?_
    cases Pg.inspect env.parseFloat env.sort (env.serve i) c.sort with
    | error e => exact ⟨h, rfl, rfl, rfl⟩
    | ok d =>
      simp only [runInspect]
      have ho : (if c.output = [] then b!"-" else c.output) = b!"-" ∨
          (if c.output = [] then b!"-" else c.output) ≠ name := by
        by_cases e : c.output = [] ∨ c.output = b!"-"
        · left; rcases e with e | e <;> simp [e]
        · right
          obtain ⟨e1, e2⟩ := not_or.1 e
          rw [if_neg e1]
          intro e3
          exact hc (by rw [Command.target, if_neg e, e3])
      rcases open_twin env.os h _ ho with ⟨e1, e2⟩ | ⟨dest, v, v', e1, e2, e3, e4, e5, e6⟩
      · rw [e1, e2]; exact ⟨h, rfl, rfl, rfl⟩
      · rw [e1, e2]
        obtain ⟨h1, h2, h3⟩ := write_twin env.os e4 (env.print (Hcl.write env.hcl (Hcl.ofInspect d))) dest e3
        refine ⟨h1, ?_, h2.trans e5, h3.trans e6⟩
        cases dest <;> rfl
  | list file =>
    simp only [Command.run, runbookList, (hr _ _ h.files).1]
    cases env.libs.parse w'.files file with
    | error e => exact ⟨h, rfl, rfl, rfl⟩
    | ok book =>
      obtain ⟨h1, h2, h3⟩ := write_twin env.os h (runList book) .stdout (by simp)
      exact ⟨h1, rfl, h2, h3⟩
  | dot c =>
    simp only [Command.run, DotCmd.run]
    have ho : c.target = b!"-" ∨ c.target ≠ name := by
      by_cases e : c.target = b!"-"
      · exact .inl e
      · exact .inr fun e3 => hc (by rw [Command.target, if_neg e, e3])
    rcases open_twin env.os h _ ho with ⟨e1, e2⟩ | ⟨dest, v, v', e1, e2, e3, e4, e5, e6⟩
    · rw [e1, e2]; exact ⟨h, rfl, rfl, rfl⟩
    · rw [e1, e2]
      simp only [(hr _ _ e4.files).1]
      cases env.libs.parse v'.files c.file with
      | error e => exact ⟨e4, rfl, e5, e6⟩
      | ok book =>
        obtain ⟨h1, h2, h3⟩ := write_twin env.os e4 (env.libs.graph book c.splines) dest e3
        exact ⟨h1, rfl, h2.trans e5, h3.trans e6⟩
  | eval c =>
    simp only [Command.run, EvalCmd.run]
    have ho : (if c.output ≠ [] then c.output else b!"-") = b!"-" ∨
        (if c.output ≠ [] then c.output else b!"-") ≠ name := by
      by_cases e : c.output = [] ∨ c.output = b!"-"
      · left; rcases e with e | e <;> simp [e]
      · right
        obtain ⟨e1, e2⟩ := not_or.1 e
        rw [if_pos e1]
        intro e3
        exact hc (by rw [Command.target, if_neg e, e3])
    rcases open_twin env.os h _ ho with ⟨e1, e2⟩ | ⟨dest, v, v', e1, e2, e3, e4, e5, e6⟩
    · rw [e1, e2]; exact ⟨h, rfl, rfl, rfl⟩
    · rw [e1, e2]
      simp only [(hr _ _ e4.files).2]
      cases env.libs.eval v'.files c.file (c.useColor env.terminal dest) with
      | error e => exact ⟨e4, rfl, e5, e6⟩
      | ok text =>
        obtain ⟨h1, h2, h3⟩ := write_twin env.os e4 text dest e3
        refine ⟨h1, ?_, h2.trans e5, h3.trans e6⟩
        cases dest <;> rfl
  | version build long =>
    simp only [Command.run, version]
    exact ⟨(write_twin env.os h _ .stdout (by simp)).1, trivial, (write_twin env.os h _ .stdout (by simp)).2.1,
      (write_twin env.os h _ .stdout (by simp)).2.2⟩

theorem finish_twin (os : Os) {name message : Str} (r : End) {w w' : World} (h : Twin name w w') :
    Twin name (finish os message r w).1 (finish os message r w').1 ∧
    (finish os message r w).2 = (finish os message r w').2 ∧
    (finish os message r w).1.files = w.files := by
  cases r with
  | ok => exact ⟨h, rfl, rfl⟩
  | failed => exact ⟨(write_twin os h (message ++ b!"\n") .stdout (by simp)).1, rfl, rfl⟩
  | panics => exact ⟨h, rfl, rfl⟩

end lemmas

/-- What a debug log holds in the end: what was in it, then the two messages of every run, then those of the command. -/
def Kept (render : Level → Str → Str) (build debug : Str) (msgs : List (Level × Str)) (w w' : World) : Prop :=
  w'.files debug = some (contents w.files debug ++
    render .info (b!"logging to: " ++ debug) ++ render .info (b!"pgutil version=" ++ build) ++
    msgs.flatMap fun m => render m.1 m.2)

/-- With the debug log (`r`) the program has done what it does without (`r₀`), and added its messages to the log. -/
structure OnlyAdded (render : Level → Str → Str) (build debug : Str) (msgs : List (Level × Str)) (w : World)
    (r r₀ : World × Nat) : Prop where
  log : Kept render build debug msgs w r.1
  rest : Besides debug r.1.files r₀.1.files
  stdout : r.1.stdout = r₀.1.stdout
  status : r.2 = r₀.2

/-- **C132, where it holds.** If the debug log is neither the output nor read, it is added to, and everything else is as
without a debug log. Missing: a debug log that is the output (`C132_same`) or is read. -/
theorem C132_debug_partial (env : Env F N) (render : Level → Str → Str) (build message debug : Str) (c : Command)
    (before after : List (Level × Str)) (w : World) (hw : Writes env.os) (ho : env.os.openFails debug = false)
    (hc : c.target ≠ some debug) (hr : Unread env.libs debug) :
    OnlyAdded render build debug (before ++ after) w
      (mainDebug env render build message debug (some c) before after w) (main env message (some c) w) := by
  simp only [mainDebug, openAppend, ho, main, Bool.false_eq_true, if_false]
  set w1 : World := { w with files := fun n => if n = debug then some (contents w.files debug) else w.files n } with hw1
  have hlines : ∀ ms : List (Level × Str), (rendered render ms).flatMap (fun l => (env.os.write l).1) =
      ms.flatMap fun m => render m.1 m.2 := by
    intro ms
    simp only [rendered, List.flatMap_map]
    congr 1
    funext m
    rw [hw]
  have hold : w1.files debug = some (contents w.files debug) := by simp [hw1]
  have h1 := append_some (os := env.os) (rendered render (greeted build debug ++ before)) hold
  obtain ⟨s1, s2, -⟩ := append_spec env.os debug (rendered render (greeted build debug ++ before)) w1
  have tw : Twin debug (append env.os debug (rendered render (greeted build debug ++ before)) w1) w :=
    ⟨s1, fun n hn => (s2 n hn).trans (by simp [hw1, hn])⟩
  obtain ⟨t1, t2, t3, -⟩ := run_twin env hr c hc tw
  have h2 := append_some (os := env.os) (rendered render after) (t3.trans h1)
  obtain ⟨u1, u2, -⟩ := append_spec env.os debug (rendered render after)
    (c.run env (append env.os debug (rendered render (greeted build debug ++ before)) w1)).world
  have tw2 : Twin debug (append env.os debug (rendered render after)
      (c.run env (append env.os debug (rendered render (greeted build debug ++ before)) w1)).world)
      (c.run env w).world := ⟨u1.trans t1.stdout, fun n hn => (u2 n hn).trans (t1.files n hn)⟩
  rw [t2]
  obtain ⟨f1, f2, f3⟩ := finish_twin env.os (message := message) (c.run env w).result tw2
  refine ⟨?_, f1.files, f1.stdout, f2⟩
  unfold Kept
  rw [f3, h2, hlines, hlines]
  simp [greeted]

/-- **C132, a debug log that is the output** of an inspection: what was in it and the messages are gone, the
description is there, then the messages from after it. -/
theorem C132_inspect (env : Env F N) (render : Level → Str → Str) (build message debug : Str) (c : InspectCmd)
    (before after : List (Level × Str)) (w : World) (hw : Writes env.os) (ho : env.os.openFails debug = false)
    (hc : (Command.inspect c).target = some debug)
    (i : Nat) (hi : (Pg.new env.libpq env.accepts c.server.options).2 = .conn i) (d)
    (hd : Pg.inspect env.parseFloat env.sort (env.serve i) c.sort = .ok d) :
    let r := mainDebug env render build message debug (some (.inspect c)) before after w
    r.1.files debug = some (env.print (Hcl.write env.hcl (Hcl.ofInspect d)) ++
      after.flatMap fun m => render m.1 m.2) ∧ r.2 = 0 := by
  have hw' : ∀ t, env.os.write t = (t, false) := hw
  have hne : ¬ (c.output = [] ∨ c.output = b!"-") := by
    intro h; simp [Command.target, h] at hc
  have hcd : c.output = debug := by simpa [Command.target, hne] using hc
  obtain ⟨n1, n2⟩ := not_or.1 hne
  rw [hcd] at n1 n2
  have hlines : (rendered render after).flatMap (fun l => (env.os.write l).1) =
      after.flatMap fun m => render m.1 m.2 := by
    simp only [rendered, List.flatMap_map]
    congr 1
    funext m
    rw [hw]
  simp only [mainDebug, openAppend, ho, Bool.false_eq_true, if_false, Command.run, InspectCmd.run, withConn, hi, hd,
    runInspect, hcd, if_neg n1, openOutput, openTrunc, ne_eq, n2, not_false_eq_true, if_true, write, hw', End.ofExit,
    finish]
  refine ⟨?_, trivial⟩
  rw [append_some (old := env.print (Hcl.write env.hcl (Hcl.ofInspect d))), hlines]
  simp [setFile, contents]

theorem open_same (os : Os) {name : Str} {w w' : World} (h : Twin name w w') (hn : name ≠ b!"-")
    (ho : os.openFails name = false) :
    ∃ v, openOutput os name w = some (.file name, v) ∧ openOutput os name w' = some (.file name, v) := by
  simp only [openOutput, ne_eq, hn, not_false_eq_true, if_true, openTrunc, ho, Bool.false_eq_true, if_false]
  refine ⟨_, rfl, ?_⟩
  simp only [Option.some.injEq, Prod.mk.injEq, true_and, World.mk.injEq]
  refine ⟨?_, h.stdout.symm⟩
  funext n
  simp only [setFile]
  split
  · rfl
  · next hx => exact (h.files n hx).symm

/-- What is in its output file before makes no difference to a command that gets to open it. -/
theorem run_same (env : Env F N) {name : Str} (c : Command) (hc : c.target = some name)
    (ho : env.os.openFails name = false) {w w' : World} (h : Twin name w w') :
    (c.run env w).result = (c.run env w').result ∧
    ((c.run env w).world = (c.run env w').world ∧ ((c.run env w).world.files name).isSome = true ∨
      (c.run env w).world = w ∧ (c.run env w').world = w' ∧ (c.run env w).result ≠ .ok) := by
  have some_write : ∀ text (v : World), ((write env.os (.file name) text v).1.files name).isSome = true := by
    intro text v; simp [write, setFile]
  cases c with
  | ping s => cases hc
  | list file => cases hc
  | version build long => cases hc
  | inspect c =>
    have hne : ¬ (c.output = [] ∨ c.output = b!"-") := by
      intro e; simp [Command.target, e] at hc
    have hcd : c.output = name := by simpa [Command.target, hne] using hc
    obtain ⟨n1, n2⟩ := not_or.1 hne
    rw [hcd] at n1 n2
    obtain ⟨v, e1, e2⟩ := open_same env.os h n2 ho
    simp only [Command.run, InspectCmd.run, withConn]
    cases (Pg.new env.libpq env.accepts c.server.options).2 with
    | err e => exact ⟨rfl, .inr ⟨rfl, rfl, by simp⟩⟩
    | nilConn => exact ⟨rfl, .inr ⟨rfl, rfl, by simp⟩⟩
    | conn i =>
      cases hd : Pg.inspect env.parseFloat env.sort (env.serve i) c.sort with
      | error e =>
        simp only [hd, runInspect, End.ofExit]
        exact ⟨trivial, .inr ⟨trivial, trivial, by simp⟩⟩
      | ok d =>
        simp only [hd, runInspect, hcd, if_neg n1, e1, e2]
        exact ⟨trivial, .inl ⟨trivial, some_write _ _⟩⟩
  | dot c =>
    have hne : ¬ (c.target = b!"-") := by
      intro e; simp [Command.target, e] at hc
    have hcd : c.target = name := by simpa [Command.target, hne] using hc
    rw [hcd] at hne
    obtain ⟨v, e1, e2⟩ := open_same env.os h hne ho
    have hv : (v.files name).isSome = true := by
      simp only [openOutput, ne_eq, hne, not_false_eq_true, if_true, openTrunc, ho, Bool.false_eq_true, if_false,
        Option.some.injEq, Prod.mk.injEq, true_and] at e1
      rw [← e1]
      simp [setFile]
    simp only [Command.run, DotCmd.run, hcd, e1, e2]
    refine ⟨trivial, .inl ⟨trivial, ?_⟩⟩
    cases env.libs.parse v.files c.file with
    | error e => exact hv
    | ok book => exact some_write _ _
  | eval c =>
    have hne : ¬ (c.output = [] ∨ c.output = b!"-") := by
      intro e; simp [Command.target, e] at hc
    have hcd : c.output = name := by simpa [Command.target, hne] using hc
    obtain ⟨n1, n2⟩ := not_or.1 hne
    rw [hcd] at n1 n2
    obtain ⟨v, e1, e2⟩ := open_same env.os h n2 ho
    have hv : (v.files name).isSome = true := by
      simp only [openOutput, ne_eq, n2, not_false_eq_true, if_true, openTrunc, ho, Bool.false_eq_true, if_false,
        Option.some.injEq, Prod.mk.injEq, true_and] at e1
      rw [← e1]
      simp [setFile]
    simp only [Command.run, EvalCmd.run, hcd, ne_eq, n1, not_false_eq_true, if_true, e1, e2]
    refine ⟨trivial, .inl ⟨trivial, ?_⟩⟩
    cases env.libs.eval v.files c.file (c.useColor env.terminal (.file name)) with
    | error e => exact hv
    | ok text => exact some_write _ _

/-- **C132, a debug log that is the output** of any command: unless the command fails before it opens its output, what
was in the file and all messages from before are lost, and the messages from after are added to the output. -/
theorem C132_same (env : Env F N) (render : Level → Str → Str) (build message debug : Str) (c : Command)
    (before after : List (Level × Str)) (w : World) (hw : Writes env.os) (ho : env.os.openFails debug = false)
    (hc : c.target = some debug) :
    let r := mainDebug env render build message debug (some c) before after w
    let r₀ := main env message (some c) w
    r.2 = r₀.2 ∧ r.1.stdout = r₀.1.stdout ∧ Besides debug r.1.files r₀.1.files ∧
    ((∃ text, r₀.1.files debug = some text ∧
        r.1.files debug = some (text ++ after.flatMap fun m => render m.1 m.2)) ∨
      r.2 ≠ 0 ∧ r₀.1.files debug = w.files debug ∧ Kept render build debug (before ++ after) w r.1) := by
  simp only [mainDebug, openAppend, ho, main, Bool.false_eq_true, if_false]
  set w1 : World := { w with files := fun n => if n = debug then some (contents w.files debug) else w.files n } with hw1
  have hlines : ∀ ms : List (Level × Str), (rendered render ms).flatMap (fun l => (env.os.write l).1) =
      ms.flatMap fun m => render m.1 m.2 := by
    intro ms
    simp only [rendered, List.flatMap_map]
    congr 1
    funext m
    rw [hw]
  have hold : w1.files debug = some (contents w.files debug) := by simp [hw1]
  have h1 := append_some (os := env.os) (rendered render (greeted build debug ++ before)) hold
  obtain ⟨s1, s2, -⟩ := append_spec env.os debug (rendered render (greeted build debug ++ before)) w1
  have tw : Twin debug (append env.os debug (rendered render (greeted build debug ++ before)) w1) w :=
    ⟨s1, fun n hn => (s2 n hn).trans (by simp [hw1, hn])⟩
  obtain ⟨t2, t⟩ := run_same env c hc ho tw
  obtain ⟨u1, u2, -⟩ := append_spec env.os debug (rendered render after)
    (c.run env (append env.os debug (rendered render (greeted build debug ++ before)) w1)).world
  have t1 : Twin debug (c.run env (append env.os debug (rendered render (greeted build debug ++ before)) w1)).world
      (c.run env w).world := by
    rcases t with ⟨t, -⟩ | ⟨t, t', -⟩
    · rw [t]; exact ⟨rfl, fun _ _ => rfl⟩
    · rw [t, t']; exact tw
  have tw2 : Twin debug (append env.os debug (rendered render after)
      (c.run env (append env.os debug (rendered render (greeted build debug ++ before)) w1)).world)
      (c.run env w).world := ⟨u1.trans t1.stdout, fun n hn => (u2 n hn).trans (t1.files n hn)⟩
  obtain ⟨f1, f2, f3⟩ := finish_twin env.os (message := message) (c.run env w).result tw2
  have f4 : (finish env.os message (c.run env w).result (c.run env w).world).1.files = (c.run env w).world.files :=
    (finish_twin env.os (name := debug) (message := message) (c.run env w).result
      (w := (c.run env w).world) (w' := (c.run env w).world) ⟨rfl, fun _ _ => rfl⟩).2.2
  rw [← t2] at f1 f2 f3 f4 ⊢
  refine ⟨f2, f1.stdout, f1.files, ?_⟩
  rcases t with ⟨t, t'⟩ | ⟨t, t', t''⟩
  · left
    rw [f4, f3, ← t]
    obtain ⟨text, ht⟩ := Option.isSome_iff_exists.1 t'
    exact ⟨text, ht, by rw [append_some _ ht, hlines]⟩
  · right
    refine ⟨?_, by rw [f4, t'], ?_⟩
    · revert t''
      cases (c.run env (append env.os debug (rendered render (greeted build debug ++ before)) w1)).result <;>
        simp [finish]
    · unfold Kept
      rw [f3, t, append_some _ h1, hlines, hlines]
      simp [greeted]

/-- **C132, a refused command line.** Nothing is logged, but the file is there. -/
theorem C132_refused_line (env : Env F N) (render : Level → Str → Str) (build message debug : Str)
    (before after : List (Level × Str)) (w : World) (ho : env.os.openFails debug = false) :
    let r := mainDebug env render build message debug none before after w
    r.2 = 1 ∧ r.1.files debug = some (contents w.files debug) ∧ Besides debug r.1.files w.files := by
  simp only [mainDebug, openAppend, ho, Bool.false_eq_true, if_false, finish, write]
  exact ⟨trivial, by simp, fun n hn => by simp [hn]⟩

/-- **C132, a debug log that cannot be opened.** The command is not run. -/
theorem C132_unopened (env : Env F N) (render : Level → Str → Str) (build message debug : Str) (parsed : Option Command)
    (before after : List (Level × Str)) (w : World) (ho : env.os.openFails debug = true) :
    let r := mainDebug env render build message debug parsed before after w
    r.2 = 1 ∧ r.1.files = w.files := by
  simp only [mainDebug, openAppend, ho, if_true, finish, write]
  exact ⟨trivial, trivial⟩

/-- An inspection of `shop` into `shop.hcl`. -/
def shopCmd : InspectCmd :=
  { server := { host := b!"db", sslMode := b!"require" }, output := b!"shop.hcl", sort := { sortColumns := true } }

/-- Libraries that find a runbook in a file that says `{}`. -/
def bracesEnv : Env Int Int :=
  { shopEnv with
    libs :=
      { parse := fun files name => if files name = some b!"{}" then .ok { targets := [], tasks := [] } else .error ()
        eval := fun _ _ _ => .error ()
        graph := fun _ _ => [] } }

/-- **C132 refuted**, both ways: the description of `shop` goes to the debug log, what was there is gone; the debug log
is the runbook, it is not a runbook any more when it is read. -/
theorem C132_refuted :
    (∃ (debug : Str) (c : Command) (w : World), c.target = some debug ∧
      ¬ OnlyAdded (fun _ m => m ++ b!"\n") b!"1.0" debug [] w
        (mainDebug shopEnv (fun _ m => m ++ b!"\n") b!"1.0" [] debug (some c) [] [] w)
        (main shopEnv [] (some c) w)) ∧
    (∃ (debug : Str) (c : Command) (w : World), c.target = none ∧
      ¬ OnlyAdded (fun _ m => m ++ b!"\n") b!"1.0" debug [] w
        (mainDebug bracesEnv (fun _ m => m ++ b!"\n") b!"1.0" [] debug (some c) [] [] w)
        (main bracesEnv [] (some c) w)) := by
  constructor
  · by_contra hn
    push Not at hn
    obtain ⟨d, hd⟩ := shop_inspects
    have same := fun w : World => C132_inspect shopEnv (fun _ m => m ++ b!"\n") b!"1.0" [] b!"shop.hcl" shopCmd [] []
      w (fun _ => rfl) rfl (by decide) 0 (by decide +kernel) d hd
    have h1 := (hn b!"shop.hcl" (.inspect shopCmd) { files := fun _ => none } (by decide)).log
    have h2 := (hn b!"shop.hcl" (.inspect shopCmd) { files := fun _ => some b!"old" } (by decide)).log
    unfold Kept at h1 h2
    rw [(same _).1] at h1 h2
    rw [h1] at h2
    revert h2
    decide +kernel
  · refine ⟨b!"book", .list b!"book", { files := fun _ => some b!"{}" }, rfl, fun h => ?_⟩
    exact absurd h.status (by decide +kernel)

/-- The hypotheses of C132_debug_partial and of C132_inspect are met. -/
example : Writes shopEnv.os ∧ Unread shopEnv.libs b!"log" ∧ (Command.inspect shopCmd).target ≠ some b!"log" ∧
    (Command.inspect shopCmd).target = some b!"shop.hcl" ∧
    (Pg.new shopEnv.libpq shopEnv.accepts shopCmd.server.options).2 = .conn 0 :=
  ⟨fun _ => rfl, fun _ _ _ => ⟨rfl, rfl⟩, by decide, by decide, by decide +kernel⟩

/-- A runbook that is listed with a debug log. -/
example : Unread shopEnv.libs b!"log" ∧
    (mainDebug bracesEnv (fun _ m => m ++ b!"\n") b!"1.0" [] b!"log" (some (.list b!"book")) [] []
      { files := fun n => if n = b!"book" then some b!"{}" else some b!"old\n" }).1.files b!"log" =
    some b!"old\nlogging to: log\npgutil version=1.0\n" :=
  ⟨fun _ _ _ => ⟨rfl, rfl⟩, by decide +kernel⟩

end Verif.Main
