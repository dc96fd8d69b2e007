import Verif.Cmd.Log

/-!
# C65, C70: verbosity, logs and standard output
-/

namespace Verif.Cmd
open Verif

/-- How high the verbosity has to be for messages of a level. -/
def Level.threshold : Level → Option Int
  | .error => none
  | .warn => some 1
  | .info => some 2
  | .debug => some 3

/-- A message of level `lvl` is shown at verbosity `v`: errors always, others from their threshold
on. -/
def Shown (v : Int) (lvl : Level) : Prop :=
  match lvl.threshold with
  | none => True
  | some n => n ≤ v

instance (v : Int) (lvl : Level) : Decidable (Shown v lvl) := by
  unfold Shown; cases lvl.threshold <;> infer_instance

/-- What a command's actions add to standard output if logs are shown at verbosity `v`. -/
def stdoutOf (render : Level → Str → Str) (v : Int) (acts : List Act) : Str :=
  acts.flatMap fun
    | .log lvl msg => if Shown v lvl then render lvl msg else []
    | .print text => text

/-- All messages, as in a complete log. -/
def logOf (render : Level → Str → Str) (acts : List Act) : Str :=
  acts.flatMap fun
    | .log lvl msg => render lvl msg
    | .print _ => []

/-- The text a command prints as its result. -/
def resultOf (acts : List Act) : Str :=
  acts.flatMap fun
    | .log _ _ => []
    | .print text => text

/-- The messages every run begins with. -/
def greeting (version : Str) (debugLog : Option Str) : List Act :=
  (match debugLog with
    | none => []
    | some name => [.log .info (b!"logging to: " ++ name)]) ++
  [.log .info (b!"pgutil version=" ++ version)]

section lemmas

theorem shown_iff (v : Int) (lvl : Level) : (levelOf v).toInt ≤ lvl.toInt ↔ Shown v lvl := by
  unfold levelOf Shown Level.threshold
  split
  · cases lvl <;> simp [Level.toInt] <;> omega
  · split
    · cases lvl <;> simp [Level.toInt] <;> omega
    · split
      · cases lvl <;> simp [Level.toInt] <;> omega
      · cases lvl <;> simp [Level.toInt] <;> omega

theorem log_spec (render : Level → Str → Str) (v : Int) (dbg : Bool) (lvl : Level) (msg : Str)
    (s : Sinks) : Logger.log render { level := levelOf v, debugLog := dbg } lvl msg s =
      { stdout := s.stdout ++ (if Shown v lvl then render lvl msg else []),
        debug := s.debug ++ (if dbg then render lvl msg else []) } := by
  have hd : Level.debug.toInt ≤ lvl.toInt := by cases lvl <;> decide
  unfold Logger.log
  simp only [shown_iff, hd, decide_true, Bool.and_true]
  by_cases h : Shown v lvl <;> cases dbg <;> simp [h]

theorem runActs_spec (render : Level → Str → Str) (v : Int) (dbg : Bool) (acts : List Act)
    (s : Sinks) : runActs render { level := levelOf v, debugLog := dbg } acts s =
      { stdout := s.stdout ++ stdoutOf render v acts,
        debug := s.debug ++ (if dbg then logOf render acts else []) } := by
  induction acts generalizing s with
  | nil => cases dbg <;> simp [runActs, stdoutOf, logOf]
  | cons a acts ih =>
    cases a with
    | log lvl msg =>
      rw [runActs, ih, log_spec]
      cases dbg <;> simp [stdoutOf, logOf]
    | print text =>
      rw [runActs, ih]
      cases dbg <;> simp [stdoutOf, logOf]

theorem runCli_spec (render : Level → Str → Str) (version : Str) (v q : Nat) (debugLog : Option Str)
    (cmd : List Act) : runCli render version v q debugLog cmd =
      { stdout := stdoutOf render (1 + v - q) (greeting version debugLog ++ cmd),
        debug := if debugLog.isSome then logOf render (greeting version debugLog ++ cmd) else [] } := by
  unfold runCli newLogger greeting
  cases debugLog with
  | none => simp only [runActs_spec, log_spec]; simp [stdoutOf]
  | some name => simp only [runActs_spec, log_spec]; simp [stdoutOf, logOf]

end lemmas

/-- C65. With `v` verbose and `q` quiet flags, a run writes to the default log exactly the messages whose
threshold `1 + v - q` reaches, in order; with a debug log, all messages are also written there, and
without one nothing is. -/
theorem C65_verbosity (render : Level → Str → Str) (version : Str) (v q : Nat)
    (debugLog : Option Str) (cmd : List Act) :
    (runCli render version v q debugLog cmd).stdout =
      stdoutOf render (1 + v - q) (greeting version debugLog ++ cmd) ∧
    (∀ name, debugLog = some name → (runCli render version v q debugLog cmd).debug =
      logOf render (greeting version debugLog ++ cmd)) ∧
    (debugLog = none → (runCli render version v q debugLog cmd).debug = []) := by
  rw [runCli_spec]
  refine ⟨rfl, ?_, ?_⟩
  · rintro name rfl; rfl
  · rintro rfl; rfl

/-- More verbosity never hides a message. -/
theorem C65_monotone (v w : Int) (lvl : Level) (h : v ≤ w) : Shown v lvl → Shown w lvl := by
  unfold Shown
  cases lvl <;> simp [Level.threshold] <;> omega

/-- At the default verbosity warnings are shown and information is not. -/
example : Shown (1 + 0 - 0) .warn ∧ ¬ Shown (1 + 0 - 0) .info := by decide

example : (runCli (fun _ m => m ++ b!"\n") b!"1.0" 2 0 none
      [.log .debug b!"query", .print b!"result\n", .log .warn b!"careful"]).stdout =
    b!"pgutil version=1.0\nquery\nresult\ncareful\n" ∧
    (runCli (fun _ m => m ++ b!"\n") b!"1.0" 0 0 (some b!"x.log")
      [.log .debug b!"query", .print b!"result\n", .log .warn b!"careful"]) =
    { stdout := b!"result\ncareful\n",
      debug := b!"logging to: x.log\npgutil version=1.0\nquery\ncareful\n" } := by
  decide +kernel

/-- C70 is false of the code: log messages go to standard output as well. From one more `-v` than `-q`
on, every command's standard output has log lines in it, before its result and in between. -/
theorem C70_refuted (render : Level → Str → Str) (hr : ∀ l m, render l m ≠ []) (version : Str)
    (v q : Nat) (debugLog : Option Str) (cmd : List Act) (h : q < v) :
    (runCli render version v q debugLog cmd).stdout ≠ resultOf cmd := by
  rw [runCli_spec]
  have hs : Shown (1 + v - q) .info := by simp only [Shown, Level.threshold]; omega
  have hle : ∀ acts : List Act,
      (resultOf acts).length ≤ (stdoutOf render (1 + v - q) acts).length := by
    intro acts
    induction acts with
    | nil => simp [resultOf]
    | cons a acts ih =>
      simp only [resultOf, stdoutOf] at ih ⊢
      cases a <;> simp only [List.flatMap_cons, List.length_append, List.length_nil] <;> omega
  intro he
  have hlen := congrArg List.length he
  simp only at hlen
  have happ : ∀ a b : List Act, stdoutOf render (1 + v - q) (a ++ b) =
      stdoutOf render (1 + v - q) a ++ stdoutOf render (1 + v - q) b := fun a b => by
    simp [stdoutOf]
  have hpos : 0 < (stdoutOf render (1 + v - q) (greeting version debugLog)).length := by
    have h1 := List.length_pos_iff.2 (hr .info (b!"pgutil version=" ++ version))
    unfold greeting
    rw [happ]
    simp only [stdoutOf, hs, List.length_append, if_true, List.flatMap_cons, List.flatMap_nil]
    omega
  rw [happ, List.length_append] at hlen
  have := hle cmd
  omega

/-- The hypotheses are met: `-v` with the format of zap's console encoder in outline. -/
example : (∀ (l : Level) (m : Str), (fun _ m => m ++ b!"\n") l m ≠ ([] : Str)) ∧ 0 < 1 :=
  ⟨by simp, by decide⟩

/-- C70, the part that holds: standard output is exactly the command's result if the command logs
nothing that is shown and no more `-v` than `-q` are given. What is missing: higher verbosity. -/
theorem C70_stdout_is_result_partial (render : Level → Str → Str) (version : Str) (v q : Nat)
    (debugLog : Option Str) (cmd : List Act) (h : v ≤ q)
    (hc : ∀ lvl msg, Act.log lvl msg ∈ cmd → ¬ Shown (1 + v - q) lvl) :
    (runCli render version v q debugLog cmd).stdout = resultOf cmd := by
  rw [runCli_spec]
  have hs : ¬ Shown (1 + v - q) .info := by simp only [Shown, Level.threshold]; omega
  have hg : stdoutOf render (1 + v - q) (greeting version debugLog) = [] := by
    unfold greeting
    cases debugLog <;> simp [stdoutOf, hs]
  have happ : stdoutOf render (1 + v - q) (greeting version debugLog ++ cmd) =
      stdoutOf render (1 + v - q) (greeting version debugLog) ++ stdoutOf render (1 + v - q) cmd := by
    simp [stdoutOf]
  simp only [happ, hg, List.nil_append]
  clear happ
  induction cmd with
  | nil => rfl
  | cons a cmd ih =>
    have ih := ih fun lvl msg hm => hc lvl msg (by simp [hm])
    simp only [stdoutOf, resultOf] at ih ⊢
    rw [List.flatMap_cons, List.flatMap_cons, ih]
    cases a with
    | log lvl msg => simp [hc lvl msg (by simp)]
    | print t => rfl

example : ∀ lvl msg, Act.log lvl msg ∈ [Act.log .info b!"connecting", .print b!"PostgreSQL 11\n"] →
    ¬ Shown (1 + (0 : Nat) - (0 : Nat)) lvl := by
  intro lvl msg h
  simp only [List.mem_cons, Act.log.injEq, reduceCtorEq, List.not_mem_nil, or_false] at h
  rcases h with ⟨rfl, -⟩
  decide

/-- **C70, exactly**: standard output is the command's result if and only if no more `-v` than `-q` are given and
the command logs nothing that is shown. -/
theorem C70_exact (render : Level → Str → Str) (hr : ∀ l m, render l m ≠ []) (version : Str)
    (v q : Nat) (debugLog : Option Str) (cmd : List Act) :
    (runCli render version v q debugLog cmd).stdout = resultOf cmd ↔
      v ≤ q ∧ ∀ lvl msg, Act.log lvl msg ∈ cmd → ¬ Shown (1 + v - q) lvl := by
  constructor
  · intro he
    have hv : v ≤ q := by
      by_contra hc
      exact C70_refuted render hr version v q debugLog cmd (by omega) he
    refine ⟨hv, fun lvl msg hm hs => ?_⟩
    rw [runCli_spec] at he
    have hlen := congrArg List.length he
    have hle : ∀ acts : List Act,
        (resultOf acts).length ≤ (stdoutOf render (1 + v - q) acts).length := by
      intro acts
      induction acts with
      | nil => simp [resultOf]
      | cons a acts ih =>
        simp only [resultOf, stdoutOf] at ih ⊢
        cases a <;> simp only [List.flatMap_cons, List.length_append, List.length_nil] <;> omega
    have happ : ∀ a b : List Act, stdoutOf render (1 + v - q) (a ++ b) =
        stdoutOf render (1 + v - q) a ++ stdoutOf render (1 + v - q) b := fun a b => by
      simp [stdoutOf]
    have hres : ∀ a b : List Act, resultOf (a ++ b) = resultOf a ++ resultOf b := fun a b => by
      simp [resultOf]
    obtain ⟨pre, post, rfl⟩ := List.append_of_mem hm
    have e1 : stdoutOf render (1 + v - q) (.log lvl msg :: post) =
        render lvl msg ++ stdoutOf render (1 + v - q) post := by simp [stdoutOf, hs]
    have e2 : resultOf (.log lvl msg :: post) = resultOf post := by simp [resultOf]
    simp only [happ, hres, e1, e2, List.length_append] at hlen
    have h1 := hle pre
    have h2 := hle post
    have h3 := List.length_pos_iff.2 (hr lvl msg)
    omega
  · rintro ⟨h, hc⟩
    exact C70_stdout_is_result_partial render version v q debugLog cmd h hc

end Verif.Cmd
