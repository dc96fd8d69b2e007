import Verif.Cli.Reject
import Verif.Main.Exit

/-!
# C100: command lines
-/

namespace Verif.Cli
open Verif Main Spec
open Cmd (World)


/-- **C100.** Every command line of the usual form is understood: if the options make sense together the
command asked for is the one that runs, with each option as it was given and the defaults for the others,
at a verbosity that counts `-v` up and `-q` down; otherwise it is a usage error. -/
theorem C100_command_lines (k : Checks) (build : Str) (c : Name) (os : List Opt) (args : List Str)
    (h : Line c os args) :
    (Sensible k c os → parse k build args = .ok (meaning k build c os)) ∧
    (¬ Sensible k c os → parse k build args = .error) := by
  obtain ⟨h1, h2⟩ := parse_line (k := k) h
  refine ⟨fun hs => ?_, fun hs => by rw [parse, h2 hs]⟩
  have ht := (line_rounds h).1
  obtain ⟨i1, i2, i3⟩ := init_debug c os
  have e1 := fold_asked (k := k) (c := c) Vars.debug Opt.debug? (os := os)
    (fun o ho a => step_debug o a (ht o ho) (hs.values o ho)) (init c os)
  have e2 := fold_count (k := k) (c := c) Vars.brevity .quiet (os := os)
    (fun o ho a => step_quiet o a (ht o ho) (hs.values o ho)) (init c os)
  have e3 := fold_count (k := k) (c := c) Vars.verbosity .verbose (os := os)
    (fun o ho a => step_verbose o a (ht o ho) (hs.values o ho)) (init c os)
  have e4 := stored_request ht hs build
  rw [i1, Option.or_none] at e1
  rw [i2, Nat.zero_add] at e2
  rw [i3, Nat.zero_add] at e3
  rw [parse, h1 hs]
  simp only [meaning, ← e1, ← e2, ← e3, ← e4]
  cases c <;> rfl

/-- **C100, end to end.** A command line of the usual form for any command but `runbook run`: `pgutil`
exits with status 0 only if the options make sense together and the command has done the job they
describe; otherwise it exits with status 1 and the last thing it printed is the error. If the options
make no sense together nothing else has happened. (As long as writing does not fail: see C96.) -/
theorem C100_end_to_end {F N : Type} (env : Env F N) (hw : Main.Spec.Writes env.os) (k : Checks)
    (build message : Str) (c : Name) (hc : c ≠ .run) (os : List Opt) (args : List Str) (w : World)
    (h : Line c os args) :
    ∃ w' code, pgutil env k build message args w = some (w', code) ∧
      ((code = 0 ∧ Sensible k c os ∧
          ∃ cmd, request k build os c = .command cmd ∧ Main.Spec.Done env w w' cmd) ∨
       (code = 1 ∧ ∃ out, w'.stdout = w.stdout ++ out ++ message ++ b!"\n" ∧
          (¬ Sensible k c os → out = [] ∧ w'.files = w.files))) := by
  obtain ⟨h1, h2⟩ := C100_command_lines k build c os args h
  by_cases hs : Sensible k c os
  · obtain ⟨cmd, hcmd⟩ : ∃ cmd, request k build os c = .command cmd := by
      cases c <;> first | exact ⟨_, rfl⟩ | exact absurd rfl hc
    refine ⟨(main env message (some cmd) w).1, (main env message (some cmd) w).2, ?_, ?_⟩
    · rw [pgutil, h1 hs]
      simp only [meaning, hcmd]
    · rcases C96_exit_status_partial env hw message cmd w _ _ rfl with ⟨e, hd⟩ | ⟨e, out, ho⟩
      · exact .inl ⟨e, hs, cmd, hcmd, hd⟩
      · exact .inr ⟨e, out, ho, fun hn => absurd hs hn⟩
  · refine ⟨{ w with stdout := w.stdout ++ (message ++ b!"\n") }, 1, ?_,
      .inr ⟨rfl, [], by simp, fun _ => ⟨rfl, rfl⟩⟩⟩
    rw [pgutil, h2 hs]
    simp only [C96_usage env hw]

/-- **C100, wrong command lines.** A command line without a command or with an unknown one, with an
option the command does not have (or one that comes before its command), or with a word more than the
command takes, is a usage error, whatever follows: the program prints the error, exits with status 1 and
does nothing else. -/
theorem C100_wrong {F N : Type} (env : Env F N) (hw : Main.Spec.Writes env.os) (k : Checks)
    (build message : Str) (args : List Str) (h : Wrong args) (w : World) :
    parse k build args = .error ∧
    pgutil env k build message args w =
      some ({ w with stdout := w.stdout ++ (message ++ b!"\n") }, 1) := by
  have hp : parse k build args = .error := by rw [parse, reject_wrong k h]
  refine ⟨hp, ?_⟩
  rw [pgutil, hp]
  simp only [C96_usage env hw]

/-! ## Examples -/

/-- `pgutil -vv inspect -h db --port=5432 -ofile --sort-columns`. -/
def inspectArgs : List Str :=
  [b!"-vv", b!"inspect", b!"-h", b!"db", b!"--port=5432", b!"-ofile", b!"--sort-columns"]

def inspectOpts : List Opt :=
  [.verbose, .verbose, .host b!"db", .port b!"5432", .output b!"file", .sortColumns]

theorem inspect_line : Line .inspect inspectOpts inspectArgs := by
  refine .top (pre := [.verbose, .verbose]) (a := [b!"-vv"]) (word := b!"inspect") (by decide +kernel)
    (by simp [Global]) (by simp [Takes]) ?_ ?_
  · exact .together rfl rfl (by decide) (.cons (w := [b!"-v"]) (.letter rfl rfl) .nil)
  · exact .cons (w := [b!"-h", b!"db"]) (.short rfl rfl (plain_word (by decide)))
      (.cons (w := [b!"--port=5432"]) (.longEq (n := b!"port") rfl rfl)
        (.cons (w := [b!"-ofile"]) (.joined rfl rfl (by decide))
          (.cons (w := [b!"--sort-columns"]) (.switch rfl rfl) .nil)))

/-- Its options make sense. -/
example (k : Checks) (hk : k.uint16 b!"5432" = some 5432) :
    Sensible k .inspect inspectOpts ∧
    meaning k b!"" .inspect inspectOpts =
      ⟨none, 3, .command (.inspect
        { server := { host := b!"db", port := 5432 }, output := b!"file",
          sort := { sortColumns := true } })⟩ := by
  refine ⟨⟨?_, ?_, fun h => absurd h id⟩, ?_⟩
  · simp [inspectOpts, Acceptable, hk]
  · simp [inspectOpts, SameThing]
  · simp [meaning, request, server, outputOf, asked, inspectOpts, Opt.debug?, Opt.host?, Opt.port?,
      Opt.dbname?, Opt.username?, Opt.sslmode?, Opt.output?, hk, List.findSome?]

/-- `pgutil -q runbook -v words.jsonnet`: `run` is left out. -/
example (k : Checks) (hk : k.isFile b!"words.jsonnet" = true) :
    ∃ os, Line .run os [b!"-q", b!"runbook", b!"-v", b!"words.jsonnet"] ∧ Sensible k .run os ∧
      meaning k b!"" .run os = ⟨none, 1, .run b!"words.jsonnet"⟩ := by
  refine ⟨[.quiet, .verbose, .file b!"words.jsonnet"], ?_, ⟨?_, ?_, fun _ => ⟨b!"words.jsonnet", by simp⟩⟩, ?_⟩
  · refine .run (pre := [.quiet]) (a := [b!"-q"]) (b := [b!"-v", b!"words.jsonnet"]) (by simp [Global])
      (by simp [Takes]) ?_ (.cons (w := [b!"-q"]) (.letter rfl rfl) .nil)
      (.cons (w := [b!"-v"]) (.letter rfl rfl)
        (.cons (w := [b!"words.jsonnet"]) (.file (plain_word (by decide))) .nil))
    intro v hv c
    simp only [List.mem_cons, reduceCtorEq, Opt.file.injEq, List.not_mem_nil, or_false, false_or] at hv
    subst hv
    cases c <;> decide +kernel
  · simp [Acceptable, hk]
  · simp [SameThing]
  · rfl

/-- `pgutil ping --sslmode maybe` and `pgutil runbook ls` make no sense. -/
example (k : Checks) :
    (Line .ping [.sslmode b!"maybe"] [b!"ping", b!"--sslmode", b!"maybe"] ∧
      ¬ Sensible k .ping [.sslmode b!"maybe"]) ∧
    Line .list [] [b!"runbook", b!"ls"] ∧ ¬ Sensible k .list [] := by
  refine ⟨⟨?_, ?_⟩, ?_, ?_⟩
  · exact .top (pre := []) (a := []) (word := b!"ping") (by decide +kernel) (by simp) (by simp [Takes]) .nil
      (.cons (w := [b!"--sslmode", b!"maybe"]) (.long rfl rfl (plain_word (by decide))) .nil)
  · intro h
    have := h.values _ (List.mem_singleton.2 rfl)
    simp [Acceptable] at this
  · exact .sub (pre := []) (mid := []) (post := []) (a := []) (b := []) (d := []) (word := b!"ls")
      (by decide +kernel) (by simp) (by simp) (by simp) .nil .nil .nil
  · intro h
    obtain ⟨v, hv⟩ := h.file trivial
    cases hv

/-- Wrong command lines: none, `pgutil start`, `pgutil -h db ping`, `pgutil ping --output=x y` and
`pgutil -vv inspect -h db --port=5432 -ofile --sort-columns extra`. -/
example : Wrong [] ∧ Wrong [b!"start"] ∧ Wrong [b!"-h", b!"db", b!"ping"] ∧
    Wrong [b!"ping", b!"--output=x", b!"y"] ∧ Wrong (inspectArgs ++ [b!"extra"]) := by
  refine ⟨.nothing (pre := []) (by simp) .nil,
    .command (pre := []) (a := []) (by simp) .nil (plain_word (by decide)) (by decide) (by decide),
    .early (pre := []) (a := []) (by simp) .nil (.letter (rest := []) (by decide) ?_), ?_,
    .surplus inspect_line id (plain_word (by decide))⟩
  · intro o ho
    cases o <;> first | exact absurd ho id | simp [Opt.letter]
  · refine .option (c := .ping) (os := []) (args := [b!"ping"]) ?_
      (.longEq (n := b!"output") (v := b!"x") (by decide) (by decide) ?_ (by decide) ?_)
    · exact .top (pre := []) (a := []) (post := []) (b := []) (word := b!"ping") (by decide +kernel)
        (by simp) (by simp) .nil .nil
    · intro o ho
      cases o <;> first | exact absurd ho id | simp [Opt.name]
    · simp

end Verif.Cli
