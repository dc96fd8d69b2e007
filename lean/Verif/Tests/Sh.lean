import Verif.Sh.Model
import Verif.Demo.Model
import Verif.Book.Model
import Verif.Cmd.Log
import Verif.Run.Examples
import Verif.Cmd.ListProps

/-!
# The tests of /repo/internal/runbook/{sh,pg,demo} and of the log, on the model
-/

namespace Verif.Tests
open Verif

/-- sh/exec_internal_test.go `TestValidateArg0`. -/
example : Sh.validateArg0 b!"echo" = none ∧ (Sh.validateArg0 b!"scripts/do-something-magic").isSome = true ∧
    Sh.validateArg0 b!"./scripts/do-something-magic" = none ∧ Sh.validateArg0 b!"../scripts/do-something-magic" = none ∧
    Sh.validateArg0 b!"/sbin/halt" = none := by decide +kernel

/-- env_test.go:14-17. -/
def environ : List Str := [b!"USER=sjansen", b!"HOME=/home/sjansen"]

/-- sh/env_test.go `TestEnv`. -/
example :
    Sh.Env.apply {} environ = environ ∧
    Sh.Env.apply { allow := [b!"USER"] } environ = [b!"USER=sjansen"] ∧
    Sh.Env.apply { deny := [b!"USER"] } environ = [b!"HOME=/home/sjansen"] ∧
    Sh.Env.apply { set := [(b!"USER", b!"root"), (b!"HOME", b!"/root")] } environ = [b!"USER=root", b!"HOME=/root"] ∧
    Sh.Env.apply { allow := [b!"HOME"], set := [(b!"FOO", b!"bar")] } environ = [b!"HOME=/home/sjansen", b!"FOO=bar"] ∧
    Sh.Env.apply { deny := [b!"USER"], set := [(b!"FOO", b!"baz")] } environ = [b!"HOME=/home/sjansen", b!"FOO=baz"] := by
  decide +kernel

/-- sh/sh_test.go `TestTasks`, up to what the commands do: which are accepted, and what is run. -/
example :
    (Sh.Exec.check {}).isSome = true ∧
    Sh.Exec.check { args := [b!"false"] } = none ∧ Sh.Exec.check { args := [b!"true"] } = none ∧
    Sh.Exec.check { args := [b!"echo", b!"Spoon!"] } = none ∧
    Sh.Exec.command { args := [b!"echo", b!"Spoon!"] } {} = some ⟨b!"echo", [b!"Spoon!"], [], []⟩ := by decide +kernel

/-- pg/pg_test.go `TestTasks`, up to what the server does: which tasks are accepted. -/
example : (∃ e, Book.Config.check (.pgExec []) = .error e) ∧
    (∃ c, Book.Config.check (.pgExec b!"SELECT now()") = .ok c) ∧
    Book.Target.analyze (.pg {}) = none := ⟨⟨_, rfl⟩, ⟨_, rfl⟩, rfl⟩

/-- demo/demo_test.go `TestStrBuf`, and taskset/demo/demo_test.go, which is the same. -/
example :
    let t : Demo.Target := { string := b!"!abbcF" }
    Book.Target.analyze (.demo t) = none ∧ t.stdout = [] ∧
    let t1 := Demo.echo t
    t1.stdout = b!"!abbcF\n" ∧
    ∃ t2, Demo.rev t1 = some t2 ∧ t2.string = b!"Fcbba!" ∧
    let t3 := Demo.rot13 t2
    t3.string = b!"Spoon!" ∧ (Demo.echo t3).stdout = b!"!abbcF\nSpoon!\n" :=
  ⟨by decide +kernel, by decide +kernel, by decide +kernel, ⟨b!"!abbcF\n", b!"Fcbba!"⟩, by decide +kernel⟩

/-- logger/logger_test.go `TestNew`: the message at level debug is in the debug log only, the warning also in the
default log. -/
example (render : Cmd.Level → Str → Str) (h : ∀ l m, render l m ≠ []) (msg : Str) :
    let log : Cmd.Logger := { level := Cmd.levelOf 1, debugLog := true }
    let s := log.log render .debug msg {}
    s.stdout = [] ∧ s.debug ≠ [] ∧ (log.log render .warn msg s).stdout ≠ [] := by
  simp [Cmd.Logger.log, Cmd.levelOf, Cmd.Level.toInt, h]

/-- runbook_test.go `TestParse`. -/
example (basedir : Str) : Book.parse Run.textConfig basedir Run.messageSrc = .ok Run.messageBook := rfl

/-- commands/runbook_list_test.go `TestRunBookList`. -/
example : Cmd.runList Run.messageBook =
    b!"Tasks & Targets:\n  decrypted  demo\n  encrypted  demo\n  reverse    demo\n  rotate     demo\n" := by
  decide +kernel

end Verif.Tests
