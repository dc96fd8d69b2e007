import Verif.Cli.Props

/-!
# The tests of /repo/internal/cli and /repo/internal/commands, on the model
-/

namespace Verif.Tests
open Verif Verif.Cli Verif.Main Verif.Cmd

/-- Where the tests run there is a file testdata/foo; the port they use. -/
def checks : Checks :=
  ⟨fun s => if s = b!"2222" then some 2222 else none, fun _ => true, fun s => s == b!"testdata/foo"⟩

/-- What runs. -/
def request (args : List Str) : Res Request :=
  match parse checks b!"test" args with
  | .ok p => .ok p.request
  | .error => .error
  | .help => .help
  | .file => .file

/-- cli_internal_test.go `TestArgParser`. -/
example :
    request [b!"ping"] = .ok (.command (.ping {})) ∧
    request [b!"ping", b!"-h", b!"ssh.example.com", b!"-p", b!"2222", b!"-d", b!"template1", b!"-U", b!"postgres"] =
      .ok (.command (.ping { host := b!"ssh.example.com", port := 2222, dbName := b!"template1", username := b!"postgres" })) ∧
    request [b!"ping", b!"--host", b!"ssh.example.com", b!"--port", b!"2222", b!"--dbname", b!"template1", b!"--username",
        b!"postgres"] =
      .ok (.command (.ping { host := b!"ssh.example.com", port := 2222, dbName := b!"template1", username := b!"postgres" })) ∧
    request [b!"runbook"] = .error ∧
    request [b!"runbook", b!"testdata/foo"] = .ok (.run b!"testdata/foo") ∧
    request [b!"runbook", b!"dot", b!"testdata/foo"] = .ok (.command (.dot { file := b!"testdata/foo" })) ∧
    request [b!"runbook", b!"eval", b!"testdata/foo"] =
      .ok (.command (.eval { file := b!"testdata/foo", color := b!"auto" })) ∧
    request [b!"runbook", b!"list", b!"testdata/foo"] = .ok (.command (.list b!"testdata/foo")) ∧
    request [b!"runbook", b!"ls", b!"testdata/foo"] = .ok (.command (.list b!"testdata/foo")) ∧
    request [b!"runbook", b!"run", b!"testdata/foo"] = .ok (.run b!"testdata/foo") ∧
    request [b!"runbook", b!"run", b!"testdata/nonexistent"] = .error := by
  refine ⟨?_, ?_, ?_, ?_, ?_, ?_, ?_, ?_, ?_, ?_, ?_⟩ <;> rfl

/-- version_test.go `TestVersion`: the command. -/
example :
    request [b!"version"] = .ok (.command (.version b!"test" false)) ∧
    request [b!"version", b!"--long"] = .ok (.command (.version b!"test" true)) := ⟨rfl, rfl⟩

end Verif.Tests
