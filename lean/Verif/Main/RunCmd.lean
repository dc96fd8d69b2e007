import Verif.Json.Docs

/-!
# Model of `/repo/main.go` with `runbook run`
-/

namespace Verif.Main
open Verif

/-- `runbook run` on a file that evaluates to `doc` ends with this status, having
printed `out`: main.go:24-29 with commands/runbook.go:18-21. Writing to standard output does not fail
(as in `Verif.Run`). -/
inductive RunEnds (tx : Json.Text) (basedir : Str) (proc : Run.Proc) (doc : Json.Value) : Nat → Str → Prop
  | rejected {e : Book.Err} (message : Str) (h : Json.Runs tx basedir proc doc (.rejected e)) :
      RunEnds tx basedir proc doc 1 (message ++ b!"\n")
  | panicked (out : Str) (h : Json.Runs tx basedir proc doc .panicked) :
      RunEnds tx basedir proc doc 2 out
  | returned {book : Book.Runbook} {st : Runner.St} {w : Run.World}
      (h : Json.Runs tx basedir proc doc (.running book st w)) (hr : st.main = .returned none) :
      RunEnds tx basedir proc doc 0 w.stdout
  | failed {book : Book.Runbook} {st : Runner.St} {w : Run.World} {e : Runner.RunErr} (message : Str)
      (h : Json.Runs tx basedir proc doc (.running book st w)) (hr : st.main = .returned (some e)) :
      RunEnds tx basedir proc doc 1 (w.stdout ++ message ++ b!"\n")

end Verif.Main
