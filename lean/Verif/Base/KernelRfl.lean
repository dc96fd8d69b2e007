import Lean.Elab.Tactic.Basic
import Lean.Meta.AppBuilder

/-!
# A tactic for long computations
-/

namespace Verif

open Lean Elab Tactic in
/-- Both sides are the same by computation, which is left to the kernel to check. -/
elab "kernel_rfl" : tactic => liftMetaTactic fun g => do
  let some (_, lhs, _) := (← instantiateMVars (← g.getType)).consumeMData.eq? | throwError "not an equation"
  g.assign (← Meta.mkEqRefl lhs)
  return []

end Verif
