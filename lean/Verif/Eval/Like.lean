import Verif.Json.Props

/-!
# When two runbooks are the same
-/

namespace Verif.Eval.Spec
open Verif Book

/-- The same filter: the variables to set may be in another order. -/
structure LikeEnv (a b : Sh.Env) : Prop where
  allow : a.allow = b.allow
  deny : a.deny = b.deny
  set : a.set.Perm b.set

/-- The same target. -/
inductive LikeTarget : Target → Target → Prop
  | pg {t} : LikeTarget (.pg t) (.pg t)
  | sh {t u} : t.basedir = u.basedir → t.environ = u.environ → t.concurrency = u.concurrency →
      LikeEnv t.env u.env → LikeTarget (.sh t) (.sh u)
  | demo {t} : LikeTarget (.demo t) (.demo t)

/-- The same config. -/
inductive LikeConfig : Config → Config → Prop
  | same {c} : LikeConfig c c
  | sh {x y} : x.args = y.args → LikeEnv x.env y.env → LikeConfig (.shExec x) (.shExec y)

/-- The same task. -/
structure LikeTask (t u : Task) : Prop where
  target : t.target = u.target
  after : t.after = u.after
  message : t.message = u.message
  config : LikeConfig t.config u.config

/-- The same runbook: the same targets and tasks under the same ids. -/
structure Like (a b : Runbook) : Prop where
  targets : ∀ id t, (id, t) ∈ a.targets → ∃ u, (id, u) ∈ b.targets ∧ LikeTarget t u
  noMoreTargets : ∀ id u, (id, u) ∈ b.targets → ∃ t, (id, t) ∈ a.targets ∧ LikeTarget t u
  tasks : ∀ id t, (id, t) ∈ a.tasks → ∃ u, (id, u) ∈ b.tasks ∧ LikeTask t u
  noMoreTasks : ∀ id u, (id, u) ∈ b.tasks → ∃ t, (id, t) ∈ a.tasks ∧ LikeTask t u

end Verif.Eval.Spec
