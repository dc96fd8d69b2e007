import Verif.Book.Model

/-!
# When a decoded runbook is acceptable

The words of C34-C36: the table of target classes with the task classes of each, what a config must
satisfy, and the JSON decoder. Nothing here refers to a function of the model.
-/

namespace Verif.Book.Spec
open Verif Book

/-- A config message is decoded over the default value; an absent one leaves it as it is. -/
def Decoded {α : Type} (f : Str → α → Except Str α) (config : Str) (a b : α) : Prop :=
  (config = [] ∧ b = a) ∨ (config ≠ [] ∧ f config a = .ok b)

/-- The target classes and the value a config message is decoded over. -/
inductive Fresh (basedir : Str) : Str → Target → Prop
  | pg : Fresh basedir b!"pg" (.pg ⟨1, [], 0, [], [], [], [], 0⟩)
  | sh : Fresh basedir b!"sh" (.sh ⟨basedir, [], 1, ⟨[], [], []⟩⟩)
  | demo : Fresh basedir b!"demo" (.demo ⟨[], []⟩)

/-- The target may run something. -/
inductive Concurrent : Target → Prop
  | pg {t} : 1 ≤ t.concurrency → Concurrent (.pg t)
  | sh {t} : 1 ≤ t.concurrency → Concurrent (.sh t)
  | demo {t} : Concurrent (.demo t)

/-- The task classes of each target class and the config each starts from. -/
inductive Offers : Target → Str → Config → Prop
  | pgDefault {t} : Offers (.pg t) [] (.pgExec [])
  | pgExec {t} : Offers (.pg t) b!"exec" (.pgExec [])
  | shDefault {t} : Offers (.sh t) [] (.shExec ⟨[], ⟨[], [], []⟩⟩)
  | shExec {t} : Offers (.sh t) b!"exec" (.shExec ⟨[], ⟨[], [], []⟩⟩)
  | echo {t} : Offers (.demo t) b!"echo" .echo
  | fail {t} : Offers (.demo t) b!"fail" .fail
  | rev {t} : Offers (.demo t) b!"rev" .rev
  | rot13 {t} : Offers (.demo t) b!"rot13" .rot13
  | sleep {t} : Offers (.demo t) b!"sleep" (.sleep ⟨0⟩)

/-- A decoded config is accepted, and what it becomes: SQL must be there, a command must be a bare
name, absolute or explicitly relative, and a pause is at least a second. -/
inductive Checked : Config → Config → Prop
  | pgExec {sql} : sql ≠ [] → Checked (.pgExec sql) (.pgExec sql)
  | shExec {arg0 rest env} :
      ((47 : UInt8) ∉ arg0 ∨ b!"/" <+: arg0 ∨ b!"./" <+: arg0 ∨ b!"../" <+: arg0) →
      Checked (.shExec ⟨arg0 :: rest, env⟩) (.shExec ⟨arg0 :: rest, env⟩)
  | echo : Checked .echo .echo
  | fail : Checked .fail .fail
  | rev : Checked .rev .rev
  | rot13 : Checked .rot13 .rot13
  | sleep {n} : 1 ≤ n → Checked (.sleep ⟨n⟩) (.sleep ⟨n⟩)
  | noSleep {n} : n < 1 → Checked (.sleep ⟨n⟩) (.sleep ⟨1⟩)

/-- Source target `w` is acceptable and yields `t`. -/
def TargetOf (dec : Decoder) (basedir : Str) (w : TargetSrc) (t : Target) : Prop :=
  ∃ t0, Fresh basedir w.class_ t0 ∧ Decoded dec.target w.config t0 t ∧ Concurrent t

/-- `s` refers to target `id` and task class `cls`: "id" alone, or "id/cls" split at the first '/'. -/
def RefersTo (s id cls : Str) : Prop :=
  (47 : UInt8) ∉ id ∧ ((s = id ∧ cls = []) ∨ s = id ++ b!"/" ++ cls)

/-- Source task `w` is acceptable on the targets `has` and yields `t`. -/
def TaskOf (dec : Decoder) (has : Str → Target → Prop) (w : TaskSrc) (t : Task) : Prop :=
  ∃ cls tgt c0 c1, RefersTo w.target t.target cls ∧ has t.target tgt ∧
    Offers tgt cls c0 ∧ Decoded dec.config w.config c0 c1 ∧ Checked c1 t.config ∧
    t.after = w.after ∧ t.message = w.message

/-- `book` is what `src` describes. -/
def BookOf (dec : Decoder) (basedir : Str) (src : Src) (book : Runbook) : Prop :=
  (∀ id t, (id, t) ∈ book.targets ↔ ∃ w, (id, some w) ∈ src.targets ∧ TargetOf dec basedir w t) ∧
  (∀ id t, (id, t) ∈ book.tasks ↔
    ∃ w, (id, some w) ∈ src.tasks ∧ TaskOf dec (fun i u => (i, u) ∈ book.targets) w t)

/-- Every entry of `src` is acceptable. -/
def Acceptable (dec : Decoder) (basedir : Str) (src : Src) : Prop :=
  (∀ id o, (id, o) ∈ src.targets → ∃ w t, o = some w ∧ TargetOf dec basedir w t) ∧
  (∀ id o, (id, o) ∈ src.tasks → ∃ w t, o = some w ∧
    TaskOf dec (fun i u => ∃ w', (i, some w') ∈ src.targets ∧ TargetOf dec basedir w' u) w t)

end Verif.Book.Spec
