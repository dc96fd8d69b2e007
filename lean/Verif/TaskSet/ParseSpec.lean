import Verif.TaskSet.Parse

/-!
# What a task set file describes

The words of C62: the table of target types with the task types of each, which attributes each takes,
and the decoder of bodies. Nothing here refers to a function of the model.
-/

namespace Verif.TaskSet.Spec
open Verif TaskSet

variable {B : Type}

/-- `x` is the last of `l` with property `p`. -/
def LastWith {α : Type} (l : List α) (p : α → Prop) (x : α) : Prop :=
  ∃ before after, l = before ++ x :: after ∧ p x ∧ ∀ y ∈ after, ¬ p y

/-- The target of a registered type that no block describes. -/
inductive Default : Factory → Target → Prop
  | demo : Default .demo (.demo 1 [])
  | pg : Default .pg .pg
  | sh : Default .sh .sh

/-- The target of a type whose block has this body: a demo target has a text and, unless the body says
otherwise, a concurrency of one; the other types take nothing. -/
inductive Configured (d : Decoder B) (body : B) : Factory → Target → Prop
  | demo {n s} : d.demoTarget body = .ok (some n, s) → Configured d body .demo (.demo n s)
  | demoDefault {s} : d.demoTarget body = .ok (none, s) → Configured d body .demo (.demo 1 s)
  | pg : d.nothing body = .ok () → Configured d body .pg .pg
  | sh : d.nothing body = .ok () → Configured d body .sh .sh

/-- The task types of each target type: a demo target has five, which take nothing; the other targets
make their task whatever type is named. -/
inductive Makes (d : Decoder B) (body : B) : Target → Str → Kind → Prop
  | echo {n s} : d.nothing body = .ok () → Makes d body (.demo n s) b!"echo" .echo
  | fail {n s} : d.nothing body = .ok () → Makes d body (.demo n s) b!"fail" .fail
  | rev {n s} : d.nothing body = .ok () → Makes d body (.demo n s) b!"rev" .rev
  | rot13 {n s} : d.nothing body = .ok () → Makes d body (.demo n s) b!"rot13" .rot13
  | sleep {n s} : d.nothing body = .ok () → Makes d body (.demo n s) b!"sleep" (.sleep 0)
  | pg {typ sql} : d.sql body = .ok sql → Makes d body .pg typ (.pg sql)
  | sh {typ args} : d.args body = .ok args → Makes d body .sh typ (.sh args)

/-- A target block of a registered type whose body fits describes `t`. -/
def TargetOf (d : Decoder B) (p : GoMap Str Factory) (w : TargetSrc B) (t : Target) : Prop :=
  ∃ f, (w.typ, f) ∈ p ∧ Configured d w.config f t

/-- `t` is the target `id` of type `typ`: the one described by the last block with this type and
name, or, under the empty name and with no such block, the default one of a registered type. -/
def TargetNamed (d : Decoder B) (p : GoMap Str Factory) (src : Src B) (typ id : Str) (t : Target) :
    Prop :=
  (∃ w, LastWith src.targets (fun w => w.typ = typ ∧ w.id = id) w ∧ TargetOf d p w t) ∨
  ((∀ w ∈ src.targets, ¬ (w.typ = typ ∧ w.id = id)) ∧ id = [] ∧
    ∃ f, (typ, f) ∈ p ∧ Default f t)

/-- `s` is the target type `typ` alone, or "typ/kind", split at the first '/'. -/
def TypeIs (s typ kind : Str) : Prop :=
  (47 : UInt8) ∉ typ ∧ ((s = typ ∧ kind = []) ∨ s = typ ++ b!"/" ++ kind)

/-- A task block, on targets `has`, describes `k`: the target it names exists and makes a task of the
type it names, which the body fits; the task carries nothing else (in particular none of the
dependencies, see C69). -/
def TaskOf (d : Decoder B) (has : Str → Str → Target → Prop) (w : TaskSrc B) (k : Task) : Prop :=
  ∃ typ kind t, TypeIs w.typ typ kind ∧ has typ w.target t ∧ Makes d w.config t kind k.kind ∧
    k.base = ⟨[], [], [], []⟩

/-- Every block of the file is acceptable. -/
def Acceptable (d : Decoder B) (p : GoMap Str Factory) (src : Src B) : Prop :=
  (∀ w ∈ src.targets, ∃ t, TargetOf d p w t) ∧
  (∀ w ∈ src.tasks, ∃ k, TaskOf d (TargetNamed d p src) w k)

end Verif.TaskSet.Spec
