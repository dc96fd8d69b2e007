import Verif.TaskSet.ParseSpec
import Verif.Hcl.Model

/-!
# What the text of a task set describes

`ParseSpec.lean` with documents for the blocks, and the attributes of each type written out.
-/

namespace Verif.TaskSet.DocSpec
open Verif TaskSet Hcl Spec

section
variable {F N : Type}

/-- Only attributes, of these names, and none twice. -/
def Only (names : List Str) (body : List (Item N)) : Prop :=
  (∀ i ∈ body, ∃ n v, i = .attr n v ∧ n ∈ names) ∧ (body.map Item.name).Nodup

def Absent (body : List (Item N)) (name : Str) : Prop := ∀ v, Item.attr name v ∉ body

/-- An attribute is given, and is a text. -/
def GivesText (L : Lib F N) (body : List (Item N)) (name s : Str) : Prop :=
  ∃ v, .attr name v ∈ body ∧ L.convert .string v = some (.str s)

/-- An attribute is given, and is a list of texts, or null. -/
def GivesTexts (L : Lib F N) (body : List (Item N)) (name : Str) (l : List Str) : Prop :=
  ∃ v, .attr name v ∈ body ∧
    (L.convert .strings v = some .null ∧ l = [] ∨ L.convert .strings v = some (.list (l.map .str)))

/-- An attribute is given, and is a whole number. -/
def GivesInt (L : Lib F N) (body : List (Item N)) (name : Str) (k : Int) : Prop :=
  ∃ v n, .attr name v ∈ body ∧ L.convert .number v = some (.num n) ∧ L.toInt n = some k

/-- The body of a target block. -/
inductive TargetBody (L : Lib F N) (body : List (Item N)) : Factory → Target → Prop
  | demo {n s} : Only [b!"max_concurrency", b!"string"] body → GivesText L body b!"string" s →
      (GivesInt L body b!"max_concurrency" n ∨ Absent body b!"max_concurrency" ∧ n = 1) →
      TargetBody L body .demo (.demo n s)
  | pg : body = [] → TargetBody L body .pg .pg
  | sh : body = [] → TargetBody L body .sh .sh

/-- What every task can have: a target, and lists of texts. -/
structure Common (L : Lib F N) (body : List (Item N)) (target : Str) : Prop where
  target : GivesText L body b!"target" target ∨ Absent body b!"target" ∧ target = []
  lists : ∀ name ∈ [b!"after", b!"provides", b!"requires"], Absent body name ∨ ∃ l, GivesTexts L body name l

/-- The names of what every task can have. -/
def common : List Str := [b!"target", b!"after", b!"provides", b!"requires"]

/-- The body of a task block, and what a target makes of it. -/
inductive TaskBody (L : Lib F N) (body : List (Item N)) : Target → Str → Kind → Prop
  | echo {n s} : Only common body → TaskBody L body (.demo n s) b!"echo" .echo
  | fail {n s} : Only common body → TaskBody L body (.demo n s) b!"fail" .fail
  | rev {n s} : Only common body → TaskBody L body (.demo n s) b!"rev" .rev
  | rot13 {n s} : Only common body → TaskBody L body (.demo n s) b!"rot13" .rot13
  | sleep {n s} : Only common body → TaskBody L body (.demo n s) b!"sleep" (.sleep 0)
  | pg {typ sql} : Only (b!"sql" :: common) body → GivesText L body b!"sql" sql → TaskBody L body .pg typ (.pg sql)
  | sh {typ args} : Only (b!"args" :: common) body → GivesTexts L body b!"args" args →
      TaskBody L body .sh typ (.sh args)

/-- A target block describes `t`. -/
def TargetBlock (L : Lib F N) (p : GoMap Str Factory) (typ : Str) (body : List (Item N)) (t : Target) : Prop :=
  ∃ f, (typ, f) ∈ p ∧ TargetBody L body f t

/-- `t` is the target `id` of type `typ`. -/
def HasTarget (L : Lib F N) (p : GoMap Str Factory) (doc : List (Item N)) (typ id : Str) (t : Target) : Prop :=
  (∃ body, LastWith doc (fun i => ∃ b, i = .block b!"target" [typ, id] b) (.block b!"target" [typ, id] body) ∧
    TargetBlock L p typ body t) ∨
  ((∀ body, Item.block b!"target" [typ, id] body ∉ doc) ∧ id = [] ∧ ∃ f, (typ, f) ∈ p ∧ Default f t)

/-- A task block describes `k`. -/
def TaskBlock (L : Lib F N) (p : GoMap Str Factory) (doc : List (Item N)) (typ : Str) (body : List (Item N))
    (k : Task) : Prop :=
  ∃ base kind name t, TypeIs typ base kind ∧ Common L body name ∧ HasTarget L p doc base name t ∧
    TaskBody L body t kind k.kind ∧ k.base = ⟨[], [], [], []⟩

/-- The document describes a task set: it has no attributes, and no other blocks. -/
def Describes (L : Lib F N) (p : GoMap Str Factory) (doc : List (Item N)) : Prop :=
  ∀ i ∈ doc, ∃ typ id body,
    (i = .block b!"target" [typ, id] body ∧ ∃ t, TargetBlock L p typ body t) ∨
    (i = .block b!"task" [typ, id] body ∧ ∃ k, TaskBlock L p doc typ body k)

end

end Verif.TaskSet.DocSpec
