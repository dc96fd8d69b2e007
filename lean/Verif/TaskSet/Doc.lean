import Verif.Hcl.TextSpec
import Verif.TaskSet.Parse

/-!
# Model of `/repo/internal/taskset/parser/parser.go:14-57`: from the document to its blocks

`Parse.lean` begins after the file has been decoded, with a decoder of bodies. Here bodies are bodies of
HCL documents, and the decoder is gohcl's, as in `Verif/Hcl`.
-/

namespace Verif.TaskSet
open Verif Hcl

section
variable {F N : Type} (L : Lib F N)

/-- parser.go:26-36 `type task struct`, without `Config`. -/
def taskHead : Codec N (TaskSrc (List (Item N))) where
  goName := b!"task"
  zero := { typ := [], id := [], config := [] }
  fields := [
    .ofLabel L b!"Type" b!"type" (·.typ) (fun x a => { a with typ := x }),
    .ofLabel L b!"ID" b!"name" (·.id) (fun x a => { a with id := x }),
    .ofAttr L b!"Target" b!"target" b!"optional" (.string L) (·.target) (fun x a => { a with target := x }),
    .ofAttr L b!"After" b!"after" b!"optional" (.strings L) (·.after) (fun x a => { a with after := x }),
    .ofAttr L b!"Provide" b!"provides" b!"optional" (.strings L) (·.provide) (fun x a => { a with provide := x }),
    .ofAttr L b!"Require" b!"requires" b!"optional" (.strings L) (·.require) (fun x a => { a with require := x })]

/-- parser.go:54 for a task: a field tagged `remain` takes what no other field takes
(`body.PartialContent`). -/
def decodeTask (labels : List Str) (items : List (Item N)) : Except Diag (TaskSrc (List (Item N))) :=
  match (taskHead L).decode labels (items.filter fun i => (taskHead L).fields.any fun f => f.allows i) with
  | .error e => .error e
  | .ok t => .ok { t with config := items.filter fun i => !(taskHead L).fields.any fun f => f.allows i }

/-- A block of a type with two labels: the only things the structure of the file knows. -/
def Known (i : Item N) : Bool :=
  match i with
  | .block t [_, _] _ => t = b!"target" || t = b!"task"
  | _ => false

/-- parser.go:19-24 `type target struct`: everything but the labels is left. -/
def targetBlock : Item N → Option (TargetSrc (List (Item N)))
  | .block t [typ, id] body => if t = b!"target" then some ⟨typ, id, body⟩ else none
  | _ => none

/-- The task blocks, in turn. -/
def decodeTasks : List (Item N) → Except Diag (List (TaskSrc (List (Item N))))
  | [] => .ok []
  | .block t ls body :: rest =>
    if t = b!"task" then
      match decodeTask L ls body with
      | .error e => .error e
      | .ok x =>
        match decodeTasks rest with
        | .error e => .error e
        | .ok xs => .ok (x :: xs)
    else decodeTasks rest
  | .attr _ _ :: rest => decodeTasks rest

/-- parser.go:53-57: `gohcl.DecodeBody(f.Body, nil, raw)`. -/
def decodeFile (doc : List (Item N)) : Except Diag (Src (List (Item N))) :=
  match doc.find? (fun i => !Known i) with
  | some i => .error (.unsupported i.name)
  | none =>
    match decodeTasks L doc with
    | .error e => .error e
    | .ok tasks => .ok { targets := doc.filterMap targetBlock, tasks := tasks }

/-- demo/demo.go:39-40. That `max_concurrency` is not set leaves the field as it was. -/
def demoTarget : Codec N (Option Int × Str) where
  goName := b!"Target"
  zero := (none, [])
  fields := [
    .ofAttr L b!"MaxConcurrency" b!"max_concurrency" b!"optional" (.int L b!"int") (fun a => a.1.getD 0)
      (fun x a => (some x, a.2)),
    .ofAttr L b!"String" b!"string" b!"attr" (.string L) (·.2) (fun x a => (a.1, x))]

/-- pg/pg.go:69 `SQL string `hcl:"sql,attr"`` -/
def pgTask : Codec N Str where
  goName := b!"Task"
  zero := []
  fields := [.ofAttr L b!"SQL" b!"sql" b!"attr" (.string L) id (fun x _ => x)]

/-- sh/sh.go:69 `Args []string `hcl:"args,attr"`` -/
def shTask : Codec N (List Str) where
  goName := b!"Task"
  zero := []
  fields := [.ofAttr L b!"Args" b!"args" b!"attr" (.strings L) id (fun x _ => x)]

/-- A struct without tagged fields. -/
def noFields : Codec N Unit where
  goName := []
  zero := ()
  fields := []

def diag {α β : Type} (f : α → β) : Except Diag α → Except Str β
  | .error _ => .error b!"diagnostics"
  | .ok a => .ok (f a)

/-- gohcl on the bodies. -/
def docDecoder : Decoder (List (Item N)) where
  demoTarget body := diag id ((demoTarget L).decode [] body)
  sql body := diag id ((pgTask L).decode [] body)
  args body := diag id ((shTask L).decode [] body)
  nothing body := diag id ((noFields (N := N)).decode [] body)

/-- parser.go:53-76: `Parse`, after the parsing of the text. -/
def parseDoc (p : GoMap Str Factory) (doc : List (Item N)) : Res Loaded :=
  match decodeFile L doc with
  | .error _ => .error (.diagnostics b!"diagnostics")
  | .ok src => parse (docDecoder L) p src

end

end Verif.TaskSet
