import Verif.Ddl.Model
import Verif.Ddl.Text
import Verif.Ddl.Tables.Check
import Verif.Ddl.Tables.Index
import Verif.Ddl.Tables.ForeignKey
import Verif.Ddl.Tables.Trigger

/-!
# Model of the four parsers: the actions and the `Parse` functions

A parser returns `.ok x`, `.err cs` (the `parseError` with that `cs` and the whole input) or panics.
-/

namespace Verif.Ddl
open Verif Verif.Ragel

/-! ## ParseIndex -/

/-- index.go:27-30 `addColumn`. -/
def Index.addColumn (x : Index) (s : Str) : Index := { x with keys := x.keys ++ [{ column := s }] }

/-- index.go:32-35 `addExpression`. -/
def Index.addExpression (x : Index) (s : Str) : Index :=
  { x with keys := x.keys ++ [{ expression := s }] }

/-- index.go:41-44 `setOpClass`: `Keys[len(Keys)-1]` panics without keys. -/
def Index.setOpClass (x : Index) (s : Str) : Option Index :=
  match x.keys.getLast? with
  | none => none
  | some k => some { x with keys := x.keys.dropLast ++ [{ k with opClass := s }] }

/-- index_parser.go:25-27: the variables `index` and `buffer`. -/
structure IndexVars where
  index : Index := {}
  buffer : Str := []
deriving DecidableEq, Repr

/-- index_parser.rl:22-55, index.go:27-56: the actions. -/
def indexStep (_p : Nat) (m : IndexVars) : Ev IndexAct → Option IndexVars
  | .push b => some { m with buffer := m.buffer ++ [b] }
  | .act .addColumn => some { index := m.index.addColumn m.buffer }
  | .act .addExpression => some { index := m.index.addExpression m.buffer }
  | .act .setName => some { index := { m.index with name := m.buffer } }
  | .act .setOpClass =>
    match m.index.setOpClass m.buffer with
    | none => none
    | some x => some { index := x }
  | .act .setTable => some { index := { m.index with table := m.buffer } }
  | .act .setUsing => some { index := { m.index with using_ := collapseWhitespace m.buffer } }
  | .act .setWhere => some { index := { m.index with where_ := collapseWhitespace (trim m.buffer) } }
  | .act .matchUnique => some { m with index := { m.index with unique := true } }

/-- index_parser.go:23-1278 `ParseIndex`. -/
def parseIndex (data : Str) : Outcome Index :=
  match indexMachine.exec indexStep indexMachine.start 0 {} data with
  | .ok m => .ok m.index
  | .err cs => .err cs
  | .panic => .panic

/-! ## ParseForeignKey -/

/-- foreign_key_parser.go:24-28: the variables `fk` and `buffer`. -/
structure FkVars where
  fk : ForeignKey := {}
  buffer : Str := []
deriving DecidableEq, Repr

/-- foreign_key_parser.rl:22-52, foreign_key.go:18-40: the actions. -/
def fkStep (_p : Nat) (m : FkVars) : Ev FkAct → Option FkVars
  | .push b => some { m with buffer := m.buffer ++ [b] }
  | .act .addColumn => some { fk := { m.fk with columns := m.fk.columns ++ [m.buffer] } }
  | .act .addReferenced => some { fk := { m.fk with referenced := m.fk.referenced ++ [m.buffer] } }
  | .act .setMatch => some { fk := { m.fk with match_ := upper m.buffer } }
  | .act .setOnDelete =>
    some { fk := { m.fk with onDelete := collapseWhitespace (upper (trim m.buffer)) } }
  | .act .setOnUpdate =>
    some { fk := { m.fk with onUpdate := collapseWhitespace (upper (trim m.buffer)) } }
  | .act .setTable => some { fk := { m.fk with table := m.buffer } }
  | .act .matchDeferrable => some { m with fk := { m.fk with deferrable := true } }
  | .act .matchInitiallyDeferred => some { m with fk := { m.fk with initiallyDeferred := true } }

/-- foreign_key_parser.go:23-3984 `ParseForeignKey`. -/
def parseForeignKey (data : Str) : Outcome ForeignKey :=
  match foreignKeyMachine.exec fkStep foreignKeyMachine.start 0 {} data with
  | .ok m => .ok m.fk
  | .err cs => .err cs
  | .panic => .panic

/-! ## ParseTrigger -/

/-- trigger_parser.go:24-28: the variables `trigger` and `buffer`. -/
structure TriggerVars where
  trigger : Trigger := {}
  buffer : Str := []
deriving DecidableEq, Repr

/-- trigger_parser.rl:22-55, trigger.go:26-46: the actions. -/
def triggerStep (_p : Nat) (m : TriggerVars) : Ev TriggerAct → Option TriggerVars
  | .push b => some { m with buffer := m.buffer ++ [b] }
  | .act .addColumn => some { trigger := { m.trigger with columns := m.trigger.columns ++ [m.buffer] } }
  | .act .setFunction => some { trigger := { m.trigger with function := m.buffer } }
  | .act .setName => some { trigger := { m.trigger with name := m.buffer } }
  | .act .setTable => some { trigger := { m.trigger with table := m.buffer } }
  | .act .setWhen =>
    some { trigger := { m.trigger with when_ := upper (collapseWhitespace m.buffer) } }
  | .act .matchConstraint => some { m with trigger := { m.trigger with constraint := true } }
  | .act .matchDeferrable => some { m with trigger := { m.trigger with deferrable := true } }
  | .act .matchInitiallyDeferred =>
    some { m with trigger := { m.trigger with initiallyDeferred := true } }
  | .act .matchForEachRow => some { m with trigger := { m.trigger with forEachRow := true } }
  | .act .matchDelete => some { m with trigger := { m.trigger with delete := true } }
  | .act .matchInsert => some { m with trigger := { m.trigger with insert := true } }
  | .act .matchTruncate => some { m with trigger := { m.trigger with truncate := true } }
  | .act .matchUpdate => some { m with trigger := { m.trigger with update := true } }

/-- trigger_parser.go:23-3387 `ParseTrigger`. -/
def parseTrigger (data : Str) : Outcome Trigger :=
  match triggerMachine.exec triggerStep triggerMachine.start 0 {} data with
  | .ok m => .ok m.trigger
  | .err cs => .err cs
  | .panic => .panic

/-! ## ParseCheck -/

/-- check_parser.go:20-25: the variables `check`, `mark1` and `mark2`. -/
structure CheckVars where
  check : Check := {}
  mark1 : Nat := 0
  mark2 : Nat := 0
deriving DecidableEq, Repr

/-- check_parser.rl:19-27: the actions; `p` is ragel's `fpc`. The grammar has no `addToBuffer`. -/
def checkStep (p : Nat) (m : CheckVars) : Ev CheckAct → Option CheckVars
  | .push _ => some m
  | .act .setMark1 => some { m with mark1 := p }
  | .act .setMark2 => some { m with mark2 := p }
  | .act .matchDeferrable => some { m with check := { m.check with deferrable := true } }
  | .act .matchInitiallyDeferred => some { m with check := { m.check with initiallyDeferred := true } }

/-- check_parser.go:19-1125 `ParseCheck`, check.go:11-13 `setExpression`: `data[mark1:mark2]` panics unless
`mark1 ≤ mark2 ≤ len(data)`. -/
def parseCheck (data : Str) : Outcome Check :=
  match checkMachine.exec checkStep checkMachine.start 0 {} data with
  | .ok m =>
    if m.mark1 ≤ m.mark2 ∧ m.mark2 ≤ data.length then
      .ok { m.check with expression := trim ((data.drop m.mark1).take (m.mark2 - m.mark1)) }
    else .panic
  | .err cs => .err cs
  | .panic => .panic

end Verif.Ddl
