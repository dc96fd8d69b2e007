import Verif.Ddl.CreateSpec

/-!
# Reading ALTER TABLE ADD PRIMARY KEY and CREATE TRIGGER (specification)
-/

namespace Verif.Ddl.Create
open Verif Verif.Ddl.Sql

/-- A new primary key. `schema` and `name` are `none` if the statement does not say them. -/
structure NewKey where
  schema : Option Str
  table : Str
  name : Option Str
  columns : List Str
deriving DecidableEq, Repr

/-- One or more quoted names with commas between them, and the tokens after them. -/
def readList : List Tok → Option (List Str × List Tok)
  | .ident n :: .sym 44 :: ts => (readList ts).map fun r => (n :: r.1, r.2)
  | .ident n :: ts => some ([n], ts)
  | _ => none

/-- `PRIMARY KEY (columns);` -/
def readKeyColumns : List Tok → Option (List Str)
  | .word p :: .word k :: .sym 40 :: ts =>
    if p = b!"PRIMARY" ∧ k = b!"KEY" then
      match readList ts with
      | some (cs, [.sym 41, .sym 59]) => some cs
      | _ => none
    else none
  | _ => none

/-- `ADD [CONSTRAINT name] PRIMARY KEY (columns);` -/
def readAdd (schema : Option Str) (table : Str) : List Tok → Option NewKey
  | .word a :: .word c :: .ident n :: ts =>
    if a = b!"ADD" ∧ c = b!"CONSTRAINT" then (readKeyColumns ts).map (⟨schema, table, some n, ·⟩) else none
  | .word a :: ts => if a = b!"ADD" then (readKeyColumns ts).map (⟨schema, table, none, ·⟩) else none
  | _ => none

/-- `ALTER TABLE [schema.]table ADD ...;` -/
def readKey : List Tok → Option NewKey
  | .word a :: .word t :: .ident s :: .sym 46 :: .ident n :: ts =>
    if a = b!"ALTER" ∧ t = b!"TABLE" then readAdd (some s) n ts else none
  | .word a :: .word t :: .ident n :: ts =>
    if a = b!"ALTER" ∧ t = b!"TABLE" then readAdd none n ts else none
  | _ => none

/-- The primary key the SQL text `sql` creates, if it is one such statement. -/
def createsKey (sql : Str) : Option NewKey := (lex sql).bind readKey

example : createsKey b!"ALTER TABLE \"s\".\"t\" ADD CONSTRAINT \"k\" PRIMARY KEY (\"a\", \"b\");" =
    some ⟨some b!"s", b!"t", some b!"k", [b!"a", b!"b"]⟩ := by decide +kernel
example : createsKey b!"ALTER TABLE \"t\" ADD PRIMARY KEY ();" = none := by decide +kernel

/-- When a trigger is executed. -/
inductive Timing where
  | before
  | after
  | insteadOf
deriving DecidableEq, Repr

/-- What a trigger is executed for. -/
inductive Event where
  | insert
  | delete
  | truncate
  | update
deriving DecidableEq, Repr

/-- A new trigger. `function` is the name of the function, with the schema in front if the statement says
it. -/
structure NewTrigger where
  name : Str
  timing : Timing
  events : List Event
  schema : Option Str
  table : Str
  forEachRow : Bool
  function : List Str
deriving DecidableEq, Repr

/-- `BEFORE`, `AFTER` or `INSTEAD OF`. -/
def readTiming : List Tok → Option (Timing × List Tok)
  | .word w :: ts =>
    if w = b!"BEFORE" then some (.before, ts)
    else if w = b!"AFTER" then some (.after, ts)
    else if w = b!"INSTEAD" then
      match ts with
      | .word o :: ts => if o = b!"OF" then some (.insteadOf, ts) else none
      | _ => none
    else none
  | _ => none

/-- An event, without a list of columns. -/
def readEvent (w : Str) : Option Event :=
  if w = b!"INSERT" then some .insert
  else if w = b!"DELETE" then some .delete
  else if w = b!"TRUNCATE" then some .truncate
  else if w = b!"UPDATE" then some .update
  else none

/-- Events with `OR` between them, up to `ON`. -/
def readEvents : List Tok → Option (List Event × List Tok)
  | .word e :: .word o :: ts =>
    match readEvent e with
    | none => none
    | some e =>
      if o = b!"ON" then some ([e], ts)
      else if o = b!"OR" then (readEvents ts).map fun r => (e :: r.1, r.2)
      else none
  | _ => none

/-- A name, quoted or not, with others in front of it, up to the opening parenthesis. -/
def readNames (reserved : Str → Bool) : List Tok → Option (List Str × List Tok)
  | t :: .sym 40 :: ts => (nameOf reserved t).map fun n => ([n], ts)
  | t :: .sym 46 :: ts =>
    match nameOf reserved t, readNames reserved ts with
    | some n, some r => some (n :: r.1, r.2)
    | _, _ => none
  | _ => none

/-- `EXECUTE PROCEDURE function();` -/
def readExecute (reserved : Str → Bool) : List Tok → Option (List Str)
  | .word e :: .word p :: ts =>
    if e = b!"EXECUTE" ∧ p = b!"PROCEDURE" then
      match readNames reserved ts with
      | some (f, [.sym 41, .sym 59]) => some f
      | _ => none
    else none
  | _ => none

/-- `[FOR EACH ROW | FOR EACH STATEMENT] EXECUTE ...`: per statement unless the rows are asked for. -/
def readLevel (reserved : Str → Bool) : List Tok → Option (Bool × List Str)
  | .word f :: .word e :: .word r :: ts =>
    if f = b!"FOR" ∧ e = b!"EACH" ∧ r = b!"ROW" then (readExecute reserved ts).map (true, ·)
    else if f = b!"FOR" ∧ e = b!"EACH" ∧ r = b!"STATEMENT" then (readExecute reserved ts).map (false, ·)
    else (readExecute reserved (.word f :: .word e :: .word r :: ts)).map (false, ·)
  | ts => (readExecute reserved ts).map (false, ·)

/-- `[schema.]table` -/
def readOn : List Tok → Option (Option Str × Str × List Tok)
  | .ident s :: .sym 46 :: .ident t :: ts => some (some s, t, ts)
  | .ident t :: ts => some (none, t, ts)
  | _ => none

/-- `CREATE TRIGGER name timing events ON table ...`. -/
def readTrigger (reserved : Str → Bool) : List Tok → Option NewTrigger
  | .word c :: .word t :: .ident n :: ts =>
    if c = b!"CREATE" ∧ t = b!"TRIGGER" then
      (readTiming ts).bind fun w => (readEvents w.2).bind fun e => (readOn e.2).bind fun o =>
        (readLevel reserved o.2.2).map fun l => ⟨n, w.1, e.1, o.1, o.2.1, l.1, l.2⟩
    else none
  | _ => none

/-- What the SQL text `sql` creates, if it is one CREATE TRIGGER statement. -/
def createsTrigger (reserved : Str → Bool) (sql : Str) : Option NewTrigger :=
  (lex sql).bind (readTrigger reserved)

example : createsTrigger (fun _ => false)
    b!"CREATE TRIGGER \"x\" BEFORE INSERT OR UPDATE ON \"s\".\"t\" FOR EACH ROW EXECUTE PROCEDURE audit.Log();" =
    some ⟨b!"x", .before, [.insert, .update], some b!"s", b!"t", true, [b!"audit", b!"log"]⟩ := by
  decide +kernel
example : createsTrigger (fun _ => false)
    b!"CREATE TRIGGER \"x\" AFTER ON \"t\" EXECUTE PROCEDURE f();" = none := by decide +kernel

/-- Names with dots between them, not quoted. -/
def dotNames : List Str → Str
  | [] => []
  | [w] => w
  | w :: v :: ws => w ++ b!"." ++ dotNames (v :: ws)

/-- `w` is an identifier that need not be quoted. -/
def Plain (reserved : Str → Bool) (w : Str) : Prop :=
  w ≠ [] ∧ (∀ b ∈ w, isWord b = true) ∧ (∀ b ∈ w, ¬ (65 ≤ b ∧ b ≤ 90)) ∧
    (∀ b, w.head? = some b → ¬ (48 ≤ b ∧ b ≤ 57)) ∧ reserved w = false

/-- What `When` of a description says. -/
def timingOf (w : Str) : Option Timing :=
  if w = b!"BEFORE" then some .before
  else if w = b!"AFTER" then some .after
  else if w = b!"INSTEAD OF" then some .insteadOf
  else none

end Verif.Ddl.Create
