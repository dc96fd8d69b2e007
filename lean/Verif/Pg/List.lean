import Verif.Ddl.Parse
import Verif.Ddl.Params

/-!
# Model of `/repo/internal/pg`: the catalog listings

The server is a `Catalog`: for every query the functions send, what the server answers. A NULL is
`none`. The SQL texts are not modelled.
-/

namespace Verif.Pg
open Verif Verif.Ragel

/-- Where an error comes from: the query or the connection, `Scan`, a parser of package ddl,
`TableStorageParameters.Set`, or `ErrNotFound` (errors.go:7). `panic` is a Go panic in a parser (never
happens: `C46_parsers_never_panic`). -/
inductive Err
  | query (n : Nat)
  | scan
  | parse (cs : Nat)
  | num (e : Ddl.NumErr)
  | notFound
  | panic
deriving DecidableEq, Repr

/-- What `rows.Next` goes through: the rows, and then the end of the result or, if `failure` is set,
a failure of the connection, which makes `Next` return false and `rows.Err` return the error. -/
structure Stream (ρ : Type) where
  rows : List ρ
  failure : Option Nat := none
deriving DecidableEq, Repr

/-- The answer to `conn.Query`. -/
abbrev Query (ρ : Type) := Except Err (Stream ρ)
/-- The answer to `conn.QueryRow`: an error, no row, or the first row. -/
abbrev QueryRow (ρ : Type) := Except Err (Option ρ)

/-- util.go:6-11 `String`. -/
def string (s : Option Str) : Str := match s with | none => [] | some x => x

/-- `Scan` into a `*string`, `*bool` or `*int64`: NULL is an error. -/
def scan {α : Type} : Option α → Except Err α
  | none => .error .scan
  | some a => .ok a

/-- The result of a parser of package ddl as a Go error. -/
def ofOutcome {α : Type} : Outcome α → Except Err α
  | .ok a => .ok a
  | .err cs => .error (.parse cs)
  | .panic => .error .panic

/-- The loop all listings share, e.g. tables.go:35-49 and 50-54: `row` is the loop body, which either
breaks with an error or yields the description to append; `rows.Err` is not called after the loop. -/
def scanLoop {ρ α : Type} (row : ρ → Except Err α) : List ρ → List α → Except Err (List α)
  | [], acc => .ok acc
  | r :: rest, acc =>
    match row r with
    | .error e => .error e
    | .ok a => scanLoop row rest (acc ++ [a])

/-- The common shape of the listings, e.g. tables.go:27-54. -/
def listRows {ρ α : Type} (q : Query ρ) (row : ρ → Except Err α) : Except Err (List α) :=
  match q with
  | .error e => .error e
  | .ok st => scanLoop row st.rows []

/-! ## Rows and descriptions -/

/-- check.go:6-8, foreign_key.go:6-8, triggers.go:22-24: name and definition. -/
structure DefRow where
  name : Option Str
  definition : Option Str
deriving DecidableEq, Repr

/-- index.go:6-9. -/
structure IndexRow where
  name : Option Str
  primary : Option Bool
  definition : Option Str
deriving DecidableEq, Repr

/-- columns.go:6-15. -/
structure ColumnRow where
  name : Option Str
  type : Option Str
  notNull : Option Bool
  default_ : Option Str
  comment : Option Str
deriving DecidableEq, Repr

/-- functions.go:25-32. -/
structure FunctionRow where
  schema : Option Str
  name : Option Str
  owner : Option Str
  comment : Option Str
  returns : Option Str
  language : Option Str
  definition : Option Str
deriving DecidableEq, Repr

/-- schemas.go:6-9. -/
structure SchemaRow where
  name : Option Str
  owner : Option Str
  comment : Option Str
deriving DecidableEq, Repr

/-- tables.go:6-10. -/
structure TableRow where
  schema : Option Str
  name : Option Str
  owner : Option Str
  comment : Option Str
deriving DecidableEq, Repr

/-- sequence.go:57-64: the columns both sequence queries share. -/
structure SequenceRow where
  schema : Option Str
  name : Option Str
  owner : Option Str
  comment : Option Str
  ownerSchema : Option Str
  ownerName : Option Str
  ownerColumn : Option Str
deriving DecidableEq, Repr

/-- sequence.go:23-28 and 207-213: the values of a sequence. -/
structure SequenceValues where
  start : Option Int
  minimum : Option Int
  maximum : Option Int
  increment : Option Int
  cache : Option Int
  cycle : Option Bool
deriving DecidableEq, Repr

/-- ddl/database.go:22-26 `type Schema struct`. -/
structure Schema where
  name : Str := []
  owner : Str := []
  comment : Str := []
deriving DecidableEq, Repr

/-- ddl/sequence.go:20-24 `type SequenceOwner struct`. -/
structure SequenceOwner where
  schema : Str := []
  table : Str := []
  column : Str := []
deriving DecidableEq, Repr

/-- ddl/sequence.go:4-18 `type Sequence struct`. -/
structure Sequence where
  schema : Str := []
  name : Str := []
  owner : Str := []
  comment : Str := []
  dataType : Str := []
  start : Int := 0
  minimum : Int := 0
  maximum : Int := 0
  increment : Int := 0
  cache : Int := 0
  cycle : Bool := false
  ownedBy : Option SequenceOwner := none
deriving DecidableEq, Repr

/-- ddl/database.go:16-19 `type Parameters struct`. -/
structure Parameters where
  searchPath : List Str := []
  timezone : Str := []
deriving DecidableEq, Repr

/-- Everything the server may be asked. The answers to parametrised queries are functions of the
arguments; a server whose answers change during one inspection is in Session.lean (C126, C127). -/
structure Catalog where
  /-- parameters.go:17 -/
  searchPath : QueryRow (Option Str)
  /-- parameters.go:25 -/
  timezone : QueryRow (Option Str)
  /-- schemas.go:22 -/
  schemas : Query SchemaRow
  /-- functions.go:81 -/
  functions : Query FunctionRow
  /-- functions.go:51: schema, name -/
  function : Str → Str → QueryRow FunctionRow
  /-- sequence.go:94 -/
  hasView : QueryRow (Option Bool)
  /-- sequence.go:107; the data type and the values beside the common columns -/
  sequences : Query (SequenceRow × Option Str × SequenceValues)
  /-- sequence.go:164 -/
  legacySequences : Query SequenceRow
  /-- sequence.go:220: schema, name -/
  sequence : Str → Str → QueryRow SequenceValues
  /-- tables.go:27 -/
  tables : Query TableRow
  /-- columns.go:33: schema, table; likewise below -/
  columns : Str → Str → Query ColumnRow
  /-- check.go:25 -/
  checks : Str → Str → Query DefRow
  /-- foreign_key.go:27 -/
  foreignKeys : Str → Str → Query DefRow
  /-- table_storage_parameters.go:24 -/
  storage : Str → Str → Query (Option Str)
  /-- index.go:30 -/
  indexes : Str → Str → Query IndexRow
  /-- triggers.go:68 -/
  triggers : Str → Str → Query DefRow
  /-- triggers.go:43: schema, table, name -/
  trigger : Str → Str → Str → QueryRow (Option Str)
  /-- version.go:9 -/
  version : QueryRow (Option Str)

/-- `conn.QueryRow(...).Scan(...)` without distinction of `pgx.ErrNoRows`: no row is an error. -/
def queryRow {ρ : Type} (q : QueryRow ρ) : Except Err ρ :=
  match q with
  | .error e => .error e
  | .ok none => .error .notFound
  | .ok (some r) => .ok r

/-! ## The listings -/

/-- `strings.Split(s, ",")` (parameters.go:22). -/
def splitComma : Str → List Str
  | [] => [[]]
  | b :: s =>
    if b = 44 then [] :: splitComma s
    else match splitComma s with
      | [] => [[b]]
      | w :: ws => (b :: w) :: ws

/-- parameters.go:10-32 `ListParameters`. -/
def Catalog.listParameters (c : Catalog) : Except Err Parameters := do
  let tmp ← queryRow c.searchPath >>= scan
  let timezone ← queryRow c.timezone >>= scan
  return { searchPath := splitComma tmp, timezone }

/-- schemas.go:36-42: the loop body of `ListSchemas`. -/
def schemaRow (r : SchemaRow) : Except Err Schema :=
  .ok { name := string r.name, owner := string r.owner, comment := string r.comment }

/-- schemas.go:18-49 `ListSchemas`. -/
def Catalog.listSchemas (c : Catalog) : Except Err (List Schema) := listRows c.schemas schemaRow

/-- functions.go:99-110: the loop body of `ListFunctions`. -/
def functionRow (r : FunctionRow) : Except Err Ddl.Function :=
  .ok { schema := string r.schema, name := string r.name, owner := string r.owner,
        comment := string r.comment, returns := string r.returns, language := string r.language,
        definition := string r.definition }

/-- functions.go:77-117 `ListFunctions`. -/
def Catalog.listFunctions (c : Catalog) : Except Err (List Ddl.Function) :=
  listRows c.functions functionRow

/-- functions.go:45-74 `DescribeFunction`. -/
def Catalog.describeFunction (c : Catalog) (schema name : Str) : Except Err Ddl.Function :=
  match c.function schema name with
  | .error e => .error e
  | .ok none => .error .notFound
  | .ok (some r) =>
    .ok { schema := schema, name := name, owner := string r.owner, comment := string r.comment,
          returns := string r.returns, language := string r.language,
          definition := string r.definition }

/-- sequence.go:116-153: the loop body of `listSequences`. -/
def sequenceRow (r : SequenceRow × Option Str × SequenceValues) : Except Err Sequence := do
  let start ← scan r.2.2.start
  let minimum ← scan r.2.2.minimum
  let maximum ← scan r.2.2.maximum
  let increment ← scan r.2.2.increment
  let cache ← scan r.2.2.cache
  let cycle ← scan r.2.2.cycle
  return {
    schema := string r.1.schema, name := string r.1.name, owner := string r.1.owner,
    comment := string r.1.comment, dataType := string r.2.1, start, minimum, maximum, increment,
    cache, cycle,
    ownedBy := some { schema := string r.1.ownerSchema, table := string r.1.ownerName,
                      column := string r.1.ownerColumn } }

/-- sequence.go:185-199: the loop body of `listSequencesLegacy`. -/
def legacySequenceRow (r : SequenceRow) : Except Err Sequence :=
  .ok { schema := string r.schema, name := string r.name, owner := string r.owner,
        comment := string r.comment, dataType := b!"bigint",
        ownedBy := some { schema := string r.ownerSchema, table := string r.ownerName,
                          column := string r.ownerColumn } }

/-- sequence.go:206-232: the body of the second loop of `listSequencesLegacy`. -/
def Catalog.fillSequence (c : Catalog) (seq : Sequence) : Except Err Sequence := do
  let v ← queryRow (c.sequence seq.schema seq.name)
  let start ← scan v.start
  let minimum ← scan v.minimum
  let maximum ← scan v.maximum
  let increment ← scan v.increment
  let cache ← scan v.cache
  let cycle ← scan v.cycle
  return { seq with start, minimum, maximum, increment, cache, cycle }

/-- sequence.go:205-233: the second loop of `listSequencesLegacy`. -/
def Catalog.fillSequences (c : Catalog) : List Sequence → Except Err (List Sequence)
  | [] => .ok []
  | seq :: rest =>
    match c.fillSequence seq with
    | .error e => .error e
    | .ok seq' =>
      match c.fillSequences rest with
      | .error e => .error e
      | .ok rest' => .ok (seq' :: rest')

/-- sequence.go:88-103 `ListSequences`, with 105-160 and 162-236. -/
def Catalog.listSequences (c : Catalog) : Except Err (List Sequence) :=
  match queryRow c.hasView >>= scan with
  | .error e => .error e
  | .ok true => listRows c.sequences sequenceRow
  | .ok false =>
    match listRows c.legacySequences legacySequenceRow with
    | .error e => .error e
    | .ok seqs => c.fillSequences seqs

/-- tables.go:36-48: the loop body of `ListTables`. -/
def tableRow (r : TableRow) : Except Err Ddl.Table :=
  .ok { schema := string r.schema, name := string r.name, owner := string r.owner,
        comment := string r.comment }

/-- tables.go:23-55 `ListTables`. -/
def Catalog.listTables (c : Catalog) : Except Err (List Ddl.Table) := listRows c.tables tableRow

/-- columns.go:42-53: the loop body of `ListColumns`. -/
def columnRow (r : ColumnRow) : Except Err Ddl.Column := do
  let name ← scan r.name
  let type ← scan r.type
  let notNull ← scan r.notNull
  return { name, type, notNull, default_ := string r.default_, comment := string r.comment }

/-- columns.go:29-60 `ListColumns`. -/
def Catalog.listColumns (c : Catalog) (schema table : Str) : Except Err (List Ddl.Column) :=
  listRows (c.columns schema table) columnRow

/-- check.go:34-47: the loop body of `ListChecks`. -/
def checkRow (r : DefRow) : Except Err Ddl.Check := do
  let name ← scan r.name
  let checkdef ← scan r.definition
  let check ← ofOutcome (Ddl.parseCheck checkdef)
  return { check with name := name }

/-- check.go:21-54 `ListChecks`. -/
def Catalog.listChecks (c : Catalog) (schema table : Str) : Except Err (List Ddl.Check) :=
  listRows (c.checks schema table) checkRow

/-- foreign_key.go:36-49: the loop body of `ListForeignKeys`. -/
def foreignKeyRow (r : DefRow) : Except Err Ddl.ForeignKey := do
  let name ← scan r.name
  let fkdef ← scan r.definition
  let fk ← ofOutcome (Ddl.parseForeignKey fkdef)
  return { fk with name := name }

/-- foreign_key.go:23-56 `ListForeignKeys`. -/
def Catalog.listForeignKeys (c : Catalog) (schema table : Str) : Except Err (List Ddl.ForeignKey) :=
  listRows (c.foreignKeys schema table) foreignKeyRow

/-- index.go:39-54: the loop body of `ListIndexes`. The name is scanned but not used. -/
def indexRow (schema : Str) (r : IndexRow) : Except Err Ddl.Index := do
  let _ ← scan r.name
  let isPrimary ← scan r.primary
  let indexdef ← scan r.definition
  let index ← ofOutcome (Ddl.parseIndex indexdef)
  return { index with schema := schema, primary := isPrimary }

/-- index.go:26-61 `ListIndexes`. -/
def Catalog.listIndexes (c : Catalog) (schema table : Str) : Except Err (List Ddl.Index) :=
  listRows (c.indexes schema table) (indexRow schema)

/-- triggers.go:77-90: the loop body of `ListTriggers`. The name is scanned but not used. -/
def triggerRow (schema : Str) (r : DefRow) : Except Err Ddl.Trigger := do
  let _ ← scan r.name
  let triggerdef ← scan r.definition
  let trigger ← ofOutcome (Ddl.parseTrigger triggerdef)
  return { trigger with schema := schema }

/-- triggers.go:64-97 `ListTriggers`. -/
def Catalog.listTriggers (c : Catalog) (schema table : Str) : Except Err (List Ddl.Trigger) :=
  listRows (c.triggers schema table) (triggerRow schema)

/-- triggers.go:37-61 `DescribeTrigger`. -/
def Catalog.describeTrigger (c : Catalog) (schema table name : Str) : Except Err Ddl.Trigger :=
  match c.trigger schema table name with
  | .error e => .error e
  | .ok none => .error .notFound
  | .ok (some r) => do
    let triggerdef ← scan r
    let trigger ← ofOutcome (Ddl.parseTrigger triggerdef)
    return { trigger with schema := schema }

/-- table_storage_parameters.go:32-54: the loop of `ListTableStorageParameters`. -/
def storageLoop {F : Type} (parseFloat : Str → F × Option Ddl.NumErr) :
    List (Option Str) → Ddl.Params F → Except Err (Ddl.Params F)
  | [], p => .ok p
  | r :: rows, p =>
    match scan r with
    | .error e => .error e
    | .ok tmp =>
      match p.set parseFloat (Ddl.splitOption tmp).1 (Ddl.splitOption tmp).2 with
      | (_, some e) => .error (.num e)
      | (p', none) => storageLoop parseFloat rows p'

/-- table_storage_parameters.go:20-55 `ListTableStorageParameters`. -/
def Catalog.listStorage {F : Type} (parseFloat : Str → F × Option Ddl.NumErr) (c : Catalog)
    (schema table : Str) : Except Err (Ddl.Params F) :=
  match c.storage schema table with
  | .error e => .error e
  | .ok st => storageLoop parseFloat st.rows {}

/-- version.go:4-16 `ServerVersion`. -/
def Catalog.serverVersion (c : Catalog) : Except Err Str := queryRow c.version >>= scan

end Verif.Pg
