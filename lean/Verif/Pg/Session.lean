import Verif.Pg.Inspect
import Verif.Pg.Identifier

/-!
# Model of `/repo/internal/pg`: what goes over a connection and into the log

`Catalog` (List.lean) says what each function makes of the answers to its statements. Here the same
functions are programs that write to the log and send statements one after the other, so that the
answers may differ from statement to statement: nothing keeps other sessions from changing the database
during an inspection.

Simplifications: of the lines written to the log those about rows (`scanning rows`, `row scanned`,
`scanned`, `parsed`, `server version = …`) are left out.
-/

namespace Verif.Pg.Session
open Verif Verif.Pg

/-- The statements the functions send. -/
inductive Ask
  /-- parameters.go:17 -/
  | searchPath
  /-- parameters.go:25 -/
  | timezone
  /-- schemas.go:22 -/
  | schemas
  /-- functions.go:81 -/
  | functions
  /-- functions.go:51 -/
  | function (schema name : Str)
  /-- sequence.go:94 -/
  | hasView
  /-- sequence.go:107 -/
  | sequences
  /-- sequence.go:164 -/
  | legacySequences
  /-- sequence.go:220 -/
  | sequence (schema name : Str)
  /-- tables.go:27 -/
  | tables
  /-- columns.go:33 -/
  | columns (schema table : Str)
  /-- check.go:25 -/
  | checks (schema table : Str)
  /-- foreign_key.go:27 -/
  | foreignKeys (schema table : Str)
  /-- table_storage_parameters.go:24 -/
  | storage (schema table : Str)
  /-- index.go:30 -/
  | indexes (schema table : Str)
  /-- triggers.go:68 -/
  | triggers (schema table : Str)
  /-- triggers.go:43 -/
  | trigger (schema table name : Str)
  /-- version.go:9 -/
  | version
  /-- pg.go:90 -/
  | exec (sql : Str)
deriving DecidableEq, Repr

/-- What the server may answer. The answer to `Exec` is the number of rows in the command tag and an
error: both are there if the text holds several statements of which a later one fails. -/
abbrev Ask.Answer : Ask → Type
  | .searchPath | .timezone | .version => QueryRow (Option Str)
  | .schemas => Query SchemaRow
  | .functions => Query FunctionRow
  | .function _ _ => QueryRow FunctionRow
  | .hasView => QueryRow (Option Bool)
  | .sequences => Query (SequenceRow × Option Str × SequenceValues)
  | .legacySequences => Query SequenceRow
  | .sequence _ _ => QueryRow SequenceValues
  | .tables => Query TableRow
  | .columns _ _ => Query ColumnRow
  | .checks _ _ | .foreignKeys _ _ | .triggers _ _ => Query DefRow
  | .storage _ _ => Query (Option Str)
  | .indexes _ _ => Query IndexRow
  | .trigger _ _ _ => QueryRow (Option Str)
  | .exec _ => Nat × Option Err

/-- The first argument of `conn.Query`, `conn.QueryRow` or `conn.Exec`; the lines are those given with
the constructors. -/
def Ask.text : Ask → Str
  | .searchPath => b!"SHOW search_path"
  | .timezone => b!"SHOW timezone"
  | .schemas => Sql.Texts.listSchemas
  | .functions => Sql.Texts.listFunctions
  | .function _ _ => Sql.Texts.describeFunction
  | .hasView => Sql.Texts.hasSequencesView
  | .sequences => Sql.Texts.listSequences
  | .legacySequences => Sql.Texts.listSequencesPre10
  | .sequence schema name => legacyQuery schema name
  | .tables => Sql.Texts.listTables
  | .columns _ _ => Sql.Texts.listColumns
  | .checks _ _ => Sql.Texts.listChecks
  | .foreignKeys _ _ => Sql.Texts.listForeignKeys
  | .storage _ _ => Sql.Texts.listTableStorageParameters
  | .indexes _ _ => Sql.Texts.listIndexes
  | .triggers _ _ => Sql.Texts.listTriggers
  | .trigger _ _ _ => Sql.Texts.describeTrigger
  | .version => b!"SELECT VERSION()"
  | .exec sql => sql

/-- The other arguments: the values of `$1`, `$2`, `$3`. -/
def Ask.args : Ask → List Str
  | .function schema name => [schema, name]
  | .columns schema table | .checks schema table | .foreignKeys schema table
  | .storage schema table | .indexes schema table | .triggers schema table => [schema, table]
  | .trigger schema table name => [schema, table, name]
  | _ => []

inductive Level
  | debug
  | info
deriving DecidableEq, Repr

/-- A line of the log: `c.log.Debugw`, `c.log.Infow` or `c.log.Debugf`. -/
structure Line where
  level : Level
  message : Str
  fields : List (Str × Str) := []
deriving DecidableEq, Repr

/-- What can be seen of a function of package pg from outside. -/
inductive Event
  | logged (l : Line)
  | sent (a : Ask)
deriving DecidableEq, Repr

/-- A function of package pg that returns an `α` or an error. -/
inductive Talk (α : Type) : Type
  | done (r : Except Err α)
  | log (l : Line) (rest : Talk α)
  | send (a : Ask) (rest : a.Answer → Talk α)

/-- `x, err := t(); if err != nil { return nil, err }; f(x)`. -/
def Talk.bind {α β : Type} : Talk α → (α → Talk β) → Talk β
  | .done (.error e), _ => .done (.error e)
  | .done (.ok a), f => f a
  | .log l rest, f => .log l (rest.bind f)
  | .send a rest, f => .send a fun r => (rest r).bind f

instance : Monad Talk where
  pure a := .done (.ok a)
  bind := Talk.bind

/-- How the statements of a session are answered: the `n`-th one, counted from 0. -/
abbrev Server := Nat → (a : Ask) → a.Answer

/-- What a function does over a connection over which `n` statements have been sent before: what is
seen, how many statements have been sent afterwards, and what is returned. -/
def Talk.run {α : Type} (srv : Server) : Nat → Talk α → List Event × Nat × Except Err α
  | n, .done r => ([], n, r)
  | n, .log l rest =>
    let x := rest.run srv n
    (.logged l :: x.1, x.2)
  | n, .send a rest =>
    let x := (rest (srv n a)).run srv (n + 1)
    (.sent a :: x.1, x.2)

def lift {α : Type} (r : Except Err α) : Talk α := .done r

def note (l : Line) : Talk Unit := .log l (.done (.ok ()))

/-- `c.log.Infow(message, fields...)`. -/
def info (message : Str) (fields : List (Str × Str) := []) : Talk Unit :=
  note { level := .info, message, fields }

/-- `c.log.Debugw("executing query", "query", query)`. -/
def executing (query : Str) : Talk Unit :=
  note { level := .debug, message := b!"executing query", fields := [(b!"query", query)] }

def ask (a : Ask) : Talk a.Answer := .send a fun r => .done (.ok r)

/-! ## The functions -/

/-- parameters.go:10-32 `ListParameters`. -/
def listParameters : Talk Parameters := do
  info b!"listing parameters"
  note { level := .debug, message := b!"SHOW search_path" }
  let row ← ask .searchPath
  let tmp ← lift (queryRow row >>= scan)
  note { level := .debug, message := b!"SHOW timezone" }
  let row ← ask .timezone
  let timezone ← lift (queryRow row >>= scan)
  return { searchPath := splitComma tmp, timezone }

/-- schemas.go:18-49 `ListSchemas`. -/
def listSchemas : Talk (List Schema) := do
  info b!"listing schemas"
  executing Sql.Texts.listSchemas
  let rows ← ask .schemas
  lift (listRows rows schemaRow)

/-- functions.go:77-117 `ListFunctions`. -/
def listFunctions : Talk (List Ddl.Function) := do
  info b!"ListFunctions"
  executing Sql.Texts.listFunctions
  let rows ← ask .functions
  lift (listRows rows functionRow)

/-- functions.go:53-73: what `DescribeFunction` makes of the answer. -/
def describedFunction (schema name : Str) : QueryRow FunctionRow → Except Err Ddl.Function
  | .error e => .error e
  | .ok none => .error .notFound
  | .ok (some r) =>
    .ok { schema := schema, name := name, owner := string r.owner, comment := string r.comment,
          returns := string r.returns, language := string r.language,
          definition := string r.definition }

/-- functions.go:45-74 `DescribeFunction`. -/
def describeFunction (schema name : Str) : Talk Ddl.Function := do
  info b!"DescribeFunction" [(b!"schema", schema), (b!"name", name)]
  executing Sql.Texts.describeFunction
  let row ← ask (.function schema name)
  lift (describedFunction schema name row)

/-- sequence.go:224-232: what the second loop of `listSequencesLegacy` makes of an answer. -/
def filled (seq : Sequence) (row : QueryRow SequenceValues) : Except Err Sequence := do
  let v ← queryRow row
  let start ← scan v.start
  let minimum ← scan v.minimum
  let maximum ← scan v.maximum
  let increment ← scan v.increment
  let cache ← scan v.cache
  let cycle ← scan v.cycle
  return { seq with start, minimum, maximum, increment, cache, cycle }

/-- sequence.go:205-233: the second loop of `listSequencesLegacy`. -/
def fillSequences : List Sequence → Talk (List Sequence)
  | [] => return []
  | seq :: rest => do
    executing (legacyQuery seq.schema seq.name)
    let row ← ask (.sequence seq.schema seq.name)
    let seq' ← lift (filled seq row)
    let rest' ← fillSequences rest
    return seq' :: rest'

/-- sequence.go:88-103 `ListSequences`, with 105-160 and 162-236. -/
def listSequences : Talk (List Sequence) := do
  info b!"ListSequences"
  executing Sql.Texts.hasSequencesView
  let row ← ask .hasView
  let hasView ← lift (queryRow row >>= scan)
  if hasView then
    executing Sql.Texts.listSequences
    let rows ← ask .sequences
    lift (listRows rows sequenceRow)
  else
    executing Sql.Texts.listSequencesPre10
    let rows ← ask .legacySequences
    let sequences ← lift (listRows rows legacySequenceRow)
    fillSequences sequences

/-- tables.go:23-55 `ListTables`. -/
def listTables : Talk (List Ddl.Table) := do
  info b!"ListTables"
  executing Sql.Texts.listTables
  let rows ← ask .tables
  lift (listRows rows tableRow)

/-- columns.go:29-60 `ListColumns`. -/
def listColumns (schema table : Str) : Talk (List Ddl.Column) := do
  info b!"listing columns" [(b!"schema", schema), (b!"table", table)]
  executing Sql.Texts.listColumns
  let rows ← ask (.columns schema table)
  lift (listRows rows columnRow)

/-- check.go:21-54 `ListChecks`. -/
def listChecks (schema table : Str) : Talk (List Ddl.Check) := do
  info b!"listing checks" [(b!"schema", schema), (b!"table", table)]
  executing Sql.Texts.listChecks
  let rows ← ask (.checks schema table)
  lift (listRows rows checkRow)

/-- foreign_key.go:23-56 `ListForeignKeys`. -/
def listForeignKeys (schema table : Str) : Talk (List Ddl.ForeignKey) := do
  info b!"listing foreign keys" [(b!"schema", schema), (b!"table", table)]
  executing Sql.Texts.listForeignKeys
  let rows ← ask (.foreignKeys schema table)
  lift (listRows rows foreignKeyRow)

/-- table_storage_parameters.go:25-54: what `ListTableStorageParameters` makes of the answer. -/
def storageRows {F : Type} (parseFloat : Str → F × Option Ddl.NumErr) :
    Query (Option Str) → Except Err (Ddl.Params F)
  | .error e => .error e
  | .ok st => storageLoop parseFloat st.rows {}

/-- table_storage_parameters.go:20-55 `ListTableStorageParameters`. -/
def listStorage {F : Type} (parseFloat : Str → F × Option Ddl.NumErr) (schema table : Str) :
    Talk (Ddl.Params F) := do
  info b!"listing table storage parameters" [(b!"schema", schema), (b!"table", table)]
  executing Sql.Texts.listTableStorageParameters
  let rows ← ask (.storage schema table)
  lift (storageRows parseFloat rows)

/-- index.go:26-61 `ListIndexes`. -/
def listIndexes (schema table : Str) : Talk (List Ddl.Index) := do
  info b!"listing indexes" [(b!"schema", schema), (b!"table", table)]
  executing Sql.Texts.listIndexes
  let rows ← ask (.indexes schema table)
  lift (listRows rows (indexRow schema))

/-- triggers.go:64-97 `ListTriggers`. -/
def listTriggers (schema table : Str) : Talk (List Ddl.Trigger) := do
  info b!"ListTriggers" [(b!"schema", schema), (b!"table", table)]
  executing Sql.Texts.listTriggers
  let rows ← ask (.triggers schema table)
  lift (listRows rows (triggerRow schema))

/-- triggers.go:44-60: what `DescribeTrigger` makes of the answer. -/
def describedTrigger (schema : Str) : QueryRow (Option Str) → Except Err Ddl.Trigger
  | .error e => .error e
  | .ok none => .error .notFound
  | .ok (some r) => do
    let triggerdef ← scan r
    let trigger ← ofOutcome (Ddl.parseTrigger triggerdef)
    return { trigger with schema := schema }

/-- triggers.go:37-61 `DescribeTrigger`. Line 42 logs the statement of `ListTriggers`. -/
def describeTrigger (schema table name : Str) : Talk Ddl.Trigger := do
  info b!"DescribeTrigger" [(b!"schema", schema), (b!"table", table), (b!"name", name)]
  executing Sql.Texts.listTriggers
  let row ← ask (.trigger schema table name)
  lift (describedTrigger schema row)

/-- version.go:4-16 `ServerVersion`. -/
def serverVersion : Talk Str := do
  info b!"requesting server version"
  executing b!"SELECT VERSION()"
  let row ← ask .version
  lift (queryRow row >>= scan)

/-- `%d` of a number that is not negative. -/
def decimal (n : Nat) : Str :=
  if n < 10 then [UInt8.ofNat (48 + n)] else decimal (n / 10) ++ [UInt8.ofNat (48 + n % 10)]

/-- pg.go:93: the line with the number of rows. -/
def rowsAffected (n : Nat) : Line :=
  { level := .debug, message := b!"rows affected = " ++ decimal n }

/-- pg.go:88-96 `Exec`. Line 92 is `if err != nil`. -/
def exec (sql : Str) : Talk Unit := do
  note { level := .debug, message := b!"executing sql", fields := [(b!"sql", sql)] }
  let r ← ask (.exec sql)
  match r.2 with
  | some e => do
    note (rowsAffected r.1)
    lift (.error e)
  | none => return ()

/-- inspect.go:74-130 `inspectTable`; see `Pg.inspectTable`. -/
def inspectTable {F : Type} (parseFloat : Str → F × Option Ddl.NumErr) (sort : Sorter)
    (o : InspectOptions) (indexes : List Ddl.Index) (triggers : List Ddl.Trigger)
    (table : Ddl.Table) : Talk (TableInfo F × List Ddl.Index × List Ddl.Trigger) := do
  let columns ← listColumns table.schema table.name
  let columns := if o.sortColumns then sort _ columnLess columns else columns
  let checks ← listChecks table.schema table.name
  let tableChecks := if checks.length > 0 then table.checks ++ checks else table.checks
  let fks ← listForeignKeys table.schema table.name
  let tableFks := if fks.length > 0 then table.foreignKeys ++ fks else table.foreignKeys
  let params ← listStorage parseFloat table.schema table.name
  let idxs ← listIndexes table.schema table.name
  let indexes := if idxs.length > 0 then indexes ++ idxs else indexes
  let trgs ← listTriggers table.schema table.name
  let triggers := if trgs.length > 0 then triggers ++ trgs else triggers
  return ({ table := { table with columns := columns, checks := tableChecks,
                                  foreignKeys := tableFks },
            storage := params }, indexes, triggers)

/-- inspect.go:55-59: the loop of `inspectTables`. -/
def inspectLoop {F : Type} (parseFloat : Str → F × Option Ddl.NumErr) (sort : Sorter)
    (o : InspectOptions) :
    List Ddl.Table → List (TableInfo F) → List Ddl.Index → List Ddl.Trigger →
      Talk (List (TableInfo F) × List Ddl.Index × List Ddl.Trigger)
  | [], infos, indexes, triggers => return (infos, indexes, triggers)
  | table :: rest, infos, indexes, triggers => do
    let x ← inspectTable parseFloat sort o indexes triggers table
    inspectLoop parseFloat sort o rest (infos ++ [x.1]) x.2.1 x.2.2

/-- inspect.go:16-72 `InspectDatabase` and `inspectTables`. -/
def inspect {F : Type} (parseFloat : Str → F × Option Ddl.NumErr) (sort : Sorter)
    (o : InspectOptions) : Talk (Database F) := do
  let parameters ← listParameters
  let schemas ← listSchemas
  let functions ← listFunctions
  let sequences ← listSequences
  let tables ← listTables
  let x ← inspectLoop parseFloat sort o tables [] [] []
  let indexes := if o.sortIndexes then sort _ indexLess x.2.1 else x.2.1
  return { parameters, schemas, functions, sequences, tables := x.1, indexes, triggers := x.2.2 }

/-! ## A session -/

/-- The calls a program can make over a connection. -/
inductive Call
  | listParameters
  | listSchemas
  | listFunctions
  | describeFunction (schema name : Str)
  | listSequences
  | listTables
  | listColumns (schema table : Str)
  | listChecks (schema table : Str)
  | listForeignKeys (schema table : Str)
  | listTableStorageParameters (schema table : Str)
  | listIndexes (schema table : Str)
  | listTriggers (schema table : Str)
  | describeTrigger (schema table name : Str)
  | serverVersion
  | inspectDatabase (o : InspectOptions)
  | exec (sql : Str)
deriving DecidableEq, Repr

/-- What a call does; see the functions. The result is dropped. -/
def Call.talk {F : Type} (parseFloat : Str → F × Option Ddl.NumErr) (sort : Sorter) : Call → Talk Unit
  | .listParameters => do let _ ← Session.listParameters
  | .listSchemas => do let _ ← Session.listSchemas
  | .listFunctions => do let _ ← Session.listFunctions
  | .describeFunction schema name => do let _ ← Session.describeFunction schema name
  | .listSequences => do let _ ← Session.listSequences
  | .listTables => do let _ ← Session.listTables
  | .listColumns schema table => do let _ ← Session.listColumns schema table
  | .listChecks schema table => do let _ ← Session.listChecks schema table
  | .listForeignKeys schema table => do let _ ← Session.listForeignKeys schema table
  | .listTableStorageParameters schema table => do let _ ← Session.listStorage parseFloat schema table
  | .listIndexes schema table => do let _ ← Session.listIndexes schema table
  | .listTriggers schema table => do let _ ← Session.listTriggers schema table
  | .describeTrigger schema table name => do let _ ← Session.describeTrigger schema table name
  | .serverVersion => do let _ ← Session.serverVersion
  | .inspectDatabase o => do let _ ← Session.inspect parseFloat sort o
  | .exec sql => Session.exec sql

/-- What is seen of a series of calls over one connection. A call is made whether the one before it
failed or not. -/
def session {F : Type} (parseFloat : Str → F × Option Ddl.NumErr) (sort : Sorter) (srv : Server) :
    Nat → List Call → List Event
  | _, [] => []
  | n, call :: calls =>
    let x := (call.talk parseFloat sort).run srv n
    x.1 ++ session parseFloat sort srv x.2.1 calls

/-- The statements among the events. -/
def statements (tr : List Event) : List Ask :=
  tr.filterMap fun | .sent a => some a | .logged _ => none

/-- The answers of a server whose catalogs are `c`; the answer to `Exec` is of no interest here. -/
def answer (c : Catalog) : (a : Ask) → a.Answer
  | .searchPath => c.searchPath
  | .timezone => c.timezone
  | .schemas => c.schemas
  | .functions => c.functions
  | .function schema name => c.function schema name
  | .hasView => c.hasView
  | .sequences => c.sequences
  | .legacySequences => c.legacySequences
  | .sequence schema name => c.sequence schema name
  | .tables => c.tables
  | .columns schema table => c.columns schema table
  | .checks schema table => c.checks schema table
  | .foreignKeys schema table => c.foreignKeys schema table
  | .storage schema table => c.storage schema table
  | .indexes schema table => c.indexes schema table
  | .triggers schema table => c.triggers schema table
  | .trigger schema table name => c.trigger schema table name
  | .version => c.version
  | .exec _ => (0, none)

/-- A server whose catalogs change: `c n` are those the `n`-th statement meets. -/
def during (c : Nat → Catalog) : Server := fun n a => answer (c n) a

end Verif.Pg.Session
