import Verif.Pg.List

/-!
# Model of `/repo/internal/pg/inspect.go`
-/

namespace Verif.Pg
open Verif

/-- inspect.go:9-13 `type InspectOptions struct`; nil is the default (lines 18-20). -/
structure InspectOptions where
  sortChecks : Bool := false
  sortColumns : Bool := false
  sortIndexes : Bool := false
deriving DecidableEq, Repr

/-- A described table: `ddl.Table` with its storage parameters. -/
structure TableInfo (F : Type) where
  table : Ddl.Table
  storage : Ddl.Params F

/-- ddl/database.go:4-13 `type Database struct`. -/
structure Database (F : Type) where
  parameters : Parameters := {}
  schemas : List Schema := []
  functions : List Ddl.Function := []
  sequences : List Sequence := []
  tables : List (TableInfo F) := []
  indexes : List Ddl.Index := []
  triggers : List Ddl.Trigger := []

/-- Go's `a < b` on strings. -/
def strLt (a b : Str) : Bool := !Str.le b a

/-- A sorting routine: `sort.Slice` with the comparison given on elements. -/
abbrev Sorter := (α : Type) → (α → α → Bool) → List α → List α

/-- inspect.go:63-68: the comparison of `SortIndexes`. -/
def indexLess (a b : Ddl.Index) : Bool :=
  strLt a.schema b.schema && strLt a.table b.table && strLt a.name b.name

/-- inspect.go:81-83: the comparison of `SortColumns`. -/
def columnLess (a b : Ddl.Column) : Bool := strLt a.name b.name

/-- inspect.go:94-96: the comparison of `SortChecks`. -/
def checkLess (a b : Ddl.Check) : Bool := strLt a.expression b.expression

/-- inspect.go:74-130 `inspectTable`. Returns the described table, `db.Indexes` and `db.Triggers`.
`table.Checks` is nil on entry, so the `append` on line 91 copies: sorting `checks` afterwards
(lines 93-97) affects the local slice only. -/
def inspectTable {F : Type} (parseFloat : Str → F × Option Ddl.NumErr) (sort : Sorter)
    (c : Catalog) (o : InspectOptions) (indexes : List Ddl.Index) (triggers : List Ddl.Trigger)
    (table : Ddl.Table) : Except Err (TableInfo F × List Ddl.Index × List Ddl.Trigger) := do
  let columns ← c.listColumns table.schema table.name
  let columns := if o.sortColumns then sort _ columnLess columns else columns
  let checks ← c.listChecks table.schema table.name
  let tableChecks := if checks.length > 0 then table.checks ++ checks else table.checks
  let _checks := if o.sortChecks then sort _ checkLess checks else checks
  let fks ← c.listForeignKeys table.schema table.name
  let tableFks := if fks.length > 0 then table.foreignKeys ++ fks else table.foreignKeys
  let params ← c.listStorage parseFloat table.schema table.name
  let idxs ← c.listIndexes table.schema table.name
  let indexes := if idxs.length > 0 then indexes ++ idxs else indexes
  let trgs ← c.listTriggers table.schema table.name
  let triggers := if trgs.length > 0 then triggers ++ trgs else triggers
  return ({ table := { table with columns := columns, checks := tableChecks,
                                  foreignKeys := tableFks },
            storage := params }, indexes, triggers)

/-- inspect.go:55-59: the loop of `inspectTables`. -/
def inspectLoop {F : Type} (parseFloat : Str → F × Option Ddl.NumErr) (sort : Sorter)
    (c : Catalog) (o : InspectOptions) :
    List Ddl.Table → List (TableInfo F) → List Ddl.Index → List Ddl.Trigger →
      Except Err (List (TableInfo F) × List Ddl.Index × List Ddl.Trigger)
  | [], infos, indexes, triggers => .ok (infos, indexes, triggers)
  | table :: rest, infos, indexes, triggers =>
    match inspectTable parseFloat sort c o indexes triggers table with
    | .error e => .error e
    | .ok (info, indexes', triggers') =>
      inspectLoop parseFloat sort c o rest (infos ++ [info]) indexes' triggers'

/-- inspect.go:16-72 `InspectDatabase` and `inspectTables`. `sort` is `sort.Slice`. -/
def inspect {F : Type} (parseFloat : Str → F × Option Ddl.NumErr) (sort : Sorter) (c : Catalog)
    (o : InspectOptions) : Except Err (Database F) := do
  let parameters ← c.listParameters
  let schemas ← c.listSchemas
  let functions ← c.listFunctions
  let sequences ← c.listSequences
  let tables ← c.listTables
  let (infos, indexes, triggers) ← inspectLoop parseFloat sort c o tables [] [] []
  let indexes := if o.sortIndexes then sort _ indexLess indexes else indexes
  return { parameters, schemas, functions, sequences, tables := infos, indexes, triggers }

/-- sort/zsortfunc.go `insertionSort_func`: what `sort.Slice` does with fewer than 12 elements,
inner loop, on the sorted part in reverse order: `x` moves down while it is less. -/
def insertRev {α : Type} (less : α → α → Bool) (x : α) : List α → List α
  | [] => [x]
  | y :: l => if less x y then y :: insertRev less x l else x :: y :: l

/-- `insertionSort_func`, outer loop. -/
def insertionSort {α : Type} (less : α → α → Bool) (l : List α) : List α :=
  (l.foldl (fun acc x => insertRev less x acc) []).reverse

end Verif.Pg
