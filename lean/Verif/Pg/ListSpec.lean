import Verif.Pg.Inspect
import Verif.Ddl.ParseSpec

/-!
# What listings and inspections should return

For each listing the relation between a row and its description, and what it means for a listing to
be complete or to fail.
-/

namespace Verif.Pg
open Verif

/-- A NULL reads as the empty string. -/
def Reads (v : Option Str) (s : Str) : Prop := v = some s ∨ (v = none ∧ s = [])

structure SchemaDescribes (r : SchemaRow) (x : Schema) : Prop where
  name : Reads r.name x.name
  owner : Reads r.owner x.owner
  comment : Reads r.comment x.comment

structure FunctionDescribes (r : FunctionRow) (x : Ddl.Function) : Prop where
  schema : Reads r.schema x.schema
  name : Reads r.name x.name
  owner : Reads r.owner x.owner
  comment : Reads r.comment x.comment
  returns : Reads r.returns x.returns
  language : Reads r.language x.language
  definition : Reads r.definition x.definition

/-- A table as listed: its parts are not filled in yet. -/
structure TableDescribes (r : TableRow) (x : Ddl.Table) : Prop where
  schema : Reads r.schema x.schema
  name : Reads r.name x.name
  owner : Reads r.owner x.owner
  comment : Reads r.comment x.comment
  columns : x.columns = []
  checks : x.checks = []
  foreignKeys : x.foreignKeys = []

structure ColumnDescribes (r : ColumnRow) (x : Ddl.Column) : Prop where
  name : r.name = some x.name
  type : r.type = some x.type
  notNull : r.notNull = some x.notNull
  default_ : Reads r.default_ x.default_
  comment : Reads r.comment x.comment

/-- The common part of a sequence's description. -/
structure SequenceDescribes (r : SequenceRow) (v : SequenceValues) (x : Sequence) : Prop where
  schema : Reads r.schema x.schema
  name : Reads r.name x.name
  owner : Reads r.owner x.owner
  comment : Reads r.comment x.comment
  start : v.start = some x.start
  minimum : v.minimum = some x.minimum
  maximum : v.maximum = some x.maximum
  increment : v.increment = some x.increment
  cache : v.cache = some x.cache
  cycle : v.cycle = some x.cycle
  ownedBy : ∃ o, x.ownedBy = some o ∧ Reads r.ownerSchema o.schema ∧ Reads r.ownerName o.table ∧
    Reads r.ownerColumn o.column

/-- A check: the name is the catalog's, the rest is what the definition says (C41, C42). -/
def CheckDescribes (r : DefRow) (x : Ddl.Check) : Prop :=
  r.name = some x.name ∧ ∃ d, r.definition = some d ∧
    Ddl.parseCheck d = .ok { x with name := [] }

/-- A foreign key: the name is the catalog's, the rest is what the definition says. -/
def ForeignKeyDescribes (r : DefRow) (x : Ddl.ForeignKey) : Prop :=
  r.name = some x.name ∧ ∃ d, r.definition = some d ∧ Ddl.ForeignKeyText d { x with name := [] }

/-- An index: schema and primary flag are the catalog's, the rest is what the definition says. -/
def IndexDescribes (schema : Str) (r : IndexRow) (x : Ddl.Index) : Prop :=
  x.schema = schema ∧ r.primary = some x.primary ∧ r.name ≠ none ∧
    ∃ d, r.definition = some d ∧ Ddl.IndexText d { x with schema := [], primary := false }

/-- A trigger: the schema is the table's, the rest is what the definition says. -/
def TriggerDescribes (schema : Str) (r : DefRow) (x : Ddl.Trigger) : Prop :=
  x.schema = schema ∧ r.name ≠ none ∧
    ∃ d, r.definition = some d ∧ Ddl.TriggerText d { x with schema := [] }

/-- A listing does its work: a failed query is an error; so is a connection failure while reading
rows; otherwise it returns `xs` exactly if `xs` is one description per row, in order. -/
def ListsAll {ρ α : Type} (describes : ρ → α → Prop) (q : Query ρ) (res : Except Err (List α)) :
    Prop :=
  (∀ e, q = .error e → res = .error e) ∧
  ∀ st, q = .ok st →
    (st.failure ≠ none → ∃ e, res = .error e) ∧
    (st.failure = none → ∀ xs, res = .ok xs ↔ List.Forall₂ describes st.rows xs)

/-- The connection does not fail while reading the rows of the query. -/
def Unbroken {ρ : Type} (q : Query ρ) : Prop := ∀ st, q = .ok st → st.failure = none

/-- Strict weak orders: what `sort.Slice` requires of the comparison. -/
structure StrictWeak {α : Type} (less : α → α → Bool) : Prop where
  irrefl : ∀ a, less a a = false
  trans : ∀ a b c, less a b = true → less b c = true → less a c = true
  incomparable : ∀ a b c, less a b = false → less b a = false → less b c = false →
    less c b = false → less a c = false ∧ less c a = false

/-- The contract of `sort.Slice`: a permutation of the input, sorted if the comparison is a strict
weak order. (Not necessarily stable.) -/
structure SortSlice (sort : Sorter) : Prop where
  perm : ∀ (α : Type) (less : α → α → Bool) (l : List α), (sort α less l).Perm l
  sorted : ∀ (α : Type) (less : α → α → Bool) (l : List α), StrictWeak less →
    (sort α less l).Pairwise (fun a b => less b a = false)

/-- One of the listings about table `t` fails. -/
def TableFails {F : Type} (parseFloat : Str → F × Option Ddl.NumErr) (c : Catalog) (t : Ddl.Table) :
    Prop :=
  (∃ e, c.listColumns t.schema t.name = .error e) ∨ (∃ e, c.listChecks t.schema t.name = .error e) ∨
  (∃ e, c.listForeignKeys t.schema t.name = .error e) ∨
  (∃ e, c.listStorage parseFloat t.schema t.name = .error e) ∨
  (∃ e, c.listIndexes t.schema t.name = .error e) ∨ (∃ e, c.listTriggers t.schema t.name = .error e)

/-- One of the listings an inspection needs fails. -/
def SomeListingFails {F : Type} (parseFloat : Str → F × Option Ddl.NumErr) (c : Catalog) : Prop :=
  (∃ e, c.listParameters = .error e) ∨ (∃ e, c.listSchemas = .error e) ∨
  (∃ e, c.listFunctions = .error e) ∨ (∃ e, c.listSequences = .error e) ∨
  (∃ e, c.listTables = .error e) ∨
  ∃ ts t, c.listTables = .ok ts ∧ t ∈ ts ∧ TableFails parseFloat c t

/-- `info` describes the listed table `t`: the same table, with its own columns (reordered only if
asked to be sorted), checks, foreign keys and storage parameters. -/
structure TableComplete {F : Type} (parseFloat : Str → F × Option Ddl.NumErr) (c : Catalog)
    (o : InspectOptions) (t : Ddl.Table) (info : TableInfo F) : Prop where
  schema : info.table.schema = t.schema
  name : info.table.name = t.name
  owner : info.table.owner = t.owner
  comment : info.table.comment = t.comment
  columns : ∃ cols, c.listColumns t.schema t.name = .ok cols ∧ info.table.columns.Perm cols ∧
    (o.sortColumns = false → info.table.columns = cols)
  checks : ∃ chks, c.listChecks t.schema t.name = .ok chks ∧ info.table.checks.Perm chks ∧
    (o.sortChecks = false → info.table.checks = chks)
  foreignKeys : c.listForeignKeys t.schema t.name = .ok info.table.foreignKeys
  storage : c.listStorage parseFloat t.schema t.name = .ok info.storage

/-- `db` holds everything listed. -/
structure Complete {F : Type} (parseFloat : Str → F × Option Ddl.NumErr) (c : Catalog)
    (o : InspectOptions) (db : Database F) : Prop where
  parameters : c.listParameters = .ok db.parameters
  schemas : c.listSchemas = .ok db.schemas
  functions : c.listFunctions = .ok db.functions
  sequences : c.listSequences = .ok db.sequences
  tables : ∃ ts, c.listTables = .ok ts ∧
    List.Forall₂ (TableComplete parseFloat c o) ts db.tables ∧
    (∃ per, List.Forall₂ (fun t idxs => c.listIndexes t.schema t.name = .ok idxs) ts per ∧
      db.indexes.Perm per.flatten ∧ (o.sortIndexes = false → db.indexes = per.flatten)) ∧
    (∃ per, List.Forall₂ (fun t trgs => c.listTriggers t.schema t.name = .ok trgs) ts per ∧
      db.triggers = per.flatten)

/-- Index order: by schema, then table, then name. -/
def IndexBefore (a b : Ddl.Index) : Prop :=
  strLt a.schema b.schema = true ∨ (a.schema = b.schema ∧
    (strLt a.table b.table = true ∨ (a.table = b.table ∧ Str.le a.name b.name = true)))

/-- The lists that are asked to be sorted are sorted. -/
structure Sorted {F : Type} (o : InspectOptions) (db : Database F) : Prop where
  columns : o.sortColumns = true → ∀ t ∈ db.tables,
    t.table.columns.Pairwise (fun a b => Str.le a.name b.name = true)
  checks : o.sortChecks = true → ∀ t ∈ db.tables,
    t.table.checks.Pairwise (fun a b => Str.le a.expression b.expression = true)
  indexes : o.sortIndexes = true → db.indexes.Pairwise IndexBefore

end Verif.Pg
