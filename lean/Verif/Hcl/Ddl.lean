import Verif.Hcl.Model
import Verif.Hcl.Tags
import Verif.Pg.Inspect

/-!
# The structs of `/repo/internal/ddl` as HCL documents, and `ddl.go`
-/

namespace Verif.Hcl
open Verif

/-- table.go:6-17 `type Table struct` with the pointer to the storage parameters. -/
structure Table (F : Type) where
  table : Ddl.Table := {}
  storageParameters : Option (Ddl.Params F) := none

/-- database.go:4-13 `type Database struct` -/
structure Database (F : Type) where
  parameters : Option Pg.Parameters := none
  schemas : List Pg.Schema := []
  functions : List Ddl.Function := []
  sequences : List Pg.Sequence := []
  tables : List (Table F) := []
  indexes : List Ddl.Index := []
  triggers : List Ddl.Trigger := []

section
variable {F N : Type}

/-- database.go:16-19 `type Parameters struct` -/
def parameters (L : Lib F N) : Codec N Pg.Parameters where
  goName := b!"Parameters"
  zero := {}
  fields := [
    .ofAttr L b!"SearchPath" b!"search_path" b!"optional" (.strings L) (·.searchPath) (fun x a => { a with searchPath := x }),
    .ofAttr L b!"Timezone" b!"timezone" b!"optional" (.string L) (·.timezone) (fun x a => { a with timezone := x })]

/-- database.go:22-26 `type Schema struct` -/
def schema (L : Lib F N) : Codec N Pg.Schema where
  goName := b!"Schema"
  zero := {}
  fields := [
    .ofLabel L b!"Name" b!"name" (·.name) (fun x a => { a with name := x }),
    .ofAttr L b!"Owner" b!"owner" b!"optional" (.string L) (·.owner) (fun x a => { a with owner := x }),
    .ofAttr L b!"Comment" b!"comment" b!"optional" (.string L) (·.comment) (fun x a => { a with comment := x })]

/-- function.go:6-15 `type Function struct` -/
def function (L : Lib F N) : Codec N Ddl.Function where
  goName := b!"Function"
  zero := {}
  fields := [
    .ofLabel L b!"Schema" b!"schema" (·.schema) (fun x a => { a with schema := x }),
    .ofLabel L b!"Name" b!"name" (·.name) (fun x a => { a with name := x }),
    .ofAttr L b!"Owner" b!"owner" b!"optional" (.string L) (·.owner) (fun x a => { a with owner := x }),
    .ofAttr L b!"Comment" b!"comment" b!"optional" (.string L) (·.comment) (fun x a => { a with comment := x }),
    .ofAttr L b!"Returns" b!"returns" b!"attr" (.string L) (·.returns) (fun x a => { a with returns := x }),
    .ofAttr L b!"Language" b!"language" b!"attr" (.string L) (·.language) (fun x a => { a with language := x }),
    .ofAttr L b!"Definition" b!"definition" b!"attr" (.string L) (·.definition) (fun x a => { a with definition := x })]

/-- sequence.go:20-24 `type SequenceOwner struct` -/
def sequenceOwner (L : Lib F N) : Codec N Pg.SequenceOwner where
  goName := b!"SequenceOwner"
  zero := {}
  fields := [
    .ofAttr L b!"Schema" b!"schema" b!"attr" (.string L) (·.schema) (fun x a => { a with schema := x }),
    .ofAttr L b!"Table" b!"table" b!"attr" (.string L) (·.table) (fun x a => { a with table := x }),
    .ofAttr L b!"Column" b!"column" b!"attr" (.string L) (·.column) (fun x a => { a with column := x })]

/-- sequence.go:4-18 `type Sequence struct` -/
def sequence (L : Lib F N) : Codec N Pg.Sequence where
  goName := b!"Sequence"
  zero := {}
  fields := [
    .ofLabel L b!"Schema" b!"schema" (·.schema) (fun x a => { a with schema := x }),
    .ofLabel L b!"Name" b!"name" (·.name) (fun x a => { a with name := x }),
    .ofAttr L b!"Owner" b!"owner" b!"optional" (.string L) (·.owner) (fun x a => { a with owner := x }),
    .ofAttr L b!"Comment" b!"comment" b!"optional" (.string L) (·.comment) (fun x a => { a with comment := x }),
    .ofAttr L b!"DataType" b!"data_type" b!"optional" (.string L) (·.dataType) (fun x a => { a with dataType := x }),
    .ofAttr L b!"Start" b!"start" b!"optional" (.int L b!"int64") (·.start) (fun x a => { a with start := x }),
    .ofAttr L b!"Minimum" b!"minimum" b!"optional" (.int L b!"int64") (·.minimum) (fun x a => { a with minimum := x }),
    .ofAttr L b!"Maximum" b!"maximum" b!"optional" (.int L b!"int64") (·.maximum) (fun x a => { a with maximum := x }),
    .ofAttr L b!"Increment" b!"increment" b!"optional" (.int L b!"int64") (·.increment) (fun x a => { a with increment := x }),
    .ofAttr L b!"Cache" b!"cache" b!"optional" (.int L b!"int64") (·.cache) (fun x a => { a with cache := x }),
    .ofAttr L b!"Cycle" b!"cycle" b!"optional" .bool (·.cycle) (fun x a => { a with cycle := x }),
    .ofBlock b!"OwnedBy" b!"owned_by" (sequenceOwner L) (·.ownedBy) (fun x a => { a with ownedBy := x })]

/-- table.go:20-26 `type Column struct` -/
def column (L : Lib F N) : Codec N Ddl.Column where
  goName := b!"Column"
  zero := {}
  fields := [
    .ofLabel L b!"Name" b!"name" (·.name) (fun x a => { a with name := x }),
    .ofAttr L b!"Type" b!"type" b!"attr" (.string L) (·.type) (fun x a => { a with type := x }),
    .ofAttr L b!"NotNull" b!"not_null" b!"optional" .bool (·.notNull) (fun x a => { a with notNull := x }),
    .ofAttr L b!"Default" b!"default" b!"optional" (.string L) (·.default_) (fun x a => { a with default_ := x }),
    .ofAttr L b!"Comment" b!"comment" b!"optional" (.string L) (·.comment) (fun x a => { a with comment := x })]

/-- check.go:4-9 `type Check struct` -/
def check (L : Lib F N) : Codec N Ddl.Check where
  goName := b!"Check"
  zero := {}
  fields := [
    .ofAttr L b!"Name" b!"name" b!"optional" (.string L) (·.name) (fun x a => { a with name := x }),
    .ofAttr L b!"Expression" b!"expression" b!"attr" (.string L) (·.expression) (fun x a => { a with expression := x }),
    .ofAttr L b!"Deferrable" b!"deferrable" b!"optional" .bool (·.deferrable) (fun x a => { a with deferrable := x }),
    .ofAttr L b!"InitiallyDeferred" b!"initially_deferred" b!"optional" .bool (·.initiallyDeferred) (fun x a => { a with initiallyDeferred := x })]

/-- foreign_key.go:4-16 `type ForeignKey struct` -/
def foreignKey (L : Lib F N) : Codec N Ddl.ForeignKey where
  goName := b!"ForeignKey"
  zero := {}
  fields := [
    .ofAttr L b!"Name" b!"name" b!"optional" (.string L) (·.name) (fun x a => { a with name := x }),
    .ofLabel L b!"Table" b!"table" (·.table) (fun x a => { a with table := x }),
    .ofAttr L b!"Columns" b!"columns" b!"attr" (.strings L) (·.columns) (fun x a => { a with columns := x }),
    .ofAttr L b!"Referenced" b!"referenced" b!"attr" (.strings L) (·.referenced) (fun x a => { a with referenced := x }),
    .ofAttr L b!"Match" b!"match" b!"optional" (.string L) (·.match_) (fun x a => { a with match_ := x }),
    .ofAttr L b!"OnDelete" b!"on_delete" b!"optional" (.string L) (·.onDelete) (fun x a => { a with onDelete := x }),
    .ofAttr L b!"OnUpdate" b!"on_update" b!"optional" (.string L) (·.onUpdate) (fun x a => { a with onUpdate := x }),
    .ofAttr L b!"Deferrable" b!"deferrable" b!"optional" .bool (·.deferrable) (fun x a => { a with deferrable := x }),
    .ofAttr L b!"InitiallyDeferred" b!"initially_deferred" b!"optional" .bool (·.initiallyDeferred) (fun x a => { a with initiallyDeferred := x })]

/-- table_storage_parameters.go:6-23 `type TableStorageParameters struct` -/
def tableStorageParameters (L : Lib F N) : Codec N (Ddl.Params F) where
  goName := b!"TableStorageParameters"
  zero := {}
  fields := [
    .ofAttr L b!"Fillfactor" b!"fillfactor" b!"optional" (Attr.ptr (.int L b!"int")) (·.fillfactor) (fun x a => { a with fillfactor := x }),
    .ofAttr L b!"ParallelWorkers" b!"parallel_workers" b!"optional" (Attr.ptr (.int L b!"int")) (·.parallelWorkers) (fun x a => { a with parallelWorkers := x }),
    .ofAttr L b!"AutovacuumEnabled" b!"autovacuum_enabled" b!"optional" (Attr.ptr .bool) (·.autovacuumEnabled) (fun x a => { a with autovacuumEnabled := x }),
    .ofAttr L b!"AutovacuumVacuumThreshold" b!"autovacuum_vacuum_threshold" b!"optional" (Attr.ptr (.int L b!"int")) (·.autovacuumVacuumThreshold) (fun x a => { a with autovacuumVacuumThreshold := x }),
    .ofAttr L b!"AutovacuumVacuumScaleFactor" b!"autovacuum_vacuum_scale_factor" b!"optional" (Attr.ptr (.float L)) (·.autovacuumVacuumScaleFactor) (fun x a => { a with autovacuumVacuumScaleFactor := x }),
    .ofAttr L b!"AutovacuumAnalyzeThreshold" b!"autovacuum_analyze_threshold" b!"optional" (Attr.ptr (.int L b!"int")) (·.autovacuumAnalyzeThreshold) (fun x a => { a with autovacuumAnalyzeThreshold := x }),
    .ofAttr L b!"AutovacuumAnalyzeScaleFactor" b!"autovacuum_analyze_scale_factor" b!"optional" (Attr.ptr (.float L)) (·.autovacuumAnalyzeScaleFactor) (fun x a => { a with autovacuumAnalyzeScaleFactor := x }),
    .ofAttr L b!"AutovacuumVacuumCostDelay" b!"autovacuum_vacuum_cost_limit" b!"optional" (Attr.ptr (.int L b!"int")) (·.autovacuumVacuumCostDelay) (fun x a => { a with autovacuumVacuumCostDelay := x }),
    .ofAttr L b!"AutovacuumFreezeMinAge" b!"autovacuum_freeze_min_age" b!"optional" (Attr.ptr (.int L b!"int")) (·.autovacuumFreezeMinAge) (fun x a => { a with autovacuumFreezeMinAge := x }),
    .ofAttr L b!"AutovacuumFreezeMaxAge" b!"autovacuum_freeze_max_age" b!"optional" (Attr.ptr (.int L b!"int")) (·.autovacuumFreezeMaxAge) (fun x a => { a with autovacuumFreezeMaxAge := x }),
    .ofAttr L b!"AutovacuumFreezeTableAge" b!"autovacuum_freeze_table_age" b!"optional" (Attr.ptr (.int L b!"int")) (·.autovacuumFreezeTableAge) (fun x a => { a with autovacuumFreezeTableAge := x }),
    .ofAttr L b!"AutovacuumMultixactFreezeMinAge" b!"autovacuum_multixact_freeze_min_age" b!"optional" (Attr.ptr (.int L b!"int")) (·.autovacuumMultixactFreezeMinAge) (fun x a => { a with autovacuumMultixactFreezeMinAge := x }),
    .ofAttr L b!"AutovacuumMultixactFreezeMaxAge" b!"autovacuum_multixact_freeze_max_age" b!"optional" (Attr.ptr (.int L b!"int")) (·.autovacuumMultixactFreezeMaxAge) (fun x a => { a with autovacuumMultixactFreezeMaxAge := x }),
    .ofAttr L b!"AutovacuumMultixactFreezeTableAge" b!"autovacuum_multixact_freeze_table_age" b!"optional" (Attr.ptr (.int L b!"int")) (·.autovacuumMultixactFreezeTableAge) (fun x a => { a with autovacuumMultixactFreezeTableAge := x }),
    .ofAttr L b!"LogAutovacuumMinDuration" b!"log_autovacuum_min_duration" b!"optional" (Attr.ptr (.int L b!"int")) (·.logAutovacuumMinDuration) (fun x a => { a with logAutovacuumMinDuration := x }),
    .ofAttr L b!"UserCatalogTable" b!"user_catalog_table" b!"optional" (Attr.ptr .bool) (·.userCatalogTable) (fun x a => { a with userCatalogTable := x })]

/-- table.go:6-17 `type Table struct` -/
def table (L : Lib F N) : Codec N (Table F) where
  goName := b!"Table"
  zero := {}
  fields := [
    .ofLabel L b!"Schema" b!"schema" (·.table.schema) (fun x a => { a with table := { a.table with schema := x } }),
    .ofLabel L b!"Name" b!"name" (·.table.name) (fun x a => { a with table := { a.table with name := x } }),
    .ofAttr L b!"Owner" b!"owner" b!"optional" (.string L) (·.table.owner) (fun x a => { a with table := { a.table with owner := x } }),
    .ofAttr L b!"Comment" b!"comment" b!"optional" (.string L) (·.table.comment) (fun x a => { a with table := { a.table with comment := x } }),
    .ofBlocks b!"Columns" b!"column" (column L) (·.table.columns) (fun x a => { a with table := { a.table with columns := x } }),
    .ofBlocks b!"Checks" b!"check" (check L) (·.table.checks) (fun x a => { a with table := { a.table with checks := x } }),
    .ofBlocks b!"ForeignKeys" b!"foreign_key" (foreignKey L) (·.table.foreignKeys) (fun x a => { a with table := { a.table with foreignKeys := x } }),
    .ofBlock b!"StorageParameters" b!"storage_parameters" (tableStorageParameters L) (·.storageParameters) (fun x a => { a with storageParameters := x })]

/-- index.go:20-25 `type IndexKey struct` -/
def indexKey (L : Lib F N) : Codec N Ddl.IndexKey where
  goName := b!"IndexKey"
  zero := {}
  fields := [
    .ofAttr L b!"Column" b!"column" b!"optional" (.string L) (·.column) (fun x a => { a with column := x }),
    .ofAttr L b!"Expression" b!"expression" b!"optional" (.string L) (·.expression) (fun x a => { a with expression := x }),
    .ofAttr L b!"OpClass" b!"opclass" b!"optional" (.string L) (·.opClass) (fun x a => { a with opClass := x }),
    .ofAttr L b!"Descending" b!"descending" b!"optional" .bool (·.descending) (fun x a => { a with descending := x })]

/-- index.go:6-17 `type Index struct` -/
def index (L : Lib F N) : Codec N Ddl.Index where
  goName := b!"Index"
  zero := {}
  fields := [
    .ofLabel L b!"Schema" b!"schema" (·.schema) (fun x a => { a with schema := x }),
    .ofLabel L b!"Table" b!"table" (·.table) (fun x a => { a with table := x }),
    .ofLabel L b!"Name" b!"name" (·.name) (fun x a => { a with name := x }),
    .ofAttr L b!"Primary" b!"primary" b!"optional" .bool (·.primary) (fun x a => { a with primary := x }),
    .ofAttr L b!"Unique" b!"unique" b!"optional" .bool (·.unique) (fun x a => { a with unique := x }),
    .ofAttr L b!"Using" b!"using" b!"optional" (.string L) (·.using_) (fun x a => { a with using_ := x }),
    .ofAttr L b!"Where" b!"where" b!"optional" (.string L) (·.where_) (fun x a => { a with where_ := x }),
    .ofBlocks b!"Keys" b!"key" (indexKey L) (·.keys) (fun x a => { a with keys := x })]

/-- trigger.go:6-24 `type Trigger struct` -/
def trigger (L : Lib F N) : Codec N Ddl.Trigger where
  goName := b!"Trigger"
  zero := {}
  fields := [
    .ofLabel L b!"Schema" b!"schema" (·.schema) (fun x a => { a with schema := x }),
    .ofLabel L b!"Table" b!"table" (·.table) (fun x a => { a with table := x }),
    .ofLabel L b!"Name" b!"name" (·.name) (fun x a => { a with name := x }),
    .ofAttr L b!"Function" b!"function" b!"attr" (.string L) (·.function) (fun x a => { a with function := x }),
    .ofAttr L b!"When" b!"when" b!"attr" (.string L) (·.when_) (fun x a => { a with when_ := x }),
    .ofAttr L b!"Constraint" b!"constraint" b!"optional" .bool (·.constraint) (fun x a => { a with constraint := x }),
    .ofAttr L b!"Deferrable" b!"deferrable" b!"optional" .bool (·.deferrable) (fun x a => { a with deferrable := x }),
    .ofAttr L b!"InitiallyDeferred" b!"initially_deferred" b!"optional" .bool (·.initiallyDeferred) (fun x a => { a with initiallyDeferred := x }),
    .ofAttr L b!"ForEachRow" b!"for_each_row" b!"optional" .bool (·.forEachRow) (fun x a => { a with forEachRow := x }),
    .ofAttr L b!"Delete" b!"delete" b!"optional" .bool (·.delete) (fun x a => { a with delete := x }),
    .ofAttr L b!"Insert" b!"insert" b!"optional" .bool (·.insert) (fun x a => { a with insert := x }),
    .ofAttr L b!"Truncate" b!"truncate" b!"optional" .bool (·.truncate) (fun x a => { a with truncate := x }),
    .ofAttr L b!"Update" b!"update" b!"optional" .bool (·.update) (fun x a => { a with update := x }),
    .ofAttr L b!"Columns" b!"columns" b!"optional" (.strings L) (·.columns) (fun x a => { a with columns := x })]

/-- database.go:4-13 `type Database struct` -/
def database (L : Lib F N) : Codec N (Database F) where
  goName := b!"Database"
  zero := {}
  fields := [
    .ofBlock b!"Parameters" b!"parameters" (parameters L) (·.parameters) (fun x a => { a with parameters := x }),
    .ofBlocks b!"Schemas" b!"schema" (schema L) (·.schemas) (fun x a => { a with schemas := x }),
    .ofBlocks b!"Functions" b!"function" (function L) (·.functions) (fun x a => { a with functions := x }),
    .ofBlocks b!"Sequences" b!"sequence" (sequence L) (·.sequences) (fun x a => { a with sequences := x }),
    .ofBlocks b!"Tables" b!"table" (table L) (·.tables) (fun x a => { a with tables := x }),
    .ofBlocks b!"Indexes" b!"index" (index L) (·.indexes) (fun x a => { a with indexes := x }),
    .ofBlocks b!"Triggers" b!"trigger" (trigger L) (·.triggers) (fun x a => { a with triggers := x })]

end

/-- ddl.go:52-57 `Database.Write`, up to the printing of the document. -/
def write {F N : Type} (L : Lib F N) (db : Database F) : List (Item N) := (database L).items db

/-- ddl.go:18-32 `ParseBytes` and 35-49 `ParseFile`, after the parsing of the text. -/
def parse {F N : Type} (L : Lib F N) (doc : List (Item N)) : Except Diag (Database F) :=
  (database L).decode [] doc

/-- What an inspection returns: inspect.go sets both pointers. -/
def ofInspect {F : Type} (d : Pg.Database F) : Database F where
  parameters := some d.parameters
  schemas := d.schemas
  functions := d.functions
  sequences := d.sequences
  tables := d.tables.map fun t => { table := t.table, storageParameters := some t.storage }
  indexes := d.indexes
  triggers := d.triggers

end Verif.Hcl
