import Verif.Hcl.Ddl

/-!
# Specification: the form of a written document
-/

namespace Verif.Hcl.Form
open Verif Verif.Hcl

section
variable {F N : Type}

/-- `name = "text"` -/
def text (L : Lib F N) (name s : Str) : Item N := .attr name (.str (L.nfc s))

/-- `name = ["text", ...]`, `name = null` if there are none -/
def texts (L : Lib F N) (name : Str) : List Str → Item N
  | [] => .attr name .null
  | s :: ss => .attr name (.list ((s :: ss).map fun s => .str (L.nfc s)))

/-- `name = true` -/
def flag (name : Str) (b : Bool) : Item N := .attr name (.bool b)

/-- `name = 1` -/
def int (L : Lib F N) (name : Str) (i : Int) : Item N := .attr name (.num (L.ofInt i))

/-- `name = 0.1` -/
def float (L : Lib F N) (name : Str) (f : F) : Item N := .attr name (.num (L.ofFloat f))

/-- Nothing if there is no value. -/
def opt {β : Type} (write : β → Item N) : Option β → List (Item N)
  | none => []
  | some x => [write x]

/-- `parameters { ... }` -/
def parametersDoc (L : Lib F N) (a : Pg.Parameters) : Item N :=
  .block b!"parameters" [] [
      texts L b!"search_path" a.searchPath,
      text L b!"timezone" a.timezone]

/-- `schema "name" { ... }` -/
def schemaDoc (L : Lib F N) (a : Pg.Schema) : Item N :=
  .block b!"schema" [L.nfc a.name] [
      text L b!"owner" a.owner,
      text L b!"comment" a.comment]

/-- `function "schema" "name" { ... }` -/
def functionDoc (L : Lib F N) (a : Ddl.Function) : Item N :=
  .block b!"function" [L.nfc a.schema, L.nfc a.name] [
      text L b!"owner" a.owner,
      text L b!"comment" a.comment,
      text L b!"returns" a.returns,
      text L b!"language" a.language,
      text L b!"definition" a.definition]

/-- `owned_by { ... }` -/
def sequenceOwnerDoc (L : Lib F N) (a : Pg.SequenceOwner) : Item N :=
  .block b!"owned_by" [] [
      text L b!"schema" a.schema,
      text L b!"table" a.table,
      text L b!"column" a.column]

/-- `sequence "schema" "name" { ... }` -/
def sequenceDoc (L : Lib F N) (a : Pg.Sequence) : Item N :=
  .block b!"sequence" [L.nfc a.schema, L.nfc a.name] ([
      text L b!"owner" a.owner,
      text L b!"comment" a.comment,
      text L b!"data_type" a.dataType,
      int L b!"start" a.start,
      int L b!"minimum" a.minimum,
      int L b!"maximum" a.maximum,
      int L b!"increment" a.increment,
      int L b!"cache" a.cache,
      flag b!"cycle" a.cycle] ++
    a.ownedBy.toList.map (sequenceOwnerDoc L))

/-- `column "name" { ... }` -/
def columnDoc (L : Lib F N) (a : Ddl.Column) : Item N :=
  .block b!"column" [L.nfc a.name] [
      text L b!"type" a.type,
      flag b!"not_null" a.notNull,
      text L b!"default" a.default_,
      text L b!"comment" a.comment]

/-- `check { ... }` -/
def checkDoc (L : Lib F N) (a : Ddl.Check) : Item N :=
  .block b!"check" [] [
      text L b!"name" a.name,
      text L b!"expression" a.expression,
      flag b!"deferrable" a.deferrable,
      flag b!"initially_deferred" a.initiallyDeferred]

/-- `foreign_key "table" { ... }` -/
def foreignKeyDoc (L : Lib F N) (a : Ddl.ForeignKey) : Item N :=
  .block b!"foreign_key" [L.nfc a.table] [
      text L b!"name" a.name,
      texts L b!"columns" a.columns,
      texts L b!"referenced" a.referenced,
      text L b!"match" a.match_,
      text L b!"on_delete" a.onDelete,
      text L b!"on_update" a.onUpdate,
      flag b!"deferrable" a.deferrable,
      flag b!"initially_deferred" a.initiallyDeferred]

/-- `storage_parameters { ... }` -/
def tableStorageParametersDoc (L : Lib F N) (a : Ddl.Params F) : Item N :=
  .block b!"storage_parameters" [] (opt (int L b!"fillfactor") a.fillfactor ++
    opt (int L b!"parallel_workers") a.parallelWorkers ++
    opt (flag b!"autovacuum_enabled") a.autovacuumEnabled ++
    opt (int L b!"autovacuum_vacuum_threshold") a.autovacuumVacuumThreshold ++
    opt (float L b!"autovacuum_vacuum_scale_factor") a.autovacuumVacuumScaleFactor ++
    opt (int L b!"autovacuum_analyze_threshold") a.autovacuumAnalyzeThreshold ++
    opt (float L b!"autovacuum_analyze_scale_factor") a.autovacuumAnalyzeScaleFactor ++
    opt (int L b!"autovacuum_vacuum_cost_limit") a.autovacuumVacuumCostDelay ++
    opt (int L b!"autovacuum_freeze_min_age") a.autovacuumFreezeMinAge ++
    opt (int L b!"autovacuum_freeze_max_age") a.autovacuumFreezeMaxAge ++
    opt (int L b!"autovacuum_freeze_table_age") a.autovacuumFreezeTableAge ++
    opt (int L b!"autovacuum_multixact_freeze_min_age") a.autovacuumMultixactFreezeMinAge ++
    opt (int L b!"autovacuum_multixact_freeze_max_age") a.autovacuumMultixactFreezeMaxAge ++
    opt (int L b!"autovacuum_multixact_freeze_table_age") a.autovacuumMultixactFreezeTableAge ++
    opt (int L b!"log_autovacuum_min_duration") a.logAutovacuumMinDuration ++
    opt (flag b!"user_catalog_table") a.userCatalogTable)

/-- `table "schema" "name" { ... }` -/
def tableDoc (L : Lib F N) (a : Table F) : Item N :=
  .block b!"table" [L.nfc a.table.schema, L.nfc a.table.name] ([
      text L b!"owner" a.table.owner,
      text L b!"comment" a.table.comment] ++
    a.table.columns.map (columnDoc L) ++
    a.table.checks.map (checkDoc L) ++
    a.table.foreignKeys.map (foreignKeyDoc L) ++
    a.storageParameters.toList.map (tableStorageParametersDoc L))

/-- `key { ... }` -/
def indexKeyDoc (L : Lib F N) (a : Ddl.IndexKey) : Item N :=
  .block b!"key" [] [
      text L b!"column" a.column,
      text L b!"expression" a.expression,
      text L b!"opclass" a.opClass,
      flag b!"descending" a.descending]

/-- `index "schema" "table" "name" { ... }` -/
def indexDoc (L : Lib F N) (a : Ddl.Index) : Item N :=
  .block b!"index" [L.nfc a.schema, L.nfc a.table, L.nfc a.name] ([
      flag b!"primary" a.primary,
      flag b!"unique" a.unique,
      text L b!"using" a.using_,
      text L b!"where" a.where_] ++
    a.keys.map (indexKeyDoc L))

/-- `trigger "schema" "table" "name" { ... }` -/
def triggerDoc (L : Lib F N) (a : Ddl.Trigger) : Item N :=
  .block b!"trigger" [L.nfc a.schema, L.nfc a.table, L.nfc a.name] [
      text L b!"function" a.function,
      text L b!"when" a.when_,
      flag b!"constraint" a.constraint,
      flag b!"deferrable" a.deferrable,
      flag b!"initially_deferred" a.initiallyDeferred,
      flag b!"for_each_row" a.forEachRow,
      flag b!"delete" a.delete,
      flag b!"insert" a.insert,
      flag b!"truncate" a.truncate,
      flag b!"update" a.update,
      texts L b!"columns" a.columns]

/-- A database is written as one document: these blocks, in this order. -/
def document (L : Lib F N) (a : (Database F)) : List (Item N) :=
    a.parameters.toList.map (parametersDoc L) ++
    a.schemas.map (schemaDoc L) ++
    a.functions.map (functionDoc L) ++
    a.sequences.map (sequenceDoc L) ++
    a.tables.map (tableDoc L) ++
    a.indexes.map (indexDoc L) ++
    a.triggers.map (triggerDoc L)

/-- The value of a storage parameter. -/
def paramValue (L : Lib F N) : Ddl.Val F → Value N
  | .int n => .num (L.ofInt n)
  | .bool b => .bool b
  | .float x => .num (L.ofFloat x)

end

end Verif.Hcl.Form
