import Verif.Hcl.Model

/-!
# The hcl tags of the structs in `/repo/internal/ddl`

Written by `tools/tags2lean.py` from the Go files.
-/

namespace Verif.Hcl
open Verif

/-- All structs with hcl tags: name and fields. -/
def structs : List (Str × List Tag) := [
  -- check.go:4-9
  (b!"Check", [
    ⟨b!"Name", b!"string", b!"name", b!"optional"⟩,
    ⟨b!"Expression", b!"string", b!"expression", b!"attr"⟩,
    ⟨b!"Deferrable", b!"bool", b!"deferrable", b!"optional"⟩,
    ⟨b!"InitiallyDeferred", b!"bool", b!"initially_deferred", b!"optional"⟩]),
  -- database.go:4-13
  (b!"Database", [
    ⟨b!"Parameters", b!"*Parameters", b!"parameters", b!"block"⟩,
    ⟨b!"Schemas", b!"[]*Schema", b!"schema", b!"block"⟩,
    ⟨b!"Functions", b!"[]*Function", b!"function", b!"block"⟩,
    ⟨b!"Sequences", b!"[]*Sequence", b!"sequence", b!"block"⟩,
    ⟨b!"Tables", b!"[]*Table", b!"table", b!"block"⟩,
    ⟨b!"Indexes", b!"[]*Index", b!"index", b!"block"⟩,
    ⟨b!"Triggers", b!"[]*Trigger", b!"trigger", b!"block"⟩]),
  -- database.go:16-19
  (b!"Parameters", [
    ⟨b!"SearchPath", b!"[]string", b!"search_path", b!"optional"⟩,
    ⟨b!"Timezone", b!"string", b!"timezone", b!"optional"⟩]),
  -- database.go:22-26
  (b!"Schema", [
    ⟨b!"Name", b!"string", b!"name", b!"label"⟩,
    ⟨b!"Owner", b!"string", b!"owner", b!"optional"⟩,
    ⟨b!"Comment", b!"string", b!"comment", b!"optional"⟩]),
  -- foreign_key.go:4-16
  (b!"ForeignKey", [
    ⟨b!"Name", b!"string", b!"name", b!"optional"⟩,
    ⟨b!"Table", b!"string", b!"table", b!"label"⟩,
    ⟨b!"Columns", b!"[]string", b!"columns", b!"attr"⟩,
    ⟨b!"Referenced", b!"[]string", b!"referenced", b!"attr"⟩,
    ⟨b!"Match", b!"string", b!"match", b!"optional"⟩,
    ⟨b!"OnDelete", b!"string", b!"on_delete", b!"optional"⟩,
    ⟨b!"OnUpdate", b!"string", b!"on_update", b!"optional"⟩,
    ⟨b!"Deferrable", b!"bool", b!"deferrable", b!"optional"⟩,
    ⟨b!"InitiallyDeferred", b!"bool", b!"initially_deferred", b!"optional"⟩]),
  -- function.go:6-15
  (b!"Function", [
    ⟨b!"Schema", b!"string", b!"schema", b!"label"⟩,
    ⟨b!"Name", b!"string", b!"name", b!"label"⟩,
    ⟨b!"Owner", b!"string", b!"owner", b!"optional"⟩,
    ⟨b!"Comment", b!"string", b!"comment", b!"optional"⟩,
    ⟨b!"Returns", b!"string", b!"returns", b!"attr"⟩,
    ⟨b!"Language", b!"string", b!"language", b!"attr"⟩,
    ⟨b!"Definition", b!"string", b!"definition", b!"attr"⟩]),
  -- index.go:6-17
  (b!"Index", [
    ⟨b!"Schema", b!"string", b!"schema", b!"label"⟩,
    ⟨b!"Table", b!"string", b!"table", b!"label"⟩,
    ⟨b!"Name", b!"string", b!"name", b!"label"⟩,
    ⟨b!"Primary", b!"bool", b!"primary", b!"optional"⟩,
    ⟨b!"Unique", b!"bool", b!"unique", b!"optional"⟩,
    ⟨b!"Using", b!"string", b!"using", b!"optional"⟩,
    ⟨b!"Where", b!"string", b!"where", b!"optional"⟩,
    ⟨b!"Keys", b!"[]*IndexKey", b!"key", b!"block"⟩]),
  -- index.go:20-25
  (b!"IndexKey", [
    ⟨b!"Column", b!"string", b!"column", b!"optional"⟩,
    ⟨b!"Expression", b!"string", b!"expression", b!"optional"⟩,
    ⟨b!"OpClass", b!"string", b!"opclass", b!"optional"⟩,
    ⟨b!"Descending", b!"bool", b!"descending", b!"optional"⟩]),
  -- sequence.go:4-18
  (b!"Sequence", [
    ⟨b!"Schema", b!"string", b!"schema", b!"label"⟩,
    ⟨b!"Name", b!"string", b!"name", b!"label"⟩,
    ⟨b!"Owner", b!"string", b!"owner", b!"optional"⟩,
    ⟨b!"Comment", b!"string", b!"comment", b!"optional"⟩,
    ⟨b!"DataType", b!"string", b!"data_type", b!"optional"⟩,
    ⟨b!"Start", b!"int64", b!"start", b!"optional"⟩,
    ⟨b!"Minimum", b!"int64", b!"minimum", b!"optional"⟩,
    ⟨b!"Maximum", b!"int64", b!"maximum", b!"optional"⟩,
    ⟨b!"Increment", b!"int64", b!"increment", b!"optional"⟩,
    ⟨b!"Cache", b!"int64", b!"cache", b!"optional"⟩,
    ⟨b!"Cycle", b!"bool", b!"cycle", b!"optional"⟩,
    ⟨b!"OwnedBy", b!"*SequenceOwner", b!"owned_by", b!"block"⟩]),
  -- sequence.go:20-24
  (b!"SequenceOwner", [
    ⟨b!"Schema", b!"string", b!"schema", b!"attr"⟩,
    ⟨b!"Table", b!"string", b!"table", b!"attr"⟩,
    ⟨b!"Column", b!"string", b!"column", b!"attr"⟩]),
  -- table.go:6-17
  (b!"Table", [
    ⟨b!"Schema", b!"string", b!"schema", b!"label"⟩,
    ⟨b!"Name", b!"string", b!"name", b!"label"⟩,
    ⟨b!"Owner", b!"string", b!"owner", b!"optional"⟩,
    ⟨b!"Comment", b!"string", b!"comment", b!"optional"⟩,
    ⟨b!"Columns", b!"[]*Column", b!"column", b!"block"⟩,
    ⟨b!"Checks", b!"[]*Check", b!"check", b!"block"⟩,
    ⟨b!"ForeignKeys", b!"[]*ForeignKey", b!"foreign_key", b!"block"⟩,
    ⟨b!"StorageParameters", b!"*TableStorageParameters", b!"storage_parameters", b!"block"⟩]),
  -- table.go:20-26
  (b!"Column", [
    ⟨b!"Name", b!"string", b!"name", b!"label"⟩,
    ⟨b!"Type", b!"string", b!"type", b!"attr"⟩,
    ⟨b!"NotNull", b!"bool", b!"not_null", b!"optional"⟩,
    ⟨b!"Default", b!"string", b!"default", b!"optional"⟩,
    ⟨b!"Comment", b!"string", b!"comment", b!"optional"⟩]),
  -- table_storage_parameters.go:6-23
  (b!"TableStorageParameters", [
    ⟨b!"Fillfactor", b!"*int", b!"fillfactor", b!"optional"⟩,
    ⟨b!"ParallelWorkers", b!"*int", b!"parallel_workers", b!"optional"⟩,
    ⟨b!"AutovacuumEnabled", b!"*bool", b!"autovacuum_enabled", b!"optional"⟩,
    ⟨b!"AutovacuumVacuumThreshold", b!"*int", b!"autovacuum_vacuum_threshold", b!"optional"⟩,
    ⟨b!"AutovacuumVacuumScaleFactor", b!"*float64", b!"autovacuum_vacuum_scale_factor", b!"optional"⟩,
    ⟨b!"AutovacuumAnalyzeThreshold", b!"*int", b!"autovacuum_analyze_threshold", b!"optional"⟩,
    ⟨b!"AutovacuumAnalyzeScaleFactor", b!"*float64", b!"autovacuum_analyze_scale_factor", b!"optional"⟩,
    ⟨b!"AutovacuumVacuumCostDelay", b!"*int", b!"autovacuum_vacuum_cost_limit", b!"optional"⟩,
    ⟨b!"AutovacuumFreezeMinAge", b!"*int", b!"autovacuum_freeze_min_age", b!"optional"⟩,
    ⟨b!"AutovacuumFreezeMaxAge", b!"*int", b!"autovacuum_freeze_max_age", b!"optional"⟩,
    ⟨b!"AutovacuumFreezeTableAge", b!"*int", b!"autovacuum_freeze_table_age", b!"optional"⟩,
    ⟨b!"AutovacuumMultixactFreezeMinAge", b!"*int", b!"autovacuum_multixact_freeze_min_age", b!"optional"⟩,
    ⟨b!"AutovacuumMultixactFreezeMaxAge", b!"*int", b!"autovacuum_multixact_freeze_max_age", b!"optional"⟩,
    ⟨b!"AutovacuumMultixactFreezeTableAge", b!"*int", b!"autovacuum_multixact_freeze_table_age", b!"optional"⟩,
    ⟨b!"LogAutovacuumMinDuration", b!"*int", b!"log_autovacuum_min_duration", b!"optional"⟩,
    ⟨b!"UserCatalogTable", b!"*bool", b!"user_catalog_table", b!"optional"⟩]),
  -- trigger.go:6-24
  (b!"Trigger", [
    ⟨b!"Schema", b!"string", b!"schema", b!"label"⟩,
    ⟨b!"Table", b!"string", b!"table", b!"label"⟩,
    ⟨b!"Name", b!"string", b!"name", b!"label"⟩,
    ⟨b!"Function", b!"string", b!"function", b!"attr"⟩,
    ⟨b!"When", b!"string", b!"when", b!"attr"⟩,
    ⟨b!"Constraint", b!"bool", b!"constraint", b!"optional"⟩,
    ⟨b!"Deferrable", b!"bool", b!"deferrable", b!"optional"⟩,
    ⟨b!"InitiallyDeferred", b!"bool", b!"initially_deferred", b!"optional"⟩,
    ⟨b!"ForEachRow", b!"bool", b!"for_each_row", b!"optional"⟩,
    ⟨b!"Delete", b!"bool", b!"delete", b!"optional"⟩,
    ⟨b!"Insert", b!"bool", b!"insert", b!"optional"⟩,
    ⟨b!"Truncate", b!"bool", b!"truncate", b!"optional"⟩,
    ⟨b!"Update", b!"bool", b!"update", b!"optional"⟩,
    ⟨b!"Columns", b!"[]string", b!"columns", b!"optional"⟩])
]

end Verif.Hcl
