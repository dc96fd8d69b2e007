import Verif.Hcl.Ddl

/-!
# Specification: databases as documents
-/

namespace Verif.Hcl
open Verif

/-- An int64, and an int (64 bits) -/
def Int64 (i : Int) : Prop := -2 ^ 63 ≤ i ∧ i < 2 ^ 63

/-- What is expected of the HCL library: numbers are read back and fit, a value which already has the type of
the field is left alone, null included. The numbers of a document are those of its text: between
`ofFloat` and `toFloat` lie printing and parsing. -/
structure Lib.Sound {F N : Type} (L : Lib F N) : Prop where
  int : ∀ i, Int64 i → L.toInt (L.ofInt i) = some i
  float : ∀ f, L.toFloat (L.ofFloat f) = some f
  string : ∀ s, L.convert .string (.str s) = some (.str s)
  bool : ∀ b, L.convert .bool (.bool b) = some (.bool b)
  number : ∀ n, L.convert .number (.num n) = some (.num n)
  strings : ∀ l : List Str, L.convert .strings (.list (l.map .str)) = some (.list (l.map .str))
  null : ∀ k, L.convert k .null = some .null
  range : ∀ n i, L.toInt n = some i → Int64 i

/-- parameters: with `n` applied to every text -/
def parametersNorm (n : Str → Str) (a : Pg.Parameters) : Pg.Parameters :=
  { a with searchPath := a.searchPath.map n, timezone := n a.timezone }

/-- parameters: `p` holds of every text -/
def parametersTexts (p : Str → Prop) (a : Pg.Parameters) : Prop :=
  (∀ s ∈ a.searchPath, p s) ∧ p a.timezone

/-- schema: with `n` applied to every text -/
def schemaNorm (n : Str → Str) (a : Pg.Schema) : Pg.Schema :=
  { a with name := n a.name, owner := n a.owner, comment := n a.comment }

/-- schema: `p` holds of every text -/
def schemaTexts (p : Str → Prop) (a : Pg.Schema) : Prop :=
  p a.name ∧ p a.owner ∧ p a.comment

/-- function: with `n` applied to every text -/
def functionNorm (n : Str → Str) (a : Ddl.Function) : Ddl.Function :=
  { a with
    schema := n a.schema
    name := n a.name
    owner := n a.owner
    comment := n a.comment
    returns := n a.returns
    language := n a.language
    definition := n a.definition }

/-- function: `p` holds of every text -/
def functionTexts (p : Str → Prop) (a : Ddl.Function) : Prop :=
  p a.schema ∧ p a.name ∧ p a.owner ∧ p a.comment ∧ p a.returns ∧ p a.language ∧ p a.definition

/-- sequence owner: with `n` applied to every text -/
def sequenceOwnerNorm (n : Str → Str) (a : Pg.SequenceOwner) : Pg.SequenceOwner :=
  { a with schema := n a.schema, table := n a.table, column := n a.column }

/-- sequence owner: `p` holds of every text -/
def sequenceOwnerTexts (p : Str → Prop) (a : Pg.SequenceOwner) : Prop :=
  p a.schema ∧ p a.table ∧ p a.column

/-- sequence: with `n` applied to every text -/
def sequenceNorm (n : Str → Str) (a : Pg.Sequence) : Pg.Sequence :=
  { a with
    schema := n a.schema
    name := n a.name
    owner := n a.owner
    comment := n a.comment
    dataType := n a.dataType
    ownedBy := a.ownedBy.map (sequenceOwnerNorm n) }

/-- sequence: `p` holds of every text -/
def sequenceTexts (p : Str → Prop) (a : Pg.Sequence) : Prop :=
  p a.schema ∧ p a.name ∧ p a.owner ∧ p a.comment ∧ p a.dataType ∧ (∀ x ∈ a.ownedBy, sequenceOwnerTexts p x)

/-- sequence: the numbers are int64 values, as they are in Go -/
def sequenceFits (a : Pg.Sequence) : Prop :=
  Int64 a.start ∧ Int64 a.minimum ∧ Int64 a.maximum ∧ Int64 a.increment ∧ Int64 a.cache

/-- column: with `n` applied to every text -/
def columnNorm (n : Str → Str) (a : Ddl.Column) : Ddl.Column :=
  { a with name := n a.name, type := n a.type, default_ := n a.default_, comment := n a.comment }

/-- column: `p` holds of every text -/
def columnTexts (p : Str → Prop) (a : Ddl.Column) : Prop :=
  p a.name ∧ p a.type ∧ p a.default_ ∧ p a.comment

/-- check: with `n` applied to every text -/
def checkNorm (n : Str → Str) (a : Ddl.Check) : Ddl.Check :=
  { a with name := n a.name, expression := n a.expression }

/-- check: `p` holds of every text -/
def checkTexts (p : Str → Prop) (a : Ddl.Check) : Prop :=
  p a.name ∧ p a.expression

/-- foreign key: with `n` applied to every text -/
def foreignKeyNorm (n : Str → Str) (a : Ddl.ForeignKey) : Ddl.ForeignKey :=
  { a with
    name := n a.name
    table := n a.table
    columns := a.columns.map n
    referenced := a.referenced.map n
    match_ := n a.match_
    onDelete := n a.onDelete
    onUpdate := n a.onUpdate }

/-- foreign key: `p` holds of every text -/
def foreignKeyTexts (p : Str → Prop) (a : Ddl.ForeignKey) : Prop :=
  p a.name ∧ p a.table ∧ (∀ s ∈ a.columns, p s) ∧ (∀ s ∈ a.referenced, p s) ∧ p a.match_ ∧
  p a.onDelete ∧ p a.onUpdate

/-- table storage parameters: the numbers are int64 values, as they are in Go -/
def tableStorageParametersFits {F : Type} (a : Ddl.Params F) : Prop :=
  (∀ x ∈ a.fillfactor, Int64 x) ∧ (∀ x ∈ a.parallelWorkers, Int64 x) ∧
  (∀ x ∈ a.autovacuumVacuumThreshold, Int64 x) ∧ (∀ x ∈ a.autovacuumAnalyzeThreshold, Int64 x) ∧
  (∀ x ∈ a.autovacuumVacuumCostDelay, Int64 x) ∧ (∀ x ∈ a.autovacuumFreezeMinAge, Int64 x) ∧
  (∀ x ∈ a.autovacuumFreezeMaxAge, Int64 x) ∧ (∀ x ∈ a.autovacuumFreezeTableAge, Int64 x) ∧
  (∀ x ∈ a.autovacuumMultixactFreezeMinAge, Int64 x) ∧
  (∀ x ∈ a.autovacuumMultixactFreezeMaxAge, Int64 x) ∧
  (∀ x ∈ a.autovacuumMultixactFreezeTableAge, Int64 x) ∧ (∀ x ∈ a.logAutovacuumMinDuration, Int64 x)

/-- table: with `n` applied to every text -/
def tableNorm {F : Type} (n : Str → Str) (a : Table F) : Table F :=
  { a with table := { a.table with
    schema := n a.table.schema
    name := n a.table.name
    owner := n a.table.owner
    comment := n a.table.comment
    columns := a.table.columns.map (columnNorm n)
    checks := a.table.checks.map (checkNorm n)
    foreignKeys := a.table.foreignKeys.map (foreignKeyNorm n) } }

/-- table: `p` holds of every text -/
def tableTexts {F : Type} (p : Str → Prop) (a : Table F) : Prop :=
  p a.table.schema ∧ p a.table.name ∧ p a.table.owner ∧ p a.table.comment ∧
  (∀ x ∈ a.table.columns, columnTexts p x) ∧ (∀ x ∈ a.table.checks, checkTexts p x) ∧
  (∀ x ∈ a.table.foreignKeys, foreignKeyTexts p x)

/-- table: the numbers are int64 values, as they are in Go -/
def tableFits {F : Type} (a : Table F) : Prop :=
  (∀ x ∈ a.storageParameters, tableStorageParametersFits x)

/-- index key: with `n` applied to every text -/
def indexKeyNorm (n : Str → Str) (a : Ddl.IndexKey) : Ddl.IndexKey :=
  { a with column := n a.column, expression := n a.expression, opClass := n a.opClass }

/-- index key: `p` holds of every text -/
def indexKeyTexts (p : Str → Prop) (a : Ddl.IndexKey) : Prop :=
  p a.column ∧ p a.expression ∧ p a.opClass

/-- index: with `n` applied to every text -/
def indexNorm (n : Str → Str) (a : Ddl.Index) : Ddl.Index :=
  { a with
    schema := n a.schema
    table := n a.table
    name := n a.name
    using_ := n a.using_
    where_ := n a.where_
    keys := a.keys.map (indexKeyNorm n) }

/-- index: `p` holds of every text -/
def indexTexts (p : Str → Prop) (a : Ddl.Index) : Prop :=
  p a.schema ∧ p a.table ∧ p a.name ∧ p a.using_ ∧ p a.where_ ∧ (∀ x ∈ a.keys, indexKeyTexts p x)

/-- trigger: with `n` applied to every text -/
def triggerNorm (n : Str → Str) (a : Ddl.Trigger) : Ddl.Trigger :=
  { a with
    schema := n a.schema
    table := n a.table
    name := n a.name
    function := n a.function
    when_ := n a.when_
    columns := a.columns.map n }

/-- trigger: `p` holds of every text -/
def triggerTexts (p : Str → Prop) (a : Ddl.Trigger) : Prop :=
  p a.schema ∧ p a.table ∧ p a.name ∧ p a.function ∧ p a.when_ ∧ (∀ s ∈ a.columns, p s)

/-- database: with `n` applied to every text -/
def databaseNorm {F : Type} (n : Str → Str) (a : Database F) : Database F :=
  { a with
    parameters := a.parameters.map (parametersNorm n)
    schemas := a.schemas.map (schemaNorm n)
    functions := a.functions.map (functionNorm n)
    sequences := a.sequences.map (sequenceNorm n)
    tables := a.tables.map (tableNorm n)
    indexes := a.indexes.map (indexNorm n)
    triggers := a.triggers.map (triggerNorm n) }

/-- database: `p` holds of every text -/
def databaseTexts {F : Type} (p : Str → Prop) (a : Database F) : Prop :=
  (∀ x ∈ a.parameters, parametersTexts p x) ∧ (∀ x ∈ a.schemas, schemaTexts p x) ∧
  (∀ x ∈ a.functions, functionTexts p x) ∧ (∀ x ∈ a.sequences, sequenceTexts p x) ∧
  (∀ x ∈ a.tables, tableTexts p x) ∧ (∀ x ∈ a.indexes, indexTexts p x) ∧
  (∀ x ∈ a.triggers, triggerTexts p x)

/-- database: the numbers are int64 values, as they are in Go -/
def databaseFits {F : Type} (a : Database F) : Prop :=
  (∀ x ∈ a.sequences, sequenceFits x) ∧ (∀ x ∈ a.tables, tableFits x)

end Verif.Hcl
