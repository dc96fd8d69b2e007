import Verif.Sql.Queries
import Verif.Pg.List
import Verif.Pg.Identifier

/-!
# A server that holds a database (specification)

What a PostgreSQL server with the catalogs `db` may answer to the queries: an error, or the rows of an
answer, all of them or, if the connection fails, the first ones. A query for one row gets the first row
of an answer.
-/

namespace Verif.Sql
open Verif Verif.Pg

/-! ## Columns of a row as pgx scans them -/

def Val.asStr : Val → Option (Option Str)
  | .null => some none
  | .str s => some (some s)
  | _ => none
def Val.asInt : Val → Option (Option Int)
  | .null => some none
  | .int n => some (some n)
  | _ => none
def Val.asBool : Val → Option (Option Bool)
  | .null => some none
  | .bool b => some (some b)
  | _ => none

def readSchema : List Val → Option SchemaRow
  | [a, b, c] => do return ⟨← a.asStr, ← b.asStr, ← c.asStr⟩
  | _ => none
def readTable : List Val → Option TableRow
  | [a, b, c, d] => do return ⟨← a.asStr, ← b.asStr, ← c.asStr, ← d.asStr⟩
  | _ => none
def readFunction : List Val → Option FunctionRow
  | [a, b, c, d, e, f, g] => do
    return ⟨← a.asStr, ← b.asStr, ← c.asStr, ← d.asStr, ← e.asStr, ← f.asStr, ← g.asStr⟩
  | _ => none
/-- `DescribeFunction` selects five of the columns. -/
def readDescribed : List Val → Option FunctionRow
  | [c, d, e, f, g] => do return ⟨none, none, ← c.asStr, ← d.asStr, ← e.asStr, ← f.asStr, ← g.asStr⟩
  | _ => none
def readColumn : List Val → Option ColumnRow
  | [a, b, c, d, e] => do return ⟨← a.asStr, ← b.asStr, ← c.asBool, ← d.asStr, ← e.asStr⟩
  | _ => none
def readDef : List Val → Option DefRow
  | [a, b] => do return ⟨← a.asStr, ← b.asStr⟩
  | _ => none
def readIndex : List Val → Option IndexRow
  | [a, b, c] => do return ⟨← a.asStr, ← b.asBool, ← c.asStr⟩
  | _ => none
def readText : List Val → Option (Option Str)
  | [a] => a.asStr
  | _ => none
def readLegacySequence : List Val → Option SequenceRow
  | [a, b, c, d, e, f, g] => do
    return ⟨← a.asStr, ← b.asStr, ← c.asStr, ← d.asStr, ← e.asStr, ← f.asStr, ← g.asStr⟩
  | _ => none
def readSequence : List Val → Option (SequenceRow × Option Str × SequenceValues)
  | [a, b, c, d, t, s, mi, ma, inc, ca, cy, e, f, g] => do
    return (⟨← a.asStr, ← b.asStr, ← c.asStr, ← d.asStr, ← e.asStr, ← f.asStr, ← g.asStr⟩, ← t.asStr,
      ⟨← s.asInt, ← mi.asInt, ← ma.asInt, ← inc.asInt, ← ca.asInt, ← cy.asBool⟩)
  | _ => none

/-! ## Answers -/

/-- The stream carries `rows`: all of them or, when the connection fails, the first ones. -/
def Carries {ρ : Type} (st : Stream ρ) (rows : List ρ) : Prop :=
  st.rows <+: rows ∧ (st.failure = none → st.rows = rows)

/-- `q` is what `conn.Query` may give for the query `s`. -/
def Gives {ρ : Type} (db : Db) (s : Select) (params : List Str) (read : List Val → Option ρ)
    (q : Query ρ) : Prop :=
  match q with
  | .error e => ∃ n, e = .query n
  | .ok st => ∃ res rows, s.Answer db params res ∧ res.mapM read = some rows ∧ Carries st rows

/-- `q` is what `conn.QueryRow` may give. -/
def GivesRow {ρ : Type} (db : Db) (s : Select) (params : List Str) (read : List Val → Option ρ)
    (q : QueryRow ρ) : Prop :=
  match q with
  | .error e => ∃ n, e = .query n
  | .ok r => ∃ res rows, s.Answer db params res ∧ res.mapM read = some rows ∧ r = rows.head?

/-- The values of the sequence `schema.name`, for `SELECT start_value, ... FROM "schema"."name"` on
servers without `pg_sequence`. -/
def SequenceIs (db : Db) (schema name : Str) (v : SequenceValues) : Prop :=
  ∃ n ∈ db.namespaces, n.nspname = schema ∧ ∃ c ∈ db.classes, c.relnamespace = n.oid ∧
    c.relname = name ∧ c.relkind = b!"S" ∧ ∃ s ∈ db.sequences, s.seqrelid = c.oid ∧
      v = ⟨some s.seqstart, some s.seqmin, some s.seqmax, some s.seqincrement, some s.seqcache,
        some s.seqcycle⟩

/-- The server holds `db`. -/
structure Serves (db : Db) (c : Catalog) : Prop where
  schemas : Gives db listSchemas [] readSchema c.schemas
  tables : Gives db listTables [] readTable c.tables
  functions : Gives db listFunctions [] readFunction c.functions
  function : ∀ schema name, GivesRow db describeFunction [schema, name] readDescribed
    (c.function schema name)
  columns : ∀ schema table, Gives db listColumns [schema, table] readColumn (c.columns schema table)
  checks : ∀ schema table, Gives db listChecks [schema, table] readDef (c.checks schema table)
  foreignKeys : ∀ schema table, Gives db listForeignKeys [schema, table] readDef
    (c.foreignKeys schema table)
  indexes : ∀ schema table, Gives db listIndexes [schema, table] readIndex (c.indexes schema table)
  triggers : ∀ schema table, Gives db listTriggers [schema, table] readDef (c.triggers schema table)
  trigger : ∀ schema table name, GivesRow db describeTrigger [schema, table, name] readText
    (c.trigger schema table name)
  storage : ∀ schema table, match c.storage schema table with
    | .error e => ∃ n, e = .query n
    | .ok st => ∃ res, listTableStorageParameters.UnnestAnswer db [schema, table] res ∧
        Carries st (res.map some)
  hasView : match c.hasView with
    | .error e => ∃ n, e = .query n
    | .ok r => r = some (some (hasSequencesView.exists_ db []))
  sequences : hasSequencesView.exists_ db [] = true →
    Gives db listSequences [] readSequence c.sequences
  legacySequences : Gives db listSequencesPre10 [] readLegacySequence c.legacySequences
  /-- The name of the sequence is in the text of the query: the answer is about the sequence that the
  text asks for. -/
  sequence : ∀ schema name s n, Asks (legacyQuery schema name) s n →
    match c.sequence schema name with
    | .error e => ∃ n, e = .query n
    | .ok none => False
    | .ok (some v) => SequenceIs db s n v

end Verif.Sql
