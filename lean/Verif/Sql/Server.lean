import Verif.Sql.Spec
import Mathlib.Data.List.Sort

/-!
# A server that answers from a database

`serve db` answers every query by evaluating it. It shows that `Serves` can be met for every database,
and it gives concrete answers for examples. (It is not a model of code; nothing rests on it but the
examples and counterexamples.)
-/

namespace Verif.Sql
open Verif Verif.Pg

/-- The rows of the query in order; none if they cannot be evaluated or ordered. -/
def evaluate {ρ : Type} (db : Db) (s : Select) (params : List Str) (read : List Val → Option ρ) :
    Option (List ρ) :=
  let envs := (s.solutions db params).insertionSort
    (fun e e' => before s.items db params s.order e e' = true)
  if envs.Pairwise (fun e e' => before s.items db params s.order e e' = true) then
    (envs.mapM (fun env => s.items.mapM (Item.eval db params env))).bind (·.mapM read)
  else none

def query {ρ : Type} (db : Db) (s : Select) (params : List Str) (read : List Val → Option ρ) :
    Query ρ :=
  match evaluate db s params read with
  | none => .error (.query 0)
  | some rows => .ok { rows }

def firstRow {ρ : Type} (db : Db) (s : Select) (params : List Str) (read : List Val → Option ρ) :
    QueryRow ρ :=
  match evaluate db s params read with
  | none => .error (.query 0)
  | some rows => .ok rows.head?

def sequenceValues (db : Db) (schema name : Str) : Option SequenceValues := do
  let n ← db.namespaces.find? (fun n => decide (n.nspname = schema))
  let c ← db.classes.find? (fun c => decide (c.relnamespace = n.oid ∧ c.relname = name ∧
    c.relkind = b!"S"))
  let s ← db.sequences.find? (fun s => decide (s.seqrelid = c.oid))
  return ⟨some s.seqstart, some s.seqmin, some s.seqmax, some s.seqincrement, some s.seqcache,
    some s.seqcycle⟩

def serve (db : Db) : Catalog where
  searchPath := .ok (some (some b!"public"))
  timezone := .ok (some (some b!"UTC"))
  schemas := query db listSchemas [] readSchema
  functions := query db listFunctions [] readFunction
  function schema name := firstRow db describeFunction [schema, name] readDescribed
  hasView := .ok (some (some (hasSequencesView.exists_ db [])))
  sequences := query db listSequences [] readSequence
  legacySequences := query db listSequencesPre10 [] readLegacySequence
  sequence schema name :=
    match sequenceValues db schema name with
    | none => .error (.query 0)
    | some v => .ok (some v)
  tables := query db listTables [] readTable
  columns schema table := query db listColumns [schema, table] readColumn
  checks schema table := query db listChecks [schema, table] readDef
  foreignKeys schema table := query db listForeignKeys [schema, table] readDef
  storage schema table := .ok { rows := (listTableStorageParameters.unnest db [schema, table]).map some }
  indexes schema table := query db listIndexes [schema, table] readIndex
  triggers schema table := query db listTriggers [schema, table] readDef
  trigger schema table name := firstRow db describeTrigger [schema, table, name] readText
  version := .ok (some (some b!"10"))

theorem evaluate_answer {ρ : Type} {db : Db} {s : Select} {params : List Str}
    {read : List Val → Option ρ} {rows : List ρ} (h : evaluate db s params read = some rows) :
    ∃ res, s.Answer db params res ∧ res.mapM read = some rows := by
  unfold evaluate at h
  simp only at h
  split at h
  · rename_i hp
    rw [Option.bind_eq_some_iff] at h
    obtain ⟨res, h1, h2⟩ := h
    exact ⟨res, ⟨_, List.perm_insertionSort _ _, hp, h1⟩, h2⟩
  · cases h

theorem query_gives {ρ : Type} (db : Db) (s : Select) (params : List Str)
    (read : List Val → Option ρ) : Gives db s params read (query db s params read) := by
  unfold query Gives
  cases h : evaluate db s params read with
  | none => exact ⟨0, rfl⟩
  | some rows =>
    obtain ⟨res, h1, h2⟩ := evaluate_answer h
    exact ⟨res, rows, h1, h2, List.prefix_refl _, fun _ => rfl⟩

theorem firstRow_gives {ρ : Type} (db : Db) (s : Select) (params : List Str)
    (read : List Val → Option ρ) : GivesRow db s params read (firstRow db s params read) := by
  unfold firstRow GivesRow
  cases h : evaluate db s params read with
  | none => exact ⟨0, rfl⟩
  | some rows =>
    obtain ⟨res, h1, h2⟩ := evaluate_answer h
    exact ⟨res, rows, h1, h2, rfl⟩

/-- Every database can be served. -/
theorem serve_serves (db : Db) : Serves db (serve db) := by
  constructor
  case schemas => exact query_gives db listSchemas [] readSchema
  case tables => exact query_gives db listTables [] readTable
  case functions => exact query_gives db listFunctions [] readFunction
  case function => exact fun schema name => firstRow_gives db describeFunction [schema, name] readDescribed
  case columns => exact fun schema table => query_gives db listColumns [schema, table] readColumn
  case checks => exact fun schema table => query_gives db listChecks [schema, table] readDef
  case foreignKeys => exact fun schema table => query_gives db listForeignKeys [schema, table] readDef
  case indexes => exact fun schema table => query_gives db listIndexes [schema, table] readIndex
  case triggers => exact fun schema table => query_gives db listTriggers [schema, table] readDef
  case trigger =>
    exact fun schema table name => firstRow_gives db describeTrigger [schema, table, name] readText
  case storage =>
    intro schema table
    simp only [serve]
    exact ⟨listTableStorageParameters.unnest db [schema, table],
      show List.Perm _ _ from List.Perm.refl _, List.prefix_refl _, fun _ => rfl⟩
  case hasView => simp only [serve]
  case sequences =>
    intro _
    dsimp only [serve]
    exact query_gives db listSequences [] readSequence
  case legacySequences =>
    dsimp only [serve]
    exact query_gives db listSequencesPre10 [] readLegacySequence
  case sequence =>
    intro schema name s' n' hq
    obtain ⟨rfl, rfl⟩ := (C110_legacy_query schema name s' n').mp hq
    simp only [serve]
    cases h : sequenceValues db s' n' with
    | none => exact ⟨0, rfl⟩
    | some v =>
      simp only [sequenceValues, Option.bind_eq_bind, Option.bind_eq_some_iff, Option.pure_def,
        Option.some.injEq] at h
      obtain ⟨n, hn, c, hc, s, hs, rfl⟩ := h
      have h1 := List.find?_some hn
      have h2 := List.find?_some hc
      have h3 := List.find?_some hs
      simp only [decide_eq_true_eq] at h1 h2 h3
      exact ⟨n, List.mem_of_find?_eq_some hn, h1, c, List.mem_of_find?_eq_some hc, h2.1, h2.2.1, h2.2.2,
        s, List.mem_of_find?_eq_some hs, h3, rfl⟩

theorem query_unbroken {ρ : Type} (db : Db) (s : Select) (params : List Str)
    (read : List Val → Option ρ) : Unbroken (query db s params read) := by
  unfold Unbroken
  intro st h
  unfold query at h
  split at h
  · cases h
  · cases h; rfl

theorem serve_unbroken (db : Db) : Unbroken (serve db).schemas ∧ Unbroken (serve db).tables ∧
    Unbroken (serve db).functions ∧ Unbroken (serve db).sequences ∧
    Unbroken (serve db).legacySequences := by
  dsimp only [serve]
  exact ⟨query_unbroken _ _ _ _, query_unbroken _ _ _ _, query_unbroken _ _ _ _, query_unbroken _ _ _ _,
    query_unbroken _ _ _ _⟩

/-! ## A database -/

/-- A database with a table `public.users` and its parts, a schema `audit` that is not searched, a
sequence that no column owns, and a function with two versions. -/
def shop : Db where
  namespaces := [⟨11, b!"pg_catalog", 10⟩, ⟨2200, b!"public", 10⟩, ⟨3000, b!"audit", 20⟩]
  classes := [⟨2224, b!"pg_sequence", 11, 10, b!"r", none⟩,
    ⟨100, b!"users", 2200, 20, b!"r", some [b!"fillfactor=70"]⟩,
    ⟨101, b!"users_id_seq", 2200, 20, b!"S", none⟩,
    ⟨102, b!"users_pkey", 2200, 20, b!"i", none⟩,
    ⟨103, b!"tickets", 2200, 20, b!"S", none⟩,
    ⟨104, b!"users_name", 2200, 20, b!"i", none⟩,
    ⟨200, b!"log", 3000, 20, b!"r", none⟩,
    ⟨201, b!"accounts", 2200, 20, b!"r", none⟩]
  attributes := [⟨100, b!"id", 23, -1, 1, true, true, false⟩, ⟨100, b!"gone", 25, -1, 2, false, false, true⟩,
    ⟨100, b!"name", 25, -1, 3, false, false, false⟩, ⟨200, b!"line", 25, -1, 1, false, false, false⟩,
    ⟨100, b!"ctid", 27, -1, -1, true, false, false⟩]
  attrdefs := [⟨100, 1, b!"nextval"⟩]
  procs := [⟨300, b!"len", 2200, 20, 14, [25], b!"SELECT 1"⟩, ⟨301, b!"len", 2200, 20, 14, [23], b!"SELECT 2"⟩,
    ⟨302, b!"rotate", 3000, 20, 14, [], b!"SELECT 3"⟩]
  languages := [⟨14, b!"sql"⟩]
  triggers := [⟨400, 100, b!"RI_400", true⟩, ⟨401, 100, b!"stamp", false⟩]
  constraints := [⟨500, b!"users_check", b!"c", 100, 0, some [1]⟩,
    ⟨501, b!"users_fk", b!"f", 100, 201, some [1]⟩, ⟨502, b!"users_pkey", b!"p", 100, 0, some [1]⟩]
  indexes := [⟨102, 100, true, true⟩, ⟨104, 100, false, false⟩]
  sequences := [⟨101, 20, 1, 1, 1000, 1, 1, false⟩, ⟨103, 20, 5, 1, 1000, 1, 1, false⟩]
  depends := [⟨1259, 101, 1259, 100, 1, b!"a"⟩, ⟨1259, 102, 1259, 100, 1, b!"i"⟩]
  descriptions := [⟨100, 1259, 0, b!"people"⟩, ⟨100, 1259, 3, b!"full name"⟩, ⟨2200, 2615, 0, b!"standard"⟩]
  path := [11, 2200]
  getUserbyid n := if n = 10 then b!"postgres" else b!"shop"
  formatType n _ := if n = 23 then b!"integer" else if n = 20 then b!"bigint" else b!"text"
  getExpr s _ := s ++ b!"('users_id_seq')"
  getFunctionResult _ := some b!"integer"
  getTriggerdef _ := b!"CREATE TRIGGER stamp BEFORE UPDATE ON users FOR EACH ROW EXECUTE PROCEDURE f()"
  getConstraintdef n _ := if n = 500 then b!"CHECK (id > 0)" else b!"FOREIGN KEY (id) REFERENCES accounts(id)"
  getIndexdef n := if n = 102 then b!"CREATE UNIQUE INDEX users_pkey ON users USING btree (id)"
    else b!"CREATE INDEX users_name ON users USING btree (name)"

theorem shop_wf : shop.WF where
  namespaces := by decide
  nspname := by decide
  classes := by decide
  relname := by decide
  relnamespace := by decide
  attributes := by decide
  attrelid := by decide
  reloptions := by
    intro c hc l hl
    simp only [shop, List.mem_cons, List.not_mem_nil, or_false] at hc
    rcases hc with rfl | rfl | rfl | rfl | rfl | rfl | rfl | rfl <;> cases hl
    exact ⟨[(b!"fillfactor", b!"70")], by decide, by decide, by decide⟩
  attrdefs := by decide
  procs := by decide
  proname := by decide
  pronamespace := by decide
  languages := by decide
  prolang := by decide
  triggers := by decide
  tgname := by decide
  constraints := by decide
  confrelid := by decide
  indexes := by decide
  indexrelid := by decide
  sequences := by decide
  seqrelid := by decide
  depends := by decide
  owner := by
    intro c _ _ d hd d' hd' h1 h2
    simp only [shop, List.mem_cons, List.not_mem_nil, or_false] at hd hd'
    rcases hd with rfl | rfl <;> rcases hd' with rfl | rfl <;> simp_all <;> omega
  descriptions := by decide

end Verif.Sql
