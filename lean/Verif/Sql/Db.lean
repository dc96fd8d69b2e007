import Verif.Base.Str

/-!
# The system catalogs of a PostgreSQL database (specification)

The columns of `pg_catalog` the queries of `/repo/internal/pg` use, and the server functions they call.
What the server prints for a type, an expression or a definition is text of its own (`formatType`,
`getTriggerdef`, ...), about which nothing is assumed here.
-/

namespace Verif.Sql
open Verif

/-- A value: NULL, an integer or oid, a text, name or "char", a boolean, an array. -/
inductive Val
  | null
  | int (n : Int)
  | str (s : Str)
  | bool (b : Bool)
  | ints (l : List Int)
  | strs (l : List Str)
deriving DecidableEq, Repr

/-- `pg_namespace` -/
structure Namespace where
  oid : Nat
  nspname : Str
  nspowner : Nat
deriving DecidableEq, Repr

/-- `pg_class`. `relkind` is a "char": one byte, or none for the zero byte. -/
structure Class where
  oid : Nat
  relname : Str
  relnamespace : Nat
  relowner : Nat
  relkind : Str
  reloptions : Option (List Str) := none
deriving DecidableEq, Repr

/-- `pg_attribute` -/
structure Attribute where
  attrelid : Nat
  attname : Str
  atttypid : Nat
  atttypmod : Int
  attnum : Int
  attnotnull : Bool
  atthasdef : Bool
  attisdropped : Bool
deriving DecidableEq, Repr

/-- `pg_attrdef`; the expression tree `adbin` is opaque text -/
structure Attrdef where
  adrelid : Nat
  adnum : Int
  adbin : Str
deriving DecidableEq, Repr

/-- `pg_proc` -/
structure Proc where
  oid : Nat
  proname : Str
  pronamespace : Nat
  proowner : Nat
  prolang : Nat
  proargtypes : List Nat
  prosrc : Str
deriving DecidableEq, Repr

/-- `pg_language` -/
structure Language where
  oid : Nat
  lanname : Str
deriving DecidableEq, Repr

/-- `pg_trigger` -/
structure Trigger where
  oid : Nat
  tgrelid : Nat
  tgname : Str
  tgisinternal : Bool
deriving DecidableEq, Repr

/-- `pg_constraint` -/
structure Constraint where
  oid : Nat
  conname : Str
  contype : Str
  conrelid : Nat
  confrelid : Nat
  conkey : Option (List Int)
deriving DecidableEq, Repr

/-- `pg_index` -/
structure Index where
  indexrelid : Nat
  indrelid : Nat
  indisprimary : Bool
  indisunique : Bool
deriving DecidableEq, Repr

/-- `pg_sequence` -/
structure Sequence where
  seqrelid : Nat
  seqtypid : Nat
  seqstart : Int
  seqincrement : Int
  seqmax : Int
  seqmin : Int
  seqcache : Int
  seqcycle : Bool
deriving DecidableEq, Repr

/-- `pg_depend` -/
structure Depend where
  classid : Nat
  objid : Nat
  refclassid : Nat
  refobjid : Nat
  refobjsubid : Int
  deptype : Str
deriving DecidableEq, Repr

/-- `pg_description` -/
structure Description where
  objoid : Nat
  classoid : Nat
  objsubid : Int
  description : Str
deriving DecidableEq, Repr

/-- A database as a session sees it. -/
structure Db where
  namespaces : List Namespace
  classes : List Class
  attributes : List Attribute
  attrdefs : List Attrdef
  procs : List Proc
  languages : List Language
  triggers : List Trigger
  constraints : List Constraint
  indexes : List Index
  sequences : List Sequence
  depends : List Depend
  descriptions : List Description
  /-- the schemas searched for names without a schema, in order -/
  path : List Nat
  /-- `pg_get_userbyid` -/
  getUserbyid : Nat → Str
  /-- `format_type` -/
  formatType : Nat → Option Int → Str
  /-- `pg_get_expr` -/
  getExpr : Str → Nat → Str
  /-- `pg_get_function_result`; NULL for procedures -/
  getFunctionResult : Nat → Option Str
  /-- `pg_get_triggerdef`, pretty -/
  getTriggerdef : Nat → Str
  /-- `pg_get_constraintdef`, pretty or not -/
  getConstraintdef : Nat → Bool → Str
  /-- `pg_get_indexdef`, column 0, pretty -/
  getIndexdef : Nat → Str

/-- The oids of the catalogs that have comments or dependencies here; they are the same in every
database. -/
def catalogOid (name : Str) : Option Nat :=
  if name = b!"pg_class" then some 1259
  else if name = b!"pg_proc" then some 1255
  else if name = b!"pg_namespace" then some 2615
  else none

/-- The comment on an object (`objsubid = 0`) or on a column of it. -/
def Db.comment (db : Db) (classoid objoid : Nat) (objsubid : Int) : Option Str :=
  (db.descriptions.find? (fun d => decide (d.objoid = objoid ∧ d.classoid = classoid ∧
    d.objsubid = objsubid))).map (·.description)

/-- `RelationIsVisible`: the loop over the search path. The first schema of the path that has a
relation of this name decides. -/
def Db.relVisibleIn (db : Db) (c : Class) : List Nat → Bool
  | [] => false
  | ns :: rest =>
    if ns = c.relnamespace then true
    else if db.classes.any (fun c' => decide (c'.relname = c.relname ∧ c'.relnamespace = ns)) then false
    else db.relVisibleIn c rest

/-- `FunctionIsVisible`, likewise for a function's name and argument types. -/
def Db.procVisibleIn (db : Db) (p : Proc) : List Nat → Bool
  | [] => false
  | ns :: rest =>
    if ns = p.pronamespace then true
    else if db.procs.any (fun p' => decide (p'.proname = p.proname ∧ p'.proargtypes = p.proargtypes ∧
      p'.pronamespace = ns)) then false
    else db.procVisibleIn p rest

/-- `pg_table_is_visible`: NULL when there is no such relation. -/
def Db.tableIsVisible (db : Db) (oid : Int) : Option Bool :=
  (db.classes.find? (fun c => decide ((c.oid : Int) = oid))).map (fun c => db.relVisibleIn c db.path)

/-- `pg_function_is_visible`. -/
def Db.functionIsVisible (db : Db) (oid : Int) : Option Bool :=
  (db.procs.find? (fun p => decide ((p.oid : Int) = oid))).map (fun p => db.procVisibleIn p db.path)

/-- The constraints of the catalogs: unique indexes and references that always hold. -/
structure Db.WF (db : Db) : Prop where
  namespaces : (db.namespaces.map (·.oid)).Nodup
  nspname : (db.namespaces.map (·.nspname)).Nodup
  classes : (db.classes.map (·.oid)).Nodup
  relname : (db.classes.map (fun c => (c.relname, c.relnamespace))).Nodup
  relnamespace : ∀ c ∈ db.classes, ∃ n ∈ db.namespaces, n.oid = c.relnamespace
  attributes : (db.attributes.map (fun a => (a.attrelid, a.attnum))).Nodup
  attrelid : ∀ a ∈ db.attributes, ∃ c ∈ db.classes, c.oid = a.attrelid
  /-- options are written `key=value`, each key once -/
  reloptions : ∀ c ∈ db.classes, ∀ l, c.reloptions = some l → ∃ opts : List (Str × Str),
    (opts.map Prod.fst).Nodup ∧ (∀ o ∈ opts, (61 : UInt8) ∉ o.1) ∧
    l = opts.map (fun o => o.1 ++ b!"=" ++ o.2)
  attrdefs : (db.attrdefs.map (fun d => (d.adrelid, d.adnum))).Nodup
  procs : (db.procs.map (·.oid)).Nodup
  proname : (db.procs.map (fun p => (p.proname, p.proargtypes, p.pronamespace))).Nodup
  pronamespace : ∀ p ∈ db.procs, ∃ n ∈ db.namespaces, n.oid = p.pronamespace
  languages : (db.languages.map (·.oid)).Nodup
  prolang : ∀ p ∈ db.procs, ∃ l ∈ db.languages, l.oid = p.prolang
  triggers : (db.triggers.map (·.oid)).Nodup
  tgname : (db.triggers.map (fun t => (t.tgrelid, t.tgname))).Nodup
  constraints : (db.constraints.map (·.oid)).Nodup
  confrelid : ∀ k ∈ db.constraints, k.contype = b!"f" → ∃ c ∈ db.classes, c.oid = k.confrelid
  indexes : (db.indexes.map (·.indexrelid)).Nodup
  indexrelid : ∀ i ∈ db.indexes, ∃ c ∈ db.classes, c.oid = i.indexrelid
  sequences : (db.sequences.map (·.seqrelid)).Nodup
  seqrelid : ∀ c ∈ db.classes, c.relkind = b!"S" → ∃ s ∈ db.sequences, s.seqrelid = c.oid
  depends : db.depends.Nodup
  /-- a sequence is owned by at most one column -/
  owner : ∀ c ∈ db.classes, c.relkind = b!"S" → ∀ d ∈ db.depends, ∀ d' ∈ db.depends,
    d.objid = c.oid → d'.objid = c.oid → d.classid = 1259 → d'.classid = 1259 →
    d.refclassid = 1259 → d'.refclassid = 1259 → (d.deptype = b!"a" ∨ d.deptype = b!"i") →
    (d'.deptype = b!"a" ∨ d'.deptype = b!"i") → d = d'
  descriptions : (db.descriptions.map (fun d => (d.objoid, d.classoid, d.objsubid))).Nodup

end Verif.Sql
