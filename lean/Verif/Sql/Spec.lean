import Verif.Sql.Serve
import Verif.Pg.ListSpec

/-!
# What the listings say about the database (specification)
-/

namespace Verif.Sql
open Verif Verif.Pg

/-- `xs` describes the objects with property `P`, each exactly once, as `D` says, in an order in which
`R` holds of any two. -/
def Enumerates {α β : Type} (P : α → Prop) (D : α → β → Prop) (R : α → α → Prop) (xs : List β) : Prop :=
  ∃ l : List α, l.Nodup ∧ (∀ a, a ∈ l ↔ P a) ∧ l.Pairwise R ∧ List.Forall₂ D l xs

/-- In the order of two texts, the first one first. -/
def InOrder (a b a' b' : Str) : Prop := Str.le a a' = true ∧ (a = a' → Str.le b b' = true)

/-- `s` is the comment on the object, or empty if there is none. `sub` is 0 or a column's number. -/
def CommentIs (db : Db) (classoid objoid : Nat) (sub : Int) (s : Str) : Prop :=
  (∃ d ∈ db.descriptions, d.classoid = classoid ∧ d.objoid = objoid ∧ d.objsubid = sub ∧
    d.description = s) ∨
  (¬ ∃ d ∈ db.descriptions, d.classoid = classoid ∧ d.objoid = objoid ∧ d.objsubid = sub) ∧ s = []

/-- The schema with this oid has this name. -/
def SchemaIs (db : Db) (oid : Nat) (name : Str) : Prop :=
  ∃ n ∈ db.namespaces, n.oid = oid ∧ n.nspname = name

/-- The relation `schema.name`. -/
def IsRel (db : Db) (schema name : Str) (c : Class) : Prop :=
  c ∈ db.classes ∧ c.relname = name ∧ SchemaIs db c.relnamespace schema

/-- The relation's name without schema means the relation: its schema is searched, and no schema that
is searched earlier has a relation of the same name. -/
def Visible (db : Db) (c : Class) : Prop :=
  ∃ pre suf, db.path = pre ++ c.relnamespace :: suf ∧
    ∀ c' ∈ db.classes, c'.relname = c.relname → c'.relnamespace ∉ pre

/-- Likewise for a function's name and argument types. -/
def FnVisible (db : Db) (p : Proc) : Prop :=
  ∃ pre suf, db.path = pre ++ p.pronamespace :: suf ∧
    ∀ p' ∈ db.procs, p'.proname = p.proname → p'.proargtypes = p.proargtypes →
      p'.pronamespace ∉ pre

/-- Ordinary and partitioned tables. -/
def IsTable (c : Class) : Prop := c.relkind = b!"r" ∨ c.relkind = b!"p" ∨ c.relkind = []

/-- Schemas of the system itself. -/
def SystemSchema (name : Str) : Prop :=
  name = b!"pg_catalog" ∨ name = b!"information_schema" ∨ b!"pg_toast" <+: name

def InUserSchema (db : Db) (oid : Nat) : Prop := ∃ name, SchemaIs db oid name ∧ ¬ SystemSchema name

/-! ## Schemas -/

structure SchemaDescribed (db : Db) (n : Namespace) (x : Schema) : Prop where
  name : x.name = n.nspname
  owner : x.owner = db.getUserbyid n.nspowner
  comment : CommentIs db 2615 n.oid 0 x.comment

def UserSchema (db : Db) (n : Namespace) : Prop :=
  n ∈ db.namespaces ∧ ¬ b!"pg_" <+: n.nspname ∧ n.nspname ≠ b!"information_schema"

/-! ## Tables -/

structure TableDescribed (db : Db) (c : Class) (x : Ddl.Table) : Prop where
  schema : SchemaIs db c.relnamespace x.schema
  name : x.name = c.relname
  owner : x.owner = db.getUserbyid c.relowner
  comment : CommentIs db 1259 c.oid 0 x.comment
  columns : x.columns = []
  checks : x.checks = []
  foreignKeys : x.foreignKeys = []

def UserTable (db : Db) (c : Class) : Prop :=
  c ∈ db.classes ∧ IsTable c ∧ InUserSchema db c.relnamespace

/-! ## Functions -/

structure FunctionDescribed (db : Db) (p : Proc) (x : Ddl.Function) : Prop where
  schema : SchemaIs db p.pronamespace x.schema
  name : x.name = p.proname
  owner : x.owner = db.getUserbyid p.proowner
  comment : CommentIs db 1255 p.oid 0 x.comment
  returns : Reads (db.getFunctionResult p.oid) x.returns
  language : ∃ l ∈ db.languages, l.oid = p.prolang ∧ x.language = l.lanname
  definition : x.definition = p.prosrc

def UserFunction (db : Db) (p : Proc) : Prop :=
  p ∈ db.procs ∧ ∃ name, SchemaIs db p.pronamespace name ∧ name ≠ b!"pg_catalog" ∧
    name ≠ b!"information_schema"

/-! ## The parts of a table -/

/-- A column of the relation that has not been dropped. -/
def LiveColumn (db : Db) (schema table : Str) (a : Attribute) : Prop :=
  a ∈ db.attributes ∧ 0 < a.attnum ∧ a.attisdropped = false ∧
    ∃ c, IsRel db schema table c ∧ a.attrelid = c.oid

/-- The default value of a column, or empty. -/
def DefaultIs (db : Db) (a : Attribute) (s : Str) : Prop :=
  (a.atthasdef = true ∧ ∃ d ∈ db.attrdefs, d.adrelid = a.attrelid ∧ d.adnum = a.attnum ∧
    s = db.getExpr d.adbin d.adrelid) ∨
  (¬ (a.atthasdef = true ∧ ∃ d ∈ db.attrdefs, d.adrelid = a.attrelid ∧ d.adnum = a.attnum) ∧ s = [])

structure ColumnDescribed (db : Db) (a : Attribute) (x : Ddl.Column) : Prop where
  name : x.name = a.attname
  type : x.type = db.formatType a.atttypid (some a.atttypmod)
  notNull : x.notNull = a.attnotnull
  default_ : DefaultIs db a x.default_
  comment : CommentIs db 1259 a.attrelid a.attnum x.comment

/-- In the order of the table. -/
def ColumnOrder (a b : Attribute) : Prop := a.attnum < b.attnum

/-- A check constraint of the relation. -/
def CheckOf (db : Db) (schema table : Str) (k : Constraint) : Prop :=
  k ∈ db.constraints ∧ k.contype = b!"c" ∧ ∃ c, IsRel db schema table c ∧ k.conrelid = c.oid

def CheckDescribed (db : Db) (k : Constraint) (x : Ddl.Check) : Prop :=
  x.name = k.conname ∧ Ddl.parseCheck (db.getConstraintdef k.oid true) = .ok { x with name := [] }

/-- A foreign key of the relation. -/
def ForeignKeyOf (db : Db) (schema table : Str) (k : Constraint) : Prop :=
  k ∈ db.constraints ∧ k.contype = b!"f" ∧ ∃ c, IsRel db schema table c ∧ k.conrelid = c.oid

/-- By the name of the table referred to, then by the columns that refer to it. -/
def ForeignKeyOrder (db : Db) (k k' : Constraint) : Prop :=
  ∀ t ∈ db.classes, ∀ t' ∈ db.classes, t.oid = k.confrelid → t'.oid = k'.confrelid →
    Str.le t.relname t'.relname = true ∧
    ∀ cols cols', t.relname = t'.relname → k.conkey = some cols → k'.conkey = some cols' →
      intsLe cols cols' = true

def ForeignKeyDescribed (db : Db) (k : Constraint) (x : Ddl.ForeignKey) : Prop :=
  x.name = k.conname ∧ Ddl.ForeignKeyText (db.getConstraintdef k.oid false) { x with name := [] }

/-- An index of the relation. -/
def IndexOf (db : Db) (schema table : Str) (i : Index) : Prop :=
  i ∈ db.indexes ∧ ∃ c, IsRel db schema table c ∧ i.indrelid = c.oid

/-- The primary key first, then the unique indexes, each group by name. -/
def IndexOrder (db : Db) (i i' : Index) : Prop :=
  (i.indisprimary = true ∧ i'.indisprimary = false) ∨ (i.indisprimary = i'.indisprimary ∧
    ((i.indisunique = true ∧ i'.indisunique = false) ∨ (i.indisunique = i'.indisunique ∧
      ∀ t ∈ db.classes, ∀ t' ∈ db.classes, t.oid = i.indexrelid → t'.oid = i'.indexrelid →
        Str.le t.relname t'.relname = true)))

def IndexDescribed (db : Db) (schema : Str) (i : Index) (x : Ddl.Index) : Prop :=
  x.schema = schema ∧ x.primary = i.indisprimary ∧
    Ddl.IndexText (db.getIndexdef i.indexrelid) { x with schema := [], primary := false }

/-- A trigger of the relation. -/
def TriggerOf (db : Db) (schema table : Str) (t : Trigger) : Prop :=
  t ∈ db.triggers ∧ ∃ c, IsRel db schema table c ∧ t.tgrelid = c.oid

def TriggerDescribed (db : Db) (schema : Str) (t : Trigger) (x : Ddl.Trigger) : Prop :=
  x.schema = schema ∧ Ddl.TriggerText (db.getTriggerdef t.oid) { x with schema := [] }

/-! ## Storage parameters -/

/-- The option `key` of the relation has been set to `value`. -/
def OptionSet (db : Db) (schema table : Str) (key value : Str) : Prop :=
  ∃ t, IsRel db schema table t ∧ ∃ l, t.reloptions = some l ∧ (61 : UInt8) ∉ key ∧
    key ++ b!"=" ++ value ∈ l

/-! ## Sequences -/

/-- The server keeps the parameters of sequences in the catalog `pg_sequence` (since version 10). -/
def HasPgSequence (db : Db) : Prop := ∃ c, IsRel db b!"pg_catalog" b!"pg_sequence" c

def UserSequence (db : Db) (c : Class) : Prop :=
  c ∈ db.classes ∧ c.relkind = b!"S" ∧ InUserSchema db c.relnamespace

/-- The sequence belongs to the column `a`. -/
def OwnedBy (db : Db) (c : Class) (a : Attribute) : Prop :=
  a ∈ db.attributes ∧ ∃ d ∈ db.depends, d.classid = 1259 ∧ d.objid = c.oid ∧ d.refclassid = 1259 ∧
    d.refobjid = a.attrelid ∧ d.refobjsubid = a.attnum ∧ (d.deptype = b!"a" ∨ d.deptype = b!"i")

structure SequenceDescribed (db : Db) (c : Class) (x : Pg.Sequence) : Prop where
  schema : SchemaIs db c.relnamespace x.schema
  name : x.name = c.relname
  owner : x.owner = db.getUserbyid c.relowner
  comment : CommentIs db 1259 c.oid 0 x.comment
  values : ∃ s ∈ db.sequences, s.seqrelid = c.oid ∧ x.start = s.seqstart ∧ x.minimum = s.seqmin ∧
    x.maximum = s.seqmax ∧ x.increment = s.seqincrement ∧ x.cache = s.seqcache ∧ x.cycle = s.seqcycle
  ownedBy : ∃ o, x.ownedBy = some o ∧ ∃ a, OwnedBy db c a ∧ o.column = a.attname ∧
    ∃ t, IsRel db o.schema o.table t ∧ t.oid = a.attrelid

/-- The data type is recorded in `pg_sequence`; without that catalog every sequence is a bigint. -/
def SequenceTypeIs (db : Db) (c : Class) (x : Pg.Sequence) : Prop :=
  ∃ s ∈ db.sequences, s.seqrelid = c.oid ∧ x.dataType = db.formatType s.seqtypid none

end Verif.Sql
