import Verif.Sql.Spec
import Verif.Pg.Inspect
import Verif.Ddl.ParamsProps

/-!
# What an inspection says about the database (specification)
-/

namespace Verif.Sql
open Verif Verif.Pg

/-- The connection does not fail between two rows of any answer. -/
structure Steady (c : Catalog) : Prop where
  schemas : Unbroken c.schemas
  functions : Unbroken c.functions
  sequences : Unbroken c.sequences
  legacySequences : Unbroken c.legacySequences
  tables : Unbroken c.tables
  columns : ∀ schema table, Unbroken (c.columns schema table)
  checks : ∀ schema table, Unbroken (c.checks schema table)
  foreignKeys : ∀ schema table, Unbroken (c.foreignKeys schema table)
  storage : ∀ schema table, Unbroken (c.storage schema table)
  indexes : ∀ schema table, Unbroken (c.indexes schema table)
  triggers : ∀ schema table, Unbroken (c.triggers schema table)

/-- The tables an inspection is about. -/
def Inspects (db : Db) (t : Class) : Prop := UserTable db t ∧ Visible db t

/-- By name if asked for, otherwise in the order of the table. -/
def ColumnsIn (o : InspectOptions) (a b : Attribute) : Prop :=
  if o.sortColumns then Str.le a.attname b.attname = true else ColumnOrder a b

/-- The table `t` with all its parts. -/
structure TableInspected {F : Type} (parseFloat : Str → F × Option Ddl.NumErr) (db : Db)
    (o : InspectOptions) (t : Class) (x : TableInfo F) : Prop where
  schema : SchemaIs db t.relnamespace x.table.schema
  name : x.table.name = t.relname
  owner : x.table.owner = db.getUserbyid t.relowner
  comment : CommentIs db 1259 t.oid 0 x.table.comment
  columns : Enumerates (LiveColumn db x.table.schema t.relname) (ColumnDescribed db) (ColumnsIn o)
    x.table.columns
  checks : Enumerates (CheckOf db x.table.schema t.relname) (CheckDescribed db)
    (fun k k' => Str.le k.conname k'.conname = true) x.table.checks
  foreignKeys : Enumerates (ForeignKeyOf db x.table.schema t.relname) (ForeignKeyDescribed db)
    (ForeignKeyOrder db) x.table.foreignKeys
  optionsSet : ∀ key kind value, (key, kind) ∈ Ddl.knownParams →
    OptionSet db x.table.schema t.relname key value →
    ∃ v, Ddl.Denotes parseFloat kind value v ∧ x.storage.get key = some v
  optionsUnset : ∀ key, (¬ ∃ value, OptionSet db x.table.schema t.relname key value) →
    x.storage.get key = none

/-- `i` is an index of an inspected table, which is in schema `s`. -/
def InspectedIndex (db : Db) (s : Str) (i : Index) : Prop :=
  i ∈ db.indexes ∧ ∃ t, Inspects db t ∧ SchemaIs db t.relnamespace s ∧ i.indrelid = t.oid

/-- `g` is a trigger of an inspected table, which is in schema `s`; not one the server made itself. -/
def InspectedTrigger (db : Db) (s : Str) (g : Trigger) : Prop :=
  g ∈ db.triggers ∧ g.tgisinternal = false ∧
    ∃ t, Inspects db t ∧ SchemaIs db t.relnamespace s ∧ g.tgrelid = t.oid

/-- `d` describes the database. -/
structure DatabaseInspected {F : Type} (parseFloat : Str → F × Option Ddl.NumErr) (db : Db)
    (o : InspectOptions) (d : Database F) : Prop where
  schemas : Enumerates (UserSchema db) (SchemaDescribed db)
    (fun n n' => Str.le n.nspname n'.nspname = true) d.schemas
  functions : Enumerates (fun p => UserFunction db p ∧ FnVisible db p) (FunctionDescribed db)
    (fun _ _ => True) d.functions
  sequences : Enumerates (fun c => UserSequence db c ∧ Visible db c ∧ ∃ a, OwnedBy db c a)
    (fun c x => SequenceDescribed db c x ∧ (HasPgSequence db → SequenceTypeIs db c x) ∧
      (¬ HasPgSequence db → x.dataType = b!"bigint")) (fun _ _ => True) d.sequences
  tables : Enumerates (Inspects db) (TableInspected parseFloat db o) (fun _ _ => True) d.tables
  tablesOrder : d.tables.Pairwise
    (fun x y => InOrder x.table.schema x.table.name y.table.schema y.table.name)
  indexes : Enumerates (fun i => ∃ s, InspectedIndex db s i)
    (fun i x => ∃ s, InspectedIndex db s i ∧ IndexDescribed db s i x) (fun _ _ => True) d.indexes
  triggers : Enumerates (fun g => ∃ s, InspectedTrigger db s g)
    (fun g x => ∃ s, InspectedTrigger db s g ∧ TriggerDescribed db s g x) (fun _ _ => True) d.triggers

/-- Some part of an inspected table has a definition that is not understood. -/
def NotUnderstood (db : Db) : Prop :=
  ∃ t s, Inspects db t ∧ SchemaIs db t.relnamespace s ∧
    ((∃ k, CheckOf db s t.relname k ∧ ∀ x, ¬ CheckDescribed db k x) ∨
     (∃ k, ForeignKeyOf db s t.relname k ∧ ∀ x, ¬ ForeignKeyDescribed db k x) ∨
     (∃ i, InspectedIndex db s i ∧ ∀ x, ¬ IndexDescribed db s i x) ∨
     (∃ g, InspectedTrigger db s g ∧ ∀ x, ¬ TriggerDescribed db s g x))

/-- Some known storage parameter of an inspected table has a value that is not understood. -/
def BadOption {F : Type} (parseFloat : Str → F × Option Ddl.NumErr) (db : Db) : Prop :=
  ∃ t s key kind value, Inspects db t ∧ SchemaIs db t.relnamespace s ∧
    (key, kind) ∈ Ddl.knownParams ∧ OptionSet db s t.relname key value ∧
    ∀ v, ¬ Ddl.Denotes parseFloat kind value v

end Verif.Sql
