import Verif.Sql.InspectSpec

/-!
# When a database has only one description (specification)
-/

namespace Verif.Sql
open Verif Verif.Pg

/-- What a server enforces besides the constraints of the catalogs: the constraints of a table have
different names (those with `conrelid` 0 belong to no table), an index is in the schema of its table,
and no relation has the oid 0. -/
structure Enforced (db : Db) : Prop where
  conname : ∀ k ∈ db.constraints, ∀ k' ∈ db.constraints, k.conrelid = k'.conrelid →
    k.conname = k'.conname → k.conrelid ≠ 0 → k = k'
  indexSchema : ∀ i ∈ db.indexes, ∀ c ∈ db.classes, ∀ t ∈ db.classes, c.oid = i.indexrelid →
    t.oid = i.indrelid → c.relnamespace = t.relnamespace
  oids : ∀ c ∈ db.classes, c.oid ≠ 0

/-- Functions of one schema and name, which can differ in their arguments, have the same description. -/
def FunctionsAlike (db : Db) : Prop :=
  ∀ p p', UserFunction db p → FnVisible db p → UserFunction db p' → FnVisible db p' →
    p.proname = p'.proname → p.pronamespace = p'.pronamespace →
    ∀ x, FunctionDescribed db p x ↔ FunctionDescribed db p' x

/-- No table of the inspection has two foreign keys with the same columns that refer to tables of the same
name. -/
def ForeignKeysApart (db : Db) : Prop :=
  ∀ r, Inspects db r → ∀ k ∈ db.constraints, ∀ k' ∈ db.constraints, k.contype = b!"f" → k'.contype = b!"f" →
    k.conrelid = r.oid → k'.conrelid = r.oid → k.conkey = k'.conkey →
    ∀ t ∈ db.classes, ∀ t' ∈ db.classes, t.oid = k.confrelid → t'.oid = k'.confrelid →
      t.relname = t'.relname → k = k'

end Verif.Sql
