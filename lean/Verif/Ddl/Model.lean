import Verif.Base.GoMap

/-!
# Model of `/repo/internal/ddl`: the structs and the `ToSQL` methods

The generated parsers are in `Verif/Ragel`.
-/

namespace Verif.Ddl
open Verif

/-- util.go:5-7 `quoteName`: `strings.Replace(s, "\"", "\"\"", -1)` between double quotes. -/
def quoteName (s : Str) : Str :=
  [34] ++ s.flatMap (fun b => if b = 34 then [34, 34] else [b]) ++ [34]

/-- index.go:20-25 `type IndexKey struct`. -/
structure IndexKey where
  column : Str := []
  expression : Str := []
  opClass : Str := []
  descending : Bool := false
deriving DecidableEq, Repr

/-- index.go:6-17 `type Index struct`. -/
structure Index where
  schema : Str := []
  table : Str := []
  name : Str := []
  primary : Bool := false
  unique : Bool := false
  using_ : Str := []
  where_ : Str := []
  keys : List IndexKey := []
deriving DecidableEq, Repr

/-- check.go:4-9 `type Check struct`. -/
structure Check where
  name : Str := []
  expression : Str := []
  deferrable : Bool := false
  initiallyDeferred : Bool := false
deriving DecidableEq, Repr

/-- foreign_key.go:4-16 `type ForeignKey struct`. -/
structure ForeignKey where
  name : Str := []
  table : Str := []
  columns : List Str := []
  referenced : List Str := []
  match_ : Str := []
  onDelete : Str := []
  onUpdate : Str := []
  deferrable : Bool := false
  initiallyDeferred : Bool := false
deriving DecidableEq, Repr

/-- table.go:20-26 `type Column struct`. -/
structure Column where
  name : Str := []
  type : Str := []
  notNull : Bool := false
  default_ : Str := []
  comment : Str := []
deriving DecidableEq, Repr

/-- table.go:6-17 `type Table struct` (storage parameters are modelled separately). -/
structure Table where
  schema : Str := []
  name : Str := []
  owner : Str := []
  comment : Str := []
  columns : List Column := []
  checks : List Check := []
  foreignKeys : List ForeignKey := []
deriving DecidableEq, Repr

/-- trigger.go:6-24 `type Trigger struct`. -/
structure Trigger where
  schema : Str := []
  table : Str := []
  name : Str := []
  function : Str := []
  when_ : Str := []
  constraint : Bool := false
  deferrable : Bool := false
  initiallyDeferred : Bool := false
  forEachRow : Bool := false
  delete : Bool := false
  insert : Bool := false
  truncate : Bool := false
  update : Bool := false
  columns : List Str := []
deriving DecidableEq, Repr

/-- function.go:6-15 `type Function struct`. -/
structure Function where
  schema : Str := []
  name : Str := []
  owner : Str := []
  comment : Str := []
  returns : Str := []
  language : Str := []
  definition : Str := []
deriving DecidableEq, Repr

/-- index.go:70-75: the loop over the keys; `i` is the loop index. -/
def Index.keyLoop : Nat → List IndexKey → Str → Str
  | _, [], sb => sb
  | i, key :: rest, sb =>
    Index.keyLoop (i + 1) rest ((if i > 0 then sb ++ b!", " else sb) ++ quoteName key.column)

/-- index.go:58-80 `Index.ToSQL` (its error is always nil).  `sb` is the string builder. -/
def Index.toSQL (idx : Index) : Str :=
  let sb : Str := []
  let sb := if idx.primary then
      let sb := sb ++ b!"ALTER TABLE "
      let sb := sb ++ quoteName idx.table
      let sb := sb ++ b!"\n  ADD "
      let sb := if idx.name ≠ [] then
          sb ++ b!"CONSTRAINT " ++ quoteName idx.name ++ b!"\n  "
        else sb
      let sb := sb ++ b!"PRIMARY KEY ("
      let sb := Index.keyLoop 0 idx.keys sb
      sb ++ b!")\n"
    else sb
  sb ++ b!";\n"

/-- table.go:39-49: the body of the loop over the columns after the separator. -/
def Column.toSQL (col : Column) : Str :=
  quoteName col.name ++ b!" " ++ col.type ++
    (if col.notNull then b!" NOT NULL" else []) ++
    (if col.default_ ≠ [] then b!" DEFAULT " ++ col.default_ else []) ++ b!"\n"

/-- table.go:33-50: the loop over the columns. -/
def Table.columnLoop : Nat → List Column → Str → Str
  | _, [], sb => sb
  | i, col :: rest, sb =>
    Table.columnLoop (i + 1) rest ((if i < 1 then sb ++ b!"  " else sb ++ b!", ") ++ col.toSQL)

/-- table.go:51-55: the loop over the checks. -/
def Table.checkLoop : List Check → Str → Str
  | [], sb => sb
  | check :: rest, sb =>
    Table.checkLoop rest (sb ++ b!", CHECK(" ++ check.expression ++ b!")\n")

/-- table.go:28-58 `Table.ToSQL`. -/
def Table.toSQL (t : Table) : Str :=
  let sb := b!"CREATE TABLE " ++ quoteName t.name ++ b!" (\n"
  let sb := Table.columnLoop 0 t.columns sb
  let sb := Table.checkLoop t.checks sb
  sb ++ b!")\n;\n"

/-- trigger.go:48-66 `Trigger.ToSQL`. -/
def Trigger.toSQL (t : Trigger) : Str :=
  b!"CREATE TRIGGER " ++ quoteName t.name ++ b!"\n  " ++ t.when_ ++
    (if t.update then b!" UPDATE" else []) ++ b!" ON " ++ quoteName t.table ++
    (if t.forEachRow then b!"\n  FOR EACH ROW" else []) ++
    b!"\n  EXECUTE PROCEDURE " ++ t.function ++ b!"()\n;\n"

/-- function.go:17-30 `Function.ToSQL`. -/
def Function.toSQL (f : Function) : Str :=
  b!"CREATE OR REPLACE FUNCTION " ++ f.name ++ b!"()\n" ++ b!"RETURNS " ++ f.returns ++
    b!" AS $$\n" ++ f.definition ++ b!"$$ LANGUAGE '" ++ f.language ++ b!"'\n;\n"

end Verif.Ddl
