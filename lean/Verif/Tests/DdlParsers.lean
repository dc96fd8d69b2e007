import Verif.Ddl.Parse
import Verif.Ddl.Error

/-!
# The tests of the parsers in /repo/internal/ddl, on the model

Generated by tools/gen_conform.py from the tables of the tests.
-/

namespace Verif.Tests
open Verif Verif.Ragel Verif.Ddl

/-- check_parser_test.go `TestParseCheck`. -/
example :
    parseCheck b!"\n\t\tCHECK (0 <= value)\n\t" =
      .ok { expression := b!"0 <= value" } ∧
    parseCheck b!"\n\t\tCHECK (0 <= value)\n\t\tDEFERRABLE INITIALLY DEFERRED\n\t" =
      .ok { expression := b!"0 <= value", deferrable := true, initiallyDeferred := true } ∧
    parseCheck b!"\n\t\tCHECK (jsonb_typeof(data) = 'object'::text)\n\t" =
      .ok { expression := b!"jsonb_typeof(data) = 'object'::text" } ∧
    parseCheck b!"\nCHECK (\nCASE\n    WHEN key::text = 'begin'::text THEN 0 <= value\n    ELSE 0 < value\nEND)" =
      .ok { expression := b!"CASE\n    WHEN key::text = 'begin'::text THEN 0 <= value\n    ELSE 0 < value\nEND" } := by
  decide +kernel

/-- index_parser_test.go `TestParseIndex`. -/
example :
    parseIndex b!"\n\t\tCREATE UNIQUE INDEX foo__key\n\t\tON foo USING btree (key)\n\t" =
      .ok { keys := [{ column := b!"key" }], table := b!"foo", name := b!"foo__key", unique := true, using_ := b!"btree" } ∧
    parseIndex b!"\n\t\tCREATE INDEX foo__key__value\n\t\tON foo USING btree ( key, value )\n\t" =
      .ok { keys := [{ column := b!"key" }, { column := b!"value" }], table := b!"foo", name := b!"foo__key__value", using_ := b!"btree" } ∧
    parseIndex b!"\n\t\tCREATE INDEX foo__uniq__key__null_value\n\t\tON foo ( key )\n\t\tWHERE value IS NULL\n\t" =
      .ok { keys := [{ column := b!"key" }], table := b!"foo", name := b!"foo__uniq__key__null_value", where_ := b!"value IS NULL" } ∧
    parseIndex b!"\n\t\tCREATE INDEX foo__key__like\n\t\tON foo (key varchar_pattern_ops)\n\t" =
      .ok { keys := [{ column := b!"key", opClass := b!"varchar_pattern_ops" }], table := b!"foo", name := b!"foo__key__like" } ∧
    parseIndex b!"\n\t\tCREATE INDEX foo__key__value__like\n\t\tON foo ( key varchar_pattern_ops , value varchar_pattern_ops )\n\t" =
      .ok { keys := [{ column := b!"key", opClass := b!"varchar_pattern_ops" }, { column := b!"value", opClass := b!"varchar_pattern_ops" }], table := b!"foo", name := b!"foo__key__value__like" } ∧
    parseIndex b!"\n\t\tCREATE INDEX foo__key__upper\n\t\tON foo ( upper(key::text) )\n\t" =
      .ok { keys := [{ expression := b!"upper(key::text)" }], table := b!"foo", name := b!"foo__key__upper" } ∧
    parseIndex b!"\n\t\tCREATE INDEX foo__value__even_odd\n\t\tON foo ( ( value % 2 ) )\n\t" =
      .ok { keys := [{ expression := b!"( value % 2 )" }], table := b!"foo", name := b!"foo__value__even_odd" } := by
  decide +kernel

/-- foreign_key_parser_test.go `TestParseForeignKey`. -/
example :
    parseForeignKey b!"\n\t\tFOREIGN KEY (foo_id) REFERENCES foo(id)\n\t" =
      .ok { table := b!"foo", columns := [b!"foo_id"], referenced := [b!"id"] } ∧
    parseForeignKey b!"\n\t\tFOREIGN KEY (schema, table)\n\t\tREFERENCES tables(schemaName, tableName)\n\t\tMATCH FULL\n\t\tON DELETE CASCADE\n\t\tON UPDATE SET DEFAULT\n\t\tDEFERRABLE INITIALLY DEFERRED\n\t" =
      .ok { table := b!"tables", columns := [b!"schema", b!"table"], referenced := [b!"schemaName", b!"tableName"], match_ := b!"FULL", onDelete := b!"CASCADE", onUpdate := b!"SET DEFAULT", deferrable := true, initiallyDeferred := true } ∧
    parseForeignKey b!"\n\t\tForeign Key (a, b, c)\n\t\tReferences T(d, e, f)\n\t\tMatch   Simple\n\t\tOn   Delete   Restrict\n\t\tOn   Update   Set   Null\n\t\tDeferrable\n\t\tInitially   Deferred\n\t" =
      .ok { table := b!"T", columns := [b!"a", b!"b", b!"c"], referenced := [b!"d", b!"e", b!"f"], match_ := b!"SIMPLE", onDelete := b!"RESTRICT", onUpdate := b!"SET NULL", deferrable := true, initiallyDeferred := true } := by
  decide +kernel

/-- trigger_parser_test.go `TestParseTrigger`. -/
example :
    parseTrigger b!"\n\t\t  CREATE TRIGGER update_foo_modified\n\t\t  BEFORE UPDATE ON foo\n\t\t  FOR EACH ROW\n\t\t  EXECUTE PROCEDURE update_modified_column()\n\t\t" =
      .ok { table := b!"foo", name := b!"update_foo_modified", function := b!"update_modified_column", when_ := b!"BEFORE", forEachRow := true, update := true } ∧
    parseTrigger b!"\n\t\t  CREATE CONSTRAINT TRIGGER trigger1\n\t\t  AFTER INSERT OR DELETE ON table1\n\t\t  DEFERRABLE INITIALLY DEFERRED\n\t\t  FOR EACH ROW\n\t\t  EXECUTE FUNCTION fn1()\n\t\t" =
      .ok { table := b!"table1", name := b!"trigger1", function := b!"fn1", when_ := b!"AFTER", constraint := true, deferrable := true, initiallyDeferred := true, forEachRow := true, insert := true, delete := true } ∧
    parseTrigger b!"\n\t\t  CREATE TRIGGER trigger2\n\t\t  BEFORE TRUNCATE ON table2\n\t\t  FOR EACH STATEMENT\n\t\t  EXECUTE PROCEDURE fn2()\n\t\t" =
      .ok { table := b!"table2", name := b!"trigger2", function := b!"fn2", when_ := b!"BEFORE", truncate := true } ∧
    parseTrigger b!"\n\t\t  create  trigger  TRIGGER3\n\t\t  instead  of  update  on  VIEW3\n\t\t  execute  procedure  FN3()\n\t\t" =
      .ok { table := b!"VIEW3", name := b!"TRIGGER3", function := b!"FN3", when_ := b!"INSTEAD OF", update := true } ∧
    parseTrigger b!"\n\t\t  Create Constraint Trigger\n\t\t  Trigger4\n\t\t  After Update Of col1, col2 On\n\t\t  Table4\n\t\t  NOT\tDeferrable\n\t\t  For\tEach\tStatement\n\t\t  Execute   Procedure\n\t\t  Func4()\n\t\t" =
      .ok { table := b!"Table4", name := b!"Trigger4", function := b!"Func4", when_ := b!"AFTER", constraint := true, update := true, columns := [b!"col1", b!"col2"] } ∧
    parseTrigger b!"\n\t\t  CREATE CONSTRAINT TRIGGER trigger5\n\t\t  AFTER INSERT OR UPDATE OR DELETE ON table5\n\t\t  INITIALLY IMMEDIATE\n\t\t  FOR ROW\n\t\t  EXECUTE PROCEDURE proc5()\n\t\t" =
      .ok { table := b!"table5", name := b!"trigger5", function := b!"proc5", when_ := b!"AFTER", constraint := true, forEachRow := true, insert := true, update := true, delete := true } := by
  decide +kernel

/-- parser_utils_internal_test.go `TestParseError`. -/
example :
    parseErrorString 1 b!"foo\nbar\nbaz" = some b!"foo\n ^" ∧
    parseErrorString 5 b!"foo\nbar\nbaz" = some b!"bar\n ^" ∧
    parseErrorString 10 b!"foo\nbar\nbaz" = some b!"baz\n  ^" := by
  decide +kernel

end Verif.Tests
