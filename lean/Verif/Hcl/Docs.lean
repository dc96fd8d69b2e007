import Verif.Hcl.Model

/-!
# The documents in the test data of `/repo`

Written by `tools/hcl2lean.py`.
-/

namespace Verif.Hcl.Docs
open Verif

/-- internal/ddl/testdata/example.hcl -/
def exampleDoc : List (Item Int) := [
  .block b!"parameters" [] [
    .attr b!"search_path" (.list [.str b!"$user", .str b!"public"])],
  .block b!"schema" [b!"public"] [],
  .block b!"function" [b!"public", b!"update_modified_column"] [
    .attr b!"returns" (.str b!"trigger"),
    .attr b!"language" (.str b!"plpgsql"),
    .attr b!"definition" (.str b!"BEGIN\n  NEW.modified = now();\n  RETURN NEW;\nEND;\n")],
  .block b!"sequence" [b!"public", b!"bar_id_seq"] [
    .attr b!"start" (.num 1),
    .attr b!"minimum" (.num 1),
    .attr b!"maximum" (.num 2147483647),
    .attr b!"increment" (.num 1),
    .attr b!"cache" (.num 1),
    .attr b!"cycle" (.bool false),
    .block b!"owned_by" [] [
      .attr b!"schema" (.str b!"public"),
      .attr b!"table" (.str b!"bar"),
      .attr b!"column" (.str b!"id")]],
  .block b!"sequence" [b!"public", b!"foo_id_seq"] [
    .attr b!"maximum" (.num 2147483647)],
  .block b!"table" [b!"public", b!"bar"] [
    .block b!"column" [b!"id"] [
      .attr b!"type" (.str b!"integer"),
      .attr b!"not_null" (.bool true),
      .attr b!"default" (.str b!"nextval('bar_id_seq'::regclass)")],
    .block b!"column" [b!"foo_id"] [
      .attr b!"type" (.str b!"integer"),
      .attr b!"not_null" (.bool true)],
    .block b!"foreign_key" [b!"foo"] [
      .attr b!"columns" (.list [.str b!"foo_id"]),
      .attr b!"referenced" (.list [.str b!"id"])]],
  .block b!"table" [b!"public", b!"foo"] [
    .attr b!"comment" (.str b!"A simple test case"),
    .block b!"column" [b!"id"] [
      .attr b!"type" (.str b!"integer"),
      .attr b!"not_null" (.bool true),
      .attr b!"default" (.str b!"nextval('foo_id_seq'::regclass)")],
    .block b!"column" [b!"created"] [
      .attr b!"type" (.str b!"timestamp with time zone"),
      .attr b!"not_null" (.bool true),
      .attr b!"default" (.str b!"now()")],
    .block b!"column" [b!"modified"] [
      .attr b!"type" (.str b!"timestamp with time zone"),
      .attr b!"not_null" (.bool true),
      .attr b!"default" (.str b!"now()")],
    .block b!"column" [b!"key"] [
      .attr b!"type" (.str b!"character varying(50)"),
      .attr b!"not_null" (.bool true)],
    .block b!"column" [b!"value"] [
      .attr b!"type" (.str b!"character varying(500)")]],
  .block b!"trigger" [b!"public", b!"foo", b!"update_foo_modified"] [
    .attr b!"function" (.str b!"update_modified_column"),
    .attr b!"when" (.str b!"before"),
    .attr b!"update" (.bool true),
    .attr b!"for_each_row" (.bool true)]]

/-- internal/ddl/testdata/expected.hcl -/
def expectedDoc : List (Item Int) := [
  .block b!"parameters" [] [
    .attr b!"search_path" (.list [.str b!"$user", .str b!"public"]),
    .attr b!"timezone" (.str b!"")],
  .block b!"schema" [b!"public"] [
    .attr b!"owner" (.str b!""),
    .attr b!"comment" (.str b!"")],
  .block b!"function" [b!"public", b!"update_modified_column"] [
    .attr b!"owner" (.str b!""),
    .attr b!"comment" (.str b!""),
    .attr b!"returns" (.str b!"trigger"),
    .attr b!"language" (.str b!"plpgsql"),
    .attr b!"definition" (.str b!"BEGIN\n  NEW.modified = now();\n  RETURN NEW;\nEND;\n")],
  .block b!"sequence" [b!"public", b!"bar_id_seq"] [
    .attr b!"owner" (.str b!""),
    .attr b!"comment" (.str b!""),
    .attr b!"data_type" (.str b!""),
    .attr b!"start" (.num 1),
    .attr b!"minimum" (.num 1),
    .attr b!"maximum" (.num 2147483647),
    .attr b!"increment" (.num 1),
    .attr b!"cache" (.num 1),
    .attr b!"cycle" (.bool false),
    .block b!"owned_by" [] [
      .attr b!"schema" (.str b!"public"),
      .attr b!"table" (.str b!"bar"),
      .attr b!"column" (.str b!"id")]],
  .block b!"sequence" [b!"public", b!"foo_id_seq"] [
    .attr b!"owner" (.str b!""),
    .attr b!"comment" (.str b!""),
    .attr b!"data_type" (.str b!""),
    .attr b!"start" (.num 0),
    .attr b!"minimum" (.num 0),
    .attr b!"maximum" (.num 2147483647),
    .attr b!"increment" (.num 0),
    .attr b!"cache" (.num 0),
    .attr b!"cycle" (.bool false)],
  .block b!"table" [b!"public", b!"bar"] [
    .attr b!"owner" (.str b!""),
    .attr b!"comment" (.str b!""),
    .block b!"column" [b!"id"] [
      .attr b!"type" (.str b!"integer"),
      .attr b!"not_null" (.bool true),
      .attr b!"default" (.str b!"nextval('bar_id_seq'::regclass)"),
      .attr b!"comment" (.str b!"")],
    .block b!"column" [b!"foo_id"] [
      .attr b!"type" (.str b!"integer"),
      .attr b!"not_null" (.bool true),
      .attr b!"default" (.str b!""),
      .attr b!"comment" (.str b!"")],
    .block b!"foreign_key" [b!"foo"] [
      .attr b!"name" (.str b!""),
      .attr b!"columns" (.list [.str b!"foo_id"]),
      .attr b!"referenced" (.list [.str b!"id"]),
      .attr b!"match" (.str b!""),
      .attr b!"on_delete" (.str b!""),
      .attr b!"on_update" (.str b!""),
      .attr b!"deferrable" (.bool false),
      .attr b!"initially_deferred" (.bool false)]],
  .block b!"table" [b!"public", b!"foo"] [
    .attr b!"owner" (.str b!""),
    .attr b!"comment" (.str b!"A simple test case"),
    .block b!"column" [b!"id"] [
      .attr b!"type" (.str b!"integer"),
      .attr b!"not_null" (.bool true),
      .attr b!"default" (.str b!"nextval('foo_id_seq'::regclass)"),
      .attr b!"comment" (.str b!"")],
    .block b!"column" [b!"created"] [
      .attr b!"type" (.str b!"timestamp with time zone"),
      .attr b!"not_null" (.bool true),
      .attr b!"default" (.str b!"now()"),
      .attr b!"comment" (.str b!"")],
    .block b!"column" [b!"modified"] [
      .attr b!"type" (.str b!"timestamp with time zone"),
      .attr b!"not_null" (.bool true),
      .attr b!"default" (.str b!"now()"),
      .attr b!"comment" (.str b!"")],
    .block b!"column" [b!"key"] [
      .attr b!"type" (.str b!"character varying(50)"),
      .attr b!"not_null" (.bool true),
      .attr b!"default" (.str b!""),
      .attr b!"comment" (.str b!"")],
    .block b!"column" [b!"value"] [
      .attr b!"type" (.str b!"character varying(500)"),
      .attr b!"not_null" (.bool false),
      .attr b!"default" (.str b!""),
      .attr b!"comment" (.str b!"")]],
  .block b!"trigger" [b!"public", b!"foo", b!"update_foo_modified"] [
    .attr b!"function" (.str b!"update_modified_column"),
    .attr b!"when" (.str b!"before"),
    .attr b!"constraint" (.bool false),
    .attr b!"deferrable" (.bool false),
    .attr b!"initially_deferred" (.bool false),
    .attr b!"for_each_row" (.bool true),
    .attr b!"delete" (.bool false),
    .attr b!"insert" (.bool false),
    .attr b!"truncate" (.bool false),
    .attr b!"update" (.bool true),
    .attr b!"columns" (.null)]]

/-- internal/ddl/testdata/settings.hcl -/
def settingsDoc : List (Item Int) := [
  .block b!"function" [b!"public", b!"update_mtime_column"] [
    .attr b!"returns" (.str b!"TRIGGER"),
    .attr b!"language" (.str b!"plpgsql"),
    .attr b!"definition" (.str b!"BEGIN\n  NEW.mtime = now();\n  RETURN NEW;\nEND;\n")],
  .block b!"table" [b!"", b!"settings"] [
    .block b!"column" [b!"ctime"] [
      .attr b!"type" (.str b!"TIMESTAMPTZ"),
      .attr b!"not_null" (.bool true),
      .attr b!"default" (.str b!"now()")],
    .block b!"column" [b!"mtime"] [
      .attr b!"type" (.str b!"TIMESTAMPTZ"),
      .attr b!"not_null" (.bool true),
      .attr b!"default" (.str b!"now()")],
    .block b!"column" [b!"key"] [
      .attr b!"type" (.str b!"VARCHAR(50)"),
      .attr b!"not_null" (.bool true)],
    .block b!"column" [b!"value"] [
      .attr b!"type" (.str b!"VARCHAR(500)"),
      .attr b!"not_null" (.bool false),
      .attr b!"default" (.str b!"")],
    .block b!"check" [] [
      .attr b!"expression" (.str b!"length(key) > 0")]],
  .block b!"index" [b!"", b!"settings", b!"settings_pkey"] [
    .attr b!"primary" (.bool true),
    .attr b!"unique" (.bool true),
    .block b!"key" [] [
      .attr b!"column" (.str b!"key")]],
  .block b!"trigger" [b!"", b!"settings", b!"update_settings_mtime"] [
    .attr b!"function" (.str b!"update_mtime_column"),
    .attr b!"when" (.str b!"BEFORE"),
    .attr b!"for_each_row" (.bool true),
    .attr b!"update" (.bool true)]]

/-- testdata/expected.hcl -/
def dockerDoc : List (Item Int) := [
  .block b!"parameters" [] [
    .attr b!"search_path" (.list [.str b!"\"$user\"", .str b!" public"]),
    .attr b!"timezone" (.str b!"UTC")],
  .block b!"schema" [b!"public"] [
    .attr b!"owner" (.str b!"docker"),
    .attr b!"comment" (.str b!"standard public schema")],
  .block b!"function" [b!"public", b!"update_modified_column"] [
    .attr b!"owner" (.str b!"docker"),
    .attr b!"comment" (.str b!""),
    .attr b!"returns" (.str b!"trigger"),
    .attr b!"language" (.str b!"plpgsql"),
    .attr b!"definition" (.str b!"\nBEGIN\n    NEW.modified = now();\n    RETURN NEW; \nEND;\n")],
  .block b!"sequence" [b!"public", b!"measurement_id_seq"] [
    .attr b!"owner" (.str b!"docker"),
    .attr b!"comment" (.str b!""),
    .attr b!"data_type" (.str b!"bigint"),
    .attr b!"start" (.num 1),
    .attr b!"minimum" (.num 1),
    .attr b!"maximum" (.num 9223372036854775807),
    .attr b!"increment" (.num 1),
    .attr b!"cache" (.num 1),
    .attr b!"cycle" (.bool false),
    .block b!"owned_by" [] [
      .attr b!"schema" (.str b!"public"),
      .attr b!"table" (.str b!"measurement"),
      .attr b!"column" (.str b!"id")]],
  .block b!"sequence" [b!"public", b!"observation_id_seq"] [
    .attr b!"owner" (.str b!"docker"),
    .attr b!"comment" (.str b!""),
    .attr b!"data_type" (.str b!"bigint"),
    .attr b!"start" (.num 1),
    .attr b!"minimum" (.num 1),
    .attr b!"maximum" (.num 9223372036854775807),
    .attr b!"increment" (.num 1),
    .attr b!"cache" (.num 1),
    .attr b!"cycle" (.bool false),
    .block b!"owned_by" [] [
      .attr b!"schema" (.str b!"public"),
      .attr b!"table" (.str b!"observation"),
      .attr b!"column" (.str b!"id")]],
  .block b!"table" [b!"public", b!"measurement"] [
    .attr b!"owner" (.str b!"docker"),
    .attr b!"comment" (.str b!""),
    .block b!"column" [b!"created"] [
      .attr b!"type" (.str b!"timestamp with time zone"),
      .attr b!"not_null" (.bool true),
      .attr b!"default" (.str b!"now()"),
      .attr b!"comment" (.str b!"")],
    .block b!"column" [b!"id"] [
      .attr b!"type" (.str b!"bigint"),
      .attr b!"not_null" (.bool true),
      .attr b!"default" (.str b!"nextval('measurement_id_seq'::regclass)"),
      .attr b!"comment" (.str b!"")],
    .block b!"column" [b!"key"] [
      .attr b!"type" (.str b!"character varying(50)"),
      .attr b!"not_null" (.bool true),
      .attr b!"default" (.str b!""),
      .attr b!"comment" (.str b!"")],
    .block b!"column" [b!"modified"] [
      .attr b!"type" (.str b!"timestamp with time zone"),
      .attr b!"not_null" (.bool true),
      .attr b!"default" (.str b!"now()"),
      .attr b!"comment" (.str b!"")],
    .block b!"column" [b!"value"] [
      .attr b!"type" (.str b!"character varying(500)"),
      .attr b!"not_null" (.bool false),
      .attr b!"default" (.str b!""),
      .attr b!"comment" (.str b!"")],
    .block b!"check" [] [
      .attr b!"name" (.str b!"measurement_key_check"),
      .attr b!"expression" (.str b!"key::text ~ '^\\d{4}-\\d{4}-\\d{4}(:[a-z]+)?$'::text"),
      .attr b!"deferrable" (.bool false),
      .attr b!"initially_deferred" (.bool false)],
    .block b!"storage_parameters" [] [
      .attr b!"fillfactor" (.num 75),
      .attr b!"autovacuum_enabled" (.bool false)]],
  .block b!"table" [b!"public", b!"observation"] [
    .attr b!"owner" (.str b!"docker"),
    .attr b!"comment" (.str b!""),
    .block b!"column" [b!"created"] [
      .attr b!"type" (.str b!"timestamp with time zone"),
      .attr b!"not_null" (.bool true),
      .attr b!"default" (.str b!"now()"),
      .attr b!"comment" (.str b!"")],
    .block b!"column" [b!"id"] [
      .attr b!"type" (.str b!"bigint"),
      .attr b!"not_null" (.bool true),
      .attr b!"default" (.str b!"nextval('observation_id_seq'::regclass)"),
      .attr b!"comment" (.str b!"")],
    .block b!"column" [b!"measurement_id"] [
      .attr b!"type" (.str b!"integer"),
      .attr b!"not_null" (.bool true),
      .attr b!"default" (.str b!""),
      .attr b!"comment" (.str b!"")],
    .block b!"column" [b!"modified"] [
      .attr b!"type" (.str b!"timestamp with time zone"),
      .attr b!"not_null" (.bool true),
      .attr b!"default" (.str b!"now()"),
      .attr b!"comment" (.str b!"")],
    .block b!"column" [b!"notes"] [
      .attr b!"type" (.str b!"character varying(500)"),
      .attr b!"not_null" (.bool false),
      .attr b!"default" (.str b!""),
      .attr b!"comment" (.str b!"")],
    .block b!"check" [] [
      .attr b!"name" (.str b!"encourage detailed notes"),
      .attr b!"expression" (.str b!"length(notes::text) > 50"),
      .attr b!"deferrable" (.bool false),
      .attr b!"initially_deferred" (.bool false)],
    .block b!"foreign_key" [b!"measurement"] [
      .attr b!"name" (.str b!"observation_measurement_id_fkey"),
      .attr b!"columns" (.list [.str b!"measurement_id"]),
      .attr b!"referenced" (.list [.str b!"id"]),
      .attr b!"match" (.str b!""),
      .attr b!"on_delete" (.str b!""),
      .attr b!"on_update" (.str b!""),
      .attr b!"deferrable" (.bool false),
      .attr b!"initially_deferred" (.bool false)],
    .block b!"storage_parameters" [] []],
  .block b!"index" [b!"public", b!"measurement", b!"measurement_pkey"] [
    .attr b!"primary" (.bool true),
    .attr b!"unique" (.bool true),
    .attr b!"using" (.str b!"btree"),
    .attr b!"where" (.str b!""),
    .block b!"key" [] [
      .attr b!"column" (.str b!"id"),
      .attr b!"expression" (.str b!""),
      .attr b!"opclass" (.str b!""),
      .attr b!"descending" (.bool false)]],
  .block b!"index" [b!"public", b!"measurement", b!"measurement_key_key"] [
    .attr b!"primary" (.bool false),
    .attr b!"unique" (.bool true),
    .attr b!"using" (.str b!"btree"),
    .attr b!"where" (.str b!""),
    .block b!"key" [] [
      .attr b!"column" (.str b!"key"),
      .attr b!"expression" (.str b!""),
      .attr b!"opclass" (.str b!""),
      .attr b!"descending" (.bool false)]],
  .block b!"index" [b!"public", b!"observation", b!"observation_pkey"] [
    .attr b!"primary" (.bool true),
    .attr b!"unique" (.bool true),
    .attr b!"using" (.str b!"btree"),
    .attr b!"where" (.str b!""),
    .block b!"key" [] [
      .attr b!"column" (.str b!"id"),
      .attr b!"expression" (.str b!""),
      .attr b!"opclass" (.str b!""),
      .attr b!"descending" (.bool false)]],
  .block b!"trigger" [b!"public", b!"measurement", b!"update_modified_column"] [
    .attr b!"function" (.str b!"update_modified_column"),
    .attr b!"when" (.str b!"BEFORE"),
    .attr b!"constraint" (.bool false),
    .attr b!"deferrable" (.bool false),
    .attr b!"initially_deferred" (.bool false),
    .attr b!"for_each_row" (.bool true),
    .attr b!"delete" (.bool false),
    .attr b!"insert" (.bool false),
    .attr b!"truncate" (.bool false),
    .attr b!"update" (.bool true),
    .attr b!"columns" (.null)],
  .block b!"trigger" [b!"public", b!"observation", b!"update_modified_column"] [
    .attr b!"function" (.str b!"update_modified_column"),
    .attr b!"when" (.str b!"BEFORE"),
    .attr b!"constraint" (.bool false),
    .attr b!"deferrable" (.bool false),
    .attr b!"initially_deferred" (.bool false),
    .attr b!"for_each_row" (.bool true),
    .attr b!"delete" (.bool false),
    .attr b!"insert" (.bool false),
    .attr b!"truncate" (.bool false),
    .attr b!"update" (.bool true),
    .attr b!"columns" (.null)]]

end Verif.Hcl.Docs
