import Verif.Base.Str

/-!
# The files in the test data of `/repo`

Written by `tools/hcl2lean.py`.
-/

namespace Verif.Hcl.Texts
open Verif

/-- internal/ddl/testdata/example.hcl -/
def exampleText : Str := [
  b!"parameters {\n",
  b!"  search_path = [\"$user\", \"public\"]\n",
  b!"}\n",
  b!"\n",
  b!"schema \"public\" {}\n",
  b!"\n",
  b!"function \"public\" \"update_modified_column\" {\n",
  b!"  returns = \"trigger\"\n",
  b!"  language = \"plpgsql\"\n",
  b!"  definition = <<EOF\n",
  b!"BEGIN\n",
  b!"  NEW.modified = now();\n",
  b!"  RETURN NEW;\n",
  b!"END;\n",
  b!"EOF\n",
  b!"}\n",
  b!"\n",
  b!"sequence \"public\" \"bar_id_seq\" {\n",
  b!"  start     = 1\n",
  b!"  minimum   = 1\n",
  b!"  maximum   = 2147483647\n",
  b!"  increment = 1\n",
  b!"  cache     = 1\n",
  b!"  cycle     = false\n",
  b!"\n",
  b!"  owned_by {\n",
  b!"    schema = \"public\"\n",
  b!"    table  = \"bar\"\n",
  b!"    column = \"id\"\n",
  b!"  }\n",
  b!"}\n",
  b!"\n",
  b!"sequence \"public\" \"foo_id_seq\" {\n",
  b!"  maximum   = 2147483647\n",
  b!"}\n",
  b!"\n",
  b!"table \"public\" \"bar\" {\n",
  b!"  column \"id\" {\n",
  b!"    type = \"integer\"\n",
  b!"    not_null = true\n",
  b!"    default = \"nextval('bar_id_seq'::regclass)\"\n",
  b!"  }\n",
  b!"  column \"foo_id\" {\n",
  b!"    type = \"integer\"\n",
  b!"    not_null = true\n",
  b!"  }\n",
  b!"  foreign_key \"foo\" {\n",
  b!"    columns = [\"foo_id\"]\n",
  b!"    referenced = [\"id\"]\n",
  b!"  }\n",
  b!"}\n",
  b!"\n",
  b!"table \"public\" \"foo\" {\n",
  b!"  comment = \"A simple test case\"\n",
  b!"\n",
  b!"  column \"id\" {\n",
  b!"    type = \"integer\"\n",
  b!"    not_null = true\n",
  b!"    default = \"nextval('foo_id_seq'::regclass)\"\n",
  b!"  }\n",
  b!"  column \"created\" {\n",
  b!"    type = \"timestamp with time zone\"\n",
  b!"    not_null = true\n",
  b!"    default = \"now()\"\n",
  b!"  }\n",
  b!"  column \"modified\" {\n",
  b!"    type = \"timestamp with time zone\"\n",
  b!"    not_null = true\n",
  b!"    default = \"now()\"\n",
  b!"  }\n",
  b!"  column \"key\" {\n",
  b!"    type = \"character varying(50)\"\n",
  b!"    not_null = true\n",
  b!"  }\n",
  b!"  column \"value\" {\n",
  b!"    type = \"character varying(500)\"\n",
  b!"  }\n",
  b!"}\n",
  b!"\n",
  b!"trigger \"public\" \"foo\" \"update_foo_modified\" {\n",
  b!"  function     = \"update_modified_column\"\n",
  b!"  when         = \"before\"\n",
  b!"  update       = true\n",
  b!"  for_each_row = true\n",
  b!"}\n"].flatten

/-- internal/ddl/testdata/expected.hcl -/
def expectedText : Str := [
  b!"\n",
  b!"parameters {\n",
  b!"  search_path = [\"$user\", \"public\"]\n",
  b!"  timezone    = \"\"\n",
  b!"}\n",
  b!"\n",
  b!"schema \"public\" {\n",
  b!"  owner   = \"\"\n",
  b!"  comment = \"\"\n",
  b!"}\n",
  b!"\n",
  b!"function \"public\" \"update_modified_column\" {\n",
  b!"  owner      = \"\"\n",
  b!"  comment    = \"\"\n",
  b!"  returns    = \"trigger\"\n",
  b!"  language   = \"plpgsql\"\n",
  b!"  definition = \"BEGIN\\n  NEW.modified = now();\\n  RETURN NEW;\\nEND;\\n\"\n",
  b!"}\n",
  b!"\n",
  b!"sequence \"public\" \"bar_id_seq\" {\n",
  b!"  owner     = \"\"\n",
  b!"  comment   = \"\"\n",
  b!"  data_type = \"\"\n",
  b!"  start     = 1\n",
  b!"  minimum   = 1\n",
  b!"  maximum   = 2147483647\n",
  b!"  increment = 1\n",
  b!"  cache     = 1\n",
  b!"  cycle     = false\n",
  b!"\n",
  b!"  owned_by {\n",
  b!"    schema = \"public\"\n",
  b!"    table  = \"bar\"\n",
  b!"    column = \"id\"\n",
  b!"  }\n",
  b!"}\n",
  b!"sequence \"public\" \"foo_id_seq\" {\n",
  b!"  owner     = \"\"\n",
  b!"  comment   = \"\"\n",
  b!"  data_type = \"\"\n",
  b!"  start     = 0\n",
  b!"  minimum   = 0\n",
  b!"  maximum   = 2147483647\n",
  b!"  increment = 0\n",
  b!"  cache     = 0\n",
  b!"  cycle     = false\n",
  b!"}\n",
  b!"\n",
  b!"table \"public\" \"bar\" {\n",
  b!"  owner   = \"\"\n",
  b!"  comment = \"\"\n",
  b!"\n",
  b!"  column \"id\" {\n",
  b!"    type     = \"integer\"\n",
  b!"    not_null = true\n",
  b!"    default  = \"nextval('bar_id_seq'::regclass)\"\n",
  b!"    comment  = \"\"\n",
  b!"  }\n",
  b!"  column \"foo_id\" {\n",
  b!"    type     = \"integer\"\n",
  b!"    not_null = true\n",
  b!"    default  = \"\"\n",
  b!"    comment  = \"\"\n",
  b!"  }\n",
  b!"\n",
  b!"  foreign_key \"foo\" {\n",
  b!"    name               = \"\"\n",
  b!"    columns            = [\"foo_id\"]\n",
  b!"    referenced         = [\"id\"]\n",
  b!"    match              = \"\"\n",
  b!"    on_delete          = \"\"\n",
  b!"    on_update          = \"\"\n",
  b!"    deferrable         = false\n",
  b!"    initially_deferred = false\n",
  b!"  }\n",
  b!"}\n",
  b!"table \"public\" \"foo\" {\n",
  b!"  owner   = \"\"\n",
  b!"  comment = \"A simple test case\"\n",
  b!"\n",
  b!"  column \"id\" {\n",
  b!"    type     = \"integer\"\n",
  b!"    not_null = true\n",
  b!"    default  = \"nextval('foo_id_seq'::regclass)\"\n",
  b!"    comment  = \"\"\n",
  b!"  }\n",
  b!"  column \"created\" {\n",
  b!"    type     = \"timestamp with time zone\"\n",
  b!"    not_null = true\n",
  b!"    default  = \"now()\"\n",
  b!"    comment  = \"\"\n",
  b!"  }\n",
  b!"  column \"modified\" {\n",
  b!"    type     = \"timestamp with time zone\"\n",
  b!"    not_null = true\n",
  b!"    default  = \"now()\"\n",
  b!"    comment  = \"\"\n",
  b!"  }\n",
  b!"  column \"key\" {\n",
  b!"    type     = \"character varying(50)\"\n",
  b!"    not_null = true\n",
  b!"    default  = \"\"\n",
  b!"    comment  = \"\"\n",
  b!"  }\n",
  b!"  column \"value\" {\n",
  b!"    type     = \"character varying(500)\"\n",
  b!"    not_null = false\n",
  b!"    default  = \"\"\n",
  b!"    comment  = \"\"\n",
  b!"  }\n",
  b!"}\n",
  b!"\n",
  b!"trigger \"public\" \"foo\" \"update_foo_modified\" {\n",
  b!"  function           = \"update_modified_column\"\n",
  b!"  when               = \"before\"\n",
  b!"  constraint         = false\n",
  b!"  deferrable         = false\n",
  b!"  initially_deferred = false\n",
  b!"  for_each_row       = true\n",
  b!"  delete             = false\n",
  b!"  insert             = false\n",
  b!"  truncate           = false\n",
  b!"  update             = true\n",
  b!"  columns            = null\n",
  b!"}\n"].flatten

/-- internal/ddl/testdata/settings.hcl -/
def settingsText : Str := [
  b!"function \"public\" \"update_mtime_column\" {\n",
  b!"  returns = \"TRIGGER\"\n",
  b!"  language = \"plpgsql\"\n",
  b!"  definition = <<EOF\n",
  b!"BEGIN\n",
  b!"  NEW.mtime = now();\n",
  b!"  RETURN NEW;\n",
  b!"END;\n",
  b!"EOF\n",
  b!"}\n",
  b!"\n",
  b!"table \"\" \"settings\" {\n",
  b!"  column \"ctime\" {\n",
  b!"    type     = \"TIMESTAMPTZ\"\n",
  b!"    not_null = true\n",
  b!"    default  = \"now()\"\n",
  b!"  }\n",
  b!"  column \"mtime\" {\n",
  b!"    type     = \"TIMESTAMPTZ\"\n",
  b!"    not_null = true\n",
  b!"    default  = \"now()\"\n",
  b!"  }\n",
  b!"  column \"key\" {\n",
  b!"    type     = \"VARCHAR(50)\"\n",
  b!"    not_null = true\n",
  b!"  }\n",
  b!"  column \"value\" {\n",
  b!"    type     = \"VARCHAR(500)\"\n",
  b!"    not_null = false\n",
  b!"    default  = \"\"\n",
  b!"  }\n",
  b!"  check {\n",
  b!"    expression = \"length(key) > 0\"\n",
  b!"  }\n",
  b!"}\n",
  b!"\n",
  b!"index \"\" \"settings\" \"settings_pkey\" {\n",
  b!"  primary = true\n",
  b!"  unique  = true\n",
  b!"  key {\n",
  b!"    column = \"key\"\n",
  b!"  }\n",
  b!"}\n",
  b!"\n",
  b!"trigger \"\" \"settings\" \"update_settings_mtime\" {\n",
  b!"  function           = \"update_mtime_column\"\n",
  b!"  when               = \"BEFORE\"\n",
  b!"  for_each_row       = true\n",
  b!"  update             = true\n",
  b!"}\n"].flatten

/-- testdata/expected.hcl -/
def dockerText : Str := [
  b!"\n",
  b!"parameters {\n",
  b!"  search_path = [\"\\\"$user\\\"\", \" public\"]\n",
  b!"  timezone    = \"UTC\"\n",
  b!"}\n",
  b!"\n",
  b!"schema \"public\" {\n",
  b!"  owner   = \"docker\"\n",
  b!"  comment = \"standard public schema\"\n",
  b!"}\n",
  b!"\n",
  b!"function \"public\" \"update_modified_column\" {\n",
  b!"  owner      = \"docker\"\n",
  b!"  comment    = \"\"\n",
  b!"  returns    = \"trigger\"\n",
  b!"  language   = \"plpgsql\"\n",
  b!"  definition = \"\\nBEGIN\\n    NEW.modified = now();\\n    RETURN NEW; \\nEND;\\n\"\n",
  b!"}\n",
  b!"\n",
  b!"sequence \"public\" \"measurement_id_seq\" {\n",
  b!"  owner     = \"docker\"\n",
  b!"  comment   = \"\"\n",
  b!"  data_type = \"bigint\"\n",
  b!"  start     = 1\n",
  b!"  minimum   = 1\n",
  b!"  maximum   = 9223372036854775807\n",
  b!"  increment = 1\n",
  b!"  cache     = 1\n",
  b!"  cycle     = false\n",
  b!"\n",
  b!"  owned_by {\n",
  b!"    schema = \"public\"\n",
  b!"    table  = \"measurement\"\n",
  b!"    column = \"id\"\n",
  b!"  }\n",
  b!"}\n",
  b!"sequence \"public\" \"observation_id_seq\" {\n",
  b!"  owner     = \"docker\"\n",
  b!"  comment   = \"\"\n",
  b!"  data_type = \"bigint\"\n",
  b!"  start     = 1\n",
  b!"  minimum   = 1\n",
  b!"  maximum   = 9223372036854775807\n",
  b!"  increment = 1\n",
  b!"  cache     = 1\n",
  b!"  cycle     = false\n",
  b!"\n",
  b!"  owned_by {\n",
  b!"    schema = \"public\"\n",
  b!"    table  = \"observation\"\n",
  b!"    column = \"id\"\n",
  b!"  }\n",
  b!"}\n",
  b!"\n",
  b!"table \"public\" \"measurement\" {\n",
  b!"  owner   = \"docker\"\n",
  b!"  comment = \"\"\n",
  b!"\n",
  b!"  column \"created\" {\n",
  b!"    type     = \"timestamp with time zone\"\n",
  b!"    not_null = true\n",
  b!"    default  = \"now()\"\n",
  b!"    comment  = \"\"\n",
  b!"  }\n",
  b!"  column \"id\" {\n",
  b!"    type     = \"bigint\"\n",
  b!"    not_null = true\n",
  b!"    default  = \"nextval('measurement_id_seq'::regclass)\"\n",
  b!"    comment  = \"\"\n",
  b!"  }\n",
  b!"  column \"key\" {\n",
  b!"    type     = \"character varying(50)\"\n",
  b!"    not_null = true\n",
  b!"    default  = \"\"\n",
  b!"    comment  = \"\"\n",
  b!"  }\n",
  b!"  column \"modified\" {\n",
  b!"    type     = \"timestamp with time zone\"\n",
  b!"    not_null = true\n",
  b!"    default  = \"now()\"\n",
  b!"    comment  = \"\"\n",
  b!"  }\n",
  b!"  column \"value\" {\n",
  b!"    type     = \"character varying(500)\"\n",
  b!"    not_null = false\n",
  b!"    default  = \"\"\n",
  b!"    comment  = \"\"\n",
  b!"  }\n",
  b!"\n",
  b!"  check {\n",
  b!"    name               = \"measurement_key_check\"\n",
  b!"    expression         = \"key::text ~ '^\\\\d{4}-\\\\d{4}-\\\\d{4}(:[a-z]+)?$'::text\"\n",
  b!"    deferrable         = false\n",
  b!"    initially_deferred = false\n",
  b!"  }\n",
  b!"\n",
  b!"  storage_parameters {\n",
  b!"    fillfactor         = 75\n",
  b!"    autovacuum_enabled = false\n",
  b!"  }\n",
  b!"}\n",
  b!"table \"public\" \"observation\" {\n",
  b!"  owner   = \"docker\"\n",
  b!"  comment = \"\"\n",
  b!"\n",
  b!"  column \"created\" {\n",
  b!"    type     = \"timestamp with time zone\"\n",
  b!"    not_null = true\n",
  b!"    default  = \"now()\"\n",
  b!"    comment  = \"\"\n",
  b!"  }\n",
  b!"  column \"id\" {\n",
  b!"    type     = \"bigint\"\n",
  b!"    not_null = true\n",
  b!"    default  = \"nextval('observation_id_seq'::regclass)\"\n",
  b!"    comment  = \"\"\n",
  b!"  }\n",
  b!"  column \"measurement_id\" {\n",
  b!"    type     = \"integer\"\n",
  b!"    not_null = true\n",
  b!"    default  = \"\"\n",
  b!"    comment  = \"\"\n",
  b!"  }\n",
  b!"  column \"modified\" {\n",
  b!"    type     = \"timestamp with time zone\"\n",
  b!"    not_null = true\n",
  b!"    default  = \"now()\"\n",
  b!"    comment  = \"\"\n",
  b!"  }\n",
  b!"  column \"notes\" {\n",
  b!"    type     = \"character varying(500)\"\n",
  b!"    not_null = false\n",
  b!"    default  = \"\"\n",
  b!"    comment  = \"\"\n",
  b!"  }\n",
  b!"\n",
  b!"  check {\n",
  b!"    name               = \"encourage detailed notes\"\n",
  b!"    expression         = \"length(notes::text) > 50\"\n",
  b!"    deferrable         = false\n",
  b!"    initially_deferred = false\n",
  b!"  }\n",
  b!"\n",
  b!"  foreign_key \"measurement\" {\n",
  b!"    name               = \"observation_measurement_id_fkey\"\n",
  b!"    columns            = [\"measurement_id\"]\n",
  b!"    referenced         = [\"id\"]\n",
  b!"    match              = \"\"\n",
  b!"    on_delete          = \"\"\n",
  b!"    on_update          = \"\"\n",
  b!"    deferrable         = false\n",
  b!"    initially_deferred = false\n",
  b!"  }\n",
  b!"\n",
  b!"  storage_parameters {\n",
  b!"  }\n",
  b!"}\n",
  b!"\n",
  b!"index \"public\" \"measurement\" \"measurement_pkey\" {\n",
  b!"  primary = true\n",
  b!"  unique  = true\n",
  b!"  using   = \"btree\"\n",
  b!"  where   = \"\"\n",
  b!"\n",
  b!"  key {\n",
  b!"    column     = \"id\"\n",
  b!"    expression = \"\"\n",
  b!"    opclass    = \"\"\n",
  b!"    descending = false\n",
  b!"  }\n",
  b!"}\n",
  b!"index \"public\" \"measurement\" \"measurement_key_key\" {\n",
  b!"  primary = false\n",
  b!"  unique  = true\n",
  b!"  using   = \"btree\"\n",
  b!"  where   = \"\"\n",
  b!"\n",
  b!"  key {\n",
  b!"    column     = \"key\"\n",
  b!"    expression = \"\"\n",
  b!"    opclass    = \"\"\n",
  b!"    descending = false\n",
  b!"  }\n",
  b!"}\n",
  b!"index \"public\" \"observation\" \"observation_pkey\" {\n",
  b!"  primary = true\n",
  b!"  unique  = true\n",
  b!"  using   = \"btree\"\n",
  b!"  where   = \"\"\n",
  b!"\n",
  b!"  key {\n",
  b!"    column     = \"id\"\n",
  b!"    expression = \"\"\n",
  b!"    opclass    = \"\"\n",
  b!"    descending = false\n",
  b!"  }\n",
  b!"}\n",
  b!"\n",
  b!"trigger \"public\" \"measurement\" \"update_modified_column\" {\n",
  b!"  function           = \"update_modified_column\"\n",
  b!"  when               = \"BEFORE\"\n",
  b!"  constraint         = false\n",
  b!"  deferrable         = false\n",
  b!"  initially_deferred = false\n",
  b!"  for_each_row       = true\n",
  b!"  delete             = false\n",
  b!"  insert             = false\n",
  b!"  truncate           = false\n",
  b!"  update             = true\n",
  b!"  columns            = null\n",
  b!"}\n",
  b!"trigger \"public\" \"observation\" \"update_modified_column\" {\n",
  b!"  function           = \"update_modified_column\"\n",
  b!"  when               = \"BEFORE\"\n",
  b!"  constraint         = false\n",
  b!"  deferrable         = false\n",
  b!"  initially_deferred = false\n",
  b!"  for_each_row       = true\n",
  b!"  delete             = false\n",
  b!"  insert             = false\n",
  b!"  truncate           = false\n",
  b!"  update             = true\n",
  b!"  columns            = null\n",
  b!"}\n"].flatten

end Verif.Hcl.Texts
