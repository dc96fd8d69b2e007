import Verif.Base.Str

/-!
# The SQL texts of `/repo/internal/pg` (generated by tools/sql2lean.py)
-/

namespace Verif.Sql.Texts
open Verif

/-- check.go:5-18 `listChecks` -/
def listChecks : Str := b!"
SELECT
  r.conname
, pg_catalog.pg_get_constraintdef(r.oid, true)
FROM pg_catalog.pg_namespace n
JOIN pg_catalog.pg_class c
  ON c.relnamespace = n.oid
JOIN pg_catalog.pg_constraint r
  ON r.conrelid = c.oid
WHERE n.nspname = $1
  AND c.relname = $2
  AND r.contype = 'c'
ORDER BY 1;
"

/-- columns.go:5-26 `listColumns` -/
def listColumns : Str := b!"
SELECT
  a.attname AS \"Name\"
, pg_catalog.format_type(a.atttypid, a.atttypmod) AS \"Type\"
, a.attnotnull as \"NotNull\"
, (SELECT pg_catalog.pg_get_expr(d.adbin, d.adrelid)
   FROM pg_catalog.pg_attrdef d
   WHERE d.adrelid = a.attrelid
     AND d.adnum = a.attnum
     AND a.atthasdef) as \"Default\"
, pg_catalog.col_description(a.attrelid, a.attnum) as \"Comment\"
FROM pg_catalog.pg_namespace n
JOIN pg_catalog.pg_class c
  ON c.relnamespace = n.oid
JOIN pg_catalog.pg_attribute a
  ON a.attrelid = c.oid
WHERE n.nspname = $1
  AND c.relname = $2
  AND a.attnum > 0
  AND NOT a.attisdropped
ORDER BY a.attnum
"

/-- foreign_key.go:5-20 `listForeignKeys` -/
def listForeignKeys : Str := b!"
SELECT
  t.conname
, pg_catalog.pg_get_constraintdef(t.oid) as condef
FROM pg_catalog.pg_namespace n
JOIN pg_catalog.pg_class c1
  ON c1.relnamespace = n.oid
JOIN pg_catalog.pg_constraint t
  ON t.conrelid = c1.oid
JOIN pg_catalog.pg_class c2
  ON c2.oid = t.confrelid
WHERE n.nspname = $1
  AND c1.relname = $2
  AND t.contype = 'f'
ORDER BY c2.relname, t.conkey;
"

/-- functions.go:8-22 `describeFunction` -/
def describeFunction : Str := b!"
SELECT
  pg_catalog.pg_get_userbyid(p.proowner) as \"Owner\"
, pg_catalog.obj_description(p.oid, 'pg_proc') as \"Comment\"
, pg_catalog.pg_get_function_result(p.oid) as \"Returns\"
, l.lanname as \"Language\"
, p.prosrc as \"Definition\"
FROM pg_catalog.pg_proc p
LEFT JOIN pg_catalog.pg_namespace n
  ON n.oid = p.pronamespace
LEFT JOIN pg_catalog.pg_language l
  ON l.oid = p.prolang
WHERE n.nspname = $1
  AND p.proname = $2
"

/-- functions.go:24-42 `listFunctions` -/
def listFunctions : Str := b!"
SELECT
  n.nspname as \"Schema\"
, p.proname as \"Name\"
, pg_catalog.pg_get_userbyid(p.proowner) as \"Owner\"
, pg_catalog.obj_description(p.oid, 'pg_proc') as \"Comment\"
, pg_catalog.pg_get_function_result(p.oid) as \"Returns\"
, l.lanname as \"Language\"
, p.prosrc as \"Definition\"
FROM pg_catalog.pg_proc p
LEFT JOIN pg_catalog.pg_namespace n
  ON n.oid = p.pronamespace
LEFT JOIN pg_catalog.pg_language l
  ON l.oid = p.prolang
WHERE pg_catalog.pg_function_is_visible(p.oid)
  AND n.nspname <> 'pg_catalog'
  AND n.nspname <> 'information_schema'
ORDER BY \"Schema\", \"Name\"
"

/-- index.go:5-23 `listIndexes` -/
def listIndexes : Str := b!"
SELECT
  c2.relname
, i.indisprimary
, pg_catalog.pg_get_indexdef(i.indexrelid, 0, true)
FROM pg_catalog.pg_namespace n
JOIN pg_catalog.pg_class c
  ON c.relnamespace = n.oid
JOIN pg_catalog.pg_index i
  ON i.indrelid = c.oid
JOIN pg_catalog.pg_class c2
  ON c2.oid = i.indexrelid
WHERE n.nspname = $1
  AND c.relname = $2
ORDER BY
  i.indisprimary DESC
, i.indisunique DESC
, c2.relname
"

/-- schemas.go:5-15 `listSchemas` -/
def listSchemas : Str := b!"
SELECT
  n.nspname AS \"Name\"
, pg_catalog.pg_get_userbyid(n.nspowner) AS \"Owner\"
, pg_catalog.obj_description(n.oid, 'pg_namespace') AS \"Comment\"
FROM
  pg_catalog.pg_namespace n
WHERE n.nspname !~ '^pg_'
  AND n.nspname <> 'information_schema'
ORDER BY \"Name\"
"

/-- sequence.go:5-14 `hasSequencesView` -/
def hasSequencesView : Str := b!"
SELECT EXISTS (
  SELECT 1
  FROM pg_catalog.pg_class c
  JOIN pg_catalog.pg_namespace n
    ON n.oid = c.relnamespace
  WHERE n.nspname = 'pg_catalog'
    AND c.relname = 'pg_sequence'
)
"

/-- sequence.go:16-54 `listSequences` -/
def listSequences : Str := b!"
SELECT
  n.nspname as \"Schema\"
, c.relname as \"Name\"
, pg_catalog.pg_get_userbyid(c.relowner) as \"Owner\"
, pg_catalog.obj_description(c.oid, 'pg_class') as \"Comment\"
, pg_catalog.format_type(s.seqtypid, NULL) AS \"Type\"
, s.seqstart AS \"Start\"
, s.seqmin AS \"Minimum\"
, s.seqmax AS \"Maximum\"
, s.seqincrement AS \"Increment\"
, s.seqcache AS \"Cache\"
, s.seqcycle \"Cycle\"
, n2.nspname
, c2.relname
, a2.attname
FROM pg_catalog.pg_class c
JOIN pg_catalog.pg_namespace n
  ON n.oid = c.relnamespace
JOIN pg_catalog.pg_sequence s
  ON s.seqrelid = c.oid
LEFT JOIN pg_catalog.pg_depend d
  ON d.objid = c.oid
JOIN pg_catalog.pg_class c2
  ON c2.oid = d.refobjid
JOIN pg_catalog.pg_namespace n2
  ON n2.oid = c2.relnamespace
JOIN pg_catalog.pg_attribute a2
  ON (a2.attrelid = c2.oid AND a2.attnum = d.refobjsubid)
WHERE c.relkind = 'S'
  AND n.nspname <> 'pg_catalog'
  AND n.nspname <> 'information_schema'
  AND n.nspname !~ '^pg_toast'
  AND pg_catalog.pg_table_is_visible(c.oid)
  AND d.classid='pg_catalog.pg_class'::pg_catalog.regclass
  AND d.refclassid='pg_catalog.pg_class'::pg_catalog.regclass
  AND d.deptype IN ('a', 'i')
ORDER BY \"Schema\", \"Name\"
"

/-- sequence.go:56-85 `listSequencesPre10` -/
def listSequencesPre10 : Str := b!"
SELECT
  n.nspname as \"Schema\"
, c.relname as \"Name\"
, pg_catalog.pg_get_userbyid(c.relowner) as \"Owner\"
, pg_catalog.obj_description(c.oid, 'pg_class') as \"Comment\"
, n2.nspname
, c2.relname
, a2.attname
FROM pg_catalog.pg_class c
JOIN pg_catalog.pg_namespace n
  ON n.oid = c.relnamespace
LEFT JOIN pg_catalog.pg_depend d
  ON d.objid = c.oid
JOIN pg_catalog.pg_class c2
  ON c2.oid = d.refobjid
JOIN pg_catalog.pg_namespace n2
  ON n2.oid = c2.relnamespace
JOIN pg_catalog.pg_attribute a2
  ON (a2.attrelid = c2.oid AND a2.attnum = d.refobjsubid)
WHERE c.relkind = 'S'
  AND n.nspname <> 'pg_catalog'
  AND n.nspname <> 'information_schema'
  AND n.nspname !~ '^pg_toast'
  AND pg_catalog.pg_table_is_visible(c.oid)
  AND d.classid='pg_catalog.pg_class'::pg_catalog.regclass
  AND d.refclassid='pg_catalog.pg_class'::pg_catalog.regclass
  AND d.deptype IN ('a', 'i')
ORDER BY \"Schema\", \"Name\"
"

/-- sequence.go:206-214: the text before the name of the sequence -/
def legacySequence : Str := b!"
SELECT
  start_value
, min_value
, max_value
, increment_by
, cache_value
, is_cycled
FROM "

/-- table_storage_parameters.go:9-17 `listTableStorageParameters` -/
def listTableStorageParameters : Str := b!"
SELECT UNNEST(c.reloptions)
FROM pg_catalog.pg_namespace n
JOIN pg_catalog.pg_class c
  ON c.relnamespace = n.oid
WHERE n.nspname = $1
  AND c.relname = $2
ORDER BY 1;
"

/-- tables.go:5-20 `listTables` -/
def listTables : Str := b!"
SELECT
  n.nspname as \"Schema\"
, c.relname as \"Name\"
, pg_catalog.pg_get_userbyid(c.relowner) as \"Owner\"
, pg_catalog.obj_description(c.oid, 'pg_class') as \"Comment\"
FROM pg_catalog.pg_class c
LEFT JOIN pg_catalog.pg_namespace n
  ON n.oid = c.relnamespace
WHERE c.relkind IN ('r','p','')
  AND n.nspname <> 'pg_catalog'
  AND n.nspname <> 'information_schema'
  AND n.nspname !~ '^pg_toast'
  AND pg_catalog.pg_table_is_visible(c.oid)
ORDER BY \"Schema\", \"Name\"
"

/-- triggers.go:8-19 `describeTrigger` -/
def describeTrigger : Str := b!"
SELECT
  pg_catalog.pg_get_triggerdef(t.oid, true)
FROM pg_catalog.pg_namespace n
JOIN pg_catalog.pg_class c
  ON c.relnamespace = n.oid
JOIN pg_catalog.pg_trigger t
  ON t.tgrelid = c.oid
WHERE n.nspname = $1
  AND c.relname = $2
  AND t.tgname = $3
"

/-- triggers.go:21-34 `listTriggers` -/
def listTriggers : Str := b!"
SELECT
  t.tgname
, pg_catalog.pg_get_triggerdef(t.oid, true)
FROM pg_catalog.pg_namespace n
JOIN pg_catalog.pg_class c
  ON c.relnamespace = n.oid
JOIN pg_catalog.pg_trigger t
  ON t.tgrelid = c.oid
WHERE n.nspname = $1
  AND c.relname = $2
  AND NOT t.tgisinternal
ORDER BY 1;
"

end Verif.Sql.Texts
