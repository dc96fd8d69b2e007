import Verif.Sql.Ast
import Verif.Sql.Texts

/-!
# The queries of `/repo/internal/pg`

Each query as syntax, and the proof that the text in the source is a way of writing it: the text has
the same tokens, up to the case of words, the optional AS and a final semicolon.
-/

namespace Verif.Sql
open Verif Verif.Ddl.Sql

/-- `pg_catalog.pg_get_userbyid(x)` -/
def userbyid (x : Expr) : Expr := .call1 .pgGetUserbyid x
/-- `pg_catalog.obj_description(x, 'cat')` -/
def comment (x : Expr) (cat : Str) : Expr := .call2 .objDescription x (.lit cat)

/-- schemas.go:5-15 -/
def listSchemas : Select where
  items := [
    .expr (.col .n .nspname) (some (.ident b!"Name")),
    .expr (userbyid (.col .n .nspowner)) (some (.ident b!"Owner")),
    .expr (comment (.col .n .oid) b!"pg_namespace") (some (.ident b!"Comment"))]
  tab := .namespace_
  al := .n
  where_ := [.notPrefix (.col .n .nspname) b!"pg_", .ne (.col .n .nspname) (.lit b!"information_schema")]
  order := [.named 0]

/-- tables.go:5-20 -/
def listTables : Select where
  items := [
    .expr (.col .n .nspname) (some (.ident b!"Schema")),
    .expr (.col .c .relname) (some (.ident b!"Name")),
    .expr (userbyid (.col .c .relowner)) (some (.ident b!"Owner")),
    .expr (comment (.col .c .oid) b!"pg_class") (some (.ident b!"Comment"))]
  tab := .class_
  al := .c
  joins := [⟨true, .namespace_, .n, .eq (.col .n .oid) (.col .c .relnamespace)⟩]
  where_ := [
    .in_ (.col .c .relkind) [b!"r", b!"p", b!""],
    .ne (.col .n .nspname) (.lit b!"pg_catalog"),
    .ne (.col .n .nspname) (.lit b!"information_schema"),
    .notPrefix (.col .n .nspname) b!"pg_toast",
    .call1 .pgTableIsVisible (.col .c .oid)]
  order := [.named 0, .named 1]

/-- functions.go:8-22 -/
def describeFunction : Select where
  items := [
    .expr (userbyid (.col .p .proowner)) (some (.ident b!"Owner")),
    .expr (comment (.col .p .oid) b!"pg_proc") (some (.ident b!"Comment")),
    .expr (.call1 .pgGetFunctionResult (.col .p .oid)) (some (.ident b!"Returns")),
    .expr (.col .l .lanname) (some (.ident b!"Language")),
    .expr (.col .p .prosrc) (some (.ident b!"Definition"))]
  tab := .proc
  al := .p
  joins := [
    ⟨true, .namespace_, .n, .eq (.col .n .oid) (.col .p .pronamespace)⟩,
    ⟨true, .language, .l, .eq (.col .l .oid) (.col .p .prolang)⟩]
  where_ := [.eq (.col .n .nspname) (.param 1), .eq (.col .p .proname) (.param 2)]

/-- functions.go:24-42 -/
def listFunctions : Select where
  items := [
    .expr (.col .n .nspname) (some (.ident b!"Schema")),
    .expr (.col .p .proname) (some (.ident b!"Name")),
    .expr (userbyid (.col .p .proowner)) (some (.ident b!"Owner")),
    .expr (comment (.col .p .oid) b!"pg_proc") (some (.ident b!"Comment")),
    .expr (.call1 .pgGetFunctionResult (.col .p .oid)) (some (.ident b!"Returns")),
    .expr (.col .l .lanname) (some (.ident b!"Language")),
    .expr (.col .p .prosrc) (some (.ident b!"Definition"))]
  tab := .proc
  al := .p
  joins := [
    ⟨true, .namespace_, .n, .eq (.col .n .oid) (.col .p .pronamespace)⟩,
    ⟨true, .language, .l, .eq (.col .l .oid) (.col .p .prolang)⟩]
  where_ := [
    .call1 .pgFunctionIsVisible (.col .p .oid),
    .ne (.col .n .nspname) (.lit b!"pg_catalog"),
    .ne (.col .n .nspname) (.lit b!"information_schema")]
  order := [.named 0, .named 1]

/-- `FROM pg_catalog.pg_namespace n JOIN pg_catalog.pg_class al ON al.relnamespace = n.oid` -/
def ofTable (al : Alias) : Join := ⟨false, .class_, al, .eq (.col al .relnamespace) (.col .n .oid)⟩
/-- `n.nspname = $1 AND al.relname = $2` -/
def isTable (al : Alias) : List Expr :=
  [.eq (.col .n .nspname) (.param 1), .eq (.col al .relname) (.param 2)]

/-- columns.go:5-26 -/
def listColumns : Select where
  items := [
    .expr (.col .a .attname) (some (.ident b!"Name")),
    .expr (.call2 .formatType (.col .a .atttypid) (.col .a .atttypmod)) (some (.ident b!"Type")),
    .expr (.col .a .attnotnull) (some (.ident b!"NotNull")),
    .sub (.call2 .pgGetExpr (.col .d .adbin) (.col .d .adrelid)) .attrdef .d
      [.eq (.col .d .adrelid) (.col .a .attrelid), .eq (.col .d .adnum) (.col .a .attnum),
       .col .a .atthasdef] (some (.ident b!"Default")),
    .expr (.call2 .colDescription (.col .a .attrelid) (.col .a .attnum)) (some (.ident b!"Comment"))]
  tab := .namespace_
  al := .n
  joins := [ofTable .c, ⟨false, .attribute, .a, .eq (.col .a .attrelid) (.col .c .oid)⟩]
  where_ := isTable .c ++ [.gt (.col .a .attnum) .zero, .not (.col .a .attisdropped)]
  order := [.expr (.col .a .attnum)]

/-- check.go:5-18 -/
def listChecks : Select where
  items := [
    .expr (.col .r .conname) none,
    .expr (.call2 .pgGetConstraintdef (.col .r .oid) .tt) none]
  tab := .namespace_
  al := .n
  joins := [ofTable .c, ⟨false, .constraint, .r, .eq (.col .r .conrelid) (.col .c .oid)⟩]
  where_ := isTable .c ++ [.eq (.col .r .contype) (.lit b!"c")]
  order := [.pos 0]

/-- foreign_key.go:5-20 -/
def listForeignKeys : Select where
  items := [
    .expr (.col .t .conname) none,
    .expr (.call1 .pgGetConstraintdef (.col .t .oid)) (some (.word b!"CONDEF"))]
  tab := .namespace_
  al := .n
  joins := [ofTable .c1, ⟨false, .constraint, .t, .eq (.col .t .conrelid) (.col .c1 .oid)⟩,
    ⟨false, .class_, .c2, .eq (.col .c2 .oid) (.col .t .confrelid)⟩]
  where_ := isTable .c1 ++ [.eq (.col .t .contype) (.lit b!"f")]
  order := [.expr (.col .c2 .relname), .expr (.col .t .conkey)]

/-- index.go:5-23 -/
def listIndexes : Select where
  items := [
    .expr (.col .c2 .relname) none,
    .expr (.col .i .indisprimary) none,
    .expr (.call3 .pgGetIndexdef (.col .i .indexrelid) .zero .tt) none]
  tab := .namespace_
  al := .n
  joins := [ofTable .c, ⟨false, .index, .i, .eq (.col .i .indrelid) (.col .c .oid)⟩,
    ⟨false, .class_, .c2, .eq (.col .c2 .oid) (.col .i .indexrelid)⟩]
  where_ := isTable .c
  order := [.expr (.col .i .indisprimary) true, .expr (.col .i .indisunique) true,
    .expr (.col .c2 .relname)]

/-- triggers.go:8-19 -/
def describeTrigger : Select where
  items := [.expr (.call2 .pgGetTriggerdef (.col .t .oid) .tt) none]
  tab := .namespace_
  al := .n
  joins := [ofTable .c, ⟨false, .trigger, .t, .eq (.col .t .tgrelid) (.col .c .oid)⟩]
  where_ := isTable .c ++ [.eq (.col .t .tgname) (.param 3)]

/-- triggers.go:21-34 -/
def listTriggers : Select where
  items := [
    .expr (.col .t .tgname) none,
    .expr (.call2 .pgGetTriggerdef (.col .t .oid) .tt) none]
  tab := .namespace_
  al := .n
  joins := [ofTable .c, ⟨false, .trigger, .t, .eq (.col .t .tgrelid) (.col .c .oid)⟩]
  where_ := isTable .c ++ [.not (.col .t .tgisinternal)]
  order := [.pos 0]

/-- table_storage_parameters.go:9-17, inside UNNEST -/
def listTableStorageParameters : Select where
  items := [.expr (.col .c .reloptions) none]
  tab := .namespace_
  al := .n
  joins := [ofTable .c]
  where_ := isTable .c
  order := [.pos 0]

/-- sequence.go:5-14, inside EXISTS -/
def hasSequencesView : Select where
  items := []
  tab := .class_
  al := .c
  joins := [⟨false, .namespace_, .n, .eq (.col .n .oid) (.col .c .relnamespace)⟩]
  where_ := [.eq (.col .n .nspname) (.lit b!"pg_catalog"), .eq (.col .c .relname) (.lit b!"pg_sequence")]

/-- The joins from a dependency of a sequence to the column that owns it. -/
def ownerJoins : List Join := [
  ⟨true, .depend, .d, .eq (.col .d .objid) (.col .c .oid)⟩,
  ⟨false, .class_, .c2, .eq (.col .c2 .oid) (.col .d .refobjid)⟩,
  ⟨false, .namespace_, .n2, .eq (.col .n2 .oid) (.col .c2 .relnamespace)⟩,
  ⟨false, .attribute, .a2, .and (.eq (.col .a2 .attrelid) (.col .c2 .oid))
    (.eq (.col .a2 .attnum) (.col .d .refobjsubid))⟩]

/-- The conditions of both sequence queries. -/
def sequenceWhere : List Expr := [
  .eq (.col .c .relkind) (.lit b!"S"),
  .ne (.col .n .nspname) (.lit b!"pg_catalog"),
  .ne (.col .n .nspname) (.lit b!"information_schema"),
  .notPrefix (.col .n .nspname) b!"pg_toast",
  .call1 .pgTableIsVisible (.col .c .oid),
  .eq (.col .d .classid) .regclassPgClass,
  .eq (.col .d .refclassid) .regclassPgClass,
  .in_ (.col .d .deptype) [b!"a", b!"i"]]

/-- sequence.go:16-54 -/
def listSequences : Select where
  items := [
    .expr (.col .n .nspname) (some (.ident b!"Schema")),
    .expr (.col .c .relname) (some (.ident b!"Name")),
    .expr (userbyid (.col .c .relowner)) (some (.ident b!"Owner")),
    .expr (comment (.col .c .oid) b!"pg_class") (some (.ident b!"Comment")),
    .expr (.call2 .formatType (.col .s .seqtypid) .null) (some (.ident b!"Type")),
    .expr (.col .s .seqstart) (some (.ident b!"Start")),
    .expr (.col .s .seqmin) (some (.ident b!"Minimum")),
    .expr (.col .s .seqmax) (some (.ident b!"Maximum")),
    .expr (.col .s .seqincrement) (some (.ident b!"Increment")),
    .expr (.col .s .seqcache) (some (.ident b!"Cache")),
    .expr (.col .s .seqcycle) (some (.ident b!"Cycle")),
    .expr (.col .n2 .nspname) none,
    .expr (.col .c2 .relname) none,
    .expr (.col .a2 .attname) none]
  tab := .class_
  al := .c
  joins := [
    ⟨false, .namespace_, .n, .eq (.col .n .oid) (.col .c .relnamespace)⟩,
    ⟨false, .sequence, .s, .eq (.col .s .seqrelid) (.col .c .oid)⟩] ++ ownerJoins
  where_ := sequenceWhere
  order := [.named 0, .named 1]

/-- sequence.go:56-85 -/
def listSequencesPre10 : Select where
  items := [
    .expr (.col .n .nspname) (some (.ident b!"Schema")),
    .expr (.col .c .relname) (some (.ident b!"Name")),
    .expr (userbyid (.col .c .relowner)) (some (.ident b!"Owner")),
    .expr (comment (.col .c .oid) b!"pg_class") (some (.ident b!"Comment")),
    .expr (.col .n2 .nspname) none,
    .expr (.col .c2 .relname) none,
    .expr (.col .a2 .attname) none]
  tab := .class_
  al := .c
  joins := [⟨false, .namespace_, .n, .eq (.col .n .oid) (.col .c .relnamespace)⟩] ++ ownerJoins
  where_ := sequenceWhere
  order := [.named 0, .named 1]

/-! ## The texts -/

theorem listSchemas_text : IsText Texts.listSchemas listSchemas.toks := by decide +kernel
theorem listTables_text : IsText Texts.listTables listTables.toks := by decide +kernel
theorem describeFunction_text : IsText Texts.describeFunction describeFunction.toks := by decide +kernel
theorem listFunctions_text : IsText Texts.listFunctions listFunctions.toks := by decide +kernel
theorem listColumns_text : IsText Texts.listColumns listColumns.toks := by decide +kernel
theorem listChecks_text : IsText Texts.listChecks listChecks.toks := by decide +kernel
theorem listForeignKeys_text : IsText Texts.listForeignKeys listForeignKeys.toks := by decide +kernel
theorem listIndexes_text : IsText Texts.listIndexes listIndexes.toks := by decide +kernel
theorem describeTrigger_text : IsText Texts.describeTrigger describeTrigger.toks := by decide +kernel
theorem listTriggers_text : IsText Texts.listTriggers listTriggers.toks := by decide +kernel
theorem listTableStorageParameters_text :
    IsText Texts.listTableStorageParameters listTableStorageParameters.unnestToks := by decide +kernel
theorem hasSequencesView_text : IsText Texts.hasSequencesView hasSequencesView.existsToks := by
  decide +kernel
theorem listSequences_text : IsText Texts.listSequences listSequences.toks := by decide +kernel
theorem listSequencesPre10_text : IsText Texts.listSequencesPre10 listSequencesPre10.toks := by
  decide +kernel

end Verif.Sql
