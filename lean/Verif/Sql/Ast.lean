import Verif.Sql.Db
import Verif.Ddl.Lexer

/-!
# The SQL the queries of `/repo/internal/pg` are written in: syntax, tokens and meaning

SELECT with inner and left joins, WHERE, ORDER BY, one form of scalar subquery, EXISTS and UNNEST.
Conditions have SQL's three truth values.
-/

namespace Verif.Sql
open Verif Verif.Ddl.Sql

set_option linter.constructorNameAsVariable false

/-! ## Names -/

/-- The catalogs. -/
inductive Tab
  | namespace_ | class_ | attribute | attrdef | proc | language | trigger | constraint | index | sequence
  | depend
deriving DecidableEq, Repr

/-- Table aliases. -/
inductive Alias
  | n | n2 | c | c1 | c2 | a | a2 | p | l | t | r | i | s | d
deriving DecidableEq, Repr

/-- Columns. -/
inductive Col
  | oid | nspname | nspowner
  | relname | relnamespace | relowner | relkind | reloptions
  | attrelid | attname | atttypid | atttypmod | attnum | attnotnull | atthasdef | attisdropped
  | adrelid | adnum | adbin
  | proname | pronamespace | proowner | prolang | prosrc
  | lanname
  | tgrelid | tgname | tgisinternal
  | conname | contype | conrelid | confrelid | conkey
  | indexrelid | indrelid | indisprimary | indisunique
  | seqrelid | seqtypid | seqstart | seqincrement | seqmax | seqmin | seqcache | seqcycle
  | classid | objid | refclassid | refobjid | refobjsubid | deptype
deriving DecidableEq, Repr

/-- Functions. -/
inductive Fn
  | pgGetUserbyid | objDescription | colDescription | pgGetFunctionResult | formatType
  | pgGetTriggerdef | pgGetConstraintdef | pgGetIndexdef | pgGetExpr | pgTableIsVisible
  | pgFunctionIsVisible
deriving DecidableEq, Repr

def Tab.name : Tab → Str
  | .namespace_ => b!"PG_NAMESPACE" | .class_ => b!"PG_CLASS" | .attribute => b!"PG_ATTRIBUTE"
  | .attrdef => b!"PG_ATTRDEF" | .proc => b!"PG_PROC" | .language => b!"PG_LANGUAGE"
  | .trigger => b!"PG_TRIGGER" | .constraint => b!"PG_CONSTRAINT" | .index => b!"PG_INDEX"
  | .sequence => b!"PG_SEQUENCE" | .depend => b!"PG_DEPEND"

def Alias.name : Alias → Str
  | .n => b!"N" | .n2 => b!"N2" | .c => b!"C" | .c1 => b!"C1" | .c2 => b!"C2" | .a => b!"A"
  | .a2 => b!"A2" | .p => b!"P" | .l => b!"L" | .t => b!"T" | .r => b!"R" | .i => b!"I" | .s => b!"S"
  | .d => b!"D"

def Col.name : Col → Str
  | .oid => b!"OID" | .nspname => b!"NSPNAME" | .nspowner => b!"NSPOWNER"
  | .relname => b!"RELNAME" | .relnamespace => b!"RELNAMESPACE" | .relowner => b!"RELOWNER"
  | .relkind => b!"RELKIND" | .reloptions => b!"RELOPTIONS"
  | .attrelid => b!"ATTRELID" | .attname => b!"ATTNAME" | .atttypid => b!"ATTTYPID"
  | .atttypmod => b!"ATTTYPMOD" | .attnum => b!"ATTNUM" | .attnotnull => b!"ATTNOTNULL"
  | .atthasdef => b!"ATTHASDEF" | .attisdropped => b!"ATTISDROPPED"
  | .adrelid => b!"ADRELID" | .adnum => b!"ADNUM" | .adbin => b!"ADBIN"
  | .proname => b!"PRONAME" | .pronamespace => b!"PRONAMESPACE" | .proowner => b!"PROOWNER"
  | .prolang => b!"PROLANG" | .prosrc => b!"PROSRC"
  | .lanname => b!"LANNAME"
  | .tgrelid => b!"TGRELID" | .tgname => b!"TGNAME" | .tgisinternal => b!"TGISINTERNAL"
  | .conname => b!"CONNAME" | .contype => b!"CONTYPE" | .conrelid => b!"CONRELID"
  | .confrelid => b!"CONFRELID" | .conkey => b!"CONKEY"
  | .indexrelid => b!"INDEXRELID" | .indrelid => b!"INDRELID" | .indisprimary => b!"INDISPRIMARY"
  | .indisunique => b!"INDISUNIQUE"
  | .seqrelid => b!"SEQRELID" | .seqtypid => b!"SEQTYPID" | .seqstart => b!"SEQSTART"
  | .seqincrement => b!"SEQINCREMENT" | .seqmax => b!"SEQMAX" | .seqmin => b!"SEQMIN"
  | .seqcache => b!"SEQCACHE" | .seqcycle => b!"SEQCYCLE"
  | .classid => b!"CLASSID" | .objid => b!"OBJID" | .refclassid => b!"REFCLASSID"
  | .refobjid => b!"REFOBJID" | .refobjsubid => b!"REFOBJSUBID" | .deptype => b!"DEPTYPE"

def Fn.name : Fn → Str
  | .pgGetUserbyid => b!"PG_GET_USERBYID" | .objDescription => b!"OBJ_DESCRIPTION"
  | .colDescription => b!"COL_DESCRIPTION" | .pgGetFunctionResult => b!"PG_GET_FUNCTION_RESULT"
  | .formatType => b!"FORMAT_TYPE" | .pgGetTriggerdef => b!"PG_GET_TRIGGERDEF"
  | .pgGetConstraintdef => b!"PG_GET_CONSTRAINTDEF" | .pgGetIndexdef => b!"PG_GET_INDEXDEF"
  | .pgGetExpr => b!"PG_GET_EXPR" | .pgTableIsVisible => b!"PG_TABLE_IS_VISIBLE"
  | .pgFunctionIsVisible => b!"PG_FUNCTION_IS_VISIBLE"

/-! ## Syntax -/

inductive Expr
  /-- `a.c` -/
  | col (a : Alias) (c : Col)
  /-- `'s'` -/
  | lit (s : Str)
  /-- `0` -/
  | zero
  /-- `true` -/
  | tt
  /-- `NULL` -/
  | null
  /-- `$1`, `$2`, ... -/
  | param (i : Nat)
  /-- `pg_catalog.f(x)` and so on -/
  | call1 (f : Fn) (x : Expr)
  | call2 (f : Fn) (x y : Expr)
  | call3 (f : Fn) (x y z : Expr)
  | eq (x y : Expr)
  | ne (x y : Expr)
  | gt (x y : Expr)
  | not (x : Expr)
  /-- `(x AND y)` -/
  | and (x y : Expr)
  /-- `x !~ '^prefix'` -/
  | notPrefix (x : Expr) (pre : Str)
  /-- `x IN ('a', 'b')` -/
  | in_ (x : Expr) (l : List Str)
  /-- `'pg_catalog.pg_class'::pg_catalog.regclass` -/
  | regclassPgClass
deriving DecidableEq, Repr

/-- What a SELECT computes for each row; `as_` is the token that names it. -/
inductive Item
  | expr (e : Expr) (as_ : Option Tok)
  /-- `(SELECT e FROM tab al WHERE w1 AND w2 ...)` -/
  | sub (e : Expr) (tab : Tab) (al : Alias) (where_ : List Expr) (as_ : Option Tok)
deriving DecidableEq, Repr

structure Join where
  left : Bool := false
  tab : Tab
  al : Alias
  on : Expr
deriving DecidableEq, Repr

/-- A key of ORDER BY: an expression, an item by its name or an item by its position. -/
inductive Key
  | expr (e : Expr) (desc : Bool := false)
  | named (i : Nat)
  | pos (i : Nat)
deriving DecidableEq, Repr

structure Select where
  items : List Item
  tab : Tab
  al : Alias
  joins : List Join := []
  where_ : List Expr := []
  order : List Key := []
deriving DecidableEq, Repr

/-! ## Tokens -/

def kw (s : Str) : Tok := .word s
def dot : Tok := .sym 46
def comma : Tok := .sym 44
def lpar : Tok := .sym 40
def rpar : Tok := .sym 41

/-- `pg_catalog.` -/
def inCatalog : List Tok := [kw b!"PG_CATALOG", dot]

def commas : List (List Tok) → List Tok
  | [] => []
  | [x] => x
  | x :: y :: l => x ++ comma :: commas (y :: l)

def ands : List (List Tok) → List Tok
  | [] => []
  | [x] => x
  | x :: y :: l => x ++ kw b!"AND" :: ands (y :: l)

def digits (i : Nat) : Str := (Nat.toDigits 10 i).map (fun c => UInt8.ofNat c.toNat)

def Expr.toks : Expr → List Tok
  | .col a c => [kw a.name, dot, kw c.name]
  | .lit s => [.str s]
  | .zero => [kw b!"0"]
  | .tt => [kw b!"TRUE"]
  | .null => [kw b!"NULL"]
  | .param i => [.sym 36, kw (digits i)]
  | .call1 f x => inCatalog ++ kw f.name :: lpar :: x.toks ++ [rpar]
  | .call2 f x y => inCatalog ++ kw f.name :: lpar :: x.toks ++ comma :: y.toks ++ [rpar]
  | .call3 f x y z =>
    inCatalog ++ kw f.name :: lpar :: x.toks ++ comma :: y.toks ++ comma :: z.toks ++ [rpar]
  | .eq x y => x.toks ++ .sym 61 :: y.toks
  | .ne x y => x.toks ++ .sym 60 :: .sym 62 :: y.toks
  | .gt x y => x.toks ++ .sym 62 :: y.toks
  | .not x => kw b!"NOT" :: x.toks
  | .and x y => lpar :: x.toks ++ kw b!"AND" :: y.toks ++ [rpar]
  | .notPrefix x p => x.toks ++ [.sym 33, .sym 126, .str (94 :: p)]
  | .in_ x l => x.toks ++ kw b!"IN" :: lpar :: commas (l.map (fun s => [.str s])) ++ [rpar]
  | .regclassPgClass => .str b!"pg_catalog.pg_class" :: .sym 58 :: .sym 58 :: inCatalog ++
      [kw b!"REGCLASS"]

def fromToks (tab : Tab) (al : Alias) : List Tok := inCatalog ++ [kw tab.name, kw al.name]

def whereToks : List Expr → List Tok
  | [] => []
  | l => kw b!"WHERE" :: ands (l.map Expr.toks)

def Item.toks : Item → List Tok
  | .expr e as_ => e.toks ++ as_.toList
  | .sub e tab al w as_ =>
    lpar :: kw b!"SELECT" :: e.toks ++ kw b!"FROM" :: fromToks tab al ++ whereToks w ++ rpar :: as_.toList

def Item.as_ : Item → Option Tok
  | .expr _ a => a
  | .sub _ _ _ _ a => a

def Join.toks (j : Join) : List Tok :=
  (if j.left then [kw b!"LEFT"] else []) ++ kw b!"JOIN" :: fromToks j.tab j.al ++ kw b!"ON" :: j.on.toks

def Key.toks (items : List Item) : Key → List Tok
  | .expr e desc => e.toks ++ (if desc then [kw b!"DESC"] else [])
  | .named i => ((items[i]?).bind Item.as_).toList
  | .pos i => [kw (digits (i + 1))]

def orderToks (items : List Item) : List Key → List Tok
  | [] => []
  | l => kw b!"ORDER" :: kw b!"BY" :: commas (l.map (Key.toks items))

def Select.bodyToks (s : Select) : List Tok :=
  kw b!"FROM" :: fromToks s.tab s.al ++ (s.joins.flatMap Join.toks) ++ whereToks s.where_ ++
    orderToks s.items s.order

/-- The tokens of the query. -/
def Select.toks (s : Select) : List Tok :=
  kw b!"SELECT" :: commas (s.items.map Item.toks) ++ s.bodyToks

/-- `SELECT EXISTS (SELECT 1 FROM ...)` -/
def Select.existsToks (s : Select) : List Tok :=
  kw b!"SELECT" :: kw b!"EXISTS" :: lpar :: kw b!"SELECT" :: kw b!"1" :: s.bodyToks ++ [rpar]

/-- `SELECT UNNEST(...) FROM ...` -/
def Select.unnestToks (s : Select) : List Tok :=
  kw b!"SELECT" :: kw b!"UNNEST" :: lpar :: commas (s.items.map Item.toks) ++ rpar :: s.bodyToks

/-- Words in upper case, without AS; a final semicolon is dropped. -/
def normalize (l : List Tok) : List Tok :=
  let up := l.map fun
    | .word w => .word (w.map (fun b => if 97 ≤ b ∧ b ≤ 122 then b - 32 else b))
    | t => t
  let l := up.filter (fun t => decide (t ≠ kw b!"AS"))
  if l.getLast? = some (.sym 59) then l.dropLast else l

/-- The text is the query with these tokens. -/
def IsText (text : Str) (toks : List Tok) : Prop := (lex text).map normalize = some toks

instance (text : Str) (toks : List Tok) : Decidable (IsText text toks) :=
  inferInstanceAs (Decidable (_ = _))

/-! ## Meaning -/

/-- A row of a catalog, and one for each alias. -/
abbrev Row := Col → Val
abbrev Env := Alias → Row

/-- The row of an alias that is not joined yet, or that no row matches. -/
def nullRow : Row := fun _ => .null

def Env.empty : Env := fun _ => nullRow
def Env.set (e : Env) (a : Alias) (r : Row) : Env := fun a' => if a' = a then r else e a'

def ofOption {α : Type} (f : α → Val) : Option α → Val
  | none => .null
  | some a => f a

def Namespace.row (n : Namespace) : Row
  | .oid => .int n.oid | .nspname => .str n.nspname | .nspowner => .int n.nspowner | _ => .null
def Class.row (c : Class) : Row
  | .oid => .int c.oid | .relname => .str c.relname | .relnamespace => .int c.relnamespace
  | .relowner => .int c.relowner | .relkind => .str c.relkind
  | .reloptions => ofOption .strs c.reloptions | _ => .null
def Attribute.row (a : Attribute) : Row
  | .attrelid => .int a.attrelid | .attname => .str a.attname | .atttypid => .int a.atttypid
  | .atttypmod => .int a.atttypmod | .attnum => .int a.attnum | .attnotnull => .bool a.attnotnull
  | .atthasdef => .bool a.atthasdef | .attisdropped => .bool a.attisdropped | _ => .null
def Attrdef.row (d : Attrdef) : Row
  | .adrelid => .int d.adrelid | .adnum => .int d.adnum | .adbin => .str d.adbin | _ => .null
def Proc.row (p : Proc) : Row
  | .oid => .int p.oid | .proname => .str p.proname | .pronamespace => .int p.pronamespace
  | .proowner => .int p.proowner | .prolang => .int p.prolang | .prosrc => .str p.prosrc | _ => .null
def Language.row (l : Language) : Row
  | .oid => .int l.oid | .lanname => .str l.lanname | _ => .null
def Trigger.row (t : Trigger) : Row
  | .oid => .int t.oid | .tgrelid => .int t.tgrelid | .tgname => .str t.tgname
  | .tgisinternal => .bool t.tgisinternal | _ => .null
def Constraint.row (k : Constraint) : Row
  | .oid => .int k.oid | .conname => .str k.conname | .contype => .str k.contype
  | .conrelid => .int k.conrelid | .confrelid => .int k.confrelid
  | .conkey => ofOption .ints k.conkey | _ => .null
def Index.row (i : Index) : Row
  | .indexrelid => .int i.indexrelid | .indrelid => .int i.indrelid
  | .indisprimary => .bool i.indisprimary | .indisunique => .bool i.indisunique | _ => .null
def Sequence.row (s : Sequence) : Row
  | .seqrelid => .int s.seqrelid | .seqtypid => .int s.seqtypid | .seqstart => .int s.seqstart
  | .seqincrement => .int s.seqincrement | .seqmax => .int s.seqmax | .seqmin => .int s.seqmin
  | .seqcache => .int s.seqcache | .seqcycle => .bool s.seqcycle | _ => .null
def Depend.row (d : Depend) : Row
  | .classid => .int d.classid | .objid => .int d.objid | .refclassid => .int d.refclassid
  | .refobjid => .int d.refobjid | .refobjsubid => .int d.refobjsubid | .deptype => .str d.deptype
  | _ => .null

/-- The rows of a catalog. -/
def Db.rows (db : Db) : Tab → List Row
  | .namespace_ => db.namespaces.map Namespace.row
  | .class_ => db.classes.map Class.row
  | .attribute => db.attributes.map Attribute.row
  | .attrdef => db.attrdefs.map Attrdef.row
  | .proc => db.procs.map Proc.row
  | .language => db.languages.map Language.row
  | .trigger => db.triggers.map Trigger.row
  | .constraint => db.constraints.map Constraint.row
  | .index => db.indexes.map Index.row
  | .sequence => db.sequences.map Sequence.row
  | .depend => db.depends.map Depend.row

/-- The server functions. They are strict: NULL for a NULL argument (the type modifier of `format_type`
may be NULL). -/
def Db.call (db : Db) : Fn → List Val → Val
  | .pgGetUserbyid, [.int o] => .str (db.getUserbyid o.toNat)
  | .objDescription, [.int o, .str cat] =>
    match catalogOid cat with
    | none => .null
    | some classoid => ofOption .str (db.comment classoid o.toNat 0)
  | .colDescription, [.int o, .int num] => ofOption .str (db.comment 1259 o.toNat num)
  | .pgGetFunctionResult, [.int o] => ofOption .str (db.getFunctionResult o.toNat)
  | .formatType, [.int o, .int m] => .str (db.formatType o.toNat (some m))
  | .formatType, [.int o, .null] => .str (db.formatType o.toNat none)
  | .pgGetTriggerdef, [.int o, .bool true] => .str (db.getTriggerdef o.toNat)
  | .pgGetConstraintdef, [.int o] => .str (db.getConstraintdef o.toNat false)
  | .pgGetConstraintdef, [.int o, .bool p] => .str (db.getConstraintdef o.toNat p)
  | .pgGetIndexdef, [.int o, .int 0, .bool true] => .str (db.getIndexdef o.toNat)
  | .pgGetExpr, [.str e, .int o] => .str (db.getExpr e o.toNat)
  | .pgTableIsVisible, [.int o] => ofOption .bool (db.tableIsVisible o)
  | .pgFunctionIsVisible, [.int o] => ofOption .bool (db.functionIsVisible o)
  | _, _ => .null

/-- The value of an expression. `params` are the arguments of the query. -/
def Expr.eval (db : Db) (params : List Str) (env : Env) : Expr → Val
  | .col a c => env a c
  | .lit s => .str s
  | .zero => .int 0
  | .tt => .bool true
  | .null => .null
  | .param i => ofOption .str (params[i - 1]?)
  | .call1 f x => db.call f [x.eval db params env]
  | .call2 f x y => db.call f [x.eval db params env, y.eval db params env]
  | .call3 f x y z =>
    db.call f [x.eval db params env, y.eval db params env, z.eval db params env]
  | .eq x y =>
    match x.eval db params env, y.eval db params env with
    | .null, _ => .null
    | _, .null => .null
    | a, b => .bool (decide (a = b))
  | .ne x y =>
    match x.eval db params env, y.eval db params env with
    | .null, _ => .null
    | _, .null => .null
    | a, b => .bool (!decide (a = b))
  | .gt x y =>
    match x.eval db params env, y.eval db params env with
    | .int a, .int b => .bool (decide (b < a))
    | _, _ => .null
  | .not x =>
    match x.eval db params env with
    | .bool b => .bool (!b)
    | _ => .null
  | .and x y =>
    match x.eval db params env, y.eval db params env with
    | .bool false, _ => .bool false
    | _, .bool false => .bool false
    | .bool true, .bool true => .bool true
    | _, _ => .null
  | .notPrefix x p =>
    match x.eval db params env with
    | .str s => .bool (!p.isPrefixOf s)
    | _ => .null
  | .in_ x l =>
    match x.eval db params env with
    | .str s => .bool (decide (s ∈ l))
    | _ => .null
  | .regclassPgClass => .int 1259

/-- A condition selects only if it is true, not if it is NULL. -/
def Expr.holds (db : Db) (params : List Str) (env : Env) (e : Expr) : Bool :=
  decide (e.eval db params env = .bool true)

/-- One join. -/
def Join.apply (db : Db) (params : List Str) (j : Join) (env : Env) : List Env :=
  let found := ((db.rows j.tab).map (env.set j.al)).filter (fun e => j.on.holds db params e)
  if j.left && found.isEmpty then [env.set j.al nullRow] else found

/-- The joins, one after the other. -/
def joinAll (db : Db) (params : List Str) : List Join → List Env → List Env
  | [], envs => envs
  | j :: rest, envs => joinAll db params rest (envs.flatMap (j.apply db params))

/-- FROM, JOIN and WHERE: the combinations of rows selected. -/
def Select.solutions (s : Select) (db : Db) (params : List Str) : List Env :=
  (joinAll db params s.joins ((db.rows s.tab).map (Env.empty.set s.al))).filter
    (fun env => s.where_.all (fun e => e.holds db params env))

/-- The value of an item; `none` is the error "more than one row returned by a subquery". -/
def Item.eval (db : Db) (params : List Str) (env : Env) : Item → Option Val
  | .expr e _ => some (e.eval db params env)
  | .sub e tab al w _ =>
    match ((db.rows tab).map (env.set al)).filter (fun env => w.all (fun e => e.holds db params env)) with
    | [] => some .null
    | [env] => some (e.eval db params env)
    | _ => none

/-- The order of values, NULL last: integers by size, text and names bytewise (the type `name` has the
collation C), false before true, arrays lexicographically. -/
def intsLe : List Int → List Int → Bool
  | [], _ => true
  | _ :: _, [] => false
  | a :: s, b :: t => if a = b then intsLe s t else decide (a < b)

def Val.le : Val → Val → Bool
  | _, .null => true
  | .null, _ => false
  | .int a, .int b => decide (a ≤ b)
  | .str a, .str b => Str.le a b
  | .bool a, .bool b => !a || b
  | .ints a, .ints b => intsLe a b
  | _, _ => true

def Key.eval (items : List Item) (db : Db) (params : List Str) (env : Env) : Key → Val
  | .expr e _ => e.eval db params env
  | .named i => ((items[i]?).bind (Item.eval db params env)).getD .null
  | .pos i => ((items[i]?).bind (Item.eval db params env)).getD .null

def Key.desc : Key → Bool
  | .expr _ d => d
  | _ => false

/-- `e` may stand before `e'`: the first key on which they differ decides. -/
def before (items : List Item) (db : Db) (params : List Str) : List Key → Env → Env → Bool
  | [], _, _ => true
  | k :: rest, e, e' =>
    let a := k.eval items db params e
    let b := k.eval items db params e'
    if a = b then before items db params rest e e'
    else if k.desc then b.le a else a.le b

/-- `res` is an answer to the query: the selected rows in an order ORDER BY allows. -/
def Select.Answer (s : Select) (db : Db) (params : List Str) (res : List (List Val)) : Prop :=
  ∃ envs : List Env, envs.Perm (s.solutions db params) ∧
    envs.Pairwise (fun e e' => before s.items db params s.order e e' = true) ∧
    envs.mapM (fun env => s.items.mapM (Item.eval db params env)) = some res

/-- EXISTS. -/
def Select.exists_ (s : Select) (db : Db) (params : List Str) : Bool :=
  !(s.solutions db params).isEmpty

/-- UNNEST: the elements of the arrays; NULL has none. -/
def Select.unnest (s : Select) (db : Db) (params : List Str) : List Str :=
  (s.solutions db params).flatMap fun env =>
    match s.items.map (Item.eval db params env) with
    | [some (.strs l)] => l
    | _ => []

/-- The order by a text (database collation) is not modelled: any order is an answer. -/
def Select.UnnestAnswer (s : Select) (db : Db) (params : List Str) (res : List Str) : Prop :=
  res.Perm (s.unnest db params)

end Verif.Sql
