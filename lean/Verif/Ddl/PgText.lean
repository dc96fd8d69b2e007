import Verif.Ddl.ParseSpec

/-!
# What PostgreSQL prints, and spellings of a foreign key

The first part states how `pg_get_constraintdef`, `pg_get_indexdef` and `pg_get_triggerdef` (the
functions whose results the parsers are applied to) print descriptions whose names need no quoting. It
follows PostgreSQL's `ruleutils.c` and is part of the specification, not of the model of pgutil.
-/

namespace Verif.Ddl
open Verif

/-- Items separated by a comma and a space. -/
def commaJoin : List Str → Str
  | [] => []
  | [a] => a
  | a :: b :: r => a ++ b!", " ++ commaJoin (b :: r)

/-- A clause that is omitted when its argument is empty. -/
def clause (kw arg : Str) : Str := if arg = [] then [] else kw ++ arg

/-! ## pg_get_constraintdef of a foreign key -/

/-- MATCH type, then ON UPDATE, then ON DELETE, then deferrability; defaults are omitted. -/
def pgForeignKey (x : ForeignKey) : Str :=
  b!"FOREIGN KEY (" ++ commaJoin x.columns ++ b!") REFERENCES " ++ x.table ++ b!"(" ++
    commaJoin x.referenced ++ b!")" ++ clause b!" MATCH " x.match_ ++ clause b!" ON UPDATE " x.onUpdate ++
    clause b!" ON DELETE " x.onDelete ++ (if x.deferrable then b!" DEFERRABLE" else []) ++
    (if x.initiallyDeferred then b!" INITIALLY DEFERRED" else [])

/-- Actions; the default NO ACTION is not printed. -/
def pgActions : List Str := [[], b!"RESTRICT", b!"CASCADE", b!"SET NULL", b!"SET DEFAULT"]

/-- A foreign key as PostgreSQL can hold it, all names plain. -/
structure PlainForeignKey (x : ForeignKey) : Prop where
  columns : x.columns ≠ [] ∧ ∀ c ∈ x.columns, Ident c
  table : Ident x.table
  referenced : x.referenced ≠ [] ∧ ∀ c ∈ x.referenced, Ident c
  match_ : x.match_ ∈ [[], b!"FULL", b!"PARTIAL"]
  onDelete : x.onDelete ∈ pgActions
  onUpdate : x.onUpdate ∈ pgActions
  deferred : x.initiallyDeferred = true → x.deferrable = true
  name : x.name = []

/-! ## pg_get_indexdef -/

/-- A key. -/
def pgKey (k : IndexKey) : Str :=
  (if k.column = [] then k.expression else k.column) ++ clause b!" " k.opClass ++
    (if k.descending then b!" DESC" else [])

/-- The definition of an index. -/
def pgIndex (x : Index) : Str :=
  b!"CREATE " ++ (if x.unique then b!"UNIQUE " else []) ++ b!"INDEX " ++ x.name ++ b!" ON " ++ x.table ++
    b!" USING " ++ x.using_ ++ b!" (" ++ commaJoin (x.keys.map pgKey) ++ b!")" ++ clause b!" WHERE " x.where_

/-- A key that is a plain column or an expression (printed in parentheses or as a function call). -/
def PlainKey (k : IndexKey) : Prop :=
  (k.opClass = [] ∨ Ident k.opClass) ∧
  ((Ident k.column ∧ k.expression = []) ∨
   (k.column = [] ∧ ((∃ e, k.expression = b!"(" ++ e ++ b!")" ∧ e ≠ []) ∨
     ∃ f a, Ident f ∧ k.expression = f ++ b!"(" ++ a ++ b!")")))

/-- An index with plain names. -/
structure PlainIndex (x : Index) : Prop where
  name : Ident x.name
  table : Ident x.table
  using_ : Ident x.using_
  keys : x.keys ≠ [] ∧ ∀ k ∈ x.keys, PlainKey k
  schema : x.schema = []
  primary : x.primary = false

/-! ## pg_get_triggerdef -/

/-- The events, in PostgreSQL's order. -/
def pgEvents (x : Trigger) : List Str :=
  (if x.insert then [b!"INSERT"] else []) ++ (if x.delete then [b!"DELETE"] else []) ++
    (if x.update then [b!"UPDATE" ++ clause b!" OF " (commaJoin x.columns)] else []) ++
    (if x.truncate then [b!"TRUNCATE"] else [])

/-- Events separated by OR. -/
def orJoin : List Str → Str
  | [] => []
  | [a] => a
  | a :: b :: r => a ++ b!" OR " ++ orJoin (b :: r)

/-- The definition of a trigger without WHEN condition and arguments. -/
def pgTrigger (x : Trigger) : Str :=
  b!"CREATE " ++ (if x.constraint then b!"CONSTRAINT " else []) ++ b!"TRIGGER " ++ x.name ++ b!" " ++
    x.when_ ++ b!" " ++ orJoin (pgEvents x) ++ b!" ON " ++ x.table ++ b!" " ++
    (if x.constraint then
      (if x.deferrable then [] else b!"NOT ") ++ b!"DEFERRABLE INITIALLY " ++
        (if x.initiallyDeferred then b!"DEFERRED " else b!"IMMEDIATE ")
    else []) ++
    (if x.forEachRow then b!"FOR EACH ROW " else b!"FOR EACH STATEMENT ") ++ b!"EXECUTE FUNCTION " ++
    x.function ++ b!"()"

/-- A trigger with plain names. -/
structure PlainTrigger (x : Trigger) : Prop where
  name : Ident x.name
  table : Ident x.table
  function : Ident x.function
  when_ : x.when_ ∈ [b!"BEFORE", b!"AFTER", b!"INSTEAD OF"]
  events : x.insert = true ∨ x.update = true ∨ x.delete = true ∨ x.truncate = true
  columns : (∀ c ∈ x.columns, Ident c) ∧ (x.columns ≠ [] → x.update = true)
  deferrable : x.deferrable = true → x.constraint = true
  deferred : x.initiallyDeferred = true → x.deferrable = true
  schema : x.schema = []

/-! ## Spellings of a foreign key -/

/-- The referential actions. -/
inductive RefAction where
  | noAction | restrict | cascade | setNull | setDefault
deriving DecidableEq, Repr

/-- Its keywords. -/
def RefAction.words : RefAction → List Str
  | .noAction => [b!"NO", b!"ACTION"]
  | .restrict => [b!"RESTRICT"]
  | .cascade => [b!"CASCADE"]
  | .setNull => [b!"SET", b!"NULL"]
  | .setDefault => [b!"SET", b!"DEFAULT"]

/-- How a description names it. -/
def RefAction.text : RefAction → Str
  | .noAction => b!"NO ACTION"
  | .restrict => b!"RESTRICT"
  | .cascade => b!"CASCADE"
  | .setNull => b!"SET NULL"
  | .setDefault => b!"SET DEFAULT"

/-- The match types. -/
inductive MatchType where
  | full | partial_ | simple
deriving DecidableEq, Repr

/-- Its keyword. -/
def MatchType.word : MatchType → Str
  | .full => b!"FULL"
  | .partial_ => b!"PARTIAL"
  | .simple => b!"SIMPLE"

/-- The deferrability clauses. -/
inductive Deferral where
  | absent | notDeferrable | deferrable | initially (deferred : Bool)
  | deferrableInitially (deferred : Bool)
deriving DecidableEq, Repr

/-- The keywords of INITIALLY. -/
def initiallyWords (deferred : Bool) : List Str :=
  [b!"INITIALLY", if deferred then b!"DEFERRED" else b!"IMMEDIATE"]

/-- Its keywords. -/
def Deferral.words : Deferral → List Str
  | .absent => []
  | .notDeferrable => [b!"NOT", b!"DEFERRABLE"]
  | .deferrable => [b!"DEFERRABLE"]
  | .initially d => initiallyWords d
  | .deferrableInitially d => b!"DEFERRABLE" :: initiallyWords d

/-- A FOREIGN KEY clause as a sequence of tokens. -/
structure FkSyntax where
  columns : List Str
  table : Str
  referenced : List Str
  match_ : Option MatchType
  onDelete : Option RefAction
  onUpdate : Option RefAction
  deferral : Deferral
deriving DecidableEq, Repr

/-- The keywords after the lists. -/
def FkSyntax.tail (y : FkSyntax) : List Str :=
  (y.match_.toList.flatMap fun m => [b!"MATCH", m.word]) ++
  (y.onDelete.toList.flatMap fun a => [b!"ON", b!"DELETE"] ++ a.words) ++
  (y.onUpdate.toList.flatMap fun a => [b!"ON", b!"UPDATE"] ++ a.words) ++ y.deferral.words

/-- Keywords in any case, each after whitespace. -/
inductive Words : List Str → Str → Prop
  | nil : Words [] []
  | cons {k w t s : Str} {ks : List Str} : Ws w → Kw k t → Words ks s → Words (k :: ks) (w ++ t ++ s)

/-- `s` spells `y` and ends in the spaces `tl`. -/
def Spells (y : FkSyntax) (s tl : Str) : Prop :=
  ∃ sp foreign_ w1 key w2 cols w3 references w4 refs tail : Str,
    s = sp ++ foreign_ ++ w1 ++ key ++ w2 ++ cols ++ w3 ++ references ++ w4 ++ y.table ++ refs ++ tail ++ tl ∧
    Spaces sp ∧ Kw b!"FOREIGN" foreign_ ∧ Ws w1 ∧ Kw b!"KEY" key ∧ Ws w2 ∧ ListText cols y.columns ∧
    Ws w3 ∧ Kw b!"REFERENCES" references ∧ Ws w4 ∧ Ident y.table ∧ ListText refs y.referenced ∧
    Words y.tail tail ∧ Spaces tl

/-- What it means. -/
def FkSyntax.meaning (y : FkSyntax) : ForeignKey where
  table := y.table
  columns := y.columns
  referenced := y.referenced
  match_ := (y.match_.map MatchType.word).getD []
  onDelete := (y.onDelete.map RefAction.text).getD []
  onUpdate := (y.onUpdate.map RefAction.text).getD []
  deferrable :=
    match y.deferral with
    | .deferrable => true
    | .deferrableInitially _ => true
    | _ => false
  initiallyDeferred :=
    match y.deferral with
    | .initially d => d
    | .deferrableInitially d => d
    | _ => false

end Verif.Ddl
