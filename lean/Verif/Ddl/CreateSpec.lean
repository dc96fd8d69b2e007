import Verif.Ddl.Lexer

/-!
# Reading CREATE TABLE and CREATE FUNCTION (specification)

How PostgreSQL reads the tokens of the two statements, as far as the code writes them: table elements
are separated by commas outside parentheses and brackets; a column has a name, a type and clauses, which
begin with a keyword outside parentheses; names that are not quoted are folded to lower case.
-/

namespace Verif.Ddl.Create
open Verif Verif.Ddl.Sql

/-- `(` and `[` -/
def opens : Tok → Bool
  | .sym b => b == 40 || b == 91
  | _ => false
/-- `)` and `]` -/
def closes : Tok → Bool
  | .sym b => b == 41 || b == 93
  | _ => false

/-- A letter in upper or lower case. -/
def upperByte (b : UInt8) : UInt8 := if 97 ≤ b && b ≤ 122 then b - 32 else b
def lowerByte (b : UInt8) : UInt8 := if 65 ≤ b && b ≤ 90 then b + 32 else b

/-- The keywords that begin a column constraint. -/
def keywords : List Str := [b!"NOT", b!"NULL", b!"DEFAULT", b!"CHECK", b!"PRIMARY", b!"UNIQUE",
  b!"REFERENCES", b!"CONSTRAINT", b!"COLLATE", b!"GENERATED"]
def isClause : Tok → Bool
  | .word w => keywords.contains (w.map upperByte)
  | _ => false

/-- The depth of brackets after `t`. -/
def next (d : Nat) (t : Tok) : Nat := if opens t then d + 1 else if closes t then d - 1 else d

/-- The elements of a list: split at commas outside brackets, up to the closing parenthesis. `cur` is
the beginning of the current element, `d` the depth of brackets. -/
def items : Nat → List Tok → List Tok → Option (List (List Tok) × List Tok)
  | _, _, [] => none
  | d, cur, t :: ts =>
    if d = 0 ∧ t = .sym 44 then (items 0 [] ts).map fun r => (cur :: r.1, r.2)
    else if d = 0 ∧ closes t then (if t = .sym 41 then some ([cur], ts) else none)
    else items (next d t) (cur ++ [t]) ts

/-- The tokens before the first column constraint, and the rest. -/
def untilClause : Nat → List Tok → List Tok × List Tok
  | _, [] => ([], [])
  | d, t :: ts =>
    if d = 0 ∧ isClause t then ([], t :: ts)
    else (t :: (untilClause (next d t) ts).1, (untilClause (next d t) ts).2)

/-- A column of a new table. -/
structure Col where
  name : Str
  type : List Tok
  notNull : Bool
  default_ : Option (List Tok)
deriving DecidableEq, Repr

/-- A new table. `schema` is `none` if the statement does not say in which schema: then it is the first
one of the search path. -/
structure NewTable where
  schema : Option Str
  name : Str
  columns : List Col
  checks : List (List Tok)
deriving DecidableEq, Repr

/-- `DEFAULT expression`, or nothing. -/
def readDefault : List Tok → Option (Option (List Tok))
  | [] => some none
  | .word w :: ts =>
    if w.map upperByte = b!"DEFAULT" ∧ ts ≠ [] ∧ (untilClause 0 ts).2 = [] ∧ (untilClause 0 ts).1 ≠ [] then
      some (some ts)
    else none
  | _ => none

/-- `[NOT NULL] [DEFAULT expression]`. -/
def readClauses : List Tok → Option (Bool × Option (List Tok))
  | .word v :: .word w :: ts =>
    if v.map upperByte = b!"NOT" ∧ w.map upperByte = b!"NULL" then (readDefault ts).map (true, ·)
    else (readDefault (.word v :: .word w :: ts)).map (false, ·)
  | ts => (readDefault ts).map (false, ·)

/-- A table element: a column or `CHECK (expression)`. -/
def readItem : List Tok → Option (Col ⊕ List Tok)
  | .ident n :: ts =>
    if (untilClause 0 ts).1 = [] then none
    else (readClauses (untilClause 0 ts).2).map fun r => .inl ⟨n, (untilClause 0 ts).1, r.1, r.2⟩
  | .word w :: .sym 40 :: ts =>
    if w.map upperByte = b!"CHECK" then
      match items 0 [] ts with
      | some (_, []) => some (.inr ts.dropLast)
      | _ => none
    else none
  | _ => none

/-- All elements of the table. -/
def readItems (its : List (List Tok)) : Option (List (Col ⊕ List Tok)) :=
  if its = [[]] then some [] else its.mapM readItem

/-- `(elements);` -/
def readBody (schema : Option Str) (name : Str) (ts : List Tok) : Option NewTable :=
  match items 0 [] ts with
  | some (its, [.sym 59]) => (readItems its).map fun l =>
      ⟨schema, name, l.filterMap Sum.getLeft?, l.filterMap Sum.getRight?⟩
  | _ => none

/-- `CREATE TABLE [schema.]name (elements);` with quoted names. -/
def readTable : List Tok → Option NewTable
  | .word c :: .word t :: .ident s :: .sym 46 :: .ident n :: .sym 40 :: ts =>
    if c = b!"CREATE" ∧ t = b!"TABLE" then readBody (some s) n ts else none
  | .word c :: .word t :: .ident n :: .sym 40 :: ts =>
    if c = b!"CREATE" ∧ t = b!"TABLE" then readBody none n ts else none
  | _ => none

/-- What the SQL text `sql` creates, if it is one CREATE TABLE statement. -/
def createsTable (sql : Str) : Option NewTable := (lex sql).bind readTable

example : createsTable b!"CREATE TABLE \"s\".\"t\" (\"a\" numeric(10,2) not null default f(1,2), \"b\" text, CHECK ((b) <> ''));" =
    some ⟨some b!"s", b!"t",
      [⟨b!"a", [.word b!"numeric", .sym 40, .word b!"10", .sym 44, .word b!"2", .sym 41], true,
        some [.word b!"f", .sym 40, .word b!"1", .sym 44, .word b!"2", .sym 41]⟩,
       ⟨b!"b", [.word b!"text"], false, none⟩],
      [[.sym 40, .word b!"b", .sym 41, .sym 60, .sym 62, .str []]]⟩ := by decide +kernel

example : createsTable b!"CREATE TABLE \"t\" (\"a\" int,);" = none := by decide +kernel
example : createsTable b!"CREATE TABLE \"t\" ();" = some ⟨none, b!"t", [], []⟩ := by decide +kernel

/-- The depth of brackets after the tokens, which begin at depth `d`; `none` if they close more brackets
than they open, or if one for which `stop` holds is outside brackets. -/
def lev (stop : Tok → Bool) : Nat → List Tok → Option Nat
  | d, [] => some d
  | d, t :: ts =>
    if d = 0 ∧ (stop t ∨ closes t) then none else lev stop (next d t) ts

/-- A type or a default: not empty, with its brackets closed, and without comma or constraint keyword
outside brackets. -/
def Part (ts : List Tok) : Prop :=
  ts ≠ [] ∧ lev (fun t => t == .sym 44 || isClause t) 0 ts = some 0

/-- An expression in parentheses: with its brackets closed. -/
def Expr (ts : List Tok) : Prop := lev (fun _ => false) 0 ts = some 0

instance (ts : List Tok) : Decidable (Part ts) := by unfold Part; infer_instance
instance (ts : List Tok) : Decidable (Expr ts) := by unfold Expr; infer_instance

/-! ## Functions -/

/-- A new function without parameters. -/
structure NewFunction where
  schema : Option Str
  name : Str
  returns : List Tok
  body : Str
  language : Str
deriving DecidableEq, Repr

/-- The name a token stands for: quoted names as they are, others folded to lower case and only if they
are not reserved and begin with a letter or underscore. -/
def nameOf (reserved : Str → Bool) : Tok → Option Str
  | .ident s => some s
  | .word w =>
    if reserved (w.map lowerByte) ∨ (w.head?.any fun b => 48 ≤ b && b ≤ 57) then none
    else some (w.map lowerByte)
  | _ => none

/-- `type AS $$body$$ LANGUAGE 'language';` -/
def readReturns : List Tok → Option (List Tok × Str × Str)
  | [.word a, .dollar body, .word l, .str lang, .sym 59] =>
    if a = b!"AS" ∧ l = b!"LANGUAGE" then some ([], body, lang) else none
  | t :: ts => (readReturns ts).map fun r => (t :: r.1, r.2)
  | [] => none

/-- `() RETURNS type AS ...;` -/
def readSignature (schema : Option Str) (name : Option Str) : List Tok → Option NewFunction
  | .sym 40 :: .sym 41 :: .word r :: ts =>
    if r = b!"RETURNS" then
      match name, readReturns ts with
      | some name, some (ty, body, lang) => if ty = [] then none else some ⟨schema, name, ty, body, lang⟩
      | _, _ => none
    else none
  | _ => none

/-- `CREATE OR REPLACE FUNCTION [schema.]name() RETURNS ...;` -/
def readFunction (reserved : Str → Bool) : List Tok → Option NewFunction
  | .word a :: .word b :: .word c :: .word d :: s :: .sym 46 :: n :: ts =>
    if [a, b, c, d] = [b!"CREATE", b!"OR", b!"REPLACE", b!"FUNCTION"] then
      match nameOf reserved s with
      | none => none
      | some s => readSignature (some s) (nameOf reserved n) ts
    else none
  | .word a :: .word b :: .word c :: .word d :: n :: ts =>
    if [a, b, c, d] = [b!"CREATE", b!"OR", b!"REPLACE", b!"FUNCTION"] then
      readSignature none (nameOf reserved n) ts
    else none
  | _ => none

/-- What the SQL text `sql` creates, if it is one CREATE OR REPLACE FUNCTION statement. -/
def createsFunction (reserved : Str → Bool) (sql : Str) : Option NewFunction :=
  (lex sql).bind (readFunction reserved)

example : createsFunction (fun _ => false)
    b!"CREATE OR REPLACE FUNCTION s.MyFunc() RETURNS setof int AS $$ BEGIN END $$ LANGUAGE 'plpgsql';" =
    some ⟨some b!"s", b!"myfunc", [.word b!"setof", .word b!"int"], b!" BEGIN END ", b!"plpgsql"⟩ := by
  decide +kernel

end Verif.Ddl.Create
