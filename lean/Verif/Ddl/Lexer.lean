import Verif.Base.Str

/-!
# A SQL lexer (specification)

PostgreSQL's lexical structure (manual, section 4.1) restricted to words, double-quoted
identifiers, single-quoted strings, `$$` strings, `--` comments and single-byte symbols.  It is a
byte-at-a-time automaton.  Tagged dollar quotes, block comments and prefixed strings (E'', U&"")
are left out; the code under study never writes them itself.
-/

namespace Verif.Ddl.Sql
open Verif

inductive Tok where
  /-- keyword, unquoted identifier or number -/
  | word (s : Str)
  /-- double-quoted identifier, quotes removed -/
  | ident (s : Str)
  /-- single-quoted string, quotes removed -/
  | str (s : Str)
  /-- `$$` string, delimiters removed -/
  | dollar (s : Str)
  /-- any other byte -/
  | sym (b : UInt8)
deriving DecidableEq, Repr

inductive State where
  | start
  | word (acc : Str)
  | ident (acc : Str)
  | identQuote (acc : Str)
  | str (acc : Str)
  | strQuote (acc : Str)
  | dash
  | comment
  | dollar
  | body (acc : Str)
  | bodyDollar (acc : Str)

def isSpace (b : UInt8) : Bool := b == 32 || (9 ≤ b && b ≤ 13)

def isWord (b : UInt8) : Bool :=
  (97 ≤ b && b ≤ 122) || (65 ≤ b && b ≤ 90) || (48 ≤ b && b ≤ 57) || b == 95 || 128 ≤ b

/-- Reading `b` between tokens. `acc` holds the tokens read so far, last one first. -/
def startStep (acc : List Tok) (b : UInt8) : State × List Tok :=
  if isSpace b then (.start, acc)
  else if b = 34 then (.ident [], acc)
  else if b = 39 then (.str [], acc)
  else if b = 45 then (.dash, acc)
  else if b = 36 then (.dollar, acc)
  else if isWord b then (.word [b], acc)
  else (.start, .sym b :: acc)

def step : State → List Tok → UInt8 → State × List Tok
  | .start, acc, b => startStep acc b
  | .word w, acc, b =>
    if isWord b || b == 36 then (.word (w ++ [b]), acc) else startStep (.word w :: acc) b
  | .ident w, acc, b => if b = 34 then (.identQuote w, acc) else (.ident (w ++ [b]), acc)
  | .identQuote w, acc, b =>
    if b = 34 then (.ident (w ++ [34]), acc) else startStep (.ident w :: acc) b
  | .str w, acc, b => if b = 39 then (.strQuote w, acc) else (.str (w ++ [b]), acc)
  | .strQuote w, acc, b =>
    if b = 39 then (.str (w ++ [39]), acc) else startStep (.str w :: acc) b
  | .dash, acc, b => if b = 45 then (.comment, acc) else startStep (.sym 45 :: acc) b
  | .comment, acc, b => if b = 10 then (.start, acc) else (.comment, acc)
  | .dollar, acc, b => if b = 36 then (.body [], acc) else startStep (.sym 36 :: acc) b
  | .body w, acc, b => if b = 36 then (.bodyDollar w, acc) else (.body (w ++ [b]), acc)
  | .bodyDollar w, acc, b =>
    if b = 36 then (.start, .dollar w :: acc) else (.body (w ++ [36, b]), acc)

/-- End of input: an unterminated quote is an error. -/
def finish : State → List Tok → Option (List Tok)
  | .start, acc => some acc
  | .word w, acc => some (.word w :: acc)
  | .identQuote w, acc => some (.ident w :: acc)
  | .strQuote w, acc => some (.str w :: acc)
  | .dash, acc => some (.sym 45 :: acc)
  | .comment, acc => some acc
  | .dollar, acc => some (.sym 36 :: acc)
  | _, _ => none

def run : State → List Tok → Str → Option (List Tok)
  | st, acc, [] => (finish st acc).map List.reverse
  | st, acc, b :: s => run (step st acc b).1 (step st acc b).2 s

/-- The tokens of a SQL text. -/
def lex (s : Str) : Option (List Tok) := run .start [] s

/-- A piece of SQL that is lexically self-contained, with its tokens: read between tokens and
followed by a space or a parenthesis it yields `toks` whatever surrounds it. -/
def Fragment (f : Str) (toks : List Tok) : Prop :=
  ∀ (acc : List Tok) (b : UInt8) (rest : Str), (isSpace b ∨ b = 40 ∨ b = 41) →
    run .start acc (f ++ b :: rest) = run .start (toks.reverse ++ acc) (b :: rest)

end Verif.Ddl.Sql
