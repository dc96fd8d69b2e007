import Verif.Hcl.Model
import Verif.Base.Utf8

/-!
# Specification: the document in a text

A reader for the part of the HCL native syntax which pgutil's files use: attributes with literal
values, and blocks; quoted texts and heredocs without templates. Other texts, among them some of valid
HCL (expressions, comments, templates, `<<-`), are not read. It does not look at the printer.
-/

namespace Verif.Hcl.Read
open Verif

/-! ## Texts -/

def hexVal (c : UInt8) : Option Nat :=
  if 48 ≤ c.toNat ∧ c.toNat ≤ 57 then some (c.toNat - 48)
  else if 65 ≤ c.toNat ∧ c.toNat ≤ 70 then some (c.toNat - 55)
  else if 97 ≤ c.toNat ∧ c.toNat ≤ 102 then some (c.toNat - 87)
  else none

/-- The number in hexadecimal digits, the first of which counts most. -/
def hexNum : Nat → Str → Option Nat
  | n, [] => some n
  | n, c :: s => (hexVal c).bind fun v => hexNum (16 * n + v) s

/-- The character of a number, if there is one. -/
def charOf (r : Nat) : Option Str :=
  if r < 0xD800 ∨ (0xE000 ≤ r ∧ r ≤ 0x10FFFF) then some (Utf8.encode1 r) else none

/-- The text between the quotes. -/
def unquote : Str → Option Str
  | [] => some []
  | 0x5C :: 0x6E :: s => (unquote s).map (0x0A :: ·)
  | 0x5C :: 0x72 :: s => (unquote s).map (0x0D :: ·)
  | 0x5C :: 0x74 :: s => (unquote s).map (0x09 :: ·)
  | 0x5C :: 0x22 :: s => (unquote s).map (0x22 :: ·)
  | 0x5C :: 0x5C :: s => (unquote s).map (0x5C :: ·)
  | 0x5C :: 0x75 :: a :: b :: c :: d :: s =>
    ((hexNum 0 [a, b, c, d]).bind charOf).bind fun r => (unquote s).map (r ++ ·)
  | 0x5C :: 0x55 :: a :: b :: c :: d :: e :: f :: g :: h :: s =>
    ((hexNum 0 [a, b, c, d, e, f, g, h]).bind charOf).bind fun r => (unquote s).map (r ++ ·)
  | 0x5C :: _ => none
  | 0x24 :: 0x24 :: 0x7B :: s => (unquote s).map ([0x24, 0x7B] ++ ·)
  | 0x25 :: 0x25 :: 0x7B :: s => (unquote s).map ([0x25, 0x7B] ++ ·)
  | 0x24 :: 0x7B :: _ => none
  | 0x25 :: 0x7B :: _ => none
  | c :: s => (unquote s).map (c :: ·)

/-- The text of a heredoc: no backslashes, and here no `${` and `%{` either. -/
def verbatim : Str → Option Str
  | [] => some []
  | 0x24 :: 0x7B :: _ => none
  | 0x25 :: 0x7B :: _ => none
  | c :: s => (verbatim s).map (c :: ·)

/-! ## Words -/

inductive Tok where
  | ident (s : Str)
  | num (s : Str)
  | str (s : Str)
  | newline
  /-- `{`, `}`, `[`, `]`, `,`, `=`, `-` -/
  | sym (c : UInt8)
deriving DecidableEq, Repr

inductive State where
  | start
  | ident (s : Str)
  | num (s : Str)
  /-- between quotes -/
  | str (s : Str)
  /-- between quotes, after a backslash -/
  | esc (s : Str)
  /-- after `<` -/
  | lt
  /-- after `<<` -/
  | tag (s : Str)
  /-- in a heredoc: its tag, the lines read, the line being read -/
  | doc (tag s line : Str)
deriving DecidableEq

def letter (c : UInt8) : Bool :=
  (decide (65 ≤ c.toNat) && decide (c.toNat ≤ 90)) || (decide (97 ≤ c.toNat) && decide (c.toNat ≤ 122)) ||
    c == 0x5F

def digit (c : UInt8) : Bool := decide (48 ≤ c.toNat) && decide (c.toNat ≤ 57)

def identByte (c : UInt8) : Bool := letter c || digit c || c == 0x2D

def numByte (c : UInt8) : Bool := digit c || c == 0x2E

/-- A byte between words. -/
def enter (c : UInt8) : Option (List Tok × State) :=
  if c = 0x20 ∨ c = 0x09 then some ([], .start)
  else if c = 0x0A then some ([.newline], .start)
  else if letter c then some ([], .ident [c])
  else if digit c then some ([], .num [c])
  else if c = 0x22 then some ([], .str [])
  else if c = 0x3C then some ([], .lt)
  else if c ∈ b!"{}[],=-" then some ([.sym c], .start)
  else none

/-- The next byte: the words that are complete, and the state after it. -/
def step : State → UInt8 → Option (List Tok × State)
  | .start, c => enter c
  | .ident s, c =>
    if identByte c then some ([], .ident (s ++ [c]))
    else (enter c).map fun (ts, st) => (.ident s :: ts, st)
  | .num s, c =>
    if numByte c then some ([], .num (s ++ [c]))
    else if letter c then none
    else (enter c).map fun (ts, st) => (.num s :: ts, st)
  | .str s, c =>
    if c = 0x22 then (unquote s).map fun t => ([.str t], .start)
    else if c = 0x0A then none
    else if c = 0x5C then some ([], .esc (s ++ [c]))
    else some ([], .str (s ++ [c]))
  | .esc s, c => if c = 0x0A then none else some ([], .str (s ++ [c]))
  | .lt, c => if c = 0x3C then some ([], .tag []) else none
  | .tag s, c =>
    if c = 0x0A then if s = [] then none else some ([], .doc s [] [])
    else if identByte c then some ([], .tag (s ++ [c]))
    else none
  | .doc tag s line, c =>
    if c = 0x0A then
      if line.dropWhile (· = 0x20) = tag then (verbatim s).map fun t => ([.str t, .newline], .start)
      else some ([], .doc tag (s ++ line ++ [0x0A]) [])
    else some ([], .doc tag s (line ++ [c]))

def run : State → Str → Option (List Tok × State)
  | st, [] => some ([], st)
  | st, c :: s => (step st c).bind fun (ts, st') => (run st' s).map fun (us, st'') => (ts ++ us, st'')

/-- The words of a text, which has to end between words. -/
def words (s : Str) : Option (List Tok) :=
  match run .start s with
  | some (ts, .start) => some ts
  | _ => none

/-! ## Items -/

section
variable {N : Type} (readN : Str → Option N)

def skip : List Tok → List Tok
  | .newline :: ts => skip ts
  | ts => ts

mutual
/-- A value, and the words after it. -/
def value : Nat → List Tok → Option (Value N × List Tok)
  | 0, _ => none
  | _ + 1, .str s :: ts => some (.str s, ts)
  | _ + 1, .num s :: ts => (readN s).map fun n => (.num n, ts)
  | _ + 1, .sym 0x2D :: .num s :: ts => (readN (0x2D :: s)).map fun n => (.num n, ts)
  | _ + 1, .ident s :: ts =>
    if s = b!"null" then some (.null, ts)
    else if s = b!"true" then some (.bool true, ts)
    else if s = b!"false" then some (.bool false, ts)
    else none
  | n + 1, .sym 0x5B :: ts => (elems n (skip ts)).map fun (l, ts) => (.list l, ts)
  | _ + 1, _ => none
/-- The elements of a list up to the bracket. -/
def elems : Nat → List Tok → Option (List (Value N) × List Tok)
  | 0, _ => none
  | _ + 1, .sym 0x5D :: ts => some ([], ts)
  | n + 1, ts =>
    (value n ts).bind fun (v, ts) =>
      match skip ts with
      | .sym 0x5D :: ts => some ([v], ts)
      | .sym 0x2C :: ts => (elems n (skip ts)).map fun (l, ts) => (v :: l, ts)
      | _ => none
end

/-- Labels. -/
def labels : List Tok → List Str × List Tok
  | .str s :: ts => (s :: (labels ts).1, (labels ts).2)
  | .ident s :: ts => (s :: (labels ts).1, (labels ts).2)
  | ts => ([], ts)

/-- An item ends with its line. -/
def lineEnd : List Tok → Option (List Tok)
  | .newline :: ts => some ts
  | [] => some []
  | _ => none

/-- Items up to a brace or the end. -/
def items : Nat → List Tok → Option (List (Item N) × List Tok)
  | 0, _ => none
  | _ + 1, [] => some ([], [])
  | _ + 1, .sym 0x7D :: ts => some ([], .sym 0x7D :: ts)
  | n + 1, .newline :: ts => items n ts
  | n + 1, .ident name :: .sym 0x3D :: ts =>
    (value readN n ts).bind fun (v, ts) =>
    (lineEnd ts).bind fun ts =>
    (items n ts).map fun (l, ts) => (.attr name v :: l, ts)
  | n + 1, .ident type :: ts =>
    match labels ts with
    | (ls, .sym 0x7B :: .sym 0x7D :: ts) =>
      (lineEnd ts).bind fun ts =>
      (items n ts).map fun (l, ts) => (.block type ls [] :: l, ts)
    | (ls, .sym 0x7B :: .newline :: ts) =>
      (items n ts).bind fun (body, ts) =>
      match ts with
      | .sym 0x7D :: ts =>
        (lineEnd ts).bind fun ts =>
        (items n ts).map fun (l, ts) => (.block type ls body :: l, ts)
      | _ => none
    | _ => none
  | _ + 1, _ => none

/-- The document in a text. -/
def document (text : Str) : Option (List (Item N)) :=
  (words text).bind fun ts =>
    match items readN (ts.length + 1) ts with
    | some (doc, []) => some doc
    | _ => none

end

/-! ## What can be written -/

/-- A name. -/
def Ident : Str → Prop
  | [] => False
  | c :: s => letter c = true ∧ ∀ d ∈ s, identByte d = true

instance : DecidablePred Ident := fun s => by cases s <;> unfold Ident <;> infer_instance

/-- Digits, perhaps with a point. -/
def Digits : Str → Prop
  | [] => False
  | c :: s => digit c = true ∧ ∀ d ∈ s, numByte d = true

section
variable {N : Type}

mutual
/-- Every text in the value is UTF-8. -/
def ValueUtf8 : Value N → Prop
  | .str s => Utf8.Valid s
  | .list l => ElemsUtf8 l
  | _ => True
def ElemsUtf8 : List (Value N) → Prop
  | [] => True
  | v :: l => ValueUtf8 v ∧ ElemsUtf8 l
end

mutual
/-- The names in the item are names, and every text is UTF-8. -/
def ItemOk : Item N → Prop
  | .attr n v => Ident n ∧ ValueUtf8 v
  | .block t ls body => Ident t ∧ (∀ l ∈ ls, Utf8.Valid l) ∧ BodyOk body
def BodyOk : List (Item N) → Prop
  | [] => True
  | i :: l => ItemOk i ∧ BodyOk l
end

/-- How numbers are written and read. -/
structure Numerals (showN : N → Str) (readN : Str → Option N) : Prop where
  read : ∀ n, readN (showN n) = some n
  form : ∀ n, Digits (showN n) ∨ ∃ ds, showN n = 0x2D :: ds ∧ Digits ds

end

end Verif.Hcl.Read
