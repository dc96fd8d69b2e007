import Verif.Base.Str

/-!
# What a path means

A place in a tree of directories is the list of names on the way to it from the root.  A path leads
from a directory to a place: its parts, separated by `/`, are followed one after another; an empty part
and `.` stay, `..` goes up (and stays at the root).  Symbolic links are left out: a name leads to what
has this name.
-/

namespace Verif.Path.Spec
open Verif

/-- The parts of a text between the bytes `sep`. -/
def parts (sep : UInt8) : Str → List Str
  | [] => [[]]
  | c :: rest =>
    if c = sep then [] :: parts sep rest
    else match parts sep rest with
      | [] => [[c]]
      | e :: es => (c :: e) :: es

/-- Following one part of a path. -/
def step (at_ : List Str) (e : Str) : List Str :=
  if e = b!"" ∨ e = b!"." then at_
  else if e = b!".." then at_.dropLast
  else at_ ++ [e]

/-- The place the path leads to from the directory `at_`. -/
def loc (at_ : List Str) (path : Str) : List Str :=
  (parts 47 path).foldl step (if path.head? = some 47 then [] else at_)

/-- The path of a place from the root. -/
def absolute (l : List Str) : Str := if l = [] then b!"/" else l.flatMap (fun e => 47 :: e)

/-- A name a file can have. -/
def Plain (e : Str) : Prop := e ≠ b!"" ∧ e ≠ b!"." ∧ e ≠ b!".." ∧ (47 : UInt8) ∉ e

end Verif.Path.Spec
