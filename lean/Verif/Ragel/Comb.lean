import Verif.Ragel.Gram

/-!
# Grammar combinators shared by the `.rl` files
-/

namespace Verif.Ragel
open Verif

variable {A : Type}

/-- ragel's `space`: 9..13 and 32. -/
def spaceCls : Cls := [(9, 13), (32, 32)]

/-- `[a-zA-Z]` -/
def alphaCls : Cls := [(65, 90), (97, 122)]

/-- `[_a-zA-Z0-9]` -/
def wordCls : Cls := [(48, 57), (65, 90), (95, 95), (97, 122)]

/-- `any` -/
def anyCls : Cls := [(0, 255)]

/-- An ASCII letter (given in upper case) in either case. -/
def letterCls (c : UInt8) : Cls := [(c.toNat, c.toNat), (c.toNat + 32, c.toNat + 32)]

/-- One space. -/
def sp1 : Gram A := .cls spaceCls []
/-- `space*`; also `ws?`. -/
def sp : Gram A := .star sp1
/-- `ws = space+` -/
def ws : Gram A := .seq sp1 sp
/-- One space, recorded in the buffer. -/
def sp1P : Gram A := .cls spaceCls [.push]
/-- `space*`, recorded in the buffer. -/
def spP : Gram A := .star sp1P
/-- `space+`, recorded in the buffer. -/
def wsP : Gram A := .seq sp1P spP

/-- A case-insensitive keyword (given in upper case), with operations on every byte. -/
def kwOps (ops : List (Op A)) : Str → Gram A
  | [] => .eps
  | [c] => .cls (letterCls c) ops
  | c :: d :: w => .seq (.cls (letterCls c) ops) (kwOps ops (d :: w))

/-- A case-insensitive keyword. -/
def kw (w : Str) : Gram A := kwOps [] w
/-- A case-insensitive keyword, recorded in the buffer. -/
def kwP (w : Str) : Gram A := kwOps [.push] w

/-- A case-insensitive keyword with an action on its last byte. -/
def kwA (a : A) : Str → Gram A
  | [] => .eps
  | [c] => .cls (letterCls c) [.act a]
  | c :: d :: w => .seq (.cls (letterCls c) []) (kwA a (d :: w))

/-- A punctuation byte. -/
def ch (c : UInt8) : Gram A := .cls [(c.toNat, c.toNat)] []

/-- `ident = [a-zA-Z][_a-zA-Z0-9]*`, recorded in the buffer: the part after the first letter. -/
def identR : Gram A := .star (.cls wordCls [.push])
/-- `ident`, recorded in the buffer. -/
def ident : Gram A := .seq (.cls alphaCls [.push]) identR

/-- Optional. -/
def opt (g : Gram A) : Gram A := .alt g .eps

/-- Sequence of several. -/
def seqs : List (Gram A) → Gram A
  | [] => .eps
  | [g] => g
  | g :: h :: gs => .seq g (seqs (h :: gs))

end Verif.Ragel
