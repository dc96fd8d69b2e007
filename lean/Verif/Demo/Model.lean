import Verif.Base.Utf8

/-!
# Model of `/repo/internal/runbook/demo/tasks.go`

`/repo/internal/taskset/demo/{rev,rot13}.go` have the same bodies between Lock and Unlock.
-/

namespace Verif.Demo
open Verif

/-- demo/demo.go:19-23 `type Target struct`; `stdout` is the list of bytes written so far. -/
structure Target where
  /-- demo.go:21 -/
  stdout : Str := []
  /-- demo.go:22 -/
  string : Str := []
deriving DecidableEq, Repr

/-- demo/tasks.go:14-17 `Echo.munge` (a writer that does not fail). -/
def echo (t : Target) : Target := { t with stdout := t.stdout ++ t.string ++ [10] }

/-- demo/tasks.go:50: `runes[i], runes[j] = runes[j], runes[i]`; `none` is an index panic. -/
def swap (l : List Nat) (i j : Nat) : Option (List Nat) :=
  match l[i]?, l[j]? with
  | some a, some b => some ((l.set i b).set j a)
  | _, _ => none

/-- demo/tasks.go:48-51: the loop `for i := 0; i < n/2; i++`, `steps` iterations from `i`. -/
def revLoop (n : Nat) : Nat → Nat → List Nat → Option (List Nat)
  | 0, _, runes => some runes
  | steps + 1, i, runes =>
    match swap runes i (n - i - 1) with
    | none => none
    | some runes' => revLoop n steps (i + 1) runes'

/-- demo/tasks.go:45-54 `Rev.munge`; `none` is a panic. -/
def rev (t : Target) : Option Target :=
  let runes := Utf8.decode t.string
  let n := runes.length
  match revLoop n (n / 2) 0 runes with
  | none => none
  | some runes' => some { t with string := Utf8.encode runes' }

/-- demo/tasks.go:69-78: the switch of `Rot13.munge`.  97 = 'a', 109 = 'm', 110 = 'n', 122 = 'z',
65 = 'A', 77 = 'M', 78 = 'N', 90 = 'Z'. -/
def rot13Rune (r : Nat) : Nat :=
  if 97 ≤ r ∧ r ≤ 109 then r + 13
  else if 110 ≤ r ∧ r ≤ 122 then r - 13
  else if 65 ≤ r ∧ r ≤ 77 then r + 13
  else if 78 ≤ r ∧ r ≤ 90 then r - 13
  else r

/-- demo/tasks.go:66-82 `Rot13.munge`. -/
def rot13 (t : Target) : Target :=
  { t with string := Utf8.encode ((Utf8.decode t.string).map rot13Rune) }

/-- demo/tasks.go:31-33 `Fail.munge`: always the error `ErrFail` (true = nil error). -/
def failOk : Bool := false

/-- demo/tasks.go:92-94 `type Sleep struct`; Go `int` is 64 bits wide. -/
structure Sleep where
  seconds : Int64
deriving DecidableEq

/-- demo/tasks.go:104-109 `Sleep.Check` (never an error; it updates the receiver). -/
def Sleep.check (x : Sleep) : Sleep := if x.seconds < 1 then { seconds := 1 } else x

/-- demo/tasks.go:98: `time.Duration(x.Seconds) * time.Second`, an int64 product, in nanoseconds. -/
def Sleep.duration (x : Sleep) : Int64 := x.seconds * 1000000000

/-- demo/tasks.go:96-101 `Sleep.munge`: `time.Sleep(d)` pauses for `d` nanoseconds and returns at once
when `d <= 0`. -/
def Sleep.pause (x : Sleep) : Nat := x.duration.toInt.toNat

end Verif.Demo
