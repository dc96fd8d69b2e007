import Verif.Base.Str

/-!
# Model of the functions of Go's `path/filepath` that decide where commands run (Unix)

`/repo/internal/runbook/runbook.go:25-29` and `49`, `82`, `111`, `131` compute the directory of shell
tasks with `filepath.Dir` and `filepath.Abs`; `os/exec`, which `/repo/internal/runbook/sh/exec.go:22`
calls, finds commands with `filepath.Base`, `filepath.SplitList` and `filepath.Join`.  These are
functions of Go's library, not of the repository; they are modelled from the source of Go 1.11-1.14,
the versions the repository is built with (`.travis.yml`, `docker/go/Dockerfile`).
-/

namespace Verif.Path
open Verif

/-- path/filepath `Clean`, going back over the last element: the bytes written so far, last one first,
after `out.w--; for out.w > dotdot && !IsPathSeparator(out.index(out.w)) { out.w-- }`. -/
def back (dotdot : Nat) : List UInt8 → List UInt8
  | [] => []
  | c :: rest => if rest.length > dotdot ∧ c ≠ 47 then back dotdot rest else rest

/-- path/filepath `Clean`: copying an element, up to the next separator.  What has been written, last
byte first, and what is left to read. -/
def copy : Str → List UInt8 → List UInt8 × Str
  | [], out => (out, [])
  | c :: rest, out => if c = 47 then (out, c :: rest) else copy rest (c :: out)

theorem copy_length (p : Str) (out : List UInt8) : (copy p out).2.length ≤ p.length := by
  induction p generalizing out with
  | nil => simp [copy]
  | cons c rest ih =>
    rw [copy]
    split
    · simp
    · exact Nat.le_succ_of_le (ih _)

/-- The remaining path is empty or begins with a separator: `r == n || IsPathSeparator(path[r])`. -/
def ends : Str → Bool
  | [] => true
  | c :: _ => c = 47

/-- path/filepath `Clean`, the loop: the path still to be read, the bytes written so far (last one
first; `out.w` is their number) and `dotdot`. -/
def cleanLoop (rooted : Bool) (path : Str) (out : List UInt8) (dotdot : Nat) : List UInt8 :=
  match path with
  | [] => out
  | c :: rest =>
    -- an empty element
    if c = 47 then cleanLoop rooted rest out dotdot
    -- the element `.`
    else if c = 46 ∧ ends rest then cleanLoop rooted rest out dotdot
    -- the element `..`
    else if c = 46 ∧ rest.head? = some 46 ∧ ends rest.tail then
      if out.length > dotdot then cleanLoop rooted rest.tail (back dotdot out) dotdot
      else if !rooted then
        let out' := 46 :: 46 :: (if out.length > 0 then 47 :: out else out)
        cleanLoop rooted rest.tail out' out'.length
      else cleanLoop rooted rest.tail out dotdot
    -- a real element
    else
      let out' := if (rooted ∧ out.length ≠ 1) ∨ (!rooted ∧ out.length ≠ 0) then 47 :: out else out
      let r := copy rest (c :: out')
      cleanLoop rooted r.2 r.1 dotdot
termination_by path.length
decreasing_by
  all_goals simp_wf
  · cases rest <;> simp_all; omega
  · cases rest <;> simp_all; omega
  · cases rest <;> simp_all; omega
  · exact Nat.lt_succ_of_le (copy_length _ _)

/-- path/filepath `Clean`. -/
def clean (path : Str) : Str :=
  match path with
  | [] => b!"."
  | c :: rest =>
    let rooted := decide (c = 47)
    let out := if rooted then cleanLoop true rest [47] 1 else cleanLoop false path [] 0
    if out.length = 0 then b!"." else out.reverse

/-- path/filepath `Dir`: everything up to and including the last separator, cleaned. -/
def dir (path : Str) : Str := clean ((path.reverse.dropWhile (fun c => c ≠ 47)).reverse)

/-- path/filepath `Join` of two elements: empty ones are left out. -/
def join (a b : Str) : Str :=
  if a ≠ [] then clean (if b ≠ [] then a ++ 47 :: b else a)
  else if b ≠ [] then clean b else []

/-- path/filepath `IsAbs`. -/
def isAbs : Str → Bool
  | [] => false
  | c :: _ => c = 47

/-- path/filepath `Abs`; `wd` is what `os.Getwd` returns. -/
def abs (wd path : Str) : Str := if isAbs path then clean path else join wd path

/-- path/filepath `Base`. -/
def base (path : Str) : Str :=
  match path with
  | [] => b!"."
  | _ :: _ =>
    let p := (path.reverse.dropWhile (fun c => c = 47)).reverse
    let q := (p.reverse.takeWhile (fun c => c ≠ 47)).reverse
    if q = [] then b!"/" else q

/-- path/filepath `SplitList` of a non-empty list (`strings.Split(path, ":")`). -/
def splitColon : Str → List Str
  | [] => [[]]
  | c :: rest =>
    if c = 58 then [] :: splitColon rest
    else match splitColon rest with
      | [] => [[c]]
      | e :: es => (c :: e) :: es

/-- path/filepath `SplitList`. -/
def splitList (path : Str) : List Str := if path = [] then [] else splitColon path

/-- internal/runbook/runbook.go:25-29 with the calls in 49, 82, 111, 131
`newParser(sys, filepath.Dir(filename))`: the directory of the shell targets (runbook.go:36).  The
failure of `os.Getwd` is left out. -/
def basedir (wd filename : Str) : Str := abs wd (dir filename)

end Verif.Path
