import Verif.Run.Model
import Verif.Sh.Spec
import Verif.Pg.ConnectSpec
import Mathlib.Logic.Relation
import Mathlib.Data.Set.Card

/-!
# What running a runbook file should mean

The words of C85-C90: what JSON decoding cannot change, the dependencies written in the file, and what
each class of task does.
-/

namespace Verif.Run.Spec
open Verif Book Sh.Spec

/-- Decoding a JSON message into a Go struct keeps its type and its unexported fields. -/
structure Json (dec : Decoder) : Prop where
  pg : ∀ m t u, dec.target m (.pg t) = .ok u → ∃ t', u = .pg t'
  sh : ∀ m t u, dec.target m (.sh t) = .ok u → ∃ t', u = .sh t' ∧ t'.basedir = t.basedir
  demo : ∀ m t u, dec.target m (.demo t) = .ok u → ∃ t', u = .demo t'
  pgExec : ∀ m x c, dec.config m (.pgExec x) = .ok c → ∃ x', c = .pgExec x'
  shExec : ∀ m x c, dec.config m (.shExec x) = .ok c → ∃ x', c = .shExec x'
  echo : ∀ m c, dec.config m .echo = .ok c → c = .echo
  fail : ∀ m c, dec.config m .fail = .ok c → c = .fail
  rev : ∀ m c, dec.config m .rev = .ok c → c = .rev
  rot13 : ∀ m c, dec.config m .rot13 = .ok c → c = .rot13
  sleep : ∀ m x c, dec.config m (.sleep x) = .ok c → ∃ x', c = .sleep x'

/-- In the file, task `t` is written to come after `m`. -/
def DependsOn (src : Src) (t m : Str) : Prop := ∃ w, (t, some w) ∈ src.tasks ∧ m ∈ w.after

/-- The dependencies written in the file name tasks of the file and have no cycle. -/
structure Ordered (src : Src) : Prop where
  closed : ∀ t m, DependsOn src t m → ∃ o, (m, o) ∈ src.tasks
  acyclic : ∀ t, ¬ Relation.TransGen (DependsOn src) t t

/-- The map from names to values an `Env` sets has legal names, each once. -/
def Legal (e : Sh.Env) : Prop := e.set.WF ∧ ∀ k v, (k, v) ∈ e.set → Name k

/-- What a task with this config does outside the program on target `q`: send its SQL, or run its
command in the runbook's directory with the process environment, filtered and extended first by the
target and then by the task. -/
inductive Does (environ : List Str) (q : Str) : Target → Config → List Call → Prop
  | sql {t text} : Does environ q (.pg t) (.pgExec text) [.sql q text]
  | command {t arg0 rest env c} : c.path = arg0 → c.args = rest → c.dir = t.basedir →
      (Legal env → Legal t.env → ∀ k v, Name k →
        (LookupLast c.env k v ↔ ((k, v) ∈ env.set ∨
          ((∀ w, (k, w) ∉ env.set) ∧ Passes env.allow env.deny k ∧
            ((k, v) ∈ t.env.set ∨
              ((∀ w, (k, w) ∉ t.env.set) ∧ Passes t.env.allow t.env.deny k ∧
                LookupLast environ k v)))))) →
      Does environ q (.sh t) (.shExec ⟨arg0 :: rest, env⟩) [.command c]
  | demo {t c} : Does environ q (.demo t) c []

/-- A task succeeds: a demo task unless it is `fail`; any other if what it did succeeded. -/
inductive Succeeds : Target → Config → Bool → Bool → Prop
  | fail {t done} : Succeeds (.demo t) .fail done false
  | demo {t c done} : c ≠ .fail → Succeeds (.demo t) c done true
  | pg {t c done} : Succeeds (.pg t) c done done
  | sh {t c done} : Succeeds (.sh t) c done done

/-- What one sees of a call: the statement and the target it was sent to, or the directory a command was run in, its
name and its arguments (and not its environment, for which see `Does`). -/
inductive Deed where
  | sql (target text : Str)
  | command (dir : Str) (argv : List Str)
deriving DecidableEq

def deed : Call → Deed
  | .sql q text => .sql q text
  | .command c => .command c.dir (c.path :: c.args)

/-- What the config of a task says is to be done; nothing for the demo tasks. -/
def Says (basedir : Str) (task : Task) : Option Deed :=
  match task.config with
  | .pgExec text => some (.sql task.target text)
  | .shExec x => some (.command basedir x.args)
  | _ => none

/-- What the tasks of a runbook say is to be done, with their ids. -/
def deeds (basedir : Str) (book : Runbook) : List (Str × Deed) :=
  book.tasks.filterMap fun p => (Says basedir p.2).map fun d => (p.1, d)

/-- The messages written in the file, with their tasks. -/
def messages (src : Src) : List (Str × Str) :=
  src.tasks.filterMap fun p => p.2.bind fun w => if w.message = [] then none else some (p.1, w.message)

/-- `a` comes before `b` in the list. -/
def Before (l : List Str) (a b : Str) : Prop := ∃ pre post, l = pre ++ b :: post ∧ a ∈ pre ∧ a ∉ b :: post

/-- What went over the network for target `q`. -/
def netOf (net : List (Str × Pg.Event)) (q : Str) : List Pg.Event :=
  (net.filter fun e => e.1 = q).map Prod.snd

/-- The connection settings `cfg` are those written for the target, and those of the environment
where nothing is written; and the transports tried follow the `sslmode` written for the target, which
is `verify-full` if nothing is written and there is a password. -/
structure Uses (env : Pg.ConnConfig) (t : PgTarget) (cfg : Pg.ConnConfig) : Prop where
  host : Pg.Chosen [] t.host env.host cfg.host
  port : Pg.Chosen 0 t.port env.port cfg.port
  user : Pg.Chosen [] t.username env.user cfg.user
  password : Pg.Chosen [] t.password env.password cfg.password
  database : Pg.Chosen [] t.database env.database cfg.database
  unset : t.sslmode = [] → cfg.password = [] → cfg.transports = env.transports
  secret : t.sslmode = [] → cfg.password ≠ [] → cfg.VerifiesHost
  disable : t.sslmode = b!"disable" → cfg.transports = [none]
  allow : t.sslmode = b!"allow" → cfg.transports = [none, some { insecureSkipVerify := true }]
  prefer : t.sslmode = b!"prefer" → cfg.transports = [some { insecureSkipVerify := true }, none]
  require : t.sslmode = b!"require" → cfg.transports = [some { insecureSkipVerify := true }]
  verifyFull : t.sslmode = b!"verify-full" → cfg.VerifiesHost
  known : t.sslmode = [] ∨ t.sslmode ∈ Pg.sslModes

/-- Why target `t` could not be connected to: the environment of the process is malformed, or the
`sslmode` in the file is, both without an attempt; or the last attempt failed. -/
inductive ConnectFails (proc : Proc) (t : PgTarget) : List Pg.Event → Prop
  | environ : proc.libpq = .error () → ConnectFails proc t []
  | sslmode : t.sslmode ≠ [] → t.sslmode ∉ Pg.sslModes → ConnectFails proc t []
  | refused {pre cfg} : ConnectFails proc t (pre ++ [.connect cfg false])

/-! ## What a runbook of demo tasks prints -/

/-- The letter 13 places on, in the alphabet taken as a circle. -/
def rot13 (c : Char) : Char :=
  if 'a' ≤ c ∧ c ≤ 'z' then Char.ofNat ('a'.toNat + (c.toNat - 'a'.toNat + 13) % 26)
  else if 'A' ≤ c ∧ c ≤ 'Z' then Char.ofNat ('A'.toNat + (c.toNat - 'A'.toNat + 13) % 26)
  else c

/-- A text reversed `nrev` times and rotated `nrot` times. -/
def mangle (nrev nrot : Nat) (cs : List Char) : List Char :=
  let cs := if nrot % 2 = 1 then cs.map rot13 else cs
  if nrev % 2 = 1 then cs.reverse else cs

/-- The bytes of a text. -/
def utf8 (cs : List Char) : Str := cs.flatMap String.utf8EncodeChar

/-- `id` is a task for target `q` with config `c`. -/
def IsTask (book : Runbook) (q : Str) (c : Config) (id : Str) : Prop :=
  ∃ task, (id, task) ∈ book.tasks ∧ task.target = q ∧ task.config = c

/-- The task comes, directly or not, after `m`. -/
def Follows (src : Src) : Str → Str → Prop := Relation.TransGen (DependsOn src)

/-- The task comes after a `fail` task. -/
def Doomed (src : Src) (book : Runbook) (id : Str) : Prop :=
  ∃ q f, IsTask book q .fail f ∧ Follows src id f

/-- The dependencies put all `echo` tasks that do not come after a `fail` task in the order `es`, and
every task that changes the text of a target before or after each of the target's `echo` tasks. -/
structure Scripted (src : Src) (book : Runbook) (es : List Str) : Prop where
  echoes : ∀ e, e ∈ es ↔ (∃ q, IsTask book q .echo e) ∧ ¬ Doomed src book e
  order : es.Pairwise fun a b => Follows src b a
  changes : ∀ e ∈ es, ∀ q, IsTask book q .echo e → ∀ x, IsTask book q .rev x ∨ IsTask book q .rot13 x →
    Follows src e x ∨ Follows src x e ∨ Doomed src book x

/-- `es` are the `echo` tasks that do not come after a `fail` task, in any order, and the dependencies put every task
that changes the text of a target before or after each of the target's `echo` tasks. -/
structure Determined (src : Src) (book : Runbook) (es : List Str) : Prop where
  nodup : es.Nodup
  echoes : ∀ e, e ∈ es ↔ (∃ q, IsTask book q .echo e) ∧ ¬ Doomed src book e
  changes : ∀ e ∈ es, ∀ q, IsTask book q .echo e → ∀ x, IsTask book q .rev x ∨ IsTask book q .rot13 x →
    Follows src e x ∨ Follows src x e ∨ Doomed src book x

/-- What the `echo` task `e` prints: the text in the config of its target, reversed once for every
`rev` and rotated once for every `rot13` task of that target it comes after; and a newline. -/
def Prints (src : Src) (book : Runbook) (e : Str) (line : Str) : Prop :=
  ∃ q t cs, IsTask book q .echo e ∧ (q, .demo t) ∈ book.targets ∧ t.string = utf8 cs ∧
    line = utf8 (mangle {x | IsTask book q .rev x ∧ Follows src e x}.ncard
      {x | IsTask book q .rot13 x ∧ Follows src e x}.ncard cs) ++ [10]

end Verif.Run.Spec
