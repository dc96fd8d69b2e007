import Verif.Main.Model
import Verif.Hcl.Spec
import Verif.Pg.ConnectSpec
import Verif.Sql.InspectSpec
import Verif.Cmd.ListProps

/-!
# What the commands of `pgutil` leave behind (specification)
-/

namespace Verif.Main.Spec
open Verif Cmd

/-- `text` is the text of a schema file that describes `db`; `read` parses it to a document. -/
def Reads {F N : Type} (L : Hcl.Lib F N) (read : Str → Option (List (Hcl.Item N))) (text : Str)
    (db : Hcl.Database F) : Prop :=
  ∃ doc, read text = some doc ∧ Hcl.parse L doc = .ok db

/-- All of `text` has gone to the file, which holds nothing else, or to standard output if there is no
name or the name is `-`; nothing else has changed. -/
def Left (output text : Str) (w w' : World) : Prop :=
  if output = [] ∨ output = b!"-" then w'.stdout = w.stdout ++ text ∧ w'.files = w.files
  else w'.files output = some text ∧ (∀ name, name ≠ output → w'.files name = w.files name) ∧
    w'.stdout = w.stdout

/-- The numbers of a sequence are bigints. -/
def Bigints (db : Sql.Db) : Prop :=
  ∀ s ∈ db.sequences, Hcl.Int64 s.seqstart ∧ Hcl.Int64 s.seqmin ∧ Hcl.Int64 s.seqmax ∧
    Hcl.Int64 s.seqincrement ∧ Hcl.Int64 s.seqcache

/-- A write that does not fail writes everything. -/
def Honest (os : Os) : Prop := ∀ t, (os.write t).2 = false → (os.write t).1 = t

/-- Every write succeeds. -/
def Writes (os : Os) : Prop := ∀ t, os.write t = (t, false)

/-- One line per task, in ascending order of the ids, with its target (see C63). -/
def Listing (book : Book.Runbook) (text : Str) : Prop :=
  ∃ ids lines column, Lines text (b!"Tasks & Targets:" :: lines) ∧ ids.Perm book.tasks.keys ∧
    ids.Pairwise (fun a b => Str.lt a b = true) ∧
    List.Forall₂ (fun id line => ∃ t, (id, t) ∈ book.tasks ∧ TaskLine column id t.target line) ids lines

/-- The ids and targets of the tasks can be shown in one line each. -/
def Showable (book : Book.Runbook) : Prop :=
  book.tasks.WF ∧ (∀ id t, (id, t) ∈ book.tasks → (10 : UInt8) ∉ id ∧ (10 : UInt8) ∉ t.target) ∧
  ∀ id t, (id, t) ∈ book.tasks → id.length ≤ 1000000

/-- The files a command finds when it reads its input: its output file has been created or emptied. -/
def Seen (output : Str) (w : World) (files : Str → Option Str) : Prop :=
  if output = [] ∨ output = b!"-" then files = w.files
  else files output = some [] ∧ ∀ name, name ≠ output → files name = w.files name

/-- Where the output goes. -/
def destOf (output : Str) : Writer := if output = [] ∨ output = b!"-" then .stdout else .file output

/-- `cfg` is the server named by the flags, and by the environment (`e`) where they name none (see C52).
The mode of TLS is the one asked for; with none, a password means that the host is verified (see C53). -/
structure Named (s : Server) (e cfg : Pg.ConnConfig) : Prop where
  host : Pg.Chosen [] s.host e.host cfg.host
  port : Pg.Chosen 0 s.port e.port cfg.port
  user : Pg.Chosen [] s.username e.user cfg.user
  database : Pg.Chosen [] s.dbName e.database cfg.database
  password : cfg.password = e.password
  tls : cfg.transports =
      if s.sslMode = [] then
        if e.password = [] then e.transports else [some { serverName := cfg.host }]
      else if s.sslMode = b!"disable" then [none]
      else if s.sslMode = b!"allow" then [none, some { insecureSkipVerify := true }]
      else if s.sslMode = b!"prefer" then [some { insecureSkipVerify := true }, none]
      else if s.sslMode = b!"require" then [some { insecureSkipVerify := true }]
      else [some { serverName := cfg.host }]

/-- The command has done its job. -/
def Done {F N : Type} (env : Env F N) (w w' : World) : Command → Prop
  | .ping s => ∃ e cfg v, env.libpq = .ok e ∧ Named s e cfg ∧
      env.accepts 0 = true ∧ env.version 0 = .ok v ∧ Left [] (v ++ b!"\n") w w'
  | .inspect c => ∃ d text, Pg.inspect env.parseFloat env.sort (env.serve 0) c.sort = .ok d ∧
      text = env.print (Hcl.write env.hcl (Hcl.ofInspect d)) ∧ Left c.output text w w'
  | .list file => ∃ book text, env.libs.parse w.files file = .ok book ∧
      (Showable book → Listing book text) ∧ Left [] text w w'
  | .dot c => ∃ files book, Seen c.target w files ∧ env.libs.parse files c.file = .ok book ∧
      Left c.target (env.libs.graph book c.splines) w w'
  | .eval c => ∃ files color text, Seen c.output w files ∧
      (color = true ↔
        c.color = b!"true" ∨ c.color = b!"auto" ∧ env.terminal (destOf c.output) = true) ∧
      env.libs.eval files c.file color = .ok text ∧ Left c.output text w w'
  | .version build long => ∃ more, Left [] (b!"pgutil " ++ build ++ b!"\n" ++ more) w w' ∧
      (long = false → more = []) ∧
      ∀ deps, long = true → env.deps = some deps → ∀ d ∈ deps, ∃ pre gap gap' post,
        more = pre ++ b!"\n" ++ d.1 ++ gap ++ d.2 ++ gap' ++ b!"\n" ++ post ∧
        (∀ c ∈ gap, c = 32) ∧ gap ≠ [] ∧ ∀ c ∈ gap', c = 32

end Verif.Main.Spec
