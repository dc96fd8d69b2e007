import Verif.Json.Examples

/-!
# The tests of /repo/internal/runbook/parser, on the model

The test has targets of its own, which differ from those of the program in that the database of a PostgreSQL target is
`dbname`; here it is `database`.
-/

namespace Verif.Tests
open Verif Verif.Json
open Verif.Book hiding parse

/-- testdata/databases.json, `src` or `dst` -/
def database (name : Str) : Value := .obj [(b!"concurrency", .num b!"3"), (b!"database", .str name),
  (b!"host", .str b!"localhost"), (b!"password", .str b!"hunter2"), (b!"username", .str b!"AzureDiamond")]

/-- testdata/simple.jsonnet, evaluated; the scripts are parameters. -/
def simple (create delete insert : Str) : Value := .obj [
  (b!"targets", .obj [
    (b!"dst", .obj [(b!"class", .str b!"pg"), (b!"config", database b!"tmp-pgutil-dst")]),
    (b!"sh", .obj [(b!"class", .str b!"sh")]),
    (b!"src", .obj [(b!"class", .str b!"pg"), (b!"config", database b!"tmp-pgutil-src")])]),
  (b!"tasks", .obj [
    (b!"create-dir", .obj [
      (b!"config", .obj [(b!"args", .arr [.str b!"mkdir", .str b!"-p", .str b!"/tmp/pgutil-simple-example"])]),
      (b!"target", .str b!"sh")]),
    (b!"create-table", .obj [(b!"config", .obj [(b!"sql", .str create)]), (b!"target", .str b!"src/exec")]),
    (b!"delete-old-measurements", .obj [(b!"after", .arr [.str b!"insert-new-measurements"]),
      (b!"config", .obj [(b!"sql", .str delete)]), (b!"target", .str b!"src/exec")]),
    (b!"insert-new-measurements", .obj [(b!"after", .arr [.str b!"create-table"]),
      (b!"config", .obj [(b!"sql", .str insert)]), (b!"target", .str b!"src/exec")]),
    (b!"remove-dir", .obj [(b!"after", .arr [.str b!"delete-old-measurements", .str b!"insert-new-measurements"]),
      (b!"config", .obj [(b!"args", .arr [.str b!"rmdir", .str b!"/tmp/pgutil-simple-example"])]),
      (b!"target", .str b!"sh")])])]

/-- parser_test.go:20-69 -/
def pgTarget (name : Str) : Target := 
  .pg ⟨3, b!"localhost", 0, [], b!"AzureDiamond", b!"hunter2", name, 0⟩

/-- What one file is loaded as. -/
def simpleSrc (tx : Text) (create delete insert : Str) : Src where
  targets := [(b!"dst", some ⟨b!"pg", tx.raw (database b!"tmp-pgutil-dst")⟩), (b!"sh", some ⟨b!"sh", []⟩),
    (b!"src", some ⟨b!"pg", tx.raw (database b!"tmp-pgutil-src")⟩)]
  tasks := [
    (b!"create-dir", some ⟨[], b!"sh", [],
      tx.raw (.obj [(b!"args", .arr [.str b!"mkdir", .str b!"-p", .str b!"/tmp/pgutil-simple-example"])])⟩),
    (b!"create-table", some ⟨[], b!"src/exec", [], tx.raw (.obj [(b!"sql", .str create)])⟩),
    (b!"delete-old-measurements", some ⟨[b!"insert-new-measurements"], b!"src/exec", [],
      tx.raw (.obj [(b!"sql", .str delete)])⟩),
    (b!"insert-new-measurements", some ⟨[b!"create-table"], b!"src/exec", [], tx.raw (.obj [(b!"sql", .str insert)])⟩),
    (b!"remove-dir", some ⟨[b!"delete-old-measurements", b!"insert-new-measurements"], b!"sh", [],
      tx.raw (.obj [(b!"args", .arr [.str b!"rmdir", .str b!"/tmp/pgutil-simple-example"])])⟩)]

/-- parser_test.go `TestParse`, the valid file. -/
example (tx : Text) (basedir create delete insert : Str) (hc : create ≠ []) (hd : delete ≠ []) (hi : insert ≠ []) :
    parse tx basedir (simple create delete insert) = .ok {
      targets := [(b!"dst", pgTarget b!"tmp-pgutil-dst"), (b!"sh", .sh { basedir := basedir }),
        (b!"src", pgTarget b!"tmp-pgutil-src")]
      tasks := [
        (b!"create-dir", ⟨b!"sh", [], [], .shExec { args := [b!"mkdir", b!"-p", b!"/tmp/pgutil-simple-example"] }⟩),
        (b!"create-table", ⟨b!"src", [], [], .pgExec create⟩),
        (b!"delete-old-measurements", ⟨b!"src", [b!"insert-new-measurements"], [], .pgExec delete⟩),
        (b!"insert-new-measurements", ⟨b!"src", [b!"create-table"], [], .pgExec insert⟩),
        (b!"remove-dir", ⟨b!"sh", [b!"delete-old-measurements", b!"insert-new-measurements"], [],
          .shExec { args := [b!"rmdir", b!"/tmp/pgutil-simple-example"] }⟩)] } := by
  have e : decodeFile tx (simple create delete insert) = .ok (simpleSrc tx create delete insert) := rfl
  obtain ⟨c, cs, rfl⟩ := List.exists_cons_of_ne_nil hc
  obtain ⟨d, ds, rfl⟩ := List.exists_cons_of_ne_nil hd
  obtain ⟨i, is, rfl⟩ := List.exists_cons_of_ne_nil hi
  rw [parse, e]
  have e1 : newTarget basedir b!"pg" = some (.pg {}) := rfl
  have e2 : ∀ n, decodeTarget (database n) (.pg {}) = .ok (pgTarget n) := fun n => rfl
  simp only [Book.parse, simpleSrc, loadTargets, loadTarget_raw, e1, e2]
  have e3 : loadTarget (decoder tx) basedir (some ⟨b!"sh", []⟩) = .ok (.sh { basedir := basedir }) := rfl
  simp only [e3, loadTasks, loadTask_raw]
  rfl

/-- A file with the given targets and one task, `timestamp`. -/
def file (targets task : Value) : Value := .obj [(b!"targets", targets), (b!"tasks", .obj [(b!"timestamp", task)])]

/-- A task with the given target and config. -/
def task (config : Value) (target : Str) : Value := .obj [(b!"config", config), (b!"target", .str target)]

def ddate : Value := .obj [(b!"args", .arr [.str b!"ddate"])]
def shTarget : Value := .obj [(b!"sh", .obj [(b!"class", .str b!"sh")])]

/-- testdata/invalid-field.jsonnet -/
example (tx : Text) (basedir : Str) : ∃ e, parse tx basedir (.obj [(b!"debug", .bool true), (b!"targets", shTarget),
    (b!"tasks", .obj [(b!"timestamp", task ddate b!"sh")])]) = .error e := ⟨_, rfl⟩

/-- testdata/invalid-target-class.jsonnet -/
example (tx : Text) (basedir : Str) : ∃ e,
    parse tx basedir (file (.obj [(b!"sh", .obj [(b!"class", .str b!"bash")])]) (task ddate b!"sh")) = .error e := ⟨_, rfl⟩

/-- testdata/invalid-target-field.jsonnet -/
example (tx : Text) (basedir : Str) : ∃ e, parse tx basedir (file (.obj [(b!"sh", .obj [(b!"class", .str b!"sh"),
    (b!"config", .obj [(b!"shell", .str b!"bash")])])]) (task ddate b!"sh")) = .error e := by
  have e : decodeFile tx (file (.obj [(b!"sh", .obj [(b!"class", .str b!"sh"),
    (b!"config", .obj [(b!"shell", .str b!"bash")])])]) (task ddate b!"sh")) =
    .ok ⟨[(b!"sh", some ⟨b!"sh", tx.raw (.obj [(b!"shell", .str b!"bash")])⟩)],
      [(b!"timestamp", some ⟨[], b!"sh", [], tx.raw ddate⟩)]⟩ := rfl
  rw [parse, e]
  simp only [Book.parse, loadTargets, loadTarget_raw]
  exact ⟨_, rfl⟩

/-- testdata/invalid-task-class.jsonnet, testdata/invalid-task-target.jsonnet -/
example (tx : Text) (basedir : Str) : ∀ t ∈ [b!"sh/time", b!"bash"], ∃ e,
    parse tx basedir (file shTarget (task ddate t)) = .error e := by
  intro t ht
  have e : decodeFile tx (file shTarget (task ddate t)) =
    .ok ⟨[(b!"sh", some ⟨b!"sh", []⟩)], [(b!"timestamp", some ⟨[], t, [], tx.raw ddate⟩)]⟩ := rfl
  rw [parse, e]
  have e3 : loadTarget (decoder tx) basedir (some ⟨b!"sh", []⟩) = .ok (.sh { basedir := basedir }) := rfl
  simp only [Book.parse, loadTargets, e3, loadTasks, loadTask_raw]
  simp only [List.mem_cons, List.not_mem_nil, or_false] at ht
  rcases ht with rfl | rfl
  · exact ⟨_, rfl⟩
  · exact ⟨_, rfl⟩

/-- testdata/invalid-task-field.jsonnet -/
example (tx : Text) (basedir : Str) : ∃ e,
    parse tx basedir (file shTarget (task (.obj [(b!"command", .str b!"ddate")]) b!"sh")) = .error e := by
  have e : decodeFile tx (file shTarget (task (.obj [(b!"command", .str b!"ddate")]) b!"sh")) =
    .ok ⟨[(b!"sh", some ⟨b!"sh", []⟩)],
      [(b!"timestamp", some ⟨[], b!"sh", [], tx.raw (.obj [(b!"command", .str b!"ddate")])⟩)]⟩ := rfl
  rw [parse, e]
  have e3 : loadTarget (decoder tx) basedir (some ⟨b!"sh", []⟩) = .ok (.sh { basedir := basedir }) := rfl
  simp only [Book.parse, loadTargets, e3, loadTasks, loadTask_raw]
  exact ⟨_, rfl⟩

end Verif.Tests
