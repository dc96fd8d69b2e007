import Verif.Run.Lemmas
import Verif.Json.Examples

/-!
# C123: a target does its own kind of tasks and refuses others
-/

namespace Verif.Run
open Verif Book Spec

/-- Specification: the three kinds of targets. -/
inductive Kind where
  | database | shell | demo
deriving DecidableEq, Repr

/-- The kind of a target. -/
def kindOf : Target → Kind
  | .pg _ => .database
  | .sh _ => .shell
  | .demo _ => .demo

/-- The kind of target a task is for. -/
def kindFor : Config → Kind
  | .pgExec _ => .database
  | .shExec _ => .shell
  | _ => .demo

/-- What can be seen of a target: its settings (the text of a demo target included). -/
def settings : Target → PgTarget ⊕ Sh.Target ⊕ Str
  | .pg t => .inl t
  | .sh t => .inr (.inl t)
  | .demo t => .inr (.inr t.string)

/-- **C123, the refusal.** A target that is handed a task of another kind returns an error and does nothing: nothing is
printed, no statement is sent and no command run, and its settings stay as they are. -/
theorem C123_refused (q : Str) (t : Target) (conn : Option Bool) (c : Config) (out : Str) (ext : Bool × Str)
    (h : kindFor c ≠ kindOf t) :
    ∃ t', handle q t conn c out ext = some (false, t', out, []) ∧ settings t' = settings t := by
  cases t <;> cases c <;> first
    | exact absurd rfl h
    | exact ⟨_, rfl, rfl⟩

/-- **C123, runbooks.** In a runbook that `Parse` accepts, every task is of the kind of its target, so that none is
refused for its kind. -/
theorem C123_own_kind {tx : Json.Text} {basedir : Str} {doc : Json.Value} {book : Runbook}
    (h : Json.parse tx basedir doc = .ok book) (id : Str) (task : Task) (ht : book.tasks.get? id = some task) :
    ∃ t, book.targets.get? task.target = some t ∧ kindFor task.config = kindOf t := by
  rw [Json.parse] at h
  split at h
  · cases h
  · rename_i src hs
    obtain ⟨hw1, hw2⟩ := Json.decodeFile_wf hs
    obtain ⟨t, h1, h2⟩ := (parsed (Json.decoder_json tx) hw1 hw2 h).task id task ht
    refine ⟨t, h1, ?_⟩
    cases t with
    | pg t => obtain ⟨sql, e⟩ := h2; rw [e]; rfl
    | sh t => obtain ⟨_, _, _, e⟩ := h2; rw [e]; rfl
    | demo t => rcases h2 with e | e | e | e | ⟨x, e⟩ <;> rw [e] <;> rfl

/-- examples/scripts.jsonnet: the task runs a command and its target is a shell. -/
example : ∃ t, Json.scriptsBook.targets.get? b!"sh" = some t ∧ Kind.shell = kindOf t := by
  obtain ⟨tx⟩ := Json.text_exists
  exact C123_own_kind (Json.scripts_parse tx) b!"list" ⟨b!"sh", [b!"debug-env"], [], .shExec ⟨[b!"ls"], ⟨[], [], []⟩⟩⟩ rfl

/-- A demo target that is to run a command. -/
example : ∃ t', handle b!"d" (.demo { string := b!"abc" }) none (.shExec { args := [b!"rm", b!"x"] }) b!"so far" (true, b!"y") =
    some (false, t', b!"so far", []) ∧ settings t' = .inr (.inr b!"abc") :=
  C123_refused _ _ _ _ _ _ (by decide)

end Verif.Run
