import Verif.TaskSet.DocProps
import Verif.TaskSet.Print

/-!
# C114: the pg and sh tasks of a task set
-/

namespace Verif.TaskSet
open Verif Hcl Spec DocSpec

/-- C114 is false of the code. Whatever the file says, no task of a task set sends a statement or starts a
program; and there is a file, that of taskset_test.go:35, whose tasks are reported as successful. -/
theorem C114_refuted :
    (∀ t k effects ok, exec t k = some (effects, ok) → ∀ e ∈ effects, ∃ line, e = .line line) ∧
    ∃ targets tasks, load [(b!"pg", .pg), (b!"sh", .sh)] Texts.measurementsText = some (targets, tasks) ∧
      ∃ m t k sql, targets.get? b!"pg" = some m ∧ m.get? b!"src" = some t ∧
        tasks.get? b!"create-table" = some k ∧ k.kind = .pg sql ∧
        ∃ effects, exec t k.kind = some (effects, true) ∧ .statement sql ∉ effects := by
  refine ⟨?_, _, _, measurements_load, [([], .pg), (b!"src", .pg)], .pg, { kind := .pg b!"SELECT now()" },
    b!"SELECT now()", by decide +kernel, by decide +kernel, by decide +kernel, rfl, _, rfl, by decide +kernel⟩
  intro t k effects ok h e he
  cases t <;> cases k <;> simp only [exec, Option.some.injEq, Prod.mk.injEq, reduceCtorEq] at h <;>
    obtain ⟨rfl, -⟩ := h <;> simp at he <;> exact ⟨_, he⟩

/-- C114 (partial). For every document that is accepted and every task in it with its target of type pg or
sh: the task is reported as successful, and its SQL or its arguments, as they are in the document, are
printed, once. A task on a target of another type is refused without an effect. Missing: that anything is
done. -/
theorem C114_prints_partial {F N : Type} (L : Lib F N) (p : GoMap Str Factory) (wf : p.WF)
    (doc : List (Item N)) (ts : Loaded) (h : parseDoc L p doc = .ok ts) :
    (∀ id k, ts.tasks.get? id = some k → ∃ typ body base kind name t,
      LastWith doc (fun i => ∃ typ b, i = .block b!"task" [typ, id] b) (.block b!"task" [typ, id] body) ∧
      TypeIs typ base kind ∧ Common L body name ∧ HasTarget L p doc base name t ∧
      (t = .pg → ∃ sql, GivesText L body b!"sql" sql ∧
        exec t k.kind = some ([.line (b!"  sql: " ++ sql)], true)) ∧
      (t = .sh → ∃ args, GivesTexts L body b!"args" args ∧
        exec t k.kind = some ([.line (b!"  args: " ++ showArgs args)], true))) ∧
    (∀ k : Kind, (∀ sql, k ≠ .pg sql) → exec .pg k = some ([], false)) ∧
    (∀ k : Kind, (∀ args, k ≠ .sh args) → exec .sh k = some ([], false)) := by
  refine ⟨?_, ?_, ?_⟩
  · intro id k hk
    obtain ⟨typ, body, hl, base, kind, name, t, h1, h2, h3, h4, -⟩ :=
      (((C113_document L p wf doc).2.2 ts h).2 id k).1 hk
    refine ⟨typ, body, base, kind, name, t, hl, h1, h2, h3, ?_, ?_⟩
    · rintro rfl
      obtain ⟨kb, kk⟩ := k
      cases h4 with
      | pg _ hs => exact ⟨_, hs, rfl⟩
    · rintro rfl
      obtain ⟨kb, kk⟩ := k
      cases h4 with
      | sh _ hs => exact ⟨_, hs, rfl⟩
  · intro k hk
    cases k with
    | pg sql => exact absurd rfl (hk sql)
    | _ => rfl
  · intro k hk
    cases k with
    | sh args => exact absurd rfl (hk args)
    | _ => rfl

/-- What the tests see on the standard output. -/
example : exec .sh (.sh [b!"mkdir", b!"-p", b!"/tmp/pgutil-simple-example"]) =
    some ([.line b!"  args: [mkdir -p /tmp/pgutil-simple-example]"], true) := by decide +kernel

end Verif.TaskSet
