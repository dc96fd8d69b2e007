import Verif.Cmd.OutputProps

/-!
# C66 and C71, exactly: what a failed command leaves in the output file, and when the commands succeed
-/

namespace Verif.Cmd
open Verif

/-- C66, exactly. What the output file holds after a command has failed, if it could be opened: nothing if the runbook
could not be read or evaluated, what was written if the write failed, what it held before if connecting or inspecting
failed. (If it could not be opened it holds what it did: `C66_output_kept_partial`.) -/
theorem C66_exact (os : Os) (libs : Libs) (terminal : Writer → Bool) (w : World) (output : Str)
    (h1 : output ≠ []) (h2 : output ≠ b!"-") (hopen : os.openFails output = false) :
    (∀ c : DotCmd, c.output = output → (c.run os libs w).2 = .failure →
      libs.parse (setFile w.files output []) c.file = .error () ∧
      (c.run os libs w).1.files output = some []) ∧
    (∀ c : EvalCmd, c.output = output → (c.run os libs terminal w).2 = .failure →
      match libs.eval (setFile w.files output []) c.file (c.useColor terminal (.file output)) with
      | .error _ => (c.run os libs terminal w).1.files output = some []
      | .ok text => (os.write text).2 = true ∧
          (c.run os libs terminal w).1.files output = some (os.write text).1) ∧
    (∀ db, (runInspect os db output w).2 = .failure →
      match db with
      | .error _ => (runInspect os db output w).1.files output = w.files output
      | .ok text => (os.write text).2 = true ∧
          (runInspect os db output w).1.files output = some (os.write text).1) := by
  have ho : openOutput os output w = some (.file output, { w with files := setFile w.files output [] }) := by
    unfold openOutput openTrunc
    rw [if_pos h2]
    simp [hopen]
  refine ⟨?_, ?_, ?_⟩
  · intro c hc hf
    have ht : c.target = output := by rw [DotCmd.target, if_pos (by rw [hc]; exact h1), hc]
    unfold DotCmd.run at hf ⊢
    rw [ht, ho] at hf ⊢
    simp only at hf ⊢
    cases hp : libs.parse (setFile w.files output []) c.file with
    | error e => simp [setFile]
    | ok book => rw [hp] at hf; cases hf
  · intro c hc hf
    unfold EvalCmd.run at hf ⊢
    rw [hc, if_pos h1, ho] at hf ⊢
    simp only at hf ⊢
    cases hp : libs.eval (setFile w.files output []) c.file (c.useColor terminal (.file output)) with
    | error e => simp [setFile]
    | ok text =>
      rw [hp] at hf
      simp only [write] at hf ⊢
      cases hw : (os.write text).2 with
      | false => simp [hw] at hf
      | true => simp [setFile, contents]
  · intro db hf
    unfold runInspect at hf ⊢
    cases db with
    | error e => rfl
    | ok text =>
      simp only [if_neg h1, ho, write] at hf ⊢
      cases hw : (os.write text).2 with
      | false => simp [hw] at hf
      | true => simp [setFile, contents]

/-- A failed `runbook eval` with an output file that could be opened: nothing could be written. -/
example : ∃ (os : Os) (c : EvalCmd) (w : World), c.output = b!"out" ∧ os.openFails b!"out" = false ∧
    (c.run os { sampleLibs with eval := fun _ _ _ => .ok b!"{}" } (fun _ => false) w).2 = .failure :=
  ⟨{ openFails := fun _ => false, write := fun _ => ([], true) }, { file := b!"a", output := b!"out" },
    { files := fun _ => none }, rfl, rfl, rfl⟩

/-- C71, exactly: when the commands succeed. `runbook eval` and `inspect` if the output could be opened (there is
nothing to open if it is standard output), the result be made, and written; `runbook dot` whether or not the result
could be written. -/
theorem C71_exact (os : Os) (libs : Libs) (terminal : Writer → Bool) (w : World) :
    (∀ c : DotCmd, (c.run os libs w).2 = .success ↔
      ∃ dest w' book, openOutput os c.target w = some (dest, w') ∧ libs.parse w'.files c.file = .ok book) ∧
    (∀ c : EvalCmd, (c.run os libs terminal w).2 = .success ↔
      ∃ dest w' text, openOutput os (if c.output = [] then b!"-" else c.output) w = some (dest, w') ∧
        libs.eval w'.files c.file (c.useColor terminal dest) = .ok text ∧ (os.write text).2 = false) ∧
    (∀ db output, (runInspect os db output w).2 = .success ↔
      ∃ dest w' text, openOutput os (if output = [] then b!"-" else output) w = some (dest, w') ∧
        db = .ok text ∧ (os.write text).2 = false) ∧
    ∀ output, ((∃ dest w', openOutput os output w = some (dest, w')) ↔
      output = b!"-" ∨ os.openFails output = false) := by
  have hw : ∀ dest text w', (write os dest text w').2 = (os.write text).2 := by
    intro dest text w'; cases dest <;> rfl
  refine ⟨?_, ?_, ?_, ?_⟩
  · intro c
    unfold DotCmd.run
    cases ho : openOutput os c.target w with
    | none => simp
    | some p =>
      obtain ⟨dest, w'⟩ := p
      simp only [Option.some.injEq, Prod.mk.injEq]
      cases hp : libs.parse w'.files c.file with
      | error e =>
        simp only [reduceCtorEq, false_iff]
        rintro ⟨_, _, book, ⟨rfl, rfl⟩, h⟩
        rw [hp] at h; cases h
      | ok book => exact ⟨fun _ => ⟨dest, w', book, ⟨rfl, rfl⟩, hp⟩, fun _ => rfl⟩
  · intro c
    unfold EvalCmd.run
    have e : (if c.output ≠ [] then c.output else b!"-") = (if c.output = [] then b!"-" else c.output) := by
      by_cases h : c.output = [] <;> simp [h]
    rw [e]
    cases ho : openOutput os (if c.output = [] then b!"-" else c.output) w with
    | none => simp
    | some p =>
      obtain ⟨dest, w'⟩ := p
      simp only [Option.some.injEq, Prod.mk.injEq]
      cases hp : libs.eval w'.files c.file (c.useColor terminal dest) with
      | error e =>
        simp only [reduceCtorEq, false_iff]
        rintro ⟨_, _, text, ⟨rfl, rfl⟩, h, _⟩
        rw [hp] at h; cases h
      | ok text =>
        simp only [hw]
        constructor
        · intro h
          cases hh : (os.write text).2 with
          | false => exact ⟨dest, w', text, ⟨rfl, rfl⟩, hp, hh⟩
          | true => simp [hh] at h
        · rintro ⟨_, _, text', ⟨rfl, rfl⟩, h, hh⟩
          rw [hp] at h
          cases h
          simp [hh]
  · intro db output
    unfold runInspect
    cases db with
    | error e => simp
    | ok text =>
      simp only
      cases ho : openOutput os (if output = [] then b!"-" else output) w with
      | none => simp
      | some p =>
        obtain ⟨dest, w'⟩ := p
        simp only [hw]
        cases hh : (os.write text).2 <;> simp [hh]
  · intro output
    unfold openOutput openTrunc
    by_cases h : output = b!"-"
    · simp [h]
    · cases hf : os.openFails output <;> simp [h]

/-- `runbook eval` succeeds where the write does, and only there. -/
example : ∀ fails : Bool, (EvalCmd.run { openFails := fun _ => false, write := fun t => (t, fails) }
      { sampleLibs with eval := fun _ _ _ => .ok b!"{}" } (fun _ => false)
      { file := b!"a", output := b!"out" } { files := fun _ => none }).2 = .success ↔ fails = false := by
  intro fails
  cases fails <;> decide

end Verif.Cmd
