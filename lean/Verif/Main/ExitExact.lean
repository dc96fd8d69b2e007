import Verif.Main.Exit

/-!
# C96, exactly: what a failing write does to the exit status
-/

namespace Verif.Main
open Verif Cmd Spec

variable {F N : Type}

/-- The same surroundings, but every write succeeds. -/
def Env.writing (env : Env F N) : Env F N := { env with os := { env.os with write := fun t => (t, false) } }

/-- The output of the commands that look at the result of writing it. -/
def watched : Command → Option Str
  | .inspect c => some c.output
  | .eval c => some c.output
  | _ => none

/-! ## Lemmas -/

theorem openOutput_write (os : Os) (f : Str → Str × Bool) (output : Str) (w : World) :
    openOutput { os with write := f } output w = openOutput os output w := rfl

theorem left_unique {output text text' : Str} {w w' : World} (h : Left output text w w') (h' : Left output text' w w') :
    text = text' := by
  unfold Left at h h'
  split at h
  · rename_i hc
    rw [if_pos hc] at h'
    exact List.append_cancel_left (h.1.symm.trans h'.1)
  · rename_i hc
    rw [if_neg hc] at h'
    exact Option.some.inj (h.1.symm.trans h'.1)

theorem finish_code (os os' : Os) (message : Str) (r : End) (w w' : World) :
    (finish os message r w).2 = (finish os' message r w').2 := by cases r <;> rfl

/-- Writing the result of `inspect` or `eval`. -/
theorem written (os : Os) (output text : Str) (w : World) (dest : Writer) (w1 : World)
    (h : openOutput os (if output = [] then b!"-" else output) w = some (dest, w1)) :
    Left output text w (write { os with write := fun t => (t, false) } dest text w1).1 := by
  rcases openOutput_cases { os with write := fun t => (t, false) } output w with ⟨d, w2, h1, -, -, h4⟩ | ⟨h1, -⟩
  · rw [openOutput_write, h] at h1
    obtain ⟨rfl, rfl⟩ := Prod.mk.inj (Option.some.inj h1)
    exact h4 text fun _ => rfl
  · rw [openOutput_write, h] at h1
    cases h1

/-! ## C96 -/

/-- **C96, exactly.** Let `code'` be the exit status if every write succeeded, for which C96 holds
(`C96_exit_status_partial`). `inspect` and `runbook eval` exit with status 0 if and only if `code'` is 0 and writing the
result succeeds. The other commands exit with `code'` whether or not writing succeeds. There is no other status than 0
and 1. -/
theorem C96_exact (env : Env F N) (message : Str) (c : Command) (w w1 w' : World) (code code' : Nat)
    (h : main env message (some c) w = (w1, code)) (h' : main env.writing message (some c) w = (w', code')) :
    (watched c = none → code = code') ∧
    (∀ output, watched c = some output →
      (code = 0 ↔ code' = 0 ∧ ∃ text, Left output text w w' ∧ (env.os.write text).2 = false)) ∧
    (code = 0 ∨ code = 1) := by
  obtain rfl : code = (main env message (some c) w).2 := by rw [h]
  obtain rfl : code' = (main env.writing message (some c) w).2 := by rw [h']
  obtain rfl : w' = (main env.writing message (some c) w).1 := by rw [h']
  clear h h' w1
  -- the end of a command that writes `text` after opening its output
  have fin : ∀ (output text : Str) (dest : Writer) (w2 : World),
      openOutput env.os (if output = [] then b!"-" else output) w = some (dest, w2) →
      let p := write env.os dest text w2
      let p' := write env.writing.os dest text w2
      let r := finish env.os message (.ofExit (if p.2 then .failure else .success)) p.1
      let r' := finish env.writing.os message (.ofExit (if p'.2 then .failure else .success)) p'.1
      (r.2 = 0 ↔ r'.2 = 0 ∧ ∃ text, Left output text w r'.1 ∧ (env.os.write text).2 = false) ∧ (r.2 = 0 ∨ r.2 = 1) := by
    intro output text dest w2 ho
    have hl := written env.os output text w dest w2 ho
    have e' : (write env.writing.os dest text w2).2 = false := by cases dest <;> rfl
    have e : (write env.os dest text w2).2 = (env.os.write text).2 := by cases dest <;> rfl
    simp only [e, e']
    refine ⟨?_, by cases (env.os.write text).2 <;> simp [finish, End.ofExit]⟩
    constructor
    · intro hr
      refine ⟨rfl, text, hl, ?_⟩
      cases hb : (env.os.write text).2 with
      | false => rfl
      | true => rw [hb] at hr; cases hr
    · rintro ⟨-, t, ht, hb⟩
      rw [left_unique hl ht, hb]
      rfl
  have fail : ∀ (a b : World) (P : Prop), ((finish env.os message .failed a).2 = 0 ↔
      (finish env.writing.os message .failed b).2 = 0 ∧ P) ∧
      ((finish env.os message .failed a).2 = 0 ∨ (finish env.os message .failed a).2 = 1) := fun a b P => by simp [finish]
  have conn : ∀ s : Server, (∃ e, (Pg.new env.libpq env.accepts s.options).2 = .err e) ∨
      ∃ i, (Pg.new env.libpq env.accepts s.options).2 = .conn i := by
    intro s
    rcases new_once env.libpq env.accepts s with ⟨e, h⟩ | ⟨e, cfg, -, -, h⟩
    · exact .inl ⟨e, by rw [h]⟩
    · rw [h]
      cases env.accepts 0 <;> simp
  cases c with
  | ping s =>
    refine ⟨fun _ => ?_, fun _ h => (by cases h), ?_⟩ <;>
      simp only [main, Command.run, ping, withConn, Env.writing] <;>
      rcases conn s with ⟨e, he⟩ | ⟨i, hi⟩
    · rw [he]; rfl
    · rw [hi]; simp only; cases env.version i <;> rfl
    · rw [he]; exact .inr rfl
    · rw [hi]; simp only; cases env.version i <;> simp [finish]
  | inspect c =>
    refine ⟨fun h => (by cases h), ?_⟩
    suffices hs : ((main env message (some (.inspect c)) w).2 = 0 ↔ (main env.writing message (some (.inspect c)) w).2 = 0 ∧
        ∃ text, Left c.output text w (main env.writing message (some (.inspect c)) w).1 ∧ (env.os.write text).2 = false) ∧
        ((main env message (some (.inspect c)) w).2 = 0 ∨ (main env message (some (.inspect c)) w).2 = 1) by
      exact ⟨fun o ho => by cases ho; exact hs.1, hs.2⟩
    have e : (Pg.new env.writing.libpq env.writing.accepts c.server.options) = Pg.new env.libpq env.accepts c.server.options := rfl
    have e2 : ∀ i d, env.writing.print (Hcl.write env.writing.hcl (Hcl.ofInspect d)) =
      env.print (Hcl.write env.hcl (Hcl.ofInspect d)) := fun (i : Nat) d => rfl
    have e3 : ∀ i, Pg.inspect env.writing.parseFloat env.writing.sort (env.writing.serve i) c.sort =
      Pg.inspect env.parseFloat env.sort (env.serve i) c.sort := fun i => rfl
    simp only [main, Command.run, InspectCmd.run, withConn, e, e3]
    rcases conn c.server with ⟨e, he⟩ | ⟨i, hi⟩
    · rw [he]; exact fail _ _ _
    · rw [hi]
      simp only
      cases Pg.inspect env.parseFloat env.sort (env.serve i) c.sort with
      | error => exact fail _ _ _
      | ok d =>
        simp only [runInspect]
        have e4 : openOutput env.writing.os (if c.output = [] then b!"-" else c.output) w =
          openOutput env.os (if c.output = [] then b!"-" else c.output) w := rfl
        rw [e4]
        cases ho : openOutput env.os (if c.output = [] then b!"-" else c.output) w with
        | none => exact fail _ _ _
        | some p => exact fin c.output _ p.1 p.2 ho
  | list file =>
    refine ⟨fun _ => ?_, fun _ h => (by cases h), ?_⟩ <;>
      simp only [main, Command.run, runbookList, Env.writing] <;> cases env.libs.parse w.files file <;> simp [finish]
  | dot c =>
    have e4 : openOutput env.writing.os c.target w = openOutput env.os c.target w := rfl
    refine ⟨fun _ => ?_, fun _ h => (by cases h), ?_⟩ <;> simp only [main, Command.run, DotCmd.run, e4] <;>
      cases openOutput env.os c.target w with
      | none => simp [finish, End.ofExit]
      | some p =>
        simp only [show env.writing.libs = env.libs from rfl]
        cases env.libs.parse p.2.files c.file <;> simp [finish, End.ofExit]
  | eval c =>
    refine ⟨fun h => (by cases h), ?_⟩
    suffices hs : ((main env message (some (.eval c)) w).2 = 0 ↔ (main env.writing message (some (.eval c)) w).2 = 0 ∧
        ∃ text, Left c.output text w (main env.writing message (some (.eval c)) w).1 ∧ (env.os.write text).2 = false) ∧
        ((main env message (some (.eval c)) w).2 = 0 ∨ (main env message (some (.eval c)) w).2 = 1) by
      exact ⟨fun o ho => by cases ho; exact hs.1, hs.2⟩
    have e : (if c.output ≠ [] then c.output else b!"-") = if c.output = [] then b!"-" else c.output := by
      by_cases h : c.output = [] <;> simp [h]
    have e4 : openOutput env.writing.os (if c.output = [] then b!"-" else c.output) w =
      openOutput env.os (if c.output = [] then b!"-" else c.output) w := rfl
    simp only [main, Command.run, EvalCmd.run, e, e4]
    cases ho : openOutput env.os (if c.output = [] then b!"-" else c.output) w with
    | none => exact fail _ _ _
    | some p =>
      simp only [show env.writing.libs = env.libs from rfl, show env.writing.terminal = env.terminal from rfl]
      cases env.libs.eval p.2.files c.file (c.useColor env.terminal p.1) with
      | error => exact fail _ _ _
      | ok text => exact fin c.output text p.1 p.2 ho
  | version build long => exact ⟨fun _ => rfl, fun _ h => (by cases h), .inl rfl⟩

/-- `inspect` with an output that cannot be written, and `version` likewise. -/
example (message : Str) (w : World) :
    let env : Env Int Int := { shopEnv with os := { openFails := fun _ => false, write := fun _ => ([], true) } }
    (main env message (some (.version b!"1" false)) w).2 = 0 ∧
    ((main env message (some (.inspect {})) w).2 = 0 ↔ False) := by
  intro env
  refine ⟨?_, ?_⟩
  · exact (C96_exact env message (.version b!"1" false) w _ _ _ _ rfl rfl).1 rfl
  · refine ⟨fun h => ?_, False.elim⟩
    obtain ⟨-, _, -, hw⟩ := ((C96_exact env message (.inspect {}) w _ _ _ _ rfl rfl).2.1 [] rfl).mp h
    cases hw

end Verif.Main
