import Verif.Json.Spec

/-!
# Files that differ in passwords only

The words of C129. Nothing here refers to a function of the model.
-/

namespace Verif.Json.Secret
open Verif Json Spec Book

/-- The members have the same keys in the same order; their values are equal, or as `R` says. -/
def Pairs (R : Str → Value → Value → Prop) (ms ms' : List (Str × Value)) : Prop :=
  List.Forall₂ (fun p p' => p.1 = p'.1 ∧ (p.2 = p'.2 ∨ R p.1 p.2 p'.2)) ms ms'

/-- Objects of such members. -/
def Objects (R : Str → Value → Value → Prop) (v v' : Value) : Prop :=
  ∃ ms ms', v = .obj ms ∧ v' = .obj ms' ∧ Pairs R ms ms'

/-- Two passwords, neither of them empty. -/
def Passwords (key : Str) (v v' : Value) : Prop :=
  Spells b!"Password" key ∧ ∃ s s', v = .str s ∧ v' = .str s' ∧ s ≠ [] ∧ s' ≠ []

/-- Configs of targets that differ in the password. -/
def Configs : Value → Value → Prop := Objects Passwords

/-- Targets that differ in the password. -/
def Targets : Value → Value → Prop := Objects fun key v v' => Spells b!"Config" key ∧ Configs v v'

/-- Runbook files that differ in passwords of targets. -/
def Files : Value → Value → Prop :=
  Objects fun key v v' => Spells b!"Targets" key ∧ Objects (fun _ => Targets) v v'

/-! ## What they are read as -/

/-- The targets differ in the password only. -/
inductive SameTarget : Target → Target → Prop
  | refl (t : Target) : SameTarget t t
  | pg (t : PgTarget) (p : Str) : t.password ≠ [] → p ≠ [] →
      SameTarget (.pg t) (.pg { t with password := p })

/-- Maps with the same keys in the same order and related values. -/
def Maps {V V' : Type} (Q : V → V' → Prop) (m : GoMap Str V) (m' : GoMap Str V') : Prop :=
  List.Forall₂ (fun p p' => p.1 = p'.1 ∧ Q p.2 p'.2) m m'

/-- Runbooks that differ in passwords only. -/
def SameBook (book book' : Runbook) : Prop :=
  Maps SameTarget book.targets book'.targets ∧ book.tasks = book'.tasks

end Verif.Json.Secret
