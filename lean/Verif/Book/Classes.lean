import Verif.Book.Spec
import Verif.Sh.Props

/-!
# The methods of the target classes agree with the tables of the specification
-/

namespace Verif.Book
open Verif Spec

theorem newTarget_iff {basedir class_ : Str} {t : Target} :
    newTarget basedir class_ = some t ↔ Fresh basedir class_ t := by
  unfold newTarget
  constructor
  · intro h
    split at h
    · rename_i hc; subst hc; obtain rfl := Option.some.inj h; exact .pg
    split at h
    · rename_i hc; subst hc; obtain rfl := Option.some.inj h; exact .sh
    split at h
    · rename_i hc; subst hc; obtain rfl := Option.some.inj h; exact .demo
    · cases h
  · intro h
    cases h <;> rfl

theorem analyze_iff {t : Target} : t.analyze = none ↔ Concurrent t := by
  constructor
  · intro h
    cases t with
    | pg t =>
      simp only [Target.analyze] at h
      split at h
      · cases h
      · exact .pg (by omega)
    | sh t =>
      simp only [Target.analyze] at h
      split at h
      · cases h
      · exact .sh (by omega)
    | demo t => exact .demo
  · intro h
    cases h with
    | pg h => rw [Target.analyze, if_neg (by omega)]
    | sh h => rw [Target.analyze, if_neg (by omega)]
    | demo => rfl

theorem concurrencyLimit_pos {t : Target} (h : Concurrent t) : 1 ≤ t.concurrencyLimit := by
  cases h with
  | pg h => exact h
  | sh h => exact h
  | demo => exact Int.le_refl 1

theorem newTaskConfig_iff {t : Target} {cls : Str} {c : Config} :
    t.newTaskConfig cls = .ok c ↔ Offers t cls c := by
  constructor
  · intro h
    cases t with
    | pg t =>
      simp only [Target.newTaskConfig] at h
      split at h
      · rename_i hc
        obtain rfl := Except.ok.inj h
        rcases hc with rfl | rfl
        · exact .pgDefault
        · exact .pgExec
      · cases h
    | sh t =>
      simp only [Target.newTaskConfig] at h
      split at h
      · rename_i hc
        obtain rfl := Except.ok.inj h
        rcases hc with rfl | rfl
        · exact .shDefault
        · exact .shExec
      · cases h
    | demo t =>
      simp only [Target.newTaskConfig] at h
      split at h
      · rename_i hc; subst hc; obtain rfl := Except.ok.inj h; exact .echo
      split at h
      · rename_i hc; subst hc; obtain rfl := Except.ok.inj h; exact .fail
      split at h
      · rename_i hc; subst hc; obtain rfl := Except.ok.inj h; exact .rev
      split at h
      · rename_i hc; subst hc; obtain rfl := Except.ok.inj h; exact .rot13
      split at h
      · rename_i hc; subst hc; obtain rfl := Except.ok.inj h; exact .sleep
      · cases h
  · intro h
    cases h <;> rfl

theorem check_iff {c c' : Config} : c.check = .ok c' ↔ Checked c c' := by
  constructor
  · intro h
    cases c with
    | pgExec sql =>
      simp only [Config.check] at h
      split at h
      · cases h
      · rename_i hs; obtain rfl := Except.ok.inj h; exact .pgExec hs
    | shExec x =>
      simp only [Config.check] at h
      split at h
      · cases h
      · rename_i hx
        obtain rfl := Except.ok.inj h
        obtain ⟨arg0, rest, ha, hp⟩ := (Sh.C31_check_exact x).mp hx
        obtain ⟨args, env⟩ := x
        simp only at ha
        subst ha
        exact .shExec hp
    | echo => obtain rfl := Except.ok.inj h; exact .echo
    | fail => obtain rfl := Except.ok.inj h; exact .fail
    | rev => obtain rfl := Except.ok.inj h; exact .rev
    | rot13 => obtain rfl := Except.ok.inj h; exact .rot13
    | sleep x =>
      obtain ⟨n⟩ := x
      simp only [Config.check, Demo.Sleep.check] at h
      obtain rfl := Except.ok.inj h
      split
      · rename_i hn; exact .noSleep hn
      · rename_i hn; exact .sleep (Int64.not_lt.mp hn)
  · intro h
    cases h with
    | pgExec hs => simp [Config.check, hs]
    | @shExec arg0 rest env hp =>
      have : (⟨arg0 :: rest, env⟩ : Sh.Exec).check = none :=
        (Sh.C31_check_exact _).mpr ⟨arg0, rest, rfl, hp⟩
      simp [Config.check, this]
    | sleep hn =>
      simp only [Config.check, Demo.Sleep.check]
      rw [if_neg (Int64.not_lt.mpr hn)]
    | noSleep hn =>
      simp only [Config.check, Demo.Sleep.check]
      rw [if_pos hn]
    | _ => rfl

/-- In terms of the methods. -/
theorem targetOf_iff {dec : Decoder} {basedir : Str} {w : TargetSrc} {t : Target} :
    TargetOf dec basedir w t ↔ ∃ t0, newTarget basedir w.class_ = some t0 ∧
      Decoded dec.target w.config t0 t ∧ t.analyze = none := by
  simp only [TargetOf, newTarget_iff, analyze_iff]

/-- In terms of the methods. -/
theorem taskOf_iff {dec : Decoder} {has : Str → Target → Prop} {w : TaskSrc} {t : Task} :
    TaskOf dec has w t ↔ ∃ cls tgt c0 c1, RefersTo w.target t.target cls ∧ has t.target tgt ∧
      tgt.newTaskConfig cls = .ok c0 ∧ Decoded dec.config w.config c0 c1 ∧ c1.check = .ok t.config ∧
      t.after = w.after ∧ t.message = w.message := by
  simp only [TaskOf, newTaskConfig_iff, check_iff]

end Verif.Book
