import Verif.Main.Examples
import Verif.Sql.SameProps

/-!
# C119: two runs of `pgutil inspect` leave the same text
-/

namespace Verif.Main
open Verif Cmd Spec Sql

variable {F N : Type} {env : Env F N}

theorem inspect_left (hos : Honest env.os) (c : InspectCmd) (message : Str) (w : World)
    (h : (main env message (some (.inspect c)) w).2 = 0) :
    ∃ d, Pg.inspect env.parseFloat env.sort (env.serve 0) c.sort = .ok d ∧
      Left c.output (env.print (Hcl.write env.hcl (Hcl.ofInspect d))) w
        (main env message (some (.inspect c)) w).1 := by
  have hr : (c.run env w).result = .ok := by
    simp only [main, Command.run, finish] at h
    split at h <;> simp_all
  have hm : (main env message (some (.inspect c)) w).1 = (c.run env w).world := by
    simp [main, Command.run, finish, hr]
  rw [hm]
  unfold InspectCmd.run at hr ⊢
  rcases withConn_cases env c.server w _ with ⟨h1, _⟩ | ⟨e, cfg, h1, h2, h3, h4⟩
  · rw [hr] at h1; cases h1
  · rw [h4] at hr ⊢
    simp only at hr ⊢
    cases hi : Pg.inspect env.parseFloat env.sort (env.serve 0) c.sort with
    | error e =>
      rw [hi] at hr
      simp [runInspect, End.ofExit] at hr
    | ok d =>
      rw [hi] at hr
      simp only at hr ⊢
      have hx : (runInspect env.os (.ok (env.print (Hcl.write env.hcl (Hcl.ofInspect d)))) c.output w).2
          = .success := by
        revert hr
        cases (runInspect env.os (.ok (env.print (Hcl.write env.hcl (Hcl.ofInspect d)))) c.output w).2 with
        | success => simp
        | failure => simp [End.ofExit]
      obtain ⟨text, ht, hleft⟩ := runInspect_success hos hx
      cases ht
      exact ⟨d, rfl, hleft⟩

/-- C119 for the command, the part that holds: two runs of `pgutil inspect` with the same options for the
order, over connections to servers that hold the same database, in sessions with the same settings, that
both exit with status 0, leave the same text, byte for byte; whichever flags name the server and the
output. What is missing: as in `C119_same_partial`. -/
theorem C119_file_partial (env : Env F N) (libpq' : Except Unit Pg.ConnConfig) (accepts' : Nat → Bool)
    (serve' : Nat → Pg.Catalog) (os' : Os) (hos : Honest env.os) (hos' : Honest os')
    (db : Db) (hw : db.WF) (he : Enforced db) (hf : FunctionsAlike db) (hk : ForeignKeysApart db)
    (hs : ∀ i, Serves db (env.serve i)) (hs' : ∀ i, Serves db (serve' i))
    (hu : ∀ i, Steady (env.serve i)) (hu' : ∀ i, Steady (serve' i))
    (hp : ∀ i j, (env.serve i).listParameters = (serve' j).listParameters)
    (c c' : InspectCmd) (hc : c.sort = c'.sort) (message message' : Str) (w w' : World)
    (h : (main env message (some (.inspect c)) w).2 = 0)
    (h' : (main { env with libpq := libpq', accepts := accepts', serve := serve', os := os' } message'
      (some (.inspect c')) w').2 = 0) :
    ∃ text, Left c.output text w (main env message (some (.inspect c)) w).1 ∧
      Left c'.output text w' (main { env with libpq := libpq', accepts := accepts', serve := serve', os := os' }
        message' (some (.inspect c')) w').1 := by
  obtain ⟨d, h1, h2⟩ := inspect_left hos c message w h
  obtain ⟨d', h1', h2'⟩ := inspect_left hos' c' message' w' h'
  simp only [← hc] at h1'
  obtain rfl := C119_same_partial env.parseFloat env.sort db hw he hf hk _ _ (hs 0) (hs' 0) (hu 0) (hu' 0)
    (hp 0 0) c.sort d d' h1 h1'
  exact ⟨_, h2, h2'⟩

/-- The hypotheses of C119 are met: two servers that answer in different orders. -/
example : Honest shopEnv.os ∧ shopOnce.WF ∧ Enforced shopOnce ∧ FunctionsAlike shopOnce ∧
    ForeignKeysApart shopOnce ∧ Serves shopOnce (serve shopOnce) ∧ Serves shopOnce shopOnceOther ∧
    Steady (serve shopOnce) ∧ Steady shopOnceOther ∧
    (serve shopOnce).listParameters = shopOnceOther.listParameters ∧
    (main { shopEnv with serve := fun _ => serve shopOnce } b!"no" (some (.inspect { output := b!"a.hcl" }))
      { files := fun _ => none }).2 = 0 ∧
    (main { shopEnv with serve := fun _ => shopOnceOther } b!"no" (some (.inspect { output := b!"b.hcl" }))
      { files := fun _ => none }).2 = 0 := by
  refine ⟨fun _ _ => rfl, shopOnce_wf, shopOnce_enforced, shopOnce_alike, shopOnce_apart,
    serve_serves _, (serve_serves _).optionsReversed, serve_steady _, (serve_steady _).optionsReversed, by decide +kernel,
    ?_, ?_⟩ <;>
  · simp only [main, Command.run, InspectCmd.run, withConn]
    decide +kernel

end Verif.Main
