import Verif.Run.DbRuns
import Verif.Pg.EnvProps

/-!
# C117: the PG* variables in the runs of a runbook
-/

namespace Verif.Run
open Verif Book Spec

variable {dec : Decoder} {basedir : Str} {proc : Proc} {src : Src} {book : Runbook}
  {st : Runner.St} {w : World}

/-- C117, for the runs of a file: where a target has no setting of its own the variable of the process
counts; a password makes the connection one that verifies the host, and without a password and an
`sslmode` the transports are those of PGSSLMODE, for the host PGHOST names. -/
theorem C117_runs (hj : Json dec) (hw1 : src.targets.WF) (hw2 : src.tasks.WF)
    (hl : proc.libpq = Pg.parseEnvLibpq proc.environ)
    (h : Reach dec basedir proc src (.running book st w)) :
    ∀ q cfg ok, (q, .connect cfg ok) ∈ w.net → ∃ t, (q, .pg t) ∈ book.targets ∧
      (∃ v, Pg.Spec.Var proc.environ b!"PGHOST" v ∧ Pg.Chosen [] t.host v cfg.host) ∧
      (∃ v p, Pg.Spec.Var proc.environ b!"PGPORT" v ∧ Pg.Spec.PortText v p ∧ Pg.Chosen 0 t.port p cfg.port) ∧
      (∃ v, Pg.Spec.Var proc.environ b!"PGUSER" v ∧ Pg.Chosen [] t.username v cfg.user) ∧
      (∃ v, Pg.Spec.Var proc.environ b!"PGPASSWORD" v ∧ Pg.Chosen [] t.password v cfg.password) ∧
      (∃ v, Pg.Spec.Var proc.environ b!"PGDATABASE" v ∧ Pg.Chosen [] t.database v cfg.database) ∧
      (t.sslmode = [] → ∃ m v, Pg.Spec.Var proc.environ b!"PGSSLMODE" m ∧
        Pg.Spec.Var proc.environ b!"PGHOST" v ∧
        (cfg.password = [] → Pg.Spec.ModeTries v m cfg.transports) ∧
        (cfg.password ≠ [] → cfg.transports = [some { serverName := cfg.host }])) := by
  intro q cfg ok hm
  rw [← mem_netOf] at hm
  rcases (h.ninv hj hw1 hw2).cases q with e | ⟨t, ok', ht, e⟩
  · rw [e] at hm; simp at hm
  · rw [e, hl] at hm
    have hc : cfg ∈ Pg.configs (Pg.new (Pg.parseEnvLibpq proc.environ) ok' (options t)).1 :=
      List.mem_filterMap.mpr ⟨_, hm, rfl⟩
    obtain ⟨h1, h2, h3, h4, h5⟩ := Pg.C117_values proc.environ ok' (options t) cfg hc
    exact ⟨t, GoMap.mem_of_get? ht, h1, h2, h3, h4, h5,
      fun hs => Pg.C117_transports proc.environ ok' (options t) hs cfg hc⟩

/-- A run that connects with a user and a mode from the environment. -/
example : ∃ (proc : Proc) (st : Runner.St) (w : World), proc.libpq = Pg.parseEnvLibpq proc.environ ∧
    Reach (pgConfig 0) b!"/" proc dbSrc (.running (dbBook 0) st w) ∧
    w.net = [(b!"x", .connect { host := b!"db", user := b!"u", tls := some { insecureSkipVerify := true } } true)] := by
  obtain ⟨proc, hp⟩ : ∃ proc : Proc, proc = ⟨[b!"PGUSER=u", b!"PGSSLMODE=require"],
    Pg.parseEnvLibpq [b!"PGUSER=u", b!"PGSSLMODE=require"], 1000⟩ := ⟨_, rfl⟩
  have hl : proc.libpq = .ok { user := b!"u", tls := some { insecureSkipVerify := true } } := by
    subst hp; decide +kernel
  have hs : start proc (fun _ => true) (.pg (dbTarget 0)) =
      ([.connect { host := b!"db", user := b!"u", tls := some { insecureSkipVerify := true } } true],
        some (.pg (dbTarget 0), some true)) := by
    have hc : Pg.configure { user := b!"u", tls := some { insecureSkipVerify := true } } (options (dbTarget 0)) =
        .ok { host := b!"db", user := b!"u", tls := some { insecureSkipVerify := true } } := by decide +kernel
    have hn : Pg.new proc.libpq (fun _ => true) (options (dbTarget 0)) =
        ([.connect { host := b!"db", user := b!"u", tls := some { insecureSkipVerify := true } } true],
          .conn 0) := by
      rw [hl, Pg.new_loop _ hc]
      simp [Pg.connectLoop, options, dbTarget]
    simp [start, hn]
  have r0 : Reach (pgConfig 0) b!"/" proc dbSrc (.running (dbBook 0) _ _) :=
    Reach.start (db_parse 0) (by subst hp; exact (show (2 : Int) ≤ 1000 by decide)) [b!"x"] (List.Perm.refl _)
  exact ⟨proc, _, _, (by subst hp; rfl), Reach.act r0 (Act.started b!"x" [] _ _ _ _ _ rfl rfl hs), rfl⟩

end Verif.Run
