import Verif.Pg.Env
import Verif.Pg.EnvSpec
import Verif.Pg.ConnectProps
import Verif.Sh.ProgramProps

/-!
# C117: the PG* variables are obeyed
-/

namespace Verif.Pg
open Verif Spec

section lemmas

theorem var_getenv {k : Str} (hk : Sh.Spec.Name k) (env : List Str) : Var env k (Sh.getenv k env) := by
  rcases Sh.getenv_spec hk env with ⟨v, h1, h2⟩ | ⟨h1, h2⟩
  · exact .inl (h2 ▸ h1)
  · exact .inr ⟨h2, h1⟩

theorem var_unique {env : List Str} {k v w : Str} (h1 : Var env k v) (h2 : Var env k w) : v = w := by
  rcases h1 with h1 | ⟨h1, h1'⟩ <;> rcases h2 with h2 | ⟨h2, h2'⟩
  · exact Sh.lookupFirst_unique h1 h2
  · exact absurd h1 (h2' v)
  · exact absurd h2 (h1' w)
  · rw [h1, h2]

theorem envPort_iff (v : Str) (p : UInt16) : envPort v = .ok p ↔ PortText v p := by
  unfold envPort PortText
  by_cases hv : v = []
  · subst hv
    simp only [if_true, true_and, Except.ok.injEq]
    constructor
    · rintro rfl; exact .inl rfl
    · rintro (rfl | ⟨n, -, h, -⟩)
      · rfl
      · exact absurd rfl (Ddl.numeral_iff.1 h).1
  · simp only [hv, if_false, false_and, false_or]
    constructor
    · intro h
      split at h
      · rename_i hd
        cases h
        exact ⟨_, hd.2, Ddl.numeral_iff.2 ⟨hv, hd.1, rfl⟩, rfl⟩
      · cases h
    · rintro ⟨n, hn, h, rfl⟩
      obtain ⟨-, h2, rfl⟩ := Ddl.numeral_iff.1 h
      rw [if_pos ⟨h2, hn⟩]

theorem configTLS_ok {cfg cfg' : ConnConfig} {m : Str} (h : configTLS cfg m = .ok cfg') :
    cfg'.host = cfg.host ∧ cfg'.port = cfg.port ∧ cfg'.user = cfg.user ∧
      cfg'.password = cfg.password ∧ cfg'.database = cfg.database ∧
      ModeTries cfg.host m cfg'.transports ∧ (m = [] ∨ m ∈ envModes) := by
  unfold configTLS at h
  simp only at h
  by_cases hm : m = []
  · subst hm
    simp only [if_true] at h
    rw [if_neg (by decide), if_neg (by decide)] at h
    cases h
    exact ⟨rfl, rfl, rfl, rfl, rfl, .unset, .inl rfl⟩
  · simp only [if_neg hm] at h
    split at h
    · rename_i e; subst e; cases h; exact ⟨rfl, rfl, rfl, rfl, rfl, .disable, .inr (by simp [envModes])⟩
    split at h
    · rename_i e; subst e; cases h; exact ⟨rfl, rfl, rfl, rfl, rfl, .allow, .inr (by simp [envModes])⟩
    split at h
    · rename_i e; subst e; cases h; exact ⟨rfl, rfl, rfl, rfl, rfl, .prefer, .inr (by simp [envModes])⟩
    split at h
    · rename_i e; subst e; cases h; exact ⟨rfl, rfl, rfl, rfl, rfl, .require, .inr (by simp [envModes])⟩
    split at h
    · rename_i e
      cases h
      rcases e with e | e <;> subst e
      · exact ⟨rfl, rfl, rfl, rfl, rfl, .verifyCa, .inr (by simp [envModes])⟩
      · exact ⟨rfl, rfl, rfl, rfl, rfl, .verifyFull, .inr (by simp [envModes])⟩
    · cases h

theorem configTLS_total (cfg : ConnConfig) {m : Str} (h : m = [] ∨ m ∈ envModes) :
    ∃ c, configTLS cfg m = .ok c := by
  rcases h with rfl | h
  · exact ⟨_, rfl⟩
  · simp only [envModes, List.mem_cons, List.not_mem_nil, or_false] at h
    rcases h with rfl | rfl | rfl | rfl | rfl | rfl <;> exact ⟨_, rfl⟩

theorem name_host : Sh.Spec.Name b!"PGHOST" := ⟨by decide, by decide⟩
theorem name_port : Sh.Spec.Name b!"PGPORT" := ⟨by decide, by decide⟩
theorem name_user : Sh.Spec.Name b!"PGUSER" := ⟨by decide, by decide⟩
theorem name_password : Sh.Spec.Name b!"PGPASSWORD" := ⟨by decide, by decide⟩
theorem name_database : Sh.Spec.Name b!"PGDATABASE" := ⟨by decide, by decide⟩
theorem name_sslmode : Sh.Spec.Name b!"PGSSLMODE" := ⟨by decide, by decide⟩

/-- What is read from the environment. -/
theorem parseEnv_ok {environ : List Str} {e : ConnConfig} (h : parseEnvLibpq environ = .ok e) :
    Var environ b!"PGHOST" e.host ∧ (∃ v, Var environ b!"PGPORT" v ∧ PortText v e.port) ∧
      Var environ b!"PGUSER" e.user ∧ Var environ b!"PGPASSWORD" e.password ∧
      Var environ b!"PGDATABASE" e.database ∧
      ∃ m, Var environ b!"PGSSLMODE" m ∧ (m = [] ∨ m ∈ envModes) ∧ ModeTries e.host m e.transports := by
  unfold parseEnvLibpq at h
  split at h
  · cases h
  · rename_i port hp
    obtain ⟨h1, h2, h3, h4, h5, h6, h7⟩ := configTLS_ok h
    simp only at h1 h2 h3 h4 h5 h6
    refine ⟨h1 ▸ var_getenv name_host _, ⟨_, var_getenv name_port _, ?_⟩, h3 ▸ var_getenv name_user _,
      h4 ▸ var_getenv name_password _, h5 ▸ var_getenv name_database _, _, var_getenv name_sslmode _, h7, ?_⟩
    · rw [h2]; exact (envPort_iff _ _).1 hp
    · rw [h1]; exact h6

theorem parseEnv_readable (environ : List Str) : (∃ e, parseEnvLibpq environ = .ok e) ↔ Readable environ := by
  constructor
  · rintro ⟨e, h⟩
    obtain ⟨-, ⟨v, hv, hp⟩, -, -, -, m, hm, hmem, -⟩ := parseEnv_ok h
    exact ⟨⟨v, _, hv, hp⟩, m, hm, hmem⟩
  · rintro ⟨⟨v, p, hv, hp⟩, m, hm, hmem⟩
    have e1 := var_unique hv (var_getenv name_port environ)
    have e2 := var_unique hm (var_getenv name_sslmode environ)
    subst e1 e2
    unfold parseEnvLibpq
    rw [(envPort_iff _ _).2 hp]
    exact configTLS_total _ hmem

theorem new_env_configs {environ : List Str} {ok : Nat → Bool} {o : Options} {c : ConnConfig}
    (h : c ∈ configs (new (parseEnvLibpq environ) ok o).1) : ∃ e, parseEnvLibpq environ = .ok e := by
  cases he : parseEnvLibpq environ with
  | error u => rw [he] at h; simp [new, configs] at h
  | ok e => exact ⟨e, rfl⟩

end lemmas

/-- C117. Host, port, user, password and database of every connection attempt are the option where it is
given, and the variable PGHOST, PGPORT, PGUSER, PGPASSWORD or PGDATABASE where it is not. -/
theorem C117_values (environ : List Str) (ok : Nat → Bool) (o : Options) :
    ∀ c ∈ configs (new (parseEnvLibpq environ) ok o).1,
      (∃ v, Var environ b!"PGHOST" v ∧ Chosen [] o.host v c.host) ∧
      (∃ v p, Var environ b!"PGPORT" v ∧ PortText v p ∧ Chosen 0 o.port p c.port) ∧
      (∃ v, Var environ b!"PGUSER" v ∧ Chosen [] o.username v c.user) ∧
      (∃ v, Var environ b!"PGPASSWORD" v ∧ Chosen [] o.password v c.password) ∧
      ∃ v, Var environ b!"PGDATABASE" v ∧ Chosen [] o.database v c.database := by
  intro c hc
  obtain ⟨e, he⟩ := new_env_configs hc
  rw [he] at hc
  obtain ⟨h1, h2, h3, h4, h5⟩ := C52_options_win e ok o c hc
  obtain ⟨v1, ⟨v, v2, v2'⟩, v3, v4, v5, -⟩ := parseEnv_ok he
  exact ⟨⟨_, v1, h1⟩, ⟨v, _, v2, v2', h2⟩, ⟨_, v3, h3⟩, ⟨_, v4, h4⟩, _, v5, h5⟩

/-- Variables for host, port and user, the last overridden by an option. -/
example : configs (new (parseEnvLibpq [b!"PGHOST=db", b!"PGPORT=5433", b!"PGUSER=u", b!"PGHOST=x"])
      (fun _ => true) { username := b!"v" }).1 =
    [{ host := b!"db", port := 5433, user := b!"v", useFallback := true,
       tls := some { insecureSkipVerify := true } }] := by decide +kernel

/-- C117. Variables that cannot be read are an error before anything is connected to, and the only reason
for that error. -/
theorem C117_unreadable (environ : List Str) (ok : Nat → Bool) (o : Options) :
    new (parseEnvLibpq environ) ok o = ([], .err .env) ↔ ¬ Readable environ := by
  rw [← parseEnv_readable]
  cases he : parseEnvLibpq environ with
  | error u => simp [new]
  | ok e =>
    simp only [Except.ok.injEq, exists_eq', not_true_eq_false, iff_false]
    intro h
    have h2 := congrArg Prod.snd h
    unfold new at h2
    simp only at h2
    split at h2
    · rename_i err hc
      simp only [Result.err.injEq] at h2
      subst h2
      unfold configure applySSLMode at hc
      simp only at hc
      repeat' split at hc
      all_goals cases hc
    · have key : ∀ (cfg : ConnConfig) (R : Int) (r d : Nat) (cn : Option Nat),
          (connectLoop ok cfg R r d cn).2 ≠ .err .env := by
        intro cfg R r d cn
        fun_induction connectLoop ok cfg R r d cn with
        | case1 retries delay conn h hok r ih => exact ih
        | case2 retries delay conn h hok h2 r ih => exact ih
        | case3 => simp
        | case4 => split <;> simp
      exact key _ _ _ _ _ h2

/-- A port that does not fit in 16 bits, an unknown mode, and variables that can be read. -/
example : new (parseEnvLibpq [b!"PGPORT=65536"]) (fun _ => true) {} = ([], .err .env) ∧
    new (parseEnvLibpq [b!"PGSSLMODE=on"]) (fun _ => true) {} = ([], .err .env) ∧
    Readable [b!"PGPORT=65535", b!"PGSSLMODE=verify-ca"] :=
  ⟨by decide +kernel, by decide +kernel, (parseEnv_readable _).1 ⟨_, rfl⟩⟩

/-- The transports of every attempt made without an sslmode option: with a password, TLS verifying the
host connected to, whatever PGSSLMODE says; without, those of PGSSLMODE, for the host PGHOST names. -/
theorem C117_transports (environ : List Str) (ok : Nat → Bool) (o : Options) (ho : o.sslMode = []) :
    ∀ c ∈ configs (new (parseEnvLibpq environ) ok o).1, ∃ m h,
      Var environ b!"PGSSLMODE" m ∧ Var environ b!"PGHOST" h ∧
      (c.password = [] → ModeTries h m c.transports) ∧
      (c.password ≠ [] → c.transports = [some { serverName := c.host }]) := by
  intro c hc
  obtain ⟨e, he⟩ := new_env_configs hc
  rw [he] at hc
  have ht := C53_transports e ok o c hc
  obtain ⟨v1, -, -, -, -, m, hm, -, hmt⟩ := parseEnv_ok he
  refine ⟨m, _, hm, v1, ?_, ?_⟩
  · intro hp
    rw [ht, if_pos ho, if_pos hp]
    exact hmt
  · intro hp
    rw [ht, if_pos ho, if_neg hp]

/-- C117, where it holds: without an sslmode option and without a password, PGSSLMODE is obeyed, if the
host connected to is the one PGHOST names or the mode does not ask for certificates to be checked.
Missing: connections with a password (PGSSLMODE is ignored), and `verify-ca` or `verify-full` for a host
given as an option (the certificate is checked for PGHOST instead). -/
theorem C117_sslmode_partial (environ : List Str) (ok : Nat → Bool) (o : Options) (m : Str)
    (ho : o.sslMode = []) (hm : Var environ b!"PGSSLMODE" m)
    (hh : o.host = [] ∨ Var environ b!"PGHOST" o.host ∨ (m ≠ b!"verify-ca" ∧ m ≠ b!"verify-full")) :
    ∀ c ∈ configs (new (parseEnvLibpq environ) ok o).1, c.password = [] → ModeTries c.host m c.transports := by
  intro c hc hp
  obtain ⟨m', h, hm', hv, ht, -⟩ := C117_transports environ ok o ho c hc
  obtain ⟨⟨h', hv', hch⟩, -⟩ := C117_values environ ok o c hc
  have e1 := var_unique hm hm'
  have e2 := var_unique hv hv'
  subst e1 e2
  have ht := ht hp
  have same : c.host = h → ModeTries c.host m c.transports := by intro e; rw [e]; exact ht
  rcases hh with hh | hh | ⟨n1, n2⟩
  · exact same (hch.2 hh)
  · by_cases hz : o.host = []
    · exact same (hch.2 hz)
    · exact same ((hch.1 hz).trans (var_unique hh hv))
  · obtain ⟨ts, hts⟩ : ∃ ts, c.transports = ts := ⟨_, rfl⟩
    rw [hts] at ht ⊢
    cases ht with
    | unset => exact .unset
    | disable => exact .disable
    | allow => exact .allow
    | prefer => exact .prefer
    | require => exact .require
    | verifyCa => exact absurd rfl n1
    | verifyFull => exact absurd rfl n2

/-- The hypotheses are met with `require` and another host than PGHOST. -/
example : Var [b!"PGHOST=a", b!"PGSSLMODE=require"] b!"PGSSLMODE" b!"require" ∧
    configs (new (parseEnvLibpq [b!"PGHOST=a", b!"PGSSLMODE=require"]) (fun _ => true) { host := b!"b" }).1 =
      [{ host := b!"b", tls := some { insecureSkipVerify := true } }] :=
  ⟨var_getenv name_sslmode [b!"PGHOST=a", b!"PGSSLMODE=require"], by decide +kernel⟩

/-- C117. Where PGSSLMODE is not obeyed the connection is not less safe for it: without an sslmode option,
`require` and stricter never let a connection be plaintext, and `verify-ca` and `verify-full` never let a
certificate go unchecked. -/
theorem C117_safe (environ : List Str) (ok : Nat → Bool) (o : Options) (m : Str)
    (ho : o.sslMode = []) (hm : Var environ b!"PGSSLMODE" m) :
    ∀ c ∈ configs (new (parseEnvLibpq environ) ok o).1,
      (m = b!"require" ∨ m = b!"verify-ca" ∨ m = b!"verify-full" → ¬ c.PermitsPlaintext) ∧
      (m = b!"verify-ca" ∨ m = b!"verify-full" →
        ∀ t ∈ c.transports, ∃ t', t = some t' ∧ t'.insecureSkipVerify = false) := by
  intro c hc
  obtain ⟨m', h, hm', -, ht, ht'⟩ := C117_transports environ ok o ho c hc
  have e1 := var_unique hm hm'
  subst e1
  by_cases hp : c.password = []
  · have ht := ht hp
    unfold ConnConfig.PermitsPlaintext
    obtain ⟨ts, hts⟩ : ∃ ts, c.transports = ts := ⟨_, rfl⟩
    rw [hts] at ht ⊢
    cases ht <;> simp
  · unfold ConnConfig.PermitsPlaintext
    rw [ht' hp]
    simp

/-- C117 is false of the code: with a password, PGSSLMODE=disable is not obeyed; and with PGSSLMODE
`verify-full` and a host given as an option, the certificate is not checked for that host. -/
theorem C117_refuted :
    (∃ (environ : List Str) (ok : Nat → Bool) (o : Options) (c : ConnConfig), o.sslMode = [] ∧
      Var environ b!"PGSSLMODE" b!"disable" ∧ c ∈ configs (new (parseEnvLibpq environ) ok o).1 ∧
      ¬ ModeTries c.host b!"disable" c.transports) ∧
    ∃ (environ : List Str) (ok : Nat → Bool) (o : Options) (c : ConnConfig), o.sslMode = [] ∧
      Var environ b!"PGSSLMODE" b!"verify-full" ∧ c ∈ configs (new (parseEnvLibpq environ) ok o).1 ∧
      ¬ c.VerifiesHost := by
  refine ⟨⟨[b!"PGSSLMODE=disable", b!"PGPASSWORD=pw"], fun _ => true, { host := b!"db" },
    { host := b!"db", password := b!"pw", tls := some { serverName := b!"db" } }, rfl,
    var_getenv name_sslmode [b!"PGSSLMODE=disable", b!"PGPASSWORD=pw"], by decide +kernel, ?_⟩,
    [b!"PGSSLMODE=verify-full", b!"PGHOST=a"], fun _ => true, { host := b!"b" },
    { host := b!"b", tls := some { serverName := b!"a" } }, rfl,
    var_getenv name_sslmode [b!"PGSSLMODE=verify-full", b!"PGHOST=a"], by decide +kernel, ?_⟩
  · generalize hts : ConnConfig.transports _ = ts
    intro h
    cases h
    cases hts
  · intro h
    have := h _ (List.mem_cons_self ..)
    revert this
    decide

end Verif.Pg
