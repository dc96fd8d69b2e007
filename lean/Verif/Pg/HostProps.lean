import Verif.Pg.EnvProps

/-!
# C131: a server is not verified without a name
-/

namespace Verif.Pg
open Verif Spec

/-- TLS is tried with the certificate verified, but no name to verify it for; `crypto/tls` refuses this
("either ServerName or InsecureSkipVerify must be specified"). -/
def ConnConfig.Nameless (c : ConnConfig) : Prop :=
  ∃ t, some t ∈ c.transports ∧ t.insecureSkipVerify = false ∧ t.serverName = []

theorem nameless_single {c : ConnConfig} {h : Str} (e : c.transports = [some { serverName := h }]) :
    c.Nameless ↔ h = [] := by
  unfold ConnConfig.Nameless
  rw [e]
  simp

theorem nameless_tries {c : ConnConfig} {h m : Str} (e : ModeTries h m c.transports) :
    c.Nameless ↔ (m = b!"verify-ca" ∨ m = b!"verify-full") ∧ h = [] := by
  unfold ConnConfig.Nameless
  generalize c.transports = ts at e
  cases e <;> simp

/-- **C131, exactly.** With a mode given, the attempts lack the name if and only if the mode is
`verify-full` and there is no host. Without one they do if there is a password and no host, or no
password, PGSSLMODE asks for verification and PGHOST is empty, whatever host is given. -/
theorem C131_exact (environ : List Str) (ok : Nat → Bool) (o : Options) :
    ∀ c ∈ configs (new (parseEnvLibpq environ) ok o).1, ∃ m h,
      Var environ b!"PGSSLMODE" m ∧ Var environ b!"PGHOST" h ∧
      (c.Nameless ↔
        (o.sslMode = b!"verify-full" ∧ c.host = []) ∨
        (o.sslMode = [] ∧ c.password ≠ [] ∧ c.host = []) ∨
        (o.sslMode = [] ∧ c.password = [] ∧ (m = b!"verify-ca" ∨ m = b!"verify-full") ∧ h = [])) := by
  intro c hc
  obtain ⟨e, he⟩ := new_env_configs hc
  rw [he] at hc
  have ht := C53_transports e ok o c hc
  obtain ⟨v1, -, -, -, -, m, hm, -, hmt⟩ := parseEnv_ok he
  refine ⟨m, e.host, hm, v1, ?_⟩
  by_cases ho : o.sslMode = []
  · rw [if_pos ho] at ht
    by_cases hp : c.password = []
    · rw [if_pos hp] at ht
      rw [← ht] at hmt
      rw [nameless_tries hmt]
      simp [ho, hp]
    · rw [if_neg hp] at ht
      rw [nameless_single ht]
      simp [ho, hp]
  · rw [if_neg ho] at ht
    have known : o.sslMode ∈ sslModes := by
      by_contra hn
      rw [(C53_tls_policy e ok o).2.2.2 ho hn] at hc
      simp [configs] at hc
    simp only [sslModes, List.mem_cons, List.not_mem_nil, or_false] at known
    have no : ∀ ts : List (Option TlsConfig), c.transports = ts →
        (∀ t, some t ∈ ts → t.insecureSkipVerify = true) → ¬ c.Nameless := by
      rintro ts e1 h ⟨t, h1, h2, -⟩
      rw [e1] at h1
      rw [h t h1] at h2
      cases h2
    rcases known with hk | hk | hk | hk | hk
    · simp [hk] at ht
      have := no _ ht (by simp)
      simp [hk, this]
    · simp [hk] at ht
      have := no _ ht (by simp)
      simp [hk, this]
    · simp [hk] at ht
      have := no _ ht (by simp)
      simp [hk, this]
    · simp [hk] at ht
      have := no _ ht (by simp)
      simp [hk, this]
    · simp [hk] at ht
      rw [nameless_single ht]
      simp [hk]

/-- **C131, where it holds.** No attempt lacks the name if PGHOST is set, or if a host is given along with
a mode or a password. Missing: no host at all, and a host given while PGSSLMODE alone asks for verification. -/
theorem C131_named_partial (environ : List Str) (ok : Nat → Bool) (o : Options) (h : Str)
    (hv : Var environ b!"PGHOST" h)
    (hh : h ≠ [] ∨ (o.host ≠ [] ∧ (o.sslMode ≠ [] ∨ o.password ≠ []))) :
    ∀ c ∈ configs (new (parseEnvLibpq environ) ok o).1, ¬ c.Nameless := by
  intro c hc
  obtain ⟨m, h', hm, hv', hx⟩ := C131_exact environ ok o c hc
  obtain rfl := var_unique hv hv'
  obtain ⟨⟨h'', hv'', hch⟩, -⟩ := C117_values environ ok o c hc
  obtain rfl := var_unique hv hv''
  obtain ⟨e, he⟩ := new_env_configs hc
  have hc2 := hc
  rw [he] at hc2
  have hpw := C52_options_win e ok o c hc2
  have hhost : c.host ≠ [] := by
    by_cases hz : o.host = []
    · rw [hch.2 hz]; exact hh.elim id (fun h => absurd hz h.1)
    · rw [hch.1 hz]; exact hz
  rw [hx]
  rintro (⟨-, h1⟩ | ⟨-, -, h1⟩ | ⟨h1, h2, -, h3⟩)
  · exact hhost h1
  · exact hhost h1
  · rcases hh with h4 | ⟨-, h4 | h4⟩
    · exact h4 h3
    · exact h4 h1
    · rw [hpw.2.2.2.1.1 h4] at h2
      exact h4 h2

/-- **C131 refuted.** With a password and no host the attempt is made, without a name, and its failure
is what is reported; and so it is for a host given as an option if PGSSLMODE asks for verification. -/
theorem C131_refuted :
    (∃ o ok, o.password ≠ [] ∧ (∃ c ∈ configs (new (parseEnvLibpq []) ok o).1, c.Nameless) ∧
      (new (parseEnvLibpq []) ok o).2 = .err (.attempt 0)) ∧
    ∃ o ok, o.host ≠ [] ∧
      ∃ c ∈ configs (new (parseEnvLibpq [b!"PGSSLMODE=verify-full"]) ok o).1, c.Nameless := by
  refine ⟨⟨{ password := b!"pw" }, fun _ => false, by decide, ?_, by decide +kernel⟩,
    { host := b!"db" }, fun _ => true, by decide, ?_⟩
  · have e : configs (new (parseEnvLibpq []) (fun _ => false) { password := b!"pw" }).1 =
        [{ password := b!"pw", tls := some {} }] := by decide +kernel
    rw [e]
    exact ⟨_, List.mem_cons_self, {}, by simp [ConnConfig.transports], rfl, rfl⟩
  · have e : configs (new (parseEnvLibpq [b!"PGSSLMODE=verify-full"]) (fun _ => true) { host := b!"db" }).1 =
        [{ host := b!"db", tls := some {} }] := by decide +kernel
    rw [e]
    exact ⟨_, List.mem_cons_self, {}, by simp [ConnConfig.transports], rfl, rfl⟩

/-- The hypotheses of C131_named_partial: a host in the environment, and an attempt that verifies it. -/
example : Var [b!"PGHOST=db"] b!"PGHOST" b!"db" ∧
    (configs (new (parseEnvLibpq [b!"PGHOST=db"]) (fun _ => true) { password := b!"pw" }).1).map
      ConnConfig.transports = [[some { serverName := b!"db" }]] :=
  ⟨by
    have := var_getenv name_host [b!"PGHOST=db"]
    rwa [show Sh.getenv b!"PGHOST" [b!"PGHOST=db"] = b!"db" by decide +kernel] at this, by decide +kernel⟩

end Verif.Pg
