import Verif.Pg.Connect

/-!
# What connecting should do

Stated about the observable events: which configurations `pgx.Connect` is called with, the sleeps,
and the result.
-/

namespace Verif.Pg
open Verif

/-- The configurations of the connection attempts. -/
def configs (t : List Event) : List ConnConfig :=
  t.filterMap fun | .connect cfg _ => some cfg | .sleep _ => none

/-- The outcomes of the connection attempts. -/
def attempts (t : List Event) : List Bool :=
  t.filterMap fun | .connect _ ok => some ok | .sleep _ => none

/-- The delays, in milliseconds. -/
def delays (t : List Event) : List Nat :=
  t.filterMap fun | .connect _ _ => none | .sleep ms => some ms

/-- `used` is the explicit value when given (not the zero value), and the environment's otherwise. -/
def Chosen {α : Type} (zero explicit env used : α) : Prop :=
  (explicit ≠ zero → used = explicit) ∧ (explicit = zero → used = env)

/-- The transports `pgx.Connect` tries, in order: `none` is plaintext. This is pgx's contract:
`TLSConfig` first, then `FallbackTLSConfig` if `UseFallbackTLS`. -/
def ConnConfig.transports (cfg : ConnConfig) : List (Option TlsConfig) :=
  cfg.tls :: if cfg.useFallback then [cfg.fallback] else []

/-- A plaintext connection may be made. -/
def ConnConfig.PermitsPlaintext (cfg : ConnConfig) : Prop := none ∈ cfg.transports

/-- Every transport tried is TLS with the certificate verified for the host connected to. -/
def ConnConfig.VerifiesHost (cfg : ConnConfig) : Prop :=
  ∀ t ∈ cfg.transports, t = some { insecureSkipVerify := false, serverName := cfg.host }

/-- The modes libpq documents that `New` knows. -/
def sslModes : List Str := [b!"disable", b!"allow", b!"prefer", b!"require", b!"verify-full"]

/-- Attempts are made in order until the first success, at most `retries + 1` of them; the result is
a connection iff some attempt succeeds, it is the one the first success opened, and it is then the
only connection opened. -/
structure StopsAtFirstSuccess (ok : Nat → Bool) (retries : Nat) (made : List Bool) (r : Result) :
    Prop where
  prefix_ : ∃ n ≤ retries + 1, made = (List.range n).map ok
  stops : ∀ i, i + 1 < made.length → made[i]? = some false
  exhausts : made.length = retries + 1 ∨ true ∈ made
  success : (∃ i, r = .conn i) ↔ ∃ i ≤ retries, ok i = true
  first : ∀ i, r = .conn i → ok i = true ∧ ∀ j < i, ok j = false
  one : (∃ i, r = .conn i) → made.count true = 1
  failure : ¬ (∃ i, r = .conn i) → made.count true = 0 ∧ ∃ e, r = .err e

/-- Every delay is positive and twice the one before. -/
def Doubling (ds : List Nat) : Prop :=
  (∀ d ∈ ds, 0 < d) ∧ ∀ i a b, ds[i]? = some a → ds[i + 1]? = some b → b = 2 * a

end Verif.Pg
