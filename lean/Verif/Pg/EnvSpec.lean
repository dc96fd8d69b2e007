import Verif.Pg.ConnectSpec
import Verif.Sh.Spec
import Verif.Ddl.ParamsProps

/-!
# What the PG* variables say
-/

namespace Verif.Pg.Spec
open Verif

/-- The value of a variable; a variable that is not set counts as empty. -/
def Var (environ : List Str) (k v : Str) : Prop :=
  Sh.Spec.LookupFirst environ k v ∨ (v = [] ∧ ∀ w, ¬ Sh.Spec.LookupFirst environ k w)

/-- The port a text names: none (0) if it is empty, otherwise a decimal numeral that fits in 16 bits. -/
def PortText (v : Str) (p : UInt16) : Prop :=
  (v = [] ∧ p = 0) ∨ ∃ n < 65536, Ddl.Numeral v n ∧ p = .ofNat n

/-- The modes PGSSLMODE may name. -/
def envModes : List Str :=
  [b!"disable", b!"allow", b!"prefer", b!"require", b!"verify-ca", b!"verify-full"]

/-- The transports that may be tried, and in which order, when connecting to a host in a mode
(`none` is plaintext); no mode means `prefer`. -/
inductive ModeTries (host : Str) : Str → List (Option TlsConfig) → Prop
  | unset : ModeTries host [] [some { insecureSkipVerify := true }, none]
  | disable : ModeTries host b!"disable" [none]
  | allow : ModeTries host b!"allow" [none, some { insecureSkipVerify := true }]
  | prefer : ModeTries host b!"prefer" [some { insecureSkipVerify := true }, none]
  | require : ModeTries host b!"require" [some { insecureSkipVerify := true }]
  | verifyCa : ModeTries host b!"verify-ca" [some { serverName := host }]
  | verifyFull : ModeTries host b!"verify-full" [some { serverName := host }]

/-- The variables can be read: PGPORT is a port and PGSSLMODE a mode, where they are not empty. -/
def Readable (environ : List Str) : Prop :=
  (∃ v p, Var environ b!"PGPORT" v ∧ PortText v p) ∧
    ∃ m, Var environ b!"PGSSLMODE" m ∧ (m = [] ∨ m ∈ envModes)

end Verif.Pg.Spec
