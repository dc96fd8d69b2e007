import Verif.Pg.Connect
import Verif.Sh.Program
import Verif.Ddl.Params

/-!
# The variables a connection is made with: `pgx.ParseEnvLibpq`, as called by `/repo/internal/pg/pg.go:35`

The function is pgx's, version 3.6.0 (`/repo/go.mod`), not the repository's.  The variables PGSSLCERT,
PGSSLKEY, PGSSLROOTCERT, PGAPPNAME and PGCONNECT_TIMEOUT, which it also reads, are taken as unset: they
change fields of the configuration the model leaves out, or make it fail.
-/

namespace Verif.Pg
open Verif

/-- pgx `configTLS`, on the configuration whose host is PGHOST. -/
def configTLS (cfg : ConnConfig) (mode : Str) : Except Unit ConnConfig :=
  let mode := if mode = [] then b!"prefer" else mode
  if mode = b!"disable" then .ok { cfg with useFallback := false, tls := none, fallback := none }
  else if mode = b!"allow" then
    .ok { cfg with useFallback := true, tls := none, fallback := some { insecureSkipVerify := true } }
  else if mode = b!"prefer" then
    .ok { cfg with useFallback := true, tls := some { insecureSkipVerify := true }, fallback := none }
  else if mode = b!"require" then
    .ok { cfg with useFallback := false, tls := some { insecureSkipVerify := true }, fallback := none }
  else if mode = b!"verify-ca" ∨ mode = b!"verify-full" then
    .ok { cfg with useFallback := false, tls := some { serverName := cfg.host }, fallback := none }
  else .error ()

/-- pgx `ParseEnvLibpq`: `strconv.ParseUint(pgport, 10, 16)` when PGPORT is not empty. -/
def envPort (v : Str) : Except Unit UInt16 :=
  if v = [] then .ok 0
  else if Ddl.allDigits v ∧ Ddl.digitsVal v < 65536 then .ok (.ofNat (Ddl.digitsVal v))
  else .error ()

/-- pgx `ParseEnvLibpq`, in the process with the given `os.Environ()`. -/
def parseEnvLibpq (environ : List Str) : Except Unit ConnConfig :=
  match envPort (Sh.getenv b!"PGPORT" environ) with
  | .error e => .error e
  | .ok port =>
    configTLS
      { host := Sh.getenv b!"PGHOST" environ
        port := port
        user := Sh.getenv b!"PGUSER" environ
        password := Sh.getenv b!"PGPASSWORD" environ
        database := Sh.getenv b!"PGDATABASE" environ }
      (Sh.getenv b!"PGSSLMODE" environ)

end Verif.Pg
