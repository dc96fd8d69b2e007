import Verif.Base.GoMap

/-!
# Model of `/repo/internal/pg/pg.go`: connecting to a server

The environment (`pgx.ParseEnvLibpq`) and the outcome of every connection attempt are inputs.
-/

namespace Verif.Pg
open Verif

/-- `crypto/tls.Config`, the two fields pg.go:97-123 sets. -/
structure TlsConfig where
  insecureSkipVerify : Bool := false
  serverName : Str := []
deriving DecidableEq, Repr

/-- `pgx.ConnConfig`, the fields `New` reads or writes. The logger (pg.go:57-59) and the fields
`New` passes through untouched are left out. -/
structure ConnConfig where
  host : Str := []
  port : UInt16 := 0
  user : Str := []
  password : Str := []
  database : Str := []
  tls : Option TlsConfig := none
  useFallback : Bool := false
  fallback : Option TlsConfig := none
deriving DecidableEq, Repr

/-- pg.go:14-25 `type Options struct`, without the logger. -/
structure Options where
  host : Str := []
  port : UInt16 := 0
  sslMode : Str := []
  username : Str := []
  password : Str := []
  database : Str := []
  connectRetries : Int := 0
deriving DecidableEq, Repr

/-- The errors of `New`: from the environment, from `applySSLMode`, and from the connection
attempt with the given number. -/
inductive ConnErr
  | env
  | sslmode
  | attempt (i : Nat)
deriving DecidableEq, Repr

/-- pg.go:125-130 `firstOfString`. -/
def firstOfString (a b : Str) : Str := if a ≠ [] then a else b
/-- pg.go:132-137 `firstOfUint16`. -/
def firstOfUint16 (a b : UInt16) : UInt16 := if a ≠ 0 then a else b

/-- pg.go:97-123 `applySSLMode`. -/
def applySSLMode (cfg : ConnConfig) (mode : Str) : Except ConnErr ConnConfig :=
  if mode = b!"disable" then
    .ok { cfg with useFallback := false, tls := none, fallback := none }
  else if mode = b!"allow" then
    .ok { cfg with useFallback := true, tls := none, fallback := some { insecureSkipVerify := true } }
  else if mode = b!"prefer" then
    .ok { cfg with useFallback := true, tls := some { insecureSkipVerify := true }, fallback := none }
  else if mode = b!"require" then
    .ok { cfg with useFallback := false, tls := some { insecureSkipVerify := true }, fallback := none }
  else if mode = b!"verify-full" then
    .ok { cfg with useFallback := false, tls := some { serverName := cfg.host }, fallback := none }
  else .error .sslmode

/-- pg.go:40-55: the configuration made of the environment's and the options. -/
def configure (env : ConnConfig) (o : Options) : Except ConnErr ConnConfig :=
  let cfg := { env with
    host := firstOfString o.host env.host
    port := firstOfUint16 o.port env.port
    user := firstOfString o.username env.user
    password := firstOfString o.password env.password
    database := firstOfString o.database env.database }
  let sslmode := if o.sslMode = [] ∧ cfg.password ≠ [] then b!"verify-full" else o.sslMode
  if sslmode ≠ [] then applySSLMode cfg sslmode else .ok cfg

/-- What an observer sees of `New`: calls of `pgx.Connect` with their outcome, and sleeps, in
milliseconds. -/
inductive Event
  | connect (cfg : ConnConfig) (ok : Bool)
  | sleep (ms : Nat)
deriving DecidableEq, Repr

/-- What `New` returns: a `Conn` holding the connection the given attempt opened, a `Conn` holding
a nil connection, or an error. -/
inductive Result
  | conn (attempt : Nat)
  | nilConn
  | err (e : ConnErr)
deriving DecidableEq, Repr

/-- pg.go:63-79: the loop and the return, from the loop test. `ok i` is the outcome of attempt `i`.
On line 68 `2^retries` is Go's exclusive or. Int overflow of `retries` is not modelled. -/
def connectLoop (ok : Nat → Bool) (cfg : ConnConfig) (maxRetries : Int) (retries delay : Nat)
    (conn : Option Nat) : List Event × Result :=
  if (retries : Int) ≤ maxRetries then
    if ok retries then
      let r := connectLoop ok cfg maxRetries (retries + 1) delay (some retries)
      (.connect cfg true :: r.1, r.2)
    else if (retries : Int) < maxRetries then
      let r := connectLoop ok cfg maxRetries (retries + 1) ((2 ^^^ retries) * 100) none
      (.connect cfg false :: .sleep delay :: r.1, r.2)
    else ([.connect cfg false], .err (.attempt retries))
  else ([], match conn with | some i => .conn i | none => .nilConn)
termination_by (maxRetries + 1 - retries).toNat
decreasing_by all_goals omega

/-- pg.go:34-80 `New`. `env` is what `pgx.ParseEnvLibpq` returns. -/
def new (env : Except Unit ConnConfig) (ok : Nat → Bool) (o : Options) : List Event × Result :=
  match env with
  | .error _ => ([], .err .env)
  | .ok e =>
    match configure e o with
    | .error err => ([], .err err)
    | .ok cfg => connectLoop ok cfg o.connectRetries 0 100 none

end Verif.Pg
