import Verif.Base.GoMap
import Verif.Sh.Model

/-!
# Model of `/repo/internal/ddl/table_storage_parameters.go` and
`/repo/internal/pg/table_storage_parameters.go`

`strconv.ParseFloat` is a parameter (`F` is the type of float64 values); `strconv.Atoi` and
`strconv.ParseBool` are modelled.
-/

namespace Verif.Ddl
open Verif

/-- strconv's two error kinds. -/
inductive NumErr where
  | syntax_
  | range
deriving DecidableEq, Repr

/-- All bytes are '0'..'9'. -/
def allDigits (s : Str) : Bool := s.all (fun b => decide (48 ≤ b) && decide (b ≤ 57))

/-- The accumulation loop of `strconv.Atoi`. -/
def digitsVal (s : Str) : Nat := s.foldl (fun n b => n * 10 + (b.toNat - 48)) 0

/-- `strconv.Atoi` after the sign. -/
def atoiAbs (neg : Bool) (ds : Str) : Int × Option NumErr :=
  if ds = [] then (0, some .syntax_)
  else if !allDigits ds then (0, some .syntax_)
  else if neg then
    if digitsVal ds > 2 ^ 63 then (-(2 ^ 63), some .range) else (-(digitsVal ds : Int), none)
  else
    if digitsVal ds ≥ 2 ^ 63 then (2 ^ 63 - 1, some .range) else ((digitsVal ds : Int), none)

/-- Go library `strconv.Atoi` for 64-bit int: value and error. -/
def atoi (s : Str) : Int × Option NumErr :=
  match s with
  | [] => (0, some .syntax_)
  | b :: ds => if b = 45 then atoiAbs true ds else if b = 43 then atoiAbs false ds else atoiAbs false s

/-- Go library `strconv.ParseBool`: value and error. -/
def parseBool (s : Str) : Bool × Option NumErr :=
  if s ∈ [b!"1", b!"t", b!"T", b!"true", b!"TRUE", b!"True"] then (true, none)
  else if s ∈ [b!"0", b!"f", b!"F", b!"false", b!"FALSE", b!"False"] then (false, none)
  else (false, some .syntax_)

/-- table_storage_parameters.go:6-23 `type TableStorageParameters struct`; nil pointers are `none`. -/
structure Params (F : Type) where
  /-- line 7 -/
  fillfactor : Option Int := none
  /-- line 8 -/
  parallelWorkers : Option Int := none
  /-- line 9 -/
  autovacuumEnabled : Option Bool := none
  /-- line 10 -/
  autovacuumVacuumThreshold : Option Int := none
  /-- line 11 -/
  autovacuumVacuumScaleFactor : Option F := none
  /-- line 12 -/
  autovacuumAnalyzeThreshold : Option Int := none
  /-- line 13 -/
  autovacuumAnalyzeScaleFactor : Option F := none
  /-- line 14 -/
  autovacuumVacuumCostDelay : Option Int := none
  /-- line 15 -/
  autovacuumFreezeMinAge : Option Int := none
  /-- line 16 -/
  autovacuumFreezeMaxAge : Option Int := none
  /-- line 17 -/
  autovacuumFreezeTableAge : Option Int := none
  /-- line 18 -/
  autovacuumMultixactFreezeMinAge : Option Int := none
  /-- line 19 -/
  autovacuumMultixactFreezeMaxAge : Option Int := none
  /-- line 20 -/
  autovacuumMultixactFreezeTableAge : Option Int := none
  /-- line 21 -/
  logAutovacuumMinDuration : Option Int := none
  /-- line 22 -/
  userCatalogTable : Option Bool := none
deriving DecidableEq

/-- table_storage_parameters.go:26-94 `Set`. The field is assigned whether or not there was an
error. -/
def Params.set {F : Type} (parseFloat : Str → F × Option NumErr) (p : Params F) (key value : Str) :
    Params F × Option NumErr :=
  if key = b!"fillfactor" then ({ p with fillfactor := some (atoi value).1 }, (atoi value).2)
  else if key = b!"parallel_workers" then ({ p with parallelWorkers := some (atoi value).1 }, (atoi value).2)
  else if key = b!"autovacuum_enabled" then ({ p with autovacuumEnabled := some (parseBool value).1 }, (parseBool value).2)
  else if key = b!"autovacuum_vacuum_threshold" then ({ p with autovacuumVacuumThreshold := some (atoi value).1 }, (atoi value).2)
  else if key = b!"autovacuum_vacuum_scale_factor" then ({ p with autovacuumVacuumScaleFactor := some (parseFloat value).1 }, (parseFloat value).2)
  else if key = b!"autovacuum_analyze_threshold" then ({ p with autovacuumAnalyzeThreshold := some (atoi value).1 }, (atoi value).2)
  else if key = b!"autovacuum_analyze_scale_factor" then ({ p with autovacuumAnalyzeScaleFactor := some (parseFloat value).1 }, (parseFloat value).2)
  else if key = b!"autovacuum_vacuum_cost_limit" then ({ p with autovacuumVacuumCostDelay := some (atoi value).1 }, (atoi value).2)
  else if key = b!"autovacuum_freeze_min_age" then ({ p with autovacuumFreezeMinAge := some (atoi value).1 }, (atoi value).2)
  else if key = b!"autovacuum_freeze_max_age" then ({ p with autovacuumFreezeMaxAge := some (atoi value).1 }, (atoi value).2)
  else if key = b!"autovacuum_freeze_table_age" then ({ p with autovacuumFreezeTableAge := some (atoi value).1 }, (atoi value).2)
  else if key = b!"autovacuum_multixact_freeze_min_age" then ({ p with autovacuumMultixactFreezeMinAge := some (atoi value).1 }, (atoi value).2)
  else if key = b!"autovacuum_multixact_freeze_max_age" then ({ p with autovacuumMultixactFreezeMaxAge := some (atoi value).1 }, (atoi value).2)
  else if key = b!"autovacuum_multixact_freeze_table_age" then ({ p with autovacuumMultixactFreezeTableAge := some (atoi value).1 }, (atoi value).2)
  else if key = b!"log_autovacuum_min_duration" then ({ p with logAutovacuumMinDuration := some (atoi value).1 }, (atoi value).2)
  else if key = b!"user_catalog_table" then ({ p with userCatalogTable := some (parseBool value).1 }, (parseBool value).2)
  else (p, none)

/-- The value of a parameter. -/
inductive Val (F : Type) where
  | int (n : Int)
  | bool (b : Bool)
  | float (x : F)
deriving DecidableEq

/-- The parameters as HCL attributes: the struct tags of table_storage_parameters.go:7-22, in
order. `none` is an unset parameter. -/
def Params.attrs {F : Type} (p : Params F) : List (Str × Option (Val F)) :=
  [(b!"fillfactor", p.fillfactor.map .int),
   (b!"parallel_workers", p.parallelWorkers.map .int),
   (b!"autovacuum_enabled", p.autovacuumEnabled.map .bool),
   (b!"autovacuum_vacuum_threshold", p.autovacuumVacuumThreshold.map .int),
   (b!"autovacuum_vacuum_scale_factor", p.autovacuumVacuumScaleFactor.map .float),
   (b!"autovacuum_analyze_threshold", p.autovacuumAnalyzeThreshold.map .int),
   (b!"autovacuum_analyze_scale_factor", p.autovacuumAnalyzeScaleFactor.map .float),
   (b!"autovacuum_vacuum_cost_limit", p.autovacuumVacuumCostDelay.map .int),
   (b!"autovacuum_freeze_min_age", p.autovacuumFreezeMinAge.map .int),
   (b!"autovacuum_freeze_max_age", p.autovacuumFreezeMaxAge.map .int),
   (b!"autovacuum_freeze_table_age", p.autovacuumFreezeTableAge.map .int),
   (b!"autovacuum_multixact_freeze_min_age", p.autovacuumMultixactFreezeMinAge.map .int),
   (b!"autovacuum_multixact_freeze_max_age", p.autovacuumMultixactFreezeMaxAge.map .int),
   (b!"autovacuum_multixact_freeze_table_age", p.autovacuumMultixactFreezeTableAge.map .int),
   (b!"log_autovacuum_min_duration", p.logAutovacuumMinDuration.map .int),
   (b!"user_catalog_table", p.userCatalogTable.map .bool)]

/-- `strings.SplitN(tmp, "=", 2)` followed by pg/table_storage_parameters.go:41-45: the two
arguments of `Set`. -/
def splitOption (tmp : Str) : Str × Str :=
  match Sh.indexByte 61 tmp with
  | none => (tmp, [])
  | some i => (tmp.take i, tmp.drop (i + 1))

/-- pg/table_storage_parameters.go:32-49: the loop over the rows (all scanned without error). -/
def paramsLoop {F : Type} (parseFloat : Str → F × Option NumErr) :
    List Str → Params F → Except NumErr (Params F)
  | [], p => .ok p
  | tmp :: rows, p =>
    match p.set parseFloat (splitOption tmp).1 (splitOption tmp).2 with
    | (_, some e) => .error e
    | (p', none) => paramsLoop parseFloat rows p'

/-- pg/table_storage_parameters.go:31-54: `ListTableStorageParameters` once the query has
succeeded. -/
def listTableStorageParameters {F : Type} (parseFloat : Str → F × Option NumErr) (rows : List Str) :
    Except NumErr (Params F) :=
  paramsLoop parseFloat rows {}

end Verif.Ddl
