import Verif.Base.GoMap

/-!
# What an environment means

An environment is a list of strings.  `NAME=VALUE` (NAME non-empty, without `=`) binds NAME.  Other
strings (no `=`, or starting with `=`) bind nothing.
-/

namespace Verif.Sh.Spec
open Verif

/-- A legal variable name: non-empty and without `=`. -/
def Name (k : Str) : Prop := k ≠ [] ∧ (61 : UInt8) ∉ k

/-- Entry `kv` binds `k` to `v`. -/
def Binds (kv k v : Str) : Prop := Name k ∧ kv = k ++ b!"=" ++ v

/-- The last binding wins: what a command started by `os/exec` sees. -/
inductive LookupLast : List Str → Str → Str → Prop
  | here {env k kv v} : Binds kv k v → LookupLast (env ++ [kv]) k v
  | skip {env k kv v} : (∀ w, ¬ Binds kv k w) → LookupLast env k v → LookupLast (env ++ [kv]) k v

/-- The first binding wins: `getenv(3)` on the raw list. -/
inductive LookupFirst : List Str → Str → Str → Prop
  | here {env k kv v} : Binds kv k v → LookupFirst (kv :: env) k v
  | skip {env k kv v} : (∀ w, ¬ Binds kv k w) → LookupFirst env k v → LookupFirst (kv :: env) k v

/-- `k` passes the allow/deny filter. -/
def Passes (allow deny : List Str) (k : Str) : Prop :=
  (allow ≠ [] → k ∈ allow) ∧ (allow = [] → k ∉ deny)

/-- The text by which an entry is filtered: NAME for a binding, the whole string otherwise. -/
def FilteredAs (kv k : Str) : Prop :=
  (∃ v, Binds kv k v) ∨ (k = kv ∧ ∀ n v, ¬ Binds kv n v)

end Verif.Sh.Spec
