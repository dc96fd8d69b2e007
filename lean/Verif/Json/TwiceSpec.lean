import Verif.Json.Spec

/-!
# Files in which a setting is written twice

The words of C130: which members of a file do not count, because what they say is said again later on.
Nothing here refers to a function of the model.
-/

namespace Verif.Json.Twice
open Verif Json Spec

/-- The settings that are one string or number, those that are lists of strings, and the objects. -/
def plainNames : List Str := [b!"Class", b!"Target", b!"Message", b!"Concurrency", b!"Host", b!"Port",
  b!"sslmode", b!"Username", b!"Password", b!"Database", b!"connect_retries", b!"String", b!"sql",
  b!"Seconds"]
def listNames : List Str := [b!"After", b!"Args", b!"Allow", b!"Deny"]
def mapNames : List Str := [b!"Targets", b!"Tasks", b!"Set"]

/-- A setting `n` with the value `v` is what it is no matter what has been written before. -/
inductive Decides (n : Str) (v : Value) : Prop
  /-- a string or number that is not `null` -/
  | plain : n ∈ plainNames → v ≠ .null → Decides n v
  /-- a list, unless it has a `null` in it -/
  | list {vs : List Value} : n ∈ listNames → v = .arr vs → .null ∉ vs → Decides n v
  /-- `null` empties lists and maps -/
  | none : n ∈ listNames ++ mapNames → v = .null → Decides n v
  /-- a config is taken as a whole -/
  | config : n = b!"Config" → Decides n v

/-- Of two consecutive members that give the same setting, the first does not count; or they count as
one. A `null` counts for nothing if the setting is a string, a number or an environment filter. -/
inductive Settles : List (Str × Value) → List (Str × Value) → Prop
  | later {n k k' : Str} {v v' : Value} {pre mid post : List (Str × Value)} :
      Spells n k → Spells n k' → (∀ p ∈ mid, ¬ Spells n p.1) → Decides n v' →
      Settles (pre ++ (k, v) :: (mid ++ (k', v') :: post)) (pre ++ (mid ++ (k', v') :: post))
  | joined {n k k' : Str} {a b : List (Str × Value)} {pre mid post : List (Str × Value)} :
      n ∈ b!"Env" :: mapNames → Spells n k → Spells n k' → (∀ p ∈ mid, ¬ Spells n p.1) →
      Settles (pre ++ (k, .obj a) :: (mid ++ (k', .obj b) :: post))
        (pre ++ (mid ++ (k', .obj (a ++ b)) :: post))
  | blank {n k : Str} {pre post : List (Str × Value)} : n ∈ b!"Env" :: plainNames → Spells n k →
      Settles (pre ++ (k, .null) :: post) (pre ++ post)

/-- The places in a file: the file itself, a section, a target or task, a config, an environment filter,
and the variables it sets. -/
inductive Place where
  | file | sect | entry | config | env | set

/-- Objects whose members are settings. -/
def Place.settings : Place → Prop
  | .file | .entry | .config | .env => True
  | .sect | .set => False

/-- The setting `n` of the one place is the other place. -/
inductive Inside : Place → Str → Place → Prop
  | targets : Inside .file b!"Targets" .sect
  | tasks : Inside .file b!"Tasks" .sect
  | config : Inside .entry b!"Config" .config
  | env : Inside .config b!"Env" .env
  | set : Inside .env b!"Set" .set

/-- The first object is the second one with something in it that does not count. -/
inductive Idle : Place → Value → Value → Prop
  | settles {p ms ms'} : p.settings → Settles ms ms' → Idle p (.obj ms) (.obj ms')
  /-- the same name again in a section, or in the variables that are set -/
  | again {p id v v' pre mid post} : ¬ p.settings → (∀ q ∈ mid, q.1 ≠ id) →
      Idle p (.obj (pre ++ (id, v) :: (mid ++ (id, v') :: post)))
        (.obj (pre ++ (id, v') :: (mid ++ post)))
  | entry {id v v' pre post} : Idle .entry v v' →
      Idle .sect (.obj (pre ++ (id, v) :: post)) (.obj (pre ++ (id, v') :: post))
  | inside {p q n k v v' pre post} : Inside p n q → Spells n k → Idle q v v' →
      Idle p (.obj (pre ++ (k, v) :: post)) (.obj (pre ++ (k, v') :: post))

/-- The second file is the first one without some of the members that do not count. -/
inductive Without : Value → Value → Prop
  | refl (doc : Value) : Without doc doc
  | step {doc doc' doc'' : Value} : Idle .file doc doc' → Without doc' doc'' → Without doc doc''

end Verif.Json.Twice
