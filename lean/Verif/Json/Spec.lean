import Verif.Json.Model
import Verif.Book.Spec
import Verif.Ddl.ParamsProps

/-!
# What a runbook file says

The words of C93 and C94: which settings there are, how their names may be spelled, of which kind their
values are, and which runbook a JSON value describes.  Nothing here refers to a function of the model.
-/

namespace Verif.Json.Spec
open Verif Book Book.Spec

/-- `key` is `name` with any of its letters in the other case; the long s (U+017F) counts as an s and
the Kelvin sign (U+212A) as a k. -/
inductive Spells : Str → Str → Prop
  | nil : Spells [] []
  | same {c n k} : c.toNat < 128 → Spells n k → Spells (c :: n) (c :: k)
  | lower {c d n k} : 65 ≤ c.toNat → c.toNat ≤ 90 → d.toNat = c.toNat + 32 → Spells n k →
      Spells (c :: n) (d :: k)
  | upper {c d n k} : 97 ≤ c.toNat → c.toNat ≤ 122 → d.toNat + 32 = c.toNat → Spells n k →
      Spells (c :: n) (d :: k)
  | longS {c n k} : c = 83 ∨ c = 115 → Spells n k → Spells (c :: n) ([0xC5, 0xBF] ++ k)
  | kelvin {c n k} : c = 75 ∨ c = 107 → Spells n k → Spells (c :: n) ([0xE2, 0x84, 0xAA] ++ k)

/-- The settings of a file, of a target, of a task, and of the configs of each class. -/
def fileNames : List Str := [b!"Targets", b!"Tasks"]
def targetNames : List Str := [b!"Class", b!"Config"]
def taskNames : List Str := [b!"After", b!"Target", b!"Message", b!"Config"]
def pgNames : List Str := [b!"Concurrency", b!"Host", b!"Port", b!"sslmode", b!"Username", b!"Password",
  b!"Database", b!"connect_retries"]
def shNames : List Str := [b!"Concurrency", b!"Env"]
def demoNames : List Str := [b!"String"]
def sqlNames : List Str := [b!"sql"]
def execNames : List Str := [b!"Args", b!"Env"]
def sleepNames : List Str := [b!"Seconds"]
def envNames : List Str := [b!"Allow", b!"Deny", b!"Set"]

/-- The object has the members `ms`.  A `null` is taken for an object without members. -/
def Members (v : Value) (ms : List (Str × Value)) : Prop := v = .obj ms ∨ (v = .null ∧ ms = [])

/-- The setting `name` is written, with value `v`. -/
def Has (ms : List (Str × Value)) (name : Str) (v : Value) : Prop := ∃ key, Spells name key ∧ (key, v) ∈ ms

/-- The setting `name` is not written, or `null`. -/
def Unset (ms : List (Str × Value)) (name : Str) : Prop := ∀ v, Has ms name v → v = .null

/-- Every member is a setting. -/
def Known (names : List Str) (ms : List (Str × Value)) : Prop :=
  ∀ key v, (key, v) ∈ ms → ∃ n ∈ names, Spells n key

/-- No setting is written twice. -/
def Once (names : List Str) (ms : List (Str × Value)) : Prop :=
  ms.Pairwise fun a b => ∀ n ∈ names, ¬ (Spells n a.1 ∧ Spells n b.1)

/-- A string; in lists and maps, `null` stands for the empty one. -/
inductive IsText : Value → Str → Prop
  | str {s} : IsText (.str s) s
  | null : IsText .null []

/-- The setting is a string, `d` if it is unset. -/
def TextSetting (ms : List (Str × Value)) (name d s : Str) : Prop :=
  Has ms name (.str s) ∨ (Unset ms name ∧ s = d)

/-- The setting is an integer of 64 bits, `d` if it is unset. -/
def IntSetting (ms : List (Str × Value)) (name : Str) (d n : Int) : Prop :=
  (∃ lit, Has ms name (.num lit) ∧ Ddl.IntText lit n) ∨ (Unset ms name ∧ n = d)

/-- The setting is a port number, 0 if it is unset. -/
def PortSetting (ms : List (Str × Value)) (name : Str) (n : UInt16) : Prop :=
  (∃ lit, Has ms name (.num lit) ∧ Ddl.Numeral lit n.toNat) ∨ (Unset ms name ∧ n = 0)

/-- The setting is a list of strings, empty if it is unset. -/
def ListSetting (ms : List (Str × Value)) (name : Str) (l : List Str) : Prop :=
  (∃ vs, Has ms name (.arr vs) ∧ List.Forall₂ IsText vs l) ∨ (Unset ms name ∧ l = [])

/-- The setting is an object whose members are strings, empty if it is unset. -/
def MapSetting (ms : List (Str × Value)) (name : Str) (m : GoMap Str Str) : Prop :=
  (∃ kvs, Has ms name (.obj kvs) ∧ List.Forall₂ (fun p q => p.1 = q.1 ∧ IsText p.2 q.2) kvs m) ∨
    (Unset ms name ∧ m = [])

/-- The value of a setting that may be anything, `null` if it is not written. -/
def AnySetting (ms : List (Str × Value)) (name : Str) (v : Value) : Prop :=
  Has ms name v ∨ (Unset ms name ∧ v = .null)

/-- The value describes the environment filter `e`. -/
def EnvOf (v : Value) (e : Sh.Env) : Prop :=
  ∃ ms, Members v ms ∧ Known envNames ms ∧ ListSetting ms b!"Allow" e.allow ∧
    ListSetting ms b!"Deny" e.deny ∧ MapSetting ms b!"Set" e.set

/-- The setting is an environment filter. -/
def EnvSetting (ms : List (Str × Value)) (name : Str) (e : Sh.Env) : Prop :=
  ∃ v, AnySetting ms name v ∧ EnvOf v e

/-- The value of `config` describes the target `t` of class `class_`. -/
inductive TargetConfig (basedir : Str) (v : Value) : Str → Target → Prop
  | pg {ms t} : Members v ms → Known pgNames ms →
      IntSetting ms b!"Concurrency" 1 t.concurrency → TextSetting ms b!"Host" [] t.host →
      PortSetting ms b!"Port" t.port → TextSetting ms b!"sslmode" [] t.sslmode →
      TextSetting ms b!"Username" [] t.username → TextSetting ms b!"Password" [] t.password →
      TextSetting ms b!"Database" [] t.database → IntSetting ms b!"connect_retries" 0 t.connectRetries →
      TargetConfig basedir v b!"pg" (.pg t)
  | sh {ms t} : Members v ms → Known shNames ms →
      IntSetting ms b!"Concurrency" 1 t.concurrency → EnvSetting ms b!"Env" t.env →
      t.basedir = basedir → t.environ = [] →
      TargetConfig basedir v b!"sh" (.sh t)
  | demo {ms t} : Members v ms → Known demoNames ms → TextSetting ms b!"String" [] t.string →
      t.stdout = [] → TargetConfig basedir v b!"demo" (.demo t)

/-- The value of `config` describes the task config `c`, of one of the classes of the target. -/
inductive TaskConfig (v : Value) : Target → Str → Config → Prop
  | pgExec {t cls ms sql} : cls = [] ∨ cls = b!"exec" → Members v ms → Known sqlNames ms →
      TextSetting ms b!"sql" [] sql → TaskConfig v (.pg t) cls (.pgExec sql)
  | shExec {t cls ms x} : cls = [] ∨ cls = b!"exec" → Members v ms → Known execNames ms →
      ListSetting ms b!"Args" x.args → EnvSetting ms b!"Env" x.env →
      TaskConfig v (.sh t) cls (.shExec x)
  | echo {t} : Members v [] → TaskConfig v (.demo t) b!"echo" .echo
  | fail {t} : Members v [] → TaskConfig v (.demo t) b!"fail" .fail
  | rev {t} : Members v [] → TaskConfig v (.demo t) b!"rev" .rev
  | rot13 {t} : Members v [] → TaskConfig v (.demo t) b!"rot13" .rot13
  | sleep {t ms x} : Members v ms → Known sleepNames ms → IntSetting ms b!"Seconds" 0 x.seconds.toInt →
      TaskConfig v (.demo t) b!"sleep" (.sleep x)

/-- The value describes the target `t`. -/
def TargetIs (basedir : Str) (v : Value) (t : Target) : Prop :=
  ∃ ms cls cfg, v = .obj ms ∧ Known targetNames ms ∧ TextSetting ms b!"Class" [] cls ∧
    AnySetting ms b!"Config" cfg ∧ TargetConfig basedir cfg cls t ∧ Concurrent t

/-- The value describes the task `t`, for one of the targets `has`. -/
def TaskIs (has : Str → Target → Prop) (v : Value) (t : Task) : Prop :=
  ∃ ms ref cls tgt cfg c, v = .obj ms ∧ Known taskNames ms ∧ TextSetting ms b!"Target" [] ref ∧
    RefersTo ref t.target cls ∧ has t.target tgt ∧ AnySetting ms b!"Config" cfg ∧
    TaskConfig cfg tgt cls c ∧ Checked c t.config ∧ ListSetting ms b!"After" t.after ∧
    TextSetting ms b!"Message" [] t.message

/-- The file lists `v` under `id` in its section `name`. -/
def Lists (doc : Value) (name id : Str) (v : Value) : Prop :=
  ∃ ms kvs, doc = .obj ms ∧ Has ms name (.obj kvs) ∧ (id, v) ∈ kvs

/-- The file is an object, its members are the two sections, which are objects. -/
def Sections (doc : Value) : Prop :=
  ∃ ms, Members doc ms ∧ Known fileNames ms ∧
    ∀ name ∈ fileNames, Unset ms name ∨ ∃ kvs, Has ms name (.obj kvs)

/-- The file describes a runbook: every target and every task it lists is one. -/
structure Valid (basedir : Str) (doc : Value) : Prop where
  sections : Sections doc
  targets : ∀ id v, Lists doc b!"Targets" id v → ∃ t, TargetIs basedir v t
  tasks : ∀ id v, Lists doc b!"Tasks" id v → ∃ t,
    TaskIs (fun i u => ∃ v', Lists doc b!"Targets" i v' ∧ TargetIs basedir v' u) v t

/-- `book` is the runbook the file describes. -/
structure Describes (basedir : Str) (doc : Value) (book : Runbook) : Prop where
  targets : ∀ id t, (id, t) ∈ book.targets ↔ ∃ v, Lists doc b!"Targets" id v ∧ TargetIs basedir v t
  tasks : ∀ id t, (id, t) ∈ book.tasks ↔
    ∃ v, Lists doc b!"Tasks" id v ∧ TaskIs (fun i u => (i, u) ∈ book.targets) v t

/-! ## Files in which nothing is written twice -/

/-- No environment variable and no setting of a filter is given twice. -/
def PlainEnv (v : Value) : Prop :=
  ∀ ms, v = .obj ms → Once envNames ms ∧ ∀ kvs, Has ms b!"Set" (.obj kvs) → (kvs.map Prod.fst).Nodup

/-- No setting of a config is given twice. -/
def PlainConfig (v : Value) : Prop :=
  ∀ ms, v = .obj ms →
    Once (pgNames ++ shNames ++ demoNames ++ sqlNames ++ execNames ++ sleepNames) ms ∧
      ∀ e, Has ms b!"Env" e → PlainEnv e

/-- No setting of a target or task is given twice. -/
def PlainEntry (names : List Str) (v : Value) : Prop :=
  ∀ ms, v = .obj ms → Once names ms ∧ ∀ c, Has ms b!"Config" c → PlainConfig c

/-- No setting, no target and no task is given twice. -/
def Plain (doc : Value) : Prop :=
  ∀ ms, doc = .obj ms → Once fileNames ms ∧
    (∀ kvs, Has ms b!"Targets" (.obj kvs) →
      (kvs.map Prod.fst).Nodup ∧ ∀ id v, (id, v) ∈ kvs → PlainEntry targetNames v) ∧
    (∀ kvs, Has ms b!"Tasks" (.obj kvs) →
      (kvs.map Prod.fst).Nodup ∧ ∀ id v, (id, v) ∈ kvs → PlainEntry taskNames v)

end Verif.Json.Spec
