import Verif.Sql.InspectSpec
import Verif.Pg.SessionSpec

/-!
# A server that is sent texts (specification)

`Serves` (Serve.lean) speaks of the answers to each of the statements package pg sends. Here the server
is given nothing but the text and the values of `$1`, `$2`, `$3`, and answers what the text says.
-/

namespace Verif.Sql
open Verif Verif.Pg Verif.Pg.Session

/-- The queries the server is known to understand. -/
def queries : List Select :=
  [listSchemas, listTables, describeFunction, listFunctions, listColumns, listChecks, listForeignKeys,
   listIndexes, describeTrigger, listTriggers, listSequences, listSequencesPre10]

/-- `q` is what `conn.Query` may give for a text with parameters, if the text is one of the queries. -/
def TextGives {ρ : Type} (db : Db) (text : Str) (params : List Str) (read : List Val → Option ρ)
    (q : Query ρ) : Prop :=
  ∀ s ∈ queries, IsText text s.toks → Gives db s params read q

/-- Likewise for `conn.QueryRow`. -/
def TextGivesRow {ρ : Type} (db : Db) (text : Str) (params : List Str) (read : List Val → Option ρ)
    (q : QueryRow ρ) : Prop :=
  ∀ s ∈ queries, IsText text s.toks → GivesRow db s params read q

/-- The settings of a session: what `SHOW name` shows. -/
abbrev Settings := Str → Str

/-- `r` is what the server may answer to a text, if the text is `SHOW name`. -/
def Shows (settings : Settings) (text : Str) (r : QueryRow (Option Str)) : Prop :=
  ∀ name, text = b!"SHOW " ++ name → (∃ n, r = .error (.query n)) ∨ r = .ok (some (some (settings name)))

/-- `r` is what a server that holds `db` may answer to the text and the arguments of `a`. The rows are
read the way the function that sent it reads them. -/
def Replies (db : Db) (settings : Settings) : (a : Ask) → a.Answer → Prop
  | a@.schemas, r => TextGives db a.text a.args readSchema r
  | a@.tables, r => TextGives db a.text a.args readTable r
  | a@.functions, r => TextGives db a.text a.args readFunction r
  | a@(.function _ _), r => TextGivesRow db a.text a.args readDescribed r
  | a@(.columns _ _), r => TextGives db a.text a.args readColumn r
  | a@(.checks _ _), r => TextGives db a.text a.args readDef r
  | a@(.foreignKeys _ _), r => TextGives db a.text a.args readDef r
  | a@(.indexes _ _), r => TextGives db a.text a.args readIndex r
  | a@(.triggers _ _), r => TextGives db a.text a.args readDef r
  | a@(.trigger _ _ _), r => TextGivesRow db a.text a.args readText r
  | a@(.storage _ _), r => ∀ s ∈ [listTableStorageParameters], IsText a.text s.unnestToks →
    match r with
    | .error e => ∃ n, e = .query n
    | .ok st => ∃ res, s.UnnestAnswer db a.args res ∧ Carries st (res.map some)
  | a@.hasView, r => ∀ s ∈ [hasSequencesView], IsText a.text s.existsToks →
    match r with
    | .error e => ∃ n, e = .query n
    | .ok r => r = some (some (s.exists_ db a.args))
  | a@.sequences, r => hasSequencesView.exists_ db [] = true → TextGives db a.text a.args readSequence r
  | a@.legacySequences, r => TextGives db a.text a.args readLegacySequence r
  | a@(.sequence _ _), r => ∀ s n, Asks a.text s n →
    match r with
    | .error e => ∃ n, e = .query n
    | .ok none => False
    | .ok (some v) => SequenceIs db s n v
  | a@.searchPath, r => Shows settings a.text r
  | a@.timezone, r => Shows settings a.text r
  | .version, _ | .exec _, _ => True

/-- The parameters are those of the session; the search path is the setting, cut at its commas. -/
def ParametersOf (settings : Settings) (p : Parameters) : Prop :=
  List.intercalate b!"," p.searchPath = settings b!"search_path" ∧ p.searchPath ≠ [] ∧
  (∀ x ∈ p.searchPath, (44 : UInt8) ∉ x) ∧ p.timezone = settings b!"timezone"

/-- The connection does not fail between two rows of an answer. -/
def Whole : (a : Ask) → a.Answer → Prop
  | .schemas, r => Unbroken r
  | .tables, r => Unbroken r
  | .functions, r => Unbroken r
  | .sequences, r => Unbroken r
  | .legacySequences, r => Unbroken r
  | .columns _ _, r => Unbroken r
  | .checks _ _, r => Unbroken r
  | .foreignKeys _ _, r => Unbroken r
  | .storage _ _, r => Unbroken r
  | .indexes _ _, r => Unbroken r
  | .triggers _ _, r => Unbroken r
  | _, _ => True

end Verif.Sql
