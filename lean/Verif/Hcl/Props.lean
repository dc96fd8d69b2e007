import Verif.Hcl.FormLemmas
import Verif.Hcl.Docs
import Verif.Hcl.Laws
import Verif.Hcl.Strict
import Verif.Hcl.Fits
import Verif.Ddl.ParamsProps

/-!
# C81-C84: databases as documents
-/

namespace Verif.Hcl
open Verif

/-! ## An example: a library, and the database of ddl_test.go -/

/-- A library with the conversions that do nothing; `nfc` is a parameter. -/
def plain (nfc : Str → Str) : Lib Int Int where
  nfc := nfc
  ofInt := id
  ofFloat := id
  toInt n := if -2 ^ 63 ≤ n ∧ n < 2 ^ 63 then some n else none
  toFloat := some
  convert
    | _, .null => some .null
    | .string, .str s => some (.str s)
    | .bool, .bool b => some (.bool b)
    | .number, .num n => some (.num n)
    | .strings, .list l => some (.list l)
    | _, _ => none

theorem plain_sound (nfc : Str → Str) : (plain nfc).Sound where
  int i h := if_pos h
  float _ := rfl
  string _ := rfl
  bool _ := rfl
  number _ := rfl
  strings _ := rfl
  null k := by cases k <;> rfl
  range n i h := by
    simp only [plain] at h
    split at h
    · cases h
      assumption
    · cases h

/-- ddl_test.go:20-106 -/
def exampleDb : Database Int where
  parameters := some { searchPath := [b!"$user", b!"public"] }
  schemas := [{ name := b!"public" }]
  functions := [{
    schema := b!"public", name := b!"update_modified_column", returns := b!"trigger"
    language := b!"plpgsql", definition := b!"BEGIN\n  NEW.modified = now();\n  RETURN NEW;\nEND;\n" }]
  sequences := [
    { schema := b!"public", name := b!"bar_id_seq", start := 1, minimum := 1, maximum := 2147483647
      increment := 1, cache := 1
      ownedBy := some { schema := b!"public", table := b!"bar", column := b!"id" } },
    { schema := b!"public", name := b!"foo_id_seq", maximum := 2147483647 }]
  tables := [
    { table := {
        schema := b!"public", name := b!"bar"
        columns := [
          { name := b!"id", type := b!"integer", notNull := true, default_ := b!"nextval('bar_id_seq'::regclass)" },
          { name := b!"foo_id", type := b!"integer", notNull := true }]
        foreignKeys := [{ table := b!"foo", columns := [b!"foo_id"], referenced := [b!"id"] }] } },
    { table := {
        schema := b!"public", name := b!"foo", comment := b!"A simple test case"
        columns := [
          { name := b!"id", type := b!"integer", notNull := true, default_ := b!"nextval('foo_id_seq'::regclass)" },
          { name := b!"created", type := b!"timestamp with time zone", notNull := true, default_ := b!"now()" },
          { name := b!"modified", type := b!"timestamp with time zone", notNull := true, default_ := b!"now()" },
          { name := b!"key", type := b!"character varying(50)", notNull := true },
          { name := b!"value", type := b!"character varying(500)" }] } }]
  triggers := [{
    schema := b!"public", table := b!"foo", name := b!"update_foo_modified"
    function := b!"update_modified_column", when_ := b!"before", update := true, forEachRow := true }]

/-- ddl_test.go:108-125: what the model makes of testdata/example.hcl. -/
example : parse (plain id) Docs.exampleDoc = .ok exampleDb := rfl

/-- ddl_test.go:166-180: the model writes testdata/expected.hcl. -/
example : write (plain id) exampleDb = Docs.expectedDoc := rfl

/-- docker_integration_test.go:29-36: the output of an inspection in the repository is of the form the
model writes. -/
example : ∃ db : Database Int, parse (plain id) Docs.dockerDoc = .ok db ∧
    write (plain id) db = Docs.dockerDoc := ⟨_, rfl, rfl⟩

section
variable {F N : Type}

/-! ## C81: what is written is read back -/

/-- C81, exactly: a database which was written is read back, with every text in normal form. -/
theorem C81_read_back {L : Lib F N} (hL : L.Sound) (db : Database F) (h : databaseFits db) :
    parse L (write L db) = .ok (databaseNorm L.nfc db) :=
  (database_law hL).decode db h

/-- C81, partial: unchanged if every text was in normal form. -/
theorem C81_partial {L : Lib F N} (hL : L.Sound) (db : Database F) (h : databaseFits db)
    (ht : databaseTexts (fun s => L.nfc s = s) db) : parse L (write L db) = .ok db := by
  rw [C81_read_back hL db h, norm_database ht]

/-- C81 does not hold for texts which are not in normal form. -/
theorem C81_refuted {L : Lib F N} (hL : L.Sound) (s : Str) (hs : L.nfc s ≠ s) :
    ∃ db : Database F, databaseFits db ∧ ∃ db', parse L (write L db) = .ok db' ∧ db' ≠ db := by
  refine ⟨{ schemas := [{ comment := s }] }, ⟨by simp, by simp⟩, _, C81_read_back hL _ ⟨by simp, by simp⟩, ?_⟩
  intro he
  have := congrArg (fun d => d.schemas.map (·.comment)) he
  simp [databaseNorm, schemaNorm] at this
  exact hs this

/-- The database of the test meets the hypotheses. -/
example : (plain id).Sound ∧ databaseFits exampleDb ∧ databaseTexts (fun s => (plain id).nfc s = s) exampleDb := by
  refine ⟨plain_sound id, ?_, ?_⟩
  · simp [databaseFits, exampleDb, sequenceFits, tableFits, Int64]
  · simp [databaseTexts, exampleDb, plain, parametersTexts, schemaTexts, functionTexts, sequenceTexts,
      sequenceOwnerTexts, tableTexts, columnTexts, foreignKeyTexts, triggerTexts]

/-- An e with a combining accent is not in normal form. -/
def accent (s : Str) : Str := if s = [0x65, 0xCC, 0x81] then [0xC3, 0xA9] else s

example : (plain accent).Sound ∧ (plain accent).nfc [0x65, 0xCC, 0x81] ≠ [0x65, 0xCC, 0x81] :=
  ⟨plain_sound accent, by decide⟩

/-- C81 for an inspection: what `pgutil inspect` wrote is read as the database it saw, in every part. -/
theorem C81_inspected_partial {L : Lib F N} (hL : L.Sound) (d : Pg.Database F) (h : databaseFits (ofInspect d))
    (ht : databaseTexts (fun s => L.nfc s = s) (ofInspect d)) :
    ∃ db, parse L (write L (ofInspect d)) = .ok db ∧
      db.parameters = some d.parameters ∧ db.schemas = d.schemas ∧ db.functions = d.functions ∧
      db.sequences = d.sequences ∧
      db.tables.map (fun t => (t.table, t.storageParameters)) =
        d.tables.map (fun t => (t.table, some t.storage)) ∧
      db.indexes = d.indexes ∧ db.triggers = d.triggers :=
  ⟨_, C81_partial hL _ h ht, rfl, rfl, rfl, rfl, by simp [ofInspect], rfl, rfl⟩

/-! ## C82: strictness -/

/-- C82: a document is read exactly if every attribute and every block in it is known, and has the
right form. -/
theorem C82_strict (L : Lib F N) (doc : List (Item N)) :
    (∃ db, parse L doc = .ok db) ↔ Conforms L b!"Database" [] doc :=
  (database_strict (L := L)).2 [] doc

/-- The document of the test is of the right form. -/
example : Conforms (plain id) b!"Database" [] Docs.exampleDoc := (C82_strict _ _).1 ⟨exampleDb, rfl⟩

/-- A misspelt attribute. -/
example : ¬ Conforms (plain id) b!"Database" [] [.block b!"schema" [b!"public"] [.attr b!"onwer" (.str b!"me")]] := by
  rw [← C82_strict]
  rintro ⟨db, h⟩
  cases h

/-- A trigger without its function. -/
example : ¬ Conforms (plain id) b!"Database" []
    [.block b!"trigger" [b!"public", b!"t", b!"g"] [.attr b!"when" (.str b!"before")]] := by
  rw [← C82_strict]
  rintro ⟨db, h⟩
  cases h

/-! ## C83: nothing is lost -/

/-- C83: whatever a document said that could be read, is said by the document which is written from
it. -/
theorem C83_kept (L : Lib F N) (doc : List (Item N)) (db : Database F) (h : parse L doc = .ok db) :
    Rewritten L b!"Database" [] doc [] (write L db) :=
  (database_keeps (L := L)).2 [] doc db h

/-- C83: and writing it once more changes nothing. -/
theorem C83_stable {L : Lib F N} (hL : L.Sound) (hn : ∀ s, L.nfc (L.nfc s) = L.nfc s)
    (doc : List (Item N)) (db : Database F) (h : parse L doc = .ok db) :
    ∃ db', parse L (write L db) = .ok db' ∧ write L db' = write L db :=
  ⟨_, C81_read_back hL db (database_fits hL _ _ _ h), by
    rw [write_form, write_form, document_norm hn]⟩

/-- The document of the test meets the hypotheses, and writing it does not give the same document. -/
example : parse (plain id) Docs.exampleDoc = .ok exampleDb ∧ write (plain id) exampleDb = Docs.expectedDoc ∧
    (∀ s, (plain id).nfc ((plain id).nfc s) = (plain id).nfc s) := ⟨rfl, rfl, fun _ => rfl⟩

/-! ## C84: the form of a written document -/

/-- C84: what is written has the documented form: every object is a block with its identity as
labels, and every property stands under its own name. -/
theorem C84_written (L : Lib F N) (db : Database F) : write L db = Form.document L db := write_form L db

/-- C84: a storage parameter is written under PostgreSQL's name for it, if it is set. -/
theorem C84_storage (L : Lib F N) (p : Ddl.Params F) (key : Str) (k : Ddl.Kind)
    (h : (key, k) ∈ Ddl.knownParams) (body : List (Item N))
    (hb : Form.tableStorageParametersDoc L p = .block b!"storage_parameters" [] body) :
    attrs body key = (p.get key).toList.map fun v => .attr key (Form.paramValue L v) :=
  attrs_storage L p key k h body hb

example : (b!"fillfactor", Ddl.Kind.int) ∈ Ddl.knownParams ∧
    Form.tableStorageParametersDoc (plain id) { fillfactor := some 70 } =
      .block b!"storage_parameters" [] [.attr b!"fillfactor" (.num 70)] := ⟨by decide, rfl⟩

end

end Verif.Hcl
