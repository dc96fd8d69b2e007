import Verif.Base.KernelRfl
import Verif.Hcl.Props
import Verif.Hcl.TextOk
import Verif.Hcl.TextParse
import Verif.Hcl.Texts

/-!
# C112: the text of a schema file
-/

namespace Verif.Hcl
open Verif Read

section
variable {F N : Type} {isPrint : Nat → Bool} {showN : N → Str} {readN : Str → Option N}

/-- C112 for documents: the text that is printed for a document has the document in it. -/
theorem C112_document (hp : isPrint 0x7B = true) (hN : Numerals showN readN) (doc : List (Item N))
    (h : BodyOk doc) : document readN (print isPrint showN doc) = some doc := document_print hp hN h

/-- C112: the file written for a database has a document in it which is read as the database, with every
text in normal form. -/
theorem C112_text {L : Lib F N} (hL : L.Sound) (hU : ∀ s, Utf8.Valid s → Utf8.Valid (L.nfc s))
    (hp : isPrint 0x7B = true) (hN : Numerals showN readN) (db : Database F) (hf : databaseFits db)
    (ht : databaseTexts Utf8.Valid db) :
    ∃ doc, document readN (print isPrint showN (write L db)) = some doc ∧
      parse L doc = .ok (databaseNorm L.nfc db) :=
  ⟨_, document_print hp hN (database_ok (texts_imp hU ht)).2, C81_read_back hL db hf⟩

/-- C112: databases with the same file are the same, up to the normal form of texts. -/
theorem C112_same_file {L : Lib F N} (hL : L.Sound) (hU : ∀ s, Utf8.Valid s → Utf8.Valid (L.nfc s))
    (hp : isPrint 0x7B = true) (hN : Numerals showN readN) (db db' : Database F) (hf : databaseFits db)
    (hf' : databaseFits db') (ht : databaseTexts Utf8.Valid db) (ht' : databaseTexts Utf8.Valid db')
    (h : print isPrint showN (write L db) = print isPrint showN (write L db')) :
    databaseNorm L.nfc db = databaseNorm L.nfc db' := by
  obtain ⟨doc, h1, h2⟩ := C112_text hL hU hp hN db hf ht
  obtain ⟨doc', h1', h2'⟩ := C112_text hL hU hp hN db' hf' ht'
  rw [h, h1'] at h1
  cases h1
  rw [h2] at h2'
  exact Except.ok.inj h2'

end

/-! ## Whole numbers -/

def decDigit (n : Nat) : UInt8 := UInt8.ofNat (48 + n)

/-- The decimal digits of a number (with enough fuel). -/
def natDigits : Nat → Nat → Str
  | 0, _ => []
  | k + 1, n => if n < 10 then [decDigit n] else natDigits k (n / 10) ++ [decDigit (n % 10)]

def natText (n : Nat) : Str := natDigits (n + 1) n

/-- `big.Float.Text('f', -1)` for a whole number. -/
def showInt : Int → Str
  | .ofNat n => natText n
  | .negSucc n => 0x2D :: natText (n + 1)

/-- The number in a list of digits. -/
def readNat : Nat → Str → Option Nat
  | n, [] => some n
  | n, c :: s => if digit c then readNat (10 * n + (c.toNat - 48)) s else none

def readInt : Str → Option Int
  | 0x2D :: s => (readNat 0 s).map fun n => -n
  | s => (readNat 0 s).map fun n => n

theorem decDigit_facts : ∀ n, n < 10 → digit (decDigit n) = true ∧ (decDigit n).toNat - 48 = n ∧ decDigit n ≠ 0x2D := by
  decide

theorem readNat_append (s t : Str) : ∀ n, readNat n (s ++ t) = (readNat n s).bind fun m => readNat m t := by
  induction s with
  | nil => intro n; rfl
  | cons c s ih =>
    intro n
    simp only [List.cons_append, readNat]
    split
    · exact ih _
    · rfl

theorem readNat_digits : ∀ k n, n < k → readNat 0 (natDigits k n) = some n
  | 0, n, h => by omega
  | k + 1, n, h => by
    rw [natDigits]
    split
    · next h10 =>
      obtain ⟨h1, h2, _⟩ := decDigit_facts n h10
      simp [readNat, h1, h2]
    · obtain ⟨h1, h2, _⟩ := decDigit_facts (n % 10) (by omega)
      rw [readNat_append, readNat_digits k (n / 10) (by omega)]
      simp only [Option.bind_some, readNat, h1, h2, if_true]
      congr 1
      omega

theorem natDigits_digits : ∀ k n, n < k → Digits (natDigits k n) ∧ ∀ c ∈ natDigits k n, digit c = true
  | 0, n, h => by omega
  | k + 1, n, h => by
    rw [natDigits]
    split
    · next h10 =>
      have := (decDigit_facts n h10).1
      exact ⟨⟨this, by simp⟩, by simpa using this⟩
    · obtain ⟨h1, h2⟩ := natDigits_digits k (n / 10) (by omega)
      have h3 := (decDigit_facts (n % 10) (by omega)).1
      revert h1 h2
      generalize natDigits k (n / 10) = ds
      intro h1 h2
      cases ds with
      | nil => cases h1
      | cons d ds =>
        refine ⟨⟨h1.1, ?_⟩, ?_⟩
        · intro c hc
          rcases List.mem_append.1 hc with hc | hc
          · exact h1.2 c hc
          · rw [List.mem_singleton.1 hc]
            simp [numByte, h3]
        · intro c hc
          simp only [List.mem_append, List.mem_singleton] at hc
          rcases hc with hc | rfl
          · exact h2 c hc
          · exact h3

/-- Whole numbers are read as they were written. -/
theorem int_numerals : Numerals showInt readInt where
  read
    | .ofNat n => by
      have h1 := readNat_digits (n + 1) n (by omega)
      have h2 := (natDigits_digits (n + 1) n (by omega)).1
      rw [showInt, natText, readInt.eq_def]
      split
      · next s e => rw [e] at h2; exact absurd h2.1 (by decide)
      · rw [h1]; rfl
    | .negSucc n => by
      have h1 := readNat_digits (n + 1 + 1) (n + 1) (by omega)
      simp only [showInt, natText, readInt, h1, Option.map_some]
      rfl
  form
    | .ofNat n => .inl (natDigits_digits (n + 1) n (by omega)).1
    | .negSucc n => .inr ⟨_, rfl, (natDigits_digits (n + 1 + 1) (n + 1) (by omega)).1⟩

/-! ## The files in the repository -/

/-- ASCII is printed as it is. -/
def asciiPrint (r : Nat) : Bool := decide (32 ≤ r) && decide (r < 127)

/-- ddl_test.go:166-180: for the database of the test the model prints testdata/expected.hcl, byte for
byte. -/
theorem expected_text : print asciiPrint showInt (write (plain id) exampleDb) = Texts.expectedText := by
  kernel_rfl

/-- docker_integration_test.go:29-36: the output of an inspection in the repository is printed so, byte for
byte. -/
theorem docker_text : print asciiPrint showInt Docs.dockerDoc = Texts.dockerText := by kernel_rfl

set_option maxRecDepth 100000 in
/-- The files of the tests are read as the documents in `Docs.lean`. -/
theorem texts_read :
    document readInt Texts.exampleText = some Docs.exampleDoc ∧
    document readInt Texts.expectedText = some Docs.expectedDoc ∧
    document readInt Texts.settingsText = some Docs.settingsDoc ∧
    document readInt Texts.dockerText = some Docs.dockerDoc := by
  refine ⟨?_, ?_, ?_, ?_⟩ <;> kernel_rfl

/-- C112 for the file of the test: read again, it is the database of the test. -/
theorem expected_read : ∃ doc, document readInt Texts.expectedText = some doc ∧ parse (plain id) doc = .ok exampleDb :=
  ⟨_, texts_read.2.1, rfl⟩

/-- A text with a byte which is not UTF-8 is not read back: the file has U+FFFD in its place. So C112
cannot be had for all texts. -/
theorem C112_not_utf8 : ∃ db : Database Int, databaseFits db ∧
    ∃ doc, document readInt (print asciiPrint showInt (write (plain id) db)) = some doc ∧
      ∃ db', parse (plain id) doc = .ok db' ∧ db' ≠ databaseNorm (plain id).nfc db := by
  refine ⟨{ schemas := [{ name := [0xFF] }] }, ⟨by simp, by simp⟩, [.block b!"schema" [[0xEF, 0xBF, 0xBD]]
    [.attr b!"owner" (.str []), .attr b!"comment" (.str [])]], by kernel_rfl,
    { schemas := [{ name := [0xEF, 0xBF, 0xBD] }] }, rfl, ?_⟩
  intro h
  have := congrArg (fun d => d.schemas.map (·.name)) h
  revert this
  decide

/-- The database of the test meets the hypotheses; so do texts with quotes, templates and characters which
are not printed. -/
example : databaseTexts Utf8.Valid exampleDb := by
  have h : ∀ s : Str, Utf8.encode (Utf8.decode s) = s → Utf8.Valid s := fun s => Utf8.valid_iff.2
  refine texts_imp h ?_
  simp [databaseTexts, exampleDb, parametersTexts, schemaTexts, functionTexts, sequenceTexts,
    sequenceOwnerTexts, tableTexts, columnTexts, foreignKeyTexts, triggerTexts]
  (repeat' apply And.intro) <;> decide +kernel

example : quoted asciiPrint b!"${a} $5 %{\"\\\n\u0001" = b!"\"$${a} $5 %%{\\\"\\\\\\n\\u0001\"" := by decide

end Verif.Hcl
