import Verif.Base.KernelRfl
import Verif.Json.Examples
import Verif.Run.Success

/-!
# The examples that come with pgutil, under every schedule
-/

namespace Verif.Json
open Verif Book Run Run.Spec

theorem runs_reach {tx : Text} {basedir : Str} {proc : Proc} {doc : Value} {src : Src} {book : Runbook} {st : Runner.St}
    {w : World} (h : Runs tx basedir proc doc (.running book st w)) (hd : decodeFile tx doc = .ok src) :
    Reach (decoder tx) basedir proc src (.running book st w) := by
  cases h with
  | decoded hd' h =>
    rw [hd] at hd'
    cases hd'
    exact h

/-! ## examples/demo.jsonnet -/

/-- examples/demo.jsonnet `encrypted` -/
def encrypted (msg : Str) : Value :=
  .obj [(b!"class", .str b!"demo"), (b!"config", .obj [(b!"string", .str msg)])]

/-- examples/demo.jsonnet `decrypt` -/
def decrypt (target : Str) : List (Str × Value) := [
  (target ++ b!"/decrypted", .obj [
    (b!"after", .arr [.str (target ++ b!"/reverse"), .str (target ++ b!"/rotate")]),
    (b!"target", .str (target ++ b!"/echo"))]),
  (target ++ b!"/reverse", .obj [(b!"target", .str (target ++ b!"/rev"))]),
  (target ++ b!"/rotate", .obj [(b!"target", .str (target ++ b!"/rot13"))])]

/-- examples/demo.jsonnet, evaluated -/
def demo : Value := .obj [
  (b!"targets", .obj [
    (b!"msg1", encrypted b!"!abbcF"),
    (b!"msg2", encrypted b!".rvy n fv rxnp ruG"),
    (b!"msg3", encrypted b!".revczni n fv qyebj ruG")]),
  (b!"tasks", .obj (decrypt b!"msg1" ++ decrypt b!"msg2" ++ decrypt b!"msg3"))]

def demoSrc (tx : Text) : Src where
  targets := [
    (b!"msg1", some ⟨b!"demo", tx.raw (.obj [(b!"string", .str b!"!abbcF")])⟩),
    (b!"msg2", some ⟨b!"demo", tx.raw (.obj [(b!"string", .str b!".rvy n fv rxnp ruG")])⟩),
    (b!"msg3", some ⟨b!"demo", tx.raw (.obj [(b!"string", .str b!".revczni n fv qyebj ruG")])⟩)]
  tasks := [
    (b!"msg1/decrypted", some ⟨[b!"msg1/reverse", b!"msg1/rotate"], b!"msg1/echo", [], []⟩),
    (b!"msg1/reverse", some ⟨[], b!"msg1/rev", [], []⟩),
    (b!"msg1/rotate", some ⟨[], b!"msg1/rot13", [], []⟩),
    (b!"msg2/decrypted", some ⟨[b!"msg2/reverse", b!"msg2/rotate"], b!"msg2/echo", [], []⟩),
    (b!"msg2/reverse", some ⟨[], b!"msg2/rev", [], []⟩),
    (b!"msg2/rotate", some ⟨[], b!"msg2/rot13", [], []⟩),
    (b!"msg3/decrypted", some ⟨[b!"msg3/reverse", b!"msg3/rotate"], b!"msg3/echo", [], []⟩),
    (b!"msg3/reverse", some ⟨[], b!"msg3/rev", [], []⟩),
    (b!"msg3/rotate", some ⟨[], b!"msg3/rot13", [], []⟩)]

theorem demo_decode (tx : Text) : decodeFile tx demo = .ok (demoSrc tx) := rfl

def demoBook : Runbook where
  targets := [
    (b!"msg1", .demo { string := b!"!abbcF" }),
    (b!"msg2", .demo { string := b!".rvy n fv rxnp ruG" }),
    (b!"msg3", .demo { string := b!".revczni n fv qyebj ruG" })]
  tasks := [
    (b!"msg1/decrypted", ⟨b!"msg1", [b!"msg1/reverse", b!"msg1/rotate"], [], .echo⟩),
    (b!"msg1/reverse", ⟨b!"msg1", [], [], .rev⟩),
    (b!"msg1/rotate", ⟨b!"msg1", [], [], .rot13⟩),
    (b!"msg2/decrypted", ⟨b!"msg2", [b!"msg2/reverse", b!"msg2/rotate"], [], .echo⟩),
    (b!"msg2/reverse", ⟨b!"msg2", [], [], .rev⟩),
    (b!"msg2/rotate", ⟨b!"msg2", [], [], .rot13⟩),
    (b!"msg3/decrypted", ⟨b!"msg3", [b!"msg3/reverse", b!"msg3/rotate"], [], .echo⟩),
    (b!"msg3/reverse", ⟨b!"msg3", [], [], .rev⟩),
    (b!"msg3/rotate", ⟨b!"msg3", [], [], .rot13⟩)]

theorem demo_parse (tx : Text) (basedir : Str) : Book.parse (decoder tx) basedir (demoSrc tx) = .ok demoBook := by
  simp only [Book.parse, demoSrc, loadTargets, loadTarget_raw]
  rfl

theorem demo_ordered (tx : Text) : Run.Spec.Ordered (demoSrc tx) := by
  refine Run.ordered_of [b!"msg1/reverse", b!"msg1/rotate", b!"msg2/reverse", b!"msg2/rotate", b!"msg3/reverse",
    b!"msg3/rotate", b!"msg1/decrypted", b!"msg2/decrypted", b!"msg3/decrypted"] ?_
  simp [demoSrc, GoMap.keys]

/-- The tasks of the file, for each of the three messages. -/
theorem demo_tasks {q c id} (h : IsTask demoBook q c id) :
    q ∈ [b!"msg1", b!"msg2", b!"msg3"] ∧ ((c = .echo ∧ id = q ++ b!"/decrypted") ∨
      (c = .rev ∧ id = q ++ b!"/reverse") ∨ (c = .rot13 ∧ id = q ++ b!"/rotate")) := by
  rw [isTask_iff] at h
  simp only [demoBook, List.map_cons, List.map_nil, List.mem_cons, Prod.mk.injEq, List.not_mem_nil, or_false] at h
  rcases h with ⟨rfl, rfl, rfl⟩ | ⟨rfl, rfl, rfl⟩ | ⟨rfl, rfl, rfl⟩ | ⟨rfl, rfl, rfl⟩ | ⟨rfl, rfl, rfl⟩ |
    ⟨rfl, rfl, rfl⟩ | ⟨rfl, rfl, rfl⟩ | ⟨rfl, rfl, rfl⟩ | ⟨rfl, rfl, rfl⟩ <;> simp

theorem demo_after (tx : Text) : ∀ q ∈ [b!"msg1", b!"msg2", b!"msg3"],
    IsTask demoBook q .echo (q ++ b!"/decrypted") ∧ IsTask demoBook q .rev (q ++ b!"/reverse") ∧
    IsTask demoBook q .rot13 (q ++ b!"/rotate") ∧ Follows (demoSrc tx) (q ++ b!"/decrypted") (q ++ b!"/reverse") ∧
    Follows (demoSrc tx) (q ++ b!"/decrypted") (q ++ b!"/rotate") := by
  intro q hq
  simp only [List.mem_cons, List.not_mem_nil, or_false] at hq
  rcases hq with rfl | rfl | rfl <;>
    exact ⟨isTask_iff.mpr (by decide), isTask_iff.mpr (by decide), isTask_iff.mpr (by decide),
      .single (depends_iff.mp rfl), .single (depends_iff.mp rfl)⟩

theorem demo_determined (tx : Text) :
    Determined (demoSrc tx) demoBook [b!"msg1/decrypted", b!"msg2/decrypted", b!"msg3/decrypted"] := by
  have hd : ∀ e, ¬ Doomed (demoSrc tx) demoBook e := by
    rintro e ⟨q, f, h, _⟩
    obtain ⟨_, ⟨h, _⟩ | ⟨h, _⟩ | ⟨h, _⟩⟩ := demo_tasks h <;> cases h
  refine ⟨by decide, ?_, ?_⟩
  · intro e
    constructor
    · intro h
      refine ⟨?_, hd e⟩
      simp only [List.mem_cons, List.not_mem_nil, or_false] at h
      rcases h with rfl | rfl | rfl
      · exact ⟨_, (demo_after tx b!"msg1" (by simp)).1⟩
      · exact ⟨_, (demo_after tx b!"msg2" (by simp)).1⟩
      · exact ⟨_, (demo_after tx b!"msg3" (by simp)).1⟩
    · rintro ⟨⟨q, h⟩, _⟩
      obtain ⟨hq, ⟨_, rfl⟩ | ⟨h, _⟩ | ⟨h, _⟩⟩ := demo_tasks h
      · simp only [List.mem_cons, List.not_mem_nil, or_false] at hq
        rcases hq with rfl | rfl | rfl <;> simp
      · cases h
      · cases h
  · intro e he q hq x hx
    obtain ⟨hq', ⟨_, rfl⟩ | ⟨h, _⟩ | ⟨h, _⟩⟩ := demo_tasks hq
    · left
      rcases hx with hx | hx
      · obtain ⟨_, ⟨h, _⟩ | ⟨_, rfl⟩ | ⟨h, _⟩⟩ := demo_tasks hx
        · cases h
        · exact (demo_after tx q hq').2.2.2.1
        · cases h
      · obtain ⟨_, ⟨h, _⟩ | ⟨h, _⟩ | ⟨_, rfl⟩⟩ := demo_tasks hx
        · cases h
        · cases h
        · exact (demo_after tx q hq').2.2.2.2
    · cases h
    · cases h

/-- What is read in the texts of examples/demo.jsonnet. -/
def demoLine (e : Str) : Str :=
  if e = b!"msg1/decrypted" then b!"Spoon!\n"
  else if e = b!"msg2/decrypted" then b!"The cake is a lie.\n"
  else b!"The world is a vampire.\n"

theorem demo_prints (tx : Text) : ∀ e ∈ [b!"msg1/decrypted", b!"msg2/decrypted", b!"msg3/decrypted"],
    Prints (demoSrc tx) demoBook e (demoLine e) := by
  have hset : ∀ q ∈ [b!"msg1", b!"msg2", b!"msg3"],
      {x | IsTask demoBook q .rev x ∧ Follows (demoSrc tx) (q ++ b!"/decrypted") x}.ncard = 1 ∧
      {x | IsTask demoBook q .rot13 x ∧ Follows (demoSrc tx) (q ++ b!"/decrypted") x}.ncard = 1 := by
    intro q hq
    obtain ⟨_, h2, h3, h4, h5⟩   := demo_after tx q hq
    constructor
    · refine Set.ncard_eq_one.2 ⟨q ++ b!"/reverse", Set.eq_singleton_iff_unique_mem.2 ⟨⟨h2, h4⟩, ?_⟩⟩
      rintro x ⟨hx, _⟩
      obtain ⟨_, ⟨h, _⟩ | ⟨_, rfl⟩ | ⟨h, _⟩⟩ := demo_tasks hx
      · cases h
      · rfl
      · cases h
    · refine Set.ncard_eq_one.2 ⟨q ++ b!"/rotate", Set.eq_singleton_iff_unique_mem.2 ⟨⟨h3, h5⟩, ?_⟩⟩
      rintro x ⟨hx, _⟩
      obtain ⟨_, ⟨h, _⟩ | ⟨h, _⟩ | ⟨_, rfl⟩⟩ := demo_tasks hx
      · cases h
      · cases h
      · rfl
  intro e he
  simp only [List.mem_cons, List.not_mem_nil, or_false] at he
  rcases he with rfl | rfl | rfl
  · obtain ⟨h1, h2⟩ := hset b!"msg1" (by simp)
    simp only [List.cons_append, List.nil_append] at h1 h2
    refine ⟨b!"msg1", _, "!abbcF".toList, (demo_after tx b!"msg1" (by simp)).1, by simp [demoBook]; rfl, by decide, ?_⟩
    rw [h1, h2]
    decide
  · obtain ⟨h1, h2⟩ := hset b!"msg2" (by simp)
    simp only [List.cons_append, List.nil_append] at h1 h2
    refine ⟨b!"msg2", _, ".rvy n fv rxnp ruG".toList, (demo_after tx b!"msg2" (by simp)).1, by simp [demoBook]; rfl,
      by decide, ?_⟩
    rw [h1, h2]
    decide
  · obtain ⟨h1, h2⟩ := hset b!"msg3" (by simp)
    simp only [List.cons_append, List.nil_append] at h1 h2
    refine ⟨b!"msg3", _, ".revczni n fv qyebj ruG".toList, (demo_after tx b!"msg3" (by simp)).1,
      by simp [demoBook]; rfl, by decide, ?_⟩
    rw [h1, h2]
    decide

/-- **C107, examples/demo.jsonnet.** Every run ends, returns nil, and has then printed the three messages, each of them
once and whole, in some order; before that it has printed some of them. -/
theorem C107_demo {tx : Text} {basedir : Str} {proc : Proc} {book : Runbook} {st : Runner.St} {w : World}
    (h : Runs tx basedir proc demo (.running book st w)) :
    (∃ lines : List Str, lines.Nodup ∧ lines ⊆ [b!"Spoon!\n", b!"The cake is a lie.\n", b!"The world is a vampire.\n"] ∧
      w.stdout = lines.flatten) ∧
    ((∀ s', ¬ Act proc book (st, w) s') → st.main = .returned none) ∧
    (st.main = .returned none → ∃ lines : List Str,
      lines.Perm [b!"Spoon!\n", b!"The cake is a lie.\n", b!"The world is a vampire.\n"] ∧ w.stdout = lines.flatten) := by
  replace h := runs_reach h (demo_decode tx)
  have hb := h.parse
  rw [demo_parse] at hb
  cases hb
  have hdemo : ∀ q t, (q, t) ∈ demoBook.targets → ∃ d cs, t = .demo d ∧ d.string = utf8 cs := by
    intro q t hin
    simp only [demoBook, List.mem_cons, List.not_mem_nil, or_false, Prod.mk.injEq] at hin
    rcases hin with ⟨rfl, rfl⟩ | ⟨rfl, rfl⟩ | ⟨rfl, rfl⟩
    · exact ⟨_, "!abbcF".toList, rfl, by decide⟩
    · exact ⟨_, ".rvy n fv rxnp ruG".toList, rfl, by decide⟩
    · exact ⟨_, ".revczni n fv qyebj ruG".toList, rfl, by decide⟩
  obtain ⟨done, h1, h2, _, _, _, h3, h4⟩ := C89_any_order (decoder_json tx) (decodeFile_wf (demo_decode tx)).1 (decodeFile_wf (demo_decode tx)).2 (demo_ordered tx)
    (by simp [demoSrc]) h hdemo (demo_determined tx) (demo_prints tx)
  have hinj : ∀ a ∈ done, ∀ b ∈ done, demoLine a = demoLine b → a = b := by
    intro a ha b hb
    have ha := h2 a ha
    have hb := h2 b hb
    have : ∀ x ∈ [b!"msg1/decrypted", b!"msg2/decrypted", b!"msg3/decrypted"],
        ∀ y ∈ [b!"msg1/decrypted", b!"msg2/decrypted", b!"msg3/decrypted"], demoLine x = demoLine y → x = y := by
      decide
    exact this a ha b hb
  refine ⟨⟨done.map demoLine, ?_, ?_, ?_⟩, ?_, ?_⟩
  · exact List.Nodup.map_on hinj h1
  · intro l hl
    obtain ⟨e, he, rfl⟩ := List.mem_map.1 hl
    have : ∀ x ∈ [b!"msg1/decrypted", b!"msg2/decrypted", b!"msg3/decrypted"],
        demoLine x ∈ [b!"Spoon!\n", b!"The cake is a lie.\n", b!"The world is a vampire.\n"] := by decide
    exact this e (h2 e he)
  · rw [h3, List.flatMap]
  · intro hend
    rcases C90_demo_runs (decoder_json tx) (decodeFile_wf (demo_decode tx)).1 (decodeFile_wf (demo_decode tx)).2 (demo_ordered tx) (by simp [demoSrc]) h
      (fun q t hin => by obtain ⟨d, _, e, _⟩ := hdemo q t hin; exact ⟨d, e⟩) hend with ⟨h, _⟩ | ⟨q, f, _, hf⟩
    · exact h
    · obtain ⟨_, ⟨h, _⟩ | ⟨h, _⟩ | ⟨h, _⟩⟩ := demo_tasks hf <;> cases h
  · intro hret
    refine ⟨done.map demoLine, ?_, by rw [h3, List.flatMap]⟩
    exact (h4 hret).map demoLine

/-! ## examples/words.jsonnet -/

def HR : Str := b!"===================="

def after (l : List Str) : List (Str × Value) := [(b!"after", .arr (l.map .str))]

/-- examples/words.jsonnet `command` -/
def command (args : List Str) (aft : List (Str × Value)) : Value :=
  .obj (aft ++ [(b!"config", .obj [(b!"args", .arr (args.map .str))]), (b!"target", .str b!"sh")])

/-- examples/words.jsonnet `query` -/
def query (sql : Str) (aft : List (Str × Value)) : Value :=
  .obj (aft ++ [(b!"config", .obj [(b!"sql", .str sql)]), (b!"target", .str b!"pg")])

/-- examples/init.sql -/
def initSql : Str := b!"CREATE SCHEMA IF NOT EXISTS pgutil_demo\n;\nCREATE TABLE IF NOT EXISTS pgutil_demo.words (\n        id BIGSERIAL NOT NULL,\n        timestamp TIMESTAMP WITH TIME ZONE DEFAULT NOW(),\n        value VARCHAR(10) NOT NULL\n)\n;\nDELETE FROM pgutil_demo.words\nWHERE timestamp < now() - '1 minutes'::interval\n;\n"

def insert (word : Str) : Str := b!"INSERT INTO pgutil_demo.words (value) VALUES ('" ++ word ++ b!"')"

def list : List Str := [b!"psql", b!"-c", b!"SELECT * FROM pgutil_demo.words ORDER BY timestamp"]

/-- examples/words.jsonnet, evaluated -/
def words : Value := .obj [
  (b!"targets", .obj [(b!"pg", .obj [(b!"class", .str b!"pg")]), (b!"sh", .obj [(b!"class", .str b!"sh")])]),
  (b!"tasks", .obj [
    (b!"after/data", command list (after [b!"after/label"])),
    (b!"after/label", command [b!"echo", HR, b!"AFTER", HR] (after [b!"foo", b!"bar", b!"baz"])),
    (b!"bar", query (insert b!"bar") (after [b!"init", b!"before/data"])),
    (b!"baz", query (insert b!"baz") (after [b!"init", b!"before/data"])),
    (b!"before/data", command list (after [b!"before/label"])),
    (b!"before/label", command [b!"echo", HR, b!"BEFORE", HR] []),
    (b!"foo", query (insert b!"foo") (after [b!"init", b!"before/data"])),
    (b!"init", query initSql [])])]

def args (l : List Str) : Value := .obj [(b!"args", .arr (l.map .str))]
def sqlText (s : Str) : Value := .obj [(b!"sql", .str s)]

def wordsSrc (tx : Text) : Src where
  targets := [(b!"pg", some ⟨b!"pg", []⟩), (b!"sh", some ⟨b!"sh", []⟩)]
  tasks := [
    (b!"after/data", some ⟨[b!"after/label"], b!"sh", [], tx.raw (args list)⟩),
    (b!"after/label", some ⟨[b!"foo", b!"bar", b!"baz"], b!"sh", [], tx.raw (args [b!"echo", HR, b!"AFTER", HR])⟩),
    (b!"bar", some ⟨[b!"init", b!"before/data"], b!"pg", [], tx.raw (sqlText (insert b!"bar"))⟩),
    (b!"baz", some ⟨[b!"init", b!"before/data"], b!"pg", [], tx.raw (sqlText (insert b!"baz"))⟩),
    (b!"before/data", some ⟨[b!"before/label"], b!"sh", [], tx.raw (args list)⟩),
    (b!"before/label", some ⟨[], b!"sh", [], tx.raw (args [b!"echo", HR, b!"BEFORE", HR])⟩),
    (b!"foo", some ⟨[b!"init", b!"before/data"], b!"pg", [], tx.raw (sqlText (insert b!"foo"))⟩),
    (b!"init", some ⟨[], b!"pg", [], tx.raw (sqlText initSql)⟩)]

theorem words_decode (tx : Text) : decodeFile tx words = .ok (wordsSrc tx) := rfl

def wordsBook (basedir : Str) : Runbook where
  targets := [(b!"pg", .pg {}), (b!"sh", .sh { basedir := basedir })]
  tasks := [
    (b!"after/data", ⟨b!"sh", [b!"after/label"], [], .shExec ⟨list, {}⟩⟩),
    (b!"after/label", ⟨b!"sh", [b!"foo", b!"bar", b!"baz"], [], .shExec ⟨[b!"echo", HR, b!"AFTER", HR], {}⟩⟩),
    (b!"bar", ⟨b!"pg", [b!"init", b!"before/data"], [], .pgExec (insert b!"bar")⟩),
    (b!"baz", ⟨b!"pg", [b!"init", b!"before/data"], [], .pgExec (insert b!"baz")⟩),
    (b!"before/data", ⟨b!"sh", [b!"before/label"], [], .shExec ⟨list, {}⟩⟩),
    (b!"before/label", ⟨b!"sh", [], [], .shExec ⟨[b!"echo", HR, b!"BEFORE", HR], {}⟩⟩),
    (b!"foo", ⟨b!"pg", [b!"init", b!"before/data"], [], .pgExec (insert b!"foo")⟩),
    (b!"init", ⟨b!"pg", [], [], .pgExec initSql⟩)]

theorem words_parse (tx : Text) (basedir : Str) :
    Book.parse (decoder tx) basedir (wordsSrc tx) = .ok (wordsBook basedir) := by
  simp only [Book.parse, wordsSrc, loadTargets]
  have e1 : loadTarget (decoder tx) basedir (some ⟨b!"pg", []⟩) = .ok (.pg {}) := rfl
  have e2 : loadTarget (decoder tx) basedir (some ⟨b!"sh", []⟩) = .ok (.sh { basedir := basedir }) := rfl
  simp only [e1, e2, loadTasks, loadTask_raw]
  rfl

theorem words_ordered (tx : Text) : Run.Spec.Ordered (wordsSrc tx) := by
  refine Run.ordered_of [b!"init", b!"before/label", b!"before/data", b!"foo", b!"bar", b!"baz", b!"after/label",
    b!"after/data"] ?_
  simp [wordsSrc, GoMap.keys]

/-- **C107, examples/words.jsonnet.** An INSERT is sent only after init.sql has been sent and the table has been listed,
both with success.  If `Run` returned nil, the two labels have been printed, the table has been listed twice, init.sql
and the three INSERTs have been sent, each once and with success; the first listing came after the first label and
before the INSERTs, init.sql before the INSERTs, these before the second label, and that before the second listing. -/
theorem C107_words {tx : Text} {basedir : Str} {proc : Proc} {book : Runbook} {st : Runner.St} {w : World}
    (h : Runs tx basedir proc words (.running book st w)) :
    (∀ word ∈ [b!"foo", b!"bar", b!"baz"], word ∈ w.calls.map Prod.fst →
      (b!"init", .sql b!"pg" initSql, true) ∈ w.calls ∧
      ∃ c, (b!"before/data", .command c, true) ∈ w.calls ∧ c.path :: c.args = list) ∧
    (st.main = .returned none →
      (w.calls.map fun x => (x.1, deed x.2.1)).Perm [
        (b!"after/data", .command basedir list),
        (b!"after/label", .command basedir [b!"echo", HR, b!"AFTER", HR]),
        (b!"bar", .sql b!"pg" (insert b!"bar")),
        (b!"baz", .sql b!"pg" (insert b!"baz")),
        (b!"before/data", .command basedir list),
        (b!"before/label", .command basedir [b!"echo", HR, b!"BEFORE", HR]),
        (b!"foo", .sql b!"pg" (insert b!"foo")),
        (b!"init", .sql b!"pg" initSql)] ∧
      (∀ x ∈ w.calls, x.2.2 = true) ∧
      Before (w.calls.map Prod.fst) b!"before/label" b!"before/data" ∧
      (∀ word ∈ [b!"foo", b!"bar", b!"baz"], Before (w.calls.map Prod.fst) b!"before/data" word ∧
        Before (w.calls.map Prod.fst) b!"init" word ∧ Before (w.calls.map Prod.fst) word b!"after/label") ∧
      Before (w.calls.map Prod.fst) b!"after/label" b!"after/data") := by
  replace h := runs_reach h (words_decode tx)
  have hb := h.parse
  rw [words_parse] at hb
  cases hb
  obtain ⟨w1, w2⟩ := decodeFile_wf (words_decode tx)
  have hj := decoder_json tx
  have hne : ∀ o, ([], o) ∉ (wordsSrc tx).tasks := by simp [wordsSrc]
  have f1 : ∀ word ∈ [b!"foo", b!"bar", b!"baz"], Follows (wordsSrc tx) word b!"init" := by
    intro word hw
    simp only [List.mem_cons, List.not_mem_nil, or_false] at hw
    rcases hw with rfl | rfl | rfl <;> exact .single (depends_iff.mp rfl)
  have f2 : ∀ word ∈ [b!"foo", b!"bar", b!"baz"], Follows (wordsSrc tx) word b!"before/data" := by
    intro word hw
    simp only [List.mem_cons, List.not_mem_nil, or_false] at hw
    rcases hw with rfl | rfl | rfl <;> exact .single (depends_iff.mp rfl)
  have f3 : ∀ word ∈ [b!"foo", b!"bar", b!"baz"], Follows (wordsSrc tx) b!"after/label" word := by
    intro word hw
    simp only [List.mem_cons, List.not_mem_nil, or_false] at hw
    rcases hw with rfl | rfl | rfl <;> exact .single (depends_iff.mp rfl)
  have f4 : Follows (wordsSrc tx) b!"before/data" b!"before/label" := .single (depends_iff.mp rfl)
  have f5 : Follows (wordsSrc tx) b!"after/data" b!"after/label" := .single (depends_iff.mp rfl)
  have hd : ∀ x : Str × Call × Bool, x ∈ w.calls → (x.1, deed x.2.1) ∈ deeds basedir (wordsBook basedir) :=
    fun x hx => calls_deeds hj w1 w2 hne h x hx
  constructor
  · intro word hword hin
    obtain ⟨x, hx, rfl⟩ := List.mem_map.1 hin
    obtain ⟨_, _, _, hseq, _⟩ := C86_sequence hj w1 w2 hne h
    constructor
    · obtain ⟨c, hc⟩ := hseq x hx b!"init" ⟨b!"pg", [], [], .pgExec initSql⟩ (.pg {}) (f1 _ hword) (by simp [wordsBook])
        (by simp [wordsBook]) (by simp)
      have := says_of (by exact (Run.parsed hj w1 w2 h.parse).wfK) (by simp [wordsBook]; rfl) (hd _ hc)
      generalize c = c' at *
      cases c' with
      | sql q t =>
        simp only [Says, deed, Option.some.injEq, Deed.sql.injEq] at this
        obtain ⟨rfl, rfl⟩ := this
        exact hc
      | command => simp [Says, deed] at this
    · obtain ⟨c, hc⟩ := hseq x hx b!"before/data" ⟨b!"sh", [b!"before/label"], [], .shExec ⟨list, {}⟩⟩
        (.sh { basedir := basedir }) (f2 _ hword) (by simp [wordsBook]) (by simp [wordsBook]) (by simp)
      have := says_of (by exact (Run.parsed hj w1 w2 h.parse).wfK)
        (task := ⟨b!"sh", [b!"before/label"], [], .shExec ⟨list, {}⟩⟩) (by simp [wordsBook]) (hd _ hc)
      generalize c = c' at *
      cases c' with
      | sql q t => simp [Says, deed] at this
      | command c =>
        simp only [Says, deed, Option.some.injEq, Deed.command.injEq] at this
        exact ⟨c, hc, this.2.symm⟩
  · intro hret
    obtain ⟨h1, h2, h3⟩ := C86_all hj w1 w2 hne (words_ordered tx) h hret
    refine ⟨h1, h2, h3 _ _ (by simp [deeds, wordsBook, Says]) (by simp [deeds, wordsBook, Says]) f4, ?_, h3 _ _ ?_ ?_ f5⟩
    · intro word hword
      have hm : word ∈ (deeds basedir (wordsBook basedir)).map Prod.fst := by
        simp only [List.mem_cons, List.not_mem_nil, or_false] at hword
        rcases hword with rfl | rfl | rfl <;> simp [deeds, wordsBook, Says]
      exact ⟨h3 _ _ (by simp [deeds, wordsBook, Says]) hm (f2 _ hword), h3 _ _ (by simp [deeds, wordsBook, Says]) hm (f1 _ hword),
        h3 _ _ hm (by simp [deeds, wordsBook, Says]) (f3 _ hword)⟩
    all_goals simp [deeds, wordsBook, Says]

/-! ## examples/scripts.jsonnet -/

/-- examples/scripts.jsonnet, evaluated -/
def script : Value := .obj [
  (b!"targets", .obj [(b!"sh", .obj [(b!"class", .str b!"sh"),
    (b!"config", .obj [(b!"env", .obj [(b!"set", .obj [(b!"FOO", .str b!"42")])])])])]),
  (b!"tasks", .obj [
    (b!"debug-env", .obj [(b!"config", .obj [(b!"args", .arr [.str b!"./scripts/demo-script"]),
      (b!"env", .obj [(b!"set", .obj [(b!"BAR", .str b!"baz")])])]), (b!"target", .str b!"sh")])])]

def scriptSrc (tx : Text) : Src where
  targets := [(b!"sh", some ⟨b!"sh",
    tx.raw (.obj [(b!"env", .obj [(b!"set", .obj [(b!"FOO", .str b!"42")])])])⟩)]
  tasks := [(b!"debug-env", some ⟨[], b!"sh", [],
      tx.raw (.obj [(b!"args", .arr [.str b!"./scripts/demo-script"]),
        (b!"env", .obj [(b!"set", .obj [(b!"BAR", .str b!"baz")])])])⟩)]

def scriptBook (basedir : Str) : Runbook where
  targets := [(b!"sh", .sh ⟨basedir, [], 1, ⟨[], [], [(b!"FOO", b!"42")]⟩⟩)]
  tasks := [(b!"debug-env", ⟨b!"sh", [], [], .shExec ⟨[b!"./scripts/demo-script"], ⟨[], [], [(b!"BAR", b!"baz")]⟩⟩⟩)]

theorem script_decode (tx : Text) : decodeFile tx script = .ok (scriptSrc tx) := rfl

theorem script_parse (tx : Text) (basedir : Str) :
    Book.parse (decoder tx) basedir (scriptSrc tx) = .ok (scriptBook basedir) := by
  simp only [Book.parse, scriptSrc, loadTargets, loadTarget_raw]
  have e : newTarget basedir b!"sh" = some (.sh { basedir := basedir }) := rfl
  simp only [e]
  have e2 : decodeTarget (.obj [(b!"env", .obj [(b!"set", .obj [(b!"FOO", .str b!"42")])])])
    (.sh { basedir := basedir }) = .ok (.sh ⟨basedir, [], 1, ⟨[], [], [(b!"FOO", b!"42")]⟩⟩) := rfl
  simp only [e2, loadTasks, loadTask_raw]
  rfl

theorem script_ordered (tx : Text) : Run.Spec.Ordered (scriptSrc tx) := by
  refine Run.ordered_of [b!"debug-env"] ?_
  simp [scriptSrc, GoMap.keys]

/-- **C107, examples/scripts.jsonnet.** Nothing but the script is run, in the directory of the file and without
arguments; it sees FOO=42, BAR=baz and, for all other names, what pgutil was started with.  If `Run` returned nil it was
run once, and succeeded. -/
theorem C107_scripts {tx : Text} {basedir : Str} {proc : Proc} {book : Runbook} {st : Runner.St} {w : World}
    (h : Runs tx basedir proc script (.running book st w)) :
    (∀ x ∈ w.calls, x.1 = b!"debug-env" ∧ ∃ c, x.2.1 = .command c ∧ c.path = b!"./scripts/demo-script" ∧ c.args = [] ∧
      c.dir = basedir ∧ ∀ k v, Sh.Spec.Name k → (Sh.Spec.LookupLast c.env k v ↔
        if k = b!"FOO" then v = b!"42" else if k = b!"BAR" then v = b!"baz" else
          Sh.Spec.LookupLast proc.environ k v)) ∧
    w.calls.length ≤ 1 ∧
    (st.main = .returned none → ∃ c, w.calls = [(b!"debug-env", c, true)]) := by
  replace h := runs_reach h (script_decode tx)
  have hb := h.parse
  rw [script_parse] at hb
  cases hb
  obtain ⟨w1, w2⟩ := decodeFile_wf (script_decode tx)
  have hj := decoder_json tx
  have hne : ∀ o, ([], o) ∉ (scriptSrc tx).tasks := by simp [scriptSrc]
  obtain ⟨h1, _, h3, _, h5⟩ := C86_sequence hj w1 w2 hne h
  have hid : ∀ x ∈ w.calls, x.1 = b!"debug-env" := by
    intro x hx
    obtain ⟨task, tgt, hk, _⟩ := h3 x hx
    simp only [scriptBook, List.mem_singleton, Prod.mk.injEq] at hk
    exact hk.1
  have hlen : w.calls.length ≤ 1 := by
    rcases hc : w.calls with _ | ⟨x, _ | ⟨y, l⟩⟩
    · simp
    · simp
    · rw [hc] at h1 hid
      simp only [List.map_cons, List.nodup_cons, List.mem_cons, not_or] at h1
      exact absurd ((hid x (by simp)).trans (hid y (by simp)).symm) h1.1.1
  refine ⟨?_, hlen, ?_⟩
  · intro x hx
    refine ⟨hid x hx, ?_⟩
    obtain ⟨task, tgt, hk, ht, hd⟩ := h3 x hx
    simp only [scriptBook, List.mem_singleton, Prod.mk.injEq] at hk ht
    obtain ⟨_, rfl⟩ := hk
    obtain ⟨_, rfl⟩ := ht
    generalize hcs : [x.2.1] = cs at hd
    cases hd with
    | @command _ _ _ _ c e1 e2 e3 e4 =>
      simp only [List.cons.injEq, and_true] at hcs
      refine ⟨c, hcs, e1, e2, e3, ?_⟩
      intro k v hk
      have hB : Sh.Spec.Name b!"BAR" := by simp [Sh.Spec.Name]
      have hF : Sh.Spec.Name b!"FOO" := by simp [Sh.Spec.Name]
      rw [e4 ⟨by simp [GoMap.WF, GoMap.keys], by simpa using hB⟩ ⟨by simp [GoMap.WF, GoMap.keys], by simpa using hF⟩ k v hk]
      have hpass : Sh.Spec.Passes [] [] k := by simp [Sh.Spec.Passes]
      by_cases h1 : k = b!"FOO"
      · subst h1
        simp [hpass]
      · by_cases h2 : k = b!"BAR"
        · subst h2
          simp
        · simp [h1, h2, hpass]
  · intro hret
    obtain ⟨hok, hall⟩ := h5 (script_ordered tx) hret
    have hin := hall b!"debug-env" _ _ List.mem_cons_self List.mem_cons_self (by simp)
    obtain ⟨x, hx, _⟩ := List.mem_map.1 hin
    have hl : w.calls = [x] := by
      rcases hc : w.calls with _ | ⟨y, _ | ⟨z, l⟩⟩
      · simp [hc] at hx
      · rw [hc] at hx
        rw [List.mem_singleton.1 hx]
      · simp [hc] at hlen
    refine ⟨x.2.1, ?_⟩
    rw [hl]
    have e1 := hid x hx
    have e2 := hok x hx
    obtain ⟨a, b, c⟩ := x
    simp only at e1 e2
    rw [e1, e2]

/-! ## examples/concurrent.jsonnet -/

def digits : List Str := [b!"1", b!"2", b!"3", b!"4", b!"5", b!"6", b!"7", b!"8", b!"9"]

/-- examples/concurrent.jsonnet, evaluated -/
def concurrent : Value := .obj [
  (b!"targets", .obj (digits.map fun n => (b!"t" ++ n, .obj [(b!"class", .str b!"sh")]))),
  (b!"tasks", .obj (
    (b!"begin", .obj [(b!"config", args [b!"date"]), (b!"target", .str b!"t1")]) ::
    (digits.map fun n => (b!"echo/" ++ n, .obj [(b!"after", .arr [.str b!"begin"]),
      (b!"config", args [b!"echo", b!"#" ++ n, b!"sleeping for 1 second"]), (b!"target", .str (b!"t" ++ n))])) ++
    (b!"end", .obj [(b!"after", .arr (digits.map fun n => .str (b!"sleep/" ++ n))), (b!"config", args [b!"date"]),
      (b!"target", .str b!"t1")]) ::
    (digits.map fun n => (b!"sleep/" ++ n, .obj [(b!"after", .arr [.str (b!"echo/" ++ n)]),
      (b!"config", args [b!"sleep", b!"1"]), (b!"target", .str (b!"t" ++ n))]))))]

def concurrentSrc (tx : Text) : Src where
  targets := digits.map fun n => (b!"t" ++ n, some ⟨b!"sh", []⟩)
  tasks := (b!"begin", some ⟨[], b!"t1", [], tx.raw (args [b!"date"])⟩) ::
    (digits.map fun n => (b!"echo/" ++ n, some ⟨[b!"begin"], b!"t" ++ n, [],
      tx.raw (args [b!"echo", b!"#" ++ n, b!"sleeping for 1 second"])⟩)) ++
    (b!"end", some ⟨digits.map fun n => b!"sleep/" ++ n, b!"t1", [], tx.raw (args [b!"date"])⟩) ::
    (digits.map fun n => (b!"sleep/" ++ n, some ⟨[b!"echo/" ++ n], b!"t" ++ n, [], tx.raw (args [b!"sleep", b!"1"])⟩))

def concurrentBook (basedir : Str) : Runbook where
  targets := digits.map fun n => (b!"t" ++ n, .sh { basedir := basedir })
  tasks := (b!"begin", ⟨b!"t1", [], [], .shExec ⟨[b!"date"], {}⟩⟩) ::
    (digits.map fun n => (b!"echo/" ++ n, ⟨b!"t" ++ n, [b!"begin"], [],
      .shExec ⟨[b!"echo", b!"#" ++ n, b!"sleeping for 1 second"], {}⟩⟩)) ++
    (b!"end", ⟨b!"t1", digits.map fun n => b!"sleep/" ++ n, [], .shExec ⟨[b!"date"], {}⟩⟩) ::
    (digits.map fun n => (b!"sleep/" ++ n, ⟨b!"t" ++ n, [b!"echo/" ++ n], [], .shExec ⟨[b!"sleep", b!"1"], {}⟩⟩))

theorem concurrent_decode (tx : Text) : decodeFile tx concurrent = .ok (concurrentSrc tx) := by kernel_rfl

theorem concurrent_parse (tx : Text) (basedir : Str) :
    Book.parse (decoder tx) basedir (concurrentSrc tx) = .ok (concurrentBook basedir) := by
  simp only [Book.parse, concurrentSrc, digits, List.map_cons, List.map_nil, List.cons_append, List.nil_append, loadTargets]
  have e2 : loadTarget (decoder tx) basedir (some ⟨b!"sh", []⟩) = .ok (.sh { basedir := basedir }) := rfl
  simp only [e2, loadTasks, loadTask_raw]
  kernel_rfl

theorem concurrent_depends (tx : Text) : ∀ n ∈ digits, Follows (concurrentSrc tx) (b!"echo/" ++ n) b!"begin" ∧
    Follows (concurrentSrc tx) (b!"sleep/" ++ n) (b!"echo/" ++ n) ∧
    Follows (concurrentSrc tx) b!"end" (b!"sleep/" ++ n) := by
  intro n hn
  refine ⟨.single ⟨⟨[b!"begin"], b!"t" ++ n, [], tx.raw (args [b!"echo", b!"#" ++ n, b!"sleeping for 1 second"])⟩, ?_,
      List.mem_singleton.2 rfl⟩,
    .single ⟨⟨[b!"echo/" ++ n], b!"t" ++ n, [], tx.raw (args [b!"sleep", b!"1"])⟩, ?_, List.mem_singleton.2 rfl⟩,
    .single ⟨⟨digits.map fun n => b!"sleep/" ++ n, b!"t1", [], tx.raw (args [b!"date"])⟩, ?_,
      List.mem_map.2 ⟨n, hn, rfl⟩⟩⟩
  · exact List.mem_cons_of_mem _ (List.mem_append_left _ (List.mem_map.2 ⟨n, hn, rfl⟩))
  · exact List.mem_cons_of_mem _ (List.mem_append_right _ (List.mem_cons_of_mem _ (List.mem_map.2 ⟨n, hn, rfl⟩)))
  · exact List.mem_cons_of_mem _ (List.mem_append_right _ List.mem_cons_self)

theorem concurrent_ordered (tx : Text) : Run.Spec.Ordered (concurrentSrc tx) := by
  refine Run.ordered_of (b!"begin" :: ((digits.map fun n => b!"echo/" ++ n) ++ ((digits.map fun n => b!"sleep/" ++ n) ++
    [b!"end"]))) ?_
  rintro p hp src hsrc m hm
  have key : ∀ p ∈ (concurrentSrc tx).tasks, (p.1 = b!"begin" ∧ ∀ src, p.2 = some src → src.after = []) ∨
      (∃ n ∈ digits, p.1 = b!"echo/" ++ n ∧ ∀ src, p.2 = some src → src.after = [b!"begin"]) ∨
      (∃ n ∈ digits, p.1 = b!"sleep/" ++ n ∧ ∀ src, p.2 = some src → src.after = [b!"echo/" ++ n]) ∨
      (p.1 = b!"end" ∧ ∀ src, p.2 = some src → src.after = digits.map fun n => b!"sleep/" ++ n) := by
    intro p hp
    rcases List.mem_cons.1 hp with rfl | hp
    · left; exact ⟨rfl, by rintro _ ⟨⟩; rfl⟩
    rcases List.mem_append.1 hp with hp | hp
    · obtain ⟨n, hn, rfl⟩ := List.mem_map.1 hp
      right; left; exact ⟨n, hn, rfl, by rintro _ ⟨⟩; rfl⟩
    rcases List.mem_cons.1 hp with rfl | hp
    · right; right; right; exact ⟨rfl, by rintro _ ⟨⟩; rfl⟩
    · obtain ⟨n, hn, rfl⟩ := List.mem_map.1 hp
      right; right; left; exact ⟨n, hn, rfl, by rintro _ ⟨⟩; rfl⟩
  have hkeys : (concurrentSrc tx).tasks.keys = b!"begin" :: ((digits.map fun n => b!"echo/" ++ n) ++
      b!"end" :: (digits.map fun n => b!"sleep/" ++ n)) := rfl
  rw [hkeys]
  rcases key p hp with ⟨h1, h2⟩ | ⟨n, hn, h1, h2⟩ | ⟨n, hn, h1, h2⟩ | ⟨h1, h2⟩
  · rw [h2 src hsrc] at hm; cases hm
  · rw [h2 src hsrc] at hm
    rw [h1, List.mem_singleton.1 hm]
    clear h2 h1 hm hsrc hkeys key hp
    revert n
    decide +kernel
  · rw [h2 src hsrc] at hm
    rw [h1, List.mem_singleton.1 hm]
    clear h2 h1 hm hsrc hkeys key hp
    revert n
    decide +kernel
  · rw [h2 src hsrc] at hm
    rw [h1]
    clear h2 hsrc hkeys key h1 hp
    revert m
    decide +kernel

/-- **C107, examples/concurrent.jsonnet.** If `Run` returned nil, the first date, the nine messages, the nine pauses of a
second and the second date have all been run, each once and with success: the first date before every message, each
message before its pause, and every pause before the second date. -/
theorem C107_concurrent {tx : Text} {basedir : Str} {proc : Proc} {book : Runbook} {st : Runner.St} {w : World}
    (h : Runs tx basedir proc concurrent (.running book st w)) (hret : st.main = .returned none) :
    (w.calls.map fun x => (x.1, deed x.2.1)).Perm (
      (b!"begin", .command basedir [b!"date"]) ::
      (digits.map fun n => (b!"echo/" ++ n, .command basedir [b!"echo", b!"#" ++ n, b!"sleeping for 1 second"])) ++
      (b!"end", .command basedir [b!"date"]) ::
      (digits.map fun n => (b!"sleep/" ++ n, .command basedir [b!"sleep", b!"1"]))) ∧
    (∀ x ∈ w.calls, x.2.2 = true) ∧
    ∀ n ∈ digits, Before (w.calls.map Prod.fst) b!"begin" (b!"echo/" ++ n) ∧
      Before (w.calls.map Prod.fst) (b!"echo/" ++ n) (b!"sleep/" ++ n) ∧
      Before (w.calls.map Prod.fst) (b!"sleep/" ++ n) b!"end" := by
  replace h := runs_reach h (concurrent_decode tx)
  have hb := h.parse
  rw [concurrent_parse] at hb
  cases hb
  obtain ⟨w1, w2⟩ := decodeFile_wf (concurrent_decode tx)
  have hne : ∀ o, ([], o) ∉ (concurrentSrc tx).tasks := by simp [concurrentSrc]
  obtain ⟨h1, h2, h3⟩ := C86_all (decoder_json tx) w1 w2 hne (concurrent_ordered tx) h hret
  have e : deeds basedir (concurrentBook basedir) =
      (b!"begin", .command basedir [b!"date"]) ::
      (digits.map fun n => (b!"echo/" ++ n, .command basedir [b!"echo", b!"#" ++ n, b!"sleeping for 1 second"])) ++
      (b!"end", .command basedir [b!"date"]) ::
      (digits.map fun n => (b!"sleep/" ++ n, .command basedir [b!"sleep", b!"1"])) := rfl
  rw [e] at h1 h3
  refine ⟨h1, h2, ?_⟩
  intro n hn
  obtain ⟨f1, f2, f3⟩ := concurrent_depends tx n hn
  have m1 : b!"echo/" ++ n ∈ digits.map fun n => b!"echo/" ++ n := List.mem_map.2 ⟨n, hn, rfl⟩
  have m2 : b!"sleep/" ++ n ∈ digits.map fun n => b!"sleep/" ++ n := List.mem_map.2 ⟨n, hn, rfl⟩
  simp only [List.map_cons, List.map_append, List.map_map, Function.comp_def] at h3
  exact ⟨h3 _ _ List.mem_cons_self (List.mem_cons_of_mem _ (List.mem_append_left _ m1)) f1,
    h3 _ _ (List.mem_cons_of_mem _ (List.mem_append_left _ m1))
      (List.mem_cons_of_mem _ (List.mem_append_right _ (List.mem_cons_of_mem _ m2))) f2,
    h3 _ _ (List.mem_cons_of_mem _ (List.mem_append_right _ (List.mem_cons_of_mem _ m2)))
      (List.mem_cons_of_mem _ (List.mem_append_right _ List.mem_cons_self)) f3⟩

/-! ## Runs of the examples that succeed -/

/-- For an environment in which connections can be made, there are runs of examples/words.jsonnet that succeed. -/
theorem words_succeeds (tx : Text) (basedir : Str) (proc : Proc) (hm : 40 ≤ proc.maxChan) (henv : proc.libpq = .ok {}) :
    ∃ st w, Runs tx basedir proc words (.running (wordsBook basedir) st w) ∧ st.main = .returned none := by
  obtain ⟨w1, w2⟩ := decodeFile_wf (words_decode tx)
  obtain ⟨st, w, h, hr⟩ := exists_success (proc := proc) (decoder_json tx) w1 w2 (by simp [wordsSrc]) (words_parse tx basedir)
    (Int.le_trans (show Runner.capacity (limits (wordsBook basedir)) ≤ 40 from
      Int.le_trans (Int.le_of_eq (show _ = 4 from rfl)) (by decide)) hm) (by
      intro q f h
      rw [isTask_iff] at h
      simp [wordsBook] at h) (by
      intro q t hq
      simp only [wordsBook, List.mem_cons, Prod.mk.injEq, Target.pg.injEq, List.not_mem_nil, reduceCtorEq, and_false,
        or_false] at hq
      obtain ⟨_, rfl⟩ := hq
      exact ⟨⟨_, henv⟩, .inl rfl, by decide⟩)
  exact ⟨st, w, .decoded (words_decode tx) h, hr⟩

/-- There are runs of examples/scripts.jsonnet that succeed. -/
theorem script_succeeds (tx : Text) (basedir : Str) (proc : Proc) (hm : 40 ≤ proc.maxChan) :
    ∃ st w, Runs tx basedir proc script (.running (scriptBook basedir) st w) ∧ st.main = .returned none := by
  obtain ⟨w1, w2⟩ := decodeFile_wf (script_decode tx)
  obtain ⟨st, w, h, hr⟩ := exists_success (proc := proc) (decoder_json tx) w1 w2 (by simp [scriptSrc]) (script_parse tx basedir)
    (Int.le_trans (show Runner.capacity (limits (scriptBook basedir)) ≤ 40 from
      Int.le_trans (Int.le_of_eq (show _ = 2 from rfl)) (by decide)) hm) (by
      intro q f h
      rw [isTask_iff] at h
      simp [scriptBook] at h) (by
      intro q t hq
      simp [scriptBook] at hq)
  exact ⟨st, w, .decoded (script_decode tx) h, hr⟩

/-- There are runs of examples/concurrent.jsonnet that succeed. -/
theorem concurrent_succeeds (tx : Text) (basedir : Str) (proc : Proc) (hm : 40 ≤ proc.maxChan) :
    ∃ st w, Runs tx basedir proc concurrent (.running (concurrentBook basedir) st w) ∧ st.main = .returned none := by
  obtain ⟨w1, w2⟩ := decodeFile_wf (concurrent_decode tx)
  obtain ⟨st, w, h, hr⟩ := exists_success (proc := proc) (decoder_json tx) w1 w2 (by simp [concurrentSrc])
    (concurrent_parse tx basedir) (Int.le_trans (show Runner.capacity (limits (concurrentBook basedir)) ≤ 40 from
      Int.le_trans (Int.le_of_eq (show _ = 18 from rfl)) (by decide)) hm) (by
      intro q f h
      rw [isTask_iff] at h
      simp [concurrentBook, digits] at h) (by
      intro q t hq
      simp [concurrentBook, digits] at hq)
  exact ⟨st, w, .decoded (concurrent_decode tx) h, hr⟩

end Verif.Json
