import Verif.Pg.ListSpec
import Verif.Ddl.ParseProps

/-!
# C56: listings
-/

namespace Verif.Pg
open Verif Verif.Ragel

section lemmas

theorem reads_iff (v : Option Str) (s : Str) : Reads v s ↔ string v = s := by
  cases v <;> simp [Reads, string, eq_comm]

theorem scanLoop_ok {ρ α : Type} (row : ρ → Except Err α) (rows : List ρ) (acc xs : List α) :
    scanLoop row rows acc = .ok xs ↔
      ∃ ys, xs = acc ++ ys ∧ List.Forall₂ (fun r y => row r = .ok y) rows ys := by
  induction rows generalizing acc with
  | nil =>
    simp only [scanLoop, Except.ok.injEq]
    constructor
    · rintro rfl; exact ⟨[], by simp, .nil⟩
    · rintro ⟨ys, rfl, h⟩; cases h; simp
  | cons r rest ih =>
    rw [scanLoop]
    cases hr : row r with
    | error e =>
      simp only [reduceCtorEq, false_iff]
      rintro ⟨ys, -, h⟩
      cases h with | cons h1 _ => rw [hr] at h1; cases h1
    | ok a =>
      simp only
      rw [ih]
      constructor
      · rintro ⟨ys, rfl, h⟩
        exact ⟨a :: ys, by simp, .cons hr h⟩
      · rintro ⟨ys, rfl, h⟩
        cases h with
        | cons h1 h2 =>
          rw [hr] at h1
          cases h1
          exact ⟨_, by simp, h2⟩

theorem forall₂_congr {ρ α : Type} {R S : ρ → α → Prop} (h : ∀ r x, R r x ↔ S r x)
    (l : List ρ) (m : List α) : List.Forall₂ R l m ↔ List.Forall₂ S l m :=
  ⟨fun h' => h'.imp fun a b hab => (h a b).1 hab, fun h' => h'.imp fun a b hab => (h a b).2 hab⟩

theorem listRows_all {ρ α : Type} {R : ρ → α → Prop} (q : Query ρ) (row : ρ → Except Err α)
    (hq : Unbroken q) (h : ∀ r x, row r = .ok x ↔ R r x) : ListsAll R q (listRows q row) := by
  refine ⟨?_, ?_⟩
  · rintro e rfl; rfl
  · rintro st rfl
    refine ⟨fun hf => absurd (hq st rfl) hf, fun _ xs => ?_⟩
    rw [← forall₂_congr h]
    simp only [listRows]
    rw [scanLoop_ok]
    simp

theorem scan_ok {α : Type} {v : Option α} {a : α} : scan v = .ok a ↔ v = some a := by
  cases v <;> simp [scan]

theorem bind_ok {α β : Type} {m : Except Err α} {f : α → Except Err β} {b : β} :
    (m >>= f) = .ok b ↔ ∃ a, m = .ok a ∧ f a = .ok b := by
  cases m <;> simp [bind, Except.bind]

theorem pure_ok {β : Type} {a b : β} : (pure a : Except Err β) = .ok b ↔ a = b := by
  simp [pure, Except.pure]

theorem ofOutcome_ok {α : Type} {o : Outcome α} {a : α} : ofOutcome o = .ok a ↔ o = .ok a := by
  cases o <;> simp [ofOutcome]

theorem schemaRow_ok (r : SchemaRow) (x : Schema) : schemaRow r = .ok x ↔ SchemaDescribes r x := by
  cases x
  simp only [schemaRow, Except.ok.injEq, Schema.mk.injEq]
  constructor
  · rintro ⟨h1, h2, h3⟩; exact ⟨(reads_iff _ _).2 h1, (reads_iff _ _).2 h2, (reads_iff _ _).2 h3⟩
  · rintro ⟨h1, h2, h3⟩; exact ⟨(reads_iff _ _).1 h1, (reads_iff _ _).1 h2, (reads_iff _ _).1 h3⟩

theorem functionRow_ok (r : FunctionRow) (x : Ddl.Function) :
    functionRow r = .ok x ↔ FunctionDescribes r x := by
  cases x
  simp only [functionRow, Except.ok.injEq, Ddl.Function.mk.injEq]
  constructor
  · rintro ⟨h1, h2, h3, h4, h5, h6, h7⟩
    exact ⟨(reads_iff _ _).2 h1, (reads_iff _ _).2 h2, (reads_iff _ _).2 h3, (reads_iff _ _).2 h4,
      (reads_iff _ _).2 h5, (reads_iff _ _).2 h6, (reads_iff _ _).2 h7⟩
  · rintro ⟨h1, h2, h3, h4, h5, h6, h7⟩
    exact ⟨(reads_iff _ _).1 h1, (reads_iff _ _).1 h2, (reads_iff _ _).1 h3, (reads_iff _ _).1 h4,
      (reads_iff _ _).1 h5, (reads_iff _ _).1 h6, (reads_iff _ _).1 h7⟩

theorem tableRow_ok (r : TableRow) (x : Ddl.Table) : tableRow r = .ok x ↔ TableDescribes r x := by
  cases x
  simp only [tableRow, Except.ok.injEq, Ddl.Table.mk.injEq]
  constructor
  · rintro ⟨h1, h2, h3, h4, h5, h6, h7⟩
    exact ⟨(reads_iff _ _).2 h1, (reads_iff _ _).2 h2, (reads_iff _ _).2 h3, (reads_iff _ _).2 h4,
      h5.symm, h6.symm, h7.symm⟩
  · rintro ⟨h1, h2, h3, h4, h5, h6, h7⟩
    exact ⟨(reads_iff _ _).1 h1, (reads_iff _ _).1 h2, (reads_iff _ _).1 h3, (reads_iff _ _).1 h4,
      h5.symm, h6.symm, h7.symm⟩

theorem columnRow_ok (r : ColumnRow) (x : Ddl.Column) :
    columnRow r = .ok x ↔ ColumnDescribes r x := by
  cases x
  simp only [columnRow, bind_ok, scan_ok, pure_ok, Ddl.Column.mk.injEq]
  constructor
  · rintro ⟨n, h1, t, h2, nn, h3, rfl, rfl, rfl, h4, h5⟩
    exact ⟨h1, h2, h3, (reads_iff _ _).2 h4, (reads_iff _ _).2 h5⟩
  · rintro ⟨h1, h2, h3, h4, h5⟩
    exact ⟨_, h1, _, h2, _, h3, rfl, rfl, rfl, (reads_iff _ _).1 h4, (reads_iff _ _).1 h5⟩

theorem checkRow_ok (r : DefRow) (x : Ddl.Check) : checkRow r = .ok x ↔ CheckDescribes r x := by
  obtain ⟨xn, xe, xd, xi⟩ := x
  simp only [checkRow, bind_ok, scan_ok, pure_ok, ofOutcome_ok, CheckDescribes]
  constructor
  · rintro ⟨n, h1, d, h2, c, h3, h4⟩
    have hn : c.name = [] := by
      rcases Ddl.parseCheck_cases d with ⟨_, cs, h⟩ | ⟨e, _, _, c', ht, h, _⟩
      · rw [h] at h3; cases h3
      · exact (Ddl.C42_check_fields_partial d _ _ _ ht c h3).2.1
    cases c
    cases h4
    simp only at hn
    subst hn
    exact ⟨h1, d, h2, h3⟩
  · rintro ⟨h1, d, h2, h3⟩
    exact ⟨_, h1, d, h2, _, h3, rfl⟩

theorem foreignKeyRow_ok (r : DefRow) (x : Ddl.ForeignKey) :
    foreignKeyRow r = .ok x ↔ ForeignKeyDescribes r x := by
  cases x
  simp only [foreignKeyRow, bind_ok, scan_ok, pure_ok, ofOutcome_ok, ForeignKeyDescribes,
    Ddl.parseForeignKey_ok_iff]
  constructor
  · rintro ⟨n, h1, d, h2, c, h3, h4⟩
    have hn : c.name = [] := by
      obtain ⟨_, _, _, _, _, _, _, _, _, _, _, _, _, _, _, _, _, _, _, _, h⟩ := h3
      simp_all
    cases c
    cases h4
    simp only at hn
    subst hn
    exact ⟨h1, d, h2, h3⟩
  · rintro ⟨h1, d, h2, h3⟩
    exact ⟨_, h1, d, h2, _, h3, rfl⟩

theorem indexRow_ok (schema : Str) (r : IndexRow) (x : Ddl.Index) :
    indexRow schema r = .ok x ↔ IndexDescribes schema r x := by
  cases x
  simp only [indexRow, bind_ok, scan_ok, pure_ok, ofOutcome_ok, IndexDescribes,
    Ddl.parseIndex_ok_iff]
  constructor
  · rintro ⟨n, h1, p, h2, d, h3, c, h4, h5⟩
    have hn : c.schema = [] ∧ c.primary = false := by
      obtain ⟨_, _, _, _, _, _, _, _, _, _, _, _, _, _, _, _, _, _, _, _, h⟩ := h4
      simp_all
    cases c
    cases h5
    obtain ⟨rfl, rfl⟩ := hn
    exact ⟨rfl, h2, by simp [h1], d, h3, h4⟩
  · rintro ⟨rfl, h2, hne, d, h3, h4⟩
    obtain ⟨n, hn⟩ := Option.ne_none_iff_exists'.1 hne
    exact ⟨n, hn, _, h2, d, h3, _, h4, rfl⟩

theorem triggerRow_ok (schema : Str) (r : DefRow) (x : Ddl.Trigger) :
    triggerRow schema r = .ok x ↔ TriggerDescribes schema r x := by
  cases x
  simp only [triggerRow, bind_ok, scan_ok, pure_ok, ofOutcome_ok, TriggerDescribes,
    Ddl.parseTrigger_ok_iff]
  constructor
  · rintro ⟨n, h1, d, h3, c, h4, h5⟩
    have hn : c.schema = [] := by
      obtain ⟨_, _, _, _, _, _, _, _, _, _, _, _, _, _, _, _, _, _, _, _, _, _, _, _, h⟩ := h4
      simp_all
    cases c
    cases h5
    simp only at hn
    subst hn
    exact ⟨rfl, by simp [h1], d, h3, h4⟩
  · rintro ⟨rfl, hne, d, h3, h4⟩
    obtain ⟨n, hn⟩ := Option.ne_none_iff_exists'.1 hne
    exact ⟨n, hn, d, h3, _, h4, rfl⟩

theorem sequenceRow_ok (r : SequenceRow × Option Str × SequenceValues) (x : Sequence) :
    sequenceRow r = .ok x ↔ SequenceDescribes r.1 r.2.2 x ∧ Reads r.2.1 x.dataType := by
  cases x
  simp only [sequenceRow, bind_ok, scan_ok, pure_ok, Sequence.mk.injEq, reads_iff]
  constructor
  · rintro ⟨a, h1, b, h2, c, h3, d, h4, e, h5, f, h6, g1, g2, g3, g4, g5, rfl, rfl, rfl, rfl, rfl,
      rfl, g6⟩
    exact ⟨⟨(reads_iff _ _).2 g1, (reads_iff _ _).2 g2, (reads_iff _ _).2 g3, (reads_iff _ _).2 g4,
      h1, h2, h3, h4, h5, h6, _, g6.symm, (reads_iff _ _).2 rfl, (reads_iff _ _).2 rfl,
      (reads_iff _ _).2 rfl⟩, g5⟩
  · rintro ⟨⟨g1, g2, g3, g4, h1, h2, h3, h4, h5, h6, o, g6, g7, g8, g9⟩, g5⟩
    rw [reads_iff] at g1 g2 g3 g4 g7 g8 g9
    refine ⟨_, h1, _, h2, _, h3, _, h4, _, h5, _, h6, g1, g2, g3, g4, g5, rfl, rfl, rfl, rfl, rfl,
      rfl, ?_⟩
    simp only at g6
    rw [g6, g7, g8, g9]

theorem queryRow_ok {ρ : Type} {q : QueryRow ρ} {r : ρ} : queryRow q = .ok r ↔ q = .ok (some r) := by
  unfold queryRow
  split <;> simp

theorem fillSequences_ok (c : Catalog) (seqs xs : List Sequence) :
    c.fillSequences seqs = .ok xs ↔
      List.Forall₂ (fun s x => c.fillSequence s = .ok x) seqs xs := by
  induction seqs generalizing xs with
  | nil =>
    simp only [Catalog.fillSequences, Except.ok.injEq]
    constructor
    · rintro rfl; exact .nil
    · intro h; cases h; rfl
  | cons s rest ih =>
    rw [Catalog.fillSequences]
    constructor
    · intro h
      split at h
      · cases h
      · rename_i s' hs
        split at h
        · cases h
        · rename_i r' hr
          cases h
          exact .cons hs ((ih _).1 hr)
    · intro h
      cases h with
      | cons h1 h2 => rw [h1, (ih _).2 h2]

theorem fillSequence_ok (c : Catalog) (r : SequenceRow) (x : Sequence) :
    (∃ s, legacySequenceRow r = .ok s ∧ c.fillSequence s = .ok x) ↔
      ∃ v, c.sequence x.schema x.name = .ok (some v) ∧ SequenceDescribes r v x ∧
        x.dataType = b!"bigint" := by
  simp only [legacySequenceRow, Except.ok.injEq, exists_eq_left']
  cases x
  simp only [Catalog.fillSequence, bind_ok, scan_ok, pure_ok, queryRow_ok, Sequence.mk.injEq]
  constructor
  · rintro ⟨v, hv, a, h1, b, h2, c, h3, d, h4, e, h5, f, h6, rfl, rfl, g3, g4, g5, rfl, rfl, rfl,
      rfl, rfl, rfl, g6⟩
    exact ⟨v, hv, ⟨(reads_iff _ _).2 rfl, (reads_iff _ _).2 rfl, (reads_iff _ _).2 g3,
      (reads_iff _ _).2 g4, h1, h2, h3, h4, h5, h6, _, g6.symm, (reads_iff _ _).2 rfl,
      (reads_iff _ _).2 rfl, (reads_iff _ _).2 rfl⟩, g5.symm⟩
  · rintro ⟨v, hv, ⟨g1, g2, g3, g4, h1, h2, h3, h4, h5, h6, o, g6, g7, g8, g9⟩, g5⟩
    rw [reads_iff] at g1 g2 g3 g4 g7 g8 g9
    simp only at g1 g2 g3 g4 g6
    refine ⟨v, by rw [g1, g2]; exact hv, _, h1, _, h2, _, h3, _, h4, _, h5, _, h6, g1, g2, g3, g4,
      g5.symm, rfl, rfl, rfl, rfl, rfl, rfl, ?_⟩
    rw [g6, g7, g8, g9]

theorem forall₂_comp {ρ σ α : Type} {R : ρ → σ → Prop} {S : σ → α → Prop} (l : List ρ)
    (n : List α) : (∃ m, List.Forall₂ R l m ∧ List.Forall₂ S m n) ↔
      List.Forall₂ (fun r x => ∃ s, R r s ∧ S s x) l n := by
  constructor
  · rintro ⟨m, h1, h2⟩
    induction h1 generalizing n with
    | nil => cases h2; exact .nil
    | cons h _ ih =>
      cases h2 with
      | cons h' h2 => exact .cons ⟨_, h, h'⟩ (ih _ h2)
  · intro h
    induction h with
    | nil => exact ⟨[], .nil, .nil⟩
    | cons h _ ih =>
      obtain ⟨s, h1, h2⟩ := h
      obtain ⟨m, h3, h4⟩ := ih
      exact ⟨s :: m, .cons h1 h3, .cons h2 h4⟩

end lemmas

/-- C56, the part that holds: as long as the connection does not fail while rows are read, every
listing returns an error or exactly one description per row, in order. What is missing: the failure
of the connection while reading rows is reported. -/
theorem C56_listings_partial (c : Catalog) :
    (Unbroken c.schemas → ListsAll SchemaDescribes c.schemas c.listSchemas) ∧
    (Unbroken c.functions → ListsAll FunctionDescribes c.functions c.listFunctions) ∧
    (Unbroken c.tables → ListsAll TableDescribes c.tables c.listTables) ∧
    ∀ schema table,
      (Unbroken (c.columns schema table) →
        ListsAll ColumnDescribes (c.columns schema table) (c.listColumns schema table)) ∧
      (Unbroken (c.checks schema table) →
        ListsAll CheckDescribes (c.checks schema table) (c.listChecks schema table)) ∧
      (Unbroken (c.foreignKeys schema table) →
        ListsAll ForeignKeyDescribes (c.foreignKeys schema table) (c.listForeignKeys schema table)) ∧
      (Unbroken (c.indexes schema table) →
        ListsAll (IndexDescribes schema) (c.indexes schema table) (c.listIndexes schema table)) ∧
      (Unbroken (c.triggers schema table) →
        ListsAll (TriggerDescribes schema) (c.triggers schema table)
          (c.listTriggers schema table)) :=
  ⟨fun h => listRows_all _ _ h schemaRow_ok, fun h => listRows_all _ _ h functionRow_ok,
    fun h => listRows_all _ _ h tableRow_ok, fun schema _ =>
    ⟨fun h => listRows_all _ _ h columnRow_ok, fun h => listRows_all _ _ h checkRow_ok,
      fun h => listRows_all _ _ h foreignKeyRow_ok,
      fun h => listRows_all _ _ h (indexRow_ok schema),
      fun h => listRows_all _ _ h (triggerRow_ok schema)⟩⟩

/-- C56 for sequences, on servers with and without the catalog `pg_sequence`. -/
theorem C56_sequences_partial (c : Catalog) :
    (c.hasView = .ok (some (some true)) → Unbroken c.sequences →
      ListsAll (fun r x => SequenceDescribes r.1 r.2.2 x ∧ Reads r.2.1 x.dataType)
        c.sequences c.listSequences) ∧
    (c.hasView = .ok (some (some false)) → Unbroken c.legacySequences →
      ListsAll (fun r x => ∃ v, c.sequence x.schema x.name = .ok (some v) ∧
          SequenceDescribes r v x ∧ x.dataType = b!"bigint")
        c.legacySequences c.listSequences) := by
  refine ⟨fun hv hq => ?_, fun hv hq => ?_⟩
  · have : c.listSequences = listRows c.sequences sequenceRow := by
      simp [Catalog.listSequences, hv, queryRow, scan, bind, Except.bind]
    rw [this]
    exact listRows_all _ _ hq sequenceRow_ok
  · have : c.listSequences = match listRows c.legacySequences legacySequenceRow with
        | .error e => .error e
        | .ok seqs => c.fillSequences seqs := by
      unfold Catalog.listSequences
      rw [hv]
      rfl
    rw [this]
    refine ⟨?_, ?_⟩
    · intro e he; rw [he]; rfl
    · intro st hst
      refine ⟨fun hf => absurd (hq st hst) hf, fun _ xs => ?_⟩
      rw [← forall₂_congr (fillSequence_ok c), ← forall₂_comp, hst]
      simp only [listRows]
      constructor
      · intro h
        split at h
        · cases h
        · rename_i seqs hs
          obtain ⟨ys, he, hys⟩ := (scanLoop_ok _ _ _ _).1 hs
          rw [List.nil_append] at he
          rw [he] at h
          exact ⟨ys, hys, (fillSequences_ok _ _ _).1 h⟩
      · rintro ⟨m, h1, h2⟩
        have : scanLoop legacySequenceRow st.rows [] = .ok m :=
          (scanLoop_ok _ _ _ _).2 ⟨m, by simp, h1⟩
        rw [this]
        exact (fillSequences_ok _ _ _).2 h2

/-- A server that answers every query with an error. -/
def deadServer : Catalog where
  searchPath := .error (.query 0)
  timezone := .error (.query 0)
  schemas := .error (.query 0)
  functions := .error (.query 0)
  function _ _ := .error (.query 0)
  hasView := .error (.query 0)
  sequences := .error (.query 0)
  legacySequences := .error (.query 0)
  sequence _ _ := .error (.query 0)
  tables := .error (.query 0)
  columns _ _ := .error (.query 0)
  checks _ _ := .error (.query 0)
  foreignKeys _ _ := .error (.query 0)
  storage _ _ := .error (.query 0)
  indexes _ _ := .error (.query 0)
  triggers _ _ := .error (.query 0)
  trigger _ _ _ := .error (.query 0)
  version := .error (.query 0)

/-- What really happens when the connection fails while rows are read: every listing returns what it
returns for the rows read so far, as if they were all. -/
theorem C56_failure_truncates {ρ α : Type} (row : ρ → Except Err α) (rows : List ρ) (f : Nat) :
    listRows (.ok { rows, failure := some f }) row = listRows (.ok { rows }) row := rfl

/-- C56 is false of the code: when the connection fails after the first of the tables' rows,
`ListTables` returns that one table and no error. -/
theorem C56_refuted :
    ∃ c : Catalog, c.tables = .ok { rows := [⟨some b!"public", some b!"t", none, none⟩],
                                    failure := some 0 } ∧
      c.listTables = .ok [{ schema := b!"public", name := b!"t" }] ∧
      ¬ ListsAll TableDescribes c.tables c.listTables := by
  refine ⟨{ deadServer with
    tables := .ok { rows := [⟨some b!"public", some b!"t", none, none⟩], failure := some 0 } },
    rfl, rfl, ?_⟩
  intro h
  obtain ⟨e, he⟩ := (h.2 _ rfl).1 (by simp)
  simp [Catalog.listTables, listRows, scanLoop, tableRow] at he

/-- A listing of two checks that succeeds, one that fails in the parser, and one of columns that fails in
`Scan`. -/
example :
    let c : Catalog := { deadServer with
      checks := fun _ _ => .ok { rows := [⟨some b!"c1", some b!"CHECK ((a > 0))"⟩,
        ⟨some b!"c2", some b!"CHECK ((b > 0))"⟩] }
      indexes := fun _ _ => .ok { rows := [⟨some b!"i", some true, some b!"CREATE INDEX \"i\""⟩] }
      columns := fun _ _ => .ok { rows := [⟨some b!"a", none, some true, none, none⟩] } }
    Unbroken (c.checks [] []) ∧
    c.listChecks [] [] = .ok [{ name := b!"c1", expression := b!"(a > 0)" },
      { name := b!"c2", expression := b!"(b > 0)" }] ∧
    (∃ cs, c.listIndexes [] [] = .error (.parse cs)) ∧ c.listColumns [] [] = .error .scan := by
  refine ⟨?_, by decide +kernel, ⟨0, by decide +kernel⟩, by decide +kernel⟩
  intro st h
  cases h
  rfl

end Verif.Pg
