import Verif.Sql.Listings
import Verif.Sql.Server

/-!
# Property theorems about the listings of a database

`db` is the database (its catalogs), `c` what the server answers. `Serves db c` says that the answers
are PostgreSQL's answers to the queries whose texts are in the code. `Unbroken` says that the
connection does not fail between two rows (C56 tells what happens then).
-/

namespace Verif.Sql
open Verif Verif.Pg

/-! ## C72: tables -/

/-- C72, the part that holds: `ListTables` returns each table outside the system schemas that its
name alone finds, exactly once, by schema and name. What is missing: tables in schemas that are not
searched, or hidden by a table of the same name. -/
theorem C72_tables_partial (db : Db) (hw : db.WF) (c : Catalog) (hs : Serves db c)
    (hu : Unbroken c.tables) :
    (∃ n, c.tables = .error (.query n) ∧ c.listTables = .error (.query n)) ∨
    ∃ xs, c.listTables = .ok xs ∧
      Enumerates (fun t => UserTable db t ∧ Visible db t) (TableDescribed db) (fun _ _ => True) xs ∧
      xs.Pairwise (fun x y => InOrder x.schema x.name y.schema y.name) :=
  listTables_enumerates db hw c hs hu

/-- C72 is false: a table in a schema that is not searched is not listed, without an error. -/
theorem C72_refuted : ∃ (db : Db) (c : Catalog) (t : Class) (xs : List Ddl.Table), db.WF ∧
    Serves db c ∧ Unbroken c.tables ∧ UserTable db t ∧ c.listTables = .ok xs ∧
    ¬ ∃ x ∈ xs, TableDescribed db t x := by
  refine ⟨shop, serve shop, ⟨200, b!"log", 3000, 20, b!"r", none⟩,
    [{ schema := b!"public", name := b!"accounts", owner := b!"shop" },
     { schema := b!"public", name := b!"users", owner := b!"shop", comment := b!"people" }], shop_wf,
    serve_serves shop, (serve_unbroken shop).2.1, ⟨by decide, by simp [IsTable], b!"audit",
      ⟨⟨3000, b!"audit", 20⟩, by decide, rfl, rfl⟩, ?_⟩, by decide +kernel, ?_⟩
  · rintro (h | h | h) <;> revert h <;> decide
  · rintro ⟨x, hx, hd⟩
    have := hd.name
    simp only [List.mem_cons, List.not_mem_nil, or_false] at hx
    rcases hx with rfl | rfl <;> exact absurd this (by decide)

/-! ## C73: columns -/

/-- C73. `ListColumns` returns each column of the table that has not been dropped exactly once, in the
order of the table, with its type, nullability, default and comment. -/
theorem C73_columns (db : Db) (hw : db.WF) (c : Catalog) (hs : Serves db c)
    (schema table : Str) (hu : Unbroken (c.columns schema table)) :
    (∃ n, c.columns schema table = .error (.query n) ∧
      c.listColumns schema table = .error (.query n)) ∨
    ∃ xs, c.listColumns schema table = .ok xs ∧
      Enumerates (LiveColumn db schema table) (ColumnDescribed db) ColumnOrder xs :=
  listColumns_enumerates db hw c hs schema table hu

example : (serve shop).listColumns b!"public" b!"users" = .ok
    [{ name := b!"id", type := b!"integer", notNull := true, default_ := b!"nextval('users_id_seq')" },
     { name := b!"name", type := b!"text", comment := b!"full name" }] := by decide +kernel

/-! ## C74: sequences -/

/-- By schema and name. -/
def SequenceOrder (x y : Pg.Sequence) : Prop := InOrder x.schema x.name y.schema y.name

/-- C74, the part that holds: on servers of any version, `ListSequences` returns each sequence outside
the system schemas that its name alone finds and that belongs to a column, exactly once, by schema and
name, with its parameters and the column. What is missing: sequences in schemas that are not searched,
and sequences that belong to no column. -/
theorem C74_sequences_partial (db : Db) (hw : db.WF) (c : Catalog) (hs : Serves db c)
    (hu : Unbroken c.sequences) (hu' : Unbroken c.legacySequences) :
    (∃ n, c.listSequences = .error (.query n)) ∨
    ∃ xs, c.listSequences = .ok xs ∧
      Enumerates (fun c => UserSequence db c ∧ Visible db c ∧ ∃ a, OwnedBy db c a)
        (fun c x => SequenceDescribed db c x ∧ (HasPgSequence db → SequenceTypeIs db c x) ∧
          (¬ HasPgSequence db → x.dataType = b!"bigint")) (fun _ _ => True) xs ∧
      xs.Pairwise SequenceOrder := by
  rcases listSequences_enumerates db hw c hs hu hu' with h | ⟨xs, h1, h2⟩
  · exact .inl h
  · refine .inr ⟨xs, h1, ?_, h2.pairwise ?_⟩
    · obtain ⟨l, a, b, -, d⟩ := h2
      exact ⟨l, a, b, List.pairwise_of_forall (fun _ _ => trivial), d⟩
    · intro t t' x y _ _ hR hx hy
      rw [SequenceOrder, hx.1.name, hy.1.name]
      exact hR _ _ hx.1.schema hy.1.schema

/-- C74 is false: a sequence in a searched schema that no column owns is not listed. -/
theorem C74_refuted : ∃ (db : Db) (c : Catalog) (t : Class) (xs : List Pg.Sequence), db.WF ∧
    Serves db c ∧ Unbroken c.sequences ∧ Unbroken c.legacySequences ∧ UserSequence db t ∧
    Visible db t ∧ c.listSequences = .ok xs ∧ ¬ ∃ x ∈ xs, x.name = t.relname := by
  refine ⟨shop, serve shop, ⟨103, b!"tickets", 2200, 20, b!"S", none⟩,
    [{ schema := b!"public", name := b!"users_id_seq", owner := b!"shop", dataType := b!"bigint",
       start := 1, minimum := 1, maximum := 1000, increment := 1, cache := 1,
       ownedBy := some ⟨b!"public", b!"users", b!"id"⟩ }], shop_wf,
    serve_serves shop, (serve_unbroken shop).2.2.2.1, (serve_unbroken shop).2.2.2.2, ⟨by decide, rfl, b!"public",
      ⟨⟨2200, b!"public", 10⟩, by decide, rfl, rfl⟩, ?_⟩, ⟨[11], [], rfl, by decide⟩, by decide +kernel,
    by decide⟩
  rintro (h | h | h) <;> revert h <;> decide

/-! ## C75: functions -/

/-- C75, the part that holds: `ListFunctions` returns each function outside the system schemas that its
name and argument types find, exactly once, by schema and name. What is missing: functions in schemas
that are not searched. -/
theorem C75_functions_partial (db : Db) (hw : db.WF) (c : Catalog) (hs : Serves db c)
    (hu : Unbroken c.functions) :
    (∃ n, c.functions = .error (.query n) ∧ c.listFunctions = .error (.query n)) ∨
    ∃ xs, c.listFunctions = .ok xs ∧
      Enumerates (fun p => UserFunction db p ∧ FnVisible db p) (FunctionDescribed db)
        (fun _ _ => True) xs ∧
      xs.Pairwise (fun x y => InOrder x.schema x.name y.schema y.name) :=
  listFunctions_enumerates db hw c hs hu

/-- C75 is false: a function in a schema that is not searched is not listed. -/
theorem C75_refuted : ∃ (db : Db) (c : Catalog) (p : Proc) (xs : List Ddl.Function), db.WF ∧
    Serves db c ∧ Unbroken c.functions ∧ UserFunction db p ∧ c.listFunctions = .ok xs ∧
    ¬ ∃ x ∈ xs, FunctionDescribed db p x := by
  refine ⟨shop, serve shop, ⟨302, b!"rotate", 3000, 20, 14, [], b!"SELECT 3"⟩,
    [{ schema := b!"public", name := b!"len", owner := b!"shop", returns := b!"integer",
       language := b!"sql", definition := b!"SELECT 1" },
     { schema := b!"public", name := b!"len", owner := b!"shop", returns := b!"integer",
       language := b!"sql", definition := b!"SELECT 2" }], shop_wf,
    serve_serves shop, (serve_unbroken shop).2.2.1, ⟨by decide, b!"audit",
      ⟨⟨3000, b!"audit", 20⟩, by decide, rfl, rfl⟩, by decide, by decide⟩, by decide +kernel, ?_⟩
  rintro ⟨x, hx, hd⟩
  have := hd.name
  simp only [List.mem_cons, List.not_mem_nil, or_false] at hx
  rcases hx with rfl | rfl <;> exact absurd this (by decide)

/-! ## C67: describing one function or trigger -/

/-- C67, the part that holds for functions: `DescribeFunction` describes a function of that name in that
schema, and says "not found" only if there is none. What is missing: if there are several (with
different arguments), it is not determined which one is described. -/
theorem C67_function_partial (db : Db) (hw : db.WF) (c : Catalog) (hs : Serves db c)
    (schema name : Str) :
    (∃ n, c.describeFunction schema name = .error (.query n)) ∨
    (c.describeFunction schema name = .error .notFound ∧
      ¬ ∃ p ∈ db.procs, p.proname = name ∧ SchemaIs db p.pronamespace schema) ∨
    ∃ p ∈ db.procs, p.proname = name ∧ SchemaIs db p.pronamespace schema ∧
      ∃ x, c.describeFunction schema name = .ok x ∧ FunctionDescribed db p x :=
  describeFunction_described db hw c hs schema name

/-- A server that answers this one query differently. -/
theorem Serves.withFunction {db : Db} {c : Catalog} (hs : Serves db c)
    (f : Str → Str → QueryRow FunctionRow)
    (hf : ∀ schema name, GivesRow db describeFunction [schema, name] readDescribed (f schema name)) :
    Serves db { c with function := f } := by
  obtain ⟨h1, h2, h3, -, h5, h6, h7, h8, h9, h10, h11, h12, h13, h14, h15⟩ := hs
  exact ⟨h1, h2, h3, hf, h5, h6, h7, h8, h9, h10, h11, h12, h13, h14, h15⟩

/-- The row of one of the two functions `len` of `shop`. -/
def lenRow (s : Str) : FunctionRow :=
  ⟨none, none, some b!"shop", none, some b!"integer", some b!"sql", some s⟩

/-- A server that finds the other one first. -/
def otherLen (schema name : Str) : QueryRow FunctionRow :=
  if schema = b!"public" ∧ name = b!"len" then .ok (some (lenRow b!"SELECT 2")) else .error (.query 0)

theorem otherLen_gives (schema name : Str) :
    GivesRow shop describeFunction [schema, name] readDescribed (otherLen schema name) := by
  unfold otherLen
  split
  · rename_i h
    obtain ⟨rfl, rfl⟩ := h
    refine ⟨[[.str b!"shop", .null, .str b!"integer", .str b!"sql", .str b!"SELECT 2"],
      [.str b!"shop", .null, .str b!"integer", .str b!"sql", .str b!"SELECT 1"]],
      [lenRow b!"SELECT 2", lenRow b!"SELECT 1"], ?_, by decide +kernel, rfl⟩
    exact ⟨(describeFunction.solutions shop [b!"public", b!"len"]).reverse, List.reverse_perm _,
      by decide +kernel, by decide +kernel⟩
  · exact ⟨0, rfl⟩

/-- C67 is false for functions with several versions: two servers that hold the same database describe
two different functions. -/
theorem C67_refuted : ∃ (db : Db) (c c' : Catalog) (schema name : Str) (x x' : Ddl.Function), db.WF ∧
    Serves db c ∧ Serves db c' ∧ c.describeFunction schema name = .ok x ∧
    c'.describeFunction schema name = .ok x' ∧ x.definition ≠ x'.definition := by
  exact ⟨shop, serve shop, { serve shop with function := otherLen }, b!"public", b!"len",
    ⟨b!"public", b!"len", b!"shop", [], b!"integer", b!"sql", b!"SELECT 1"⟩,
    ⟨b!"public", b!"len", b!"shop", [], b!"integer", b!"sql", b!"SELECT 2"⟩,
    shop_wf, serve_serves shop, (serve_serves shop).withFunction otherLen otherLen_gives,
    by decide +kernel, by decide +kernel, by decide⟩

/-- C67 for triggers: `DescribeTrigger` returns the description of the trigger of that name on that
table, says "not found" exactly if there is none, and otherwise fails because the definition of the
trigger is not understood. -/
theorem C67_trigger (db : Db) (hw : db.WF) (c : Catalog) (hs : Serves db c)
    (schema table name : Str) :
    (∃ n, c.describeTrigger schema table name = .error (.query n)) ∨
    (c.describeTrigger schema table name = .error .notFound ∧
      ¬ ∃ t, TriggerOf db schema table t ∧ t.tgname = name) ∨
    ∃ t, (TriggerOf db schema table t ∧ t.tgname = name) ∧
      (∀ t', TriggerOf db schema table t' ∧ t'.tgname = name → t' = t) ∧
      (∀ x, c.describeTrigger schema table name = .ok x ↔ TriggerDescribed db schema t x) ∧
      ∀ e, c.describeTrigger schema table name = .error e → ∃ cs, e = .parse cs := by
  rcases describeTrigger_described db hw c hs schema table name with h | h | ⟨t, ⟨h1, r, h2, h3⟩, h4, h5⟩
  · exact .inl h
  · exact .inr (.inl h)
  · refine .inr (.inr ⟨t, ⟨⟨h1, r, h2, h3⟩, h4⟩, ?_, h5⟩)
    rintro t' ⟨⟨h1', r', h2', h3'⟩, h4'⟩
    obtain ⟨n, hn⟩ := isRel_iff.1 h2
    obtain ⟨n', hn'⟩ := isRel_iff.1 h2'
    obtain ⟨-, rfl⟩ := hn.unique hw hn'
    exact inj_of_nodup hw.tgname h1' h1 (by simp [h3, h3', h4, h4'])

example : (serve shop).describeTrigger b!"public" b!"users" b!"stamp" =
    (serve shop).describeTrigger b!"public" b!"users" b!"RI_400" ∧
    (serve shop).describeTrigger b!"public" b!"users" b!"none" = .error .notFound ∧
    (serve shop).describeFunction b!"audit" b!"len" = .error .notFound := by
  decide +kernel

/-! ## C76: triggers -/

/-- C76. `ListTriggers` returns each trigger of the table that was not made by the server itself exactly
once, by name, or it fails because the definition of one of them is not understood. -/
theorem C76_triggers (db : Db) (hw : db.WF) (c : Catalog) (hs : Serves db c)
    (schema table : Str) (hu : Unbroken (c.triggers schema table)) :
    (∃ n, c.triggers schema table = .error (.query n) ∧
      c.listTriggers schema table = .error (.query n)) ∨
    (∃ cs, c.listTriggers schema table = .error (.parse cs) ∧ ∃ t, (TriggerOf db schema table t ∧
      t.tgisinternal = false) ∧ ∀ x, ¬ TriggerDescribed db schema t x) ∨
    ∃ xs, c.listTriggers schema table = .ok xs ∧
      Enumerates (fun t => TriggerOf db schema table t ∧ t.tgisinternal = false)
        (TriggerDescribed db schema) (fun t t' => Str.le t.tgname t'.tgname = true) xs :=
  listTriggers_enumerates db hw c hs schema table hu

/-- C76, second part. What `ListTriggers` lists, `DescribeTrigger` finds: for every trigger listed there
is a name under which `DescribeTrigger` returns the same description, unless its query fails. -/
theorem C76_describe (db : Db) (hw : db.WF) (c : Catalog) (hs : Serves db c)
    (schema table : Str) (hu : Unbroken (c.triggers schema table)) (xs : List Ddl.Trigger)
    (h : c.listTriggers schema table = .ok xs) (x : Ddl.Trigger) (hx : x ∈ xs) :
    ∃ t, TriggerOf db schema table t ∧ TriggerDescribed db schema t x ∧
      (c.describeTrigger schema table t.tgname = .ok x ∨
       ∃ n, c.describeTrigger schema table t.tgname = .error (.query n)) := by
  rcases C76_triggers db hw c hs schema table hu with ⟨n, -, h'⟩ | ⟨e, h', -⟩ | ⟨ys, h', l, -, h1, -, h2⟩
  · rw [h] at h'; cases h'
  · rw [h] at h'; cases h'
  · rw [h] at h'
    cases h'
    obtain ⟨t, ht, hd⟩ := forall₂_mem_right h2 hx
    have hP := (h1 t).1 ht
    refine ⟨t, hP.1, hd, ?_⟩
    rcases C67_trigger db hw c hs schema table t.tgname with h3 | ⟨-, h3⟩ | ⟨t', -, h3, h4⟩
    · exact .inr h3
    · exact absurd ⟨t, hP.1, rfl⟩ h3
    · obtain rfl := h3 t ⟨hP.1, rfl⟩
      exact .inl ((h4.1 x).2 hd)

example : ∃ x, (serve shop).listTriggers b!"public" b!"users" = .ok [x] ∧ x.name = b!"stamp" ∧
    x.schema = b!"public" := by
  refine ⟨⟨b!"public", b!"users", b!"stamp", b!"f", b!"BEFORE", false, false, false, true, false, false,
    false, true, []⟩, by decide +kernel, rfl, rfl⟩

/-! ## C77: constraints and indexes -/

/-- C77. `ListChecks` returns each check constraint of the table exactly once, by name, or it fails
because the definition of one of them is not understood. -/
theorem C77_checks (db : Db) (hw : db.WF) (c : Catalog) (hs : Serves db c)
    (schema table : Str) (hu : Unbroken (c.checks schema table)) :
    (∃ n, c.checks schema table = .error (.query n) ∧
      c.listChecks schema table = .error (.query n)) ∨
    (∃ cs, c.listChecks schema table = .error (.parse cs) ∧ ∃ k, CheckOf db schema table k ∧
      ∀ x, ¬ CheckDescribed db k x) ∨
    ∃ xs, c.listChecks schema table = .ok xs ∧
      Enumerates (CheckOf db schema table) (CheckDescribed db)
        (fun k k' => Str.le k.conname k'.conname = true) xs :=
  listChecks_enumerates db hw c hs schema table hu

/-- C77 for foreign keys: by the table referred to and the columns. -/
theorem C77_foreign_keys (db : Db) (hw : db.WF) (c : Catalog) (hs : Serves db c)
    (schema table : Str) (hu : Unbroken (c.foreignKeys schema table)) :
    (∃ n, c.foreignKeys schema table = .error (.query n) ∧
      c.listForeignKeys schema table = .error (.query n)) ∨
    (∃ cs, c.listForeignKeys schema table = .error (.parse cs) ∧ ∃ k, ForeignKeyOf db schema table k ∧
      ∀ x, ¬ ForeignKeyDescribed db k x) ∨
    ∃ xs, c.listForeignKeys schema table = .ok xs ∧
      Enumerates (ForeignKeyOf db schema table) (ForeignKeyDescribed db) (ForeignKeyOrder db) xs :=
  listForeignKeys_enumerates db hw c hs schema table hu

/-- C77 for indexes: primary keys first, then unique indexes, then by name. -/
theorem C77_indexes (db : Db) (hw : db.WF) (c : Catalog) (hs : Serves db c)
    (schema table : Str) (hu : Unbroken (c.indexes schema table)) :
    (∃ n, c.indexes schema table = .error (.query n) ∧
      c.listIndexes schema table = .error (.query n)) ∨
    (∃ cs, c.listIndexes schema table = .error (.parse cs) ∧ ∃ k, IndexOf db schema table k ∧
      ∀ x, ¬ IndexDescribed db schema k x) ∨
    ∃ xs, c.listIndexes schema table = .ok xs ∧
      Enumerates (IndexOf db schema table) (IndexDescribed db schema) (IndexOrder db) xs :=
  listIndexes_enumerates db hw c hs schema table hu

example : (serve shop).listChecks b!"public" b!"users" =
      .ok [{ name := b!"users_check", expression := b!"id > 0" }] ∧
    (serve shop).listForeignKeys b!"public" b!"users" =
      .ok [{ name := b!"users_fk", table := b!"accounts", columns := [b!"id"],
             referenced := [b!"id"] }] ∧
    (∃ x y, (serve shop).listIndexes b!"public" b!"users" = .ok [x, y] ∧ x.name = b!"users_pkey" ∧
      x.primary = true ∧ y.name = b!"users_name") := by
  refine ⟨by decide +kernel, by decide +kernel, ⟨b!"public", b!"users", b!"users_pkey", true, true,
    b!"btree", [], [{ column := b!"id" }]⟩, ⟨b!"public", b!"users", b!"users_name", false, false,
    b!"btree", [], [{ column := b!"name" }]⟩, by decide +kernel, rfl, rfl, rfl⟩

/-! ## C78: schemas -/

/-- C78. `ListSchemas` returns each schema that is not the system's exactly once, by name. -/
theorem C78_schemas (db : Db) (hw : db.WF) (c : Catalog) (hs : Serves db c)
    (hu : Unbroken c.schemas) :
    (∃ n, c.schemas = .error (.query n) ∧ c.listSchemas = .error (.query n)) ∨
    ∃ xs, c.listSchemas = .ok xs ∧
      Enumerates (UserSchema db) (SchemaDescribed db)
        (fun n n' => Str.le n.nspname n'.nspname = true) xs :=
  listSchemas_enumerates db hw c hs hu

example : (serve shop).listSchemas = .ok [{ name := b!"audit", owner := b!"shop" },
    { name := b!"public", owner := b!"postgres", comment := b!"standard" }] := by decide +kernel

/-! ## C79: storage parameters -/

/-- C79. `ListTableStorageParameters` returns the known parameters set on that table and no others, or
it fails because the value of one of them is not understood. -/
theorem C79_storage {F : Type} (parseFloat : Str → F × Option Ddl.NumErr) (db : Db) (hw : db.WF)
    (c : Catalog) (hs : Serves db c) (schema table : Str) (hu : Unbroken (c.storage schema table)) :
    (∃ n, c.storage schema table = .error (.query n) ∧
      c.listStorage parseFloat schema table = .error (.query n)) ∨
    (∃ e, c.listStorage parseFloat schema table = .error (.num e) ∧ ∃ key kind value,
      (key, kind) ∈ Ddl.knownParams ∧ OptionSet db schema table key value ∧
      ∀ v, ¬ Ddl.Denotes parseFloat kind value v) ∨
    ∃ p, c.listStorage parseFloat schema table = .ok p ∧
      (∀ key kind value, (key, kind) ∈ Ddl.knownParams → OptionSet db schema table key value →
        ∃ v, Ddl.Denotes parseFloat kind value v ∧ p.get key = some v) ∧
      ∀ key, (¬ ∃ value, OptionSet db schema table key value) → p.get key = none :=
  listStorage_cases parseFloat db hw c hs schema table hu

example : ((serve shop).listStorage (F := Unit) (fun _ => ((), none)) b!"public" b!"users") =
    .ok { fillfactor := some 70 } := by decide +kernel

end Verif.Sql
