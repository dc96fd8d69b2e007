import Verif.Sql.InspectLemmas

/-!
# Property theorems about the inspection of a database
-/

namespace Verif.Sql
open Verif Verif.Pg

section
variable {F : Type} {parseFloat : Str → F × Option Ddl.NumErr} {sort : Sorter} {c : Catalog}
  {o : InspectOptions} {db : Db}

/-- The tables listed, with the relations they describe. -/
theorem tables_listed (hw : db.WF) (hs : Serves db c) (hu : Steady c) {ts : List Ddl.Table}
    (h : c.listTables = .ok ts) :
    ∃ l : List Class, l.Nodup ∧ (∀ t, t ∈ l ↔ Inspects db t) ∧ List.Forall₂ (TableDescribed db) l ts ∧
      ts.Pairwise (fun x y => InOrder x.schema x.name y.schema y.name) := by
  rcases listTables_enumerates db hw c hs hu.tables with ⟨n, -, h'⟩ | ⟨xs, h', ⟨l, h1, h2, -, h4⟩, h5⟩
  · rw [h] at h'; cases h'
  · rw [h] at h'; cases h'
    exact ⟨l, h1, h2, h4, h5⟩

theorem inspect_failed (hw : db.WF) (hs : Serves db c) (hu : Steady c) {e : Err}
    (h : inspect parseFloat sort c o = .error e) :
    c.listParameters = .error e ∨ (∃ n, e = .query n) ∨ ((∃ cs, e = .parse cs) ∧ NotUnderstood db) ∨
    ((∃ n, e = .num n) ∧ BadOption parseFloat db) := by
  rcases inspect_error' h with h | h | h | h | h | ⟨ts, x, hts, hx, h⟩
  · exact .inl h
  · rcases listSchemas_enumerates db hw c hs hu.schemas with ⟨n, -, h'⟩ | ⟨xs, h', -⟩ <;>
      rw [h] at h' <;> cases h'
    exact .inr (.inl ⟨n, rfl⟩)
  · rcases listFunctions_enumerates db hw c hs hu.functions with ⟨n, -, h'⟩ | ⟨xs, h', -⟩ <;>
      rw [h] at h' <;> cases h'
    exact .inr (.inl ⟨n, rfl⟩)
  · rcases listSequences_enumerates db hw c hs hu.sequences hu.legacySequences with
      ⟨n, h'⟩ | ⟨xs, h', -⟩ <;> rw [h] at h' <;> cases h'
    exact .inr (.inl ⟨n, rfl⟩)
  · rcases listTables_enumerates db hw c hs hu.tables with ⟨n, -, h'⟩ | ⟨xs, h', -⟩ <;>
      rw [h] at h' <;> cases h'
    exact .inr (.inl ⟨n, rfl⟩)
  · obtain ⟨l, -, h2, h3, -⟩ := tables_listed hw hs hu hts
    obtain ⟨t, ht, hd⟩ := forall₂_mem_right h3 hx
    have hi := (h2 t).1 ht
    rw [hd.name] at h
    rcases h with h | h | h | h | h | h
    · rcases listColumns_enumerates db hw c hs x.schema t.relname (hu.columns _ _) with
        ⟨n, -, h'⟩ | ⟨xs, h', -⟩ <;> rw [h] at h' <;> cases h'
      exact .inr (.inl ⟨n, rfl⟩)
    · rcases listChecks_enumerates db hw c hs x.schema t.relname (hu.checks _ _) with
        ⟨n, -, h'⟩ | ⟨cs, h', h''⟩ | ⟨xs, h', -⟩ <;> rw [h] at h' <;> cases h'
      · exact .inr (.inl ⟨n, rfl⟩)
      · exact .inr (.inr (.inl ⟨⟨cs, rfl⟩, t, x.schema, hi, hd.schema, .inl h''⟩))
    · rcases listForeignKeys_enumerates db hw c hs x.schema t.relname (hu.foreignKeys _ _) with
        ⟨n, -, h'⟩ | ⟨cs, h', h''⟩ | ⟨xs, h', -⟩ <;> rw [h] at h' <;> cases h'
      · exact .inr (.inl ⟨n, rfl⟩)
      · exact .inr (.inr (.inl ⟨⟨cs, rfl⟩, t, x.schema, hi, hd.schema, .inr (.inl h'')⟩))
    · rcases listStorage_cases parseFloat db hw c hs x.schema t.relname (hu.storage _ _) with
        ⟨n, -, h'⟩ | ⟨n, h', k, kind, v, h1, h2, h3⟩ | ⟨xs, h', -⟩ <;> rw [h] at h' <;> cases h'
      · exact .inr (.inl ⟨n, rfl⟩)
      · exact .inr (.inr (.inr ⟨⟨n, rfl⟩, t, x.schema, k, kind, v, hi, hd.schema, h1, h2, h3⟩))
    · rcases listIndexes_enumerates db hw c hs x.schema t.relname (hu.indexes _ _) with
        ⟨n, -, h'⟩ | ⟨cs, h', i, h1, h2⟩ | ⟨xs, h', -⟩ <;> rw [h] at h' <;> cases h'
      · exact .inr (.inl ⟨n, rfl⟩)
      · rw [indexOf_iff hw hi hd.schema] at h1
        exact .inr (.inr (.inl ⟨⟨cs, rfl⟩, t, x.schema, hi, hd.schema,
          .inr (.inr (.inl ⟨i, ⟨h1.1, t, hi, hd.schema, h1.2⟩, h2⟩))⟩))
    · rcases listTriggers_enumerates db hw c hs x.schema t.relname (hu.triggers _ _) with
        ⟨n, -, h'⟩ | ⟨cs, h', g, ⟨h1, h1'⟩, h2⟩ | ⟨xs, h', -⟩ <;> rw [h] at h' <;> cases h'
      · exact .inr (.inl ⟨n, rfl⟩)
      · rw [triggerOf_iff hw hi hd.schema] at h1
        exact .inr (.inr (.inl ⟨⟨cs, rfl⟩, t, x.schema, hi, hd.schema,
          .inr (.inr (.inr ⟨g, ⟨h1.1, h1', t, hi, hd.schema, h1.2⟩, h2⟩))⟩))

theorem table_inspected (hw : db.WF) (hs : Serves db c) (hu : Steady c) (hsort : SortSlice sort)
    {t : Class} {x : Ddl.Table} {info : TableInfo F} (hd : TableDescribed db t x)
    (h : Inspected parseFloat sort c o x info) :
    TableInspected parseFloat db o t info ∧ info.table.schema = x.schema ∧
      info.table.name = x.name := by
  obtain ⟨cols, chks, fks, params, h1, h2, h3, h4, rfl⟩ := h
  rw [hd.name] at h1 h2 h3 h4
  refine ⟨⟨hd.schema, hd.name, hd.owner, hd.comment, ?_, ?_, ?_, ?_, ?_⟩, rfl, rfl⟩
  · rcases listColumns_enumerates db hw c hs x.schema t.relname (hu.columns _ _) with
      ⟨n, -, h'⟩ | ⟨xs, h', h⟩ <;> rw [h1] at h' <;> cases h'
    exact sortedColumns hsort h
  · rcases listChecks_enumerates db hw c hs x.schema t.relname (hu.checks _ _) with
      ⟨n, -, h'⟩ | ⟨cs, h', h''⟩ | ⟨xs, h', h⟩ <;> rw [h2] at h' <;> cases h'
    simpa [hd.checks] using h
  · rcases listForeignKeys_enumerates db hw c hs x.schema t.relname (hu.foreignKeys _ _) with
      ⟨n, -, h'⟩ | ⟨cs, h', h''⟩ | ⟨xs, h', h⟩ <;> rw [h3] at h' <;> cases h'
    simpa [hd.foreignKeys] using h
  · rcases listStorage_cases parseFloat db hw c hs x.schema t.relname (hu.storage _ _) with
      ⟨n, -, h'⟩ | ⟨n, h', -⟩ | ⟨xs, h', h⟩ <;> rw [h4] at h' <;> cases h'
    exact h.1
  · rcases listStorage_cases parseFloat db hw c hs x.schema t.relname (hu.storage _ _) with
      ⟨n, -, h'⟩ | ⟨n, h', -⟩ | ⟨xs, h', h⟩ <;> rw [h4] at h' <;> cases h'
    exact h.2

theorem forall₂_trans {α β γ : Type} {R : α → β → Prop} {S : β → γ → Prop} {T : α → γ → Prop}
    {l : List α} {m : List β} {n : List γ} (h : List.Forall₂ R l m) (h' : List.Forall₂ S m n)
    (hT : ∀ a b c, a ∈ l → R a b → S b c → T a c) : List.Forall₂ T l n := by
  induction h generalizing n with
  | nil => cases h'; exact .nil
  | cons h1 _ ih =>
    cases h' with
    | cons h2 h' =>
      exact .cons (hT _ _ _ (by simp) h1 h2) (ih h' fun a b c ha => hT a b c (by simp [ha]))

theorem pairwise_forall₂ {α β : Type} {R : α → β → Prop} {S : α → α → Prop} {S' : β → β → Prop}
    {l : List α} {m : List β} (h : List.Forall₂ R l m) (hS : l.Pairwise S)
    (hi : ∀ a a' b b', R a b → R a' b' → S a a' → S' b b') : m.Pairwise S' := by
  induction h with
  | nil => exact .nil
  | cons h1 h2 ih =>
    rw [List.pairwise_cons] at hS ⊢
    refine ⟨fun y hy => ?_, ih hS.2⟩
    obtain ⟨a, ha, hay⟩ := forall₂_mem_right h2 hy
    exact hi _ _ _ _ h1 hay (hS.1 a ha)

theorem inspect_inspected (hw : db.WF) (hs : Serves db c) (hu : Steady c) (hsort : SortSlice sort)
    {d : Database F} (h : inspect parseFloat sort c o = .ok d) :
    DatabaseInspected parseFloat db o d := by
  obtain ⟨-, h2, h3, h4, ts, perI, perT, h5, h6, h7, h8, h9, h10⟩ := inspect_ok h
  obtain ⟨l, l1, l2, l3, l4⟩ := tables_listed hw hs hu h5
  have hoid : ∀ t ∈ l, ∀ t' ∈ l, t.oid = t'.oid → t = t' := fun t ht t' ht' =>
    inj_of_nodup hw.classes ((l2 t).1 ht).1.1 ((l2 t').1 ht').1.1
  constructor
  case schemas =>
    rcases listSchemas_enumerates db hw c hs hu.schemas with ⟨n, -, h'⟩ | ⟨xs, h', h⟩ <;>
      rw [h2] at h' <;> cases h'
    exact h
  case functions =>
    rcases listFunctions_enumerates db hw c hs hu.functions with ⟨n, -, h'⟩ | ⟨xs, h', h, -⟩ <;>
      rw [h3] at h' <;> cases h'
    exact h
  case sequences =>
    rcases listSequences_enumerates db hw c hs hu.sequences hu.legacySequences with
      ⟨n, h'⟩ | ⟨xs, h', h⟩ <;> rw [h4] at h' <;> cases h'
    exact h.perm (.refl _)
  case tables =>
    exact ⟨l, l1, l2, List.pairwise_of_forall (fun _ _ => trivial),
      forall₂_trans l3 h6 fun t x info _ hd hx => (table_inspected hw hs hu hsort hd hx).1⟩
  case tablesOrder =>
    refine pairwise_forall₂ h6 l4 ?_
    rintro x x' info info' ⟨_, _, _, _, _, _, _, _, rfl⟩ ⟨_, _, _, _, _, _, _, _, rfl⟩ h
    exact h
  case indexes =>
    have := enumerates_flatten (P := fun t i => i ∈ db.indexes ∧ i.indrelid = t.oid)
      (D := fun t i x => ∃ s, SchemaIs db t.relnamespace s ∧ IndexDescribed db s i x)
      (R := fun _ => IndexOrder db) (per := perI) l1
      (fun t ht t' ht' i h h' => hoid t ht t' ht' (h.2.symm.trans h'.2))
      (forall₂_trans l3 h7 fun t x idx ht hd hx => by
        rw [hd.name] at hx
        rcases listIndexes_enumerates db hw c hs x.schema t.relname (hu.indexes _ _) with
          ⟨n, -, h'⟩ | ⟨cs, h', -⟩ | ⟨xs, h', h⟩ <;> rw [hx] at h' <;> cases h'
        exact h.imp (fun i => indexOf_iff hw ((l2 t).1 ht) hd.schema i)
          fun i y _ hy => ⟨x.schema, hd.schema, hy⟩)
    have hp : d.indexes.Perm perI.flatten := by
      rw [h9]; split
      · exact hsort.perm _ _ _
      · exact .refl _
    refine (this.perm hp).imp (fun i => ?_) (fun i x hi hx => ?_)
    · constructor
      · rintro ⟨t, ht, h1, h2⟩
        obtain ⟨s, hs', -⟩ := ((l2 t).1 ht).1.2.2
        exact ⟨s, h1, t, (l2 t).1 ht, hs', h2⟩
      · rintro ⟨s, h1, t, ht, -, h2⟩
        exact ⟨t, (l2 t).2 ht, h1, h2⟩
    · obtain ⟨t, ht, ⟨h1, h2⟩, s, hs', hd⟩ := hx
      exact ⟨s, ⟨h1, t, (l2 t).1 ht, hs', h2⟩, hd⟩
  case triggers =>
    have := enumerates_flatten
      (P := fun t g => g ∈ db.triggers ∧ g.tgisinternal = false ∧ g.tgrelid = t.oid)
      (D := fun t g x => ∃ s, SchemaIs db t.relnamespace s ∧ TriggerDescribed db s g x)
      (R := fun _ t t' => Str.le t.tgname t'.tgname = true) (per := perT) l1
      (fun t ht t' ht' i h h' => hoid t ht t' ht' (h.2.2.symm.trans h'.2.2))
      (forall₂_trans l3 h8 fun t x idx ht hd hx => by
        rw [hd.name] at hx
        rcases listTriggers_enumerates db hw c hs x.schema t.relname (hu.triggers _ _) with
          ⟨n, -, h'⟩ | ⟨cs, h', -⟩ | ⟨xs, h', h⟩ <;> rw [hx] at h' <;> cases h'
        exact h.imp (fun g => by
            rw [triggerOf_iff hw ((l2 t).1 ht) hd.schema g]
            exact ⟨fun ⟨⟨a, b⟩, c⟩ => ⟨a, c, b⟩, fun ⟨a, c, b⟩ => ⟨⟨a, b⟩, c⟩⟩)
          fun i y _ hy => ⟨x.schema, hd.schema, hy⟩)
    rw [h10]
    refine this.imp (fun i => ?_) (fun i x hi hx => ?_)
    · constructor
      · rintro ⟨t, ht, h1, h1', h2⟩
        obtain ⟨s, hs', -⟩ := ((l2 t).1 ht).1.2.2
        exact ⟨s, h1, h1', t, (l2 t).1 ht, hs', h2⟩
      · rintro ⟨s, h1, h1', t, ht, -, h2⟩
        exact ⟨t, (l2 t).2 ht, h1, h1', h2⟩
    · obtain ⟨t, ht, ⟨h1, h1', h2⟩, s, hs', hd⟩ := hx
      exact ⟨s, ⟨h1, h1', t, (l2 t).1 ht, hs', h2⟩, hd⟩

end

/-! ## C80: inspection -/

/-- C80. `InspectDatabase` over a connection that does not break off returns a description of the
database: its schemas, functions, sequences and tables, every table with its own columns, checks,
foreign keys and storage parameters, and all their indexes and triggers, each exactly once. Otherwise
it fails, and then reading the server's parameters failed, or a query failed, or a definition or
option value in the database is not understood. -/
theorem C80_inspect {F : Type} (parseFloat : Str → F × Option Ddl.NumErr) (sort : Sorter)
    (hsort : SortSlice sort) (db : Db) (hw : db.WF) (c : Catalog) (hs : Serves db c) (hu : Steady c)
    (o : InspectOptions) :
    (∃ d, inspect parseFloat sort c o = .ok d ∧ DatabaseInspected parseFloat db o d) ∨
    ∃ e, inspect parseFloat sort c o = .error e ∧
      (c.listParameters = .error e ∨ (∃ n, e = .query n) ∨
       ((∃ cs, e = .parse cs) ∧ NotUnderstood db) ∨
       ((∃ n, e = .num n) ∧ BadOption parseFloat db)) := by
  cases h : inspect parseFloat sort c o with
  | error e => exact .inr ⟨e, rfl, inspect_failed hw hs hu h⟩
  | ok d => exact .inl ⟨d, rfl, inspect_inspected hw hs hu hsort h⟩

set_option synthInstance.maxSize 1000 in
set_option synthInstance.maxHeartbeats 200000 in
/-- An inspection of `shop` that succeeds. -/
example : ∃ d, inspect (F := Unit) (fun _ => ((), none)) (fun _ less l => insertionSort less l)
      (serve shop) { sortColumns := true } = .ok d ∧
    d.tables.map (fun x => (x.table.name, x.table.columns.map (·.name), x.table.checks.map (·.name),
      x.table.foreignKeys.map (·.name), x.storage.fillfactor)) =
      [(b!"accounts", [], [], [], none),
       (b!"users", [b!"id", b!"name"], [b!"users_check"], [b!"users_fk"], some 70)] ∧
    d.indexes.map (·.name) = [b!"users_pkey", b!"users_name"] ∧
    d.triggers.map (·.name) = [b!"stamp"] ∧ d.schemas.map (·.name) = [b!"audit", b!"public"] ∧
    d.parameters = { searchPath := [b!"public"], timezone := b!"UTC" } := by
  have h : (inspect (F := Unit) (fun _ => ((), none)) (fun _ less l => insertionSort less l)
      (serve shop) { sortColumns := true }).toOption.map (fun d =>
        (d.tables.map (fun x => (x.table.name, x.table.columns.map (·.name), x.table.checks.map (·.name),
          x.table.foreignKeys.map (·.name), x.storage.fillfactor)), d.indexes.map (·.name),
          d.triggers.map (·.name), d.schemas.map (·.name), d.parameters)) =
      some ([(b!"accounts", [], [], [], none),
       (b!"users", [b!"id", b!"name"], [b!"users_check"], [b!"users_fk"], some 70)],
       [b!"users_pkey", b!"users_name"], [b!"stamp"], [b!"audit", b!"public"],
       { searchPath := [b!"public"], timezone := b!"UTC" }) := by decide +kernel
  cases hi : inspect (F := Unit) (fun _ => ((), none)) (fun _ less l => insertionSort less l)
      (serve shop) { sortColumns := true } with
  | error e => rw [hi] at h; cases h
  | ok d =>
    rw [hi] at h
    simp only [Except.toOption, Option.map_some, Option.some.injEq, Prod.mk.injEq] at h
    exact ⟨d, rfl, h⟩

/-- C80, the other direction: if a part of an inspected table is not understood, the inspection fails. -/
theorem C80_never_skips {F : Type} (parseFloat : Str → F × Option Ddl.NumErr) (sort : Sorter)
    (hsort : SortSlice sort) (db : Db) (hw : db.WF) (c : Catalog) (hs : Serves db c) (hu : Steady c)
    (o : InspectOptions) (h : NotUnderstood db ∨ BadOption parseFloat db) :
    ∃ e, inspect parseFloat sort c o = .error e := by
  cases hi : inspect parseFloat sort c o with
  | error e => exact ⟨e, rfl⟩
  | ok d =>
    exfalso
    have hd := inspect_inspected (o := o) hw hs hu hsort hi
    rcases h with ⟨t, s, ht, hts, h⟩ | ⟨t, s, key, kind, v, ht, hts, h1, h2, h3⟩
    · obtain ⟨l, -, l2, -, l4⟩ := hd.tables
      obtain ⟨x, hx, hxd⟩ := forall₂_mem_right l4.flip ((l2 t).2 ht)
      obtain rfl := schemaIs_inj hw hxd.schema hts
      rcases h with ⟨k, hk, h⟩ | ⟨k, hk, h⟩ | ⟨i, hi, h⟩ | ⟨g, hg, h⟩
      · obtain ⟨m, -, m2, -, m4⟩ := hxd.checks
        obtain ⟨y, -, hy⟩ := forall₂_mem_right m4.flip ((m2 k).2 hk)
        exact h y hy
      · obtain ⟨m, -, m2, -, m4⟩ := hxd.foreignKeys
        obtain ⟨y, -, hy⟩ := forall₂_mem_right m4.flip ((m2 k).2 hk)
        exact h y hy
      · obtain ⟨m, -, m2, -, m4⟩ := hd.indexes
        obtain ⟨y, -, s', ⟨-, t', ht', hs', he'⟩, hy⟩ := forall₂_mem_right m4.flip ((m2 i).2 ⟨_, hi⟩)
        obtain ⟨-, t'', ht'', hs'', he''⟩ := hi
        obtain rfl := inj_of_nodup hw.classes ht'.1.1 ht''.1.1 (he'.symm.trans he'')
        obtain rfl := schemaIs_inj hw hs' hs''
        exact h y hy
      · obtain ⟨m, -, m2, -, m4⟩ := hd.triggers
        obtain ⟨y, -, s', ⟨-, -, t', ht', hs', he'⟩, hy⟩ := forall₂_mem_right m4.flip ((m2 g).2 ⟨_, hg⟩)
        obtain ⟨-, -, t'', ht'', hs'', he''⟩ := hg
        obtain rfl := inj_of_nodup hw.classes ht'.1.1 ht''.1.1 (he'.symm.trans he'')
        obtain rfl := schemaIs_inj hw hs' hs''
        exact h y hy
    · obtain ⟨l, -, l2, -, l4⟩ := hd.tables
      obtain ⟨x, hx, hxd⟩ := forall₂_mem_right l4.flip ((l2 t).2 ht)
      obtain rfl := schemaIs_inj hw hxd.schema hts
      obtain ⟨w, hw', -⟩ := hxd.optionsSet key kind v h1 h2
      exact h3 w hw'

/-- `shop` with a check whose definition no check has. -/
example : NotUnderstood { shop with getConstraintdef := fun _ _ => b!"CHECK (" } := by
  refine ⟨⟨100, b!"users", 2200, 20, b!"r", some [b!"fillfactor=70"]⟩, b!"public",
    ⟨⟨by decide, by simp [IsTable], b!"public", ⟨⟨2200, b!"public", 10⟩, by decide, rfl, rfl⟩, ?_⟩,
      [11], [], rfl, by decide⟩, ⟨⟨2200, b!"public", 10⟩, by decide, rfl, rfl⟩,
    .inl ⟨⟨500, b!"users_check", b!"c", 100, 0, some [1]⟩, ⟨by decide, rfl,
      ⟨100, b!"users", 2200, 20, b!"r", some [b!"fillfactor=70"]⟩, ⟨by decide, rfl,
      ⟨2200, b!"public", 10⟩, by decide, rfl, rfl⟩, rfl⟩, ?_⟩⟩
  · rintro (h | h | h) <;> revert h <;> decide
  · rintro x ⟨-, h⟩
    have : ∀ y, Ddl.parseCheck b!"CHECK (" ≠ .ok y := by
      have h' : (match Ddl.parseCheck b!"CHECK (" with | .ok _ => false | _ => true) = true := by
        decide +kernel
      intro y hy
      rw [hy] at h'
      cases h'
    exact this _ h

end Verif.Sql
