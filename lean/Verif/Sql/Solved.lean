import Verif.Sql.Solve

/-!
# Lemmas: what each query selects
-/

namespace Verif.Sql
open Verif Verif.Pg

theorem isPrefixOf_false {p s : Str} : p.isPrefixOf s = false ↔ ¬ p <+: s := by
  rw [← List.isPrefixOf_iff_prefix, Bool.not_eq_true]

theorem oid_inj {a b : Nat} : ((a : Int) = (b : Int)) ↔ a = b := by omega

theorem ofOption_bool {o : Option Bool} : ofOption Val.bool o = .bool true ↔ o = some true := by
  cases o <;> simp [ofOption]

@[simp] theorem ofOption_some {α : Type} {f : α → Val} {a : α} : ofOption f (some a) = f a := rfl
@[simp] theorem ofOption_none {α : Type} {f : α → Val} : ofOption f none = .null := rfl

/-- Computes a condition on a tuple. -/
macro "sql" d:ident : tactic => `(tactic| simp [$d:ident, Expr.holds, Expr.eval, Env.set,
  Namespace.row, Class.row, Attribute.row, Attrdef.row, Proc.row, Language.row, Trigger.row,
  Constraint.row, Index.row, Sequence.row, Depend.row, optRow, nullRow, isPrefixOf_false, oid_inj,
  Db.call, ofOption_bool, isTable, userbyid, comment, IsTable, SystemSchema, ofTable])

variable {db : Db}

theorem listSchemas_solved (hw : db.WF) (ps : List Str) :
    Solved (listSchemas.solutions db ps) (fun n => Env.empty.set .n (Namespace.row n))
      (fun n => UserSchema db n) := by
  refine Solved.congr (Solved.where_ (Solved.from_ db.namespaces Namespace.row .n
    (nodup_of_map _ hw.namespaces)) _ (fun n => ¬ b!"pg_" <+: n.nspname ∧
      n.nspname ≠ b!"information_schema") ?_) (fun n => Iff.rfl)
  intro n
  sql listSchemas

theorem listTables_solved (hw : db.WF) (ps : List Str) :
    Solved (listTables.solutions db ps)
      (fun x : Class × Option Namespace => (Env.empty.set .c (Class.row x.1)).set .n
        (optRow Namespace.row x.2))
      (fun x => ∃ n ∈ db.namespaces, x.2 = some n ∧ n.oid = x.1.relnamespace ∧ x.1 ∈ db.classes ∧
        IsTable x.1 ∧ ¬ SystemSchema n.nspname ∧ Visible db x.1) := by
  refine Solved.congr (Solved.where_ (Solved.left (Solved.from_ db.classes Class.row .c
    (nodup_of_map _ hw.classes)) db ps ⟨true, .namespace_, .n, .eq (.col .n .oid) (.col .c .relnamespace)⟩
    db.namespaces Namespace.row (fun c n => n.oid = c.relnamespace) rfl
    (nodup_of_map _ hw.namespaces) rfl ?_) _ (fun x => IsTable x.1 ∧
      (∃ n, x.2 = some n ∧ ¬ SystemSchema n.nspname) ∧ db.tableIsVisible x.1.oid = some true) ?_) ?_
  · intro c n
    sql listTables
  · rintro ⟨c, o⟩
    cases o with
    | none => sql listTables
    | some n => sql listTables; tauto
  · rintro ⟨c, o⟩
    cases o with
    | none => simp
    | some n =>
      simp only [Option.some.injEq, exists_eq_left']
      constructor
      · rintro ⟨⟨hc, hn, hr⟩, ht, hs, hv⟩
        exact ⟨n, hn, rfl, hr, hc, ht, hs, (tableIsVisible_iff hw hc).1 hv⟩
      · rintro ⟨_, hn, rfl, hr, hc, ht, hs, hv⟩
        exact ⟨⟨hc, hn, hr⟩, ht, hs, (tableIsVisible_iff hw hc).2 hv⟩

/-- The joins of the function queries. -/
theorem procJoins (hw : db.WF) (ps : List Str) :
    Solved (joinAll db ps listFunctions.joins ((db.rows .proc).map (Env.empty.set .p)))
      (fun x : (Proc × Option Namespace) × Option Language => ((Env.empty.set .p (Proc.row x.1.1)).set .n
        (optRow Namespace.row x.1.2)).set .l (optRow Language.row x.2))
      (fun x => ∃ n ∈ db.namespaces, ∃ l ∈ db.languages, x.1.2 = some n ∧ x.2 = some l ∧
        x.1.1 ∈ db.procs ∧ n.oid = x.1.1.pronamespace ∧ l.oid = x.1.1.prolang) := by
  refine Solved.congr (Solved.left (Solved.left (Solved.from_ db.procs Proc.row .p
    (nodup_of_map _ hw.procs)) db ps ⟨true, .namespace_, .n, .eq (.col .n .oid) (.col .p .pronamespace)⟩
    db.namespaces Namespace.row (fun c n => n.oid = c.pronamespace) rfl
    (nodup_of_map _ hw.namespaces) rfl ?_) db ps
    ⟨true, .language, .l, .eq (.col .l .oid) (.col .p .prolang)⟩
    db.languages Language.row (fun c l => l.oid = c.1.prolang) rfl
    (nodup_of_map _ hw.languages) rfl ?_) ?_
  · intro c n
    sql listFunctions
  · rintro ⟨c, n⟩ l
    sql listFunctions
  · rintro ⟨⟨p, o⟩, o'⟩
    cases o with
    | none =>
      simp only [reduceCtorEq, false_and, and_false, exists_false, iff_false]
      rintro ⟨⟨hp, h⟩, -⟩
      obtain ⟨n, hn, he⟩ := hw.pronamespace p hp
      exact h n hn he
    | some n =>
      cases o' with
      | none =>
        simp only [reduceCtorEq, false_and, and_false, exists_false, iff_false]
        rintro ⟨⟨hp, -⟩, h⟩
        obtain ⟨n, hn, he⟩ := hw.prolang p hp
        exact h n hn he
      | some l =>
        constructor
        · rintro ⟨⟨hp, hn, he⟩, hl, he'⟩
          exact ⟨n, hn, l, hl, rfl, rfl, hp, he, he'⟩
        · rintro ⟨_, hn, _, hl, ⟨⟩, ⟨⟩, hp, he, he'⟩
          exact ⟨⟨hp, hn, he⟩, hl, he'⟩

theorem listFunctions_solved (hw : db.WF) (ps : List Str) :
    Solved (listFunctions.solutions db ps)
      (fun x : (Proc × Option Namespace) × Option Language => ((Env.empty.set .p (Proc.row x.1.1)).set .n
        (optRow Namespace.row x.1.2)).set .l (optRow Language.row x.2))
      (fun x => (∃ n ∈ db.namespaces, ∃ l ∈ db.languages, x.1.2 = some n ∧ x.2 = some l ∧
        x.1.1 ∈ db.procs ∧ n.oid = x.1.1.pronamespace ∧ l.oid = x.1.1.prolang ∧
        n.nspname ≠ b!"pg_catalog" ∧ n.nspname ≠ b!"information_schema" ∧ FnVisible db x.1.1)) := by
  refine Solved.congr (Solved.where_ (procJoins hw ps) _ (fun x =>
      db.functionIsVisible x.1.1.oid = some true ∧
      ∃ n, x.1.2 = some n ∧ n.nspname ≠ b!"pg_catalog" ∧ n.nspname ≠ b!"information_schema") ?_) ?_
  · rintro ⟨⟨p, o⟩, l⟩
    cases o <;> sql listFunctions
  · rintro ⟨⟨p, o⟩, o'⟩
    constructor
    · rintro ⟨⟨n, hn, l, hl, h1, h2, hp, he, he'⟩, hv, n', hn', h3, h4⟩
      cases h1.symm.trans hn'
      exact ⟨n, hn, l, hl, h1, h2, hp, he, he', h3, h4, (functionIsVisible_iff hw hp).1 hv⟩
    · rintro ⟨n, hn, l, hl, h1, h2, hp, he, he', h3, h4, hv⟩
      exact ⟨⟨n, hn, l, hl, h1, h2, hp, he, he'⟩, (functionIsVisible_iff hw hp).2 hv, n, h1, h3, h4⟩

theorem describeFunction_solved (hw : db.WF) (schema name : Str) :
    Solved (describeFunction.solutions db [schema, name])
      (fun x : (Proc × Option Namespace) × Option Language => ((Env.empty.set .p (Proc.row x.1.1)).set .n
        (optRow Namespace.row x.1.2)).set .l (optRow Language.row x.2))
      (fun x => (∃ n ∈ db.namespaces, ∃ l ∈ db.languages, x.1.2 = some n ∧ x.2 = some l ∧
        x.1.1 ∈ db.procs ∧ n.oid = x.1.1.pronamespace ∧ l.oid = x.1.1.prolang ∧
        n.nspname = schema ∧ x.1.1.proname = name)) := by
  refine Solved.congr (Solved.where_ (procJoins hw [schema, name]) _ (fun x =>
      (∃ n, x.1.2 = some n ∧ n.nspname = schema) ∧ x.1.1.proname = name) ?_) ?_
  · rintro ⟨⟨p, o⟩, l⟩
    cases o <;> sql describeFunction
  · rintro ⟨⟨p, o⟩, o'⟩
    constructor
    · rintro ⟨⟨n, hn, l, hl, h1, h2, hp, he, he'⟩, ⟨n', hn', h3⟩, h4⟩
      cases h1.symm.trans hn'
      exact ⟨n, hn, l, hl, h1, h2, hp, he, he', h3, h4⟩
    · rintro ⟨n, hn, l, hl, h1, h2, hp, he, he', h3, h4⟩
      exact ⟨⟨n, hn, l, hl, h1, h2, hp, he, he'⟩, ⟨n, h1, h3⟩, h4⟩

/-- Schemas joined with their relations. -/
theorem tableJoin (hw : db.WF) (ps : List Str) (al : Alias) (hal : al ≠ .n) :
    Solved (((db.rows .namespace_).map (Env.empty.set .n)).flatMap ((ofTable al).apply db ps))
      (fun x : Namespace × Class => (Env.empty.set .n (Namespace.row x.1)).set al (Class.row x.2))
      (fun x => x.1 ∈ db.namespaces ∧ x.2 ∈ db.classes ∧ x.2.relnamespace = x.1.oid) := by
  refine Solved.inner (Solved.from_ db.namespaces Namespace.row .n (nodup_of_map _ hw.namespaces)) db ps
    (ofTable al) db.classes Class.row (fun n c => c.relnamespace = n.oid) rfl
    (nodup_of_map _ hw.classes) rfl ?_
  intro n c
  have := hal.symm
  simp [Expr.holds, Expr.eval, Env.set, Namespace.row, Class.row, ofTable, oid_inj, this]

/-- The relation `schema.table`, found by the joins. -/
def Found (db : Db) (schema table : Str) (n : Namespace) (c : Class) : Prop :=
  n ∈ db.namespaces ∧ c ∈ db.classes ∧ c.relnamespace = n.oid ∧ n.nspname = schema ∧ c.relname = table

theorem isRel_iff {schema table : Str} {c : Class} :
    IsRel db schema table c ↔ ∃ n, Found db schema table n c := by
  constructor
  · rintro ⟨hc, hn, n, h1, h2, h3⟩; exact ⟨n, h1, hc, h2.symm, h3, hn⟩
  · rintro ⟨n, h1, hc, h2, h3, hn⟩; exact ⟨hc, hn, n, h1, h2.symm, h3⟩

theorem Found.unique (hw : db.WF) {schema table : Str} {n n' : Namespace} {c c' : Class}
    (h : Found db schema table n c) (h' : Found db schema table n' c') : n = n' ∧ c = c' := by
  have hn : n = n' := inj_of_nodup hw.nspname h.1 h'.1 (h.2.2.2.1.trans h'.2.2.2.1.symm)
  subst hn
  refine ⟨rfl, inj_of_nodup hw.relname h.2.1 h'.2.1 ?_⟩
  simp [h.2.2.1, h'.2.2.1, h.2.2.2.2, h'.2.2.2.2]

theorem listColumns_solved (hw : db.WF) (schema table : Str) :
    Solved (listColumns.solutions db [schema, table])
      (fun x : (Namespace × Class) × Attribute => ((Env.empty.set .n (Namespace.row x.1.1)).set .c
        (Class.row x.1.2)).set .a (Attribute.row x.2))
      (fun x => Found db schema table x.1.1 x.1.2 ∧ x.2 ∈ db.attributes ∧ x.2.attrelid = x.1.2.oid ∧
        0 < x.2.attnum ∧ x.2.attisdropped = false) := by
  refine Solved.congr (Solved.where_ (Solved.inner (tableJoin hw _ .c (by decide)) db _
    ⟨false, .attribute, .a, .eq (.col .a .attrelid) (.col .c .oid)⟩ db.attributes Attribute.row
    (fun x a => a.attrelid = x.2.oid) rfl (nodup_of_map _ hw.attributes) rfl ?_) _
    (fun x => x.1.1.nspname = schema ∧ x.1.2.relname = table ∧ 0 < x.2.attnum ∧
      x.2.attisdropped = false) ?_) ?_
  · rintro ⟨n, c⟩ a
    sql listColumns
  · rintro ⟨⟨n, c⟩, a⟩
    sql listColumns
  · rintro ⟨⟨n, c⟩, a⟩
    simp only [Found]
    tauto

theorem listChecks_solved (hw : db.WF) (schema table : Str) :
    Solved (listChecks.solutions db [schema, table])
      (fun x : (Namespace × Class) × Constraint => ((Env.empty.set .n (Namespace.row x.1.1)).set .c
        (Class.row x.1.2)).set .r (Constraint.row x.2))
      (fun x => Found db schema table x.1.1 x.1.2 ∧ x.2 ∈ db.constraints ∧ x.2.conrelid = x.1.2.oid ∧
        x.2.contype = b!"c") := by
  refine Solved.congr (Solved.where_ (Solved.inner (tableJoin hw _ .c (by decide)) db _
    ⟨false, .constraint, .r, .eq (.col .r .conrelid) (.col .c .oid)⟩ db.constraints Constraint.row
    (fun x a => a.conrelid = x.2.oid) rfl (nodup_of_map _ hw.constraints) rfl ?_) _
    (fun x => x.1.1.nspname = schema ∧ x.1.2.relname = table ∧ x.2.contype = b!"c") ?_) ?_
  · rintro ⟨n, c⟩ a
    sql listChecks
  · rintro ⟨⟨n, c⟩, a⟩
    sql listChecks
  · rintro ⟨⟨n, c⟩, a⟩
    simp only [Found]
    tauto

theorem listForeignKeys_solved (hw : db.WF) (schema table : Str) :
    Solved (listForeignKeys.solutions db [schema, table])
      (fun x : ((Namespace × Class) × Constraint) × Class =>
        (((Env.empty.set .n (Namespace.row x.1.1.1)).set .c1 (Class.row x.1.1.2)).set .t
          (Constraint.row x.1.2)).set .c2 (Class.row x.2))
      (fun x => Found db schema table x.1.1.1 x.1.1.2 ∧ x.1.2 ∈ db.constraints ∧
        x.1.2.conrelid = x.1.1.2.oid ∧ x.1.2.contype = b!"f" ∧ x.2 ∈ db.classes ∧
        x.2.oid = x.1.2.confrelid) := by
  refine Solved.congr (Solved.where_ (Solved.inner (Solved.inner (tableJoin hw _ .c1 (by decide)) db _
    ⟨false, .constraint, .t, .eq (.col .t .conrelid) (.col .c1 .oid)⟩ db.constraints Constraint.row
    (fun x a => a.conrelid = x.2.oid) rfl (nodup_of_map _ hw.constraints) rfl ?_) db _
    ⟨false, .class_, .c2, .eq (.col .c2 .oid) (.col .t .confrelid)⟩ db.classes Class.row
    (fun x a => a.oid = x.2.confrelid) rfl (nodup_of_map _ hw.classes) rfl ?_) _
    (fun x => x.1.1.1.nspname = schema ∧ x.1.1.2.relname = table ∧ x.1.2.contype = b!"f") ?_) ?_
  · rintro ⟨n, c⟩ a
    sql listForeignKeys
  · rintro ⟨⟨n, c⟩, a⟩ c2
    sql listForeignKeys
  · rintro ⟨⟨⟨n, c⟩, a⟩, c2⟩
    sql listForeignKeys
  · rintro ⟨⟨⟨n, c⟩, a⟩, c2⟩
    simp only [Found]
    tauto

theorem listIndexes_solved (hw : db.WF) (schema table : Str) :
    Solved (listIndexes.solutions db [schema, table])
      (fun x : ((Namespace × Class) × Index) × Class =>
        (((Env.empty.set .n (Namespace.row x.1.1.1)).set .c (Class.row x.1.1.2)).set .i
          (Index.row x.1.2)).set .c2 (Class.row x.2))
      (fun x => Found db schema table x.1.1.1 x.1.1.2 ∧ x.1.2 ∈ db.indexes ∧
        x.1.2.indrelid = x.1.1.2.oid ∧ x.2 ∈ db.classes ∧ x.2.oid = x.1.2.indexrelid) := by
  refine Solved.congr (Solved.where_ (Solved.inner (Solved.inner (tableJoin hw _ .c (by decide)) db _
    ⟨false, .index, .i, .eq (.col .i .indrelid) (.col .c .oid)⟩ db.indexes Index.row
    (fun x a => a.indrelid = x.2.oid) rfl (nodup_of_map _ hw.indexes) rfl ?_) db _
    ⟨false, .class_, .c2, .eq (.col .c2 .oid) (.col .i .indexrelid)⟩ db.classes Class.row
    (fun x a => a.oid = x.2.indexrelid) rfl (nodup_of_map _ hw.classes) rfl ?_) _
    (fun x => x.1.1.1.nspname = schema ∧ x.1.1.2.relname = table) ?_) ?_
  · rintro ⟨n, c⟩ a
    sql listIndexes
  · rintro ⟨⟨n, c⟩, a⟩ c2
    sql listIndexes
  · rintro ⟨⟨⟨n, c⟩, a⟩, c2⟩
    sql listIndexes
  · rintro ⟨⟨⟨n, c⟩, a⟩, c2⟩
    simp only [Found]
    tauto

theorem listTriggers_solved (hw : db.WF) (schema table : Str) :
    Solved (listTriggers.solutions db [schema, table])
      (fun x : (Namespace × Class) × Trigger => ((Env.empty.set .n (Namespace.row x.1.1)).set .c
        (Class.row x.1.2)).set .t (Trigger.row x.2))
      (fun x => Found db schema table x.1.1 x.1.2 ∧ x.2 ∈ db.triggers ∧ x.2.tgrelid = x.1.2.oid ∧
        x.2.tgisinternal = false) := by
  refine Solved.congr (Solved.where_ (Solved.inner (tableJoin hw _ .c (by decide)) db _
    ⟨false, .trigger, .t, .eq (.col .t .tgrelid) (.col .c .oid)⟩ db.triggers Trigger.row
    (fun x a => a.tgrelid = x.2.oid) rfl (nodup_of_map _ hw.triggers) rfl ?_) _
    (fun x => x.1.1.nspname = schema ∧ x.1.2.relname = table ∧ x.2.tgisinternal = false) ?_) ?_
  · rintro ⟨n, c⟩ a
    sql listTriggers
  · rintro ⟨⟨n, c⟩, a⟩
    sql listTriggers
  · rintro ⟨⟨n, c⟩, a⟩
    simp only [Found]
    tauto

theorem describeTrigger_solved (hw : db.WF) (schema table name : Str) :
    Solved (describeTrigger.solutions db [schema, table, name])
      (fun x : (Namespace × Class) × Trigger => ((Env.empty.set .n (Namespace.row x.1.1)).set .c
        (Class.row x.1.2)).set .t (Trigger.row x.2))
      (fun x => Found db schema table x.1.1 x.1.2 ∧ x.2 ∈ db.triggers ∧ x.2.tgrelid = x.1.2.oid ∧
        x.2.tgname = name) := by
  refine Solved.congr (Solved.where_ (Solved.inner (tableJoin hw _ .c (by decide)) db _
    ⟨false, .trigger, .t, .eq (.col .t .tgrelid) (.col .c .oid)⟩ db.triggers Trigger.row
    (fun x a => a.tgrelid = x.2.oid) rfl (nodup_of_map _ hw.triggers) rfl ?_) _
    (fun x => x.1.1.nspname = schema ∧ x.1.2.relname = table ∧ x.2.tgname = name) ?_) ?_
  · rintro ⟨n, c⟩ a
    sql describeTrigger
  · rintro ⟨⟨n, c⟩, a⟩
    sql describeTrigger
  · rintro ⟨⟨n, c⟩, a⟩
    simp only [Found]
    tauto

theorem listTableStorageParameters_solved (hw : db.WF) (schema table : Str) :
    Solved (listTableStorageParameters.solutions db [schema, table])
      (fun x : Namespace × Class => (Env.empty.set .n (Namespace.row x.1)).set .c (Class.row x.2))
      (fun x => Found db schema table x.1 x.2) := by
  refine Solved.congr (Solved.where_ (tableJoin hw _ .c (by decide)) _
    (fun x => x.1.nspname = schema ∧ x.2.relname = table) ?_) ?_
  · rintro ⟨n, c⟩
    sql listTableStorageParameters
  · rintro ⟨n, c⟩
    simp only [Found]
    tauto

theorem hasSequencesView_solved (hw : db.WF) (ps : List Str) :
    Solved (hasSequencesView.solutions db ps)
      (fun x : Class × Namespace => (Env.empty.set .c (Class.row x.1)).set .n (Namespace.row x.2))
      (fun x => Found db b!"pg_catalog" b!"pg_sequence" x.2 x.1) := by
  refine Solved.congr (Solved.where_ (Solved.inner (Solved.from_ db.classes Class.row .c
    (nodup_of_map _ hw.classes)) db ps ⟨false, .namespace_, .n, .eq (.col .n .oid) (.col .c .relnamespace)⟩
    db.namespaces Namespace.row (fun c n => n.oid = c.relnamespace) rfl
    (nodup_of_map _ hw.namespaces) rfl ?_) _ (fun x => x.2.nspname = b!"pg_catalog" ∧
      x.1.relname = b!"pg_sequence") ?_) ?_
  · rintro c n
    sql hasSequencesView
  · rintro ⟨c, n⟩
    sql hasSequencesView
  · rintro ⟨n, c⟩
    simp only [Found]
    constructor
    · rintro ⟨⟨a, b, c⟩, d, e⟩; exact ⟨b, a, c.symm, d, e⟩
    · rintro ⟨b, a, c, d, e⟩; exact ⟨⟨a, b, c.symm⟩, d, e⟩

/-- From the dependencies of a sequence to the columns that own it. -/
theorem ownerJoins_solved {X : Type} {sols : List Env} {f : X → Env} {Q : X → Prop} (hw : db.WF)
    (ps : List Str) (h : Solved sols f Q) (cls : X → Class) (hc : ∀ x, f x .c = Class.row (cls x)) :
    Solved (joinAll db ps ownerJoins sols)
      (fun x : (((X × Option Depend) × Class) × Namespace) × Attribute =>
        ((((f x.1.1.1.1).set .d (optRow Depend.row x.1.1.1.2)).set .c2 (Class.row x.1.1.2)).set .n2
          (Namespace.row x.1.2)).set .a2 (Attribute.row x.2))
      (fun x => Q x.1.1.1.1 ∧ ∃ d ∈ db.depends, x.1.1.1.2 = some d ∧ d.objid = (cls x.1.1.1.1).oid ∧
        x.1.1.2 ∈ db.classes ∧ x.1.1.2.oid = d.refobjid ∧ x.1.2 ∈ db.namespaces ∧
        x.1.2.oid = x.1.1.2.relnamespace ∧ x.2 ∈ db.attributes ∧ x.2.attrelid = x.1.1.2.oid ∧
        x.2.attnum = d.refobjsubid) := by
  refine Solved.congr (Solved.inner (Solved.inner (Solved.inner (Solved.left h db ps
    ⟨true, .depend, .d, .eq (.col .d .objid) (.col .c .oid)⟩ db.depends Depend.row
    (fun x d => d.objid = (cls x).oid) rfl hw.depends rfl ?_) db ps
    ⟨false, .class_, .c2, .eq (.col .c2 .oid) (.col .d .refobjid)⟩ db.classes Class.row
    (fun x c2 => ∃ d, x.2 = some d ∧ c2.oid = d.refobjid) rfl (nodup_of_map _ hw.classes) rfl ?_) db ps
    ⟨false, .namespace_, .n2, .eq (.col .n2 .oid) (.col .c2 .relnamespace)⟩ db.namespaces Namespace.row
    (fun x n2 => n2.oid = x.2.relnamespace) rfl (nodup_of_map _ hw.namespaces) rfl ?_) db ps
    ⟨false, .attribute, .a2, .and (.eq (.col .a2 .attrelid) (.col .c2 .oid))
      (.eq (.col .a2 .attnum) (.col .d .refobjsubid))⟩ db.attributes Attribute.row
    (fun x a2 => a2.attrelid = x.1.2.oid ∧ ∃ d, x.1.1.2 = some d ∧ a2.attnum = d.refobjsubid) rfl
    (nodup_of_map _ hw.attributes) rfl ?_) ?_
  · intro x d
    simp [Expr.holds, Expr.eval, Env.set, hc, Class.row, Depend.row, oid_inj]
  · rintro ⟨x, o⟩ c2
    cases o <;> simp [Expr.holds, Expr.eval, Env.set, Class.row, Depend.row, oid_inj, optRow, nullRow]
  · rintro ⟨⟨x, o⟩, c2⟩ n2
    simp [Expr.holds, Expr.eval, Env.set, Class.row, Namespace.row, oid_inj]
  · rintro ⟨⟨⟨x, o⟩, c2⟩, n2⟩ a2
    cases o with
    | none =>
      simp [Expr.holds, Expr.eval, Env.set, Class.row, Attribute.row, oid_inj, optRow, nullRow]
      split <;> simp_all
    | some d =>
      simp [Expr.holds, Expr.eval, Env.set, Class.row, Attribute.row, Depend.row, oid_inj, optRow]
      by_cases h1 : a2.attrelid = c2.oid <;> by_cases h2 : a2.attnum = d.refobjsubid <;>
        simp [h1, h2]
  · rintro ⟨⟨⟨⟨x, o⟩, c2⟩, n2⟩, a2⟩
    cases o with
    | none => simp
    | some d =>
      simp only [Option.some.injEq, exists_eq_left']
      constructor
      · rintro ⟨⟨⟨⟨hQ, hd, h1⟩, h2, h3⟩, h4, h5⟩, h6, h7, h8⟩
        exact ⟨hQ, d, hd, rfl, h1, h2, h3, h4, h5, h6, h7, h8⟩
      · rintro ⟨hQ, d, hd, rfl, h1, h2, h3, h4, h5, h6, h7, h8⟩
        exact ⟨⟨⟨⟨hQ, hd, h1⟩, h2, h3⟩, h4, h5⟩, h6, h7, h8⟩

/-- The conditions of the sequence queries. -/
theorem sequenceWhere_iff (hw : db.WF) (ps : List Str) (e : Env) (c : Class) (n : Namespace)
    (d : Depend) (h1 : e .c = Class.row c) (h2 : e .n = Namespace.row n) (h3 : e .d = Depend.row d)
    (hc : c ∈ db.classes) :
    sequenceWhere.all (fun x => x.holds db ps e) = true ↔ c.relkind = b!"S" ∧
      ¬ SystemSchema n.nspname ∧ Visible db c ∧ d.classid = 1259 ∧ d.refclassid = 1259 ∧
      (d.deptype = b!"a" ∨ d.deptype = b!"i") := by
  rw [← tableIsVisible_iff hw hc]
  have e1 : ((d.classid : Int) = 1259) ↔ d.classid = 1259 := by omega
  have e2 : ((d.refclassid : Int) = 1259) ↔ d.refclassid = 1259 := by omega
  simp [sequenceWhere, Expr.holds, Expr.eval, h1, h2, h3, Class.row, Namespace.row, Depend.row,
    isPrefixOf_false, Db.call, ofOption_bool, SystemSchema, e1, e2]
  tauto

/-- The tuple of a sequence query: the sequence with its schema, and the column that owns it. -/
def FoundSequence (db : Db) (c : Class) (n : Namespace) (d : Option Depend) (c2 : Class)
    (n2 : Namespace) (a2 : Attribute) : Prop :=
  c ∈ db.classes ∧ n ∈ db.namespaces ∧ n.oid = c.relnamespace ∧ c.relkind = b!"S" ∧
  ¬ SystemSchema n.nspname ∧ Visible db c ∧
  ∃ d' ∈ db.depends, d = some d' ∧ d'.objid = c.oid ∧ d'.classid = 1259 ∧ d'.refclassid = 1259 ∧
    (d'.deptype = b!"a" ∨ d'.deptype = b!"i") ∧ c2 ∈ db.classes ∧ c2.oid = d'.refobjid ∧
    n2 ∈ db.namespaces ∧ n2.oid = c2.relnamespace ∧ a2 ∈ db.attributes ∧ a2.attrelid = c2.oid ∧
    a2.attnum = d'.refobjsubid

theorem listSequencesPre10_solved (hw : db.WF) (ps : List Str) :
    Solved (listSequencesPre10.solutions db ps)
      (fun x : ((((Class × Namespace) × Option Depend) × Class) × Namespace) × Attribute =>
        (((((Env.empty.set .c (Class.row x.1.1.1.1.1)).set .n (Namespace.row x.1.1.1.1.2)).set .d
          (optRow Depend.row x.1.1.1.2)).set .c2 (Class.row x.1.1.2)).set .n2
          (Namespace.row x.1.2)).set .a2 (Attribute.row x.2))
      (fun x => FoundSequence db x.1.1.1.1.1 x.1.1.1.1.2 x.1.1.1.2 x.1.1.2 x.1.2 x.2) := by
  have base : Solved (((db.rows .class_).map (Env.empty.set .c)).flatMap
      (Join.apply db ps ⟨false, .namespace_, .n, .eq (.col .n .oid) (.col .c .relnamespace)⟩))
      (fun x : Class × Namespace => (Env.empty.set .c (Class.row x.1)).set .n (Namespace.row x.2))
      (fun x => x.1 ∈ db.classes ∧ x.2 ∈ db.namespaces ∧ x.2.oid = x.1.relnamespace) := by
    refine Solved.inner (Solved.from_ db.classes Class.row .c (nodup_of_map _ hw.classes)) db ps
      ⟨false, .namespace_, .n, .eq (.col .n .oid) (.col .c .relnamespace)⟩ db.namespaces Namespace.row
      (fun c n => n.oid = c.relnamespace) rfl (nodup_of_map _ hw.namespaces) rfl ?_
    intro c n
    simp [Expr.holds, Expr.eval, Env.set, Class.row, Namespace.row, oid_inj]
  have h := ownerJoins_solved hw ps base (·.1) (fun x => by simp [Env.set])
  obtain ⟨L, hL, hmem, he⟩ := h
  classical
  refine ⟨L.filter (fun x => decide (FoundSequence db x.1.1.1.1.1 x.1.1.1.1.2 x.1.1.1.2 x.1.1.2 x.1.2
    x.2)), hL.filter _, ?_, ?_⟩
  · rintro ⟨⟨⟨⟨⟨c, n⟩, o⟩, c2⟩, n2⟩, a2⟩
    simp only [List.mem_filter, hmem, decide_eq_true_eq, and_iff_right_iff_imp]
    rintro ⟨h1, h2, h3, h4, h5, h6, d, hd, rfl, h7, h8, h9, h10, h11, h12, h13, h14, h15, h16, h17⟩
    exact ⟨⟨h1, h2, h3⟩, d, hd, rfl, h7, h11, h12, h13, h14, h15, h16, h17⟩
  · have : listSequencesPre10.solutions db ps = (L.map _).filter _ := congrArg _ he
    rw [this, List.filter_map]
    congr 1
    refine List.filter_congr fun x hx => ?_
    obtain ⟨⟨⟨⟨⟨c, n⟩, o⟩, c2⟩, n2⟩, a2⟩ := x
    obtain ⟨⟨h1, h2, h3⟩, d, hd, rfl, h7, h11, h12, h13, h14, h15, h16, h17⟩ := (hmem _).1 hx
    rw [Bool.eq_iff_iff, decide_eq_true_iff]
    refine (sequenceWhere_iff hw ps _ c n d (by simp [Env.set]) (by simp [Env.set])
      (by simp [Env.set, optRow]) h1).trans ?_
    constructor
    · rintro ⟨g1, g2, g3, g4, g5, g6⟩
      exact ⟨h1, h2, h3, g1, g2, g3, d, hd, rfl, h7, g4, g5, g6, h11, h12, h13, h14, h15, h16, h17⟩
    · rintro ⟨-, -, -, g1, g2, g3, d', -, h, -, g4, g5, g6, -⟩
      cases h
      exact ⟨g1, g2, g3, g4, g5, g6⟩

theorem listSequences_solved (hw : db.WF) (ps : List Str) :
    Solved (listSequences.solutions db ps)
      (fun x : (((((Class × Namespace) × Sequence) × Option Depend) × Class) × Namespace) × Attribute =>
        ((((((Env.empty.set .c (Class.row x.1.1.1.1.1.1)).set .n (Namespace.row x.1.1.1.1.1.2)).set .s
          (Sequence.row x.1.1.1.1.2)).set .d
          (optRow Depend.row x.1.1.1.2)).set .c2 (Class.row x.1.1.2)).set .n2
          (Namespace.row x.1.2)).set .a2 (Attribute.row x.2))
      (fun x => (x.1.1.1.1.2 ∈ db.sequences ∧ x.1.1.1.1.2.seqrelid = x.1.1.1.1.1.1.oid) ∧
        FoundSequence db x.1.1.1.1.1.1 x.1.1.1.1.1.2 x.1.1.1.2 x.1.1.2 x.1.2 x.2) := by
  have base : Solved ((((db.rows .class_).map (Env.empty.set .c)).flatMap
      (Join.apply db ps ⟨false, .namespace_, .n, .eq (.col .n .oid) (.col .c .relnamespace)⟩)).flatMap
      (Join.apply db ps ⟨false, .sequence, .s, .eq (.col .s .seqrelid) (.col .c .oid)⟩))
      (fun x : (Class × Namespace) × Sequence => ((Env.empty.set .c (Class.row x.1.1)).set .n
        (Namespace.row x.1.2)).set .s (Sequence.row x.2))
      (fun x => (x.1.1 ∈ db.classes ∧ x.1.2 ∈ db.namespaces ∧ x.1.2.oid = x.1.1.relnamespace) ∧
        x.2 ∈ db.sequences ∧ x.2.seqrelid = x.1.1.oid) := by
    refine Solved.inner (Solved.inner (Solved.from_ db.classes Class.row .c
      (nodup_of_map _ hw.classes)) db ps
      ⟨false, .namespace_, .n, .eq (.col .n .oid) (.col .c .relnamespace)⟩ db.namespaces Namespace.row
      (fun c n => n.oid = c.relnamespace) rfl (nodup_of_map _ hw.namespaces) rfl ?_) db ps
      ⟨false, .sequence, .s, .eq (.col .s .seqrelid) (.col .c .oid)⟩ db.sequences Sequence.row
      (fun x s => s.seqrelid = x.1.oid) rfl (nodup_of_map _ hw.sequences) rfl ?_
    · intro c n
      simp [Expr.holds, Expr.eval, Env.set, Class.row, Namespace.row, oid_inj]
    · rintro ⟨c, n⟩ s
      simp [Expr.holds, Expr.eval, Env.set, Class.row, Sequence.row, oid_inj]
  have h := ownerJoins_solved hw ps base (·.1.1) (fun x => by simp [Env.set])
  obtain ⟨L, hL, hmem, he⟩ := h
  classical
  refine ⟨L.filter (fun x => decide (FoundSequence db x.1.1.1.1.1.1 x.1.1.1.1.1.2 x.1.1.1.2 x.1.1.2 x.1.2
    x.2)), hL.filter _, ?_, ?_⟩
  · rintro ⟨⟨⟨⟨⟨⟨c, n⟩, s⟩, o⟩, c2⟩, n2⟩, a2⟩
    simp only [List.mem_filter, hmem, decide_eq_true_eq]
    constructor
    · rintro ⟨⟨⟨h1, h2⟩, -⟩, h3⟩; exact ⟨h2, h3⟩
    · rintro ⟨h0, hf⟩
      have hf' := hf
      obtain ⟨h1, h2, h3, h4, h5, h6, d, hd, rfl, h7, h8, h9, h10, h11, h12, h13, h14, h15, h16, h17⟩ := hf
      exact ⟨⟨⟨⟨h1, h2, h3⟩, h0⟩, d, hd, rfl, h7, h11, h12, h13, h14, h15, h16, h17⟩, hf'⟩
  · have : listSequences.solutions db ps = (L.map _).filter _ := congrArg _ he
    rw [this, List.filter_map]
    congr 1
    refine List.filter_congr fun x hx => ?_
    obtain ⟨⟨⟨⟨⟨⟨c, n⟩, s⟩, o⟩, c2⟩, n2⟩, a2⟩ := x
    obtain ⟨⟨⟨h1, h2, h3⟩, h0⟩, d, hd, rfl, h7, h11, h12, h13, h14, h15, h16, h17⟩ := (hmem _).1 hx
    rw [Bool.eq_iff_iff, decide_eq_true_iff]
    refine (sequenceWhere_iff hw ps _ c n d (by simp [Env.set]) (by simp [Env.set])
      (by simp [Env.set, optRow]) h1).trans ?_
    constructor
    · rintro ⟨g1, g2, g3, g4, g5, g6⟩
      exact ⟨h1, h2, h3, g1, g2, g3, d, hd, rfl, h7, g4, g5, g6, h11, h12, h13, h14, h15, h16, h17⟩
    · rintro ⟨-, -, -, g1, g2, g3, d', -, h, -, g4, g5, g6, -⟩
      cases h
      exact ⟨g1, g2, g3, g4, g5, g6⟩

end Verif.Sql
