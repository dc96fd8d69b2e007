import Verif.Sql.Same

/-!
# C119: two inspections of the same database
-/

namespace Verif.Sql
open Verif Verif.Pg

theorem forall₂_fun {α β : Type} {R S : α → β → Prop} {l : List α} {xs xs' : List β}
    (h : List.Forall₂ R l xs) (h' : List.Forall₂ S l xs')
    (e : ∀ a ∈ l, ∀ x x', R a x → S a x' → x = x') : xs = xs' := by
  induction h generalizing xs' with
  | nil => cases h'; rfl
  | cons h1 _ ih =>
    cases h' with
    | cons h2 h' =>
      rw [e _ (by simp) _ _ h1 h2, ih h' fun a ha => e a (by simp [ha])]

theorem listed_table {db : Db} {c : Catalog} (hw : db.WF) (hs : Serves db c) (hu : Steady c)
    {ts : List Ddl.Table} (h : c.listTables = .ok ts) {x : Ddl.Table} (hx : x ∈ ts) :
    ∃ r, Inspects db r ∧ IsRel db x.schema x.name r := by
  obtain ⟨l, -, hl, hf, -⟩ := tables_listed hw hs hu h
  obtain ⟨r, hr, hd⟩ := forall₂_mem_right hf hx
  refine ⟨r, (hl r).1 hr, ?_⟩
  exact ⟨((hl r).1 hr).1.1, hd.name.symm, hd.schema⟩

theorem foreignKeysApart_of {db : Db} (h : ∀ k ∈ db.constraints, ∀ k' ∈ db.constraints, k.contype = b!"f" →
      k'.contype = b!"f" → k.conrelid = k'.conrelid → k = k') (r : Class) :
    ∀ k ∈ db.constraints, ∀ k' ∈ db.constraints, k.contype = b!"f" → k'.contype = b!"f" →
    k.conrelid = r.oid → k'.conrelid = r.oid → k.conkey = k'.conkey →
    ∀ t ∈ db.classes, ∀ t' ∈ db.classes, t.oid = k.confrelid → t'.oid = k'.confrelid →
      t.relname = t'.relname → k = k' :=
  fun k hk k' hk' h1 h2 h3 h4 _ _ _ _ _ _ _ _ => h k hk k' hk' h1 h2 (h3.trans h4.symm)

/-- C119, the part that holds: two inspections of a database, with the same options and the same
settings of the session, that both succeed return the same description, whatever order the servers
choose for the rows ORDER BY leaves open. What is missing: databases in which functions of the same
schema and name are described differently, or in which a table has two foreign keys with the same columns
that refer to tables of the same name. -/
theorem C119_same_partial {F : Type} (parseFloat : Str → F × Option Ddl.NumErr) (sort : Sorter) (db : Db)
    (hw : db.WF) (he : Enforced db) (hf : FunctionsAlike db) (hk : ForeignKeysApart db)
    (c c' : Catalog) (hs : Serves db c) (hs' : Serves db c') (hu : Steady c) (hu' : Steady c')
    (hp : c.listParameters = c'.listParameters) (o : InspectOptions) (d d' : Database F)
    (h : inspect parseFloat sort c o = .ok d) (h' : inspect parseFloat sort c' o = .ok d') : d = d' := by
  obtain ⟨h1, h2, h3, h4, ts, perI, perT, h5, h6, h7, h8, h9, h10⟩ := inspect_ok h
  obtain ⟨h1', h2', h3', h4', ts', perI', perT', h5', h6', h7', h8', h9', h10'⟩ := inspect_ok h'
  obtain rfl := tables_same hw hs hu.tables hs' hu'.tables h5 h5'
  obtain rfl : perI = perI' := forall₂_fun h7 h7' fun t _ x x' =>
    indexes_same hw he hs hs' _ _ (hu.indexes _ _) (hu'.indexes _ _)
  obtain rfl : perT = perT' := forall₂_fun h8 h8' fun t _ x x' =>
    triggers_same hw hs hs' _ _ (hu.triggers _ _) (hu'.triggers _ _)
  have e6 : d.tables = d'.tables := forall₂_fun h6 h6' fun t ht x x' hx hx' => by
    obtain ⟨r, hr, hn⟩ := listed_table hw hs hu h5 ht
    obtain ⟨cols, chks, fks, params, g1, g2, g3, g4, rfl⟩ := hx
    obtain ⟨cols', chks', fks', params', g1', g2', g3', g4', rfl⟩ := hx'
    rw [columns_same hw hs hs' _ _ (hu.columns _ _) (hu'.columns _ _) g1 g1',
      checks_same hw he hs hs' _ _ (hu.checks _ _) (hu'.checks _ _) g2 g2',
      foreignKeys_same hw hk hs hs' _ _ hr hn (hu.foreignKeys _ _) (hu'.foreignKeys _ _) g3 g3',
      storage_same hw hs hs' _ _ (hu.storage _ _) (hu'.storage _ _) g4 g4']
  have e1 : d.parameters = d'.parameters := by
    rw [h1, h1'] at hp
    exact Except.ok.inj hp
  have e2 := schemas_same hw hs hu.schemas hs' hu'.schemas h2 h2'
  have e3 := functions_same hw hf hs hs' hu.functions hu'.functions h3 h3'
  have e4 := sequences_same hw hs hs' hu hu' h4 h4'
  have e9 := h9.trans h9'.symm
  have e10 := h10.trans h10'.symm
  cases d
  cases d'
  simp only at e1 e2 e3 e4 e6 e9 e10
  rw [e1, e2, e3, e4, e6, e9, e10]

/-! ## Non-vacuity and the counterexample -/

/-- A server that answers the query for the functions differently. -/
theorem Serves.withFunctions {db : Db} {c : Catalog} (hs : Serves db c) {q : Query FunctionRow}
    (hq : Gives db listFunctions [] readFunction q) : Serves db { c with functions := q } := by
  obtain ⟨h1, h2, -, h4, h5, h6, h7, h8, h9, h10, h11, h12, h13, h14, h15⟩ := hs
  exact ⟨h1, h2, hq, h4, h5, h6, h7, h8, h9, h10, h11, h12, h13, h14, h15⟩

theorem Steady.withFunctions {c : Catalog} (hu : Steady c) {q : Query FunctionRow} (hq : Unbroken q) :
    Steady { c with functions := q } := by
  obtain ⟨h1, -, h3, h4, h5, h6, h7, h8, h9, h10, h11⟩ := hu
  exact ⟨h1, hq, h3, h4, h5, h6, h7, h8, h9, h10, h11⟩

/-- The rows of the two functions `len` of `shop`, as `ListFunctions` asks for them. -/
def lenFullRow (s : Str) : FunctionRow :=
  ⟨some b!"public", some b!"len", some b!"shop", none, some b!"integer", some b!"sql", some s⟩

/-- `shop` with the functions in the other order. -/
def shopSwapped : Catalog :=
  { serve shop with functions := .ok { rows := [lenFullRow b!"SELECT 2", lenFullRow b!"SELECT 1"] } }

theorem shopSwapped_serves : Serves shop shopSwapped := by
  refine (serve_serves shop).withFunctions ?_
  refine ⟨(listFunctions.solutions shop []).reverse.map fun env =>
      (listFunctions.items.mapM (Item.eval shop [] env)).getD [],
    [lenFullRow b!"SELECT 2", lenFullRow b!"SELECT 1"],
    ⟨(listFunctions.solutions shop []).reverse, List.reverse_perm _, by decide +kernel, by decide +kernel⟩,
    by decide +kernel, List.prefix_refl _, fun _ => rfl⟩

theorem shopSwapped_steady : Steady shopSwapped :=
  (serve_steady shop).withFunctions (by rintro st h; cases h; rfl)

theorem shop_enforced : Enforced shop := ⟨by decide, by decide, by decide⟩

theorem shop_two : ∃ d d' : Database Unit,
    inspect (fun _ => ((), none)) (fun _ less l => insertionSort less l) (serve shop) {} = .ok d ∧
    inspect (fun _ => ((), none)) (fun _ less l => insertionSort less l) shopSwapped {} = .ok d' ∧
    d.functions.map (·.definition) = [b!"SELECT 1", b!"SELECT 2"] ∧
    d'.functions.map (·.definition) = [b!"SELECT 2", b!"SELECT 1"] := by
  have h1 : (inspect (F := Unit) (fun _ => ((), none)) (fun _ less l => insertionSort less l) (serve shop)
      {}).toOption.map (fun d => d.functions.map (·.definition)) = some [b!"SELECT 1", b!"SELECT 2"] := by
    decide +kernel
  have h2 : (inspect (F := Unit) (fun _ => ((), none)) (fun _ less l => insertionSort less l) shopSwapped
      {}).toOption.map (fun d => d.functions.map (·.definition)) = some [b!"SELECT 2", b!"SELECT 1"] := by
    decide +kernel
  cases hi : inspect (F := Unit) (fun _ => ((), none)) (fun _ less l => insertionSort less l) (serve shop) {} with
  | error e => rw [hi] at h1; cases h1
  | ok d =>
    cases hi' : inspect (F := Unit) (fun _ => ((), none)) (fun _ less l => insertionSort less l) shopSwapped {} with
    | error e => rw [hi'] at h2; cases h2
    | ok d' =>
      rw [hi] at h1
      rw [hi'] at h2
      exact ⟨d, d', rfl, rfl, Option.some.inj h1, Option.some.inj h2⟩

theorem shop_apart : ForeignKeysApart shop :=
  fun r _ k hk k' hk' h1 h2 h3 h4 => foreignKeysApart_of (by decide) r k hk k' hk' h1 h2 h3 h4

/-- C119 is false: two servers that hold the same database give two inspections the functions of the
same schema and name in two orders, and the descriptions differ. -/
theorem C119_refuted : ∃ (db : Db) (c c' : Catalog) (d d' : Database Unit), db.WF ∧ Enforced db ∧
    ForeignKeysApart db ∧ Serves db c ∧ Serves db c' ∧ Steady c ∧ Steady c' ∧
    c.listParameters = c'.listParameters ∧
    inspect (fun _ => ((), none)) (fun _ less l => insertionSort less l) c {} = .ok d ∧
    inspect (fun _ => ((), none)) (fun _ less l => insertionSort less l) c' {} = .ok d' ∧
    d.functions.map (·.definition) = [b!"SELECT 1", b!"SELECT 2"] ∧
    d'.functions.map (·.definition) = [b!"SELECT 2", b!"SELECT 1"] := by
  obtain ⟨d, d', h1, h2, h3, h4⟩ := shop_two
  exact ⟨shop, serve shop, shopSwapped, d, d', shop_wf, shop_enforced, shop_apart,
    serve_serves shop, shopSwapped_serves, serve_steady shop, shopSwapped_steady, by decide +kernel, h1, h2, h3, h4⟩

/-- `shop` without the second version of `len`, and with two options of the table `users`. -/
def shopOnce : Db :=
  { shop with
    procs := [⟨300, b!"len", 2200, 20, 14, [25], b!"SELECT 1"⟩, ⟨302, b!"rotate", 3000, 20, 14, [], b!"SELECT 3"⟩]
    classes := [⟨2224, b!"pg_sequence", 11, 10, b!"r", none⟩,
      ⟨100, b!"users", 2200, 20, b!"r", some [b!"fillfactor=70", b!"autovacuum_enabled=false"]⟩,
      ⟨101, b!"users_id_seq", 2200, 20, b!"S", none⟩,
      ⟨102, b!"users_pkey", 2200, 20, b!"i", none⟩,
      ⟨103, b!"tickets", 2200, 20, b!"S", none⟩,
      ⟨104, b!"users_name", 2200, 20, b!"i", none⟩,
      ⟨200, b!"log", 3000, 20, b!"r", none⟩,
      ⟨201, b!"accounts", 2200, 20, b!"r", none⟩] }

theorem shopOnce_wf : shopOnce.WF where
  namespaces := by decide
  nspname := by decide
  classes := by decide
  relname := by decide
  relnamespace := by decide
  attributes := by decide
  attrelid := by decide
  reloptions := by
    intro c hc l hl
    simp only [shopOnce, List.mem_cons, List.not_mem_nil, or_false] at hc
    rcases hc with rfl | rfl | rfl | rfl | rfl | rfl | rfl | rfl <;> cases hl
    exact ⟨[(b!"fillfactor", b!"70"), (b!"autovacuum_enabled", b!"false")], by decide, by decide, by decide⟩
  attrdefs := by decide
  procs := by decide
  proname := by decide
  pronamespace := by decide
  languages := by decide
  prolang := by decide
  triggers := by decide
  tgname := by decide
  constraints := by decide
  confrelid := by decide
  indexes := by decide
  indexrelid := by decide
  sequences := by decide
  seqrelid := by decide
  depends := by decide
  owner := by
    intro c _ _ d hd d' hd' h1 h2
    simp only [shopOnce, shop, List.mem_cons, List.not_mem_nil, or_false] at hd hd'
    rcases hd with rfl | rfl <;> rcases hd' with rfl | rfl <;> simp_all <;> omega
  descriptions := by decide

/-- The options of a table in the other order. -/
def optionsReversed (db : Db) (schema table : Str) : Query (Option Str) :=
  .ok { rows := (listTableStorageParameters.unnest db [schema, table]).reverse.map some }

theorem Serves.optionsReversed {db : Db} {c : Catalog} (hs : Serves db c) :
    Serves db { c with storage := optionsReversed db } := by
  obtain ⟨h1, h2, h3, h4, h5, h6, h7, h8, h9, h10, -, h12, h13, h14, h15⟩ := hs
  refine ⟨h1, h2, h3, h4, h5, h6, h7, h8, h9, h10, ?_, h12, h13, h14, h15⟩
  intro schema table
  exact ⟨_, List.reverse_perm _, List.prefix_refl _, fun _ => rfl⟩

theorem Steady.optionsReversed {db : Db} {c : Catalog} (hu : Steady c) :
    Steady { c with storage := optionsReversed db } := by
  obtain ⟨h1, h2, h3, h4, h5, h6, h7, h8, -, h10, h11⟩ := hu
  exact ⟨h1, h2, h3, h4, h5, h6, h7, h8, fun _ _ => by rintro st h; cases h; rfl, h10, h11⟩

/-- A server that gives the options in the other order. -/
def shopOnceOther : Catalog := { serve shopOnce with storage := optionsReversed shopOnce }

theorem shopOnce_enforced : Enforced shopOnce := ⟨by decide, by decide, by decide⟩

theorem shopOnce_apart : ForeignKeysApart shopOnce :=
  fun r _ k hk k' hk' h1 h2 h3 h4 => foreignKeysApart_of (by decide) r k hk k' hk' h1 h2 h3 h4

theorem shopOnce_alike : FunctionsAlike shopOnce := by
  rintro p p' ⟨h1, -⟩ - ⟨h2, -⟩ - h3 - x
  simp only [shopOnce, List.mem_cons, List.not_mem_nil, or_false] at h1 h2
  rcases h1 with rfl | rfl <;> rcases h2 with rfl | rfl
  · exact Iff.rfl
  · cases h3
  · cases h3
  · exact Iff.rfl

/-- The hypotheses of C119 are met, by two servers that answer in different orders. -/
example : shopOnce.WF ∧ Enforced shopOnce ∧ FunctionsAlike shopOnce ∧ ForeignKeysApart shopOnce ∧
    Serves shopOnce (serve shopOnce) ∧ Serves shopOnce shopOnceOther ∧ Steady (serve shopOnce) ∧
    Steady shopOnceOther ∧ (serve shopOnce).listParameters = shopOnceOther.listParameters ∧
    ((serve shopOnce).storage b!"public" b!"users").toOption.map (·.rows) =
      some [some b!"fillfactor=70", some b!"autovacuum_enabled=false"] ∧
    (shopOnceOther.storage b!"public" b!"users").toOption.map (·.rows) =
      some [some b!"autovacuum_enabled=false", some b!"fillfactor=70"] ∧
    (inspect (F := Unit) (fun _ => ((), none)) (fun _ less l => insertionSort less l)
      (serve shopOnce) {}).toOption.isSome = true ∧
    (inspect (F := Unit) (fun _ => ((), none)) (fun _ less l => insertionSort less l)
      shopOnceOther {}).toOption.isSome = true :=
  ⟨shopOnce_wf, shopOnce_enforced, shopOnce_alike, shopOnce_apart,
    serve_serves _, (serve_serves _).optionsReversed, serve_steady _, (serve_steady _).optionsReversed, by decide +kernel,
    by decide +kernel, by decide +kernel, by decide +kernel, by decide +kernel⟩

end Verif.Sql
