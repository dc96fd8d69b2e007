import Verif.Sql.Swap
import Verif.Sql.SameProps

/-!
# C119: exactly which databases have only one description
-/

namespace Verif.Sql
open Verif Verif.Pg

variable {F : Type} {parseFloat : Str → F × Option Ddl.NumErr} {sort : Sorter} {db : Db} {c : Catalog}
  {o : InspectOptions} {d : Database F}

theorem fillSequences_congr {c c' : Catalog} (h : c'.sequence = c.sequence) :
    ∀ l, c'.fillSequences l = c.fillSequences l
  | [] => rfl
  | x :: l => by
    simp only [Catalog.fillSequences, Catalog.fillSequence, h, fillSequences_congr h l]

theorem listSequences_congr {c c' : Catalog} (h1 : c'.hasView = c.hasView)
    (h2 : c'.sequences = c.sequences) (h3 : c'.legacySequences = c.legacySequences)
    (h4 : c'.sequence = c.sequence) : c'.listSequences = c.listSequences := by
  simp only [Catalog.listSequences, h1, h2, h3, fillSequences_congr h4]

theorem inspect_succeeds {c' : Catalog} (h : inspect parseFloat sort c o = .ok d)
    (h1 : c'.listParameters = c.listParameters) (h2 : c'.listSchemas = c.listSchemas)
    (h3 : ∃ x, c'.listFunctions = .ok x) (h4 : c'.listSequences = c.listSequences)
    (h5 : c'.listTables = c.listTables) (h6 : c'.listColumns = c.listColumns)
    (h7 : c'.listChecks = c.listChecks)
    (h8 : ∀ ts, c.listTables = .ok ts → ∀ t ∈ ts, ∃ x, c'.listForeignKeys t.schema t.name = .ok x)
    (h9 : c'.listStorage parseFloat = c.listStorage parseFloat)
    (h10 : c'.listIndexes = c.listIndexes) (h11 : c'.listTriggers = c.listTriggers) :
    ∃ d', inspect parseFloat sort c' o = .ok d' := by
  cases hi : inspect parseFloat sort c' o with
  | ok d' => exact ⟨d', rfl⟩
  | error e =>
    exfalso
    obtain ⟨g1, g2, g3, g4, ts, perI, perT, g5, g6, g7, g8, -, -⟩ := inspect_ok h
    obtain ⟨fs, h3⟩ := h3
    rcases inspect_error' hi with hi | hi | hi | hi | hi | ⟨ts', x, hts, hx, hi⟩
    · rw [h1, g1] at hi; cases hi
    · rw [h2, g2] at hi; cases hi
    · rw [h3] at hi; cases hi
    · rw [h4, g4] at hi; cases hi
    · rw [h5, g5] at hi; cases hi
    · rw [h5, g5] at hts
      cases hts
      obtain ⟨y, -, cols, chks, fks, params, k1, k2, k3, k4, -⟩ := forall₂_mem_right g6.flip hx
      obtain ⟨yi, -, k5⟩ := forall₂_mem_right g7.flip hx
      obtain ⟨yt, -, k6⟩ := forall₂_mem_right g8.flip hx
      obtain ⟨fk, k7⟩ := h8 ts g5 x hx
      rw [h6, h7, h9, h10, h11, k1, k2, k4, k5, k6, k7] at hi
      rcases hi with hi | hi | hi | hi | hi | hi <;> cases hi

theorem functionsAlike_of_same (hw : db.WF) (hs : Serves db c) (hu : Steady c)
    (h : inspect parseFloat sort c o = .ok d)
    (hsame : ∀ c' d', Serves db c' → Steady c' → c'.listParameters = c.listParameters →
      inspect parseFloat sort c' o = .ok d' → d' = d) : FunctionsAlike db := by
  rintro p p' ⟨hp, s, ⟨n, hn, hn', rfl⟩, h1, h2⟩ hv ⟨hp', s', ⟨n', hn1, hn1', rfl⟩, h1', h2'⟩ hv' e1 e2
  obtain rfl := inj_of_nodup hw.namespaces hn hn1 (by rw [hn', hn1', e2])
  obtain ⟨l, hl, hl'⟩ := hw.prolang p hp
  obtain ⟨l', hl1, hl1'⟩ := hw.prolang p' hp'
  have g3 := (inspect_ok h).2.2.1
  obtain ⟨q', xs', k1, k2, k3, -, k4⟩ := swapped (listFunctions_solved hw []) hs.functions hu.functions g3
    (a := ((p, some n), some l)) (b := ((p', some n), some l'))
    ⟨n, hn, l, hl, rfl, rfl, hp, hn', hl', h1, h2, hv⟩
    ⟨n, hn1, l', hl1, rfl, rfl, hp', hn1', hl1', h1, h2, hv'⟩ (by
      intro k hk
      simp only [listFunctions, List.mem_cons, List.not_mem_nil, or_false] at hk
      rcases hk with rfl | rfl <;>
        simp [listFunctions, Key.eval, Item.eval, Expr.eval, Env.set, Proc.row, Namespace.row, optRow, e1])
  have hs' := hs.withFunctions k1
  have hu' := hu.withFunctions k2
  obtain ⟨d', hd'⟩ := inspect_succeeds (c' := { c with functions := q' }) h rfl rfl ⟨xs', k3⟩
    (listSequences_congr rfl rfl rfl rfl) rfl rfl rfl
    (fun ts hts t ht => by
      obtain ⟨-, -, -, -, ts', perI, perT, g5, g6, -, -, -, -⟩ := inspect_ok h
      rw [g5] at hts
      cases hts
      obtain ⟨y, -, cols, chks, fks, params, -, -, k3, -, -⟩ := forall₂_mem_right g6.flip ht
      exact ⟨fks, k3⟩) rfl rfl rfl
  obtain rfl := hsame _ d' hs' hu' rfl hd'
  have g3' := (inspect_ok hd').2.2.1
  have e : Except.ok xs' = Except.ok d'.functions := k3.symm.trans g3'
  have := k4 (Except.ok.inj e)
  rw [functions_shown, functions_shown] at this
  intro x
  rw [← functionRow_described hw hn hl hn' hl', ← functionRow_described hw hn1 hl1 hn1' hl1',
    Option.some.inj this]

/-- A server that answers the query for the foreign keys of one table differently. -/
def withForeignKeys (c : Catalog) (schema table : Str) (q : Query DefRow) : Catalog :=
  { c with foreignKeys := fun s t => if s = schema ∧ t = table then q else c.foreignKeys s t }

theorem withForeignKeys_serves (hs : Serves db c) {schema table : Str} {q : Query DefRow}
    (hq : Gives db listForeignKeys [schema, table] readDef q) :
    Serves db (withForeignKeys c schema table q) := by
  obtain ⟨h1, h2, h3, h4, h5, h6, h7, h8, h9, h10, h11, h12, h13, h14, h15⟩ := hs
  refine ⟨h1, h2, h3, h4, h5, h6, ?_, h8, h9, h10, h11, h12, h13, h14, h15⟩
  intro s t
  simp only [withForeignKeys]
  split
  · rename_i e
    obtain ⟨rfl, rfl⟩ := e
    exact hq
  · exact h7 s t

theorem withForeignKeys_steady (hu : Steady c) {schema table : Str} {q : Query DefRow}
    (hq : Unbroken q) : Steady (withForeignKeys c schema table q) := by
  obtain ⟨h1, h2, h3, h4, h5, h6, h7, h8, h9, h10, h11⟩ := hu
  refine ⟨h1, h2, h3, h4, h5, h6, h7, ?_, h9, h10, h11⟩
  intro s t
  simp only [withForeignKeys]
  split
  · exact hq
  · exact h8 s t

theorem forall₂_both {α β : Type} {R S : α → β → Prop} {l : List α} {xs : List β}
    (h : List.Forall₂ R l xs) (h' : List.Forall₂ S l xs) : ∀ a ∈ l, ∃ x, R a x ∧ S a x := by
  induction h with
  | nil => intro a ha; cases ha
  | cons h1 _ ih =>
    cases h' with
    | cons h2 h' =>
      intro a ha
      rcases List.mem_cons.1 ha with rfl | ha
      · exact ⟨_, h1, h2⟩
      · exact ih h' a ha

theorem foreignKeys_shown (n : Namespace) (t : Class) (k : Constraint) (r : Class) (ps : List Str) :
    listForeignKeys.shown db ps readDef foreignKeyRow ((((Env.empty.set .n (Namespace.row n)).set .c1
      (Class.row t)).set .t (Constraint.row k)).set .c2 (Class.row r)) =
    some (foreignKeyRow ⟨some k.conname, some (db.getConstraintdef k.oid false)⟩) := by
  have hv : listForeignKeys.items.mapM (Item.eval db ps ((((Env.empty.set .n (Namespace.row n)).set .c1
      (Class.row t)).set .t (Constraint.row k)).set .c2 (Class.row r))) =
      some [.str k.conname, .str (db.getConstraintdef k.oid false)] := by
    items listForeignKeys
  rw [Select.shown, hv]
  simp [readDef, Val.asStr]

theorem foreignKeysApart_of_same (hw : db.WF) (he : Enforced db) (hs : Serves db c) (hu : Steady c)
    (h : inspect parseFloat sort c o = .ok d)
    (hsame : ∀ c' d', Serves db c' → Steady c' → c'.listParameters = c.listParameters →
      inspect parseFloat sort c' o = .ok d' → d' = d) : ForeignKeysApart db := by
  intro r hr k hk k' hk' hf hf' e1 e2 e3 t ht t' ht' e4 e5 e6
  obtain ⟨g1, g2, g3, g4, ts, perI, perT, g5, g6, g7, g8, -, -⟩ := inspect_ok h
  obtain ⟨l, -, hl, hfl, -⟩ := tables_listed hw hs hu g5
  obtain ⟨x, hx, hd⟩ := forall₂_mem_right hfl.flip ((hl r).2 hr)
  obtain ⟨y, -, cols, chks, fks, params, -, -, k3, -, -⟩ := forall₂_mem_right g6.flip hx
  have hrel : IsRel db x.schema x.name r := ⟨hr.1.1, hd.name.symm, hd.schema⟩
  obtain ⟨n, hn⟩ := isRel_iff.1 hrel
  obtain ⟨q', xs', m1, m2, m3, ⟨z, m4⟩, m5⟩ := swapped (listForeignKeys_solved hw x.schema x.name)
    (hs.foreignKeys x.schema x.name) (hu.foreignKeys x.schema x.name) k3
    (a := (((n, r), k), t)) (b := (((n, r), k'), t'))
    ⟨hn, hk, e1, hf, ht, e4⟩ ⟨hn, hk', e2, hf', ht', e5⟩ (by
      intro key hkey
      simp only [listForeignKeys, List.mem_cons, List.not_mem_nil, or_false] at hkey
      rcases hkey with rfl | rfl <;>
        simp [Key.eval, Expr.eval, Env.set, Class.row, Constraint.row, e3, e6])
  have hfk : ∀ s u, (withForeignKeys c x.schema x.name q').listForeignKeys s u =
      if s = x.schema ∧ u = x.name then .ok xs' else c.listForeignKeys s u := by
    intro s u
    simp only [Catalog.listForeignKeys, withForeignKeys]
    split
    · exact m3
    · rfl
  obtain ⟨d', hd'⟩ := inspect_succeeds (c' := withForeignKeys c x.schema x.name q') h rfl rfl ⟨_, g3⟩
    (listSequences_congr rfl rfl rfl rfl) rfl rfl rfl
    (fun ts' hts u hu => by
      rw [g5] at hts
      cases hts
      rw [hfk]
      split
      · exact ⟨_, rfl⟩
      · obtain ⟨y, -, cols, chks, fks, params, -, -, k3, -, -⟩ := forall₂_mem_right g6.flip hu
        exact ⟨fks, k3⟩) rfl rfl rfl
  obtain rfl := hsame _ d' (withForeignKeys_serves hs m1) (withForeignKeys_steady hu m2) rfl hd'
  obtain ⟨-, -, -, -, ts', -, -, g5', g6', -, -, -, -⟩ := inspect_ok hd'
  have ets : ts' = ts := Except.ok.inj (g5'.symm.trans g5)
  subst ets
  obtain ⟨info, ⟨_, _, f1, _, -, -, i1, -, rfl⟩, ⟨_, _, f2, _, -, -, i2, -, i3⟩⟩ := forall₂_both g6 g6' x hx
  rw [hfk, if_pos ⟨rfl, rfl⟩] at i2
  cases i2
  rw [k3] at i1
  cases i1
  have efk := congrArg (fun i : TableInfo F => i.table.foreignKeys) i3
  have := m5 (List.append_cancel_left efk).symm
  rw [this, foreignKeys_shown] at m4
  rw [foreignKeys_shown, foreignKeys_shown] at this
  have j1 := ((foreignKeyRow_ok _ _).1 (Option.some.inj m4)).1
  rw [← Option.some.inj this] at m4
  have j2 := ((foreignKeyRow_ok _ _).1 (Option.some.inj m4)).1
  exact he.conname k hk k' hk' (e1.trans e2.symm) (Option.some.inj (j2.trans j1.symm))
    (e1 ▸ he.oids r hr.1.1)

/-- C119, exactly: once an inspection of a database has succeeded, every other inspection with the same
options and settings of the session that succeeds returns the same description if and only if functions
of the same schema and name are described alike and no table has two foreign keys with the same columns
that refer to tables of the same name. -/
theorem C119_exact_partial (parseFloat : Str → F × Option Ddl.NumErr) (sort : Sorter) (db : Db)
    (hw : db.WF) (he : Enforced db) (c : Catalog) (hs : Serves db c) (hu : Steady c) (o : InspectOptions)
    (d : Database F) (h : inspect parseFloat sort c o = .ok d) :
    (∀ c' d', Serves db c' → Steady c' → c'.listParameters = c.listParameters →
      inspect parseFloat sort c' o = .ok d' → d' = d) ↔ FunctionsAlike db ∧ ForeignKeysApart db :=
  ⟨fun hsame => ⟨functionsAlike_of_same hw hs hu h hsame, foreignKeysApart_of_same hw he hs hu h hsame⟩,
    fun ⟨hf, hk⟩ c' d' hs' hu' hp h' =>
      C119_same_partial parseFloat sort db hw he hf hk c' c hs' hs hu' hu hp o d' d h' h⟩

/-- Both sides occur: the example of `C119_same_partial` satisfies the condition, and `shop` does not, because
of its two functions `len`. -/
example : shop.WF ∧ Enforced shop ∧ Serves shop (serve shop) ∧ Steady (serve shop) ∧
    (∃ d : Database Unit,
      inspect (fun _ => ((), none)) (fun _ less l => insertionSort less l) (serve shop) {} = .ok d) ∧
    ForeignKeysApart shop ∧ ¬ FunctionsAlike shop := by
  obtain ⟨d, d', h1, h2, h3, h4⟩ := shop_two
  refine ⟨shop_wf, shop_enforced, serve_serves shop, serve_steady shop, ⟨d, h1⟩, shop_apart, fun hf => ?_⟩
  have := C119_same_partial _ _ shop shop_wf shop_enforced hf shop_apart _ _ (serve_serves shop)
    shopSwapped_serves (serve_steady shop) shopSwapped_steady (by decide +kernel) {} d d' h1 h2
  subst this
  rw [h3] at h4
  exact absurd h4 (by decide)

end Verif.Sql
