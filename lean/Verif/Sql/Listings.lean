import Verif.Sql.Solved
import Verif.Pg.InspectProps
import Verif.Ddl.ParamsProps
import Verif.Ddl.ParseProps

/-!
# Lemmas: from the answers to the descriptions
-/

namespace Verif.Sql
open Verif Verif.Pg

theorem listRows_cases {X ρ α : Type} {q : Query ρ} {st : Stream ρ} {row : X → ρ}
    {rowf : ρ → Except Err α} {L : List X} (hq : q = .ok st) (hr : st.rows = L.map row) :
    (∃ xs, listRows q rowf = .ok xs ∧ List.Forall₂ (fun x y => rowf (row x) = .ok y) L xs) ∨
    ∃ e, listRows q rowf = .error e ∧ ∃ x ∈ L, rowf (row x) = .error e := by
  subst hq
  simp only [listRows, hr]
  have : ∀ acc : List α, (∃ xs, scanLoop rowf (L.map row) acc = .ok (acc ++ xs) ∧
      List.Forall₂ (fun x y => rowf (row x) = .ok y) L xs) ∨
      ∃ e, scanLoop rowf (L.map row) acc = .error e ∧ ∃ x ∈ L, rowf (row x) = .error e := by
    clear hr
    induction L with
    | nil => intro acc; exact .inl ⟨[], by simp [scanLoop], .nil⟩
    | cons x L ih =>
      intro acc
      simp only [List.map_cons, scanLoop]
      cases hx : rowf (row x) with
      | error e => exact .inr ⟨e, rfl, x, by simp, hx⟩
      | ok y =>
        rcases ih (acc ++ [y]) with ⟨xs, h1, h2⟩ | ⟨e, h1, z, hz, h2⟩
        · exact .inl ⟨y :: xs, by simpa using h1, .cons hx h2⟩
        · exact .inr ⟨e, h1, z, by simp [hz], h2⟩
  simpa using this []

theorem enumerate_cases {X A α ρ : Type} {Q : X → Prop} {P : A → Prop} {D : A → α → Prop} {row : X → ρ}
    {rowf : ρ → Except Err α} {q : Query ρ} {R : X → X → Prop} {S : A → A → Prop} (proj : X → A)
    (hq : (∃ n, q = .error (.query n)) ∨ ∃ L : List X, L.Nodup ∧ (∀ x, x ∈ L ↔ Q x) ∧
      (∃ st, q = .ok st ∧ st.rows = L.map row) ∧ L.Pairwise R)
    (hinj : ∀ x y, Q x → Q y → proj x = proj y → x = y)
    (hP : ∀ a, P a ↔ ∃ x, Q x ∧ proj x = a)
    (hD : ∀ x y, Q x → (rowf (row x) = .ok y ↔ D (proj x) y))
    (hS : ∀ x y, Q x → Q y → x ≠ y → R x y → S (proj x) (proj y)) :
    (∃ n, q = .error (.query n) ∧ listRows q rowf = .error (.query n)) ∨
    (∃ e, listRows q rowf = .error e ∧ ∃ x, Q x ∧ rowf (row x) = .error e ∧ P (proj x) ∧
      ∀ y, ¬ D (proj x) y) ∨
    ∃ xs, listRows q rowf = .ok xs ∧ Enumerates P D S xs := by
  rcases hq with ⟨n, rfl⟩ | ⟨L, hL, hmem, ⟨st, hst, hr⟩, hs⟩
  · exact .inl ⟨n, rfl, rfl⟩
  · rcases listRows_cases (rowf := rowf) hst hr with ⟨xs, h1, h2⟩ | ⟨e, h1, x, hx, h2⟩
    · refine .inr (.inr ⟨xs, h1, L.map proj, ?_, ?_, ?_, ?_⟩)
      · exact hL.map_on fun x hx y hy h => hinj x y ((hmem x).1 hx) ((hmem y).1 hy) h
      · intro a
        rw [List.mem_map, hP]
        simp only [hmem]
      · rw [List.pairwise_map]
        exact (List.Pairwise.and_mem.1 (hs.and hL)).imp fun ⟨hx, hy, h, hne⟩ =>
          hS _ _ ((hmem _).1 hx) ((hmem _).1 hy) hne h
      · rw [List.forall₂_map_left_iff]
        exact forall₂_imp_mem' h2 fun x y hx h => (hD x y ((hmem x).1 hx)).1 h
    · refine .inr (.inl ⟨e, h1, x, (hmem x).1 hx, h2, (hP _).2 ⟨x, (hmem x).1 hx, rfl⟩, fun y hy => ?_⟩)
      rw [← hD x y ((hmem x).1 hx), h2] at hy
      cases hy
where
  forall₂_imp_mem' {α β : Type} {R S : α → β → Prop} {l : List α} {m : List β}
      (h : List.Forall₂ R l m) (hi : ∀ a b, a ∈ l → R a b → S a b) : List.Forall₂ S l m := by
    induction h with
    | nil => exact .nil
    | cons h _ ih =>
      exact .cons (hi _ _ (by simp) h) (ih fun a b ha => hi a b (by simp [ha]))

theorem enumerate {X A α ρ : Type} {Q : X → Prop} {P : A → Prop} {D : A → α → Prop} {row : X → ρ}
    {rowf : ρ → Except Err α} {q : Query ρ} {R : X → X → Prop} {S : A → A → Prop} (proj : X → A)
    (hq : (∃ n, q = .error (.query n)) ∨ ∃ L : List X, L.Nodup ∧ (∀ x, x ∈ L ↔ Q x) ∧
      (∃ st, q = .ok st ∧ st.rows = L.map row) ∧ L.Pairwise R)
    (hinj : ∀ x y, Q x → Q y → proj x = proj y → x = y)
    (hP : ∀ a, P a ↔ ∃ x, Q x ∧ proj x = a)
    (hD : ∀ x y, Q x → (rowf (row x) = .ok y ↔ D (proj x) y))
    (hS : ∀ x y, Q x → Q y → x ≠ y → R x y → S (proj x) (proj y)) :
    (∃ n, q = .error (.query n) ∧ listRows q rowf = .error (.query n)) ∨
    (∃ e, listRows q rowf = .error e ∧ ∃ a, P a ∧ ∀ y, ¬ D a y) ∨
    ∃ xs, listRows q rowf = .ok xs ∧ Enumerates P D S xs := by
  rcases enumerate_cases proj hq hinj hP hD hS with h | ⟨e, h, x, -, -, h1, h2⟩ | h
  · exact .inl h
  · exact .inr (.inl ⟨e, h, proj x, h1, h2⟩)
  · exact .inr (.inr h)

theorem enumerate_parsed {X A α ρ : Type} {Q : X → Prop} {P : A → Prop} {D : A → α → Prop} {row : X → ρ}
    {rowf : ρ → Except Err α} {q : Query ρ} {R : X → X → Prop} {S : A → A → Prop} (proj : X → A)
    (hq : (∃ n, q = .error (.query n)) ∨ ∃ L : List X, L.Nodup ∧ (∀ x, x ∈ L ↔ Q x) ∧
      (∃ st, q = .ok st ∧ st.rows = L.map row) ∧ L.Pairwise R)
    (hinj : ∀ x y, Q x → Q y → proj x = proj y → x = y)
    (hP : ∀ a, P a ↔ ∃ x, Q x ∧ proj x = a)
    (hD : ∀ x y, Q x → (rowf (row x) = .ok y ↔ D (proj x) y))
    (hS : ∀ x y, Q x → Q y → x ≠ y → R x y → S (proj x) (proj y))
    (hE : ∀ x e, rowf (row x) = .error e → ∃ cs, e = .parse cs) :
    (∃ n, q = .error (.query n) ∧ listRows q rowf = .error (.query n)) ∨
    (∃ cs, listRows q rowf = .error (.parse cs) ∧ ∃ a, P a ∧ ∀ y, ¬ D a y) ∨
    ∃ xs, listRows q rowf = .ok xs ∧ Enumerates P D S xs := by
  rcases enumerate_cases proj hq hinj hP hD hS with h | ⟨e, h, x, -, h0, h1, h2⟩ | h
  · exact .inl h
  · obtain ⟨cs, rfl⟩ := hE x e h0
    exact .inr (.inl ⟨cs, h, proj x, h1, h2⟩)
  · exact .inr (.inr h)

theorem Enumerates.pairwise {α β : Type} {P : α → Prop} {D : α → β → Prop} {R : α → α → Prop}
    {xs : List β} {S : β → β → Prop} (h : Enumerates P D R xs)
    (hS : ∀ a b x y, P a → P b → R a b → D a x → D b y → S x y) : xs.Pairwise S := by
  obtain ⟨l, -, hP, hR, hD⟩ := h
  have : ∀ a ∈ l, P a := fun a ha => (hP a).1 ha
  clear hP
  induction hD with
  | nil => exact .nil
  | @cons a x l xs h1 h2 ih =>
    rw [List.pairwise_cons] at hR ⊢
    refine ⟨fun y hy => ?_, ih hR.2 fun a ha => this a (by simp [ha])⟩
    obtain ⟨b, hb, hby⟩ := forall₂_mem_right h2 hy
    exact hS a b x y (this a (by simp)) (this b (by simp [hb])) (hR.1 b hb) h1 hby

@[simp] theorem le_str {a b : Str} : Val.le (.str a) (.str b) = Str.le a b := rfl
@[simp] theorem le_int {a b : Int} : Val.le (.int a) (.int b) = decide (a ≤ b) := rfl
@[simp] theorem le_bool {a b : Bool} : Val.le (.bool a) (.bool b) = (!a || b) := rfl
@[simp] theorem le_ints {a b : List Int} : Val.le (.ints a) (.ints b) = intsLe a b := rfl

/-- Computes the items of a query. -/
macro "items" d:ident : tactic => `(tactic| simp [$d:ident, Item.eval, Expr.eval, Env.set,
  Namespace.row, Class.row, Attribute.row, Attrdef.row, Proc.row, Language.row, Trigger.row,
  Constraint.row, Index.row, Sequence.row, optRow, userbyid, comment, Db.call, catalogOid])

/-- Computes the order of a query. -/
macro "order" d:ident "at" h:ident : tactic => `(tactic| simp [$d:ident, before, Key.eval, Key.desc,
  Item.eval, Expr.eval, Env.set, Namespace.row, Class.row, Attribute.row, Proc.row, Trigger.row,
  Constraint.row, Index.row, optRow] at $h:ident)

theorem schemaIs_inj {db : Db} (hw : db.WF) {oid : Nat} {s s' : Str} (h : SchemaIs db oid s)
    (h' : SchemaIs db oid s') : s = s' := by
  obtain ⟨n, hn, he, rfl⟩ := h
  obtain ⟨n', hn', he', rfl⟩ := h'
  rw [inj_of_nodup hw.namespaces hn hn' (he.trans he'.symm)]

theorem inOrder_of {a b a' b' : Str}
    (h : if a = a' then b = b' ∨ Str.le b b' = true else Str.le a a' = true) : InOrder a b a' b' := by
  split at h
  · rename_i e
    subst e
    refine ⟨Str.le_refl _, fun _ => ?_⟩
    rcases h with rfl | h
    · exact Str.le_refl _
    · exact h
  · rename_i hne
    exact ⟨h, fun e => absurd e hne⟩

theorem listSchemas_enumerates (db : Db) (hw : db.WF) (c : Catalog) (hs : Serves db c) (hu : Unbroken c.schemas) :
    (∃ n, c.schemas = .error (.query n) ∧ c.listSchemas = .error (.query n)) ∨
    ∃ xs, c.listSchemas = .ok xs ∧
      Enumerates (UserSchema db) (SchemaDescribed db)
        (fun n n' => Str.le n.nspname n'.nspname = true) xs := by
  have hq := gives_rows (listSchemas_solved hw []) (vals := fun n => [.str n.nspname,
    .str (db.getUserbyid n.nspowner), ofOption .str (db.comment 2615 n.oid 0)])
    (row := fun n => ⟨some n.nspname, some (db.getUserbyid n.nspowner), db.comment 2615 n.oid 0⟩)
    (fun n _ => by items listSchemas)
    (fun n _ => by
      cases db.comment 2615 n.oid 0 <;> simp [readSchema, Val.asStr]) hs.schemas hu
  have hD : ∀ n x, UserSchema db n → (schemaRow ⟨some n.nspname, some (db.getUserbyid n.nspowner),
      db.comment 2615 n.oid 0⟩ = .ok x ↔ SchemaDescribed db n x) := by
    intro n x _
    cases x
    simp only [schemaRow, Except.ok.injEq, Schema.mk.injEq, string]
    constructor
    · rintro ⟨rfl, rfl, rfl⟩; exact ⟨rfl, rfl, commentIs _ _ _ _⟩
    · rintro ⟨h1, h2, h3⟩; exact ⟨h1.symm, h2.symm, ((commentIs_iff hw).1 h3).symm⟩
  rcases enumerate (P := UserSchema db) (S := fun n n' => Str.le n.nspname n'.nspname = true) id hq
    (fun _ _ _ _ h => h) (by simp) hD (by
      intro n n' _ _ _ h
      order listSchemas at h
      rcases h with h | h
      · show Str.le n.nspname n'.nspname = true
        rw [h]; exact Str.le_refl _
      · exact h) with h | ⟨e, -, n, hn, h⟩ | h
  · exact .inl h
  · exact absurd ((hD n _ hn).1 rfl) (h _)
  · exact .inr h

theorem listTables_enumerates (db : Db) (hw : db.WF) (c : Catalog) (hs : Serves db c)
    (hu : Unbroken c.tables) :
    (∃ n, c.tables = .error (.query n) ∧ c.listTables = .error (.query n)) ∨
    ∃ xs, c.listTables = .ok xs ∧
      Enumerates (fun t => UserTable db t ∧ Visible db t) (TableDescribed db) (fun _ _ => True) xs ∧
      xs.Pairwise (fun x y => InOrder x.schema x.name y.schema y.name) := by
  have hq := gives_rows (listTables_solved hw []) (vals := fun x =>
    [ofOption .str (x.2.map (·.nspname)), .str x.1.relname, .str (db.getUserbyid x.1.relowner),
      ofOption .str (db.comment 1259 x.1.oid 0)])
    (row := fun x => ⟨x.2.map (·.nspname), some x.1.relname, some (db.getUserbyid x.1.relowner),
      db.comment 1259 x.1.oid 0⟩)
    (fun x hx => by
      obtain ⟨t, o⟩ := x
      obtain ⟨n, hn, rfl, -⟩ := hx
      items listTables)
    (fun x hx => by
      obtain ⟨t, o⟩ := x
      obtain ⟨n, hn, rfl, -⟩ := hx
      cases db.comment 1259 t.oid 0 <;> simp [readTable, Val.asStr]) hs.tables hu
  have hD : ∀ (x : Class × Option Namespace) y, (∃ n ∈ db.namespaces, x.2 = some n ∧
      n.oid = x.1.relnamespace ∧ x.1 ∈ db.classes ∧ IsTable x.1 ∧ ¬ SystemSchema n.nspname ∧
      Visible db x.1) → (tableRow ⟨x.2.map (·.nspname), some x.1.relname,
      some (db.getUserbyid x.1.relowner), db.comment 1259 x.1.oid 0⟩ = .ok y ↔
        TableDescribed db x.1 y) := by
    rintro ⟨t, o⟩ y ⟨n, hn, rfl, he, -⟩
    cases y
    simp only [tableRow, Except.ok.injEq, Ddl.Table.mk.injEq, string, Option.map_some]
    constructor
    · rintro ⟨rfl, rfl, rfl, rfl, rfl, rfl, rfl⟩
      exact ⟨⟨n, hn, he, rfl⟩, rfl, rfl, commentIs _ _ _ _, rfl, rfl, rfl⟩
    · rintro ⟨h1, h2, h3, h4, h5, h6, h7⟩
      exact ⟨schemaIs_inj hw ⟨n, hn, he, rfl⟩ h1, h2.symm, h3.symm, ((commentIs_iff hw).1 h4).symm,
        h5.symm, h6.symm, h7.symm⟩
  have hP : ∀ t, (UserTable db t ∧ Visible db t) ↔ ∃ x : Class × Option Namespace,
      (∃ n ∈ db.namespaces, x.2 = some n ∧ n.oid = x.1.relnamespace ∧ x.1 ∈ db.classes ∧
        IsTable x.1 ∧ ¬ SystemSchema n.nspname ∧ Visible db x.1) ∧ x.1 = t := by
    intro t
    constructor
    · rintro ⟨⟨ht, h1, s, ⟨n, hn, h2, rfl⟩, h3⟩, hv⟩
      exact ⟨(t, some n), ⟨n, hn, rfl, h2, ht, h1, h3, hv⟩, rfl⟩
    · rintro ⟨⟨t, o⟩, ⟨n, hn, -, h2, ht, h1, h3, hv⟩, rfl⟩
      exact ⟨⟨ht, h1, _, ⟨n, hn, h2, rfl⟩, h3⟩, hv⟩
  rcases enumerate (S := fun t t' => ∀ s s', SchemaIs db t.relnamespace s →
      SchemaIs db t'.relnamespace s' → InOrder s t.relname s' t'.relname) Prod.fst hq
    (by
      rintro ⟨t, o⟩ ⟨t', o'⟩ ⟨n, hn, rfl, he, -⟩ ⟨n', hn', rfl, he', -⟩ (rfl : t = t')
      rw [inj_of_nodup hw.namespaces hn hn' (he.trans he'.symm)]) hP hD (by
      rintro ⟨t, o⟩ ⟨t', o'⟩ ⟨n, hn, rfl, he, -⟩ ⟨n', hn', rfl, he', -⟩ _ h s s' hs1 hs2
      rw [schemaIs_inj hw hs1 ⟨n, hn, he, rfl⟩, schemaIs_inj hw hs2 ⟨n', hn', he', rfl⟩]
      order listTables at h
      exact inOrder_of h) with h | ⟨e, -, n, hn, h⟩ | ⟨xs, h1, h2⟩
  · exact .inl h
  · obtain ⟨x, hx, rfl⟩ := (hP n).1 hn
    exact absurd ((hD x _ hx).1 rfl) (h _)
  · refine .inr ⟨xs, h1, ?_, h2.pairwise ?_⟩
    · obtain ⟨l, a, b, -, d⟩ := h2
      exact ⟨l, a, b, List.pairwise_of_forall (fun _ _ => trivial), d⟩
    · intro t t' x y _ _ hR hx hy
      rw [hx.name, hy.name]
      exact hR _ _ hx.schema hy.schema

/-- The tuples of the function queries. -/
abbrev ProcTuple := (Proc × Option Namespace) × Option Language

/-- The row of a function. -/
def procRow (db : Db) (x : ProcTuple) : FunctionRow :=
  ⟨x.1.2.map (·.nspname), some x.1.1.proname, some (db.getUserbyid x.1.1.proowner),
    db.comment 1255 x.1.1.oid 0, db.getFunctionResult x.1.1.oid, x.2.map (·.lanname), some x.1.1.prosrc⟩

theorem functionRow_described {db : Db} (hw : db.WF) {p : Proc} {n : Namespace} {l : Language}
    (hn : n ∈ db.namespaces) (hl : l ∈ db.languages) (he : n.oid = p.pronamespace)
    (he' : l.oid = p.prolang) (y : Ddl.Function) :
    functionRow (procRow db ((p, some n), some l)) = .ok y ↔ FunctionDescribed db p y := by
  cases y
  simp only [functionRow, procRow, Except.ok.injEq, Ddl.Function.mk.injEq, Option.map_some]
  constructor
  · rintro ⟨rfl, rfl, rfl, rfl, rfl, rfl, rfl⟩
    exact ⟨⟨n, hn, he, rfl⟩, rfl, rfl, commentIs _ _ _ _, (reads_iff _ _).2 rfl, ⟨l, hl, he', rfl⟩, rfl⟩
  · rintro ⟨h1, h2, h3, h4, h5, ⟨l', hl', h6, h7⟩, h8⟩
    refine ⟨schemaIs_inj hw ⟨n, hn, he, rfl⟩ h1, h2.symm, h3.symm, ((commentIs_iff hw).1 h4).symm,
      (reads_iff _ _).1 h5, ?_, h8.symm⟩
    rw [inj_of_nodup hw.languages hl hl' (he'.trans h6.symm)]
    exact h7.symm

theorem procTuple_inj {db : Db} (hw : db.WF) {p : Proc} {n n' : Namespace} {l l' : Language}
    (hn : n ∈ db.namespaces) (hl : l ∈ db.languages) (he : n.oid = p.pronamespace)
    (he' : l.oid = p.prolang) (hn' : n' ∈ db.namespaces) (hl' : l' ∈ db.languages)
    (ge : n'.oid = p.pronamespace) (ge' : l'.oid = p.prolang) :
    (((p, some n), some l) : ProcTuple) = ((p, some n'), some l') := by
  rw [inj_of_nodup hw.namespaces hn hn' (he.trans ge.symm),
    inj_of_nodup hw.languages hl hl' (he'.trans ge'.symm)]

theorem listFunctions_enumerates (db : Db) (hw : db.WF) (c : Catalog) (hs : Serves db c)
    (hu : Unbroken c.functions) :
    (∃ n, c.functions = .error (.query n) ∧ c.listFunctions = .error (.query n)) ∨
    ∃ xs, c.listFunctions = .ok xs ∧
      Enumerates (fun p => UserFunction db p ∧ FnVisible db p) (FunctionDescribed db)
        (fun _ _ => True) xs ∧
      xs.Pairwise (fun x y => InOrder x.schema x.name y.schema y.name) := by
  have hq := gives_rows (listFunctions_solved hw []) (vals := fun x =>
    [ofOption .str (x.1.2.map (·.nspname)), .str x.1.1.proname, .str (db.getUserbyid x.1.1.proowner),
      ofOption .str (db.comment 1255 x.1.1.oid 0), ofOption .str (db.getFunctionResult x.1.1.oid),
      ofOption .str (x.2.map (·.lanname)), .str x.1.1.prosrc])
    (row := procRow db)
    (fun x hx => by
      obtain ⟨⟨p, o⟩, o'⟩ := x
      obtain ⟨n, hn, l, hl, rfl, rfl, -⟩ := hx
      items listFunctions)
    (fun x hx => by
      obtain ⟨⟨p, o⟩, o'⟩ := x
      obtain ⟨n, hn, l, hl, rfl, rfl, -⟩ := hx
      cases h1 : db.comment 1255 p.oid 0 <;> cases h2 : db.getFunctionResult p.oid <;>
        simp [readFunction, Val.asStr, procRow, h1, h2]) hs.functions hu
  have hP : ∀ p, (UserFunction db p ∧ FnVisible db p) ↔ ∃ x : ProcTuple,
      (∃ n ∈ db.namespaces, ∃ l ∈ db.languages, x.1.2 = some n ∧ x.2 = some l ∧
        x.1.1 ∈ db.procs ∧ n.oid = x.1.1.pronamespace ∧ l.oid = x.1.1.prolang ∧
        n.nspname ≠ b!"pg_catalog" ∧ n.nspname ≠ b!"information_schema" ∧ FnVisible db x.1.1) ∧
        x.1.1 = p := by
    intro p
    constructor
    · rintro ⟨⟨hp, s, ⟨n, hn, h2, rfl⟩, h3, h4⟩, hv⟩
      obtain ⟨l, hl, hl'⟩ := hw.prolang p hp
      exact ⟨((p, some n), some l), ⟨n, hn, l, hl, rfl, rfl, hp, h2, hl', h3, h4, hv⟩, rfl⟩
    · rintro ⟨⟨⟨p, o⟩, o'⟩, ⟨n, hn, l, hl, rfl, rfl, hp, h2, hl', h3, h4, hv⟩, rfl⟩
      exact ⟨⟨hp, _, ⟨n, hn, h2, rfl⟩, h3, h4⟩, hv⟩
  rcases enumerate (rowf := functionRow) (D := FunctionDescribed db) (S := fun t t' => ∀ s s',
      SchemaIs db t.pronamespace s →
      SchemaIs db t'.pronamespace s' → InOrder s t.proname s' t'.proname) (fun x => x.1.1) hq
    (by
      rintro ⟨⟨p, o⟩, o'⟩ ⟨⟨p', q⟩, q'⟩ ⟨n, hn, l, hl, rfl, rfl, hp, h2, hl', -⟩
        ⟨n', hn', l', hl'', rfl, rfl, hp', h2', hl''', -⟩ (rfl : p = p')
      exact procTuple_inj hw hn hl h2 hl' hn' hl'' h2' hl''') hP (by
      rintro ⟨⟨p, o⟩, o'⟩ y ⟨n, hn, l, hl, rfl, rfl, hp, h2, hl', -⟩
      exact functionRow_described hw hn hl h2 hl' y) (by
      rintro ⟨⟨p, o⟩, o'⟩ ⟨⟨p', q⟩, q'⟩ ⟨n, hn, l, hl, rfl, rfl, hp, h2, hl', -⟩
        ⟨n', hn', l', hl'', rfl, rfl, hp', h2', hl''', -⟩ _ h s s' hs1 hs2
      rw [schemaIs_inj hw hs1 ⟨n, hn, h2, rfl⟩, schemaIs_inj hw hs2 ⟨n', hn', h2', rfl⟩]
      order listFunctions at h
      exact inOrder_of h) with h | ⟨e, -, n, hm, h⟩ | ⟨xs, h1, h2⟩
  · exact .inl h
  · obtain ⟨⟨⟨p, o⟩, o'⟩, ⟨n, hn, l, hl, rfl, rfl, hp, h2, hl', -⟩, rfl⟩ := (hP n).1 hm
    exact absurd ((functionRow_described hw hn hl h2 hl' _).1 rfl) (h _)
  · refine .inr ⟨xs, h1, ?_, h2.pairwise ?_⟩
    · obtain ⟨l, a, b, -, d⟩ := h2
      exact ⟨l, a, b, List.pairwise_of_forall (fun _ _ => trivial), d⟩
    · intro t t' x y _ _ hR hx hy
      rw [hx.name, hy.name]
      exact hR _ _ hx.schema hy.schema

theorem describeFunction_described (db : Db) (hw : db.WF) (c : Catalog) (hs : Serves db c)
    (schema name : Str) :
    (∃ n, c.describeFunction schema name = .error (.query n)) ∨
    (c.describeFunction schema name = .error .notFound ∧
      ¬ ∃ p ∈ db.procs, p.proname = name ∧ SchemaIs db p.pronamespace schema) ∨
    ∃ p ∈ db.procs, p.proname = name ∧ SchemaIs db p.pronamespace schema ∧
      ∃ x, c.describeFunction schema name = .ok x ∧ FunctionDescribed db p x := by
  have hq := gives_row (describeFunction_solved hw schema name) (vals := fun x =>
    [.str (db.getUserbyid x.1.1.proowner),
      ofOption .str (db.comment 1255 x.1.1.oid 0), ofOption .str (db.getFunctionResult x.1.1.oid),
      ofOption .str (x.2.map (·.lanname)), .str x.1.1.prosrc])
    (row := fun x => { procRow db x with schema := none, name := none })
    (fun x hx => by
      obtain ⟨⟨p, o⟩, o'⟩ := x
      obtain ⟨n, hn, l, hl, rfl, rfl, -⟩ := hx
      items describeFunction)
    (fun x hx => by
      obtain ⟨⟨p, o⟩, o'⟩ := x
      obtain ⟨n, hn, l, hl, rfl, rfl, -⟩ := hx
      cases h1 : db.comment 1255 p.oid 0 <;> cases h2 : db.getFunctionResult p.oid <;>
        simp [readDescribed, Val.asStr, procRow, h1, h2]) (hs.function schema name)
  rcases hq with ⟨n, h⟩ | ⟨h, hno⟩ | ⟨⟨⟨p, o⟩, o'⟩, ⟨n, hn, l, hl, rfl, rfl, hp, h2, hl', rfl, rfl⟩, h⟩
  · exact .inl ⟨n, by simp [Catalog.describeFunction, h]⟩
  · refine .inr (.inl ⟨by simp [Catalog.describeFunction, h], ?_⟩)
    rintro ⟨p, hp, rfl, n, hn, h2, rfl⟩
    obtain ⟨l, hl, hl'⟩ := hw.prolang p hp
    exact hno ((p, some n), some l) ⟨n, hn, l, hl, rfl, rfl, hp, h2.trans rfl, hl', rfl, rfl⟩
  · refine .inr (.inr ⟨p, hp, rfl, ⟨n, hn, h2, rfl⟩, _, by rw [Catalog.describeFunction, h], ?_⟩)
    exact (functionRow_described hw hn hl h2 hl' _).1 rfl

/-! ## The parts of a table -/

theorem filter_eq_find? {α : Type} {p : α → Bool} : ∀ {l : List α}, l.Nodup →
    (∀ x ∈ l, ∀ y ∈ l, p x = true → p y = true → x = y) → l.filter p = (l.find? p).toList
  | [], _, _ => rfl
  | x :: l, hn, h => by
    obtain ⟨hx, hn⟩ := List.nodup_cons.1 hn
    cases hp : p x with
    | true =>
      rw [List.find?_cons_of_pos hp, List.filter_cons_of_pos hp]
      have : l.filter p = [] := by
        rw [List.filter_eq_nil_iff]
        intro y hy hpy
        exact hx (h x List.mem_cons_self y (List.mem_cons_of_mem _ hy) hp hpy ▸ hy)
      rw [this]
      rfl
    | false =>
      rw [List.find?_cons_of_neg (by simp [hp]), List.filter_cons_of_neg (by simp [hp])]
      exact filter_eq_find? hn (fun a ha b hb => h a (List.mem_cons_of_mem _ ha) b (List.mem_cons_of_mem _ hb))

/-- The default of a column, as the query selects it. -/
def dflt (db : Db) (a : Attribute) : Option Str :=
  if a.atthasdef then (db.attrdefs.find? (fun d => decide (d.adrelid = a.attrelid ∧
    d.adnum = a.attnum))).map (fun d => db.getExpr d.adbin d.adrelid) else none

theorem dflt_item {db : Db} (hw : db.WF) (ps : List Str) (n : Namespace) (t : Class) (a : Attribute)
    (as : Option Ddl.Sql.Tok) :
    Item.eval db ps (((Env.empty.set .n (Namespace.row n)).set .c (Class.row t)).set .a
      (Attribute.row a)) (.sub (.call2 .pgGetExpr (.col .d .adbin) (.col .d .adrelid)) .attrdef .d
      [.eq (.col .d .adrelid) (.col .a .attrelid), .eq (.col .d .adnum) (.col .a .attnum),
       .col .a .atthasdef] as) = some (ofOption .str (dflt db a)) := by
  have hrows : db.rows .attrdef = db.attrdefs.map Attrdef.row := rfl
  simp only [Item.eval, hrows, List.map_map, List.filter_map]
  have hp : ((fun env => List.all [Expr.eq (.col .d .adrelid) (.col .a .attrelid),
      .eq (.col .d .adnum) (.col .a .attnum), .col .a .atthasdef] (fun e => e.holds db ps env)) ∘
      ((((Env.empty.set .n (Namespace.row n)).set .c (Class.row t)).set .a (Attribute.row a)).set .d ∘
        Attrdef.row)) = fun d : Attrdef => decide (d.adrelid = a.attrelid ∧ d.adnum = a.attnum) &&
        a.atthasdef := by
    funext d
    rw [Bool.eq_iff_iff]
    simp [Expr.holds, Expr.eval, Env.set, Attrdef.row, Attribute.row, and_assoc, oid_inj]
  rw [hp]
  unfold dflt
  cases ha : a.atthasdef with
  | false => simp [ofOption]
  | true =>
    simp only [Bool.and_true]
    rw [filter_eq_find? (nodup_of_map _ hw.attrdefs)]
    · cases db.attrdefs.find? (fun d => decide (d.adrelid = a.attrelid ∧ d.adnum = a.attnum)) with
      | none => simp [ofOption]
      | some d => simp [Expr.eval, Env.set, Attrdef.row, Db.call, ofOption]
    · intro x hx y hy h1 h2
      simp only [decide_eq_true_eq] at h1 h2
      exact inj_of_nodup hw.attrdefs hx hy (by simp [h1, h2])

theorem defaultIs_iff {db : Db} (hw : db.WF) (a : Attribute) (s : Str) :
    DefaultIs db a s ↔ s = string (dflt db a) := by
  unfold DefaultIs dflt
  cases ha : a.atthasdef with
  | false => simp [string]
  | true =>
    cases hf : db.attrdefs.find? (fun d => decide (d.adrelid = a.attrelid ∧ d.adnum = a.attnum)) with
    | none =>
      rw [List.find?_eq_none] at hf
      have : ¬ ∃ d ∈ db.attrdefs, d.adrelid = a.attrelid ∧ d.adnum = a.attnum := by
        rintro ⟨d, hd, h⟩
        exact hf d hd (by simpa using h)
      constructor
      · rintro (⟨-, d, hd, h1, h2, -⟩ | ⟨-, rfl⟩)
        · exact absurd ⟨d, hd, h1, h2⟩ this
        · rfl
      · rintro rfl
        exact .inr ⟨fun h => this h.2, rfl⟩
    | some d =>
      have hd := List.mem_of_find?_eq_some hf
      have hp := List.find?_some hf
      simp only [decide_eq_true_eq] at hp
      constructor
      · rintro (⟨-, d', hd', h1, h2, rfl⟩ | ⟨h, -⟩)
        · rw [inj_of_nodup hw.attrdefs hd' hd (by simp [h1, h2, hp])]
          rfl
        · exact absurd ⟨rfl, d, hd, hp⟩ h
      · rintro rfl
        exact .inl ⟨rfl, d, hd, hp.1, hp.2, rfl⟩

theorem listColumns_enumerates (db : Db) (hw : db.WF) (c : Catalog) (hs : Serves db c)
    (schema table : Str) (hu : Unbroken (c.columns schema table)) :
    (∃ n, c.columns schema table = .error (.query n) ∧
      c.listColumns schema table = .error (.query n)) ∨
    ∃ xs, c.listColumns schema table = .ok xs ∧
      Enumerates (LiveColumn db schema table) (ColumnDescribed db) ColumnOrder xs := by
  have hd := defaultIs_iff hw
  have hq := gives_rows (listColumns_solved hw schema table) (vals := fun x =>
    [.str x.2.attname, .str (db.formatType x.2.atttypid (some x.2.atttypmod)), .bool x.2.attnotnull,
      ofOption .str (dflt db x.2), ofOption .str (db.comment 1259 x.2.attrelid x.2.attnum)])
    (row := fun x => ⟨some x.2.attname, some (db.formatType x.2.atttypid (some x.2.atttypmod)),
      some x.2.attnotnull, dflt db x.2, db.comment 1259 x.2.attrelid x.2.attnum⟩)
    (fun x hx => by
      obtain ⟨⟨n, t⟩, a⟩ := x
      simp only [listColumns, List.mapM_cons, dflt_item hw]
      items listColumns)
    (fun x hx => by
      cases h1 : db.comment 1259 x.2.attrelid x.2.attnum <;> cases h2 : dflt db x.2 <;>
        simp [readColumn, Val.asStr, Val.asBool]) (hs.columns schema table) hu
  have hP : ∀ a, LiveColumn db schema table a ↔ ∃ x : (Namespace × Class) × Attribute,
      (Found db schema table x.1.1 x.1.2 ∧ x.2 ∈ db.attributes ∧ x.2.attrelid = x.1.2.oid ∧
        0 < x.2.attnum ∧ x.2.attisdropped = false) ∧ x.2 = a := by
    intro a
    constructor
    · rintro ⟨h1, h2, h3, t, ht, h4⟩
      obtain ⟨n, hn⟩ := isRel_iff.1 ht
      exact ⟨((n, t), a), ⟨hn, h1, h4, h2, h3⟩, rfl⟩
    · rintro ⟨⟨⟨n, t⟩, a⟩, ⟨hn, h1, h4, h2, h3⟩, rfl⟩
      exact ⟨h1, h2, h3, t, isRel_iff.2 ⟨n, hn⟩, h4⟩
  have hD : ∀ a y, columnRow ⟨some a.attname, some (db.formatType a.atttypid (some a.atttypmod)),
      some a.attnotnull, dflt db a, db.comment 1259 a.attrelid a.attnum⟩ = .ok y ↔
      ColumnDescribed db a y := by
    intro a y
    cases y
    simp only [columnRow, scan, bind, Except.bind, pure, Except.pure, Except.ok.injEq,
      Ddl.Column.mk.injEq]
    constructor
    · rintro ⟨rfl, rfl, rfl, rfl, rfl⟩; exact ⟨rfl, rfl, rfl, (hd _ _).2 rfl, commentIs _ _ _ _⟩
    · rintro ⟨h1, h2, h3, h4, h5⟩
      exact ⟨h1.symm, h2.symm, h3.symm, ((hd _ _).1 h4).symm, ((commentIs_iff hw).1 h5).symm⟩
  rcases enumerate (P := LiveColumn db schema table) (D := ColumnDescribed db) (rowf := columnRow)
    (S := ColumnOrder) (fun x => x.2) hq
    (by
      rintro ⟨⟨n, t⟩, a⟩ ⟨⟨n', t'⟩, a'⟩ ⟨h, -⟩ ⟨h', -⟩ (rfl : a = a')
      obtain ⟨rfl, rfl⟩ := h.unique hw h'
      rfl) hP (fun x y _ => hD x.2 y) (by
      rintro ⟨⟨n, t⟩, a⟩ ⟨⟨n', t'⟩, a'⟩ ⟨hf, h1, h2, -⟩ ⟨hf', h1', h2', -⟩ hne h
      obtain ⟨rfl, rfl⟩ := hf.unique hw hf'
      order listColumns at h
      have : a.attnum ≠ a'.attnum := by
        intro e
        refine hne ?_
        have e' : a = a' := inj_of_nodup hw.attributes h1 h1' (by simp only at h2 h2'; simp [h2, h2', e])
        subst e'
        rfl
      show a.attnum < a'.attnum
      omega) with h | ⟨e, -, n, hn, h⟩ | h
  · exact .inl h
  · exact absurd ((hD n _).1 rfl) (h _)
  · exact .inr h

/-! ### The only errors of rows without NULLs are those of the parsers -/

theorem ofOutcome_err {α : Type} {o : Ragel.Outcome α} (ho : o ≠ .panic) {e : Err}
    (h : ofOutcome o = .error e) : ∃ cs, e = .parse cs := by
  cases o with
  | ok a => cases h
  | err cs => exact ⟨cs, by cases h; rfl⟩
  | panic => exact absurd rfl ho

theorem bind_err {α β : Type} {a : Except Err α} {f : α → β} {e : Err}
    (h : (a >>= fun x => pure (f x)) = .error e) : a = .error e := by
  cases a with
  | error e' => cases h; rfl
  | ok a => cases h

theorem checkRow_err {n d : Str} {e : Err} (h : checkRow ⟨some n, some d⟩ = .error e) :
    ∃ cs, e = .parse cs :=
  ofOutcome_err (Ddl.C46_parsers_never_panic d).1 (bind_err h)

theorem foreignKeyRow_err {n d : Str} {e : Err} (h : foreignKeyRow ⟨some n, some d⟩ = .error e) :
    ∃ cs, e = .parse cs :=
  ofOutcome_err (Ddl.C46_parsers_never_panic d).2.2.1 (bind_err h)

theorem indexRow_err {schema n d : Str} {b : Bool} {e : Err}
    (h : indexRow schema ⟨some n, some b, some d⟩ = .error e) : ∃ cs, e = .parse cs :=
  ofOutcome_err (Ddl.C46_parsers_never_panic d).2.1 (bind_err h)

theorem triggerRow_err {schema n d : Str} {e : Err}
    (h : triggerRow schema ⟨some n, some d⟩ = .error e) : ∃ cs, e = .parse cs :=
  ofOutcome_err (Ddl.C46_parsers_never_panic d).2.2.2 (bind_err h)

theorem listChecks_enumerates (db : Db) (hw : db.WF) (c : Catalog) (hs : Serves db c)
    (schema table : Str) (hu : Unbroken (c.checks schema table)) :
    (∃ n, c.checks schema table = .error (.query n) ∧
      c.listChecks schema table = .error (.query n)) ∨
    (∃ cs, c.listChecks schema table = .error (.parse cs) ∧ ∃ k, CheckOf db schema table k ∧
      ∀ x, ¬ CheckDescribed db k x) ∨
    ∃ xs, c.listChecks schema table = .ok xs ∧
      Enumerates (CheckOf db schema table) (CheckDescribed db)
        (fun k k' => Str.le k.conname k'.conname = true) xs := by
  have hq := gives_rows (listChecks_solved hw schema table) (vals := fun x =>
    [.str x.2.conname, .str (db.getConstraintdef x.2.oid true)])
    (row := fun x => ⟨some x.2.conname, some (db.getConstraintdef x.2.oid true)⟩)
    (fun x hx => by items listChecks)
    (fun x hx => by simp [readDef, Val.asStr]) (hs.checks schema table) hu
  refine enumerate_parsed (P := CheckOf db schema table) (D := CheckDescribed db) (rowf := checkRow)
    (fun x => x.2) hq ?_ ?_ ?_ ?_ (fun _ _ h => checkRow_err h)
  · rintro ⟨⟨n, t⟩, a⟩ ⟨⟨n', t'⟩, a'⟩ ⟨h, -⟩ ⟨h', -⟩ (rfl : a = a')
    obtain ⟨rfl, rfl⟩ := h.unique hw h'
    rfl
  · intro a
    constructor
    · rintro ⟨h1, h2, t, ht, h4⟩
      obtain ⟨n, hn⟩ := isRel_iff.1 ht
      exact ⟨((n, t), a), ⟨hn, h1, h4, h2⟩, rfl⟩
    · rintro ⟨⟨⟨n, t⟩, a⟩, ⟨hn, h1, h4, h2⟩, rfl⟩
      exact ⟨h1, h2, t, isRel_iff.2 ⟨n, hn⟩, h4⟩
  · rintro ⟨⟨n, t⟩, k⟩ y -
    rw [checkRow_ok]
    simp [CheckDescribes, CheckDescribed, eq_comm]
  · rintro ⟨⟨n, t⟩, k⟩ ⟨⟨n', t'⟩, k'⟩ - - - h
    order listChecks at h
    show Str.le k.conname k'.conname = true
    rcases h with h | h
    · rw [h]; exact Str.le_refl _
    · exact h

theorem intsLe_refl : ∀ l : List Int, intsLe l l = true
  | [] => rfl
  | a :: l => by rw [intsLe, if_pos rfl]; exact intsLe_refl l

theorem listForeignKeys_enumerates (db : Db) (hw : db.WF) (c : Catalog) (hs : Serves db c)
    (schema table : Str) (hu : Unbroken (c.foreignKeys schema table)) :
    (∃ n, c.foreignKeys schema table = .error (.query n) ∧
      c.listForeignKeys schema table = .error (.query n)) ∨
    (∃ cs, c.listForeignKeys schema table = .error (.parse cs) ∧ ∃ k, ForeignKeyOf db schema table k ∧
      ∀ x, ¬ ForeignKeyDescribed db k x) ∨
    ∃ xs, c.listForeignKeys schema table = .ok xs ∧
      Enumerates (ForeignKeyOf db schema table) (ForeignKeyDescribed db) (ForeignKeyOrder db) xs := by
  have hq := gives_rows (listForeignKeys_solved hw schema table) (vals := fun x =>
    [.str x.1.2.conname, .str (db.getConstraintdef x.1.2.oid false)])
    (row := fun x => ⟨some x.1.2.conname, some (db.getConstraintdef x.1.2.oid false)⟩)
    (fun x hx => by items listForeignKeys)
    (fun x hx => by simp [readDef, Val.asStr]) (hs.foreignKeys schema table) hu
  refine enumerate_parsed (P := ForeignKeyOf db schema table) (D := ForeignKeyDescribed db)
    (rowf := foreignKeyRow) (fun x => x.1.2) hq ?_ ?_ ?_ ?_ (fun _ _ h => foreignKeyRow_err h)
  · rintro ⟨⟨⟨n, t⟩, a⟩, r⟩ ⟨⟨⟨n', t'⟩, a'⟩, r'⟩ ⟨h, -, -, -, h1, h2⟩ ⟨h', -, -, -, h1', h2'⟩ (rfl : a = a')
    obtain ⟨rfl, rfl⟩ := h.unique hw h'
    have e : r = r' := inj_of_nodup hw.classes h1 h1' (h2.trans h2'.symm)
    subst e
    rfl
  · intro a
    constructor
    · rintro ⟨h1, h2, t, ht, h4⟩
      obtain ⟨n, hn⟩ := isRel_iff.1 ht
      obtain ⟨r, hr, hr'⟩ := hw.confrelid a h1 h2
      exact ⟨(((n, t), a), r), ⟨hn, h1, h4, h2, hr, hr'⟩, rfl⟩
    · rintro ⟨⟨⟨⟨n, t⟩, a⟩, r⟩, ⟨hn, h1, h4, h2, -⟩, rfl⟩
      exact ⟨h1, h2, t, isRel_iff.2 ⟨n, hn⟩, h4⟩
  · rintro ⟨⟨⟨n, t⟩, k⟩, r⟩ y -
    rw [foreignKeyRow_ok]
    simp [ForeignKeyDescribes, ForeignKeyDescribed, eq_comm]
  · rintro ⟨⟨⟨n, t⟩, k⟩, r⟩ ⟨⟨⟨n', t'⟩, k'⟩, r'⟩ ⟨-, -, -, -, h1, h2⟩ ⟨-, -, -, -, h1', h2'⟩ - h
    order listForeignKeys at h
    intro u hu u' hu' e e'
    obtain rfl := inj_of_nodup hw.classes hu h1 (e.trans h2.symm)
    obtain rfl := inj_of_nodup hw.classes hu' h1' (e'.trans h2'.symm)
    split at h
    · rename_i er
      refine ⟨by rw [er]; exact Str.le_refl _, fun cols cols' _ hc hc' => ?_⟩
      simp only at hc hc'
      rw [hc, hc'] at h
      simp only [ofOption, Val.ints.injEq] at h
      rcases h with rfl | h
      · exact intsLe_refl _
      · exact h
    · rename_i er
      exact ⟨h, fun _ _ e => absurd e er⟩

theorem listIndexes_enumerates (db : Db) (hw : db.WF) (c : Catalog) (hs : Serves db c)
    (schema table : Str) (hu : Unbroken (c.indexes schema table)) :
    (∃ n, c.indexes schema table = .error (.query n) ∧
      c.listIndexes schema table = .error (.query n)) ∨
    (∃ cs, c.listIndexes schema table = .error (.parse cs) ∧ ∃ k, IndexOf db schema table k ∧
      ∀ x, ¬ IndexDescribed db schema k x) ∨
    ∃ xs, c.listIndexes schema table = .ok xs ∧
      Enumerates (IndexOf db schema table) (IndexDescribed db schema) (IndexOrder db) xs := by
  have hq := gives_rows (listIndexes_solved hw schema table) (vals := fun x =>
    [.str x.2.relname, .bool x.1.2.indisprimary, .str (db.getIndexdef x.1.2.indexrelid)])
    (row := fun x => ⟨some x.2.relname, some x.1.2.indisprimary,
      some (db.getIndexdef x.1.2.indexrelid)⟩)
    (fun x hx => by items listIndexes)
    (fun x hx => by simp [readIndex, Val.asStr, Val.asBool]) (hs.indexes schema table) hu
  refine enumerate_parsed (P := IndexOf db schema table) (D := IndexDescribed db schema)
    (rowf := indexRow schema) (fun x => x.1.2) hq ?_ ?_ ?_ ?_ (fun _ _ h => indexRow_err h)
  · rintro ⟨⟨⟨n, t⟩, a⟩, r⟩ ⟨⟨⟨n', t'⟩, a'⟩, r'⟩ ⟨h, -, -, h1, h2⟩ ⟨h', -, -, h1', h2'⟩ (rfl : a = a')
    obtain ⟨rfl, rfl⟩ := h.unique hw h'
    have e : r = r' := inj_of_nodup hw.classes h1 h1' (h2.trans h2'.symm)
    subst e
    rfl
  · intro a
    constructor
    · rintro ⟨h1, t, ht, h4⟩
      obtain ⟨n, hn⟩ := isRel_iff.1 ht
      obtain ⟨r, hr, hr'⟩ := hw.indexrelid a h1
      exact ⟨(((n, t), a), r), ⟨hn, h1, h4, hr, hr'⟩, rfl⟩
    · rintro ⟨⟨⟨⟨n, t⟩, a⟩, r⟩, ⟨hn, h1, h4, -⟩, rfl⟩
      exact ⟨h1, t, isRel_iff.2 ⟨n, hn⟩, h4⟩
  · rintro ⟨⟨⟨n, t⟩, k⟩, r⟩ y -
    rw [indexRow_ok]
    simp [IndexDescribes, IndexDescribed, eq_comm]
  · rintro ⟨⟨⟨n, t⟩, k⟩, r⟩ ⟨⟨⟨n', t'⟩, k'⟩, r'⟩ ⟨-, -, -, h1, h2⟩ ⟨-, -, -, h1', h2'⟩ - h
    order listIndexes at h
    by_cases ep : k.indisprimary = k'.indisprimary
    · rw [if_pos ep] at h
      refine .inr ⟨ep, ?_⟩
      by_cases eu : k.indisunique = k'.indisunique
      · rw [if_pos eu] at h
        refine .inr ⟨eu, fun u hu u' hu' e e' => ?_⟩
        obtain rfl := inj_of_nodup hw.classes hu h1 (e.trans h2.symm)
        obtain rfl := inj_of_nodup hw.classes hu' h1' (e'.trans h2'.symm)
        rcases h with h | h
        · show Str.le u.relname u'.relname = true
          rw [h]; exact Str.le_refl _
        · exact h
      · rw [if_neg eu] at h
        left
        show k.indisunique = true ∧ k'.indisunique = false
        cases h3 : k.indisunique <;> cases h4 : k'.indisunique <;> simp_all
    · rw [if_neg ep] at h
      left
      show k.indisprimary = true ∧ k'.indisprimary = false
      cases h3 : k.indisprimary <;> cases h4 : k'.indisprimary <;> simp_all

theorem listTriggers_enumerates (db : Db) (hw : db.WF) (c : Catalog) (hs : Serves db c)
    (schema table : Str) (hu : Unbroken (c.triggers schema table)) :
    (∃ n, c.triggers schema table = .error (.query n) ∧
      c.listTriggers schema table = .error (.query n)) ∨
    (∃ cs, c.listTriggers schema table = .error (.parse cs) ∧ ∃ t, (TriggerOf db schema table t ∧
      t.tgisinternal = false) ∧ ∀ x, ¬ TriggerDescribed db schema t x) ∨
    ∃ xs, c.listTriggers schema table = .ok xs ∧
      Enumerates (fun t => TriggerOf db schema table t ∧ t.tgisinternal = false)
        (TriggerDescribed db schema) (fun t t' => Str.le t.tgname t'.tgname = true) xs := by
  have hq := gives_rows (listTriggers_solved hw schema table) (vals := fun x =>
    [.str x.2.tgname, .str (db.getTriggerdef x.2.oid)])
    (row := fun x => ⟨some x.2.tgname, some (db.getTriggerdef x.2.oid)⟩)
    (fun x hx => by items listTriggers)
    (fun x hx => by simp [readDef, Val.asStr]) (hs.triggers schema table) hu
  refine enumerate_parsed (D := TriggerDescribed db schema) (rowf := triggerRow schema)
    (fun x => x.2) hq ?_ ?_ ?_ ?_ (fun _ _ h => triggerRow_err h)
  · rintro ⟨⟨n, t⟩, a⟩ ⟨⟨n', t'⟩, a'⟩ ⟨h, -⟩ ⟨h', -⟩ (rfl : a = a')
    obtain ⟨rfl, rfl⟩ := h.unique hw h'
    rfl
  · intro a
    constructor
    · rintro ⟨⟨h1, t, ht, h4⟩, h2⟩
      obtain ⟨n, hn⟩ := isRel_iff.1 ht
      exact ⟨((n, t), a), ⟨hn, h1, h4, h2⟩, rfl⟩
    · rintro ⟨⟨⟨n, t⟩, a⟩, ⟨hn, h1, h4, h2⟩, rfl⟩
      exact ⟨⟨h1, t, isRel_iff.2 ⟨n, hn⟩, h4⟩, h2⟩
  · rintro ⟨⟨n, t⟩, k⟩ y -
    rw [triggerRow_ok]
    simp [TriggerDescribes, TriggerDescribed, eq_comm]
  · rintro ⟨⟨n, t⟩, k⟩ ⟨⟨n', t'⟩, k'⟩ - - - h
    order listTriggers at h
    show Str.le k.tgname k'.tgname = true
    rcases h with h | h
    · rw [h]; exact Str.le_refl _
    · exact h

theorem describeTrigger_described (db : Db) (hw : db.WF) (c : Catalog) (hs : Serves db c)
    (schema table name : Str) :
    (∃ n, c.describeTrigger schema table name = .error (.query n)) ∨
    (c.describeTrigger schema table name = .error .notFound ∧
      ¬ ∃ t, TriggerOf db schema table t ∧ t.tgname = name) ∨
    ∃ t, TriggerOf db schema table t ∧ t.tgname = name ∧
      (∀ x, c.describeTrigger schema table name = .ok x ↔ TriggerDescribed db schema t x) ∧
      ∀ e, c.describeTrigger schema table name = .error e → ∃ cs, e = .parse cs := by
  have hq := gives_row (describeTrigger_solved hw schema table name) (vals := fun x =>
    [.str (db.getTriggerdef x.2.oid)])
    (row := fun x => some (db.getTriggerdef x.2.oid))
    (fun x hx => by items describeTrigger)
    (fun x hx => by simp [readText, Val.asStr]) (hs.trigger schema table name)
  rcases hq with ⟨n, h⟩ | ⟨h, hno⟩ | ⟨⟨⟨n, t⟩, k⟩, ⟨hn, h1, h2, h3⟩, h⟩
  · exact .inl ⟨n, by simp [Catalog.describeTrigger, h]⟩
  · refine .inr (.inl ⟨by simp [Catalog.describeTrigger, h], ?_⟩)
    rintro ⟨k, ⟨hk, t, ht, h4⟩, h5⟩
    obtain ⟨n, hn⟩ := isRel_iff.1 ht
    exact hno ((n, t), k) ⟨hn, hk, h4, h5⟩
  · refine .inr (.inr ⟨k, ⟨h1, t, isRel_iff.2 ⟨n, hn⟩, h2⟩, h3, fun x => ?_, fun e he => ?_⟩)
    case refine_2 =>
      simp only [Catalog.describeTrigger, h] at he
      exact ofOutcome_err (Ddl.C46_parsers_never_panic _).2.2.2 (bind_err he)
    have := triggerRow_ok schema ⟨some k.tgname, some (db.getTriggerdef k.oid)⟩ x
    simp only [triggerRow, TriggerDescribes] at this
    simp only [Catalog.describeTrigger, h, TriggerDescribed]
    simp only [scan] at this ⊢
    refine Iff.trans ?_ (this.trans (by simp))
    rfl

/-! ## Storage parameters -/

theorem storageLoop_cases {F : Type} (parseFloat : Str → F × Option Ddl.NumErr)
    (opts : List (Str × Str)) : ∀ (p : Ddl.Params F),
    (opts.map Prod.fst).Nodup → (∀ o ∈ opts, (61 : UInt8) ∉ o.1) →
    (∃ e, storageLoop parseFloat (opts.map fun o => some (o.1 ++ b!"=" ++ o.2)) p = .error (.num e) ∧
      ∃ o ∈ opts, ∃ kind, (o.1, kind) ∈ Ddl.knownParams ∧ ∀ v, ¬ Ddl.Denotes parseFloat kind o.2 v) ∨
    ∃ q, storageLoop parseFloat (opts.map fun o => some (o.1 ++ b!"=" ++ o.2)) p = .ok q ∧
      (∀ o ∈ opts, ∀ kind, (o.1, kind) ∈ Ddl.knownParams →
        ∃ v, Ddl.Denotes parseFloat kind o.2 v ∧ q.get o.1 = some v) ∧
      ∀ k, k ∉ opts.map Prod.fst → q.get k = p.get k := by
  induction opts with
  | nil => intro p _ _; exact .inr ⟨p, rfl, by simp, fun _ _ => rfl⟩
  | cons o opts ih =>
    intro p hn he
    obtain ⟨key, value⟩ := o
    simp only [List.map_cons, List.nodup_cons] at hn
    have hsplit := Ddl.splitOption_eq (row := key ++ b!"=" ++ value) (key := key) (value := value)
      ⟨he (key, value) (by simp), rfl⟩
    have he' := fun o ho => he o (List.mem_cons_of_mem _ ho)
    simp only [List.map_cons, storageLoop, scan, hsplit]
    by_cases hk : ∃ kind, (key, kind) ∈ Ddl.knownParams
    · obtain ⟨kind, hk⟩ := hk
      by_cases hd : ∃ v, Ddl.Denotes parseFloat kind value v
      · obtain ⟨v, hd⟩ := hd
        obtain ⟨h1, h2, h3⟩ := Ddl.C50_set_stores_value parseFloat p key value kind v hk hd
        cases hs : p.set parseFloat key value with
        | mk p' e =>
          rw [hs] at h1 h2 h3
          simp only at h1 h2 h3
          subst h1
          rcases ih p' hn.2 he' with ⟨e, h4, o, ho, h5⟩ | ⟨q, h4, h5, h6⟩
          · exact .inl ⟨e, h4, o, List.mem_cons_of_mem _ ho, h5⟩
          · refine .inr ⟨q, h4, ?_, ?_⟩
            · intro o ho kind' hk'
              rcases List.mem_cons.1 ho with rfl | ho
              · obtain rfl := known_unique hk hk'
                exact ⟨v, hd, by rw [h6 _ hn.1]; exact h2⟩
              · exact h5 o ho kind' hk'
            · intro k hk'
              simp only [List.mem_cons, not_or] at hk'
              rw [h6 k hk'.2, h3 k hk'.1]
      · have hd' : ∀ v, ¬ Ddl.Denotes parseFloat kind value v := fun v hv => hd ⟨v, hv⟩
        obtain ⟨h1, -⟩ := Ddl.C50_set_rejects parseFloat p key value kind hk hd'
        cases hs : p.set parseFloat key value with
        | mk p' e =>
          rw [hs] at h1
          cases e with
          | none => exact absurd rfl h1
          | some e => exact .inl ⟨e, rfl, (key, value), by simp, kind, hk, hd'⟩
    · have hk' : ∀ kind, (key, kind) ∉ Ddl.knownParams := fun k h => hk ⟨k, h⟩
      rw [Ddl.C50_set_unknown parseFloat p key value hk']
      rcases ih p hn.2 he' with ⟨e, h4, o, ho, h5⟩ | ⟨q, h4, h5, h6⟩
      · exact .inl ⟨e, h4, o, List.mem_cons_of_mem _ ho, h5⟩
      · refine .inr ⟨q, h4, ?_, fun k hk => ?_⟩
        · intro o ho kind' hk''
          rcases List.mem_cons.1 ho with rfl | ho
          · exact absurd hk'' (hk' _)
          · exact h5 o ho kind' hk''
        · simp only [List.mem_cons, not_or] at hk
          exact h6 k hk.2
where
  known_unique {key : Str} {k k' : Ddl.Kind} (h : (key, k) ∈ Ddl.knownParams)
      (h' : (key, k') ∈ Ddl.knownParams) : k = k' := by
    have : ∀ a ∈ Ddl.knownParams, ∀ b ∈ Ddl.knownParams, a.1 = b.1 → a.2 = b.2 := by decide +kernel
    exact this _ h _ h' rfl

theorem storage_rows (db : Db) (hw : db.WF) (schema table : Str) (res : List Str)
    (h : listTableStorageParameters.UnnestAnswer db [schema, table] res) :
    ∃ opts : List (Str × Str), (opts.map Prod.fst).Nodup ∧ (∀ o ∈ opts, (61 : UInt8) ∉ o.1) ∧
      res = (opts.map fun o => o.1 ++ b!"=" ++ o.2) ∧
      ∀ key value, (key, value) ∈ opts ↔ OptionSet db schema table key value := by
  obtain ⟨L, hL, hmem, he⟩ := listTableStorageParameters_solved hw schema table
  simp only [Select.UnnestAnswer, Select.unnest, he, List.flatMap_map] at h
  have hval : ∀ x : Namespace × Class, listTableStorageParameters.items.map (Item.eval db [schema, table]
      ((Env.empty.set .n (Namespace.row x.1)).set .c (Class.row x.2))) =
      [some (ofOption .strs x.2.reloptions)] := by
    intro x
    items listTableStorageParameters
  simp only [hval] at h
  have hcase : L = [] ∨ ∃ x, L = [x] := by
    match L, hL, hmem with
    | [], _, _ => exact .inl rfl
    | [x], _, _ => exact .inr ⟨x, rfl⟩
    | x :: y :: L, hL, hmem =>
      exfalso
      obtain ⟨h1, h2⟩ := Found.unique hw ((hmem x).1 (by simp)) ((hmem y).1 (by simp))
      have : x = y := Prod.ext h1 h2
      simp [this] at hL
  rcases hcase with rfl | ⟨⟨n, t⟩, rfl⟩
  · simp only [List.flatMap_nil, List.perm_nil] at h
    subst h
    refine ⟨[], by simp, by simp, rfl, fun key value => ⟨by simp, ?_⟩⟩
    rintro ⟨t, ht, -⟩
    obtain ⟨n, hn⟩ := isRel_iff.1 ht
    simpa using (hmem (n, t)).2 hn
  · have hf : Found db schema table n t := (hmem (n, t)).1 (by simp)
    cases ho : t.reloptions with
    | none =>
      simp only [List.flatMap_cons, ho, ofOption, List.flatMap_nil, List.append_nil,
        List.perm_nil] at h
      subst h
      refine ⟨[], by simp, by simp, rfl, fun key value => ⟨by simp, ?_⟩⟩
      rintro ⟨t', ht, l, hl, -⟩
      obtain ⟨n', hn⟩ := isRel_iff.1 ht
      obtain ⟨-, rfl⟩ := Found.unique hw hn hf
      rw [ho] at hl
      cases hl
    | some l =>
      simp only [List.flatMap_cons, ho, ofOption, List.flatMap_nil, List.append_nil] at h
      obtain ⟨opts, h1, h2, h3⟩ := hw.reloptions t hf.2.1 l ho
      obtain ⟨opts', h4, h5⟩ : ∃ opts' : List (Str × Str), opts'.Perm opts ∧
          res = opts'.map fun o => o.1 ++ b!"=" ++ o.2 := by
        rw [h3] at h
        obtain ⟨m, hm1, hm2⟩ := perm_map h
        exact ⟨m, hm1, hm2⟩
      refine ⟨opts', (h4.map _).nodup_iff.2 h1, fun o hm => h2 o (h4.mem_iff.1 hm), h5, fun key value => ?_⟩
      rw [h4.mem_iff]
      constructor
      · intro hm
        exact ⟨t, isRel_iff.2 ⟨n, hf⟩, l, ho, h2 _ hm, by
          rw [h3]; exact List.mem_map.2 ⟨_, hm, rfl⟩⟩
      · rintro ⟨t', ht, l', hl, hk, hm⟩
        obtain ⟨n', hn⟩ := isRel_iff.1 ht
        obtain ⟨-, rfl⟩ := Found.unique hw hn hf
        rw [ho] at hl
        obtain rfl := Option.some.inj hl
        rw [h3] at hm
        obtain ⟨⟨k, v⟩, hm, e⟩ := List.mem_map.1 hm
        have e1 := Ddl.splitOption_eq (row := key ++ b!"=" ++ value) (key := key) (value := value) ⟨hk, rfl⟩
        have e2 := Ddl.splitOption_eq (row := key ++ b!"=" ++ value) (key := k) (value := v)
          ⟨h2 _ hm, e.symm⟩
        rw [e1] at e2
        obtain ⟨rfl, rfl⟩ := Prod.mk.inj e2
        exact hm
where
  perm_map {α β : Type} {f : α → β} {l : List α} {m : List β} (h : m.Perm (l.map f)) :
      ∃ l' : List α, l'.Perm l ∧ m = l'.map f := by
    generalize hk : l.map f = k at h
    induction h generalizing l with
    | nil => exact ⟨[], by simpa using hk, rfl⟩
    | @cons x l₁ l₂ h ih =>
      cases l with
      | nil => simp at hk
      | cons a l =>
        obtain ⟨rfl, hk'⟩ := List.cons.inj hk
        obtain ⟨l', h1, h2⟩ := ih hk'
        exact ⟨a :: l', h1.cons a, by simp [h2]⟩
    | swap x y l₁ =>
      match l, hk with
      | a :: b :: l, hk =>
        simp only [List.map_cons, List.cons.injEq] at hk
        obtain ⟨rfl, rfl, rfl⟩ := hk
        exact ⟨b :: a :: l, List.Perm.swap _ _ _, rfl⟩
    | trans h1 h2 ih1 ih2 =>
      obtain ⟨l', h3, h4⟩ := ih2 hk
      obtain ⟨l'', h5, h6⟩ := ih1 h4.symm
      exact ⟨l'', h5.trans h3, h6⟩

theorem listStorage_cases {F : Type} (parseFloat : Str → F × Option Ddl.NumErr) (db : Db) (hw : db.WF)
    (c : Catalog) (hs : Serves db c) (schema table : Str) (hu : Unbroken (c.storage schema table)) :
    (∃ n, c.storage schema table = .error (.query n) ∧
      c.listStorage parseFloat schema table = .error (.query n)) ∨
    (∃ e, c.listStorage parseFloat schema table = .error (.num e) ∧ ∃ key kind value,
      (key, kind) ∈ Ddl.knownParams ∧ OptionSet db schema table key value ∧
      ∀ v, ¬ Ddl.Denotes parseFloat kind value v) ∨
    ∃ p, c.listStorage parseFloat schema table = .ok p ∧
      (∀ key kind value, (key, kind) ∈ Ddl.knownParams → OptionSet db schema table key value →
        ∃ v, Ddl.Denotes parseFloat kind value v ∧ p.get key = some v) ∧
      ∀ key, (¬ ∃ value, OptionSet db schema table key value) → p.get key = none := by
  have := hs.storage schema table
  unfold Catalog.listStorage
  cases hq : c.storage schema table with
  | error e =>
    rw [hq] at this
    obtain ⟨n, rfl⟩ := this
    exact .inl ⟨n, rfl, rfl⟩
  | ok st =>
    rw [hq] at this
    obtain ⟨res, h1, -, h2⟩ := this
    obtain ⟨opts, h3, h4, rfl, h5⟩ := storage_rows db hw schema table res h1
    simp only [h2 (hu st hq), List.map_map]
    rcases storageLoop_cases parseFloat opts {} h3 h4 with ⟨e, h6, ⟨key, value⟩, ho, kind, h7, h8⟩ | ⟨p, h6, h7, h8⟩
    · exact .inr (.inl ⟨e, h6, key, kind, value, h7, (h5 _ _).1 ho, h8⟩)
    · refine .inr (.inr ⟨p, h6, ?_, ?_⟩)
      · intro key kind value hk ho
        exact h7 (key, value) ((h5 _ _).2 ho) kind hk
      · intro key hno
        rw [h8 key, (Ddl.C50_attrs_known (F := F) {}).2]
        intro hm
        obtain ⟨⟨k, v⟩, ho, rfl⟩ := List.mem_map.1 hm
        exact hno ⟨v, (h5 _ _).1 ho⟩

/-! ## Sequences -/

theorem hasView_iff {db : Db} (hw : db.WF) :
    hasSequencesView.exists_ db [] = true ↔ HasPgSequence db := by
  obtain ⟨L, hL, hmem, he⟩ := hasSequencesView_solved hw []
  simp only [Select.exists_, he, HasPgSequence, isRel_iff]
  constructor
  · intro h
    cases L with
    | nil => simp at h
    | cons x L => exact ⟨x.1, x.2, (hmem x).1 (by simp)⟩
  · rintro ⟨c, n, h⟩
    have := (hmem (c, n)).2 h
    cases L with
    | nil => simp at this
    | cons x L => simp

theorem FoundSequence.unique {db : Db} (hw : db.WF) {c : Class} {n n' : Namespace}
    {d d' : Option Depend} {c2 c2' : Class} {n2 n2' : Namespace} {a2 a2' : Attribute}
    (h : FoundSequence db c n d c2 n2 a2) (h' : FoundSequence db c n' d' c2' n2' a2') :
    n = n' ∧ d = d' ∧ c2 = c2' ∧ n2 = n2' ∧ a2 = a2' := by
  obtain ⟨h1, h2, h3, h4, h5, h6, d, hd, rfl, h7, h8, h9, h10, h11, h12, h13, h14, h15, h16, h17⟩ := h
  obtain ⟨g1, g2, g3, g4, g5, g6, d', gd, rfl, g7, g8, g9, g10, g11, g12, g13, g14, g15, g16, g17⟩ := h'
  obtain rfl := inj_of_nodup hw.namespaces h2 g2 (h3.trans g3.symm)
  obtain rfl := hw.owner c h1 h4 d hd d' gd h7 g7 h8 g8 h9 g9 h10 g10
  obtain rfl := inj_of_nodup hw.classes h11 g11 (h12.trans g12.symm)
  obtain rfl := inj_of_nodup hw.namespaces h13 g13 (h14.trans g14.symm)
  obtain rfl := inj_of_nodup hw.attributes h15 g15 (by simp [h16, g16, h17, g17])
  exact ⟨rfl, rfl, rfl, rfl, rfl⟩

/-- What `ListSequences` lists. -/
def Listed (db : Db) (c : Class) : Prop :=
  UserSequence db c ∧ Visible db c ∧ ∃ a, OwnedBy db c a

theorem listed_iff {db : Db} (hw : db.WF) (c : Class) :
    Listed db c ↔ ∃ n d c2 n2 a2, FoundSequence db c n d c2 n2 a2 := by
  constructor
  · rintro ⟨⟨h1, h2, s, ⟨n, hn, h3, rfl⟩, h4⟩, hv, a, ha, d, hd, g1, g2, g3, g4, g5, g6⟩
    obtain ⟨c2, hc2, e2⟩ := hw.attrelid a ha
    obtain ⟨n2, hn2, e3⟩ := hw.relnamespace c2 hc2
    exact ⟨n, some d, c2, n2, a, h1, hn, h3, h2, h4, hv, d, hd, rfl, g2, g1, g3, g6, hc2,
      e2.trans g4.symm, hn2, e3, ha, e2.symm, g5.symm⟩
  · rintro ⟨n, d, c2, n2, a, h1, h2, h3, h4, h5, h6, d, hd, rfl, h7, h8, h9, h10, h11, h12, h13, h14,
      h15, h16, h17⟩
    exact ⟨⟨h1, h4, n.nspname, ⟨n, h2, h3, rfl⟩, h5⟩, h6, a, h15, d, hd, h8, h7, h9,
      (h16.trans h12).symm, h17.symm, h10⟩

theorem sequenceDescribed_of {db : Db} {c : Class} {n : Namespace}
    {d : Option Depend} {c2 : Class} {n2 : Namespace} {a2 : Attribute} {s : Sequence}
    (h : FoundSequence db c n d c2 n2 a2) (hs : s ∈ db.sequences) (he : s.seqrelid = c.oid) (ty : Str) :
    SequenceDescribed db c ⟨n.nspname, c.relname, db.getUserbyid c.relowner,
      string (db.comment 1259 c.oid 0), ty, s.seqstart, s.seqmin, s.seqmax, s.seqincrement, s.seqcache,
      s.seqcycle, some ⟨n2.nspname, c2.relname, a2.attname⟩⟩ := by
  obtain ⟨h1, h2, h3, h4, h5, h6, d, hd, rfl, h7, h8, h9, h10, h11, h12, h13, h14, h15, h16, h17⟩ := h
  exact ⟨⟨n, h2, h3, rfl⟩, rfl, rfl, commentIs _ _ _ _, ⟨s, hs, he, rfl, rfl, rfl, rfl, rfl, rfl⟩,
    _, rfl, a2, ⟨h15, d, hd, h8, h7, h9, (h16.trans h12).symm, h17.symm, h10⟩, rfl, c2,
    ⟨h11, rfl, n2, h13, h14, rfl⟩, h16.symm⟩

abbrev LegacyTuple := ((((Class × Namespace) × Option Depend) × Class) × Namespace) × Attribute

def legacyRow (db : Db) (x : LegacyTuple) : SequenceRow :=
  ⟨some x.1.1.1.1.2.nspname, some x.1.1.1.1.1.relname, some (db.getUserbyid x.1.1.1.1.1.relowner),
    db.comment 1259 x.1.1.1.1.1.oid 0, some x.1.2.nspname, some x.1.1.2.relname, some x.2.attname⟩

theorem enumerate_total {X A α ρ : Type} {Q : X → Prop} {P : A → Prop} {D : A → α → Prop} {row : X → ρ}
    {rowf : ρ → Except Err α} {q : Query ρ} {R : X → X → Prop} {S : A → A → Prop} (proj : X → A)
    (hq : (∃ n, q = .error (.query n)) ∨ ∃ L : List X, L.Nodup ∧ (∀ x, x ∈ L ↔ Q x) ∧
      (∃ st, q = .ok st ∧ st.rows = L.map row) ∧ L.Pairwise R)
    (hinj : ∀ x y, Q x → Q y → proj x = proj y → x = y)
    (hP : ∀ a, P a ↔ ∃ x, Q x ∧ proj x = a)
    (hD : ∀ x, Q x → ∃ y, rowf (row x) = .ok y ∧ D (proj x) y)
    (hS : ∀ x y, Q x → Q y → x ≠ y → R x y → S (proj x) (proj y)) :
    (∃ n, q = .error (.query n) ∧ listRows q rowf = .error (.query n)) ∨
    ∃ xs, listRows q rowf = .ok xs ∧ Enumerates P D S xs := by
  rcases enumerate (D := fun a y => ∃ x, Q x ∧ proj x = a ∧ rowf (row x) = .ok y) proj hq hinj hP
    (fun x y hx => ⟨fun h => ⟨x, hx, rfl, h⟩, fun ⟨x', hx', he, h⟩ => by
      rw [← hinj x' x hx' hx he]; exact h⟩) hS with h | ⟨e, -, a, ha, h⟩ | ⟨xs, h1, l, h2, h3, h4, h5⟩
  · exact .inl h
  · obtain ⟨x, hx, rfl⟩ := (hP a).1 ha
    obtain ⟨y, hy, -⟩ := hD x hx
    exact absurd ⟨x, hx, rfl, hy⟩ (h y)
  · refine .inr ⟨xs, h1, l, h2, h3, h4, h5.imp ?_⟩
    rintro a y ⟨x, hx, rfl, h⟩
    obtain ⟨y', hy', hd⟩ := hD x hx
    rw [h] at hy'
    cases hy'
    exact hd

/-- By schema and name. -/
def ClassOrder (db : Db) (c c' : Class) : Prop :=
  ∀ s s', SchemaIs db c.relnamespace s → SchemaIs db c'.relnamespace s' →
    InOrder s c.relname s' c'.relname

theorem listSequences_new (db : Db) (hw : db.WF) (c : Catalog) (hs : Serves db c)
    (hv : HasPgSequence db) (hu : Unbroken c.sequences) :
    (∃ n, c.sequences = .error (.query n) ∧ listRows c.sequences sequenceRow = .error (.query n)) ∨
    ∃ xs, listRows c.sequences sequenceRow = .ok xs ∧
      Enumerates (Listed db) (fun c x => SequenceDescribed db c x ∧ SequenceTypeIs db c x)
        (ClassOrder db) xs := by
  have hq := gives_rows (listSequences_solved hw []) (vals := fun x =>
    [.str x.1.1.1.1.1.2.nspname, .str x.1.1.1.1.1.1.relname,
      .str (db.getUserbyid x.1.1.1.1.1.1.relowner),
      ofOption .str (db.comment 1259 x.1.1.1.1.1.1.oid 0), .str (db.formatType x.1.1.1.1.2.seqtypid none),
      .int x.1.1.1.1.2.seqstart, .int x.1.1.1.1.2.seqmin, .int x.1.1.1.1.2.seqmax,
      .int x.1.1.1.1.2.seqincrement, .int x.1.1.1.1.2.seqcache, .bool x.1.1.1.1.2.seqcycle,
      .str x.1.2.nspname, .str x.1.1.2.relname, .str x.2.attname])
    (row := fun x => (⟨some x.1.1.1.1.1.2.nspname, some x.1.1.1.1.1.1.relname,
      some (db.getUserbyid x.1.1.1.1.1.1.relowner), db.comment 1259 x.1.1.1.1.1.1.oid 0,
      some x.1.2.nspname, some x.1.1.2.relname, some x.2.attname⟩,
      some (db.formatType x.1.1.1.1.2.seqtypid none),
      ⟨some x.1.1.1.1.2.seqstart, some x.1.1.1.1.2.seqmin, some x.1.1.1.1.2.seqmax,
        some x.1.1.1.1.2.seqincrement, some x.1.1.1.1.2.seqcache, some x.1.1.1.1.2.seqcycle⟩))
    (fun x hx => by items listSequences)
    (fun x hx => by
      cases h1 : db.comment 1259 x.1.1.1.1.1.1.oid 0 <;>
        simp [readSequence, Val.asStr, Val.asInt, Val.asBool])
    (hs.sequences ((hasView_iff hw).2 hv)) hu
  refine enumerate_total (fun x => x.1.1.1.1.1.1) hq ?_ ?_ ?_ ?_
  · rintro ⟨⟨⟨⟨⟨⟨c, n⟩, s⟩, o⟩, c2⟩, n2⟩, a2⟩ ⟨⟨⟨⟨⟨⟨c', n'⟩, s'⟩, o'⟩, c2'⟩, n2'⟩, a2'⟩ ⟨⟨h1, h2⟩, h3⟩
      ⟨⟨h1', h2'⟩, h3'⟩ (rfl : c = c')
    obtain ⟨e1, e2, e3, e4, e5⟩ := h3.unique hw h3'
    have e6 : s = s' := inj_of_nodup hw.sequences h1 h1' (h2.trans h2'.symm)
    simp only at e1 e2 e3 e4 e5
    subst e1 e2 e3 e4 e5 e6
    rfl
  · intro c
    rw [listed_iff hw]
    constructor
    · rintro ⟨n, d, c2, n2, a2, h⟩
      obtain ⟨s, hs1, hs2⟩ := hw.seqrelid c h.1 h.2.2.2.1
      exact ⟨((((((c, n), s), d), c2), n2), a2), ⟨⟨hs1, hs2⟩, h⟩, rfl⟩
    · rintro ⟨⟨⟨⟨⟨⟨⟨c, n⟩, s⟩, o⟩, c2⟩, n2⟩, a2⟩, ⟨-, h⟩, rfl⟩
      exact ⟨n, o, c2, n2, a2, h⟩
  · rintro ⟨⟨⟨⟨⟨⟨c, n⟩, s⟩, o⟩, c2⟩, n2⟩, a2⟩ ⟨⟨h1, h2⟩, h3⟩
    exact ⟨_, rfl, sequenceDescribed_of h3 h1 h2 _, s, h1, h2, rfl⟩
  · rintro ⟨⟨⟨⟨⟨⟨c, n⟩, s⟩, o⟩, c2⟩, n2⟩, a2⟩ ⟨⟨⟨⟨⟨⟨c', n'⟩, s'⟩, o'⟩, c2'⟩, n2'⟩, a2'⟩ ⟨-, h3⟩
      ⟨-, h3'⟩ _ h u u' hs1 hs2
    rw [schemaIs_inj hw hs1 ⟨n, h3.2.1, h3.2.2.1, rfl⟩, schemaIs_inj hw hs2 ⟨n', h3'.2.1, h3'.2.2.1, rfl⟩]
    order listSequences at h
    exact inOrder_of h

theorem fill_cases {db : Db} (hw : db.WF) {c : Catalog} (hs : Serves db c) {L : List LegacyTuple}
    {m : List Pg.Sequence}
    (hL : ∀ x ∈ L, FoundSequence db x.1.1.1.1.1 x.1.1.1.1.2 x.1.1.1.2 x.1.1.2 x.1.2 x.2)
    (h : List.Forall₂ (fun x y => legacySequenceRow (legacyRow db x) = .ok y) L m) :
    (∃ n, c.fillSequences m = .error (.query n)) ∨ ∃ xs, c.fillSequences m = .ok xs ∧
      List.Forall₂ (fun x y => SequenceDescribed db x.1.1.1.1.1 y ∧ y.dataType = b!"bigint") L xs := by
  induction h with
  | nil => exact .inr ⟨[], rfl, .nil⟩
  | @cons x y L m hx h ih =>
    obtain ⟨⟨⟨⟨⟨t, n⟩, o⟩, c2⟩, n2⟩, a2⟩ := x
    have hf : FoundSequence db t n o c2 n2 a2 := hL (((((t, n), o), c2), n2), a2) (by simp)
    simp only [legacySequenceRow, legacyRow, Except.ok.injEq] at hx
    subst hx
    have hv := hs.sequence n.nspname t.relname _ _ ((C110_legacy_query _ _ _ _).mpr ⟨rfl, rfl⟩)
    simp only [Catalog.fillSequences, Catalog.fillSequence, string]
    cases hq : c.sequence n.nspname t.relname with
    | error e =>
      rw [hq] at hv
      obtain ⟨k, rfl⟩ := hv
      exact .inl ⟨k, rfl⟩
    | ok v =>
      rw [hq] at hv
      cases v with
      | none => exact hv.elim
      | some v =>
        obtain ⟨n', hn', he, t', ht', h1, h2, h3, s, hs1, hs2, rfl⟩ := hv
        obtain rfl := inj_of_nodup hw.nspname hn' hf.2.1 he
        obtain rfl := inj_of_nodup hw.relname ht' hf.1 (by
          simp [h1, h2, hf.2.2.1])
        rcases ih (fun x hx => hL x (by simp [hx])) with ⟨k, hk⟩ | ⟨xs, hk, hxs⟩
        · exact .inl ⟨k, by simp [queryRow, scan, hk, bind, Except.bind, pure, Except.pure]⟩
        · refine .inr ⟨_, by
            simp only [queryRow, scan, hk, bind, Except.bind, pure, Except.pure]; rfl, .cons ?_ hxs⟩
          exact ⟨sequenceDescribed_of hf hs1 hs2 _, rfl⟩

def legacyList (c : Catalog) : Except Err (List Pg.Sequence) :=
  match listRows c.legacySequences legacySequenceRow with
  | .error e => .error e
  | .ok seqs => c.fillSequences seqs

theorem listSequences_old (db : Db) (hw : db.WF) (c : Catalog) (hs : Serves db c)
    (hu : Unbroken c.legacySequences) :
    (∃ n, legacyList c = .error (.query n)) ∨
    ∃ xs, legacyList c = .ok xs ∧
      Enumerates (Listed db) (fun c x => SequenceDescribed db c x ∧ x.dataType = b!"bigint")
        (ClassOrder db) xs := by
  have hq := gives_rows (listSequencesPre10_solved hw []) (vals := fun x =>
    [.str x.1.1.1.1.2.nspname, .str x.1.1.1.1.1.relname,
      .str (db.getUserbyid x.1.1.1.1.1.relowner),
      ofOption .str (db.comment 1259 x.1.1.1.1.1.oid 0),
      .str x.1.2.nspname, .str x.1.1.2.relname, .str x.2.attname])
    (row := legacyRow db)
    (fun x hx => by items listSequencesPre10)
    (fun x hx => by
      cases h1 : db.comment 1259 x.1.1.1.1.1.oid 0 <;>
        simp [readLegacySequence, Val.asStr, legacyRow, h1]) hs.legacySequences hu
  rcases hq with ⟨n, h⟩ | ⟨L, hL, hmem, ⟨st, hst, hr⟩, hord⟩
  · exact .inl ⟨n, by rw [legacyList, h]; rfl⟩
  · rcases listRows_cases (rowf := legacySequenceRow) hst hr with ⟨m, h1, h2⟩ | ⟨e, -, x, -, h⟩
    · rw [legacyList, h1]
      rcases fill_cases hw hs (fun x hx => (hmem x).1 hx) h2 with h | ⟨xs, h3, h4⟩
      · exact .inl h
      · refine .inr ⟨xs, h3, L.map (fun x => x.1.1.1.1.1), ?_, ?_, ?_, ?_⟩
        · refine hL.map_on ?_
          rintro ⟨⟨⟨⟨⟨c, n⟩, o⟩, c2⟩, n2⟩, a2⟩ hx ⟨⟨⟨⟨⟨c', n'⟩, o'⟩, c2'⟩, n2'⟩, a2'⟩ hy (rfl : c = c')
          have h5 : FoundSequence db c n o c2 n2 a2 := (hmem _).1 hx
          have h6 : FoundSequence db c n' o' c2' n2' a2' := (hmem _).1 hy
          obtain ⟨e1, e2, e3, e4, e5⟩ := h5.unique hw h6
          subst e1 e2 e3 e4 e5
          rfl
        · intro c
          rw [listed_iff hw, List.mem_map]
          constructor
          · rintro ⟨⟨⟨⟨⟨⟨c, n⟩, o⟩, c2⟩, n2⟩, a2⟩, hx, rfl⟩
            exact ⟨n, o, c2, n2, a2, (hmem _).1 hx⟩
          · rintro ⟨n, o, c2, n2, a2, h⟩
            exact ⟨(((((c, n), o), c2), n2), a2), (hmem _).2 h, rfl⟩
        · rw [List.pairwise_map]
          refine (List.Pairwise.and_mem.1 hord).imp ?_
          rintro ⟨⟨⟨⟨⟨c, n⟩, o⟩, c2⟩, n2⟩, a2⟩ ⟨⟨⟨⟨⟨c', n'⟩, o'⟩, c2'⟩, n2'⟩, a2'⟩ ⟨hx, hy, h⟩ u u' hs1 hs2
          have h3 := (hmem _).1 hx
          have h3' := (hmem _).1 hy
          rw [schemaIs_inj hw hs1 ⟨n, h3.2.1, h3.2.2.1, rfl⟩,
            schemaIs_inj hw hs2 ⟨n', h3'.2.1, h3'.2.2.1, rfl⟩]
          order listSequencesPre10 at h
          exact inOrder_of h
        · rw [List.forall₂_map_left_iff]
          exact h4
    · cases h

theorem listSequences_enumerates (db : Db) (hw : db.WF) (c : Catalog) (hs : Serves db c)
    (hu : Unbroken c.sequences) (hu' : Unbroken c.legacySequences) :
    (∃ n, c.listSequences = .error (.query n)) ∨
    ∃ xs, c.listSequences = .ok xs ∧
      Enumerates (Listed db) (fun c x => SequenceDescribed db c x ∧
        (HasPgSequence db → SequenceTypeIs db c x) ∧ (¬ HasPgSequence db → x.dataType = b!"bigint"))
        (ClassOrder db) xs := by
  have hh := hs.hasView
  cases hq : c.hasView with
  | error e =>
    rw [hq] at hh
    obtain ⟨n, rfl⟩ := hh
    exact .inl ⟨n, by simp [Catalog.listSequences, hq, queryRow, bind, Except.bind]⟩
  | ok r =>
    rw [hq] at hh
    simp only at hh
    subst hh
    by_cases hv : HasPgSequence db
    · have hv' := (hasView_iff hw).2 hv
      have : c.listSequences = listRows c.sequences sequenceRow := by
        simp [Catalog.listSequences, hq, hv', queryRow, scan, bind, Except.bind]
      rw [this]
      rcases listSequences_new db hw c hs hv hu with ⟨n, -, h⟩ | ⟨xs, h1, l, h2, h3, h4, h5⟩
      · exact .inl ⟨n, h⟩
      · exact .inr ⟨xs, h1, l, h2, h3, h4, h5.imp fun a x h => ⟨h.1, fun _ => h.2, fun h => absurd hv h⟩⟩
    · have hv' : hasSequencesView.exists_ db [] = false := by
        rw [← Bool.not_eq_true, hasView_iff hw]; exact hv
      have : c.listSequences = legacyList c := by
        simp only [Catalog.listSequences, legacyList, hq, hv', queryRow, scan, bind, Except.bind]; rfl
      rw [this]
      rcases listSequences_old db hw c hs hu' with h | ⟨xs, h1, l, h2, h3, h4, h5⟩
      · exact .inl h
      · exact .inr ⟨xs, h1, l, h2, h3, h4, h5.imp fun a x h => ⟨h.1, fun h => absurd h hv, fun _ => h.2⟩⟩

end Verif.Sql
