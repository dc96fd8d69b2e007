import Verif.Sql.SameSpec
import Verif.Sql.InspectProps

/-!
# Two inspections of the same database

Lemmas: which listings are determined by the database.
-/

namespace Verif.Sql
open Verif Verif.Pg

/-! ## Sorted lists -/

/-- Two sortings of a list look the same if neighbours that may change places look the same. -/
theorem map_eq_of_sorted {α β : Type} {R : α → α → Prop} (g : α → β) :
    ∀ {l l' : List α}, l.Perm l' → l.Pairwise R → l'.Pairwise R →
      (∀ a ∈ l, ∀ b ∈ l, R a b → R b a → g a = g b) → l.map g = l'.map g
  | [], l', hp, _, _, _ => by rw [List.nil_perm.mp hp]
  | a :: l, l', hp, h1, h2, hg => by
    obtain ⟨u, v, rfl⟩ := List.append_of_mem (hp.mem_iff.mp (by simp : a ∈ a :: l))
    have hp' : l.Perm (u ++ v) := (hp.trans List.perm_middle).cons_inv
    rw [List.pairwise_cons] at h1
    have hsub : (u ++ v).Sublist (u ++ a :: v) :=
      List.Sublist.append (List.Sublist.refl _) (List.sublist_cons_self _ _)
    have ih := map_eq_of_sorted g hp' h1.2 (h2.sublist hsub)
      (fun x hx y hy => hg x (by simp [hx]) y (by simp [hy]))
    have hu : ∀ x ∈ u, g x = g a := by
      intro x hx
      have hxl : x ∈ l := hp'.mem_iff.mpr (by simp [hx])
      refine hg x (by simp [hxl]) a (by simp) ?_ (h1.1 x hxl)
      exact (List.pairwise_append.mp h2).2.2 x hx a (by simp)
    rw [List.map_cons, ih]
    simp only [List.map_append, List.map_cons]
    clear ih hsub hp' h2 hp
    induction u with
    | nil => rfl
    | cons x u ihu =>
      have hx := hu x (by simp)
      simp only [List.map_cons, List.cons_append, hx]
      rw [ihu (fun y hy => hu y (by simp [hy]))]

theorem mapM_map_some {α β : Type} {f : α → Option β} : ∀ {l : List α} {r : List β},
    l.mapM f = some r → l.map f = r.map some
  | [], r, h => by
    simp only [List.mapM_nil, Option.pure_def, Option.some.injEq] at h
    subst h; rfl
  | a :: l, r, h => by
    rw [List.mapM_cons] at h
    cases ha : f a with
    | none => rw [ha] at h; cases h
    | some b =>
      cases hl : l.mapM f with
      | none => rw [ha, hl] at h; cases h
      | some r' =>
        rw [ha, hl] at h
        cases h
        simp [ha, mapM_map_some hl]

theorem forall₂_map_ok {ρ α : Type} {f : ρ → Except Err α} {rows : List ρ} {xs : List α}
    (h : List.Forall₂ (fun r y => f r = .ok y) rows xs) : rows.map f = xs.map .ok := by
  induction h with
  | nil => rfl
  | cons h _ ih => simp [h, ih]

/-- What a row of the answer becomes. -/
def Select.shown {ρ α : Type} (s : Select) (db : Db) (ps : List Str) (read : List Val → Option ρ)
    (rowf : ρ → Except Err α) (env : Env) : Option (Except Err α) :=
  ((s.items.mapM (Item.eval db ps env)).bind read).map rowf

theorem listed_shown {ρ α : Type} {s : Select} {db : Db} {ps : List Str} {read : List Val → Option ρ}
    {rowf : ρ → Except Err α} {q : Query ρ} (hg : Gives db s ps read q) (hu : Unbroken q) {xs : List α}
    (h : listRows q rowf = .ok xs) :
    ∃ envs : List Env, envs.Perm (s.solutions db ps) ∧
      envs.Pairwise (fun e e' => before s.items db ps s.order e e' = true) ∧
      envs.map (s.shown db ps read rowf) = xs.map (fun x => some (.ok x)) := by
  cases q with
  | error e => cases h
  | ok st =>
    obtain ⟨res, rows, ⟨envs, h1, h2, h3⟩, h4, h5⟩ := hg
    refine ⟨envs, h1, h2, ?_⟩
    simp only [listRows, h5.2 (hu st rfl)] at h
    obtain ⟨ys, rfl, h6⟩ := (scanLoop_ok _ _ _ _).1 h
    have h7 := forall₂_map_ok h6
    have h8 := mapM_map_some h3
    have h9 := mapM_map_some h4
    have e1 : envs.map (s.shown db ps read rowf) =
        (envs.map (fun env => s.items.mapM (Item.eval db ps env))).map
          (fun o => (o.bind read).map rowf) := by
      rw [List.map_map]; rfl
    rw [e1, h8, List.map_map]
    have e2 : res.map ((fun o : Option (List Val) => (o.bind read).map rowf) ∘ some) =
        (res.map read).map (·.map rowf) := by
      rw [List.map_map]; rfl
    rw [e2, h9, List.map_map]
    have e3 : rows.map ((fun o : Option ρ => o.map rowf) ∘ some) = (rows.map rowf).map some := by
      rw [List.map_map]; rfl
    rw [e3, h7, List.map_map]
    rfl

/-- Two listings are the same if rows that may change places become the same. -/
theorem listing_same {X ρ α : Type} {s : Select} {db : Db} {ps : List Str} {f : X → Env} {Q : X → Prop}
    (hsol : Solved (s.solutions db ps) f Q) {read : List Val → Option ρ} {rowf : ρ → Except Err α}
    {q q' : Query ρ} (hg : Gives db s ps read q) (hu : Unbroken q) (hg' : Gives db s ps read q')
    (hu' : Unbroken q') {xs xs' : List α} (h : listRows q rowf = .ok xs)
    (h' : listRows q' rowf = .ok xs')
    (tie : ∀ x y, Q x → Q y → before s.items db ps s.order (f x) (f y) = true →
      before s.items db ps s.order (f y) (f x) = true →
      s.shown db ps read rowf (f x) = s.shown db ps read rowf (f y)) : xs = xs' := by
  obtain ⟨envs, h1, h2, h3⟩ := listed_shown hg hu h
  obtain ⟨envs', h1', h2', h3'⟩ := listed_shown hg' hu' h'
  obtain ⟨L, hL, hmem, he⟩ := hsol
  have key := map_eq_of_sorted (s.shown db ps read rowf) (h1.trans h1'.symm) h2 h2' (by
    intro a ha b hb hab hba
    have ha' := h1.mem_iff.mp ha
    have hb' := h1.mem_iff.mp hb
    rw [he] at ha' hb'
    obtain ⟨x, hx, rfl⟩ := List.mem_map.1 ha'
    obtain ⟨y, hy, rfl⟩ := List.mem_map.1 hb'
    exact tie x y ((hmem x).1 hx) ((hmem y).1 hy) hab hba)
  rw [h3, h3'] at key
  exact List.map_injective_iff.mpr (fun a b e => by cases e; rfl) key

/-- …in particular if no rows may change places. -/
theorem listing_same' {X ρ α : Type} {s : Select} {db : Db} {ps : List Str} {f : X → Env} {Q : X → Prop}
    (hsol : Solved (s.solutions db ps) f Q) {read : List Val → Option ρ} {rowf : ρ → Except Err α}
    {q q' : Query ρ} (hg : Gives db s ps read q) (hu : Unbroken q) (hg' : Gives db s ps read q')
    (hu' : Unbroken q') {xs xs' : List α} (h : listRows q rowf = .ok xs)
    (h' : listRows q' rowf = .ok xs')
    (anti : ∀ x y, Q x → Q y → before s.items db ps s.order (f x) (f y) = true →
      before s.items db ps s.order (f y) (f x) = true → x = y) : xs = xs' :=
  listing_same hsol hg hu hg' hu' h h' fun x y hx hy h1 h2 => by rw [anti x y hx hy h1 h2]

theorem order_antisymm {a b a' b' : Str}
    (h : if a = a' then b = b' ∨ Str.le b b' = true else Str.le a a' = true)
    (h' : if a' = a then b' = b ∨ Str.le b' b = true else Str.le a' a = true) : a = a' ∧ b = b' := by
  have h1 := inOrder_of h
  have h2 := inOrder_of h'
  have e := Str.le_antisymm h1.1 h2.1
  exact ⟨e, Str.le_antisymm (h1.2 e) (h2.2 e.symm)⟩

theorem eq_or_le_antisymm {a b : Str} (h : a = b ∨ Str.le a b = true) (h' : b = a ∨ Str.le b a = true) :
    a = b := by
  rcases h with h | h
  · exact h
  · rcases h' with h' | h'
    · exact h'.symm
    · exact Str.le_antisymm h h'

theorem intsLe_antisymm : ∀ {a b : List Int}, intsLe a b = true → intsLe b a = true → a = b
  | [], [], _, _ => rfl
  | [], _ :: _, _, h => by cases h
  | _ :: _, [], h, _ => by cases h
  | x :: s, y :: t, h, h' => by
    simp only [intsLe] at h h'
    by_cases e : x = y
    · subst e
      simp only [if_true] at h h'
      rw [intsLe_antisymm h h']
    · rw [if_neg e] at h
      rw [if_neg (Ne.symm e)] at h'
      simp only [decide_eq_true_eq] at h h'
      omega

/-- Storage parameters are determined by their values. -/
theorem params_ext {F : Type} {p p' : Ddl.Params F}
    (h : ∀ k kind, (k, kind) ∈ Ddl.knownParams → p.get k = p'.get k) : p = p' := by
  have hi : Function.Injective (Ddl.Val.int : Int → Ddl.Val F) := fun _ _ e => by cases e; rfl
  have hb : Function.Injective (Ddl.Val.bool : Bool → Ddl.Val F) := fun _ _ e => by cases e; rfl
  have hf : Function.Injective (Ddl.Val.float : F → Ddl.Val F) := fun _ _ e => by cases e; rfl
  obtain ⟨a1, a2, a3, a4, a5, a6, a7, a8, a9, a10, a11, a12, a13, a14, a15, a16⟩ := p
  obtain ⟨b1, b2, b3, b4, b5, b6, b7, b8, b9, b10, b11, b12, b13, b14, b15, b16⟩ := p'
  obtain rfl : a1 = b1 := Option.map_injective hi (h b!"fillfactor" .int (by decide))
  obtain rfl : a2 = b2 := Option.map_injective hi (h b!"parallel_workers" .int (by decide))
  obtain rfl : a3 = b3 := Option.map_injective hb (h b!"autovacuum_enabled" .bool (by decide))
  obtain rfl : a4 = b4 := Option.map_injective hi (h b!"autovacuum_vacuum_threshold" .int (by decide))
  obtain rfl : a5 = b5 := Option.map_injective hf (h b!"autovacuum_vacuum_scale_factor" .float (by decide))
  obtain rfl : a6 = b6 := Option.map_injective hi (h b!"autovacuum_analyze_threshold" .int (by decide))
  obtain rfl : a7 = b7 := Option.map_injective hf (h b!"autovacuum_analyze_scale_factor" .float (by decide))
  obtain rfl : a8 = b8 := Option.map_injective hi (h b!"autovacuum_vacuum_cost_limit" .int (by decide))
  obtain rfl : a9 = b9 := Option.map_injective hi (h b!"autovacuum_freeze_min_age" .int (by decide))
  obtain rfl : a10 = b10 := Option.map_injective hi (h b!"autovacuum_freeze_max_age" .int (by decide))
  obtain rfl : a11 = b11 := Option.map_injective hi (h b!"autovacuum_freeze_table_age" .int (by decide))
  obtain rfl : a12 = b12 := Option.map_injective hi (h b!"autovacuum_multixact_freeze_min_age" .int (by decide))
  obtain rfl : a13 = b13 := Option.map_injective hi (h b!"autovacuum_multixact_freeze_max_age" .int (by decide))
  obtain rfl : a14 = b14 := Option.map_injective hi (h b!"autovacuum_multixact_freeze_table_age" .int (by decide))
  obtain rfl : a15 = b15 := Option.map_injective hi (h b!"log_autovacuum_min_duration" .int (by decide))
  obtain rfl : a16 = b16 := Option.map_injective hb (h b!"user_catalog_table" .bool (by decide))
  rfl

section
variable {db : Db} {c c' : Catalog}

theorem schemas_same (hw : db.WF) (hs : Serves db c) (hu : Unbroken c.schemas) (hs' : Serves db c')
    (hu' : Unbroken c'.schemas) {xs xs' : List Schema} (h : c.listSchemas = .ok xs)
    (h' : c'.listSchemas = .ok xs') : xs = xs' := by
  refine listing_same' (listSchemas_solved hw []) hs.schemas hu hs'.schemas hu' h h' ?_
  intro x y hx hy h1 h2
  order listSchemas at h1
  order listSchemas at h2
  exact inj_of_nodup hw.nspname hx.1 hy.1 (eq_or_le_antisymm h1 h2)

theorem tables_same (hw : db.WF) (hs : Serves db c) (hu : Unbroken c.tables) (hs' : Serves db c')
    (hu' : Unbroken c'.tables) {xs xs' : List Ddl.Table} (h : c.listTables = .ok xs)
    (h' : c'.listTables = .ok xs') : xs = xs' := by
  refine listing_same' (listTables_solved hw []) hs.tables hu hs'.tables hu' h h' ?_
  rintro ⟨t, o⟩ ⟨t', o'⟩ ⟨n, hn, rfl, he, ht, -⟩ ⟨n', hn', rfl, he', ht', -⟩ h1 h2
  order listTables at h1
  order listTables at h2
  obtain ⟨e1, e2⟩ := order_antisymm h1 h2
  obtain rfl := inj_of_nodup hw.nspname hn hn' e1
  obtain rfl := inj_of_nodup hw.relname ht ht' (by simp only at he he'; simp [e2, ← he, he'])
  rfl

theorem columns_same (hw : db.WF) (hs : Serves db c) (hs' : Serves db c') (schema table : Str)
    (hu : Unbroken (c.columns schema table)) (hu' : Unbroken (c'.columns schema table))
    {xs xs' : List Ddl.Column} (h : c.listColumns schema table = .ok xs)
    (h' : c'.listColumns schema table = .ok xs') : xs = xs' := by
  refine listing_same' (listColumns_solved hw schema table) (hs.columns _ _) hu (hs'.columns _ _) hu'
    h h' ?_
  rintro ⟨⟨n, t⟩, a⟩ ⟨⟨n', t'⟩, a'⟩ ⟨h3, h4, h5, -⟩ ⟨h3', h4', h5', -⟩ h1 h2
  obtain ⟨rfl, rfl⟩ := h3.unique hw h3'
  order listColumns at h1
  order listColumns at h2
  obtain rfl := inj_of_nodup hw.attributes h4 h4' (by
    simp only at h5 h5'
    simp only [h5, h5', Prod.mk.injEq, true_and]; omega)
  rfl

theorem checks_same (hw : db.WF) (he : Enforced db) (hs : Serves db c) (hs' : Serves db c')
    (schema table : Str)
    (hu : Unbroken (c.checks schema table)) (hu' : Unbroken (c'.checks schema table))
    {xs xs' : List Ddl.Check} (h : c.listChecks schema table = .ok xs)
    (h' : c'.listChecks schema table = .ok xs') : xs = xs' := by
  refine listing_same' (listChecks_solved hw schema table) (hs.checks _ _) hu (hs'.checks _ _) hu'
    h h' ?_
  rintro ⟨⟨n, t⟩, a⟩ ⟨⟨n', t'⟩, a'⟩ ⟨h3, h4, h5, -⟩ ⟨h3', h4', h5', -⟩ h1 h2
  obtain ⟨rfl, rfl⟩ := h3.unique hw h3'
  order listChecks at h1
  order listChecks at h2
  obtain rfl := he.conname a h4 a' h4' (h5.trans h5'.symm) (eq_or_le_antisymm h1 h2)
    (by rw [h5]; exact he.oids _ h3.2.1)
  rfl

theorem triggers_same (hw : db.WF) (hs : Serves db c) (hs' : Serves db c')
    (schema table : Str)
    (hu : Unbroken (c.triggers schema table)) (hu' : Unbroken (c'.triggers schema table))
    {xs xs' : List Ddl.Trigger} (h : c.listTriggers schema table = .ok xs)
    (h' : c'.listTriggers schema table = .ok xs') : xs = xs' := by
  refine listing_same' (listTriggers_solved hw schema table) (hs.triggers _ _) hu (hs'.triggers _ _) hu'
    h h' ?_
  rintro ⟨⟨n, t⟩, a⟩ ⟨⟨n', t'⟩, a'⟩ ⟨h3, h4, h5, -⟩ ⟨h3', h4', h5', -⟩ h1 h2
  obtain ⟨rfl, rfl⟩ := h3.unique hw h3'
  order listTriggers at h1
  order listTriggers at h2
  obtain rfl := inj_of_nodup hw.tgname h4 h4' (by
    simp only at h5 h5'
    simp [h5, h5', eq_or_le_antisymm h1 h2])
  rfl

theorem foreignKeys_same (hw : db.WF) (ha : ForeignKeysApart db) (hs : Serves db c) (hs' : Serves db c')
    (schema table : Str) {r : Class} (hr : Inspects db r) (hn : IsRel db schema table r)
    (hu : Unbroken (c.foreignKeys schema table)) (hu' : Unbroken (c'.foreignKeys schema table))
    {xs xs' : List Ddl.ForeignKey} (h : c.listForeignKeys schema table = .ok xs)
    (h' : c'.listForeignKeys schema table = .ok xs') : xs = xs' := by
  refine listing_same' (listForeignKeys_solved hw schema table) (hs.foreignKeys _ _) hu
    (hs'.foreignKeys _ _) hu' h h' ?_
  rintro ⟨⟨⟨n, t⟩, a⟩, t2⟩ ⟨⟨⟨n', t'⟩, a'⟩, t2'⟩ ⟨h3, h4, h5, h6, h7, h8⟩ ⟨h3', h4', h5', h6', h7', h8'⟩ h1 h2
  obtain ⟨rfl, rfl⟩ := h3.unique hw h3'
  order listForeignKeys at h1
  order listForeignKeys at h2
  have e : t2.relname = t2'.relname := by
    by_cases e : t2.relname = t2'.relname
    · exact e
    · rw [if_neg e] at h1
      rw [if_neg (Ne.symm e)] at h2
      exact Str.le_antisymm h1 h2
  simp only [e, if_true] at h1 h2
  have e' : a.conkey = a'.conkey := by
    cases hk : a.conkey with
    | none =>
      cases hk' : a'.conkey with
      | none => rfl
      | some l' => simp [hk, hk', ofOption, Val.le] at h1
    | some l =>
      cases hk' : a'.conkey with
      | none => simp [hk, hk', ofOption, Val.le] at h2
      | some l' =>
        simp [hk, hk', ofOption, Val.le] at h1 h2
        rcases h1 with h1 | h1
        · rw [h1]
        · rcases h2 with h2 | h2
          · rw [h2]
          · rw [intsLe_antisymm h1 h2]
  obtain rfl := isRel_unique hw hn (isRel_iff.2 ⟨_, h3⟩)
  obtain rfl := ha r hr a h4 a' h4' h6 h6' h5 h5' e' t2 h7 t2' h7' h8 h8' e
  obtain rfl := inj_of_nodup hw.classes h7 h7' (h8.trans h8'.symm)
  rfl

theorem indexes_same (hw : db.WF) (he : Enforced db) (hs : Serves db c) (hs' : Serves db c')
    (schema table : Str)
    (hu : Unbroken (c.indexes schema table)) (hu' : Unbroken (c'.indexes schema table))
    {xs xs' : List Ddl.Index} (h : c.listIndexes schema table = .ok xs)
    (h' : c'.listIndexes schema table = .ok xs') : xs = xs' := by
  refine listing_same' (listIndexes_solved hw schema table) (hs.indexes _ _) hu
    (hs'.indexes _ _) hu' h h' ?_
  rintro ⟨⟨⟨n, t⟩, a⟩, t2⟩ ⟨⟨⟨n', t'⟩, a'⟩, t2'⟩ ⟨h3, h4, h5, h6, h7⟩ ⟨h3', h4', h5', h6', h7'⟩ h1 h2
  obtain ⟨rfl, rfl⟩ := h3.unique hw h3'
  order listIndexes at h1
  order listIndexes at h2
  have e : t2.relname = t2'.relname := by
    revert h1 h2
    cases a.indisprimary <;> cases a'.indisprimary <;> cases a.indisunique <;> cases a'.indisunique <;>
      simp <;> exact fun h1 h2 => eq_or_le_antisymm h1 h2
  have e2 := he.indexSchema a h4 t2 h6 t h3.2.1 h7 h5.symm
  have e3 := he.indexSchema a' h4' t2' h6' t h3.2.1 h7' h5'.symm
  obtain rfl := inj_of_nodup hw.relname h6 h6' (by simp [e, e2, e3])
  obtain rfl := inj_of_nodup hw.indexes h4 h4' (h7.symm.trans h7')
  rfl

theorem functions_shown (p : Proc) (n : Namespace) (l : Language) :
    listFunctions.shown db [] readFunction functionRow (((Env.empty.set .p (Proc.row p)).set .n
      (optRow Namespace.row (some n))).set .l (optRow Language.row (some l))) =
    some (functionRow (procRow db ((p, some n), some l))) := by
  have hv : listFunctions.items.mapM (Item.eval db [] (((Env.empty.set .p (Proc.row p)).set .n
      (optRow Namespace.row (some n))).set .l (optRow Language.row (some l)))) =
      some [.str n.nspname, .str p.proname, .str (db.getUserbyid p.proowner),
        ofOption .str (db.comment 1255 p.oid 0), ofOption .str (db.getFunctionResult p.oid),
        .str l.lanname, .str p.prosrc] := by
    items listFunctions
  rw [Select.shown, hv]
  cases h1 : db.comment 1255 p.oid 0 <;> cases h2 : db.getFunctionResult p.oid <;>
    simp [readFunction, Val.asStr, procRow, h1, h2, ofOption]

theorem functions_same (hw : db.WF) (ha : FunctionsAlike db) (hs : Serves db c) (hs' : Serves db c')
    (hu : Unbroken c.functions) (hu' : Unbroken c'.functions)
    {xs xs' : List Ddl.Function} (h : c.listFunctions = .ok xs)
    (h' : c'.listFunctions = .ok xs') : xs = xs' := by
  refine listing_same (listFunctions_solved hw []) hs.functions hu hs'.functions hu' h h' ?_
  rintro ⟨⟨p, o⟩, o'⟩ ⟨⟨p', q⟩, q'⟩ ⟨n, hn, l, hl, rfl, rfl, hp, h2, hl', h3, h4, h5⟩
    ⟨n', hn', l', hl'', rfl, rfl, hp', h2', hl''', h3', h4', h5'⟩ h6 h7
  simp only at hp h2 hl' hp' h2' hl''' h5 h5' ⊢
  order listFunctions at h6
  order listFunctions at h7
  obtain ⟨e1, e2⟩ := order_antisymm h6 h7
  obtain rfl := inj_of_nodup hw.nspname hn hn' e1
  rw [functions_shown, functions_shown]
  congr 1
  have hd := ha p p' ⟨hp, n.nspname, ⟨n, hn, h2, rfl⟩, h3, h4⟩ h5
    ⟨hp', n.nspname, ⟨n, hn, h2', rfl⟩, h3', h4'⟩ h5' e2 (h2.symm.trans h2')
  exact ((functionRow_described hw hn hl'' h2' hl''' _).2 ((hd _).1
    ((functionRow_described hw hn hl h2 hl' _).1 rfl))).symm

theorem foundSequence_inj (hw : db.WF) {c c' : Class} {n n' : Namespace} {d d' : Option Depend}
    {c2 c2' : Class} {n2 n2' : Namespace} {a2 a2' : Attribute} (h : FoundSequence db c n d c2 n2 a2)
    (h' : FoundSequence db c' n' d' c2' n2' a2') (e1 : n.nspname = n'.nspname)
    (e2 : c.relname = c'.relname) :
    c = c' ∧ n = n' ∧ d = d' ∧ c2 = c2' ∧ n2 = n2' ∧ a2 = a2' := by
  have hn : n = n' := inj_of_nodup hw.nspname h.2.1 h'.2.1 e1
  subst hn
  have hc : c = c' := inj_of_nodup hw.relname h.1 h'.1 (by simp [e2, ← h.2.2.1, ← h'.2.2.1])
  subst hc
  obtain ⟨-, e3, e4, e5, e6⟩ := h.unique hw h'
  exact ⟨rfl, rfl, e3, e4, e5, e6⟩

theorem sequence_same (hw : db.WF) (hs : Serves db c) (hs' : Serves db c') {x y y' : Pg.Sequence}
    (h : c.fillSequence x = .ok y) (h' : c'.fillSequence x = .ok y') : y = y' := by
  have hq : ∀ {c : Catalog} {y}, Serves db c → c.fillSequence x = .ok y →
      ∃ v, SequenceIs db x.schema x.name v ∧ c.sequence x.schema x.name = .ok (some v) := by
    intro c y hs h
    have hv := hs.sequence x.schema x.name _ _ ((C110_legacy_query _ _ _ _).mpr ⟨rfl, rfl⟩)
    unfold Catalog.fillSequence at h
    cases hq : c.sequence x.schema x.name with
    | error e => rw [hq] at h; cases h
    | ok v =>
      rw [hq] at hv
      cases v with
      | none => exact hv.elim
      | some v => exact ⟨v, hv, rfl⟩
  obtain ⟨v, hv, hc⟩ := hq hs h
  obtain ⟨v', hv', hc'⟩ := hq hs' h'
  have e : v = v' := by
    obtain ⟨n, hn, e1, t, ht, e2, e3, e4, s, hs1, hs2, rfl⟩ := hv
    obtain ⟨n', hn', e1', t', ht', e2', e3', e4', s', hs1', hs2', rfl⟩ := hv'
    obtain rfl := inj_of_nodup hw.nspname hn hn' (e1.trans e1'.symm)
    obtain rfl := inj_of_nodup hw.relname ht ht' (by simp [e2, e2', e3, e3'])
    obtain rfl := inj_of_nodup hw.sequences hs1 hs1' (hs2.trans hs2'.symm)
    rfl
  unfold Catalog.fillSequence at h h'
  rw [hc] at h
  rw [hc', ← e] at h'
  rw [h] at h'
  cases h'
  rfl

theorem fill_same (hw : db.WF) (hs : Serves db c) (hs' : Serves db c') :
    ∀ {xs ys ys' : List Pg.Sequence}, c.fillSequences xs = .ok ys → c'.fillSequences xs = .ok ys' →
      ys = ys'
  | [], ys, ys', h, h' => by cases h; cases h'; rfl
  | x :: xs, ys, ys', h, h' => by
    simp only [Catalog.fillSequences] at h h'
    split at h
    · cases h
    · rename_i y hy
      split at h
      · cases h
      · rename_i zs hzs
        split at h'
        · cases h'
        · rename_i y' hy'
          split at h'
          · cases h'
          · rename_i zs' hzs'
            cases h; cases h'
            rw [sequence_same hw hs hs' hy hy', fill_same hw hs hs' hzs hzs']

theorem sequences_same (hw : db.WF) (hs : Serves db c) (hs' : Serves db c') (hu : Steady c)
    (hu' : Steady c') {xs xs' : List Pg.Sequence} (h : c.listSequences = .ok xs)
    (h' : c'.listSequences = .ok xs') : xs = xs' := by
  have hv : ∀ {c : Catalog} {xs}, Serves db c → c.listSequences = .ok xs →
      c.hasView = .ok (some (some (hasSequencesView.exists_ db []))) := by
    intro c xs hs h
    have hh := hs.hasView
    cases hq : c.hasView with
    | error e => simp [Catalog.listSequences, hq, queryRow, bind, Except.bind] at h
    | ok r => rw [hq] at hh; rw [hh]
  simp only [Catalog.listSequences, hv hs h, queryRow, scan, bind, Except.bind] at h
  simp only [Catalog.listSequences, hv hs' h', queryRow, scan, bind, Except.bind] at h'
  cases he : hasSequencesView.exists_ db [] with
  | true =>
    rw [he] at h h'
    refine listing_same' (listSequences_solved hw []) (hs.sequences he) hu.sequences
      (hs'.sequences he) hu'.sequences h h' ?_
    rintro ⟨⟨⟨⟨⟨⟨c, n⟩, s⟩, o⟩, c2⟩, n2⟩, a2⟩ ⟨⟨⟨⟨⟨⟨c', n'⟩, s'⟩, o'⟩, c2'⟩, n2'⟩, a2'⟩ ⟨⟨h1, h2⟩, h3⟩
      ⟨⟨h1', h2'⟩, h3'⟩ h4 h5
    order listSequences at h4
    order listSequences at h5
    obtain ⟨e1, e2⟩ := order_antisymm h4 h5
    simp only at h1 h2 h3 h1' h2' h3'
    obtain ⟨rfl, rfl, rfl, rfl, rfl, rfl⟩ := foundSequence_inj hw h3 h3' e1 e2
    obtain rfl := inj_of_nodup hw.sequences h1 h1' (h2.trans h2'.symm)
    rfl
  | false =>
    rw [he] at h h'
    simp only at h h'
    split at h
    · cases h
    · rename_i ys hys
      split at h'
      · cases h'
      · rename_i ys' hys'
        have : ys = ys' := by
          refine listing_same' (listSequencesPre10_solved hw []) hs.legacySequences hu.legacySequences
            hs'.legacySequences hu'.legacySequences hys hys' ?_
          rintro ⟨⟨⟨⟨⟨c, n⟩, o⟩, c2⟩, n2⟩, a2⟩ ⟨⟨⟨⟨⟨c', n'⟩, o'⟩, c2'⟩, n2'⟩, a2'⟩ h3 h3' h4 h5
          order listSequencesPre10 at h4
          order listSequencesPre10 at h5
          obtain ⟨e1, e2⟩ := order_antisymm h4 h5
          simp only at h3 h3'
          obtain ⟨rfl, rfl, rfl, rfl, rfl, rfl⟩ := foundSequence_inj hw h3 h3' e1 e2
          rfl
        subst this
        exact fill_same hw hs hs' h h'

theorem storage_same {F : Type} {parseFloat : Str → F × Option Ddl.NumErr} (hw : db.WF)
    (hs : Serves db c) (hs' : Serves db c') (schema table : Str)
    (hu : Unbroken (c.storage schema table)) (hu' : Unbroken (c'.storage schema table))
    {p p' : Ddl.Params F} (h : c.listStorage parseFloat schema table = .ok p)
    (h' : c'.listStorage parseFloat schema table = .ok p') : p = p' := by
  rcases listStorage_cases parseFloat db hw c hs schema table hu with
    ⟨n, -, g⟩ | ⟨n, g, -⟩ | ⟨q, g, g1, g2⟩ <;> rw [h] at g <;> cases g
  rcases listStorage_cases parseFloat db hw c' hs' schema table hu' with
    ⟨n, -, g⟩ | ⟨n, g, -⟩ | ⟨q, g, g1', g2'⟩ <;> rw [h'] at g <;> cases g
  have key : ∀ k kind, (k, kind) ∈ Ddl.knownParams → p.get k = p'.get k := by
    intro k kind hk
    by_cases ho : ∃ value, OptionSet db schema table k value
    · obtain ⟨value, ho⟩ := ho
      obtain ⟨v, hv, e⟩ := g1 k kind value hk ho
      obtain ⟨v', hv', e'⟩ := g1' k kind value hk ho
      rw [e, e', hv.unique hv']
    · rw [g2 k ho, g2' k ho]
  exact params_ext key

end

end Verif.Sql
