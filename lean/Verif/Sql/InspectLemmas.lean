import Verif.Sql.Listings
import Verif.Sql.Server
import Verif.Sql.InspectSpec
import Verif.Pg.InspectProps

/-!
# Lemmas for the inspection of a database
-/

namespace Verif.Sql
open Verif Verif.Pg

theorem serve_steady (db : Db) : Steady (serve db) := by
  constructor
  case schemas => exact (serve_unbroken db).1
  case tables => exact (serve_unbroken db).2.1
  case functions => exact (serve_unbroken db).2.2.1
  case sequences => exact (serve_unbroken db).2.2.2.1
  case legacySequences => exact (serve_unbroken db).2.2.2.2
  case columns => intro s t; dsimp only [serve]; exact query_unbroken _ _ _ _
  case checks => intro s t; dsimp only [serve]; exact query_unbroken _ _ _ _
  case foreignKeys => intro s t; dsimp only [serve]; exact query_unbroken _ _ _ _
  case storage => intro s t st h; dsimp only [serve] at h; cases h; rfl
  case indexes => intro s t; dsimp only [serve]; exact query_unbroken _ _ _ _
  case triggers => intro s t; dsimp only [serve]; exact query_unbroken _ _ _ _

/-! ## Lists -/

theorem forall₂_perm_right {α β : Type} {D : α → β → Prop} {xs ys : List β} (hp : ys.Perm xs) :
    ∀ {l : List α}, List.Forall₂ D l xs → ∃ l', l'.Perm l ∧ List.Forall₂ D l' ys := by
  induction hp with
  | nil => exact fun h => ⟨_, .refl _, h⟩
  | cons x _ ih =>
    intro l h
    cases h with
    | cons h1 h2 =>
      obtain ⟨l', hp, h'⟩ := ih h2
      exact ⟨_ :: l', hp.cons _, .cons h1 h'⟩
  | swap x y _ =>
    intro l h
    cases h with
    | cons h1 h2 =>
      cases h2 with
      | cons h2 h3 => exact ⟨_, .swap _ _ _, .cons h2 (.cons h1 h3)⟩
  | trans _ _ ih1 ih2 =>
    intro l h
    obtain ⟨l', hp, h'⟩ := ih2 h
    obtain ⟨l'', hp', h''⟩ := ih1 h'
    exact ⟨l'', hp'.trans hp, h''⟩

/-- Reordering keeps the objects described. -/
theorem Enumerates.perm {α β : Type} {P : α → Prop} {D : α → β → Prop} {R : α → α → Prop}
    {xs ys : List β} (h : Enumerates P D R xs) (hp : ys.Perm xs) :
    Enumerates P D (fun _ _ => True) ys := by
  obtain ⟨l, h1, h2, -, h4⟩ := h
  obtain ⟨l', hl, h'⟩ := forall₂_perm_right hp h4
  exact ⟨l', (hl.nodup_iff).2 h1, fun a => (hl.mem_iff).trans (h2 a),
    List.pairwise_of_forall (fun _ _ => trivial), h'⟩

/-- An order of the descriptions that only depends on the objects is one of the objects. -/
theorem Enumerates.ordered {α β : Type} {P : α → Prop} {D : α → β → Prop} {R R' : α → α → Prop}
    {S : β → β → Prop} {xs : List β} (h : Enumerates P D R xs) (hS : xs.Pairwise S)
    (hR : ∀ a b x y, D a x → D b y → S x y → R' a b) : Enumerates P D R' xs := by
  obtain ⟨l, h1, h2, -, h4⟩ := h
  refine ⟨l, h1, h2, ?_, h4⟩
  clear h1 h2
  induction h4 with
  | nil => exact .nil
  | @cons a x l xs h1 h2 ih =>
    rw [List.pairwise_cons] at hS ⊢
    refine ⟨fun b hb => ?_, ih hS.2⟩
    obtain ⟨y, hy, hby⟩ := forall₂_mem_right h2.flip hb
    exact hR a b x y h1 hby (hS.1 y hy)

theorem Enumerates.imp {α β : Type} {P P' : α → Prop} {D D' : α → β → Prop} {R : α → α → Prop}
    {xs : List β} (h : Enumerates P D R xs) (hP : ∀ a, P a ↔ P' a)
    (hD : ∀ a x, P a → D a x → D' a x) : Enumerates P' D' R xs := by
  obtain ⟨l, h1, h2, h3, h4⟩ := h
  exact ⟨l, h1, fun a => (h2 a).trans (hP a), h3,
    forall₂_imp_mem h4 fun a ha x => hD a x ((h2 a).1 ha)⟩

/-- The parts of all objects, if no part belongs to two objects. -/
theorem enumerates_flatten {α β γ : Type} {P : α → β → Prop} {D : α → β → γ → Prop}
    {R : α → β → β → Prop} {l : List α} {per : List (List γ)} (hl : l.Nodup)
    (hdis : ∀ a ∈ l, ∀ a' ∈ l, ∀ b, P a b → P a' b → a = a')
    (h : List.Forall₂ (fun a xs => Enumerates (P a) (D a) (R a) xs) l per) :
    Enumerates (fun b => ∃ a ∈ l, P a b) (fun b x => ∃ a ∈ l, P a b ∧ D a b x) (fun _ _ => True)
      per.flatten := by
  induction h with
  | nil => exact ⟨[], by simp, by simp, .nil, .nil⟩
  | @cons a xs l per h1 h2 ih =>
    rw [List.nodup_cons] at hl
    obtain ⟨m, g1, g2, -, g4⟩ := ih hl.2 fun a ha a' ha' => hdis a (by simp [ha]) a' (by simp [ha'])
    obtain ⟨k, k1, k2, -, k4⟩ := h1
    refine ⟨k ++ m, List.nodup_append.2 ⟨k1, g1, ?_⟩, ?_,
      List.pairwise_of_forall (fun _ _ => trivial), ?_⟩
    · rintro b hb b' hb' rfl
      obtain ⟨a', ha', hP⟩ := (g2 b).1 hb'
      have := hdis a (by simp) a' (by simp [ha']) b ((k2 b).1 hb) hP
      exact hl.1 (this ▸ ha')
    · intro b
      simp [k2, g2]
    · rw [List.flatten_cons]
      refine List.rel_append (forall₂_imp_mem k4 fun b hb x hx => ?_)
        (forall₂_imp_mem g4 fun b _ x hx => ?_)
      · exact ⟨a, by simp, (k2 b).1 hb, hx⟩
      · obtain ⟨a', ha', h⟩ := hx
        exact ⟨a', by simp [ha'], h⟩

/-! ## The error of a loop is that of a listing -/

section
variable {F : Type} {parseFloat : Str → F × Option Ddl.NumErr} {sort : Sorter} {c : Catalog}
  {o : InspectOptions}

theorem bind_error' {α β : Type} {m : Except Err α} {f : α → Except Err β} {e : Err} :
    (m >>= f) = .error e ↔ m = .error e ∨ ∃ a, m = .ok a ∧ f a = .error e := by
  cases m <;> simp [bind, Except.bind]

theorem inspectTable_error' {idx : List Ddl.Index} {trg : List Ddl.Trigger} {t : Ddl.Table} {e : Err}
    (h : inspectTable parseFloat sort c o idx trg t = .error e) :
    c.listColumns t.schema t.name = .error e ∨ c.listChecks t.schema t.name = .error e ∨
    c.listForeignKeys t.schema t.name = .error e ∨
    c.listStorage parseFloat t.schema t.name = .error e ∨
    c.listIndexes t.schema t.name = .error e ∨ c.listTriggers t.schema t.name = .error e := by
  simp only [inspectTable, bind_error'] at h
  rcases h with h | ⟨_, _, h | ⟨_, _, h | ⟨_, _, h | ⟨_, _, h | ⟨_, _, h | ⟨_, _, h⟩⟩⟩⟩⟩⟩
  · exact .inl h
  · exact .inr (.inl h)
  · exact .inr (.inr (.inl h))
  · exact .inr (.inr (.inr (.inl h)))
  · exact .inr (.inr (.inr (.inr (.inl h))))
  · exact .inr (.inr (.inr (.inr (.inr h))))
  · cases h

theorem inspectLoop_error' {e : Err} : ∀ {ts : List Ddl.Table} {infos : List (TableInfo F)}
    {idx : List Ddl.Index} {trg : List Ddl.Trigger},
    inspectLoop parseFloat sort c o ts infos idx trg = .error e →
    ∃ t ∈ ts, ∃ idx trg, inspectTable parseFloat sort c o idx trg t = .error e
  | [], _, _, _, h => by cases h
  | t :: ts, infos, idx, trg, h => by
    rw [inspectLoop] at h
    split at h
    · rename_i e' h'
      cases h
      exact ⟨t, by simp, idx, trg, h'⟩
    · obtain ⟨t', ht', h'⟩ := inspectLoop_error' h
      exact ⟨t', by simp [ht'], h'⟩

theorem inspect_error' {e : Err} (h : inspect parseFloat sort c o = .error e) :
    c.listParameters = .error e ∨ c.listSchemas = .error e ∨ c.listFunctions = .error e ∨
    c.listSequences = .error e ∨ c.listTables = .error e ∨
    ∃ ts t, c.listTables = .ok ts ∧ t ∈ ts ∧
      (c.listColumns t.schema t.name = .error e ∨ c.listChecks t.schema t.name = .error e ∨
       c.listForeignKeys t.schema t.name = .error e ∨
       c.listStorage parseFloat t.schema t.name = .error e ∨
       c.listIndexes t.schema t.name = .error e ∨ c.listTriggers t.schema t.name = .error e) := by
  simp only [inspect, bind_error'] at h
  rcases h with h | ⟨_, _, h | ⟨_, _, h | ⟨_, _, h | ⟨_, _, h | ⟨ts, hts, h | ⟨_, _, h⟩⟩⟩⟩⟩⟩
  · exact .inl h
  · exact .inr (.inl h)
  · exact .inr (.inr (.inl h))
  · exact .inr (.inr (.inr (.inl h)))
  · exact .inr (.inr (.inr (.inr (.inl h))))
  · obtain ⟨t, ht, idx, trg, h⟩ := inspectLoop_error' h
    exact .inr (.inr (.inr (.inr (.inr ⟨ts, t, hts, ht, inspectTable_error' h⟩))))
  · cases h

end

/-! ## Parts belong to one table -/

theorem isRel_of {db : Db} {t : Class} {s : Str} (ht : t ∈ db.classes)
    (hs : SchemaIs db t.relnamespace s) : IsRel db s t.relname t := ⟨ht, rfl, hs⟩

theorem isRel_unique {db : Db} (hw : db.WF) {s n : Str} {t t' : Class} (h : IsRel db s n t)
    (h' : IsRel db s n t') : t = t' := by
  obtain ⟨m, hm⟩ := isRel_iff.1 h
  obtain ⟨m', hm'⟩ := isRel_iff.1 h'
  exact (hm.unique hw hm').2

theorem indexOf_iff {db : Db} (hw : db.WF) {t : Class} {s : Str} (ht : Inspects db t)
    (hs : SchemaIs db t.relnamespace s) (i : Index) :
    IndexOf db s t.relname i ↔ i ∈ db.indexes ∧ i.indrelid = t.oid := by
  constructor
  · rintro ⟨h1, r, h2, h3⟩
    obtain rfl := isRel_unique hw h2 (isRel_of ht.1.1 hs)
    exact ⟨h1, h3⟩
  · rintro ⟨h1, h2⟩
    exact ⟨h1, t, isRel_of ht.1.1 hs, h2⟩

theorem triggerOf_iff {db : Db} (hw : db.WF) {t : Class} {s : Str} (ht : Inspects db t)
    (hs : SchemaIs db t.relnamespace s) (g : Trigger) :
    TriggerOf db s t.relname g ↔ g ∈ db.triggers ∧ g.tgrelid = t.oid := by
  constructor
  · rintro ⟨h1, r, h2, h3⟩
    obtain rfl := isRel_unique hw h2 (isRel_of ht.1.1 hs)
    exact ⟨h1, h3⟩
  · rintro ⟨h1, h2⟩
    exact ⟨h1, t, isRel_of ht.1.1 hs, h2⟩

theorem sortedColumns {db : Db} {sort : Sorter} (hsort : SortSlice sort) {o : InspectOptions}
    {P : Attribute → Prop} {cols : List Ddl.Column}
    (h : Enumerates P (ColumnDescribed db) ColumnOrder cols) :
    Enumerates P (ColumnDescribed db) (ColumnsIn o)
      (if o.sortColumns then sort _ columnLess cols else cols) := by
  unfold ColumnsIn
  by_cases ho : o.sortColumns = true
  · simp only [ho, if_true]
    refine (h.perm (hsort.perm _ columnLess cols)).ordered
      (hsort.sorted _ columnLess cols (strLt_strictWeak _)) ?_
    intro a b x y hx hy hxy
    rw [← hx.name, ← hy.name]
    simpa [columnLess, strLt] using hxy
  · simpa [ho] using h

end Verif.Sql
