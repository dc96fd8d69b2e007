import Verif.Ddl.SqlProps
import Verif.Ddl.CreateSpec

/-!
# C111: the SQL of a description creates what it describes
-/

namespace Verif.Ddl
open Verif Sql Create

/-! ## Lists of elements -/

theorem not_opens_closes (t : Tok) (h : opens t = true) : closes t = false := by
  cases t <;> simp_all [opens, closes]
  rcases h with rfl | rfl <;> decide

theorem items_lev {stop : Tok → Bool} (k : Nat) (hk : k = 0 → stop (.sym 44) = true) (ts rest : List Tok)
    {d d' : Nat} (cur : List Tok) (h : lev stop d ts = some d') :
    items (k + d) cur (ts ++ rest) = items (k + d') (cur ++ ts) rest := by
  induction ts generalizing d cur with
  | nil => simp only [lev, Option.some.injEq] at h; subst h; simp
  | cons t ts ih =>
    rw [lev] at h
    split at h
    · cases h
    rename_i hn
    rw [List.cons_append, items, if_neg, if_neg]
    · have : next (k + d) t = k + next d t := by
        unfold next
        split
        · omega
        · split
          · rename_i hc
            have : d ≠ 0 := fun hd => hn ⟨hd, .inr hc⟩
            omega
          · rfl
      rw [this, ih _ h]
      simp
    · rintro ⟨h1, h2⟩
      exact hn ⟨by omega, .inr h2⟩
    · rintro ⟨h1, h2⟩
      subst h2
      exact hn ⟨by omega, .inl (hk (by omega))⟩

theorem items_join (ts : List Tok) (cur : List Tok) (ls : List (List Tok)) (r : List Tok)
    (h : lev (fun t => t == .sym 44) 0 ts = some 0)
    (hl : ∀ l ∈ ls, lev (fun t => t == .sym 44) 0 l = some 0) :
    items 0 cur (ts ++ (ls.flatMap (fun l => .sym 44 :: l) ++ .sym 41 :: r)) =
      some ((cur ++ ts) :: ls, r) := by
  induction ls generalizing ts cur with
  | nil =>
    have := items_lev 0 (by simp) ts (.sym 41 :: r) cur h
    simp only [Nat.zero_add] at this
    simp only [List.flatMap_nil, List.nil_append]
    rw [this]
    simp [items, closes]
  | cons l ls ih =>
    have := items_lev 0 (by simp) ts ((l :: ls).flatMap (fun l => .sym 44 :: l) ++ .sym 41 :: r) cur h
    simp only [Nat.zero_add] at this
    rw [this]
    simp only [List.flatMap_cons, List.cons_append, List.append_assoc, items, and_self, if_true]
    rw [ih l [] (hl l (by simp)) (fun l' h' => hl l' (by simp [h']))]
    simp

theorem lev_mono {stop stop' : Tok → Bool} (hs : ∀ t, stop' t = true → stop t = true) (ts : List Tok)
    {d d' : Nat} (h : lev stop d ts = some d') : lev stop' d ts = some d' := by
  induction ts generalizing d with
  | nil => exact h
  | cons t ts ih =>
    rw [lev] at h ⊢
    split at h
    · cases h
    rename_i hn
    rw [if_neg]
    · exact ih h
    · rintro ⟨h1, h2 | h2⟩
      · exact hn ⟨h1, .inl (hs _ h2)⟩
      · exact hn ⟨h1, .inr h2⟩

theorem lev_append {stop : Tok → Bool} (ts us : List Tok) {d d' : Nat} (h : lev stop d ts = some d') :
    lev stop d (ts ++ us) = lev stop d' us := by
  induction ts generalizing d with
  | nil => simp only [lev, Option.some.injEq] at h; subst h; rfl
  | cons t ts ih =>
    rw [lev] at h
    rw [List.cons_append, lev]
    split at h
    · cases h
    rename_i hn
    rw [if_neg hn, ih h]

theorem lev_shift (stop : Tok → Bool) (ts : List Tok) {d d' : Nat}
    (h : lev (fun _ => false) d ts = some d') : lev stop (d + 1) ts = some (d' + 1) := by
  induction ts generalizing d with
  | nil => simp only [lev, Option.some.injEq] at h; subst h; rfl
  | cons t ts ih =>
    rw [lev] at h ⊢
    split at h
    · cases h
    rename_i hn
    rw [if_neg (by simp)]
    have : next (d + 1) t = next d t + 1 := by
      unfold next
      split
      · rfl
      · split
        · rename_i hc
          have : d ≠ 0 := fun hd => hn ⟨hd, .inr hc⟩
          omega
        · rfl
    rw [this, ih h]

theorem items_close (ts rest r : List Tok) {d d' : Nat} (h : lev (fun _ => false) d ts = some d')
    (hr : ∀ cur, ∃ l, items d' cur rest = some (l, r)) (cur : List Tok) :
    ∃ l, items d cur (ts ++ rest) = some (l, r) := by
  induction ts generalizing d cur with
  | nil => simp only [lev, Option.some.injEq] at h; subst h; exact hr cur
  | cons t ts ih =>
    rw [lev] at h
    split at h
    · cases h
    rename_i hn
    rw [List.cons_append, items]
    split
    · rename_i h1
      obtain ⟨rfl, rfl⟩ := h1
      obtain ⟨l, hl⟩ := ih h []
      have : next 0 (.sym 44) = 0 := rfl
      rw [this] at hl
      exact ⟨cur :: l, by rw [hl]; rfl⟩
    · rw [if_neg]
      · exact ih h _
      · rintro ⟨h1, h2⟩
        exact hn ⟨h1, .inr h2⟩

theorem untilClause_lev {stop : Tok → Bool} (hs : ∀ t, isClause t = true → stop t = true)
    (ts rest : List Tok) {d d' : Nat} (h : lev stop d ts = some d') :
    untilClause d (ts ++ rest) = (ts ++ (untilClause d' rest).1, (untilClause d' rest).2) := by
  induction ts generalizing d with
  | nil => simp only [lev, Option.some.injEq] at h; subst h; rfl
  | cons t ts ih =>
    rw [lev] at h
    split at h
    · cases h
    rename_i hn
    rw [List.cons_append, untilClause, if_neg, ih h]
    · rfl
    · rintro ⟨h1, h2⟩
      exact hn ⟨h1, .inl (hs _ h2)⟩

/-! ## Columns and checks -/

theorem lev_column (col : Column) (type default_ : List Tok) (h1 : Part type)
    (h2 : col.default_ ≠ [] → Part default_) :
    lev (fun t => t == .sym 44) 0 (columnToks col type default_) = some 0 := by
  have hm : ∀ {ts}, Part ts → lev (fun t => t == .sym 44) 0 ts = some 0 := fun h =>
    lev_mono (by simp +contextual) _ h.2
  unfold columnToks
  rw [List.append_assoc, List.cons_append, lev, if_neg (by simp [closes])]
  rw [show next 0 (.ident col.name) = 0 from rfl, lev_append _ _ (hm h1)]
  rw [lev_append (d' := 0)]
  · split
    · rename_i hd
      rw [lev, if_neg (by simp [closes])]
      exact hm (h2 hd)
    · rfl
  · split <;> rfl

theorem readItem_column (col : Column) (type default_ : List Tok) (h1 : Part type)
    (h2 : col.default_ ≠ [] → Part default_) :
    readItem (columnToks col type default_) = some (.inl ⟨col.name, type, col.notNull,
      if col.default_ ≠ [] then some default_ else none⟩) := by
  have hc : ∀ t, isClause t = true → (fun t => t == Tok.sym 44 || isClause t) t = true := by
    intro t h; simp [h]
  unfold columnToks
  rw [List.append_assoc, List.cons_append, readItem]
  have hd : col.default_ ≠ [] → readDefault (.word b!"DEFAULT" :: default_) = some (some default_) := by
    intro hne
    have := untilClause_lev hc default_ [] (h2 hne).2
    simp only [List.append_nil, untilClause] at this
    rw [readDefault, if_pos ⟨by decide, (h2 hne).1, by rw [this], by rw [this]; exact (h2 hne).1⟩]
  rw [untilClause_lev hc type _ h1.2]
  cases col.notNull <;> by_cases hne : col.default_ = []
  · simp [hne, untilClause, h1.1, readClauses, readDefault]
  · have hk : isClause (.word b!"DEFAULT") = true := by decide
    have hr : readClauses (.word b!"DEFAULT" :: default_) = some (false, some default_) := by
      unfold readClauses
      split
      · rename_i v w ts he
        simp only [List.cons.injEq, Tok.word.injEq] at he
        obtain ⟨rfl, he⟩ := he
        rw [if_neg fun h => absurd h.1 (by decide), ← he, hd hne]
        rfl
      · rw [hd hne]
        rfl
    simp only [Bool.false_eq_true, if_false, ne_eq, hne, not_false_eq_true, if_true, List.nil_append,
      untilClause, hk, and_self, List.append_nil, h1.1, hr, Option.map_some]
  · have hk : isClause (.word b!"NOT") = true := by decide
    have hr : readClauses [.word b!"NOT", .word b!"NULL"] = some (true, none) := by decide
    simp only [if_true, ne_eq, hne, not_true_eq_false, if_false, List.append_nil,
      untilClause, hk, and_self, h1.1, hr, Option.map_some]
  · have hk : isClause (.word b!"NOT") = true := by decide
    have hr : readClauses (.word b!"NOT" :: .word b!"NULL" :: .word b!"DEFAULT" :: default_) =
        some (true, some default_) := by
      rw [readClauses, if_pos (by decide), hd hne]
      rfl
    simp only [if_true, ne_eq, hne, not_false_eq_true, List.cons_append, List.nil_append,
      untilClause, hk, and_self, List.append_nil, h1.1, hr, Option.map_some, if_false]

/-- The tokens of a CHECK clause. -/
def checkToks (e : List Tok) : List Tok := [.word b!"CHECK", .sym 40] ++ e ++ [.sym 41]

theorem lev_check (e : List Tok) (h : Expr e) : lev (fun t => t == .sym 44) 0 (checkToks e) = some 0 := by
  unfold checkToks
  rw [List.append_assoc, lev_append (d' := 1) _ _ (by decide), lev_append _ _ (lev_shift _ _ h)]
  rfl

theorem readItem_check (e : List Tok) (h : Expr e) : readItem (checkToks e) = some (.inr e) := by
  obtain ⟨l, hl⟩ := items_close e [.sym 41] [] h (fun cur => ⟨[cur], by simp [items, closes]⟩) []
  show readItem (.word b!"CHECK" :: .sym 40 :: (e ++ [.sym 41])) = _
  rw [readItem, if_pos (by decide), hl]
  simp

theorem mapM_some {α β : Type} (f : α → Option β) (g : α → β) (l : List α) (h : ∀ x ∈ l, f x = some (g x)) :
    l.mapM f = some (l.map g) := by
  induction l with
  | nil => rfl
  | cons a l ih =>
    rw [List.mapM_cons, h a (by simp), ih (fun x hx => h x (by simp [hx]))]
    rfl

theorem lefts {α β γ δ : Type} (f : α → γ) (g : β → δ) (l : List α) (m : List β) :
    (l.map (fun x => Sum.inl (f x)) ++ m.map fun x => Sum.inr (g x)).filterMap Sum.getLeft? =
      l.map f := by
  induction l with
  | nil =>
    induction m with
    | nil => rfl
    | cons a m ih => simpa using ih
  | cons a l ih =>
    rw [List.map_cons, List.cons_append, List.filterMap_cons]
    simp only [Sum.getLeft?_inl, ih, List.map_cons]

theorem rights {α β γ δ : Type} (f : α → γ) (g : β → δ) (l : List α) (m : List β) :
    (l.map (fun x => Sum.inl (f x)) ++ m.map fun x => Sum.inr (g x)).filterMap Sum.getRight? =
      m.map g := by
  induction l with
  | nil =>
    induction m with
    | nil => rfl
    | cons a m ih => simpa using ih
  | cons a l ih =>
    rw [List.map_cons, List.cons_append, List.filterMap_cons]
    simp only [Sum.getRight?_inl, ih]

/-- **C111 for tables, except for their schema.** The statement creates a table with the name of the
description, with its columns in their order, each with its name, type, default and whether it may be
NULL, and with its checks. Types, defaults and checks are SQL texts: they have to be that (`Part`,
`Expr`), and a table that has checks has to have columns. -/
theorem C111_table_partial (t : Table) (type default_ : Column → List Tok) (expr : Check → List Tok)
    (ht : ∀ c ∈ t.columns, Fragment c.type (type c) ∧ Part (type c))
    (hd : ∀ c ∈ t.columns, c.default_ ≠ [] → Fragment c.default_ (default_ c) ∧ Part (default_ c))
    (he : ∀ c ∈ t.checks, Fragment c.expression (expr c) ∧ Expr (expr c))
    (hne : t.columns = [] → t.checks = []) :
    createsTable t.toSQL = some {
      schema := none
      name := t.name
      columns := t.columns.map (fun c => ⟨c.name, type c, c.notNull,
        if c.default_ ≠ [] then some (default_ c) else none⟩)
      checks := t.checks.map expr } := by
  unfold createsTable
  rw [C38_table_names_confined t type default_ expr (fun c h => (ht c h).1)
    (fun c h hne => (hd c h hne).1) (fun c h => (he c h).1)]
  simp only [Option.bind_some, List.append_assoc, List.cons_append, List.nil_append]
  have hrt : ∀ n ts, readTable (.word b!"CREATE" :: .word b!"TABLE" :: .ident n :: .sym 40 :: ts) =
      readBody none n ts := fun n ts => by simp [readTable]
  rw [hrt]
  have hchk : ∀ cs : List Check, checkListToks expr cs =
      (cs.map fun c => checkToks (expr c)).flatMap fun l => .sym 44 :: l := by
    intro cs
    induction cs with
    | nil => rfl
    | cons c cs ih => simp [checkListToks, checkToks, ih]
  cases hcols : t.columns with
  | nil =>
    rw [hne hcols]
    rfl
  | cons c cols =>
    rw [columnListToks_eq, hchk]
    have hl := items_join (columnToks c (type c) (default_ c)) []
      (cols.map (fun c => columnToks c (type c) (default_ c)) ++
        t.checks.map fun c => checkToks (expr c)) [.sym 59]
      (lev_column _ _ _ (ht c (by simp [hcols])).2 fun h => (hd c (by simp [hcols]) h).2)
      (by
        intro l hl
        rcases List.mem_append.mp hl with hl | hl
        · obtain ⟨x, hx, rfl⟩ := List.mem_map.mp hl
          exact lev_column _ _ _ (ht x (by simp [hcols, hx])).2 fun h => (hd x (by simp [hcols, hx]) h).2
        · obtain ⟨x, hx, rfl⟩ := List.mem_map.mp hl
          exact lev_check _ (he x hx).2)
    rw [readBody]
    simp only [List.flatMap_append, List.append_assoc, List.flatMap_map] at hl ⊢
    rw [hl]
    simp only [List.nil_append]
    have hitems : readItems (columnToks c (type c) (default_ c) ::
        (cols.map (fun c => columnToks c (type c) (default_ c)) ++
          t.checks.map fun c => checkToks (expr c))) =
        some (((c :: cols).map fun c => Sum.inl (⟨c.name, type c, c.notNull,
            if c.default_ ≠ [] then some (default_ c) else none⟩ : Col)) ++
          t.checks.map fun c => Sum.inr (expr c)) := by
      rw [readItems, if_neg (by simp [columnToks]), ← List.cons_append,
        show columnToks c (type c) (default_ c) :: cols.map (fun c => columnToks c (type c) (default_ c)) =
          (c :: cols).map (fun c => columnToks c (type c) (default_ c)) from rfl, List.mapM_append]
      have h1 : ((c :: cols).map (fun c => columnToks c (type c) (default_ c))).mapM readItem =
          some ((c :: cols).map fun c => Sum.inl (⟨c.name, type c, c.notNull,
            if c.default_ ≠ [] then some (default_ c) else none⟩ : Col)) := by
        rw [List.mapM_map]
        exact mapM_some _ _ _ fun x hx => readItem_column x _ _ (ht x (by rw [hcols]; exact hx)).2
          fun h => (hd x (by rw [hcols]; exact hx) h).2
      have h2 : (t.checks.map fun c => checkToks (expr c)).mapM readItem =
          some (t.checks.map fun c => Sum.inr (expr c)) := by
        rw [List.mapM_map]
        exact mapM_some _ _ _ fun x hx => readItem_check _ (he x hx).2
      rw [h1, h2]
      rfl
    rw [hitems, Option.map_some, lefts, rights]

/-- A table with two columns and a check meets the hypotheses. -/
example : createsTable (Table.toSQL {
      schema := b!"s", name := b!"T \"1\"",
      columns := [{ name := b!"a b", type := b!"numeric(10,2)", notNull := true, default_ := b!"f(1, 2)" },
        { name := b!"c", type := b!"text" }], checks := [{ expression := b!"c <> ','" }] }) =
    some ⟨none, b!"T \"1\"",
      [⟨b!"a b", [.word b!"numeric", .sym 40, .word b!"10", .sym 44, .word b!"2", .sym 41], true,
        some [.word b!"f", .sym 40, .word b!"1", .sym 44, .word b!"2", .sym 41]⟩,
       ⟨b!"c", [.word b!"text"], false, none⟩],
      [[.word b!"c", .sym 60, .sym 62, .str b!","]]⟩ := by decide +kernel

example (t : Table) (c : Column) (ht : t.columns = [c]) (hk : t.checks = []) (hc : c.type = b!"integer")
    (hd : c.default_ = []) :
    createsTable t.toSQL = some ⟨none, t.name, [⟨c.name, [.word b!"integer"], c.notNull, none⟩], []⟩ := by
  rw [C111_table_partial t (fun _ => [.word b!"integer"]) (fun _ => []) (fun _ => [])]
  · simp [ht, hk, hd]
  · intro x hx
    rw [ht] at hx
    obtain rfl := List.mem_singleton.mp hx
    rw [hc]
    exact ⟨fragment_word _ (by simp) (by decide +kernel), by decide +kernel⟩
  · intro x hx h
    rw [ht] at hx
    obtain rfl := List.mem_singleton.mp hx
    exact absurd hd h
  · simp [hk]
  · simp [hk]

/-- **C111 for functions, except for their schema and a line break.** The statement creates a function
with the name of the description, if that is an identifier in lower case and not a reserved word; what
it returns; its language; and its body after a line break, if this survives the quoting (C39). -/
theorem C111_function_partial (reserved : Str → Bool) (f : Function) (returns : List Tok)
    (hn : f.name ≠ [] ∧ (∀ b ∈ f.name, isWord b = true) ∧ (∀ b ∈ f.name, ¬ (65 ≤ b ∧ b ≤ 90)) ∧
      (∀ b, f.name.head? = some b → ¬ (48 ≤ b ∧ b ≤ 57)) ∧ reserved f.name = false)
    (hr : Fragment f.returns returns ∧ returns ≠ [])
    (h1 : ¬ HasDelim f.definition) (h2 : f.definition.getLast? ≠ some 36)
    (hl : (39 : UInt8) ∉ f.language) :
    createsFunction reserved f.toSQL =
      some ⟨none, f.name, returns, b!"\n" ++ f.definition, f.language⟩ := by
  unfold createsFunction
  rw [C39_function_body_partial f [.word f.name] returns (fragment_word _ hn.1 hn.2.1) hr.1 h1 h2 hl]
  have hlow : f.name.map lowerByte = f.name := by
    conv_rhs => rw [← List.map_id f.name]
    apply List.map_congr_left
    intro b hb
    have := hn.2.2.1 b hb
    simp only [lowerByte, Bool.and_eq_true, decide_eq_true_eq, this, if_false, id]
  have hname : nameOf reserved (.word f.name) = some f.name := by
    rw [nameOf, hlow, if_neg]
    rintro (h | h)
    · rw [hn.2.2.2.2] at h; cases h
    · cases hh : f.name.head? with
      | none => rw [hh] at h; cases h
      | some b =>
        rw [hh] at h
        exact hn.2.2.2.1 b hh (by simpa using h)
  have hret : ∀ ts : List Tok, readReturns (ts ++ [.word b!"AS", .dollar (b!"\n" ++ f.definition),
      .word b!"LANGUAGE", .str f.language, .sym 59]) = some (ts, b!"\n" ++ f.definition, f.language) := by
    intro ts
    induction ts with
    | nil => simp [readReturns]
    | cons t ts ih =>
      rw [List.cons_append, readReturns, ih]
      · rfl
      · intro a b c d _ h
        have := congrArg List.length h
        simp at this
  simp only [Option.bind_some, List.cons_append, List.nil_append]
  have hrf : ∀ n ts, readFunction reserved (.word b!"CREATE" :: .word b!"OR" :: .word b!"REPLACE" ::
      .word b!"FUNCTION" :: n :: .sym 40 :: ts) =
      readSignature none (nameOf reserved n) (.sym 40 :: ts) := fun n ts => by simp [readFunction]
  have := hret returns
  simp only [List.cons_append, List.nil_append] at this
  rw [hrf, hname]
  simp only [readSignature, if_true, this, hr.2, if_false]

example : createsFunction (fun w => w == b!"select") (Function.toSQL {
      schema := b!"s", name := b!"add_one", returns := b!"trigger",
      definition := b!"BEGIN RETURN NEW; END", language := b!"plpgsql" }) =
    some ⟨none, b!"add_one", [.word b!"trigger"], b!"\nBEGIN RETURN NEW; END", b!"plpgsql"⟩ := by
  decide +kernel

/-- **C111 is false.** The SQL of a table does not depend on its schema, owner, comment and foreign keys,
nor on the names of its checks; that of a function not on its schema, owner and comment; that of a trigger
not on its schema, the events INSERT, DELETE and TRUNCATE, the columns and the flags of constraint
triggers; that of an index not on the schema, and that of an index which is no primary key on nothing. A function with
a capital letter in its name is created under another name. A table with a check but no column is not
created at all. -/
theorem C111_refuted :
    (∀ (t : Table) (s o c : Str) (fks : List ForeignKey),
      ({ t with schema := s, owner := o, comment := c, foreignKeys := fks } : Table).toSQL = t.toSQL) ∧
    (∀ (t : Table) (k : Check → Str),
      ({ t with checks := t.checks.map fun c => { c with name := k c } } : Table).toSQL = t.toSQL) ∧
    (∀ (f : Function) (s o c : Str),
      ({ f with schema := s, owner := o, comment := c } : Function).toSQL = f.toSQL) ∧
    (∀ (i : Index) (s : Str), ({ i with schema := s } : Index).toSQL = i.toSQL) ∧
    (∀ i j : Index, i.primary = false → j.primary = false → i.toSQL = j.toSQL) ∧
    (∀ (t : Trigger) (s : Str) (a b c d e f : Bool) (cols : List Str),
      ({ t with schema := s, constraint := a, deferrable := b, initiallyDeferred := c, insert := d,
                delete := e, truncate := f, columns := cols } : Trigger).toSQL = t.toSQL) ∧
    (∃ f : Function, (createsFunction (fun _ => false) f.toSQL).map NewFunction.name ≠ some f.name ∧
      createsFunction (fun _ => false) f.toSQL ≠ none) ∧
    (∃ t : Table, t.columns = [] ∧ createsTable t.toSQL = none) := by
  refine ⟨fun _ _ _ _ _ => rfl, fun t k => ?_, fun _ _ _ _ => rfl, fun _ _ => rfl, fun i j hi hj => ?_,
    fun _ _ _ _ _ _ _ _ _ => rfl, ⟨{ name := b!"addOne", returns := b!"int", language := b!"sql" }, by decide +kernel⟩,
    ⟨{ name := b!"t", checks := [{ expression := b!"true" }] }, rfl, by decide +kernel⟩⟩
  · have : ∀ (cs : List Check) (sb : Str), Table.checkLoop (cs.map fun c => { c with name := k c }) sb =
        Table.checkLoop cs sb := by
      intro cs
      induction cs with
      | nil => intro sb; rfl
      | cons c cs ih => intro sb; simp [Table.checkLoop, ih]
    unfold Table.toSQL
    simp only [this]
  · simp [Index.toSQL, hi, hj]

end Verif.Ddl
