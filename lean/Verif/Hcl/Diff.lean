import Verif.Hcl.TextProps
import Verif.Hcl.FormLemmas

/-!
# C152: a change shows in the file where it was made
-/

namespace Verif.Hcl
open Verif Read

/-! ## Specification -/

/-- Whole lines. -/
def Whole (s : Str) : Prop := s = [] ∨ ∃ x, s = x ++ [0x0A]

/-- One line. -/
def Line (s : Str) : Prop := ∃ x, s = x ++ [0x0A] ∧ (0x0A : UInt8) ∉ x

/-- Two documents that are the same but for one item, `i` in the one and `i'` in the other, perhaps inside of blocks. -/
inductive Place {N : Type} : List (Item N) → List (Item N) → Item N → Item N → Prop where
  | here (l r : List (Item N)) (i i' : Item N) : Place (l ++ i :: r) (l ++ i' :: r) i i'
  | inside (l r : List (Item N)) (t : Str) (ls : List Str) {b b' : List (Item N)} {i i' : Item N} (h : Place b b' i i') :
      Place (l ++ .block t ls b :: r) (l ++ .block t ls b' :: r) i i'

/-- Two databases that are the same but for one object, or one part of a table, and the blocks of it. -/
inductive Changed {F N : Type} (L : Lib F N) : Database F → Database F → Item N → Item N → Prop where
  | schema (db : Database F) (l r : List (Pg.Schema)) (x y : Pg.Schema) :
      Changed L { db with schemas := l ++ x :: r } { db with schemas := l ++ y :: r } (Form.schemaDoc L x) (Form.schemaDoc L y)
  | function (db : Database F) (l r : List (Ddl.Function)) (x y : Ddl.Function) :
      Changed L { db with functions := l ++ x :: r } { db with functions := l ++ y :: r } (Form.functionDoc L x) (Form.functionDoc L y)
  | sequence (db : Database F) (l r : List (Pg.Sequence)) (x y : Pg.Sequence) :
      Changed L { db with sequences := l ++ x :: r } { db with sequences := l ++ y :: r } (Form.sequenceDoc L x) (Form.sequenceDoc L y)
  | table (db : Database F) (l r : List (Table F)) (x y : Table F) :
      Changed L { db with tables := l ++ x :: r } { db with tables := l ++ y :: r } (Form.tableDoc L x) (Form.tableDoc L y)
  | index (db : Database F) (l r : List (Ddl.Index)) (x y : Ddl.Index) :
      Changed L { db with indexes := l ++ x :: r } { db with indexes := l ++ y :: r } (Form.indexDoc L x) (Form.indexDoc L y)
  | trigger (db : Database F) (l r : List (Ddl.Trigger)) (x y : Ddl.Trigger) :
      Changed L { db with triggers := l ++ x :: r } { db with triggers := l ++ y :: r } (Form.triggerDoc L x) (Form.triggerDoc L y)
  | column (db : Database F) (l r : List (Table F)) (t : Table F) (cl cr : List (Ddl.Column)) (x y : Ddl.Column) :
      Changed L { db with tables := l ++ { t with table := { t.table with columns := cl ++ x :: cr } } :: r }
        { db with tables := l ++ { t with table := { t.table with columns := cl ++ y :: cr } } :: r }
        (Form.columnDoc L x) (Form.columnDoc L y)
  | check (db : Database F) (l r : List (Table F)) (t : Table F) (cl cr : List (Ddl.Check)) (x y : Ddl.Check) :
      Changed L { db with tables := l ++ { t with table := { t.table with checks := cl ++ x :: cr } } :: r }
        { db with tables := l ++ { t with table := { t.table with checks := cl ++ y :: cr } } :: r }
        (Form.checkDoc L x) (Form.checkDoc L y)
  | foreignKey (db : Database F) (l r : List (Table F)) (t : Table F) (cl cr : List (Ddl.ForeignKey)) (x y : Ddl.ForeignKey) :
      Changed L { db with tables := l ++ { t with table := { t.table with foreignKeys := cl ++ x :: cr } } :: r }
        { db with tables := l ++ { t with table := { t.table with foreignKeys := cl ++ y :: cr } } :: r }
        (Form.foreignKeyDoc L x) (Form.foreignKeyDoc L y)

/-- A database that has one object more than another, and the block of it. -/
inductive Added {F N : Type} (L : Lib F N) : Database F → Database F → Item N → Prop where
  | schema (db : Database F) (l r : List (Pg.Schema)) (x : Pg.Schema) :
      Added L { db with schemas := l ++ r } { db with schemas := l ++ x :: r } (Form.schemaDoc L x)
  | function (db : Database F) (l r : List (Ddl.Function)) (x : Ddl.Function) :
      Added L { db with functions := l ++ r } { db with functions := l ++ x :: r } (Form.functionDoc L x)
  | sequence (db : Database F) (l r : List (Pg.Sequence)) (x : Pg.Sequence) :
      Added L { db with sequences := l ++ r } { db with sequences := l ++ x :: r } (Form.sequenceDoc L x)
  | table (db : Database F) (l r : List (Table F)) (x : Table F) :
      Added L { db with tables := l ++ r } { db with tables := l ++ x :: r } (Form.tableDoc L x)
  | index (db : Database F) (l r : List (Ddl.Index)) (x : Ddl.Index) :
      Added L { db with indexes := l ++ r } { db with indexes := l ++ x :: r } (Form.indexDoc L x)
  | trigger (db : Database F) (l r : List (Ddl.Trigger)) (x : Ddl.Trigger) :
      Added L { db with triggers := l ++ r } { db with triggers := l ++ x :: r } (Form.triggerDoc L x)

section
variable {F N : Type} {isPrint : Nat → Bool} {showN : N → Str} {readN : Str → Option N}

/-! ## Lines -/

theorem Whole.append {s t : Str} (hs : Whole s) (ht : Whole t) : Whole (s ++ t) := by
  rcases ht with rfl | ⟨x, rfl⟩
  · simpa using hs
  · exact .inr ⟨s ++ x, by simp⟩

theorem whole_end (s : Str) : Whole (s ++ b!"\n") := .inr ⟨s, rfl⟩

theorem escape_line (rs : List Nat) : (0x0A : UInt8) ∉ escape isPrint rs := by
  induction rs with
  | nil => simp [escape]
  | cons r rs ih =>
    rw [escape, List.mem_append]
    rintro (h | h)
    · revert h
      have hx : ∀ n, (0x0A : UInt8) ∉ hexDigits n r := fun n h => (hexDigits_facts n r _ h).2.2 rfl
      split_ifs with h1 h2 h3 h4 h5 h6 h7 h8 h9
      · decide
      · decide
      · decide
      · decide
      · decide
      · rcases h6 with rfl | rfl <;> decide
      · rcases h6 with rfl | rfl <;> decide
      · exact fun h => encode1_ne h1 (by decide) _ h rfl
      · simp [hx]
      · simp [hx]
    · exact ih h

theorem quoted_line (s : Str) : (0x0A : UInt8) ∉ quoted isPrint s := by
  simp [quoted, escape_line]

theorem number_line (hN : Numerals showN readN) (n : N) : (0x0A : UInt8) ∉ showN n := by
  have key : ∀ ds, Digits ds → (0x0A : UInt8) ∉ ds := by
    intro ds h hm
    cases ds with
    | nil => cases hm
    | cons c s =>
      rcases List.mem_cons.1 hm with rfl | hm
      · exact absurd h.1 (by decide)
      · exact absurd (h.2 _ hm) (by decide)
  rcases hN.form n with h | ⟨ds, e, h⟩
  · exact key _ h
  · rw [e]
    simp [key ds h]

mutual
theorem value_line (hN : Numerals showN readN) : ∀ v : Value N, (0x0A : UInt8) ∉ valueText isPrint showN v
  | .null => by simp [valueText]
  | .str s => by rw [valueText]; exact quoted_line s
  | .bool true => by simp [valueText]
  | .bool false => by simp [valueText]
  | .num n => by rw [valueText]; exact number_line hN n
  | .list l => by simp [valueText, elems_line hN l]
theorem elems_line (hN : Numerals showN readN) : ∀ l : List (Value N), (0x0A : UInt8) ∉ elemsText isPrint showN l
  | [] => by simp [elemsText]
  | [v] => by simp [elemsText, value_line hN v]
  | v :: w :: l => by simp [elemsText, value_line hN v, elems_line hN (w :: l)]
end

/-! ## Items in their surroundings -/

/-- The line of an attribute: indented, and with blanks up to the sign. -/
def attrLine (isPrint : Nat → Bool) (showN : N → Str) (indent pad : Nat) (n : Str) (v : Value N) : Str :=
  spaces indent ++ n ++ spaces pad ++ b!"= " ++ valueText isPrint showN v ++ b!"\n"

/-- The lines of a block, indented. -/
def blockLines (isPrint : Nat → Bool) (showN : N → Str) (d : Nat) (t : Str) (ls : List Str) (body : List (Item N)) : Str :=
  spaces (2 * d) ++ t ++ labelsText isPrint ls ++ b!" {\n" ++ bodyText isPrint showN (d + 1) .start 0 body ++
    spaces (2 * d) ++ b!"}\n"

mutual
theorem item_whole (d : Nat) (prev : Prev) (w : Nat) : ∀ i : Item N, Whole (itemText isPrint showN d prev w i)
  | .attr n v => by rw [itemText]; exact whole_end _
  | .block t ls b => by
    rw [itemText]
    exact .inr ⟨_, (List.append_assoc _ b!"}" b!"\n").symm⟩
theorem body_whole (d : Nat) (prev : Prev) (w : Nat) : ∀ l : List (Item N), Whole (bodyText isPrint showN d prev w l)
  | [] => by rw [bodyText]; exact .inl rfl
  | i :: l => by rw [bodyText]; exact (item_whole ..).append (body_whole ..)
end

theorem block_whole (d : Nat) (t : Str) (ls : List Str) (b : List (Item N)) : Whole (blockLines isPrint showN d t ls b) := by
  unfold blockLines
  exact .inr ⟨_, (List.append_assoc _ b!"}" b!"\n").symm⟩

/-- Items that count the same for what is around them. -/
def Alike : Item N → Item N → Prop
  | .attr n _, .attr n' _ => n = n'
  | .block t _ _, .block t' _ _ => t = t'
  | _, _ => False

theorem Alike.kind {i i' : Item N} (h : Alike i i') : i.kind = i'.kind := by
  cases i <;> cases i' <;> simp_all [Alike, Item.kind]

theorem width_alike {i i' : Item N} (h : Alike i i') (l r : List (Item N)) : width (l ++ i :: r) = width (l ++ i' :: r) := by
  induction l with
  | nil => cases i <;> cases i' <;> simp_all [Alike, width]
  | cons j l ih => cases j <;> simp_all [width]

theorem body_around {i i' : Item N} (h : Alike i i') (d : Nat) (l r : List (Item N)) : ∀ prev w, ∃ pre post prev' w',
    Whole pre ∧
    bodyText isPrint showN d prev w (l ++ i :: r) = pre ++ itemText isPrint showN d prev' w' i ++ post ∧
    bodyText isPrint showN d prev w (l ++ i' :: r) = pre ++ itemText isPrint showN d prev' w' i' ++ post := by
  induction l with
  | nil =>
    intro prev w
    have hw := width_alike h [] r
    refine ⟨[], bodyText isPrint showN d i.kind (if prev = .attr then w else width (i :: r)) r, prev,
      if prev = .attr then w else width (i :: r), .inl rfl, ?_, ?_⟩
    · rw [List.nil_append, bodyText, List.nil_append]
    · rw [List.nil_append, bodyText, List.nil_append, ← h.kind]
      simp only [List.nil_append] at hw
      rw [← hw]
  | cons j l ih =>
    intro prev w
    have hw := width_alike h (j :: l) r
    simp only [List.cons_append] at hw
    obtain ⟨pre, post, prev', w', h1, h2, h3⟩ := ih j.kind (if prev = .attr then w else width (j :: (l ++ i :: r)))
    refine ⟨itemText isPrint showN d prev (if prev = .attr then w else width (j :: (l ++ i :: r))) j ++ pre, post, prev', w',
      (item_whole ..).append h1, ?_, ?_⟩
    · rw [List.cons_append, bodyText, h2]
      simp
    · rw [List.cons_append, bodyText, ← hw, h3]
      simp

theorem alike_refl : ∀ {i : Item N}, Alike i i
  | .attr _ _ => rfl
  | .block _ _ _ => rfl

theorem place_around {doc doc' : List (Item N)} {i i' : Item N} (h : Place doc doc' i i') (ha : Alike i i') :
    ∀ d prev w, ∃ pre post d' prev' w', Whole pre ∧
    bodyText isPrint showN d prev w doc = pre ++ itemText isPrint showN d' prev' w' i ++ post ∧
    bodyText isPrint showN d prev w doc' = pre ++ itemText isPrint showN d' prev' w' i' ++ post := by
  induction h with
  | here l r i i' =>
    intro d prev w
    obtain ⟨pre, post, prev', w', h⟩ := body_around ha d l r prev w
    exact ⟨pre, post, d, prev', w', h⟩
  | inside l r t ls h ih =>
    rename_i b b' _ _
    intro d prev w
    obtain ⟨pre, post, prev', w', h1, h2, h3⟩ := body_around (isPrint := isPrint) (showN := showN)
      (i := .block t ls b) (i' := .block t ls b') rfl d l r prev w
    obtain ⟨pre2, post2, d2, prev2, w2, g1, g2, g3⟩ := ih ha (d + 1) .start 0
    have hh : Whole ((if prev' = .block t then [] else b!"\n") ++ spaces (2 * d) ++ t ++ labelsText isPrint ls ++ b!" {\n") :=
      .inr ⟨_, (List.append_assoc _ b!" {" b!"\n").symm⟩
    refine ⟨pre ++ ((if prev' = .block t then [] else b!"\n") ++ spaces (2 * d) ++ t ++ labelsText isPrint ls ++ b!" {\n") ++ pre2,
      post2 ++ spaces (2 * d) ++ b!"}\n" ++ post, d2, prev2, w2, (h1.append hh).append g1, ?_, ?_⟩
    · rw [h2, itemText, g2]
      simp only [List.append_assoc]
    · rw [h3, itemText, g3]
      simp only [List.append_assoc]

/-! ## The property -/

/-- **C152, one value.** Two documents that differ in the value of one attribute, wherever it is, are printed with one line
that is different, and this is the line of the attribute. -/
theorem C152_value_partial (hN : Numerals showN readN) {doc doc' : List (Item N)} {n : Str} {v v' : Value N}
    (hn : (0x0A : UInt8) ∉ n) (h : Place doc doc' (.attr n v) (.attr n v')) : ∃ pre post indent pad, Whole pre ∧
    Line (attrLine isPrint showN indent pad n v) ∧ Line (attrLine isPrint showN indent pad n v') ∧
    print isPrint showN doc = pre ++ attrLine isPrint showN indent pad n v ++ post ∧
    print isPrint showN doc' = pre ++ attrLine isPrint showN indent pad n v' ++ post := by
  obtain ⟨pre, post, d, prev, w, h1, h2, h3⟩ := place_around (isPrint := isPrint) (showN := showN) h rfl 0 .start 0
  have hl : ∀ v : Value N, Line (attrLine isPrint showN (2 * d) (w - n.length + 1) n v) := fun v =>
    ⟨_, rfl, by simp [spaces, hn, value_line hN v]⟩
  have hg : Whole (attrGap prev) := by
    cases prev with
    | block t => exact .inr ⟨[], rfl⟩
    | _ => exact .inl rfl
  refine ⟨pre ++ attrGap prev, post, 2 * d, w - n.length + 1, h1.append hg, hl v, hl v', ?_, ?_⟩
  · rw [print, h2, itemText]
    simp only [attrLine, List.append_assoc]
  · rw [print, h3, itemText]
    simp only [attrLine, List.append_assoc]

/-- **C152, one block.** Two documents that differ in one block, wherever it is, are printed with the lines of the block
different and all others the same. -/
theorem C152_block_partial {doc doc' : List (Item N)} {t : Str} {ls ls' : List Str} {b b' : List (Item N)}
    (h : Place doc doc' (.block t ls b) (.block t ls' b')) : ∃ pre post d, Whole pre ∧
    print isPrint showN doc = pre ++ blockLines isPrint showN d t ls b ++ post ∧
    print isPrint showN doc' = pre ++ blockLines isPrint showN d t ls' b' ++ post := by
  obtain ⟨pre, post, d, prev, w, h1, h2, h3⟩ := place_around (isPrint := isPrint) (showN := showN) h rfl 0 .start 0
  have hg : Whole (if prev = .block t then [] else b!"\n") := by
    split
    · exact .inl rfl
    · exact .inr ⟨[], rfl⟩
  refine ⟨pre ++ (if prev = .block t then [] else b!"\n"), post, d, h1.append hg, ?_, ?_⟩
  · rw [print, h2, itemText]
    simp only [blockLines, List.append_assoc]
  · rw [print, h3, itemText]
    simp only [blockLines, List.append_assoc]

/-- Two lists that are the same but for one item, in a document. -/
theorem place_map {α : Type} (a b : List (Item N)) (f : α → Item N) (l r : List α) (x y : α) :
    Place (a ++ (l ++ x :: r).map f ++ b) (a ++ (l ++ y :: r).map f ++ b) (f x) (f y) := by
  have := Place.here (a ++ l.map f) (r.map f ++ b) (f x) (f y)
  simpa using this

theorem place_inside {α : Type} (a b : List (Item N)) (f : α → Item N) (l r : List α) (x y : α) {t : Str} {ls : List Str}
    {u v : List (Item N)} {i i' : Item N} (hx : f x = .block t ls u) (hy : f y = .block t ls v) (h : Place u v i i') :
    Place (a ++ (l ++ x :: r).map f ++ b) (a ++ (l ++ y :: r).map f ++ b) i i' := by
  have := Place.inside (a ++ l.map f) (r.map f ++ b) t ls h
  rw [← hx, ← hy] at this
  simpa using this

theorem Changed.place {L : Lib F N} {db db' : Database F} {i i' : Item N} (h : Changed L db db' i i') :
    Place (write L db) (write L db') i i' ∧ ∃ t ls ls' b b', i = .block t ls b ∧ i' = .block t ls' b' := by
  simp only [write_form]
  cases h with
  | schema db l r x y =>
    refine ⟨?_, _, _, _, _, _, rfl, rfl⟩
    have := place_map (db.parameters.toList.map (Form.parametersDoc L)) (db.functions.map (Form.functionDoc L) ++ db.sequences.map (Form.sequenceDoc L) ++ db.tables.map (Form.tableDoc L) ++ db.indexes.map (Form.indexDoc L) ++ db.triggers.map (Form.triggerDoc L)) (Form.schemaDoc L) l r x y
    simpa [Form.document] using this
  | function db l r x y =>
    refine ⟨?_, _, _, _, _, _, rfl, rfl⟩
    have := place_map (db.parameters.toList.map (Form.parametersDoc L) ++ db.schemas.map (Form.schemaDoc L)) (db.sequences.map (Form.sequenceDoc L) ++ db.tables.map (Form.tableDoc L) ++ db.indexes.map (Form.indexDoc L) ++ db.triggers.map (Form.triggerDoc L)) (Form.functionDoc L) l r x y
    simpa [Form.document] using this
  | sequence db l r x y =>
    refine ⟨?_, _, _, _, _, _, rfl, rfl⟩
    have := place_map (db.parameters.toList.map (Form.parametersDoc L) ++ db.schemas.map (Form.schemaDoc L) ++ db.functions.map (Form.functionDoc L)) (db.tables.map (Form.tableDoc L) ++ db.indexes.map (Form.indexDoc L) ++ db.triggers.map (Form.triggerDoc L)) (Form.sequenceDoc L) l r x y
    simpa [Form.document] using this
  | table db l r x y =>
    refine ⟨?_, _, _, _, _, _, rfl, rfl⟩
    have := place_map (db.parameters.toList.map (Form.parametersDoc L) ++ db.schemas.map (Form.schemaDoc L) ++ db.functions.map (Form.functionDoc L) ++ db.sequences.map (Form.sequenceDoc L)) (db.indexes.map (Form.indexDoc L) ++ db.triggers.map (Form.triggerDoc L)) (Form.tableDoc L) l r x y
    simpa [Form.document] using this
  | index db l r x y =>
    refine ⟨?_, _, _, _, _, _, rfl, rfl⟩
    have := place_map (db.parameters.toList.map (Form.parametersDoc L) ++ db.schemas.map (Form.schemaDoc L) ++ db.functions.map (Form.functionDoc L) ++ db.sequences.map (Form.sequenceDoc L) ++ db.tables.map (Form.tableDoc L)) (db.triggers.map (Form.triggerDoc L)) (Form.indexDoc L) l r x y
    simpa [Form.document] using this
  | trigger db l r x y =>
    refine ⟨?_, _, _, _, _, _, rfl, rfl⟩
    have := place_map (db.parameters.toList.map (Form.parametersDoc L) ++ db.schemas.map (Form.schemaDoc L) ++ db.functions.map (Form.functionDoc L) ++ db.sequences.map (Form.sequenceDoc L) ++ db.tables.map (Form.tableDoc L) ++ db.indexes.map (Form.indexDoc L)) ([]) (Form.triggerDoc L) l r x y
    simpa [Form.document] using this
  | column db l r t cl cr x y =>
    refine ⟨?_, _, _, _, _, _, rfl, rfl⟩
    have h := place_map ([Form.text L b!"owner" t.table.owner, Form.text L b!"comment" t.table.comment])
      (t.table.checks.map (Form.checkDoc L) ++ t.table.foreignKeys.map (Form.foreignKeyDoc L) ++ t.storageParameters.toList.map (Form.tableStorageParametersDoc L)) (Form.columnDoc L) cl cr x y
    have := place_inside (db.parameters.toList.map (Form.parametersDoc L) ++ db.schemas.map (Form.schemaDoc L) ++ db.functions.map (Form.functionDoc L) ++ db.sequences.map (Form.sequenceDoc L)) (db.indexes.map (Form.indexDoc L) ++ db.triggers.map (Form.triggerDoc L)) (Form.tableDoc L) l r
      { t with table := { t.table with columns := cl ++ x :: cr } } { t with table := { t.table with columns := cl ++ y :: cr } } (by rfl) (by rfl)
      (by simpa using h)
    simpa [Form.document] using this
  | check db l r t cl cr x y =>
    refine ⟨?_, _, _, _, _, _, rfl, rfl⟩
    have h := place_map ([Form.text L b!"owner" t.table.owner, Form.text L b!"comment" t.table.comment] ++ t.table.columns.map (Form.columnDoc L))
      (t.table.foreignKeys.map (Form.foreignKeyDoc L) ++ t.storageParameters.toList.map (Form.tableStorageParametersDoc L)) (Form.checkDoc L) cl cr x y
    have := place_inside (db.parameters.toList.map (Form.parametersDoc L) ++ db.schemas.map (Form.schemaDoc L) ++ db.functions.map (Form.functionDoc L) ++ db.sequences.map (Form.sequenceDoc L)) (db.indexes.map (Form.indexDoc L) ++ db.triggers.map (Form.triggerDoc L)) (Form.tableDoc L) l r
      { t with table := { t.table with checks := cl ++ x :: cr } } { t with table := { t.table with checks := cl ++ y :: cr } } (by rfl) (by rfl)
      (by simpa using h)
    simpa [Form.document] using this
  | foreignKey db l r t cl cr x y =>
    refine ⟨?_, _, _, _, _, _, rfl, rfl⟩
    have h := place_map ([Form.text L b!"owner" t.table.owner, Form.text L b!"comment" t.table.comment] ++ t.table.columns.map (Form.columnDoc L) ++ t.table.checks.map (Form.checkDoc L))
      (t.storageParameters.toList.map (Form.tableStorageParametersDoc L)) (Form.foreignKeyDoc L) cl cr x y
    have := place_inside (db.parameters.toList.map (Form.parametersDoc L) ++ db.schemas.map (Form.schemaDoc L) ++ db.functions.map (Form.functionDoc L) ++ db.sequences.map (Form.sequenceDoc L)) (db.indexes.map (Form.indexDoc L) ++ db.triggers.map (Form.triggerDoc L)) (Form.tableDoc L) l r
      { t with table := { t.table with foreignKeys := cl ++ x :: cr } } { t with table := { t.table with foreignKeys := cl ++ y :: cr } } (by rfl) (by rfl)
      (by simpa using h)
    simpa [Form.document] using this

/-- **C152, one object.** Two databases that differ in one object, or in one column, check or foreign key of a table: their
files differ in the lines of its block only. -/
theorem C152_object_partial {L : Lib F N} {db db' : Database F} {i i' : Item N} (h : Changed L db db' i i') :
    ∃ t ls ls' b b' pre post d, i = .block t ls b ∧ i' = .block t ls' b' ∧ Whole pre ∧
    print isPrint showN (write L db) = pre ++ blockLines isPrint showN d t ls b ++ post ∧
    print isPrint showN (write L db') = pre ++ blockLines isPrint showN d t ls' b' ++ post := by
  obtain ⟨h1, t, ls, ls', b, b', rfl, rfl⟩ := h.place
  obtain ⟨pre, post, d, h2⟩ := C152_block_partial (isPrint := isPrint) (showN := showN) h1
  exact ⟨t, ls, ls', b, b', pre, post, d, rfl, rfl, h2⟩

/-! ## One more -/

theorem body_free {prev : Prev} (hp : prev ≠ .attr) (d w w' : Nat) (r : List (Item N)) :
    bodyText isPrint showN d prev w r = bodyText isPrint showN d prev w' r := by
  cases r with
  | nil => rfl
  | cons i r => simp only [bodyText, hp, if_false]

/-- What comes after a list of items. -/
def lastKind (prev : Prev) : List (Item N) → Prev
  | [] => prev
  | i :: l => lastKind i.kind l

/-- A block. -/
def IsBlock (i : Item N) : Prop := ∃ t ls b, i = .block t ls b

theorem body_append (d : Nat) (l r : List (Item N)) (hl : ∀ i ∈ l, IsBlock i) : ∀ prev, prev ≠ .attr →
    bodyText isPrint showN d prev 0 (l ++ r) =
      bodyText isPrint showN d prev 0 l ++ bodyText isPrint showN d (lastKind prev l) 0 r := by
  induction l with
  | nil => intro prev hp; simp [bodyText, lastKind]
  | cons i l ih =>
    intro prev hp
    obtain ⟨t, ls, b, rfl⟩ := hl i (by simp)
    have hk : (Item.block t ls b : Item N).kind ≠ .attr := by simp [Item.kind]
    rw [List.cons_append, bodyText, bodyText, lastKind, body_free hk d _ 0 (l ++ r), body_free hk d _ 0 l,
      ih (fun j hj => hl j (List.mem_cons_of_mem _ hj)) _ hk]
    simp [hp, itemText, List.append_assoc]

theorem body_cons (d : Nat) {prev : Prev} (t : Str) (ls : List Str) (b r : List (Item N)) :
    bodyText isPrint showN d prev 0 (.block t ls b :: r) =
      (if prev = .block t then [] else b!"\n") ++ blockLines isPrint showN d t ls b ++
        bodyText isPrint showN d (.block t) 0 r := by
  rw [bodyText, itemText, body_free (prev := (Item.block t ls b : Item N).kind) (by simp [Item.kind]) d _ 0 r]
  simp only [blockLines, List.append_assoc]
  rfl

theorem lastKind_append (prev : Prev) (l : List (Item N)) (i : Item N) : lastKind prev (l ++ [i]) = i.kind := by
  induction l generalizing prev with
  | nil => rfl
  | cons j l ih => exact ih _

theorem lastKind_mem (prev : Prev) (l : List (Item N)) : lastKind prev l = prev ∨ ∃ i ∈ l, lastKind prev l = i.kind := by
  induction l generalizing prev with
  | nil => exact .inl rfl
  | cons j l ih =>
    rcases ih j.kind with h | ⟨i, hi, h⟩
    · exact .inr ⟨j, by simp, h⟩
    · exact .inr ⟨i, List.mem_cons_of_mem _ hi, h⟩

theorem lastKind_ne (l : List (Item N)) (hl : ∀ i ∈ l, IsBlock i) : lastKind .start l ≠ .attr := by
  rcases lastKind_mem .start l with h | ⟨i, hi, h⟩
  · rw [h]; simp
  · obtain ⟨t, ls, b, rfl⟩ := hl i hi
    rw [h]; simp [Item.kind]

/-- One more block of a type among those of the same type, or between other types. -/
theorem print_insert (a b l r : List (Item N)) (t : Str) (ls : List Str) (body : List (Item N))
    (ha : ∀ i ∈ a, IsBlock i) (hb : ∀ i ∈ b, IsBlock i) (hl : ∀ i ∈ l, i.kind = .block t) (hr : ∀ i ∈ r, i.kind = .block t)
    (h1 : ∀ j ∈ b, j.kind ≠ .block t) (h2 : ∀ i ∈ a, ∀ j ∈ b, i.kind ≠ j.kind) : ∃ pre x post, Whole pre ∧
    (x = blockLines isPrint showN 0 t ls body ∨ x = b!"\n" ++ blockLines isPrint showN 0 t ls body) ∧
    print isPrint showN (a ++ (l ++ r) ++ b) = pre ++ post ∧
    print isPrint showN (a ++ (l ++ .block t ls body :: r) ++ b) = pre ++ x ++ post := by
  have isb : ∀ i : Item N, i.kind = .block t → IsBlock i := by
    intro i hi
    cases i with
    | attr n v => cases hi
    | block t ls b => exact ⟨t, ls, b, rfl⟩
  have hp := lastKind_ne a ha
  have hwa : Whole (bodyText isPrint showN 0 .start 0 a) := body_whole ..
  simp only [print, List.append_assoc]
  rw [body_append 0 a _ ha .start (by simp), body_append 0 a _ ha .start (by simp)]
  rcases List.eq_nil_or_concat l with rfl | ⟨l0, j, rfl⟩
  · cases r with
    | nil =>
      simp only [List.nil_append, List.cons_append]
      rw [body_cons]
      by_cases hg : lastKind .start a = .block t
      · rw [hg]
        exact ⟨_, _, _, hwa, .inl rfl, rfl, by simp⟩
      · have : bodyText isPrint showN 0 (.block t) 0 b = bodyText isPrint showN 0 (lastKind .start a) 0 b := by
          cases b with
          | nil => simp [bodyText]
          | cons j b =>
            obtain ⟨u, us, ub, rfl⟩ := hb j (by simp)
            rw [body_cons, body_cons]
            have e1 : Prev.block t ≠ .block u := Ne.symm (h1 (.block u us ub) (by simp) : Prev.block u ≠ .block t)
            have e2 : lastKind .start a ≠ .block u := by
              rcases lastKind_mem .start a with h | ⟨i, hi, h⟩
              · rw [h]; simp
              · rw [h]; exact h2 i hi (.block u us ub) (by simp)
            rw [if_neg e1, if_neg e2]
        rw [this, if_neg hg]
        exact ⟨_, _, _, hwa, .inr rfl, rfl, by simp⟩
    | cons j r =>
      obtain ⟨u, us, ub, rfl⟩ := isb j (hr j (by simp))
      have : u = t := by simpa [Item.kind] using hr _ (List.mem_cons_self ..)
      subst this
      simp only [List.nil_append, List.cons_append]
      rw [body_cons, body_cons, body_cons, if_pos rfl]
      have hg : Whole (if lastKind .start a = .block u then [] else b!"\n") := by
        split
        · exact .inl rfl
        · exact .inr ⟨[], rfl⟩
      exact ⟨_, _, blockLines isPrint showN 0 u us ub ++ bodyText isPrint showN 0 (.block u) 0 (r ++ b), hwa.append hg, .inl rfl,
        by simp only [List.append_assoc], by simp only [List.append_assoc, List.nil_append]⟩
  · have hl' : ∀ i ∈ l0 ++ [j], IsBlock i := fun i hi => isb i (hl i (by simpa using hi))
    have hk : lastKind (lastKind .start a) (l0 ++ [j]) = .block t := by
      rw [lastKind_append]
      exact hl j (by simp)
    simp only [List.concat_eq_append]
    have hc := body_cons (isPrint := isPrint) (showN := showN) 0 (prev := .block t) t ls body (r ++ b)
    rw [if_pos rfl] at hc
    rw [body_append 0 (l0 ++ [j]) (r ++ b) hl' _ hp, body_append 0 (l0 ++ [j]) (.block t ls body :: r ++ b) hl' _ hp, hk,
      show bodyText isPrint showN 0 (.block t) 0 (.block t ls body :: r ++ b) = _ from hc]
    refine ⟨_, _, bodyText isPrint showN 0 (.block t) 0 (r ++ b),
      hwa.append (body_whole (isPrint := isPrint) (showN := showN) 0 (lastKind .start a) 0 (l0 ++ [j])), .inl rfl, ?_, ?_⟩
    · rw [List.append_assoc]
    · simp only [List.append_assoc, List.nil_append]

theorem all_nil {P : Item N → Prop} : ∀ i ∈ ([] : List (Item N)), P i := by simp

theorem all_append {P : Item N → Prop} {a b : List (Item N)} (ha : ∀ i ∈ a, P i) (hb : ∀ i ∈ b, P i) : ∀ i ∈ a ++ b, P i :=
  fun i hi => (List.mem_append.1 hi).elim (ha i) (hb i)

theorem all_map {α : Type} {P : Item N → Prop} {f : α → Item N} {l : List α} (h : ∀ x, P (f x)) : ∀ i ∈ l.map f, P i := by
  intro i hi
  obtain ⟨x, -, rfl⟩ := List.mem_map.1 hi
  exact h x

/-- Which types the blocks of a section have. -/
macro "blocks" : tactic => `(tactic| (
  repeat' first
    | exact all_nil
    | apply all_append
    | apply all_map
    | (intro x; exact ⟨_, _, _, rfl⟩)
    | (intro x; rfl)
    | (intro x; simp only [Item.kind, Form.parametersDoc, Form.schemaDoc, Form.functionDoc, Form.sequenceDoc, Form.tableDoc,
        Form.indexDoc, Form.triggerDoc, ne_eq, Prev.block.injEq]; decide)
    | intro x))

/-- **C152, one object more.** If a database has one object more than another, its file has the lines of this object more, and
perhaps an empty line before them, and all other lines are the same. -/
theorem C152_added_partial {L : Lib F N} {db db' : Database F} {i : Item N} (h : Added L db db' i) :
    ∃ t ls b pre x post, i = .block t ls b ∧ Whole pre ∧
    (x = blockLines isPrint showN 0 t ls b ∨ x = b!"\n" ++ blockLines isPrint showN 0 t ls b) ∧
    print isPrint showN (write L db) = pre ++ post ∧
    print isPrint showN (write L db') = pre ++ x ++ post := by
  simp only [write_form]
  cases h with
  | schema db l r x =>
    obtain ⟨pre, x', post, g1, g2, g3, g4⟩ := print_insert (isPrint := isPrint) (showN := showN)
      (db.parameters.toList.map (Form.parametersDoc L))
      (db.functions.map (Form.functionDoc L) ++ db.sequences.map (Form.sequenceDoc L) ++ db.tables.map (Form.tableDoc L) ++ db.indexes.map (Form.indexDoc L) ++ db.triggers.map (Form.triggerDoc L))
      (l.map (Form.schemaDoc L)) (r.map (Form.schemaDoc L)) _ _ _ (by blocks) (by blocks) (by blocks) (by blocks) (by blocks) (by blocks)
    refine ⟨_, _, _, pre, x', post, rfl, g1, g2, ?_, ?_⟩
    · rw [← g3]; simp [Form.document]
    · rw [← g4]; simp [Form.document, Form.schemaDoc]
  | function db l r x =>
    obtain ⟨pre, x', post, g1, g2, g3, g4⟩ := print_insert (isPrint := isPrint) (showN := showN)
      (db.parameters.toList.map (Form.parametersDoc L) ++ db.schemas.map (Form.schemaDoc L))
      (db.sequences.map (Form.sequenceDoc L) ++ db.tables.map (Form.tableDoc L) ++ db.indexes.map (Form.indexDoc L) ++ db.triggers.map (Form.triggerDoc L))
      (l.map (Form.functionDoc L)) (r.map (Form.functionDoc L)) _ _ _ (by blocks) (by blocks) (by blocks) (by blocks) (by blocks) (by blocks)
    refine ⟨_, _, _, pre, x', post, rfl, g1, g2, ?_, ?_⟩
    · rw [← g3]; simp [Form.document]
    · rw [← g4]; simp [Form.document, Form.functionDoc]
  | sequence db l r x =>
    obtain ⟨pre, x', post, g1, g2, g3, g4⟩ := print_insert (isPrint := isPrint) (showN := showN)
      (db.parameters.toList.map (Form.parametersDoc L) ++ db.schemas.map (Form.schemaDoc L) ++ db.functions.map (Form.functionDoc L))
      (db.tables.map (Form.tableDoc L) ++ db.indexes.map (Form.indexDoc L) ++ db.triggers.map (Form.triggerDoc L))
      (l.map (Form.sequenceDoc L)) (r.map (Form.sequenceDoc L)) _ _ _ (by blocks) (by blocks) (by blocks) (by blocks) (by blocks) (by blocks)
    refine ⟨_, _, _, pre, x', post, rfl, g1, g2, ?_, ?_⟩
    · rw [← g3]; simp [Form.document]
    · rw [← g4]; simp [Form.document, Form.sequenceDoc]
  | table db l r x =>
    obtain ⟨pre, x', post, g1, g2, g3, g4⟩ := print_insert (isPrint := isPrint) (showN := showN)
      (db.parameters.toList.map (Form.parametersDoc L) ++ db.schemas.map (Form.schemaDoc L) ++ db.functions.map (Form.functionDoc L) ++ db.sequences.map (Form.sequenceDoc L))
      (db.indexes.map (Form.indexDoc L) ++ db.triggers.map (Form.triggerDoc L))
      (l.map (Form.tableDoc L)) (r.map (Form.tableDoc L)) _ _ _ (by blocks) (by blocks) (by blocks) (by blocks) (by blocks) (by blocks)
    refine ⟨_, _, _, pre, x', post, rfl, g1, g2, ?_, ?_⟩
    · rw [← g3]; simp [Form.document]
    · rw [← g4]; simp [Form.document, Form.tableDoc]
  | index db l r x =>
    obtain ⟨pre, x', post, g1, g2, g3, g4⟩ := print_insert (isPrint := isPrint) (showN := showN)
      (db.parameters.toList.map (Form.parametersDoc L) ++ db.schemas.map (Form.schemaDoc L) ++ db.functions.map (Form.functionDoc L) ++ db.sequences.map (Form.sequenceDoc L) ++ db.tables.map (Form.tableDoc L))
      (db.triggers.map (Form.triggerDoc L))
      (l.map (Form.indexDoc L)) (r.map (Form.indexDoc L)) _ _ _ (by blocks) (by blocks) (by blocks) (by blocks) (by blocks) (by blocks)
    refine ⟨_, _, _, pre, x', post, rfl, g1, g2, ?_, ?_⟩
    · rw [← g3]; simp [Form.document]
    · rw [← g4]; simp [Form.document, Form.indexDoc]
  | trigger db l r x =>
    obtain ⟨pre, x', post, g1, g2, g3, g4⟩ := print_insert (isPrint := isPrint) (showN := showN)
      (db.parameters.toList.map (Form.parametersDoc L) ++ db.schemas.map (Form.schemaDoc L) ++ db.functions.map (Form.functionDoc L) ++ db.sequences.map (Form.sequenceDoc L) ++ db.tables.map (Form.tableDoc L) ++ db.indexes.map (Form.indexDoc L))
      ([])
      (l.map (Form.triggerDoc L)) (r.map (Form.triggerDoc L)) _ _ _ (by blocks) (by blocks) (by blocks) (by blocks) (by blocks) (by blocks)
    refine ⟨_, _, _, pre, x', post, rfl, g1, g2, ?_, ?_⟩
    · rw [← g3]; simp [Form.document]
    · rw [← g4]; simp [Form.document, Form.triggerDoc]

end

/-! ## Cases -/

/-- The lines of a text. -/
def textLines : Str → List Str
  | [] => [[]]
  | c :: s =>
    if c = 0x0A then [] :: textLines s
    else match textLines s with
      | [] => [[c]]
      | l :: ls => (c :: l) :: ls

/-- The file of a database with one table. -/
def tableText (t : Table Int) : Str := print asciiPrint showInt (write (plain id) { tables := [t] })

/-- **C152, what does not hold.** One storage parameter of a table more changes the lines of the others too: the `=` of all
of them are put below each other, so a longer name moves them. -/
theorem C152_refuted : ∃ (t : Table Int) (p : Ddl.Params Int), p.autovacuumEnabled = none ∧
    ∃ line ∈ textLines (tableText { t with storageParameters := some p }),
      line ∉ textLines (tableText { t with storageParameters := some { p with autovacuumEnabled := some true } }) :=
  ⟨{ table := { schema := b!"public", name := b!"foo" } }, { fillfactor := some 70 }, rfl, b!"    fillfactor = 70",
    by decide +kernel, by decide +kernel⟩

/-- A table with two storage parameters. -/
def twoParameters : Table Int where
  table := { schema := b!"public", name := b!"foo" }
  storageParameters := some { fillfactor := some 70, autovacuumEnabled := some true }

/-- The line that moves. -/
example : b!"    fillfactor         = 70" ∈ textLines (tableText twoParameters) := by decide +kernel

/-- An index more, of a database that had none. -/
def oneIndex : Ddl.Index := { schema := b!"public", table := b!"foo", name := b!"foo_key", keys := [{ column := b!"key" }] }

example : Added (plain id) exampleDb { exampleDb with indexes := [oneIndex] } (Form.indexDoc (plain id) oneIndex) :=
  Added.index exampleDb [] [] oneIndex

/-- A column of the last table that takes another type, while the rest stays. -/
example (r : List (Table Int)) (t : Table Int) (c : List Ddl.Column) :
    ∃ db' i i', Changed (plain id)
        { exampleDb with tables := exampleDb.tables ++ { t with table := { t.table with
            columns := c ++ [{ name := b!"id", type := b!"integer" }] } } :: r } db' i i' ∧ i ≠ i' :=
  ⟨_, _, _, Changed.column exampleDb exampleDb.tables r t c [] { name := b!"id", type := b!"integer" }
    { name := b!"id", type := b!"bigint" }, by simp [Form.columnDoc, Form.text, plain]⟩

/-- A schema that gets another owner: one line. -/
example : Place (write (plain id) { schemas := [{ name := b!"public", owner := b!"me" }] })
    (write (plain id) { schemas := [{ name := b!"public", owner := b!"you\n" }] })
    (.attr b!"owner" (.str b!"me")) (.attr b!"owner" (.str b!"you\n")) :=
  Place.inside [] [] _ _ (Place.here [] _ _ _)

end Verif.Hcl
