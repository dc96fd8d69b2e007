import Verif.Ddl.Model
import Verif.Ddl.Lexer
import Verif.Base.Byte

/-!
# C37-C40: generated SQL
-/

namespace Verif.Ddl
open Verif Sql

theorem run_quoteBody (s : Str) (w : Str) (acc : List Tok) (rest : Str) :
    run (.ident w) acc (s.flatMap (fun b => if b = 34 then [34, 34] else [b]) ++ 34 :: rest) =
      run (.identQuote (w ++ s)) acc rest := by
  induction s generalizing w with
  | nil => simp [run, step]
  | cons b s ih =>
    by_cases hb : b = 34
    · subst hb
      simp only [List.flatMap_cons, if_true, List.cons_append, List.nil_append, run, step]
      rw [ih]
      simp
    · simp only [List.flatMap_cons, hb, if_false, List.cons_append, List.nil_append, run, step]
      rw [ih]
      simp

theorem run_quoteName (s : Str) (acc : List Tok) (rest : Str) :
    run .start acc (quoteName s ++ rest) = run (.identQuote s) acc rest := by
  have := run_quoteBody s [] acc rest
  simp only [List.nil_append] at this
  rw [← this]
  simp [quoteName, run, step, startStep, isSpace]

/-- After a quoted identifier, anything but a double quote starts afresh. -/
theorem run_identQuote (s : Str) (acc : List Tok) (rest : Str) (h : rest.head? ≠ some 34) :
    run (.identQuote s) acc rest = run .start (.ident s :: acc) rest := by
  cases rest with
  | nil => rfl
  | cons b rest =>
    have hb : b ≠ 34 := by simpa using h
    simp [run, step, hb]

theorem run_acc (st : State) (acc : List Tok) (s : Str) :
    run st acc s = (run st [] s).map (acc.reverse ++ ·) := by
  suffices h : ∀ (st : State) (a acc : List Tok) (s : Str),
      run st (a ++ acc) s = (run st a s).map (acc.reverse ++ ·) by
    simpa using h st [] acc s
  intro st a acc s
  induction s generalizing st a with
  | nil =>
    cases st <;> simp [run, finish]
  | cons b s ih =>
    have hs : ∀ a, (startStep (a ++ acc) b).1 = (startStep a b).1 ∧
        (startStep (a ++ acc) b).2 = (startStep a b).2 ++ acc := by
      intro a
      unfold startStep
      repeat' split
      all_goals simp
    have : (step st (a ++ acc) b).1 = (step st a b).1 ∧
        (step st (a ++ acc) b).2 = (step st a b).2 ++ acc := by
      cases st <;> simp only [step]
      case start => exact hs a
      case word w =>
        split
        · simp
        · exact hs (.word w :: a)
      case ident w => split <;> simp
      case identQuote w =>
        split
        · simp
        · exact hs (.ident w :: a)
      case str w => split <;> simp
      case strQuote w =>
        split
        · simp
        · exact hs (.str w :: a)
      case dash =>
        split
        · simp
        · exact hs (.sym 45 :: a)
      case comment => split <;> simp
      case dollar =>
        split
        · simp
        · exact hs (.sym 36 :: a)
      case body w => split <;> simp
      case bodyDollar w => split <;> simp
    rw [run, run, this.1, this.2, ih]

/-- C37: reading a quoted name followed by any text that does not start with a double quote yields
the name as one identifier and then the tokens of that text. -/
theorem C37_quoteName_one_identifier (s rest : Str) (h : rest.head? ≠ some 34) :
    lex (quoteName s ++ rest) = (lex rest).map (Tok.ident s :: ·) := by
  unfold lex
  rw [run_quoteName, run_identQuote _ _ _ h, run_acc]
  rfl

/-- C37: distinct names have distinct quotations. -/
theorem C37_quoteName_injective (s t : Str) (h : quoteName s = quoteName t) : s = t := by
  have hs := C37_quoteName_one_identifier s [] (by simp)
  have ht := C37_quoteName_one_identifier t [] (by simp)
  rw [List.append_nil] at hs ht
  rw [h, ht] at hs
  have hl : lex [] = some [] := rfl
  rw [hl] at hs
  simp at hs
  exact hs.symm

example : lex (quoteName b!"a\"; DROP TABLE x; --" ++ b!" (\n") =
    some [.ident b!"a\"; DROP TABLE x; --", .sym 40] := by decide

/-- Tokens of an identifier list separated by commas. -/
def commaIdents : List Str → List Tok
  | [] => []
  | [s] => [.ident s]
  | s :: ss => .ident s :: .sym 44 :: commaIdents ss

theorem keyLoop_append (i : Nat) (keys : List IndexKey) (sb : Str) :
    Index.keyLoop i keys sb = sb ++ Index.keyLoop i keys [] := by
  induction keys generalizing i sb with
  | nil => simp [Index.keyLoop]
  | cons k keys ih =>
    rw [Index.keyLoop, ih, Index.keyLoop, ih (i + 1) (_ ++ quoteName k.column)]
    split <;> simp

theorem run_keys_succ (i : Nat) (keys : List IndexKey) (s : Str) (acc : List Tok) (rest : Str)
    (h : rest.head? ≠ some 34) :
    run (.identQuote s) acc (Index.keyLoop (i + 1) keys [] ++ rest) =
      run .start ((commaIdents (s :: keys.map IndexKey.column)).reverse ++ acc) rest := by
  induction keys generalizing i s acc with
  | nil =>
    simp only [Index.keyLoop, List.nil_append, List.map_nil, commaIdents]
    rw [run_identQuote _ _ _ h]
    rfl
  | cons k keys ih =>
    rw [Index.keyLoop, if_pos (by omega), keyLoop_append]
    simp only [List.nil_append, List.append_assoc]
    rw [run_identQuote _ _ _ (by simp)]
    have : run .start (.ident s :: acc) (b!", " ++ (quoteName k.column ++
        (Index.keyLoop (i + 1 + 1) keys [] ++ rest))) =
        run .start (.sym 44 :: .ident s :: acc) (quoteName k.column ++
          (Index.keyLoop (i + 1 + 1) keys [] ++ rest)) := rfl
    rw [this, run_quoteName, ih]
    simp [commaIdents]

theorem run_keys (keys : List IndexKey) (acc : List Tok) (rest : Str)
    (h : rest.head? ≠ some 34) :
    run .start acc (Index.keyLoop 0 keys [] ++ rest) =
      run .start ((commaIdents (keys.map IndexKey.column)).reverse ++ acc) rest := by
  cases keys with
  | nil => rfl
  | cons k keys =>
    rw [Index.keyLoop, if_neg (by omega), keyLoop_append]
    simp only [List.nil_append, List.append_assoc]
    rw [run_quoteName, run_keys_succ _ _ _ _ _ h]
    rfl

/-- C38 for primary key indexes: the names are exactly the quoted identifiers of the statement. -/
theorem C38_index_names_confined_partial (idx : Index) (hp : idx.primary = true) :
    lex idx.toSQL = some (
      [.word b!"ALTER", .word b!"TABLE", .ident idx.table, .word b!"ADD"] ++
      (if idx.name = [] then [] else [.word b!"CONSTRAINT", .ident idx.name]) ++
      [.word b!"PRIMARY", .word b!"KEY", .sym 40] ++
      commaIdents (idx.keys.map IndexKey.column) ++ [.sym 41, .sym 59]) := by
  unfold lex Index.toSQL
  simp only [hp, if_true, List.nil_append]
  rw [keyLoop_append]
  have hend : ∀ acc, run .start acc b!")\n;\n" = some ((.sym 59 :: .sym 41 :: acc).reverse) :=
    fun acc => rfl
  have hkeys : ∀ acc, run .start acc (b!"PRIMARY KEY (" ++ (Index.keyLoop 0 idx.keys [] ++ b!")\n;\n")) =
      some (acc.reverse ++ [.word b!"PRIMARY", .word b!"KEY", .sym 40] ++
        commaIdents (idx.keys.map IndexKey.column) ++ [.sym 41, .sym 59]) := by
    intro acc
    have : run .start acc (b!"PRIMARY KEY (" ++ (Index.keyLoop 0 idx.keys [] ++ b!")\n;\n")) =
        run .start (.sym 40 :: .word b!"KEY" :: .word b!"PRIMARY" :: acc)
          (Index.keyLoop 0 idx.keys [] ++ b!")\n;\n") := rfl
    rw [this, run_keys _ _ _ (by simp), hend]
    simp
  by_cases hn : idx.name = []
  · simp only [hn, ne_eq, not_true, if_false, if_true, List.append_assoc]
    have h1 : ∀ r, run .start [] (b!"ALTER TABLE " ++ (quoteName idx.table ++ (b!"\n  ADD " ++ r))) =
        run .start [.word b!"ADD", .ident idx.table, .word b!"TABLE", .word b!"ALTER"] r := by
      intro r
      have : run .start [] (b!"ALTER TABLE " ++ (quoteName idx.table ++ (b!"\n  ADD " ++ r))) =
          run .start [.word b!"TABLE", .word b!"ALTER"]
            (quoteName idx.table ++ (b!"\n  ADD " ++ r)) := rfl
      rw [this, run_quoteName]
      rfl
    rw [h1]
    have := hkeys [.word b!"ADD", .ident idx.table, .word b!"TABLE", .word b!"ALTER"]
    simp only [List.append_assoc] at this
    exact this
  · simp only [hn, ne_eq, not_false_iff, if_true, if_false, List.append_assoc]
    have h1 : ∀ r, run .start [] (b!"ALTER TABLE " ++ (quoteName idx.table ++ (b!"\n  ADD " ++
          (b!"CONSTRAINT " ++ (quoteName idx.name ++ (b!"\n  " ++ r)))))) =
        run .start [.ident idx.name, .word b!"CONSTRAINT", .word b!"ADD", .ident idx.table,
          .word b!"TABLE", .word b!"ALTER"] r := by
      intro r
      have : run .start [] (b!"ALTER TABLE " ++ (quoteName idx.table ++ (b!"\n  ADD " ++
          (b!"CONSTRAINT " ++ (quoteName idx.name ++ (b!"\n  " ++ r)))))) =
          run .start [.word b!"TABLE", .word b!"ALTER"] (quoteName idx.table ++ (b!"\n  ADD " ++
          (b!"CONSTRAINT " ++ (quoteName idx.name ++ (b!"\n  " ++ r))))) := rfl
      rw [this, run_quoteName]
      have : run (.identQuote idx.table) [.word b!"TABLE", .word b!"ALTER"] (b!"\n  ADD " ++
          (b!"CONSTRAINT " ++ (quoteName idx.name ++ (b!"\n  " ++ r)))) =
          run .start [.word b!"CONSTRAINT", .word b!"ADD", .ident idx.table, .word b!"TABLE",
            .word b!"ALTER"] (quoteName idx.name ++ (b!"\n  " ++ r)) := rfl
      rw [this, run_quoteName]
      rfl
    rw [h1]
    have := hkeys [.ident idx.name, .word b!"CONSTRAINT", .word b!"ADD", .ident idx.table,
      .word b!"TABLE", .word b!"ALTER"]
    simp only [List.append_assoc] at this
    exact this

/-- C38 is false of indexes that are not primary keys: the statement is empty, no name appears. -/
theorem C38_refuted (idx : Index) (hp : idx.primary = false) : lex idx.toSQL = some [.sym 59] := by
  unfold Index.toSQL
  simp only [hp, Bool.false_eq_true, if_false]
  rfl

/-- What a column definition should read as. -/
def columnToks (col : Column) (type default_ : List Tok) : List Tok :=
  .ident col.name :: type ++ (if col.notNull then [.word b!"NOT", .word b!"NULL"] else []) ++
    (if col.default_ ≠ [] then .word b!"DEFAULT" :: default_ else [])

theorem run_column (col : Column) (type default_ : List Tok) (h1 : Fragment col.type type)
    (h2 : col.default_ ≠ [] → Fragment col.default_ default_) (acc : List Tok) (rest : Str) :
    run .start acc (col.toSQL ++ rest) =
      run .start ((columnToks col type default_).reverse ++ acc) rest := by
  unfold Column.toSQL columnToks
  simp only [List.append_assoc]
  rw [run_quoteName]
  have e1 : ∀ r, run (.identQuote col.name) acc (b!" " ++ r) = run .start (.ident col.name :: acc) r :=
    fun r => rfl
  rw [e1]
  have e5 : ∀ acc, run .start acc (b!"\n" ++ rest) = run .start acc rest := fun acc => rfl
  have e4 : ∀ acc, run .start acc ((if col.default_ ≠ [] then b!" DEFAULT " ++ col.default_ else []) ++
      (b!"\n" ++ rest)) =
      run .start ((if col.default_ ≠ [] then .word b!"DEFAULT" :: default_ else []).reverse ++ acc) rest := by
    intro acc
    by_cases hd : col.default_ = []
    · simp only [hd, ne_eq, not_true, if_false, List.reverse_nil, List.nil_append]
      exact e5 acc
    · simp only [hd, ne_eq, not_false_iff, if_true, List.append_assoc]
      have : ∀ r, run .start acc (b!" DEFAULT " ++ r) = run .start (.word b!"DEFAULT" :: acc) r :=
        fun r => rfl
      rw [this]
      have := h2 hd (.word b!"DEFAULT" :: acc) 10 rest (Or.inl rfl)
      simp only [List.cons_append, List.nil_append]
      rw [this]
      simp only [List.reverse_cons, List.append_assoc, List.cons_append, List.nil_append]
      rfl
  have e3 : ∀ acc, run .start acc ((if col.notNull = true then b!" NOT NULL" else []) ++
      ((if col.default_ ≠ [] then b!" DEFAULT " ++ col.default_ else []) ++ (b!"\n" ++ rest))) =
      run .start ((if col.default_ ≠ [] then .word b!"DEFAULT" :: default_ else []).reverse ++
        ((if col.notNull = true then [.word b!"NOT", .word b!"NULL"] else []).reverse ++ acc)) rest := by
    intro acc
    cases hn : col.notNull with
    | false =>
      simp only [Bool.false_eq_true, if_false, List.nil_append, List.reverse_nil]
      exact e4 acc
    | true =>
      simp only [if_true]
      rw [← e4]
      by_cases hd : col.default_ = []
      · simp only [hd, ne_eq, not_true, if_false, List.nil_append]; rfl
      · simp only [hd, ne_eq, not_false_iff, if_true]; rfl
  have hdelim : ∃ b r, (isSpace b ∨ b = 40 ∨ b = 41) ∧
      (if col.notNull = true then b!" NOT NULL" else []) ++
      ((if col.default_ ≠ [] then b!" DEFAULT " ++ col.default_ else []) ++ (b!"\n" ++ rest)) = b :: r := by
    cases hn : col.notNull with
    | true => exact ⟨32, _, Or.inl rfl, by simp; rfl⟩
    | false =>
      by_cases hd : col.default_ = []
      · exact ⟨10, rest, Or.inl rfl, by simp [hd]⟩
      · exact ⟨32, _, Or.inl rfl, by simp [hd]; rfl⟩
  obtain ⟨b, r, hb, heq⟩ := hdelim
  rw [heq, h1 _ b r hb, ← heq, e3]
  simp

theorem columnLoop_append (i : Nat) (cols : List Column) (sb : Str) :
    Table.columnLoop i cols sb = sb ++ Table.columnLoop i cols [] := by
  induction cols generalizing i sb with
  | nil => simp [Table.columnLoop]
  | cons k cols ih =>
    rw [Table.columnLoop, ih, Table.columnLoop, ih (i + 1) (_ ++ Column.toSQL k)]
    split <;> simp

theorem checkLoop_append (cs : List Check) (sb : Str) :
    Table.checkLoop cs sb = sb ++ Table.checkLoop cs [] := by
  induction cs generalizing sb with
  | nil => simp [Table.checkLoop]
  | cons k cs ih =>
    rw [Table.checkLoop, ih, Table.checkLoop, ih (_ ++ b!", CHECK(" ++ k.expression ++ b!")\n")]
    simp

/-- Column definitions separated by commas. `type`/`default_` give the tokens of the raw parts. -/
def columnListToks (type default_ : Column → List Tok) : List Column → List Tok
  | [] => []
  | [c] => columnToks c (type c) (default_ c)
  | c :: cs => columnToks c (type c) (default_ c) ++ .sym 44 :: columnListToks type default_ cs

/-- The CHECK clauses, each preceded by a comma. -/
def checkListToks (expr : Check → List Tok) : List Check → List Tok
  | [] => []
  | k :: cs => [.sym 44, .word b!"CHECK", .sym 40] ++ expr k ++ [.sym 41] ++ checkListToks expr cs

theorem run_columns_succ (type default_ : Column → List Tok) (i : Nat) (cols : List Column)
    (ht : ∀ c ∈ cols, Fragment c.type (type c))
    (hd : ∀ c ∈ cols, c.default_ ≠ [] → Fragment c.default_ (default_ c))
    (acc : List Tok) (rest : Str) :
    run .start acc (Table.columnLoop (i + 1) cols [] ++ rest) =
      run .start ((cols.flatMap (fun c => .sym 44 :: columnToks c (type c) (default_ c))).reverse ++ acc)
        rest := by
  induction cols generalizing i acc with
  | nil => rfl
  | cons c cols ih =>
    rw [Table.columnLoop, if_neg (by omega), columnLoop_append]
    simp only [List.nil_append, List.append_assoc]
    have : ∀ r, run .start acc (b!", " ++ r) = run .start (.sym 44 :: acc) r := fun r => rfl
    rw [this, run_column c _ _ (ht c (by simp)) (hd c (by simp)),
      ih (i + 1) (fun c' h => ht c' (by simp [h])) (fun c' h => hd c' (by simp [h]))]
    simp

theorem columnListToks_eq (type default_ : Column → List Tok) (c : Column) (cols : List Column) :
    columnListToks type default_ (c :: cols) = columnToks c (type c) (default_ c) ++
      cols.flatMap (fun c => .sym 44 :: columnToks c (type c) (default_ c)) := by
  induction cols generalizing c with
  | nil => simp [columnListToks]
  | cons d cols ih =>
    rw [columnListToks, ih, List.flatMap_cons]
    · simp
    · simp

theorem run_columns (type default_ : Column → List Tok) (cols : List Column)
    (ht : ∀ c ∈ cols, Fragment c.type (type c))
    (hd : ∀ c ∈ cols, c.default_ ≠ [] → Fragment c.default_ (default_ c))
    (acc : List Tok) (rest : Str) :
    run .start acc (Table.columnLoop 0 cols [] ++ rest) =
      run .start ((columnListToks type default_ cols).reverse ++ acc) rest := by
  cases cols with
  | nil => rfl
  | cons c cols =>
    rw [Table.columnLoop, if_pos (by omega), columnLoop_append]
    simp only [List.nil_append, List.append_assoc]
    have : ∀ r, run .start acc (b!"  " ++ r) = run .start acc r := fun r => rfl
    rw [this, run_column c _ _ (ht c (by simp)) (hd c (by simp)),
      run_columns_succ type default_ 0 cols (fun c' h => ht c' (by simp [h]))
        (fun c' h => hd c' (by simp [h])), columnListToks_eq]
    simp

theorem run_checks (expr : Check → List Tok) (cs : List Check)
    (he : ∀ c ∈ cs, Fragment c.expression (expr c)) (acc : List Tok) (rest : Str) :
    run .start acc (Table.checkLoop cs [] ++ rest) =
      run .start ((checkListToks expr cs).reverse ++ acc) rest := by
  induction cs generalizing acc with
  | nil => rfl
  | cons k cs ih =>
    rw [Table.checkLoop, checkLoop_append]
    simp only [List.nil_append, List.append_assoc]
    have h1 : ∀ r, run .start acc (b!", CHECK(" ++ r) =
        run .start (.sym 40 :: .word b!"CHECK" :: .sym 44 :: acc) r := fun r => rfl
    rw [h1]
    have h2 := he k (by simp) (.sym 40 :: .word b!"CHECK" :: .sym 44 :: acc) 41
      (10 :: (Table.checkLoop cs [] ++ rest)) (Or.inr (Or.inr rfl))
    simp only [List.cons_append, List.nil_append] at h2 ⊢
    rw [h2]
    have h3 : ∀ acc r, run .start acc (41 :: 10 :: r) = run .start (.sym 41 :: acc) r :=
      fun _ _ => rfl
    rw [h3, ih (fun c h => he c (by simp [h]))]
    simp [checkListToks]

/-- C38 for tables: the token sequence of the statement. Names contribute one quoted identifier
each, whatever their bytes; types, defaults and check expressions are raw SQL by design and are
required to be lexically self-contained. -/
theorem C38_table_names_confined (t : Table) (type default_ : Column → List Tok)
    (expr : Check → List Tok)
    (ht : ∀ c ∈ t.columns, Fragment c.type (type c))
    (hd : ∀ c ∈ t.columns, c.default_ ≠ [] → Fragment c.default_ (default_ c))
    (he : ∀ c ∈ t.checks, Fragment c.expression (expr c)) :
    lex t.toSQL = some (
      [.word b!"CREATE", .word b!"TABLE", .ident t.name, .sym 40] ++
      columnListToks type default_ t.columns ++ checkListToks expr t.checks ++
      [.sym 41, .sym 59]) := by
  unfold lex Table.toSQL
  simp only
  rw [checkLoop_append, columnLoop_append]
  simp only [List.append_assoc]
  have h1 : ∀ r, run .start [] (b!"CREATE TABLE " ++ r) =
      run .start [.word b!"TABLE", .word b!"CREATE"] r := fun r => rfl
  rw [h1, run_quoteName]
  have h2 : ∀ r, run (.identQuote t.name) [.word b!"TABLE", .word b!"CREATE"] (b!" (\n" ++ r) =
      run .start [.sym 40, .ident t.name, .word b!"TABLE", .word b!"CREATE"] r := fun r => rfl
  rw [h2, run_columns type default_ _ ht hd, run_checks expr _ he]
  have hend : ∀ acc, run .start acc b!")\n;\n" = some ((.sym 59 :: .sym 41 :: acc).reverse) :=
    fun acc => rfl
  rw [hend]
  simp

/-- C38 for triggers. `When` and `Function` are raw SQL by design. -/
theorem C38_trigger_names_confined (t : Trigger) (when_ fn : List Tok)
    (hw : Fragment t.when_ when_) (hf : Fragment t.function fn) :
    lex t.toSQL = some (
      [.word b!"CREATE", .word b!"TRIGGER", .ident t.name] ++ when_ ++
      (if t.update then [.word b!"UPDATE"] else []) ++ [.word b!"ON", .ident t.table] ++
      (if t.forEachRow then [.word b!"FOR", .word b!"EACH", .word b!"ROW"] else []) ++
      [.word b!"EXECUTE", .word b!"PROCEDURE"] ++ fn ++ [.sym 40, .sym 41, .sym 59]) := by
  unfold lex Trigger.toSQL
  simp only [List.append_assoc]
  have h1 : ∀ r, run .start [] (b!"CREATE TRIGGER " ++ r) =
      run .start [.word b!"TRIGGER", .word b!"CREATE"] r := fun r => rfl
  rw [h1, run_quoteName]
  have h2 : ∀ acc r, run (.identQuote t.name) acc (b!"\n  " ++ r) =
      run .start (.ident t.name :: acc) r := fun acc r => rfl
  rw [h2]
  have hend : ∀ acc, run .start acc (t.function ++ b!"()\n;\n") =
      some (acc.reverse ++ fn ++ [.sym 40, .sym 41, .sym 59]) := by
    intro acc
    have := hf acc 40 b!")\n;\n" (Or.inr (Or.inl rfl))
    rw [this]
    have : ∀ acc, run .start acc (40 :: b!")\n;\n") =
        some ((.sym 59 :: .sym 41 :: .sym 40 :: acc).reverse) := fun acc => rfl
    rw [this]
    simp
  have h5 : ∀ acc, run (.identQuote t.table) acc
      ((if t.forEachRow = true then b!"\n  FOR EACH ROW" else []) ++
        (b!"\n  EXECUTE PROCEDURE " ++ (t.function ++ b!"()\n;\n"))) =
      some (acc.reverse ++ [.ident t.table] ++
        (if t.forEachRow then [.word b!"FOR", .word b!"EACH", .word b!"ROW"] else []) ++
        [.word b!"EXECUTE", .word b!"PROCEDURE"] ++ fn ++ [.sym 40, .sym 41, .sym 59]) := by
    intro acc
    cases t.forEachRow with
    | true =>
      have : ∀ r, run (.identQuote t.table) acc (b!"\n  FOR EACH ROW" ++ (b!"\n  EXECUTE PROCEDURE " ++ r)) =
          run .start (.word b!"PROCEDURE" :: .word b!"EXECUTE" :: .word b!"ROW" :: .word b!"EACH" ::
            .word b!"FOR" :: .ident t.table :: acc) r := fun r => rfl
      simp only [if_true]
      rw [this, hend]
      simp
    | false =>
      have : ∀ r, run (.identQuote t.table) acc ([] ++ (b!"\n  EXECUTE PROCEDURE " ++ r)) =
          run .start (.word b!"PROCEDURE" :: .word b!"EXECUTE" :: .ident t.table :: acc) r := fun r => rfl
      simp only [Bool.false_eq_true, if_false]
      rw [this, hend]
      simp
  cases hu : t.update with
  | true =>
    simp only [if_true]
    have h3 := hw [.ident t.name, .word b!"TRIGGER", .word b!"CREATE"] 32
      (b!"UPDATE" ++ (b!" ON " ++ (quoteName t.table ++
        ((if t.forEachRow = true then b!"\n  FOR EACH ROW" else []) ++
        (b!"\n  EXECUTE PROCEDURE " ++ (t.function ++ b!"()\n;\n"))))))
      (Or.inl rfl)
    simp only [List.cons_append, List.nil_append] at h3 h5 ⊢
    rw [h3]
    have h4 : ∀ acc r, run .start acc (32 :: 85 :: 80 :: 68 :: 65 :: 84 :: 69 :: 32 :: 79 :: 78 :: 32 :: r) =
        run .start (.word b!"ON" :: .word b!"UPDATE" :: acc) r := fun acc r => rfl
    rw [h4, run_quoteName, h5]
    simp
  | false =>
    simp only [Bool.false_eq_true, if_false, List.nil_append]
    have h3 := hw [.ident t.name, .word b!"TRIGGER", .word b!"CREATE"] 32
      (b!"ON " ++ (quoteName t.table ++
        ((if t.forEachRow = true then b!"\n  FOR EACH ROW" else []) ++
        (b!"\n  EXECUTE PROCEDURE " ++ (t.function ++ b!"()\n;\n")))))
      (Or.inl rfl)
    simp only [List.cons_append, List.nil_append] at h3 h5 ⊢
    rw [h3]
    have h4 : ∀ acc r, run .start acc (32 :: 79 :: 78 :: 32 :: r) =
        run .start (.word b!"ON" :: acc) r := fun acc r => rfl
    rw [h4, run_quoteName, h5]
    simp

/-- A plain word ends at the next byte that cannot be in a word. -/
theorem run_word (w : Str) (h : w ≠ []) (hw : ∀ b ∈ w, isWord b = true) (acc : List Tok) (b : UInt8)
    (rest : Str) (hnw : isWord b = false ∧ (b == 36) = false) :
    run .start acc (w ++ b :: rest) = run .start (.word w :: acc) (b :: rest) := by
  have hstart : ∀ (a : UInt8), isWord a = true → ∀ acc, startStep acc a = (.word [a], acc) := by
    intro a ha acc
    unfold startStep
    have e1 : isSpace a = false := (by decide +kernel : ∀ a : UInt8, isWord a = true → isSpace a = false) a ha
    have e2 : a ≠ 34 := by rintro rfl; simp [isWord] at ha
    have e3 : a ≠ 39 := by rintro rfl; simp [isWord] at ha
    have e4 : a ≠ 45 := by rintro rfl; simp [isWord] at ha
    have e5 : a ≠ 36 := by rintro rfl; simp [isWord] at ha
    simp [e1, e2, e3, e4, e5, ha]
  have hrun : ∀ (w u : Str) acc r, (∀ b ∈ w, isWord b = true) →
      run (.word u) acc (w ++ r) = run (.word (u ++ w)) acc r := by
    intro w
    induction w with
    | nil => intro u acc r _; simp
    | cons a w ih =>
      intro u acc r hh
      have ha := hh a (by simp)
      simp only [List.cons_append, run, step, ha, Bool.true_or, if_true]
      rw [ih _ _ _ (fun b hb => hh b (by simp [hb]))]
      simp
  cases w with
  | nil => exact absurd rfl h
  | cons a w =>
    simp only [List.cons_append, run, step, hstart a (hw a (by simp))]
    rw [hrun _ _ _ _ (fun b hb => hw b (by simp [hb]))]
    simp [run, step, hnw.1, hnw.2]

/-- A plain word is a self-contained fragment: the hypotheses of C38 are met. -/
theorem fragment_word (w : Str) (h : w ≠ []) (hw : ∀ b ∈ w, isWord b = true) :
    Fragment w [.word w] := by
  intro acc b rest hb
  have : ∀ b : UInt8, (isSpace b ∨ b = 40 ∨ b = 41) → isWord b = false ∧ (b == 36) = false := by
    decide +kernel
  exact run_word w h hw acc b rest (this b hb)

example : lex ({ name := b!"t\"1", columns := [{ name := b!"a b", type := b!"integer", notNull := true },
    { name := b!"c", type := b!"text", default_ := b!"null" }] } : Table).toSQL =
    some [.word b!"CREATE", .word b!"TABLE", .ident b!"t\"1", .sym 40, .ident b!"a b", .word b!"integer",
      .word b!"NOT", .word b!"NULL", .sym 44, .ident b!"c", .word b!"text", .word b!"DEFAULT",
      .word b!"null", .sym 41, .sym 59] := by decide +kernel

/-- `$$` occurs in `s`. -/
def HasDelim (s : Str) : Prop := b!"$$" <:+: s

theorem run_body (s : Str) (w : Str) (acc : List Tok) (rest : Str)
    (h : ¬ HasDelim s) (hl : s.getLast? ≠ some 36) :
    run (.body w) acc (s ++ b!"$$" ++ rest) = run .start (.dollar (w ++ s) :: acc) rest := by
  match s with
  | [] => simp [run, step]
  | [a] =>
    have ha : a ≠ 36 := by simpa using hl
    simp [run, step, ha]
  | a :: b :: s =>
    by_cases ha : a = 36
    · subst ha
      have hb : b ≠ 36 := by
        rintro rfl
        exact h ⟨[], s, by simp⟩
      have h1 : ¬ HasDelim s := fun ⟨x, y, e⟩ => h ⟨36 :: b :: x, y, by simp [← e]⟩
      have h2 : s.getLast? ≠ some 36 := by
        cases s with
        | nil => simp
        | cons c s => simpa using hl
      have := run_body s (w ++ [36, b]) acc rest h1 h2
      simp only [List.cons_append, run, step, if_true, hb, if_false]
      rw [this]
      simp
    · have h1 : ¬ HasDelim (b :: s) := fun ⟨x, y, e⟩ => h ⟨a :: x, y, by simp [← e]⟩
      have h2 : (b :: s).getLast? ≠ some 36 := by simpa using hl
      have := run_body (b :: s) (w ++ [a]) acc rest h1 h2
      simp only [List.cons_append] at this ⊢
      rw [run]
      simp only [step, ha, if_false]
      rw [this]
      simp
termination_by s.length

theorem run_strBody (s : Str) (w : Str) (acc : List Tok) (rest : Str) (h : (39 : UInt8) ∉ s) :
    run (.str w) acc (s ++ 39 :: rest) = run (.strQuote (w ++ s)) acc rest := by
  induction s generalizing w with
  | nil => simp [run, step]
  | cons b s ih =>
    simp only [List.mem_cons, not_or] at h
    have hb : b ≠ 39 := fun e => h.1 e.symm
    simp only [List.cons_append, run, step, hb, if_false]
    rw [ih _ h.2]
    simp

/-- C39 for definitions that neither contain `$$` nor end in `$` (and languages without quote): the
statement reads back with body newline + Definition. -/
theorem C39_function_body_partial (f : Function) (name returns : List Tok)
    (hn : Fragment f.name name) (hr : Fragment f.returns returns)
    (h1 : ¬ HasDelim f.definition) (h2 : f.definition.getLast? ≠ some 36)
    (hl : (39 : UInt8) ∉ f.language) :
    lex f.toSQL = some (
      [.word b!"CREATE", .word b!"OR", .word b!"REPLACE", .word b!"FUNCTION"] ++ name ++
      [.sym 40, .sym 41, .word b!"RETURNS"] ++ returns ++
      [.word b!"AS", .dollar (b!"\n" ++ f.definition), .word b!"LANGUAGE", .str f.language, .sym 59]) := by
  unfold lex Function.toSQL
  simp only [List.append_assoc]
  have e1 : ∀ r, run .start [] (b!"CREATE OR REPLACE FUNCTION " ++ r) =
      run .start [.word b!"FUNCTION", .word b!"REPLACE", .word b!"OR", .word b!"CREATE"] r := fun r => rfl
  rw [e1]
  have e2 := fun r => hn [.word b!"FUNCTION", .word b!"REPLACE", .word b!"OR", .word b!"CREATE"] 40 r
    (Or.inr (Or.inl rfl))
  simp only [List.cons_append, List.nil_append] at e2 ⊢
  rw [e2]
  have e3 : ∀ acc r, run .start acc (40 :: 41 :: 10 :: 82 :: 69 :: 84 :: 85 :: 82 :: 78 :: 83 :: 32 :: r) =
      run .start (.word b!"RETURNS" :: .sym 41 :: .sym 40 :: acc) r := fun acc r => rfl
  rw [e3]
  have e4 := fun acc r => hr acc 32 r (Or.inl rfl)
  rw [e4]
  have e5 : ∀ acc r, run .start acc (32 :: 65 :: 83 :: 32 :: 36 :: 36 :: r) =
      run (.body []) (.word b!"AS" :: acc) r := fun acc r => rfl
  rw [e5]
  have hnd : ¬ HasDelim (10 :: f.definition) := by
    rintro ⟨x, y, e⟩
    cases x with
    | nil => simp at e
    | cons a x =>
      simp only [List.cons_append, List.cons.injEq] at e
      exact h1 ⟨x, y, e.2⟩
  have hlast : (10 :: f.definition).getLast? ≠ some 36 := by
    cases hdef : f.definition with
    | nil => simp
    | cons a d => rw [hdef] at h2; simpa using h2
  have e6 := fun acc r => run_body (10 :: f.definition) [] acc r hnd hlast
  simp only [List.append_assoc, List.cons_append, List.nil_append] at e6
  rw [e6]
  have e7 : ∀ acc r, run .start acc (32 :: 76 :: 65 :: 78 :: 71 :: 85 :: 65 :: 71 :: 69 :: 32 :: 39 :: r) =
      run (.str []) (.word b!"LANGUAGE" :: acc) r := fun acc r => rfl
  rw [e7, run_strBody _ _ _ _ hl]
  simp only [List.nil_append]
  have e8 : ∀ l acc, run (.strQuote l) acc b!"\n;\n" = some ((.sym 59 :: .str l :: acc).reverse) :=
    fun l acc => rfl
  rw [e8]
  simp

/-- C39 is false: a definition ending in `$` loses it and leaves a stray `$`, and a definition
containing `$$` ends early. -/
theorem C39_refuted :
    lex ({ name := b!"f", returns := b!"int", language := b!"sql", definition := b!"SELECT 1$" }
      : Function).toSQL =
      some [.word b!"CREATE", .word b!"OR", .word b!"REPLACE", .word b!"FUNCTION", .word b!"f", .sym 40,
        .sym 41, .word b!"RETURNS", .word b!"int", .word b!"AS", .dollar b!"\nSELECT 1", .sym 36,
        .word b!"LANGUAGE", .str b!"sql", .sym 59] ∧
    lex ({ name := b!"f", returns := b!"int", language := b!"sql", definition := b!"a$$b" }
      : Function).toSQL =
      some [.word b!"CREATE", .word b!"OR", .word b!"REPLACE", .word b!"FUNCTION", .word b!"f", .sym 40,
        .sym 41, .word b!"RETURNS", .word b!"int", .word b!"AS", .dollar b!"\na", .word b!"b$$",
        .word b!"LANGUAGE", .str b!"sql", .sym 59] := by
  refine ⟨by decide +kernel, by decide +kernel⟩

example : lex (Function.toSQL { name := b!"f", returns := b!"trigger", language := b!"plpgsql"
                                definition := b!"BEGIN RETURN NEW; END;\n" }) =
    some [.word b!"CREATE", .word b!"OR", .word b!"REPLACE", .word b!"FUNCTION", .word b!"f", .sym 40,
      .sym 41, .word b!"RETURNS", .word b!"trigger", .word b!"AS",
      .dollar b!"\nBEGIN RETURN NEW; END;\n", .word b!"LANGUAGE", .str b!"plpgsql", .sym 59] := by
  decide +kernel

end Verif.Ddl
