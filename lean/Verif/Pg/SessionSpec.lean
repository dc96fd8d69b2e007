import Verif.Pg.Session

/-!
# What is promised about a session with the server (specification)
-/

namespace Verif.Pg.Session
open Verif Verif.Pg

/-! ## The log -/

/-- The line says that the statement `sql` is executed. -/
def Line.Tells (l : Line) (sql : Str) : Prop :=
  l.level = .debug ∧
    ((l.message = sql ∧ l.fields = []) ∨
     (l.message = b!"executing query" ∧ l.fields = [(b!"query", sql)]) ∨
     (l.message = b!"executing sql" ∧ l.fields = [(b!"sql", sql)]))

/-- The last line of level info. -/
def lastInfo (tr : List Event) : Option Line :=
  (tr.filterMap fun
    | .logged l => if l.level = .info then some l else none
    | .sent _ => none).getLast?

/-- The log tells what is sent: the line before a statement is sent tells it, the last line of level
info before it has its arguments, and a line that says that a statement is executed is followed by
sending that statement. -/
structure Told (tr : List Event) : Prop where
  before : ∀ pre a post, tr = pre ++ .sent a :: post →
    ∃ pre' l, pre = pre' ++ [.logged l] ∧ l.Tells a.text
  args : ∀ pre a post, tr = pre ++ .sent a :: post → a.args ≠ [] →
    ∃ l, lastInfo pre = some l ∧ l.fields.map (·.2) = a.args
  after : ∀ pre l post, tr = pre ++ .logged l :: post →
    l.message = b!"executing query" ∨ l.message = b!"executing sql" →
    ∃ a post', post = .sent a :: post' ∧ l.Tells a.text

/-- The number a series of digits stands for. -/
def digits (s : Str) : Nat := s.foldl (fun n b => 10 * n + (b.toNat - 48)) 0

/-- The line says how many rows a statement has affected. -/
def Line.Rows (l : Line) (k : Nat) : Prop :=
  ∃ s, l.message = b!"rows affected = " ++ s ∧ s ≠ [] ∧ (∀ b ∈ s, 48 ≤ b ∧ b ≤ 57) ∧ digits s = k

/-! ## Reading only -/

/-- The words that are directly followed by an opening parenthesis. -/
def called : List Ddl.Sql.Tok → List Str
  | .word w :: .sym 40 :: rest => w :: called (.sym 40 :: rest)
  | _ :: rest => called rest
  | [] => []

/-- Functions of PostgreSQL that do nothing but return a value. -/
def harmless : List Str :=
  [b!"pg_get_constraintdef", b!"pg_get_expr", b!"pg_get_userbyid", b!"pg_get_function_result",
   b!"pg_get_indexdef", b!"pg_get_triggerdef", b!"pg_function_is_visible", b!"pg_table_is_visible",
   b!"obj_description", b!"col_description", b!"format_type", b!"UNNEST", b!"VERSION"]

/-- Keywords that may be followed by a parenthesis. -/
def keywords : List Str := [b!"EXISTS", b!"IN", b!"ON"]

/-- The text is one statement, `SHOW` or `SELECT`. It does not write (`SELECT … INTO` makes a table,
and `WITH` may hold an `INSERT`), does not lock (`FOR UPDATE`), and the functions it calls do nothing
but return a value. -/
def ReadOnly (text : Str) : Prop :=
  ∃ first rest, Ddl.Sql.lex text = some (.word first :: rest) ∧
    (first = b!"SELECT" ∨ first = b!"SHOW") ∧
    (∀ toks more, rest = toks ++ .sym 59 :: more → more = []) ∧
    (∀ w ∈ [b!"INTO", b!"WITH", b!"FOR", b!"INSERT", b!"UPDATE", b!"DELETE", b!"CALL", b!"DO"],
      .word w ∉ rest) ∧
    ∀ w ∈ called rest, w ∈ harmless ∨ w ∈ keywords

/-! ## Statements and answers -/

/-- The error in an answer: the statement failed, or what it returned is not what the function that
sent it can use. -/
def refused {F : Type} (parseFloat : Str → F × Option Ddl.NumErr) : (a : Ask) → a.Answer → Option Err
  | .searchPath, r => error (queryRow r >>= scan)
  | .timezone, r => error (queryRow r >>= scan)
  | .version, r => error (queryRow r >>= scan)
  | .schemas, r => error (listRows r schemaRow)
  | .functions, r => error (listRows r functionRow)
  | .function schema name, r => error (describedFunction schema name r)
  | .hasView, r => error (queryRow r >>= scan)
  | .sequences, r => error (listRows r sequenceRow)
  | .legacySequences, r => error (listRows r legacySequenceRow)
  | .sequence _ _, r => error (filled {} r)
  | .tables, r => error (listRows r tableRow)
  | .columns _ _, r => error (listRows r columnRow)
  | .checks _ _, r => error (listRows r checkRow)
  | .foreignKeys _ _, r => error (listRows r foreignKeyRow)
  | .storage _ _, r => error (storageRows parseFloat r)
  | .indexes schema _, r => error (listRows r (indexRow schema))
  | .triggers schema _, r => error (listRows r (triggerRow schema))
  | .trigger schema _ _, r => error (describedTrigger schema r)
  | .exec _, r => r.2
where
  error {α : Type} : Except Err α → Option Err
    | .ok _ => none
    | .error e => some e

/-- What there is to ask about a table. -/
def aboutTable {F : Type} (x : TableInfo F) : List Ask :=
  [.columns x.table.schema x.table.name, .checks x.table.schema x.table.name,
   .foreignKeys x.table.schema x.table.name, .storage x.table.schema x.table.name,
   .indexes x.table.schema x.table.name, .triggers x.table.schema x.table.name]

/-- The statements of an inspection that yields `d`; `new` if the server has the view `pg_sequence`. -/
def plan {F : Type} (new : Bool) (d : Database F) : List Ask :=
  [.searchPath, .timezone, .schemas, .functions, .hasView] ++
  (if new then [.sequences]
   else .legacySequences :: d.sequences.map fun s => .sequence s.schema s.name) ++
  .tables :: d.tables.flatMap aboutTable

end Verif.Pg.Session
