import Verif.Pg.SessionProps

/-!
# C125: nothing but `Exec` changes the database
-/

namespace Verif.Pg.Session
open Verif Verif.Pg Verif.Ddl.Sql

/-- `ReadOnly` as a computation. -/
def readOnlyB (text : Str) : Bool :=
  match lex text with
  | some (.word first :: rest) =>
    (first == b!"SELECT" || first == b!"SHOW") &&
    !(rest.dropLast.contains (.sym 59)) &&
    [b!"INTO", b!"WITH", b!"FOR", b!"INSERT", b!"UPDATE", b!"DELETE", b!"CALL", b!"DO"].all
      (fun w => !(rest.contains (.word w))) &&
    (called rest).all fun w => harmless.contains w || keywords.contains w
  | _ => false

theorem readOnly_of (text : Str) (h : readOnlyB text = true) : ReadOnly text := by
  unfold readOnlyB at h
  split at h
  · next first rest hl =>
    simp only [Bool.and_eq_true, Bool.or_eq_true, beq_iff_eq, Bool.not_eq_true',
      List.contains_eq_mem, decide_eq_true_eq, decide_eq_false_iff_not, List.all_eq_true] at h
    obtain ⟨⟨⟨h1, h2⟩, h3⟩, h4⟩ := h
    refine ⟨first, rest, hl, h1, fun toks more hr => ?_, h3, h4⟩
    cases more with
    | nil => rfl
    | cons m ms =>
      refine absurd ?_ h2
      rw [hr, show toks ++ Tok.sym 59 :: m :: ms = (toks ++ [.sym 59]) ++ (m :: ms) by simp,
        List.dropLast_append_of_ne_nil (by simp)]
      simp
  · cases h

theorem readOnly_legacy (schema name : Str) : ReadOnly (legacyQuery schema name) := by
  have h := (C110_legacy_query schema name schema name).2 ⟨rfl, rfl⟩
  refine ⟨_, _, h, .inl rfl, fun toks more hr => ?_, fun w hw hm => ?_, fun w hw => ?_⟩
  · have : Tok.sym 59 ∈ toks ++ .sym 59 :: more := by simp
    rw [← hr] at this
    simp at this
  · simp only [List.mem_cons, reduceCtorEq, Tok.word.injEq, List.not_mem_nil, or_false,
      false_or] at hm hw
    rcases hm with rfl | rfl | rfl | rfl | rfl | rfl | rfl <;> exact absurd hw (by decide)
  · simp [called] at hw

/-- Every statement but that of `Exec` reads only. -/
theorem ask_readOnly (a : Ask) (h : ∀ sql, a ≠ .exec sql) : ReadOnly a.text := by
  cases a with
  | exec sql => exact absurd rfl (h sql)
  | sequence schema name => exact readOnly_legacy _ _
  | _ => exact readOnly_of _ (by simp only [Ask.text]; decide +kernel)

theorem statements_append (a b : List Event) : statements (a ++ b) = statements a ++ statements b := by
  simp [statements]

/-- The statements a function sends satisfy `P`, whatever is answered. -/
def Sends {α : Type} (P : Ask → Prop) (t : Talk α) : Prop :=
  ∀ srv n, ∀ a ∈ statements (t.run srv n).1, P a

theorem Sends.bind {α β : Type} {P : Ask → Prop} {t : Talk α} {f : α → Talk β} (h : Sends P t)
    (hf : ∀ a, Sends P (f a)) : Sends P (t.bind f) := by
  intro srv n
  rw [run_bind]
  have := h srv n
  rcases ht : t.run srv n with ⟨tr, m, e | a⟩ <;> rw [ht] at this
  · exact this
  · intro x hx
    rw [statements_append, List.mem_append] at hx
    rcases hx with hx | hx
    · exact this x hx
    · exact hf a srv m x hx

theorem sends_done {α : Type} {P : Ask → Prop} (r : Except Err α) : Sends P (.done r) := by
  intro srv n a ha
  simp [Talk.run, statements] at ha

theorem sends_note {P : Ask → Prop} (l : Line) : Sends P (note l) := by
  intro srv n a ha
  simp [Talk.run, note, statements] at ha

theorem sends_ask {P : Ask → Prop} {a : Ask} (h : P a) : Sends P (ask a) := by
  intro srv n b hb
  simp [Talk.run, ask, statements] at hb
  exact hb ▸ h

/-- The statement is not one of `Exec`. -/
def Ask.Query (a : Ask) : Prop := ∀ sql, a ≠ .exec sql

theorem sends_single {α : Type} (m : Str) (fields : List (Str × Str)) (q : Str) (a : Ask)
    (f : a.Answer → Except Err α) (h : a.Query) :
    Sends Ask.Query
      (info m fields >>= fun _ => executing q >>= fun _ => ask a >>= fun r => lift (f r)) :=
  .bind (sends_note _) fun _ => .bind (sends_note _) fun _ => .bind (sends_ask h) fun _ => sends_done _

theorem sends_listParameters : Sends Ask.Query listParameters :=
  .bind (sends_note _) fun _ => .bind (sends_note _) fun _ =>
    .bind (sends_ask (a := .searchPath) fun _ h => by cases h) fun _ =>
    .bind (sends_done _) fun _ => .bind (sends_note _) fun _ =>
    .bind (sends_ask (a := .timezone) fun _ h => by cases h) fun _ =>
    .bind (sends_done _) fun _ => sends_done _

theorem sends_fillSequences (seqs : List Sequence) : Sends Ask.Query (fillSequences seqs) := by
  induction seqs with
  | nil => exact sends_done _
  | cons seq rest ih =>
    exact .bind (sends_note _) fun _ =>
      .bind (sends_ask (a := .sequence seq.schema seq.name) fun _ h => by cases h) fun _ =>
      .bind (sends_done _) fun _ => .bind ih fun _ => sends_done _

theorem sends_listSequences : Sends Ask.Query listSequences := by
  refine .bind (sends_note _) fun _ => .bind (sends_note _) fun _ =>
    .bind (sends_ask (a := .hasView) fun _ h => by cases h) fun _ =>
    .bind (sends_done _) fun hasView => ?_
  cases hasView with
  | true =>
    exact .bind (sends_note _) fun _ =>
      .bind (sends_ask (a := .sequences) fun _ h => by cases h) fun _ => sends_done _
  | false =>
    exact .bind (sends_note _) fun _ =>
      .bind (sends_ask (a := .legacySequences) fun _ h => by cases h) fun _ =>
      .bind (sends_done _) fun seqs => sends_fillSequences seqs

section
variable {F : Type} (parseFloat : Str → F × Option Ddl.NumErr) (sort : Sorter)

theorem sends_inspectTable (o : InspectOptions) (idx : List Ddl.Index) (trg : List Ddl.Trigger)
    (t : Ddl.Table) : Sends Ask.Query (inspectTable parseFloat sort o idx trg t) :=
  .bind (sends_single _ _ _ _ _ fun _ h => by cases h) fun _ =>
  .bind (sends_single _ _ _ _ _ fun _ h => by cases h) fun _ =>
  .bind (sends_single _ _ _ _ _ fun _ h => by cases h) fun _ =>
  .bind (sends_single _ _ _ _ _ fun _ h => by cases h) fun _ =>
  .bind (sends_single _ _ _ _ _ fun _ h => by cases h) fun _ =>
  .bind (sends_single _ _ _ _ _ fun _ h => by cases h) fun _ => sends_done _

theorem sends_inspectLoop (o : InspectOptions) (ts : List Ddl.Table) (infos : List (TableInfo F))
    (idx : List Ddl.Index) (trg : List Ddl.Trigger) :
    Sends Ask.Query (inspectLoop parseFloat sort o ts infos idx trg) := by
  induction ts generalizing infos idx trg with
  | nil => exact sends_done _
  | cons t rest ih => exact .bind (sends_inspectTable _ _ _ _ _ _) fun _ => ih _ _ _

theorem sends_inspect (o : InspectOptions) : Sends Ask.Query (inspect parseFloat sort o) :=
  .bind sends_listParameters fun _ =>
  .bind (sends_single _ _ _ _ _ fun _ h => by cases h) fun _ =>
  .bind (sends_single _ _ _ _ _ fun _ h => by cases h) fun _ =>
  .bind sends_listSequences fun _ =>
  .bind (sends_single _ _ _ _ _ fun _ h => by cases h) fun _ =>
  .bind (sends_inspectLoop _ _ _ _ _ _ _) fun _ => sends_done _

theorem sends_call (c : Call) (h : ∀ sql, c ≠ .exec sql) :
    Sends Ask.Query (c.talk parseFloat sort) := by
  cases c with
  | exec sql => exact absurd rfl (h sql)
  | listParameters => exact .bind sends_listParameters fun _ => sends_done _
  | listSequences => exact .bind sends_listSequences fun _ => sends_done _
  | inspectDatabase o => exact .bind (sends_inspect _ _ o) fun _ => sends_done _
  | _ => exact .bind (sends_single _ _ _ _ _ fun _ h => by cases h) fun _ => sends_done _

theorem exec_statements (sql : Str) (srv : Server) (n : Nat) :
    statements (((exec sql).run srv n).1) = [.exec sql] := by
  show .exec sql :: statements (Talk.run srv (n + 1) (match (srv n (.exec sql)).2 with
    | some e => (note (rowsAffected (srv n (.exec sql)).1)).bind fun _ => lift (.error e)
    | none => Talk.done (.ok ()))).1 = _
  cases (srv n (.exec sql)).2 <;> rfl

/-- The texts given to `Exec`, in order. -/
def execTexts (calls : List Call) : List Str :=
  calls.filterMap fun | .exec sql => some sql | _ => none

/-- The statements of `Exec`, in order. -/
def execs (l : List Ask) : List Str := l.filterMap fun | .exec sql => some sql | _ => none

theorem execs_queries {l : List Ask} (h : ∀ a ∈ l, a.Query) : execs l = [] := by
  unfold execs
  rw [List.filterMap_eq_nil_iff]
  intro a ha
  cases a <;> first | rfl | exact absurd rfl (h _ ha _)

theorem execs_session (srv : Server) (calls : List Call) (n : Nat) :
    execs (statements (session parseFloat sort srv n calls)) = execTexts calls := by
  induction calls generalizing n with
  | nil => rfl
  | cons c calls ih =>
    rw [session, statements_append]
    simp only [execs, List.filterMap_append]
    simp only [execs] at ih
    rw [ih]
    by_cases hc : ∃ sql, c = .exec sql
    · obtain ⟨sql, rfl⟩ := hc
      rw [show (Call.exec sql).talk parseFloat sort = exec sql from rfl, exec_statements]
      rfl
    · have hc' : ∀ sql, c ≠ .exec sql := fun sql h => hc ⟨sql, h⟩
      have h0 := execs_queries (sends_call parseFloat sort c hc' srv n)
      simp only [execs] at h0
      rw [h0]
      cases c <;> first | rfl | exact absurd rfl (hc' _)

/-- C125. For every series of calls over one connection, whatever the server answers and whatever the
names in the database and in the arguments are: each statement that is sent reads only, except those
given to `Exec`, and these are sent unchanged, once each and in the order of the calls. -/
theorem C125_read_only (srv : Server) (calls : List Call) (n : Nat) :
    (∀ a ∈ statements (session parseFloat sort srv n calls),
      ReadOnly a.text ∨ ∃ sql, a = .exec sql ∧ .exec sql ∈ calls) ∧
    execs (statements (session parseFloat sort srv n calls)) = execTexts calls := by
  refine ⟨fun a ha => ?_, execs_session parseFloat sort srv calls n⟩
  by_cases h : ∃ sql, a = .exec sql
  · obtain ⟨sql, rfl⟩ := h
    refine .inr ⟨sql, rfl, ?_⟩
    have : sql ∈ execs (statements (session parseFloat sort srv n calls)) :=
      List.mem_filterMap.2 ⟨_, ha, rfl⟩
    rw [execs_session] at this
    obtain ⟨c, hc, hs⟩ := List.mem_filterMap.1 this
    cases c <;> simp at hs
    exact hs ▸ hc
  · exact .inl (ask_readOnly a fun sql hs => h ⟨sql, hs⟩)

/-- C125: an inspection sends nothing that changes the database. -/
theorem C125_inspect (srv : Server) (o : InspectOptions) (n : Nat) :
    ∀ a ∈ statements ((inspect parseFloat sort o).run srv n).1, ReadOnly a.text :=
  fun a ha => ask_readOnly a (sends_inspect parseFloat sort o srv n a ha)

/-- Reading only is not vacuous: a sequence whose name looks like the end of the statement is asked
for, and statements that write are not accepted. -/
example : ReadOnly (Ask.sequence b!"public" b!"x\"; DROP TABLE users; --").text ∧
    ¬ ReadOnly b!"DROP TABLE users" ∧ ¬ ReadOnly b!"SELECT 1; DROP TABLE users" ∧
    ¬ ReadOnly b!"SELECT nextval('s')" := by
  refine ⟨readOnly_legacy _ _, ?_, ?_, ?_⟩
  · rintro ⟨first, rest, h, h1, -⟩
    have : lex b!"DROP TABLE users" = some [.word b!"DROP", .word b!"TABLE", .word b!"users"] := by
      decide
    rw [this] at h
    cases h
    exact absurd h1 (by decide)
  · rintro ⟨first, rest, h, -, h2, -⟩
    have : lex b!"SELECT 1; DROP TABLE users" = some [.word b!"SELECT", .word b!"1", .sym 59,
      .word b!"DROP", .word b!"TABLE", .word b!"users"] := by decide
    rw [this] at h
    cases h
    exact absurd (h2 [.word b!"1"] _ rfl) (by decide)
  · rintro ⟨first, rest, h, -, -, -, h4⟩
    have : lex b!"SELECT nextval('s')" = some [.word b!"SELECT", .word b!"nextval", .sym 40,
      .str b!"s", .sym 41] := by decide
    rw [this] at h
    cases h
    exact absurd (h4 b!"nextval" (by decide)) (by decide)

end

end Verif.Pg.Session
