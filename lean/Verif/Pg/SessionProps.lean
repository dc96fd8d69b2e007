import Verif.Pg.SessionSpec
import Verif.Pg.InspectProps

/-!
# C124-C128: a session with the server
-/

namespace Verif.Pg.Session
open Verif Verif.Pg

variable {α β : Type}

/-! ## Running -/

theorem run_bind (srv : Server) (t : Talk α) (f : α → Talk β) (n : Nat) :
    (t.bind f).run srv n =
      match t.run srv n with
      | (tr, m, .error e) => (tr, m, .error e)
      | (tr, m, .ok a) => (tr ++ ((f a).run srv m).1, ((f a).run srv m).2) := by
  induction t generalizing n with
  | done r => cases r <;> rfl
  | log l rest ih =>
    simp only [Talk.bind, Talk.run, ih]
    rcases h : rest.run srv n with ⟨tr, m, e | a⟩ <;> simp
  | send a rest ih =>
    simp only [Talk.bind, Talk.run, ih]
    rcases h : (rest (srv n a)).run srv (n + 1) with ⟨tr, m, e | a⟩ <;> simp

theorem bind_eq (t : Talk α) (f : α → Talk β) : (t >>= f) = t.bind f := rfl
theorem pure_eq (a : α) : (pure a : Talk α) = .done (.ok a) := rfl

theorem bind_assoc {γ : Type} (t : Talk α) (f : α → Talk β) (g : β → Talk γ) :
    (t.bind f).bind g = t.bind fun a => (f a).bind g := by
  induction t with
  | done r => cases r <;> rfl
  | log l rest ih => simp [Talk.bind, ih]
  | send a rest ih => simp [Talk.bind, ih]

/-! ## C124: the log -/

/-- A trace made of lines of level info, of pairs of a line and the statement it tells, and of lines
about rows; `i` is the last line of level info before it. -/
inductive Blocks : Option Line → List Event → Prop
  | nil (i) : Blocks i []
  | info {i l tr} : l.level = .info → l.message ≠ b!"executing query" → l.message ≠ b!"executing sql" →
      Blocks (some l) tr → Blocks i (.logged l :: tr)
  | rows {i n tr} : Blocks i tr → Blocks i (.logged (rowsAffected n) :: tr)
  | stmt {i l a tr} : l.Tells a.text →
      (a.args ≠ [] → ∃ l', i = some l' ∧ l'.fields.map (·.2) = a.args) →
      Blocks i tr → Blocks i (.logged l :: .sent a :: tr)

theorem Blocks.mono {tr : List Event} (h : Blocks none tr) (i : Option Line) : Blocks i tr := by
  generalize hn : (none : Option Line) = j at h
  induction h with
  | nil => exact .nil _
  | info h1 h2 h3 h4 _ => exact .info h1 h2 h3 h4
  | rows _ ih => exact .rows (ih hn)
  | stmt h1 h2 _ ih =>
    refine .stmt h1 (fun ha => ?_) (ih hn)
    obtain ⟨l', hl, -⟩ := h2 ha
    rw [← hn] at hl
    cases hl

theorem Blocks.append {i : Option Line} {tr tr' : List Event} (h : Blocks i tr)
    (h' : Blocks none tr') : Blocks i (tr ++ tr') := by
  induction h with
  | nil => exact h'.mono _
  | info h1 h2 h3 _ ih => exact .info h1 h2 h3 ih
  | rows _ ih => exact .rows ih
  | stmt h1 h2 _ ih => exact .stmt h1 h2 ih

theorem rowsAffected_message (n : Nat) : (rowsAffected n).message ≠ b!"executing query" ∧
    (rowsAffected n).message ≠ b!"executing sql" := by
  constructor <;> intro h <;> simp [rowsAffected] at h

theorem Blocks.before {i : Option Line} {tr : List Event} (h : Blocks i tr) :
    ∀ pre a post, tr = pre ++ .sent a :: post →
      ∃ pre' l, pre = pre' ++ [.logged l] ∧ l.Tells a.text := by
  induction h with
  | nil => intro pre a post h; simp at h
  | info h1 h2 h3 _ ih =>
    intro pre a post h
    cases pre with
    | nil => simp at h
    | cons x pre =>
      simp only [List.cons_append, List.cons.injEq] at h
      obtain ⟨p, l, rfl, hl⟩ := ih _ _ _ h.2
      exact ⟨x :: p, l, rfl, hl⟩
  | rows _ ih =>
    intro pre a post h
    cases pre with
    | nil => simp at h
    | cons x pre =>
      simp only [List.cons_append, List.cons.injEq] at h
      obtain ⟨p, l, rfl, hl⟩ := ih _ _ _ h.2
      exact ⟨x :: p, l, rfl, hl⟩
  | @stmt i l a' tr h1 h2 _ ih =>
    intro pre a post h
    match pre, h with
    | [], h => simp at h
    | [x], h =>
      simp only [List.cons_append, List.nil_append, List.cons.injEq, Event.sent.injEq] at h
      obtain ⟨rfl, rfl, rfl⟩ := h
      exact ⟨[], l, rfl, h1⟩
    | x :: y :: pre, h =>
      simp only [List.cons_append, List.cons.injEq] at h
      obtain ⟨p, l, rfl, hl⟩ := ih _ _ _ h.2.2
      exact ⟨x :: y :: p, l, rfl, hl⟩

theorem lastInfo_cons (e : Event) (tr : List Event) :
    lastInfo (e :: tr) = (lastInfo tr <|> lastInfo [e]) := by
  unfold lastInfo
  cases e with
  | sent a => simp
  | logged l =>
    by_cases h : l.level = .info
    · simp only [List.filterMap_cons, h, if_true, List.filterMap_nil, List.getLast?_cons,
        List.getLast?_nil]
      cases (List.filterMap _ tr).getLast? <;> simp
    · simp [h]

theorem Blocks.args {i : Option Line} {tr : List Event} (h : Blocks i tr) :
    ∀ pre a post, tr = pre ++ .sent a :: post → a.args ≠ [] →
      ∃ l, (lastInfo pre <|> i) = some l ∧ l.fields.map (·.2) = a.args := by
  induction h with
  | nil => intro pre a post h; simp at h
  | @info i l tr h1 h2 h3 _ ih =>
    intro pre a post h ha
    cases pre with
    | nil => simp at h
    | cons x pre =>
      simp only [List.cons_append, List.cons.injEq] at h
      obtain ⟨l', hl, hf⟩ := ih _ _ _ h.2 ha
      refine ⟨l', ?_, hf⟩
      rw [lastInfo_cons, ← h.1]
      have : lastInfo [.logged l] = some l := by simp [lastInfo, h1]
      rw [this]
      cases hp : lastInfo pre <;> simp_all
  | @rows i n tr _ ih =>
    intro pre a post h ha
    cases pre with
    | nil => simp at h
    | cons x pre =>
      simp only [List.cons_append, List.cons.injEq] at h
      obtain ⟨l', hl, hf⟩ := ih _ _ _ h.2 ha
      refine ⟨l', ?_, hf⟩
      rw [lastInfo_cons, ← h.1]
      have : lastInfo [.logged (rowsAffected n)] = none := by simp [lastInfo, rowsAffected]
      rw [this]
      cases hp : lastInfo pre <;> simp_all
  | @stmt i l a' tr h1 h2 _ ih =>
    intro pre a post h ha
    have hl : lastInfo [.logged l] = none := by
      have := h1.1
      simp [lastInfo, this]
    match pre, h with
    | [], h => simp at h
    | [x], h =>
      simp only [List.cons_append, List.nil_append, List.cons.injEq, Event.sent.injEq] at h
      obtain ⟨rfl, rfl, rfl⟩ := h
      obtain ⟨l', h', hf⟩ := h2 ha
      exact ⟨l', by rw [hl, h']; rfl, hf⟩
    | x :: y :: pre, h =>
      simp only [List.cons_append, List.cons.injEq] at h
      obtain ⟨l', hl', hf⟩ := ih _ _ _ h.2.2 ha
      refine ⟨l', ?_, hf⟩
      rw [lastInfo_cons, lastInfo_cons y, ← h.1, ← h.2.1, hl]
      have : lastInfo [.sent a'] = none := by simp [lastInfo]
      rw [this]
      cases hp : lastInfo pre <;> simp_all

theorem Blocks.after {i : Option Line} {tr : List Event} (h : Blocks i tr) :
    ∀ pre l post, tr = pre ++ .logged l :: post →
      l.message = b!"executing query" ∨ l.message = b!"executing sql" →
      ∃ a post', post = .sent a :: post' ∧ l.Tells a.text := by
  induction h with
  | nil => intro pre a post h; simp at h
  | info h1 h2 h3 _ ih =>
    intro pre l post h hm
    cases pre with
    | nil =>
      simp only [List.nil_append, List.cons.injEq, Event.logged.injEq] at h
      obtain ⟨rfl, rfl⟩ := h
      rcases hm with hm | hm
      · exact absurd hm h2
      · exact absurd hm h3
    | cons x pre =>
      simp only [List.cons_append, List.cons.injEq] at h
      exact ih _ _ _ h.2 hm
  | @rows i n tr _ ih =>
    intro pre l post h hm
    cases pre with
    | nil =>
      simp only [List.nil_append, List.cons.injEq, Event.logged.injEq] at h
      obtain ⟨rfl, rfl⟩ := h
      rcases hm with hm | hm
      · exact absurd hm (rowsAffected_message n).1
      · exact absurd hm (rowsAffected_message n).2
    | cons x pre =>
      simp only [List.cons_append, List.cons.injEq] at h
      exact ih _ _ _ h.2 hm
  | @stmt i l' a' tr h1 h2 _ ih =>
    intro pre l post h hm
    match pre, h with
    | [], h =>
      simp only [List.nil_append, List.cons.injEq, Event.logged.injEq] at h
      obtain ⟨rfl, rfl⟩ := h
      exact ⟨a', tr, rfl, h1⟩
    | [x], h => simp at h
    | x :: y :: pre, h =>
      simp only [List.cons_append, List.cons.injEq] at h
      exact ih _ _ _ h.2.2 hm

theorem Blocks.told {tr : List Event} (h : Blocks none tr) : Told tr where
  before := h.before
  args pre a post ht ha := by
    obtain ⟨l, hl, hf⟩ := h.args pre a post ht ha
    refine ⟨l, ?_, hf⟩
    cases hp : lastInfo pre <;> simp_all
  after := h.after

/-- Whatever the server answers, the trace is made of blocks. -/
def Fine (t : Talk α) : Prop := ∀ srv n, Blocks none (t.run srv n).1

theorem Fine.bind {t : Talk α} {f : α → Talk β} (h : Fine t) (hf : ∀ a, Fine (f a)) :
    Fine (t.bind f) := by
  intro srv n
  rw [run_bind]
  have := h srv n
  rcases ht : t.run srv n with ⟨tr, m, e | a⟩ <;> rw [ht] at this
  · exact this
  · exact Blocks.append this (hf a srv m)

theorem fine_done (r : Except Err α) : Fine (.done r) := fun _ _ => .nil _

theorem tells_query (sql : Str) :
    Line.Tells { level := .debug, message := b!"executing query", fields := [(b!"query", sql)] } sql :=
  ⟨rfl, .inr (.inl ⟨rfl, rfl⟩)⟩

/-- Most functions write a line of level info, then tell a statement, then send it and read the answer. -/
theorem fine_single (m : Str) (fields : List (Str × Str)) (a : Ask) (f : a.Answer → Except Err α)
    (hq : m ≠ b!"executing query") (hs : m ≠ b!"executing sql")
    (ha : a.args ≠ [] → fields.map (·.2) = a.args) :
    Fine (info m fields >>= fun _ => executing a.text >>= fun _ => ask a >>= fun r => lift (f r)) := by
  intro srv n
  exact .info rfl hq hs (.stmt (tells_query _) (fun h => ⟨_, rfl, ha h⟩) (.nil _))

theorem run_lift_pure (srv : Server) (n : Nat) (r : Except Err α) (g : α → Except Err β) :
    (((lift r).bind fun a => .done (g a)).run srv n).1 = [] := by
  cases r <;> rfl

theorem fine_listParameters : Fine listParameters := by
  intro srv n
  unfold listParameters
  simp only [bind_eq, info, note, ask, Talk.bind, Talk.run]
  refine .info rfl (by decide) (by decide) (.stmt ⟨rfl, .inl ⟨rfl, rfl⟩⟩ (by decide) ?_)
  rcases h : (queryRow (srv n .searchPath) >>= scan : Except Err Str) with e | tmp
  · exact .nil _
  refine .stmt ⟨rfl, .inl ⟨rfl, rfl⟩⟩ (by decide) ?_
  have := run_lift_pure srv (n + 1 + 1) (queryRow (srv (n + 1) .timezone) >>= scan)
    (fun timezone => .ok ({ searchPath := splitComma tmp, timezone } : Parameters))
  exact this ▸ .nil _

theorem fine_fillSequences (seqs : List Sequence) : Fine (fillSequences seqs) := by
  induction seqs with
  | nil => exact fine_done _
  | cons seq rest ih =>
    unfold fillSequences
    simp only [bind_eq]
    intro srv n
    refine .stmt (a := .sequence seq.schema seq.name) (tells_query _) (fun h => absurd rfl h) ?_
    show Blocks none (Talk.run srv (n + 1) ((lift (filled seq _)).bind fun seq' => (fillSequences rest).bind
      fun rest' => .done (.ok (seq' :: rest')))).1
    exact Fine.bind (fine_done _) (fun _ => Fine.bind ih fun _ => fine_done _) srv _

theorem fine_listSequences : Fine listSequences := by
  intro srv n
  unfold listSequences
  simp only [bind_eq]
  refine .info rfl (by decide) (by decide)
    (.stmt (a := .hasView) (tells_query _) (fun h => absurd rfl h) (Blocks.mono ?_ _))
  refine Fine.bind (t := lift (queryRow (srv n .hasView) >>= scan)) (fine_done _)
    (fun hasView => ?_) srv (n + 1)
  cases hasView with
  | true =>
    intro srv n
    exact .stmt (a := .sequences) (tells_query _) (fun h => absurd rfl h) (.nil _)
  | false =>
    intro srv n
    refine .stmt (a := .legacySequences) (tells_query _) (fun h => absurd rfl h) ?_
    exact Fine.bind (fine_done _) fine_fillSequences srv (n + 1)

theorem fine_listSchemas : Fine listSchemas :=
  fine_single _ _ .schemas _ (by decide) (by decide) (fun h => absurd rfl h)

theorem fine_listFunctions : Fine listFunctions :=
  fine_single _ _ .functions _ (by decide) (by decide) (fun h => absurd rfl h)

theorem fine_listTables : Fine listTables :=
  fine_single _ _ .tables _ (by decide) (by decide) (fun h => absurd rfl h)

theorem fine_serverVersion : Fine serverVersion :=
  fine_single _ _ .version _ (by decide) (by decide) (fun h => absurd rfl h)

theorem fine_describeFunction (schema name : Str) : Fine (describeFunction schema name) :=
  fine_single _ _ (.function schema name) _ (by decide) (by decide) (fun _ => rfl)

theorem fine_listColumns (schema table : Str) : Fine (listColumns schema table) :=
  fine_single _ _ (.columns schema table) _ (by decide) (by decide) (fun _ => rfl)

theorem fine_listChecks (schema table : Str) : Fine (listChecks schema table) :=
  fine_single _ _ (.checks schema table) _ (by decide) (by decide) (fun _ => rfl)

theorem fine_listForeignKeys (schema table : Str) : Fine (listForeignKeys schema table) :=
  fine_single _ _ (.foreignKeys schema table) _ (by decide) (by decide) (fun _ => rfl)

theorem fine_listIndexes (schema table : Str) : Fine (listIndexes schema table) :=
  fine_single _ _ (.indexes schema table) _ (by decide) (by decide) (fun _ => rfl)

theorem fine_listTriggers (schema table : Str) : Fine (listTriggers schema table) :=
  fine_single _ _ (.triggers schema table) _ (by decide) (by decide) (fun _ => rfl)

section
variable {F : Type} (parseFloat : Str → F × Option Ddl.NumErr) (sort : Sorter)

theorem fine_listStorage (schema table : Str) : Fine (listStorage parseFloat schema table) :=
  fine_single _ _ (.storage schema table) _ (by decide) (by decide) (fun _ => rfl)

theorem fine_exec (sql : Str) : Fine (exec sql) := by
  intro srv n
  refine .stmt (a := .exec sql) ⟨rfl, .inr (.inr ⟨rfl, rfl⟩)⟩ (fun h => absurd rfl h) ?_
  simp only [Talk.bind]
  cases h : (srv n (.exec sql)).2 with
  | none => exact .nil _
  | some e => exact .rows (.nil _)

theorem fine_inspectTable (o : InspectOptions) (idx : List Ddl.Index) (trg : List Ddl.Trigger)
    (t : Ddl.Table) : Fine (inspectTable parseFloat sort o idx trg t) :=
  .bind (fine_listColumns _ _) fun _ => .bind (fine_listChecks _ _) fun _ =>
    .bind (fine_listForeignKeys _ _) fun _ => .bind (fine_listStorage _ _ _) fun _ =>
    .bind (fine_listIndexes _ _) fun _ => .bind (fine_listTriggers _ _) fun _ => fine_done _

theorem fine_inspectLoop (o : InspectOptions) (ts : List Ddl.Table) (infos : List (TableInfo F))
    (idx : List Ddl.Index) (trg : List Ddl.Trigger) :
    Fine (inspectLoop parseFloat sort o ts infos idx trg) := by
  induction ts generalizing infos idx trg with
  | nil => exact fine_done _
  | cons t rest ih => exact .bind (fine_inspectTable _ _ _ _ _ _) fun _ => ih _ _ _

theorem fine_inspect (o : InspectOptions) : Fine (inspect parseFloat sort o) :=
  .bind fine_listParameters fun _ => .bind fine_listSchemas fun _ =>
    .bind fine_listFunctions fun _ => .bind fine_listSequences fun _ =>
    .bind fine_listTables fun _ => .bind (fine_inspectLoop _ _ _ _ _ _ _) fun _ => fine_done _

/-- The call is not `DescribeTrigger`. -/
def Call.Plain : Call → Prop
  | .describeTrigger _ _ _ => False
  | _ => True

theorem fine_call (c : Call) (h : c.Plain) : Fine (c.talk parseFloat sort) := by
  cases c with
  | listParameters => exact .bind fine_listParameters fun _ => fine_done _
  | listSchemas => exact .bind fine_listSchemas fun _ => fine_done _
  | listFunctions => exact .bind fine_listFunctions fun _ => fine_done _
  | describeFunction s n => exact .bind (fine_describeFunction s n) fun _ => fine_done _
  | listSequences => exact .bind fine_listSequences fun _ => fine_done _
  | listTables => exact .bind fine_listTables fun _ => fine_done _
  | listColumns s t => exact .bind (fine_listColumns s t) fun _ => fine_done _
  | listChecks s t => exact .bind (fine_listChecks s t) fun _ => fine_done _
  | listForeignKeys s t => exact .bind (fine_listForeignKeys s t) fun _ => fine_done _
  | listTableStorageParameters s t => exact .bind (fine_listStorage _ s t) fun _ => fine_done _
  | listIndexes s t => exact .bind (fine_listIndexes s t) fun _ => fine_done _
  | listTriggers s t => exact .bind (fine_listTriggers s t) fun _ => fine_done _
  | describeTrigger s t n => exact h.elim
  | serverVersion => exact .bind fine_serverVersion fun _ => fine_done _
  | inspectDatabase o => exact .bind (fine_inspect _ _ o) fun _ => fine_done _
  | exec sql => exact fine_exec sql

theorem blocks_session (srv : Server) (calls : List Call) (h : ∀ c ∈ calls, c.Plain) (n : Nat) :
    Blocks none (session parseFloat sort srv n calls) := by
  induction calls generalizing n with
  | nil => exact .nil _
  | cons c calls ih =>
    exact .append (fine_call _ _ c (h c (by simp)) srv n) (ih (fun c hc => h c (by simp [hc])) _)

/-- What `DescribeTrigger` shows. -/
theorem describeTrigger_trace (s t name : Str) (srv : Server) (n : Nat) :
    ((Call.describeTrigger s t name).talk parseFloat sort |>.run srv n).1 =
      [.logged ⟨.info, b!"DescribeTrigger", [(b!"schema", s), (b!"table", t), (b!"name", name)]⟩,
       .logged ⟨.debug, b!"executing query", [(b!"query", Sql.Texts.listTriggers)]⟩,
       .sent (.trigger s t name)] := by
  show Event.logged _ :: Event.logged _ :: Event.sent _ ::
    (((lift (describedTrigger s (srv n (.trigger s t name)))).bind fun _ =>
      Talk.done (.ok ())).run srv (n + 1)).1 = _
  rw [run_lift_pure]

theorem describeTrigger_untold (s t name : Str) : ¬ Line.Tells
    ⟨.debug, b!"executing query", [(b!"query", Sql.Texts.listTriggers)]⟩ (Ask.trigger s t name).text := by
  rintro ⟨-, ⟨-, h⟩ | ⟨-, h⟩ | ⟨h, -⟩⟩
  · cases h
  · have : Sql.Texts.listTriggers = Sql.Texts.describeTrigger := by
      simpa [Ask.text] using h
    exact absurd this (by decide +kernel)
  · exact absurd h (by decide)

/-- C124, exactly when it holds: for every series of calls over one connection and all answers of the
server, the log tells what is sent if and only if `DescribeTrigger` is not among the calls. -/
theorem C124_exact (srv : Server) (calls : List Call) (n : Nat) :
    Told (session parseFloat sort srv n calls) ↔
      ∀ s t name, Call.describeTrigger s t name ∉ calls := by
  constructor
  · intro h s t name hmem
    obtain ⟨pre, post, rfl⟩ := List.append_of_mem hmem
    have key : ∀ (calls : List Call) (n : Nat), ∃ a b,
        session parseFloat sort srv n (calls ++ Call.describeTrigger s t name :: post) = a ++
          [.logged ⟨.debug, b!"executing query", [(b!"query", Sql.Texts.listTriggers)]⟩,
           .sent (.trigger s t name)] ++ b := by
      intro calls
      induction calls with
      | nil =>
        intro n
        simp only [List.nil_append, session]
        rw [describeTrigger_trace]
        exact ⟨[_], _, rfl⟩
      | cons c calls ih =>
        intro n
        obtain ⟨a, b, hab⟩ := ih (((c.talk parseFloat sort).run srv n).2.1)
        refine ⟨((c.talk parseFloat sort).run srv n).1 ++ a, b, ?_⟩
        simp only [List.cons_append, session, hab, List.append_assoc]
    obtain ⟨a, b, hab⟩ := key pre n
    obtain ⟨pre', l, hp, hl⟩ := h.before
      (a ++ [.logged ⟨.debug, b!"executing query", [(b!"query", Sql.Texts.listTriggers)]⟩])
      (.trigger s t name) b (by rw [hab]; simp)
    have := (List.append_inj' hp rfl).2
    simp only [List.cons.injEq, Event.logged.injEq, and_true] at this
    rw [← this] at hl
    exact describeTrigger_untold s t name hl
  · intro h
    refine (blocks_session _ _ srv calls (fun c hc => ?_) n).told
    cases c <;> first | trivial | exact absurd hc (h _ _ _)

/-- C124: the log of an inspection tells every statement that is sent, with its arguments, before it is
sent. -/
theorem C124_inspect_partial (srv : Server) (o : InspectOptions) (n : Nat) :
    Told ((inspect parseFloat sort o).run srv n).1 :=
  (fine_inspect parseFloat sort o srv n).told

/-- C124 is false: `DescribeTrigger` logs a statement that is not sent and sends one that is not logged,
whatever the arguments and the answer. -/
theorem C124_refuted (s t name : Str) (srv : Server) (n : Nat) :
    ¬ Told (session parseFloat sort srv n [.describeTrigger s t name]) := by
  rw [C124_exact]
  simp

end

end Verif.Pg.Session
