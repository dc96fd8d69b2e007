import Verif.Pg.ReadOnlyProps

/-!
# C126: what is asked; C128: rows affected
-/

namespace Verif.Pg.Session
open Verif Verif.Pg

variable {α β F : Type} {parseFloat : Str → F × Option Ddl.NumErr}

/-- After an answer that is refused nothing is sent; other answers are not the reason of a failure. -/
def Strict (parseFloat : Str → F × Option Ddl.NumErr) : Talk α → Prop
  | .done (.ok _) => True
  | .done (.error _) => False
  | .log _ rest => Strict parseFloat rest
  | .send a rest => ∀ r, match refused parseFloat a r with
    | some e => rest r = .done (.error e)
    | none => Strict parseFloat (rest r)

theorem Strict.bind {t : Talk α} {f : α → Talk β} (h : Strict parseFloat t)
    (hf : ∀ a, Strict parseFloat (f a)) : Strict parseFloat (t.bind f) := by
  induction t with
  | done r =>
    cases r with
    | error e => exact h.elim
    | ok a => exact hf a
  | log l rest ih => exact ih h
  | send a rest ih =>
    intro r
    have := h r
    cases hr : refused parseFloat a r with
    | some e => rw [hr] at this; simp only at this ⊢; rw [this]; rfl
    | none => rw [hr] at this; exact ih r this

theorem strict_ok (a : α) : Strict parseFloat (.done (.ok a)) := trivial

theorem strict_note (l : Line) : Strict parseFloat (note l) := trivial

/-- Sending a statement and reading the answer the way `refused` does. -/
theorem strict_ask (a : Ask) (f : a.Answer → Except Err α) (g : α → Talk β)
    (h : ∀ r, refused parseFloat a r = refused.error (f r)) (hg : ∀ x, Strict parseFloat (g x)) :
    Strict parseFloat ((ask a).bind fun r => (lift (f r)).bind g) := by
  intro r
  rw [h]
  cases hr : f r with
  | error e => simp [refused.error, Talk.bind, lift, hr]
  | ok x => simpa [refused.error, Talk.bind, lift, hr] using hg x

theorem bind_pure (t : Talk α) : (t.bind fun a => .done (.ok a)) = t := by
  induction t with
  | done r => cases r <;> rfl
  | log l rest ih => simp [Talk.bind, ih]
  | send a rest ih => simp [Talk.bind, ih]

theorem strict_ask' (a : Ask) (f : a.Answer → Except Err α)
    (h : ∀ r, refused parseFloat a r = refused.error (f r)) :
    Strict parseFloat ((ask a).bind fun r => lift (f r)) := by
  have := strict_ask (parseFloat := parseFloat) a f (fun x => .done (.ok x)) h (fun _ => strict_ok _)
  simpa only [bind_pure] using this

theorem strict_single (m : Str) (fields : List (Str × Str)) (q : Str) (a : Ask)
    (f : a.Answer → Except Err α) (h : ∀ r, refused parseFloat a r = refused.error (f r)) :
    Strict parseFloat
      (info m fields >>= fun _ => executing q >>= fun _ => ask a >>= fun r => lift (f r)) :=
  .bind (strict_note _) fun _ => .bind (strict_note _) fun _ => strict_ask' a f h

theorem strict_listParameters : Strict parseFloat listParameters :=
  .bind (strict_note _) fun _ => .bind (strict_note _) fun _ =>
    strict_ask .searchPath _ _ (fun _ => rfl) fun _ => .bind (strict_note _) fun _ =>
    strict_ask .timezone _ _ (fun _ => rfl) fun _ => strict_ok _

theorem filled_error (seq : Sequence) (r : QueryRow SequenceValues) :
    refused.error (filled {} r) = refused.error (filled seq r) := by
  unfold filled
  cases queryRow r with
  | error e => rfl
  | ok v =>
    simp only [bind, Except.bind]
    cases scan v.start <;> try rfl
    cases scan v.minimum <;> try rfl
    cases scan v.maximum <;> try rfl
    cases scan v.increment <;> try rfl
    cases scan v.cache <;> try rfl
    cases scan v.cycle <;> rfl

theorem strict_fillSequences (seqs : List Sequence) : Strict parseFloat (fillSequences seqs) := by
  induction seqs with
  | nil => exact strict_ok _
  | cons seq rest ih =>
    exact .bind (strict_note _) fun _ =>
      strict_ask (.sequence seq.schema seq.name) _ _ (fun r => filled_error seq r) fun _ =>
      .bind ih fun _ => strict_ok _

theorem strict_listSequences : Strict parseFloat listSequences := by
  refine .bind (strict_note _) fun _ => .bind (strict_note _) fun _ =>
    strict_ask .hasView _ _ (fun _ => rfl) fun hasView => ?_
  cases hasView with
  | true => exact .bind (strict_note _) fun _ => strict_ask' .sequences _ (fun _ => rfl)
  | false =>
    exact .bind (strict_note _) fun _ =>
      strict_ask .legacySequences _ _ (fun _ => rfl) fun seqs => strict_fillSequences seqs

variable (sort : Sorter)

theorem strict_inspectTable (o : InspectOptions) (idx : List Ddl.Index) (trg : List Ddl.Trigger)
    (t : Ddl.Table) : Strict parseFloat (inspectTable parseFloat sort o idx trg t) :=
  .bind (strict_single _ _ _ _ _ fun _ => rfl) fun _ =>
  .bind (strict_single _ _ _ _ _ fun _ => rfl) fun _ =>
  .bind (strict_single _ _ _ _ _ fun _ => rfl) fun _ =>
  .bind (strict_single _ _ _ _ _ fun _ => rfl) fun _ =>
  .bind (strict_single _ _ _ _ _ fun _ => rfl) fun _ =>
  .bind (strict_single _ _ _ _ _ fun _ => rfl) fun _ => strict_ok _

theorem strict_inspectLoop (o : InspectOptions) (ts : List Ddl.Table) (infos : List (TableInfo F))
    (idx : List Ddl.Index) (trg : List Ddl.Trigger) :
    Strict parseFloat (inspectLoop parseFloat sort o ts infos idx trg) := by
  induction ts generalizing infos idx trg with
  | nil => exact strict_ok _
  | cons t rest ih => exact .bind (strict_inspectTable _ _ _ _ _) fun _ => ih _ _ _

theorem strict_inspect (o : InspectOptions) : Strict parseFloat (inspect parseFloat sort o) :=
  .bind strict_listParameters fun _ =>
  .bind (strict_single _ _ _ _ _ fun _ => rfl) fun _ =>
  .bind (strict_single _ _ _ _ _ fun _ => rfl) fun _ =>
  .bind strict_listSequences fun _ =>
  .bind (strict_single _ _ _ _ _ fun _ => rfl) fun _ =>
  .bind (strict_inspectLoop _ _ _ _ _ _) fun _ => strict_ok _

/-- No answer to the statements of `l`, the first of which is the `n`-th of the session, is refused. -/
def Accepted (parseFloat : Str → F × Option Ddl.NumErr) (srv : Server) (n : Nat) (l : List Ask) : Prop :=
  ∀ i a, l[i]? = some a → refused parseFloat a (srv (n + i) a) = none

theorem Strict.run {t : Talk α} (h : Strict parseFloat t) (srv : Server) (n : Nat) :
    (∀ x, (t.run srv n).2.2 = .ok x → Accepted parseFloat srv n (statements (t.run srv n).1)) ∧
    ∀ e, (t.run srv n).2.2 = .error e → ∃ pre a, statements (t.run srv n).1 = pre ++ [a] ∧
      Accepted parseFloat srv n pre ∧ refused parseFloat a (srv (n + pre.length) a) = some e := by
  induction t generalizing n with
  | done r =>
    cases r with
    | error e => exact h.elim
    | ok a =>
      refine ⟨fun x _ i a h => ?_, fun e h => ?_⟩
      · simp [Talk.run, statements] at h
      · simp [Talk.run] at h
  | log l rest ih => exact ih h n
  | send a rest ih =>
    have hr := h (srv n a)
    have hs : statements ((Talk.send a rest).run srv n).1 =
        a :: statements ((rest (srv n a)).run srv (n + 1)).1 := rfl
    have hk : ((Talk.send a rest).run srv n).2.2 = ((rest (srv n a)).run srv (n + 1)).2.2 := rfl
    rw [hs, hk]
    cases hra : refused parseFloat a (srv n a) with
    | some e =>
      rw [hra] at hr
      simp only at hr
      rw [hr]
      refine ⟨fun x hx => by simp [Talk.run] at hx, fun e' he => ⟨[], a, rfl, fun i a h => ?_, ?_⟩⟩
      · simp at h
      · simp only [Talk.run, Except.error.injEq] at he
        simpa [he] using hra
    | none =>
      rw [hra] at hr
      have hacc : ∀ l, Accepted parseFloat srv (n + 1) l → Accepted parseFloat srv n (a :: l) := by
        intro l hl i b hb
        cases i with
        | zero =>
          simp only [List.getElem?_cons_zero, Option.some.injEq] at hb
          rw [← hb]; exact hra
        | succ i =>
          rw [List.getElem?_cons_succ] at hb
          have := hl i b hb
          rwa [show n + 1 + i = n + (i + 1) by omega] at this
      obtain ⟨h1, h2⟩ := ih _ hr (n + 1)
      refine ⟨fun x hx => hacc _ (h1 x hx), fun e he => ?_⟩
      obtain ⟨pre, b, g1, g2, g3⟩ := h2 e he
      refine ⟨a :: pre, b, by rw [g1]; rfl, hacc _ g2, ?_⟩
      rw [List.length_cons, show n + (pre.length + 1) = n + 1 + pre.length by omega]
      exact g3

/-! ## The plan -/

theorem run_lift (srv : Server) (n : Nat) (r : Except Err α) : (lift r).run srv n = ([], n, r) := rfl

/-- What a successful run of a function consists of. -/
theorem run_bind_ok {srv : Server} {t : Talk α} {f : α → Talk β} {n : Nat} {y : β}
    (h : ((t.bind f).run srv n).2.2 = .ok y) :
    ∃ x, (t.run srv n).2.2 = .ok x ∧ ((f x).run srv (t.run srv n).2.1).2.2 = .ok y ∧
      statements ((t.bind f).run srv n).1 =
        statements (t.run srv n).1 ++ statements ((f x).run srv (t.run srv n).2.1).1 := by
  rw [run_bind] at h ⊢
  rcases ht : t.run srv n with ⟨tr, m, e | x⟩
  · rw [ht] at h; cases h
  · rw [ht] at h
    exact ⟨x, rfl, h, statements_append _ _⟩

theorem single_run (srv : Server) (n : Nat) (m : Str) (fields : List (Str × Str)) (q : Str) (a : Ask)
    (f : a.Answer → Except Err α) :
    statements (((info m fields >>= fun _ => executing q >>= fun _ => ask a >>= fun r =>
      lift (f r)).run srv n).1) = [a] ∧
    ((info m fields >>= fun _ => executing q >>= fun _ => ask a >>= fun r =>
      lift (f r)).run srv n).2 = (n + 1, f (srv n a)) := ⟨rfl, rfl⟩

theorem fillSequences_ok {srv : Server} {seqs : List Sequence} {n : Nat} {l : List Sequence}
    (h : ((fillSequences seqs).run srv n).2.2 = .ok l) :
    l.map (fun s => (s.schema, s.name)) = seqs.map (fun s => (s.schema, s.name)) ∧
    statements ((fillSequences seqs).run srv n).1 = seqs.map (fun s => .sequence s.schema s.name) := by
  induction seqs generalizing n l with
  | nil =>
    have : l = [] := by simpa [fillSequences, pure_eq, Talk.run] using h.symm
    subst this
    exact ⟨rfl, rfl⟩
  | cons seq rest ih =>
    have hrun : (fillSequences (seq :: rest)).run srv n =
        let x := ((lift (filled seq (srv n (.sequence seq.schema seq.name)))).bind fun seq' =>
          (fillSequences rest).bind fun rest' => .done (.ok (seq' :: rest'))).run srv (n + 1)
        (.logged ⟨.debug, b!"executing query", [(b!"query", legacyQuery seq.schema seq.name)]⟩ ::
          .sent (.sequence seq.schema seq.name) :: x.1, x.2) := rfl
    rw [hrun] at h ⊢
    simp only at h ⊢
    obtain ⟨seq', h1, h2, h3⟩ := run_bind_ok h
    obtain ⟨rest', h4, h5, h6⟩ := run_bind_ok h2
    simp only [Talk.run, Except.ok.injEq] at h5
    subst h5
    obtain ⟨g1, g2⟩ := ih h4
    have hseq : seq'.schema = seq.schema ∧ seq'.name = seq.name := by
      simp only [run_lift, filled, bind_ok, pure_ok] at h1
      obtain ⟨_, _, _, _, _, _, _, _, _, _, _, _, _, _, rfl⟩ := h1
      exact ⟨rfl, rfl⟩
    refine ⟨by simp [hseq, g1], ?_⟩
    show Ask.sequence seq.schema seq.name :: statements _ = _
    rw [h3, h6, g2]
    simp [statements, Talk.run, lift]

theorem listSequences_ok {srv : Server} {n : Nat} {l : List Sequence}
    (h : (listSequences.run srv n).2.2 = .ok l) :
    ∃ new, (queryRow (srv n .hasView) >>= scan) = .ok new ∧
      statements (listSequences.run srv n).1 = .hasView ::
        if new then [.sequences]
        else .legacySequences :: l.map (fun s => .sequence s.schema s.name) := by
  have hrun : listSequences.run srv n =
      let x := ((lift (queryRow (srv n .hasView) >>= scan)).bind fun hasView =>
        if hasView then executing Sql.Texts.listSequences >>= fun _ => ask .sequences >>= fun rows =>
          lift (listRows rows sequenceRow)
        else executing Sql.Texts.listSequencesPre10 >>= fun _ => ask .legacySequences >>= fun rows =>
          lift (listRows rows legacySequenceRow) >>= fun seqs => fillSequences seqs).run srv (n + 1)
      (.logged ⟨.info, b!"ListSequences", []⟩ ::
        .logged ⟨.debug, b!"executing query", [(b!"query", Sql.Texts.hasSequencesView)]⟩ ::
        .sent .hasView :: x.1, x.2) := rfl
  rw [hrun] at h ⊢
  simp only at h ⊢
  obtain ⟨new, h1, h2, h3⟩ := run_bind_ok h
  refine ⟨new, h1, ?_⟩
  show Ask.hasView :: statements _ = _
  rw [h3]
  cases new with
  | true => rfl
  | false =>
    simp only [Bool.false_eq_true, if_false] at h2 ⊢
    have h2' : (((lift (listRows (srv (n + 1) .legacySequences) legacySequenceRow)).bind
        fillSequences).run srv (n + 2)).2.2 = .ok l := h2
    obtain ⟨seqs, h4, h5, h6⟩ := run_bind_ok h2'
    obtain ⟨g1, g2⟩ := fillSequences_ok h5
    have : l.map (fun s => Ask.sequence s.schema s.name) =
        seqs.map (fun s => Ask.sequence s.schema s.name) := by
      have := congrArg (List.map fun p : Str × Str => Ask.sequence p.1 p.2) g1
      simpa [List.map_map, Function.comp_def] using this
    rw [this, ← g2]
    exact congrArg (fun l => Ask.hasView :: Ask.legacySequences :: l) h6

theorem inspectTable_statements {srv : Server} {n : Nat} {o : InspectOptions}
    {idx : List Ddl.Index} {trg : List Ddl.Trigger} {t : Ddl.Table}
    {x : TableInfo F × List Ddl.Index × List Ddl.Trigger}
    (h : ((inspectTable parseFloat sort o idx trg t).run srv n).2.2 = .ok x) :
    statements ((inspectTable parseFloat sort o idx trg t).run srv n).1 = aboutTable x.1 ∧
    x.1.table.schema = t.schema ∧ x.1.table.name = t.name := by
  unfold inspectTable at h ⊢
  simp only [bind_eq] at h ⊢
  obtain ⟨cols, -, h, s1⟩ := run_bind_ok h
  obtain ⟨chks, -, h, s2⟩ := run_bind_ok h
  obtain ⟨fks, -, h, s3⟩ := run_bind_ok h
  obtain ⟨params, -, h, s4⟩ := run_bind_ok h
  obtain ⟨idxs, -, h, s5⟩ := run_bind_ok h
  obtain ⟨trgs, -, h, s6⟩ := run_bind_ok h
  rw [s1, s2, s3, s4, s5, s6]
  simp only [pure_eq, Talk.run, Except.ok.injEq] at h
  subst h
  exact ⟨rfl, rfl, rfl⟩

theorem inspectLoop_statements {srv : Server} {n : Nat} {o : InspectOptions} {ts : List Ddl.Table}
    {infos : List (TableInfo F)} {idx : List Ddl.Index} {trg : List Ddl.Trigger}
    {x : List (TableInfo F) × List Ddl.Index × List Ddl.Trigger}
    (h : ((inspectLoop parseFloat sort o ts infos idx trg).run srv n).2.2 = .ok x) :
    ∃ more, x.1 = infos ++ more ∧
      statements ((inspectLoop parseFloat sort o ts infos idx trg).run srv n).1 =
        more.flatMap aboutTable := by
  induction ts generalizing n infos idx trg with
  | nil =>
    simp only [inspectLoop, pure_eq, Talk.run, Except.ok.injEq] at h
    subst h
    exact ⟨[], by simp, rfl⟩
  | cons t rest ih =>
    unfold inspectLoop at h ⊢
    simp only [bind_eq] at h ⊢
    obtain ⟨y, h1, h2, h3⟩ := run_bind_ok h
    obtain ⟨g1, -⟩ := inspectTable_statements sort h1
    obtain ⟨more, g3, g4⟩ := ih h2
    refine ⟨y.1 :: more, by rw [g3]; simp, ?_⟩
    rw [h3, g1, g4]
    rfl

theorem inspect_statements {srv : Server} {n : Nat} {o : InspectOptions} {d : Database F}
    (h : ((inspect parseFloat sort o).run srv n).2.2 = .ok d) :
    ∃ new, (queryRow (srv (n + 4) .hasView) >>= scan) = .ok new ∧
      statements ((inspect parseFloat sort o).run srv n).1 = plan new d := by
  unfold inspect at h ⊢
  simp only [bind_eq] at h ⊢
  obtain ⟨ps, h1, h, s1⟩ := run_bind_ok h
  obtain ⟨schemas, -, h, s2⟩ := run_bind_ok h
  obtain ⟨functions, -, h, s3⟩ := run_bind_ok h
  obtain ⟨sequences, h4, h, s4⟩ := run_bind_ok h
  obtain ⟨ts, -, h, s5⟩ := run_bind_ok h
  obtain ⟨x, h6, h, s6⟩ := run_bind_ok h
  rw [s1, s2, s3, s4, s5, s6]
  simp only [pure_eq, Talk.run, Except.ok.injEq] at h
  subst h
  -- the parameters
  have hp : statements (listParameters.run srv n).1 = [.searchPath, .timezone] ∧
      (listParameters.run srv n).2.1 = n + 2 := by
    have hrun : listParameters.run srv n =
        let x := ((lift (queryRow (srv n .searchPath) >>= scan)).bind fun tmp =>
          note { level := .debug, message := b!"SHOW timezone" } >>= fun _ => ask .timezone >>= fun row =>
          lift (queryRow row >>= scan) >>= fun timezone =>
          pure ({ searchPath := splitComma tmp, timezone } : Parameters)).run srv (n + 1)
        (.logged ⟨.info, b!"listing parameters", []⟩ ::
          .logged ⟨.debug, b!"SHOW search_path", []⟩ :: .sent .searchPath :: x.1, x.2) := rfl
    rw [hrun] at h1 ⊢
    simp only at h1 ⊢
    cases hs : (queryRow (srv n .searchPath) >>= scan : Except Err Str) with
    | error e => rw [hs] at h1; cases h1
    | ok tmp =>
      rw [hs] at h1
      cases ht : (queryRow (srv (n + 1) .timezone) >>= scan : Except Err Str) with
      | error e =>
        exfalso
        have h1' : ((lift (queryRow (srv (n + 1) .timezone) >>= scan) >>= fun timezone =>
          pure ({ searchPath := splitComma tmp, timezone } : Parameters)).run srv (n + 2)).2.2 =
            .ok ps := h1
        rw [ht] at h1'
        cases h1'
      | ok tz =>
        have : ((lift (Except.ok tmp)).bind fun tmp =>
          note { level := .debug, message := b!"SHOW timezone" } >>= fun _ => ask .timezone >>= fun row =>
          lift (queryRow row >>= scan) >>= fun timezone =>
          pure ({ searchPath := splitComma tmp, timezone } : Parameters)).run srv (n + 1) =
          let x := ((lift (queryRow (srv (n + 1) .timezone) >>= scan) >>= fun timezone =>
            pure ({ searchPath := splitComma tmp, timezone } : Parameters)).run srv (n + 2))
          (.logged ⟨.debug, b!"SHOW timezone", []⟩ :: .sent .timezone :: x.1, x.2) := rfl
        rw [this, ht]
        exact ⟨rfl, rfl⟩
  obtain ⟨new, hn, hs⟩ := listSequences_ok h4
  obtain ⟨more, hm, hl⟩ := inspectLoop_statements sort h6
  refine ⟨new, ?_, ?_⟩
  · have : (listFunctions.run srv (listSchemas.run srv (listParameters.run srv n).2.1).2.1).2.1 =
        n + 4 := by
      rw [hp.2]; rfl
    rw [this] at hn
    exact hn
  · rw [hp.1, hs, hl]
    simp only [List.nil_append] at hm
    rw [← hm]
    have e1 : ∀ m, statements (listSchemas.run srv m).1 = [.schemas] := fun _ => rfl
    have e2 : ∀ m, statements (listFunctions.run srv m).1 = [.functions] := fun _ => rfl
    have e3 : ∀ m, statements (listTables.run srv m).1 = [.tables] := fun _ => rfl
    have e4 : ∀ m (d : Database F), statements ((pure d : Talk (Database F)).run srv m).1 = [] :=
      fun _ _ => rfl
    rw [e1, e2, e3, e4]
    cases new <;> simp [plan]

/-- C126. An inspection asks for every part of the database once, in a fixed order, and stops at the
first answer it cannot use. If it yields `d` then all answers were good, and the statements were those
of the plan for `d`. If it fails then the last statement sent is the one whose answer was refused, with
the error that is returned, and all answers before it were good. -/
theorem C126_asked (srv : Server) (o : InspectOptions) (n : Nat) :
    (∀ d, ((inspect parseFloat sort o).run srv n).2.2 = .ok d →
      Accepted parseFloat srv n (statements ((inspect parseFloat sort o).run srv n).1) ∧
      ∃ new, (queryRow (srv (n + 4) .hasView) >>= scan) = .ok new ∧
        statements ((inspect parseFloat sort o).run srv n).1 = plan new d) ∧
    ∀ e, ((inspect parseFloat sort o).run srv n).2.2 = .error e →
      ∃ pre a, statements ((inspect parseFloat sort o).run srv n).1 = pre ++ [a] ∧
        Accepted parseFloat srv n pre ∧ refused parseFloat a (srv (n + pre.length) a) = some e :=
  have h := (strict_inspect sort o).run srv n
  ⟨fun d hd => ⟨h.1 d hd, inspect_statements sort hd⟩, h.2⟩

/-! ## C128: rows affected -/

theorem decimal_rows (n : Nat) :
    decimal n ≠ [] ∧ (∀ b ∈ decimal n, 48 ≤ b ∧ b ≤ 57) ∧ digits (decimal n) = n := by
  induction n using Nat.strongRecOn with
  | _ n ih =>
    have hd : ∀ k, k < 10 → (48 : UInt8) ≤ UInt8.ofNat (48 + k) ∧ UInt8.ofNat (48 + k) ≤ 57 ∧
        (UInt8.ofNat (48 + k)).toNat = 48 + k := by decide
    unfold decimal
    split
    · next h =>
      obtain ⟨h1, h2, h3⟩ := hd n h
      refine ⟨by simp, fun b hb => ?_, ?_⟩
      · rw [List.mem_singleton] at hb; subst hb; exact ⟨h1, h2⟩
      · simp only [digits, List.foldl_cons, List.foldl_nil, h3]; omega
    · next h =>
      obtain ⟨h1, h2, h3⟩ := hd (n % 10) (Nat.mod_lt _ (by decide))
      obtain ⟨-, g2, g3⟩ := ih (n / 10) (by omega)
      refine ⟨by simp, fun b hb => ?_, ?_⟩
      · rw [List.mem_append, List.mem_singleton] at hb
        rcases hb with hb | rfl
        · exact g2 b hb
        · exact ⟨h1, h2⟩
      · unfold digits at g3 ⊢
        rw [List.foldl_append, g3]
        simp only [List.foldl_cons, List.foldl_nil, h3]; omega

theorem exec_trace (sql : Str) (srv : Server) (n : Nat) :
    ((exec sql).run srv n).1 =
      .logged ⟨.debug, b!"executing sql", [(b!"sql", sql)]⟩ :: .sent (.exec sql) ::
        match (srv n (.exec sql)).2 with
        | some _ => [.logged (rowsAffected (srv n (.exec sql)).1)]
        | none => [] := by
  show Event.logged _ :: Event.sent _ :: (Talk.run srv (n + 1) (match (srv n (.exec sql)).2 with
    | some e => (note (rowsAffected (srv n (.exec sql)).1)).bind fun _ => lift (.error e)
    | none => Talk.done (.ok ()))).1 = _
  cases (srv n (.exec sql)).2 <;> rfl

/-- C128, exactly when: `Exec` logs a number of rows if and only if it fails, and then that in the
server's answer. -/
theorem C128_exact (sql : Str) (srv : Server) (n k : Nat) :
    (∃ l, .logged l ∈ ((exec sql).run srv n).1 ∧ l.Rows k) ↔
      ∃ e, srv n (.exec sql) = (k, some e) := by
  have h0 : ¬ Line.Rows ⟨.debug, b!"executing sql", [(b!"sql", sql)]⟩ k := by
    rintro ⟨s, h, -⟩
    simp at h
  rw [exec_trace]
  rcases h : srv n (.exec sql) with ⟨m, _ | e⟩
  · simp only [List.mem_cons, Event.logged.injEq, reduceCtorEq, List.not_mem_nil, or_false,
      Prod.mk.injEq, and_false, exists_false, iff_false]
    rintro ⟨l, rfl, hl⟩
    exact h0 hl
  · simp only [List.mem_cons, Event.logged.injEq, reduceCtorEq, List.not_mem_nil, or_false, false_or,
      Prod.mk.injEq, Option.some.injEq]
    obtain ⟨g1, g2, g3⟩ := decimal_rows m
    constructor
    · rintro ⟨l, rfl | rfl, hl⟩
      · exact absurd hl h0
      · obtain ⟨s, hs, -, -, hk⟩ := hl
        have : s = decimal m := (List.append_cancel_left hs).symm
        rw [this, g3] at hk
        exact ⟨e, hk, rfl⟩
    · rintro ⟨-, rfl, -⟩
      exact ⟨_, .inr rfl, decimal m, rfl, g1, g2, g3⟩

/-- C128 is false, for every statement: one that succeeds leaves no number of rows in the log. -/
theorem C128_refuted (sql : Str) (srv : Server) (n : Nat) (h : (srv n (.exec sql)).2 = none) (k : Nat) :
    ((exec sql).run srv n).2.2 = .ok () ∧
    ¬ ∃ l, .logged l ∈ ((exec sql).run srv n).1 ∧ l.Rows k := by
  refine ⟨?_, fun hr => ?_⟩
  · show (Talk.run srv (n + 1) (match (srv n (.exec sql)).2 with
      | some e => (note (rowsAffected (srv n (.exec sql)).1)).bind fun _ => lift (.error e)
      | none => Talk.done (.ok ()))).2.2 = _
    rw [h]
    rfl
  · obtain ⟨e, he⟩ := (C128_exact sql srv n k).1 hr
    rw [he] at h
    cases h

/-- The rest of C128: a statement that is executed is logged before, and the number that is logged when
it fails is that of the last part that succeeded. -/
theorem C128_failed_partial (sql : Str) (srv : Server) (n k : Nat) (e : Err)
    (h : srv n (.exec sql) = (k, some e)) :
    ((exec sql).run srv n).2.2 = .error e ∧
    ∃ l, ((exec sql).run srv n).1 =
      [.logged ⟨.debug, b!"executing sql", [(b!"sql", sql)]⟩, .sent (.exec sql), .logged l] ∧
      l.Rows k := by
  refine ⟨?_, rowsAffected k, ?_, decimal k, rfl, decimal_rows k⟩
  · show (Talk.run srv (n + 1) (match (srv n (.exec sql)).2 with
      | some e => (note (rowsAffected (srv n (.exec sql)).1)).bind fun _ => lift (.error e)
      | none => Talk.done (.ok ()))).2.2 = _
    rw [h]
    rfl
  · rw [exec_trace, h]

/-- A statement that affects 12 rows, and a text whose second statement fails after the first has
affected 12. -/
example (srv : Server) :
    let srv' (r : Nat × Option Err) : Server := fun n a => match a with
      | .exec _ => r
      | a => srv n a
    ((exec b!"DELETE FROM t").run (srv' (12, none)) 0).1 =
      [.logged ⟨.debug, b!"executing sql", [(b!"sql", b!"DELETE FROM t")]⟩,
       .sent (.exec b!"DELETE FROM t")] ∧
    ((exec b!"DELETE FROM t; x").run (srv' (12, some (.query 7))) 0).1 =
      [.logged ⟨.debug, b!"executing sql", [(b!"sql", b!"DELETE FROM t; x")]⟩,
       .sent (.exec b!"DELETE FROM t; x"), .logged ⟨.debug, b!"rows affected = 12", []⟩] := by
  refine ⟨rfl, ?_⟩
  have : decimal 12 = b!"12" := by decide +kernel
  rw [exec_trace]
  simp [rowsAffected, this]

end Verif.Pg.Session
