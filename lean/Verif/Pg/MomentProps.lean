import Verif.Pg.AskedProps

/-!
# C127: an inspection of a database that changes meanwhile
-/

namespace Verif.Pg.Session
open Verif Verif.Pg

variable {α β F : Type} {parseFloat : Str → F × Option Ddl.NumErr} {sort : Sorter}

/-! ## A server that does not change -/

/-- What a function returns when the answers do not depend on the time. -/
def result (f : (a : Ask) → a.Answer) (t : Talk α) : Except Err α := (t.run (fun _ => f) 0).2.2

theorem run_result (f : (a : Ask) → a.Answer) (t : Talk α) (n : Nat) :
    (t.run (fun _ => f) n).2.2 = result f t := by
  unfold result
  generalize 0 = m
  induction t generalizing n m with
  | done r => rfl
  | log l rest ih => exact ih n m
  | send a rest ih => exact ih _ (n + 1) (m + 1)

theorem result_bind (f : (a : Ask) → a.Answer) (t : Talk α) (g : α → Talk β) :
    result f (t.bind g) = (result f t >>= fun a => result f (g a)) := by
  unfold result
  rw [run_bind]
  rcases h : t.run (fun _ => f) 0 with ⟨tr, m, e | a⟩
  · rfl
  · exact run_result f (g a) m

theorem result_done (f : (a : Ask) → a.Answer) (r : Except Err α) : result f (.done r) = r := rfl

theorem result_single (f : (a : Ask) → a.Answer) (m : Str) (fields : List (Str × Str)) (q : Str) (a : Ask)
    (g : a.Answer → Except Err α) :
    result f (info m fields >>= fun _ => executing q >>= fun _ => ask a >>= fun r => lift (g r)) =
      g (f a) := rfl

section
variable (c : Catalog)

theorem result_listParameters : result (answer c) listParameters = c.listParameters := by
  unfold listParameters Catalog.listParameters
  simp only [bind_eq, result_bind]
  rfl

theorem result_fillSequences (seqs : List Sequence) :
    result (answer c) (fillSequences seqs) = c.fillSequences seqs := by
  induction seqs with
  | nil => rfl
  | cons seq rest ih =>
    unfold fillSequences Catalog.fillSequences
    simp only [bind_eq, result_bind, ih]
    have : result (answer c) (lift (filled seq (answer c (.sequence seq.schema seq.name)))) =
      c.fillSequence seq := rfl
    show (result (answer c) (lift (filled seq (answer c (.sequence seq.schema seq.name)))) >>= fun seq' =>
      (c.fillSequences rest >>= fun rest' => Except.ok (seq' :: rest'))) = _
    rw [this]
    cases c.fillSequence seq with
    | error e => rfl
    | ok s => cases c.fillSequences rest <;> rfl

theorem result_listSequences : result (answer c) listSequences = c.listSequences := by
  unfold listSequences Catalog.listSequences
  simp only [bind_eq, result_bind]
  show ((queryRow c.hasView >>= scan : Except Err Bool) >>= _) = _
  cases (queryRow c.hasView >>= scan : Except Err Bool) with
  | error e => rfl
  | ok b =>
    cases b with
    | true => rfl
    | false =>
      show result (answer c) ((executing Sql.Texts.listSequencesPre10).bind fun _ =>
        (ask .legacySequences).bind fun rows =>
          (lift (listRows rows legacySequenceRow)).bind fun s => fillSequences s) = _
      simp only [result_bind]
      show (listRows c.legacySequences legacySequenceRow >>= fun seqs =>
          result (answer c) (fillSequences seqs)) = _
      cases listRows c.legacySequences legacySequenceRow with
      | error e => rfl
      | ok seqs => exact result_fillSequences c seqs

theorem result_inspectTable (o : InspectOptions) (idx : List Ddl.Index) (trg : List Ddl.Trigger)
    (t : Ddl.Table) : result (answer c) (inspectTable parseFloat sort o idx trg t) =
      Pg.inspectTable parseFloat sort c o idx trg t := by
  unfold inspectTable Pg.inspectTable
  simp only [bind_eq, result_bind]
  rfl

theorem result_inspectLoop (o : InspectOptions) (ts : List Ddl.Table) (infos : List (TableInfo F))
    (idx : List Ddl.Index) (trg : List Ddl.Trigger) :
    result (answer c) (inspectLoop parseFloat sort o ts infos idx trg) =
      Pg.inspectLoop parseFloat sort c o ts infos idx trg := by
  induction ts generalizing infos idx trg with
  | nil => rfl
  | cons t rest ih =>
    unfold inspectLoop Pg.inspectLoop
    simp only [bind_eq, result_bind, result_inspectTable]
    cases Pg.inspectTable parseFloat sort c o idx trg t with
    | error e => rfl
    | ok x => exact ih _ _ _

/-- The two models of the inspection agree. -/
theorem result_inspect (o : InspectOptions) :
    result (answer c) (inspect parseFloat sort o) = Pg.inspect parseFloat sort c o := by
  unfold inspect Pg.inspect
  simp only [bind_eq, result_bind, result_listParameters, result_listSequences]
  cases c.listParameters with
  | error e => rfl
  | ok ps =>
    show (c.listSchemas >>= _) = (c.listSchemas >>= _)
    cases c.listSchemas with
    | error e => rfl
    | ok ss =>
      show (c.listFunctions >>= _) = (c.listFunctions >>= _)
      cases c.listFunctions with
      | error e => rfl
      | ok fs =>
        show (c.listSequences >>= _) = (c.listSequences >>= _)
        cases c.listSequences with
        | error e => rfl
        | ok qs =>
          show (c.listTables >>= _) = (c.listTables >>= _)
          cases c.listTables with
          | error e => rfl
          | ok ts =>
            show (result (answer c) (inspectLoop parseFloat sort o ts [] [] []) >>= _) =
              (Pg.inspectLoop parseFloat sort c o ts [] [] [] >>= _)
            rw [result_inspectLoop]
            cases Pg.inspectLoop parseFloat sort c o ts [] [] [] with
            | error e => rfl
            | ok x => rfl

end

/-! ## One catalog for answers of different moments -/

/-- If the answers to the statements that are sent are the same, the run is the same. -/
theorem run_agree (srv srv' : Server) (t : Talk α) (n : Nat)
    (h : ∀ i a, (statements (t.run srv n).1)[i]? = some a → srv' (n + i) a = srv (n + i) a) :
    t.run srv' n = t.run srv n := by
  induction t generalizing n with
  | done r => rfl
  | log l rest ih =>
    have : rest.run srv' n = rest.run srv n := ih n h
    simp only [Talk.run, this]
  | send a rest ih =>
    have h0 : srv' n a = srv n a := h 0 a rfl
    have : (rest (srv n a)).run srv' (n + 1) = (rest (srv n a)).run srv (n + 1) := by
      refine ih _ _ fun i b hb => ?_
      have := h (i + 1) b hb
      rwa [show n + (i + 1) = n + 1 + i by omega] at this
    simp only [Talk.run, h0, this]

theorem blend (srv : Server) (n : Nat) (l : List Ask) (hl : l.Nodup) (f₀ : (a : Ask) → a.Answer) :
    ∃ f : (a : Ask) → a.Answer, ∀ i a, l[i]? = some a → f a = srv (n + i) a := by
  induction l generalizing n with
  | nil => exact ⟨f₀, fun i a h => by simp at h⟩
  | cons b l ih =>
    rw [List.nodup_cons] at hl
    obtain ⟨f, hf⟩ := ih (n + 1) hl.2
    refine ⟨fun a => if a = b then srv n a else f a, fun i a h => ?_⟩
    cases i with
    | zero =>
      simp only [List.getElem?_cons_zero, Option.some.injEq] at h
      subst h
      simp
    | succ i =>
      rw [List.getElem?_cons_succ] at h
      have hne : a ≠ b := by
        rintro rfl
        exact hl.1 (List.mem_of_getElem? h)
      simp only [hne, if_false]
      rw [hf i a h, show n + 1 + i = n + (i + 1) by omega]

/-- The catalogs that give the answers `f`. -/
def ofAnswers (f : (a : Ask) → a.Answer) : Catalog where
  searchPath := f .searchPath
  timezone := f .timezone
  schemas := f .schemas
  functions := f .functions
  function s n := f (.function s n)
  hasView := f .hasView
  sequences := f .sequences
  legacySequences := f .legacySequences
  sequence s n := f (.sequence s n)
  tables := f .tables
  columns s t := f (.columns s t)
  checks s t := f (.checks s t)
  foreignKeys s t := f (.foreignKeys s t)
  storage s t := f (.storage s t)
  indexes s t := f (.indexes s t)
  triggers s t := f (.triggers s t)
  trigger s t n := f (.trigger s t n)
  version := f .version

theorem answer_ofAnswers (f : (a : Ask) → a.Answer) (a : Ask) (h : a.Query) :
    answer (ofAnswers f) a = f a := by
  cases a <;> first | rfl | exact absurd rfl (h _)

theorem plan_nodup (new : Bool) (d : Database F)
    (ht : (d.tables.map fun x => (x.table.schema, x.table.name)).Nodup)
    (hs : (d.sequences.map fun s => (s.schema, s.name)).Nodup) : (plan new d).Nodup := by
  have h1 : (d.sequences.map fun s => Ask.sequence s.schema s.name).Nodup := by
    have : (d.sequences.map fun s => Ask.sequence s.schema s.name) =
        (d.sequences.map fun s => (s.schema, s.name)).map fun p => Ask.sequence p.1 p.2 := by
      simp [List.map_map, Function.comp_def]
    rw [this]
    refine hs.map fun p q h => ?_
    simp only [Ask.sequence.injEq] at h
    exact Prod.ext h.1 h.2
  have h2 : (d.tables.flatMap aboutTable).Nodup := by
    rw [List.nodup_flatMap]
    refine ⟨fun x _ => by simp [aboutTable], ?_⟩
    rw [List.Nodup, List.pairwise_map] at ht
    refine ht.imp fun {x y} h => ?_
    intro a ha hb
    apply h
    simp only [aboutTable, List.mem_cons, List.not_mem_nil, or_false] at ha hb
    rcases ha with rfl | rfl | rfl | rfl | rfl | rfl <;> simpa using hb
  have h3 : ∀ a ∈ d.tables.flatMap aboutTable, a ≠ .searchPath ∧ a ≠ .timezone ∧ a ≠ .schemas ∧
      a ≠ .functions ∧ a ≠ .hasView ∧ a ≠ .sequences ∧ a ≠ .legacySequences ∧ a ≠ .tables ∧
      ∀ s n, a ≠ .sequence s n := by
    intro a ha
    rw [List.mem_flatMap] at ha
    obtain ⟨x, -, ha⟩ := ha
    simp only [aboutTable, List.mem_cons, List.not_mem_nil, or_false] at ha
    rcases ha with rfl | rfl | rfl | rfl | rfl | rfl <;> simp
  have h3' : ∀ a ∈ d.tables.flatMap aboutTable, ∀ b ∈ [Ask.searchPath, .timezone, .schemas, .functions,
      .hasView, .sequences, .legacySequences, .tables], a ≠ b := by
    intro a ha b hb
    obtain ⟨g1, g2, g3, g4, g5, g6, g7, g8, -⟩ := h3 a ha
    simp only [List.mem_cons, List.not_mem_nil, or_false] at hb
    rcases hb with rfl | rfl | rfl | rfl | rfl | rfl | rfl | rfl <;> assumption
  have key : ∀ b ∈ [Ask.searchPath, .timezone, .schemas, .functions,
      .hasView, .sequences, .legacySequences, .tables], b ∉ d.tables.flatMap aboutTable :=
    fun b hb h => h3' b h b hb rfl
  have k1 := key .searchPath (by simp)
  have k2 := key .timezone (by simp)
  have k3 := key .schemas (by simp)
  have k4 := key .functions (by simp)
  have k5 := key .hasView (by simp)
  have k6 := key .sequences (by simp)
  have k7 := key .legacySequences (by simp)
  have k8 := key .tables (by simp)
  have k9 : ∀ s ∈ d.sequences, Ask.sequence s.schema s.name ∉ d.tables.flatMap aboutTable :=
    fun s _ h => (h3 _ h).2.2.2.2.2.2.2.2 _ _ rfl
  cases new with
  | true =>
    simp [plan, -List.mem_flatMap, k1, k2, k3, k4, k5, k6, k8, h2]
  | false =>
    simp only [plan, Bool.false_eq_true, if_false]
    rw [List.nodup_append]
    refine ⟨?_, by simp [-List.mem_flatMap, k8, h2], ?_⟩
    · rw [List.nodup_append]
      refine ⟨by decide, ?_, ?_⟩
      · rw [List.nodup_cons]
        exact ⟨by simp, h1⟩
      · intro a ha b hb
        rw [List.mem_cons, List.mem_map] at hb
        simp only [List.mem_cons, List.not_mem_nil, or_false] at ha
        rcases hb with rfl | ⟨s, -, rfl⟩ <;> rcases ha with rfl | rfl | rfl | rfl | rfl <;> simp
    · intro a ha b hb
      rw [List.mem_append, List.mem_cons (b := Ask.legacySequences), List.mem_map] at ha
      rw [List.mem_cons] at hb
      rcases ha with ha | rfl | ⟨s, hs', rfl⟩
      · simp only [List.mem_cons, List.not_mem_nil, or_false] at ha
        rcases hb with rfl | hb
        · rcases ha with rfl | rfl | rfl | rfl | rfl <;> simp
        · rcases ha with rfl | rfl | rfl | rfl | rfl <;> rintro rfl <;> contradiction
      · rcases hb with rfl | hb
        · simp
        · rintro rfl; contradiction
      · rcases hb with rfl | hb
        · simp
        · rintro rfl; exact k9 s hs' hb

/-- C127, as far as it holds: if an inspection yields `d` while the database changes, then `d` is what
an inspection of some catalogs `c` yields every part of which is an answer of a moment of the
inspection: the answer to the `i`-th statement is that of the `i`-th moment. (No two tables and no two
sequences have the same name and schema.) -/
theorem C127_parts_partial (moments : Nat → Catalog) (o : InspectOptions) (d : Database F)
    (h : ((inspect parseFloat sort o).run (during moments) 0).2.2 = .ok d)
    (ht : (d.tables.map fun x => (x.table.schema, x.table.name)).Nodup)
    (hs : (d.sequences.map fun s => (s.schema, s.name)).Nodup) :
    ∃ (c : Catalog) (new : Bool), Pg.inspect parseFloat sort c o = .ok d ∧
      ∀ i a, (plan new d)[i]? = some a → answer c a = answer (moments i) a := by
  obtain ⟨new, -, hp⟩ := inspect_statements sort h
  have hq := sends_inspect parseFloat sort o (during moments) 0
  rw [hp] at hq
  obtain ⟨f, hf⟩ := blend (during moments) 0 (plan new d) (plan_nodup new d ht hs)
    (answer (moments 0))
  simp only [Nat.zero_add] at hf
  have hfa : ∀ i a, (plan new d)[i]? = some a →
      answer (ofAnswers f) a = answer (moments i) a := by
    intro i a ha
    rw [answer_ofAnswers f a (hq a (List.mem_of_getElem? ha))]
    exact hf i a ha
  refine ⟨ofAnswers f, new, ?_, hfa⟩
  rw [← result_inspect, result, run_agree (during moments) (fun _ => answer (ofAnswers f)), h]
  intro i a ha
  rw [hp] at ha
  rw [Nat.zero_add]
  exact hfa i a ha

/-- C127: if the answers do not change, an inspection describes the one state of the database there
is. -/
theorem C127_still_partial (c : Catalog) (moments : Nat → Catalog) (o : InspectOptions)
    (h : ∀ n, moments n = c) :
    ((inspect parseFloat sort o).run (during moments) 0).2.2 = Pg.inspect parseFloat sort c o := by
  have : during moments = fun _ => answer c := by
    funext n
    unfold during
    rw [h n]
  rw [this, ← result_inspect]
  rfl

end Verif.Pg.Session
