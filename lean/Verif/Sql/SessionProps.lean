import Verif.Sql.SessionSpec
import Verif.Sql.MomentProps
import Verif.Sql.Props
import Verif.Pg.SearchPath

/-!
# C80: inspecting a server that is sent texts
-/

namespace Verif.Sql
open Verif Verif.Pg Verif.Pg.Session

/-- A server that answers what the texts say serves the database. -/
theorem serves_of_replies {db : Db} {settings : Settings} {f : (a : Ask) → a.Answer} (h : ∀ a, Replies db settings a (f a)) :
    Serves db (ofAnswers f) where
  schemas := h .schemas _ (by simp [queries]) listSchemas_text
  tables := h .tables _ (by simp [queries]) listTables_text
  functions := h .functions _ (by simp [queries]) listFunctions_text
  function s n := h (.function s n) _ (by simp [queries]) describeFunction_text
  columns s t := h (.columns s t) _ (by simp [queries]) listColumns_text
  checks s t := h (.checks s t) _ (by simp [queries]) listChecks_text
  foreignKeys s t := h (.foreignKeys s t) _ (by simp [queries]) listForeignKeys_text
  indexes s t := h (.indexes s t) _ (by simp [queries]) listIndexes_text
  triggers s t := h (.triggers s t) _ (by simp [queries]) listTriggers_text
  trigger s t n := h (.trigger s t n) _ (by simp [queries]) describeTrigger_text
  storage s t := by
    have := h (.storage s t) _ (by simp) listTableStorageParameters_text
    have e : (ofAnswers f).storage s t = f (.storage s t) := rfl
    rw [e]
    cases hf : f (.storage s t) <;> rw [hf] at this <;> exact this
  hasView := by
    have := h .hasView _ (by simp) hasSequencesView_text
    have e : (ofAnswers f).hasView = f .hasView := rfl
    rw [e]
    cases hf : f .hasView <;> rw [hf] at this <;> exact this
  sequences hv := h .sequences hv _ (by simp [queries]) listSequences_text
  legacySequences := h .legacySequences _ (by simp [queries]) listSequencesPre10_text
  sequence schema name s n hq := by
    have := h (.sequence schema name) s n hq
    have e : (ofAnswers f).sequence schema name = f (.sequence schema name) := rfl
    rw [e]
    rcases hf : f (.sequence schema name) with e | _ | v <;> rw [hf] at this <;> exact this

theorem steady_of_whole {f : (a : Ask) → a.Answer} (h : ∀ a, Whole a (f a)) :
    Steady (ofAnswers f) where
  schemas := h .schemas
  functions := h .functions
  sequences := h .sequences
  legacySequences := h .legacySequences
  tables := h .tables
  columns s t := h (.columns s t)
  checks s t := h (.checks s t)
  foreignKeys s t := h (.foreignKeys s t)
  storage s t := h (.storage s t)
  indexes s t := h (.indexes s t)
  triggers s t := h (.triggers s t)

theorem splitComma_intercalate (s : Str) : List.intercalate b!"," (splitComma s) = s := by
  induction s with
  | nil => rfl
  | cons b s ih =>
    rw [splitComma]
    have hn := splitComma_ne_nil s
    cases hs : splitComma s with
    | nil => exact absurd hs hn
    | cons x xs =>
      rw [hs] at ih
      split
      · rename_i hb
        subst hb
        rw [List.intercalate_cons_cons, ih]
        rfl
      · cases xs with
        | nil => simpa using ih
        | cons y ys =>
          rw [List.intercalate_cons_cons] at ih
          simp only [List.intercalate_cons_cons, List.cons_append, ih]

theorem splitComma_no_comma (s : Str) : ∀ x ∈ splitComma s, (44 : UInt8) ∉ x := by
  induction s with
  | nil => simp [splitComma]
  | cons b s ih =>
    rw [splitComma]
    split
    · simpa using ih
    · rename_i hb
      cases hs : splitComma s with
      | nil => simpa using fun h => hb h.symm
      | cons x xs =>
        rw [hs] at ih
        simp only [List.mem_cons, forall_eq_or_imp] at ih ⊢
        exact ⟨by simpa using ⟨fun h => hb h.symm, ih.1⟩, ih.2⟩

theorem parameters_of_replies {db : Db} {settings : Settings} {f : (a : Ask) → a.Answer}
    (h : ∀ a, Replies db settings a (f a)) :
    match (ofAnswers f).listParameters with
    | .ok p => ParametersOf settings p
    | .error e => ∃ n, e = .query n := by
  have e : (ofAnswers f).listParameters = (queryRow (f .searchPath) >>= scan) >>= fun tmp =>
      (queryRow (f .timezone) >>= scan) >>= fun tz =>
        (.ok { searchPath := splitComma tmp, timezone := tz } : Except Err Parameters) := rfl
  rw [e]
  rcases h .searchPath b!"search_path" rfl with ⟨n, h1⟩ | h1
  · rw [h1]; exact ⟨n, rfl⟩
  · rcases h .timezone b!"timezone" rfl with ⟨n, h2⟩ | h2
    · rw [h1, h2]; exact ⟨n, rfl⟩
    · rw [h1, h2]
      exact ⟨splitComma_intercalate _, splitComma_ne_nil _, splitComma_no_comma _, rfl⟩

theorem inspect_parameters {F : Type} {parseFloat : Str → F × Option Ddl.NumErr} {sort : Sorter}
    {c : Catalog} {o : InspectOptions} {d : Database F} (h : Pg.inspect parseFloat sort c o = .ok d) :
    c.listParameters = .ok d.parameters := by
  unfold Pg.inspect at h
  cases hp : c.listParameters with
  | error e => rw [hp] at h; cases h
  | ok p =>
    rw [hp] at h
    simp only [bind, Except.bind, pure, Except.pure] at h
    repeat' split at h
    all_goals first | cases h; done | (cases h; rfl)

/-- C80, down to the texts that are sent: over a connection to a server that holds `db`, is sent
nothing but texts and arguments and answers what they say, `InspectDatabase` returns a description of
`db` with the parameters of the session; or it fails, and then a query failed, or a definition or option
value in the database is not understood. -/
theorem C80_session {F : Type} (parseFloat : Str → F × Option Ddl.NumErr) (sort : Sorter)
    (hsort : SortSlice sort) (db : Db) (hw : db.WF) (settings : Settings) (f : (a : Ask) → a.Answer)
    (hf : ∀ a, Replies db settings a (f a)) (hu : ∀ a, Whole a (f a)) (o : InspectOptions) (n : Nat) :
    match ((Session.inspect parseFloat sort o).run (fun _ => f) n).2.2 with
    | .ok d => DatabaseInspected parseFloat db o d ∧ ParametersOf settings d.parameters
    | .error e => (∃ n, e = .query n) ∨ ((∃ cs, e = .parse cs) ∧ NotUnderstood db) ∨
        ((∃ n, e = .num n) ∧ BadOption parseFloat db) := by
  have hagree : (Session.inspect parseFloat sort o).run (fun _ => f) n =
      (Session.inspect parseFloat sort o).run (fun _ => answer (ofAnswers f)) n := by
    refine (run_agree _ _ _ _ fun i a ha => ?_).symm
    exact answer_ofAnswers f a (sends_inspect parseFloat sort o _ n a (List.mem_of_getElem? ha))
  have hp := parameters_of_replies hf
  rw [hagree, run_result, result_inspect]
  rcases C80_inspect parseFloat sort hsort db hw _ (serves_of_replies hf) (steady_of_whole hu) o with
    ⟨d, h, hd⟩ | ⟨e, h, he⟩
  · rw [inspect_parameters h] at hp
    rw [h]
    exact ⟨hd, hp⟩
  · rw [h]
    rcases he with he | he
    · rw [he] at hp
      exact .inl hp
    · exact he

/-- Over a connection every function returns what it makes of the answers (List.lean), so what C72 to
C79 say of a server they say of the functions of a session. -/
theorem session_refines {F : Type} (parseFloat : Str → F × Option Ddl.NumErr) (c : Catalog) (n : Nat) :
    (Session.listParameters.run (fun _ => answer c) n).2.2 = c.listParameters ∧
    (Session.listSchemas.run (fun _ => answer c) n).2.2 = c.listSchemas ∧
    (Session.listFunctions.run (fun _ => answer c) n).2.2 = c.listFunctions ∧
    (Session.listSequences.run (fun _ => answer c) n).2.2 = c.listSequences ∧
    (Session.listTables.run (fun _ => answer c) n).2.2 = c.listTables ∧
    (∀ s t, ((Session.listColumns s t).run (fun _ => answer c) n).2.2 = c.listColumns s t) ∧
    (∀ s t, ((Session.listChecks s t).run (fun _ => answer c) n).2.2 = c.listChecks s t) ∧
    (∀ s t, ((Session.listForeignKeys s t).run (fun _ => answer c) n).2.2 = c.listForeignKeys s t) ∧
    (∀ s t, ((Session.listStorage parseFloat s t).run (fun _ => answer c) n).2.2 =
      c.listStorage parseFloat s t) ∧
    (∀ s t, ((Session.listIndexes s t).run (fun _ => answer c) n).2.2 = c.listIndexes s t) ∧
    (∀ s t, ((Session.listTriggers s t).run (fun _ => answer c) n).2.2 = c.listTriggers s t) ∧
    (∀ s m, ((Session.describeFunction s m).run (fun _ => answer c) n).2.2 = c.describeFunction s m) ∧
    (∀ s t m, ((Session.describeTrigger s t m).run (fun _ => answer c) n).2.2 =
      c.describeTrigger s t m) ∧
    (Session.serverVersion.run (fun _ => answer c) n).2.2 = c.serverVersion := by
  simp only [run_result]
  exact ⟨result_listParameters c, rfl, rfl, result_listSequences c, rfl, fun _ _ => rfl, fun _ _ => rfl,
    fun _ _ => rfl, fun _ _ => rfl, fun _ _ => rfl, fun _ _ => rfl, fun _ _ => rfl, fun _ _ _ => rfl, rfl⟩

/-- C67, down to the texts that are sent. `DescribeFunction` fails because the query failed, or says "not
found" and there is no such function, or describes one. -/
theorem C67_session_function_partial (db : Db) (hw : db.WF) (settings : Settings)
    (f : (a : Ask) → a.Answer) (hf : ∀ a, Replies db settings a (f a)) (schema name : Str) (n : Nat) :
    match ((Session.describeFunction schema name).run (fun _ => f) n).2.2 with
    | .ok x => ∃ p ∈ db.procs, p.proname = name ∧ SchemaIs db p.pronamespace schema ∧
        FunctionDescribed db p x
    | .error e => (∃ n, e = .query n) ∨
        (e = .notFound ∧ ¬ ∃ p ∈ db.procs, p.proname = name ∧ SchemaIs db p.pronamespace schema) := by
  have e : ((Session.describeFunction schema name).run (fun _ => f) n).2.2 =
      (ofAnswers f).describeFunction schema name := rfl
  rw [e]
  rcases C67_function_partial db hw _ (serves_of_replies hf) schema name with
    ⟨n, h⟩ | ⟨h, h'⟩ | ⟨p, hp, h1, h2, x, h, hx⟩
  · rw [h]; exact .inl ⟨n, rfl⟩
  · rw [h]; exact .inr ⟨rfl, h'⟩
  · rw [h]; exact ⟨p, hp, h1, h2, hx⟩

/-- C67 for triggers, down to the texts that are sent: the trigger of that name on that table is
described; or the query failed, or there is no such trigger, or its definition is not understood. -/
theorem C67_session_trigger (db : Db) (hw : db.WF) (settings : Settings)
    (f : (a : Ask) → a.Answer) (hf : ∀ a, Replies db settings a (f a)) (schema table name : Str) (n : Nat) :
    match ((Session.describeTrigger schema table name).run (fun _ => f) n).2.2 with
    | .ok x => ∃ t, TriggerOf db schema table t ∧ t.tgname = name ∧ TriggerDescribed db schema t x
    | .error e => (∃ n, e = .query n) ∨
        (e = .notFound ∧ ¬ ∃ t, TriggerOf db schema table t ∧ t.tgname = name) ∨
        ((∃ cs, e = .parse cs) ∧ ∃ t, (TriggerOf db schema table t ∧ t.tgname = name) ∧
          ¬ ∃ x, TriggerDescribed db schema t x) := by
  have e : ((Session.describeTrigger schema table name).run (fun _ => f) n).2.2 =
      (ofAnswers f).describeTrigger schema table name := rfl
  rw [e]
  rcases C67_trigger db hw _ (serves_of_replies hf) schema table name with
    ⟨n, h⟩ | ⟨h, h'⟩ | ⟨t, ht, -, hx, he⟩
  · rw [h]; exact .inl ⟨n, rfl⟩
  · rw [h]; exact .inr (.inl ⟨rfl, h'⟩)
  · cases h : (ofAnswers f).describeTrigger schema table name with
    | ok x => exact ⟨t, ht.1, ht.2, (hx x).1 h⟩
    | error e =>
      refine .inr (.inr ⟨he e h, t, ht, ?_⟩)
      rintro ⟨x, hd⟩
      have := (hx x).2 hd
      rw [h] at this
      cases this

/-! ## Such a server exists -/

theorem toks_nodup : (queries.map Select.toks).Nodup := by decide +kernel

/-- A text is that of at most one query. -/
theorem only {text : Str} {x : Select} (hx : x ∈ queries) (ht : IsText text x.toks) {s : Select}
    (hs : s ∈ queries) (h : IsText text s.toks) : s = x :=
  List.inj_on_of_nodup_map toks_nodup hs hx (Option.some.inj (h.symm.trans ht))

theorem replies_of_serves {db : Db} {settings : Settings} {c : Catalog} (h : Serves db c)
    (hsp : c.searchPath = .ok (some (some (settings b!"search_path"))))
    (htz : c.timezone = .ok (some (some (settings b!"timezone")))) (a : Ask) :
    Replies db settings a (answer c a) := by
  have q : ∀ {ρ : Type} {text : Str} {params : List Str} {read : List Val → Option ρ} {r : Query ρ}
      (x : Select), x ∈ queries → IsText text x.toks → Gives db x params read r →
      TextGives db text params read r :=
    fun x hx ht hg s hs hst => only hx ht hs hst ▸ hg
  have q' : ∀ {ρ : Type} {text : Str} {params : List Str} {read : List Val → Option ρ} {r : QueryRow ρ}
      (x : Select), x ∈ queries → IsText text x.toks → GivesRow db x params read r →
      TextGivesRow db text params read r :=
    fun x hx ht hg s hs hst => only hx ht hs hst ▸ hg
  cases a with
  | searchPath =>
    intro name hn
    have : name = b!"search_path" := (List.append_cancel_left (as := b!"SHOW ") hn).symm
    subst this
    exact .inr hsp
  | timezone =>
    intro name hn
    have : name = b!"timezone" := (List.append_cancel_left (as := b!"SHOW ") hn).symm
    subst this
    exact .inr htz
  | schemas => exact q _ (by simp [queries]) listSchemas_text h.schemas
  | tables => exact q _ (by simp [queries]) listTables_text h.tables
  | functions => exact q _ (by simp [queries]) listFunctions_text h.functions
  | function s n => exact q' _ (by simp [queries]) describeFunction_text (h.function s n)
  | columns s t => exact q _ (by simp [queries]) listColumns_text (h.columns s t)
  | checks s t => exact q _ (by simp [queries]) listChecks_text (h.checks s t)
  | foreignKeys s t => exact q _ (by simp [queries]) listForeignKeys_text (h.foreignKeys s t)
  | indexes s t => exact q _ (by simp [queries]) listIndexes_text (h.indexes s t)
  | triggers s t => exact q _ (by simp [queries]) listTriggers_text (h.triggers s t)
  | trigger s t n => exact q' _ (by simp [queries]) describeTrigger_text (h.trigger s t n)
  | storage s t =>
    intro x hx _
    cases List.mem_singleton.1 hx
    have := h.storage s t
    have e : answer c (.storage s t) = c.storage s t := rfl
    rw [e]
    cases hf : c.storage s t <;> rw [hf] at this <;> exact this
  | hasView =>
    intro x hx _
    cases List.mem_singleton.1 hx
    have := h.hasView
    have e : answer c .hasView = c.hasView := rfl
    rw [e]
    cases hf : c.hasView <;> rw [hf] at this <;> exact this
  | sequences => exact fun hv => q _ (by simp [queries]) listSequences_text (h.sequences hv)
  | legacySequences => exact q _ (by simp [queries]) listSequencesPre10_text h.legacySequences
  | sequence schema name =>
    intro s n hq
    have := h.sequence schema name s n hq
    have e : answer c (.sequence schema name) = c.sequence schema name := rfl
    rw [e]
    rcases hf : c.sequence schema name with e | _ | v <;> rw [hf] at this <;> exact this
  | _ => exact trivial

theorem whole_of_steady {c : Catalog} (h : Steady c) (a : Ask) : Whole a (answer c a) := by
  cases a with
  | schemas => exact h.schemas
  | tables => exact h.tables
  | functions => exact h.functions
  | sequences => exact h.sequences
  | legacySequences => exact h.legacySequences
  | columns s t => exact h.columns s t
  | checks s t => exact h.checks s t
  | foreignKeys s t => exact h.foreignKeys s t
  | storage s t => exact h.storage s t
  | indexes s t => exact h.indexes s t
  | triggers s t => exact h.triggers s t
  | _ => exact trivial

/-- Every database has such a server; on `shop` the inspection succeeds (InspectProps.lean). -/
example (db : Db) : ∃ settings, (∀ a, Replies db settings a (answer (serve db) a)) ∧
    ∀ a, Whole a (answer (serve db) a) :=
  ⟨fun name => if name = b!"timezone" then b!"UTC" else b!"public",
    replies_of_serves (serve_serves db) rfl rfl, whole_of_steady (serve_steady db)⟩

end Verif.Sql
