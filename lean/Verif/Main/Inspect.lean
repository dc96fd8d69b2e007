import Verif.Hcl.TextProps
import Verif.Main.Spec
import Verif.Pg.ConnectProps
import Verif.Hcl.Props
import Verif.Sql.InspectProps
import Verif.Cmd.OutputProps

/-!
# C95: what `pgutil inspect` leaves describes the database
-/

namespace Verif.Main
open Verif Cmd Spec Sql

variable {F N : Type} {env : Env F N} {w : World} {db : Db}

/-! ## Numbers -/

theorem intText_int64 {s : Str} {n : Int} (h : Ddl.IntText s n) : Hcl.Int64 n := by
  rcases h with ⟨m, _, h1, h2⟩ | ⟨m, ds, _, _, h1, h2⟩
  · exact ⟨by omega, h2⟩
  · exact ⟨h2, by omega⟩

theorem option_int64 {parseFloat : Str → F × Option Ddl.NumErr} {o : Pg.InspectOptions} {t : Class}
    {x : Pg.TableInfo F} (h : TableInspected parseFloat db o t x) {key : Str} {n : Int}
    (hk : (key, Ddl.Kind.int) ∈ Ddl.knownParams) {v : Option Int} (hv : n ∈ v)
    (hg : x.storage.get key = v.map .int) : Hcl.Int64 n := by
  cases hv
  replace hg : x.storage.get key = some (.int n) := hg
  by_cases hs : ∃ value, OptionSet db x.table.schema t.relname key value
  · obtain ⟨value, hv⟩ := hs
    obtain ⟨v, hd, hv'⟩ := h.optionsSet key .int value hk hv
    rw [hg] at hv'
    cases hv'
    exact intText_int64 hd
  · rw [h.optionsUnset key hs] at hg
    cases hg

theorem storage_fits {parseFloat : Str → F × Option Ddl.NumErr} {o : Pg.InspectOptions} {t : Class}
    {x : Pg.TableInfo F} (h : TableInspected parseFloat db o t x) :
    Hcl.tableStorageParametersFits x.storage := by
  refine ⟨?_, ?_, ?_, ?_, ?_, ?_, ?_, ?_, ?_, ?_, ?_, ?_⟩ <;> intro n hn
  · exact option_int64 h (key := b!"fillfactor") (by decide) hn rfl
  · exact option_int64 h (key := b!"parallel_workers") (by decide) hn rfl
  · exact option_int64 h (key := b!"autovacuum_vacuum_threshold") (by decide) hn rfl
  · exact option_int64 h (key := b!"autovacuum_analyze_threshold") (by decide) hn rfl
  · exact option_int64 h (key := b!"autovacuum_vacuum_cost_limit") (by decide) hn rfl
  · exact option_int64 h (key := b!"autovacuum_freeze_min_age") (by decide) hn rfl
  · exact option_int64 h (key := b!"autovacuum_freeze_max_age") (by decide) hn rfl
  · exact option_int64 h (key := b!"autovacuum_freeze_table_age") (by decide) hn rfl
  · exact option_int64 h (key := b!"autovacuum_multixact_freeze_min_age") (by decide) hn rfl
  · exact option_int64 h (key := b!"autovacuum_multixact_freeze_max_age") (by decide) hn rfl
  · exact option_int64 h (key := b!"autovacuum_multixact_freeze_table_age") (by decide) hn rfl
  · exact option_int64 h (key := b!"log_autovacuum_min_duration") (by decide) hn rfl

/-- The numbers of an inspected database fit. -/
theorem inspected_fits {parseFloat : Str → F × Option Ddl.NumErr} {o : Pg.InspectOptions}
    {d : Pg.Database F} (hb : Bigints db) (h : DatabaseInspected parseFloat db o d) :
    Hcl.databaseFits (Hcl.ofInspect d) := by
  constructor
  · intro x hx
    obtain ⟨l, _, _, _, hl⟩ := h.sequences
    obtain ⟨c, _, hd, _⟩ := Pg.forall₂_mem_right hl hx
    obtain ⟨s, hs, _, e1, e2, e3, e4, e5, _⟩ := hd.values
    obtain ⟨b1, b2, b3, b4, b5⟩ := hb s hs
    exact ⟨e1 ▸ b1, e2 ▸ b2, e3 ▸ b3, e4 ▸ b4, e5 ▸ b5⟩
  · intro x hx
    obtain ⟨l, _, _, _, hl⟩ := h.tables
    simp only [Hcl.ofInspect, List.mem_map] at hx
    obtain ⟨t, ht, rfl⟩ := hx
    obtain ⟨c, _, hd⟩ := Pg.forall₂_mem_right hl ht
    intro p hp
    cases hp
    exact storage_fits hd

/-! ## Connecting -/

/-- The configuration is that of the server named. -/
theorem configure_named {s : Server} {e cfg : Pg.ConnConfig} (h : Pg.configure e s.options = .ok cfg) :
    Named s e cfg := by
  have hm : cfg ∈ Pg.configs (Pg.new (.ok e) (fun _ => false) s.options).1 := by
    simp only [Pg.new, h]
    rw [Pg.connectLoop]
    simp [Server.options, Pg.configs]
  obtain ⟨h1, h2, h3, h4, h5⟩ := Pg.C52_options_win e _ _ cfg hm
  have hp : cfg.password = e.password := by simpa [Pg.Chosen, Server.options] using h4
  have ht := Pg.C53_transports e _ _ cfg hm
  rw [hp] at ht
  exact ⟨h1, h2, h3, h5, hp, ht⟩

/-- Without retries there is one attempt. -/
theorem new_once (libpq : Except Unit Pg.ConnConfig) (ok : Nat → Bool) (s : Server) :
    (∃ e, Pg.new libpq ok s.options = ([], .err e)) ∨
    ∃ e cfg, libpq = .ok e ∧ Pg.configure e s.options = .ok cfg ∧
      Pg.new libpq ok s.options =
        ([.connect cfg (ok 0)], if ok 0 then .conn 0 else .err (.attempt 0)) := by
  unfold Pg.new
  cases libpq with
  | error e => exact .inl ⟨_, rfl⟩
  | ok e =>
    simp only
    cases hc : Pg.configure e s.options with
    | error e' => exact .inl ⟨_, rfl⟩
    | ok cfg =>
      refine .inr ⟨e, cfg, rfl, hc, ?_⟩
      simp only
      rw [Pg.connectLoop]
      cases h0 : ok 0 with
      | false => simp [Server.options]
      | true =>
        simp only [Server.options, if_true]
        rw [Pg.connectLoop]
        simp

/-! ## Writing -/

theorem write_error (os : Os) (dest : Writer) (text : Str) (w : World) :
    (write os dest text w).2 = (os.write text).2 := by cases dest <;> rfl

theorem runInspect_success {os : Os} (ho : Honest os) {d : Except Unit Str} {output : Str} {w : World}
    (h : (runInspect os d output w).2 = .success) :
    ∃ text, d = .ok text ∧ Left output text w (runInspect os d output w).1 := by
  cases d with
  | error e => cases h
  | ok text =>
    refine ⟨text, rfl, ?_⟩
    unfold runInspect at h ⊢
    simp only [openOutput, openTrunc] at h ⊢
    unfold Left
    by_cases hd : output = [] ∨ output = b!"-"
    · have e : (if output = [] then b!"-" else output) = b!"-" := by
        rcases hd with rfl | rfl <;> rfl
      rw [e] at h ⊢
      simp only [ne_eq, not_true, if_false, if_pos hd] at h ⊢
      have hw : (os.write text).2 = false := by
        rw [write_error] at h
        cases hb : (os.write text).2 with
        | false => rfl
        | true => rw [hb] at h; cases h
      simp [write, ho _ hw]
    · obtain ⟨h1, h2⟩ := not_or.mp hd
      rw [if_neg h1] at h ⊢
      rw [if_neg hd]
      simp only [ne_eq, h2, not_false_eq_true, if_true] at h ⊢
      cases hf : os.openFails output with
      | true => simp [hf] at h
      | false =>
        simp only [hf, Bool.false_eq_true, if_false] at h ⊢
        have hw : (os.write text).2 = false := by
          rw [write_error] at h
          cases hb : (os.write text).2 with
          | false => rfl
          | true => rw [hb] at h; cases h
        refine ⟨by simp [write, contents, setFile, ho _ hw], ?_, rfl⟩
        intro name hn
        simp [write, setFile, hn]

theorem runInspect_failure {os : Os} {d : Except Unit Str} {output : Str} {w : World}
    (h : (runInspect os d output w).2 = .failure) :
    ((∃ e, d = .error e) ∧ (runInspect os d output w).1 = w) ∨
    (os.openFails output = true ∧ (runInspect os d output w).1 = w) ∨
    ∃ text, d = .ok text ∧ (os.write text).2 = true ∧
      ∀ name, name ≠ output → (runInspect os d output w).1.files name = w.files name := by
  cases d with
  | error e => exact .inl ⟨⟨e, rfl⟩, rfl⟩
  | ok text =>
    refine .inr ?_
    unfold runInspect at h ⊢
    simp only [openOutput, openTrunc] at h ⊢
    by_cases hd : output = [] ∨ output = b!"-"
    · have e : (if output = [] then b!"-" else output) = b!"-" := by
        rcases hd with rfl | rfl <;> rfl
      rw [e] at h ⊢
      simp only [ne_eq, not_true, if_false] at h ⊢
      refine .inr ⟨text, rfl, ?_, fun _ _ => rfl⟩
      rw [write_error] at h
      cases hb : (os.write text).2 with
      | true => rfl
      | false => rw [hb] at h; cases h
    · obtain ⟨h1, h2⟩ := not_or.mp hd
      rw [if_neg h1] at h ⊢
      simp only [ne_eq, h2, not_false_eq_true, if_true] at h ⊢
      cases hf : os.openFails output with
      | true => exact .inl ⟨rfl, by simp⟩
      | false =>
        simp only [hf, Bool.false_eq_true, if_false] at h ⊢
        refine .inr ⟨text, rfl, ?_, ?_⟩
        · rw [write_error] at h
          cases hb : (os.write text).2 with
          | true => rfl
          | false => rw [hb] at h; cases h
        · intro name hn
          simp [write, setFile, hn]

/-! ## C95 -/

theorem withConn_cases (env : Env F N) (s : Server) (w : World) (use : Nat → World × End) :
    (withConn env s w use).result = .failed ∧ (withConn env s w use).world = w ∧
      (∀ cfg, .event (.connect cfg true) ∉ (withConn env s w use).net) ∨
    ∃ e cfg, env.libpq = .ok e ∧ Named s e cfg ∧ env.accepts 0 = true ∧
      withConn env s w use = ⟨(use 0).1, [.event (.connect cfg true), .close], (use 0).2⟩ := by
  rcases new_once env.libpq env.accepts s with ⟨e, h⟩ | ⟨e, cfg, h1, h2, h3⟩
  · left
    simp [withConn, h]
  · cases ha : env.accepts 0 with
    | false => left; simp [withConn, h3, ha]
    | true => exact .inr ⟨e, cfg, h1, configure_named h2, rfl, by simp [withConn, h3, ha]⟩

/-- **C95.** When `pgutil inspect` exits with status 0, it has connected once, to the server its flags and
the environment name, and closed the connection; the output file (or standard output) holds the text of
a schema file, and nothing else has changed. Read again, with any reader that reads the syntax of
`Hcl/TextSpec.lean`, the file describes the database, in every part (up to the normal form of texts, see
C81), if the texts are UTF-8. -/
theorem C95_inspect (env : Env F N) (hsort : Pg.SortSlice env.sort) (hL : env.hcl.Sound)
    (hU : ∀ s, Utf8.Valid s → Utf8.Valid (env.hcl.nfc s)) (hp : env.isPrint 0x7B = true)
    {readN : Str → Option N} (hN : Hcl.Read.Numerals env.showN readN)
    (read : Str → Option (List (Hcl.Item N)))
    (hread : ∀ text doc, Hcl.Read.document readN text = some doc → read text = some doc)
    (hos : Honest env.os) (db : Db) (hw : db.WF) (hb : Bigints db) (hs : ∀ i, Serves db (env.serve i))
    (hu : ∀ i, Steady (env.serve i)) (c : InspectCmd) (message : Str) (w : World)
    (h : (main env message (some (.inspect c)) w).2 = 0) :
    ∃ e cfg d text, env.libpq = .ok e ∧ Named c.server e cfg ∧
      (c.run env w).net = [.event (.connect cfg true), .close] ∧
      DatabaseInspected env.parseFloat db c.sort d ∧
      (env.serve 0).listParameters = .ok d.parameters ∧
      Left c.output text w (main env message (some (.inspect c)) w).1 ∧
      (Hcl.databaseTexts Utf8.Valid (Hcl.ofInspect d) →
        Reads env.hcl read text (Hcl.databaseNorm env.hcl.nfc (Hcl.ofInspect d)) ∧
        (Hcl.databaseTexts (fun s => env.hcl.nfc s = s) (Hcl.ofInspect d) →
          Reads env.hcl read text (Hcl.ofInspect d))) := by
  have hr : (c.run env w).result = .ok := by
    simp only [main, Command.run, finish] at h
    split at h <;> simp_all
  have hm : (main env message (some (.inspect c)) w).1 = (c.run env w).world := by
    simp [main, Command.run, finish, hr]
  rw [hm]
  unfold InspectCmd.run at hr ⊢
  rcases withConn_cases env c.server w _ with ⟨h1, _⟩ | ⟨e, cfg, h1, h2, h3, h4⟩
  · rw [hr] at h1; cases h1
  · rw [h4] at hr ⊢
    simp only at hr ⊢
    cases hi : Pg.inspect env.parseFloat env.sort (env.serve 0) c.sort with
    | error e =>
      rw [hi] at hr
      simp [runInspect, End.ofExit] at hr
    | ok d =>
      rw [hi] at hr
      simp only at hr ⊢
      have hx : (runInspect env.os (.ok (env.print (Hcl.write env.hcl (Hcl.ofInspect d)))) c.output w).2
          = .success := by
        revert hr
        cases (runInspect env.os (.ok (env.print (Hcl.write env.hcl (Hcl.ofInspect d)))) c.output w).2 with
        | success => simp
        | failure => simp [End.ofExit]
      obtain ⟨text, ht, hleft⟩ := runInspect_success hos hx
      cases ht
      have hd := inspect_inspected hw (hs 0) (hu 0) hsort hi
      have hf := inspected_fits hb hd
      refine ⟨e, cfg, d, _, h1, h2, rfl, hd, (Pg.inspect_ok hi).1, hleft,
        fun hv => ?_⟩
      have hd := hread _ _ (Hcl.document_print hp hN (Hcl.database_ok (L := env.hcl) (Hcl.texts_imp hU hv)).2)
      exact ⟨⟨_, hd, Hcl.C81_read_back hL _ hf⟩, fun ht => ⟨_, hd, Hcl.C81_partial hL _ hf ht⟩⟩

/-- **C95, connections.** Both commands that connect make at most one attempt, at the server their flags
and the environment name, and close the connection if they get one. -/
theorem C95_connections (env : Env F N) (c : Command) (s : Server)
    (hc : c = .ping s ∨ ∃ i, c = .inspect i ∧ i.server = s) (w : World) :
    (c.run env w).net = [] ∨
    ∃ e cfg, env.libpq = .ok e ∧ Named s e cfg ∧
      ((c.run env w).net = [.event (.connect cfg false)] ∨
       (c.run env w).net = [.event (.connect cfg true), .close]) := by
  have key : ∀ use, (withConn env s w use).net = [] ∨
      ∃ e cfg, env.libpq = .ok e ∧ Named s e cfg ∧
        ((withConn env s w use).net = [.event (.connect cfg false)] ∨
         (withConn env s w use).net = [.event (.connect cfg true), .close]) := fun use => by
    rcases new_once env.libpq env.accepts s with ⟨e, h⟩ | ⟨e, cfg, h1, h2, h3⟩
    · left; simp [withConn, h]
    · refine .inr ⟨e, cfg, h1, configure_named h2, ?_⟩
      cases ha : env.accepts 0 <;> simp [withConn, h3, ha]
  rcases hc with rfl | ⟨i, rfl, rfl⟩ <;> exact key _

/-- **C95, failures.** When `pgutil inspect` does not exit with status 0, it exits with status 1, for one
of these reasons: the connection was not made, a query or the reading of a search path failed, a part of
an inspected table or one of its options is not understood, the output file could not be opened, or the
text could not be written. Only in the last case is any file changed, and no other than the output. -/
theorem C95_failure (env : Env F N) (db : Db) (hw : db.WF)
    (hs : ∀ i, Serves db (env.serve i)) (hu : ∀ i, Steady (env.serve i)) (c : InspectCmd)
    (message : Str) (w : World) (h : (main env message (some (.inspect c)) w).2 ≠ 0) :
    (main env message (some (.inspect c)) w).2 = 1 ∧
    (((main env message (some (.inspect c)) w).1.files = w.files ∧
      ((∀ cfg, .event (.connect cfg true) ∉ (c.run env w).net) ∨
       (∃ e, (env.serve 0).listParameters = .error e) ∨
       (∃ n, Pg.inspect env.parseFloat env.sort (env.serve 0) c.sort = .error (.query n)) ∨
       NotUnderstood db ∨ BadOption env.parseFloat db ∨ env.os.openFails c.output = true)) ∨
     ((∃ text, (env.os.write text).2 = true) ∧ ∀ name, name ≠ c.output →
       (main env message (some (.inspect c)) w).1.files name = w.files name)) := by
  have hcode : (c.run env w).result = .failed ∧
      ((main env message (some (.inspect c)) w).2 = 1 →
        (main env message (some (.inspect c)) w).1.files = (c.run env w).world.files) := by
    simp only [main, Command.run, finish] at h ⊢
    unfold InspectCmd.run at h ⊢
    rcases withConn_cases env c.server w _ with ⟨h1, h2, h3⟩ | ⟨e, cfg, h1, h2, h3, h4⟩
    · refine ⟨h1, ?_⟩
      rw [h1]
      intro _
      rfl
    · rw [h4] at h ⊢
      simp only at h ⊢
      revert h
      generalize runInspect env.os _ c.output w = r
      obtain ⟨w', x⟩ := r
      cases x <;> simp [End.ofExit, write]
  obtain ⟨hf, hfiles⟩ := hcode
  have h1 : (main env message (some (.inspect c)) w).2 = 1 := by
    simp [main, Command.run, finish, hf]
  refine ⟨h1, ?_⟩
  rw [hfiles h1]
  unfold InspectCmd.run at hf ⊢
  rcases withConn_cases env c.server w _ with ⟨h1, h2, h3⟩ | ⟨e, cfg, h1, h2, h3, h4⟩
  · exact .inl ⟨by rw [h2], .inl h3⟩
  · rw [h4] at hf ⊢
    simp only at hf ⊢
    have hx : ∀ d, End.ofExit (runInspect env.os d c.output w).2 = .failed →
        (runInspect env.os d c.output w).2 = .failure := by
      intro d
      cases (runInspect env.os d c.output w).2 <;> simp [End.ofExit]
    rcases runInspect_failure (hx _ hf) with ⟨⟨e, he⟩, hw'⟩ | ⟨ho, hw'⟩ | ⟨text, ht, hwr, hn⟩
    · refine .inl ⟨by rw [hw'], .inr ?_⟩
      cases hi : Pg.inspect env.parseFloat env.sort (env.serve 0) c.sort with
      | ok d => rw [hi] at he; cases he
      | error e =>
        rcases inspect_failed hw (hs 0) (hu 0) hi with h | ⟨n, rfl⟩ | ⟨_, h⟩ | ⟨_, h⟩
        · exact .inl ⟨_, h⟩
        · exact .inr (.inl ⟨n, rfl⟩)
        · exact .inr (.inr (.inl h))
        · exact .inr (.inr (.inr (.inl h)))
    · exact .inl ⟨by rw [hw'], .inr (.inr (.inr (.inr (.inr ho))))⟩
    · exact .inr ⟨⟨text, hwr⟩, hn⟩

end Verif.Main
