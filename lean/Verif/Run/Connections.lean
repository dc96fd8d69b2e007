import Verif.Run.Runs

/-!
# C91, C92: the connections of a run; C87 refuted
-/

namespace Verif.Run
open Verif Book Spec

variable {dec : Decoder} {basedir : Str} {proc : Proc} {src : Src} {book : Runbook}
  {st st' : Runner.St} {w w' : World}

/-! ## C91 -/

theorem mem_netOf {net : List (Str × Pg.Event)} {q : Str} {e : Pg.Event} :
    e ∈ netOf net q ↔ (q, e) ∈ net := by
  unfold netOf
  simp only [List.mem_map, List.mem_filter, decide_eq_true_eq, Prod.exists, exists_eq_right]

/-- What goes over the network for a target is what `New` does. -/
theorem NInv.cases (hi : NInv proc book st w) (q : Str) : netOf w.net q = [] ∨
    ∃ t ok, book.targets.get? q = some (.pg t) ∧
      netOf w.net q = (Pg.new proc.libpq ok (options t)).1 := by
  by_cases hp : ∃ t, book.targets.get? q = some (.pg t)
  · obtain ⟨t, ht⟩ := hp
    by_cases hn : st.tgt q = .notStarted
    · by_cases hf : .startFailed q ∈ st.trace
      · obtain ⟨t', ok, e, a, _, b, _⟩ := hi.failed q hf
        exact Or.inr ⟨t', ok, a, b⟩
      · exact Or.inl (hi.before q hn hf)
    · obtain ⟨ok, a, _⟩ := hi.started q t ht hn
      exact Or.inr ⟨t, ok, ht, a⟩
  · exact Or.inl (hi.other q (fun t ht => hp ⟨t, ht⟩))

theorem new_uses {ok : Nat → Bool} {t : PgTarget} {cfg : Pg.ConnConfig}
    (h : cfg ∈ Pg.configs (Pg.new proc.libpq ok (options t)).1) :
    ∃ env, proc.libpq = .ok env ∧ Uses env t cfg := by
  cases hl : proc.libpq with
  | error e => rw [hl] at h; simp [Pg.new, Pg.configs] at h
  | ok env =>
    rw [hl] at h
    obtain ⟨h1, h2, h3, h4, h5⟩ := Pg.C52_options_win env ok (options t) cfg h
    obtain ⟨p1, p2, p3, p4⟩ := Pg.C53_tls_policy env ok (options t)
    have htr := Pg.C53_transports env ok (options t) cfg h
    have hm : (options t).sslMode = t.sslmode := rfl
    rw [hm] at p1 p2 p3 p4 htr
    refine ⟨env, rfl, h1, h2, h3, h4, h5, ?_, fun a b => p1 a cfg h b, ?_, ?_, ?_, ?_,
      fun a => p3 a cfg h, ?_⟩
    · intro a b; rw [htr, if_pos a, if_pos b]
    · intro a; rw [htr, a]; simp
    · intro a; rw [htr, a]; simp
    · intro a; rw [htr, a]; simp
    · intro a; rw [htr, a]; simp
    · by_contra hno
      push Not at hno
      rw [p4 hno.1 hno.2] at h
      simp [Pg.configs] at h

/-- Where a task was handled on a pg target there is a connection. -/
theorem Reach.connected (hj : Json dec) (hw1 : src.targets.WF) (hw2 : src.tasks.WF)
    (h : Reach dec basedir proc src (.running book st w)) {q t : Str} {ok : Bool} {p : PgTarget}
    (hp : book.targets.get? q = some (.pg p)) (he : .handleEnd q t ok ∈ st.trace) :
    w.conns.get? q = some true ∧ st.tgt q ≠ .notStarted := by
  generalize hpr : Prog.running book st w = pr at h
  induction h generalizing st w with
  | rejected h => cases hpr
  | parsePanic h => cases hpr
  | makePanic h => cases hpr
  | start h hm order ho => cases hpr; simp [Runner.init] at he
  | @act book st0 st1 w0 w1 h ha ih =>
    cases hpr
    have ih : .handleEnd q t ok ∈ st0.trace → w0.conns.get? q = some true ∧ st0.tgt q ≠ .notStarted :=
      fun x => ih x rfl
    have hpar := parsed hj hw1 hw2 h.parse
    have hctl := (h.runner.inv hpar.wf1 hpar.wf2).1
    cases ha with
    | started q' rest tgt tgt' conn net ok' hm hq hs =>
      obtain ⟨h1, h2⟩ := ih (by simpa using he)
      have hne : q ≠ q' := by
        rintro rfl; exact h2 (hctl.next_notStarted q rest hm)
      refine ⟨?_, by simpa [Function.update_of_ne hne] using h2⟩
      cases conn with
      | none => exact h1
      | some c => simpa [World.connect, GoMap.get?_set, Ne.symm hne] using h1
    | startFailed q' rest tgt net ok' hm hq hs => exact ih (by simpa using he)
    | stopped q' tgt closes hr hq hs =>
      obtain ⟨h1, h2⟩ := ih (by simpa using he)
      refine ⟨h1, ?_⟩
      by_cases e : q = q'
      · subst e; simp
      · simpa [Function.update_of_ne e] using h2
    | handled q' t' task tgt tgt' ok' out calls ext hr ht hq hh =>
      rcases List.mem_append.mp he with he | he
      · obtain ⟨h1, h2⟩ := ih he
        refine ⟨h1, ?_⟩
        by_cases e : q = q'
        · subst e; simp
        · simpa [Function.update_of_ne e] using h2
      · simp only [List.mem_singleton, Runner.Event.handleEnd.injEq] at he
        obtain ⟨rfl, rfl, rfl⟩ := he
        obtain ⟨task', ht', hown⟩ := running_own hpar h.runner hr
        rw [ht] at ht'
        cases ht'
        obtain ⟨_, t0, h3, _, h5, _⟩ :=
          handle_own hpar (h.inv hj hw1 hw2) ht hown hq (by rw [hr]; simp) hh
        rw [hp] at h3
        cases h3
        exact ⟨(h5 p rfl).2, by simp⟩
    | other hs h1 h2 h3 h4 =>
      have he' : .handleEnd q t ok ∈ st0.trace := by
        rcases Runner.step_trace hs with e | ⟨ev, e⟩
        · exact e ▸ he
        · rw [e] at he
          rcases List.mem_append.mp he with he | he
          · exact he
          · simp only [List.mem_singleton] at he
            subst he
            exact absurd e (h3 q t ok)
      obtain ⟨h5, h6⟩ := ih he'
      refine ⟨h5, ?_⟩
      cases hs with
      | targetStart q' rest hm => exact absurd rfl (h1 q')
      | _ => simp [Function.update_apply] <;> grind
  | panic => cases hpr

/-- Where a connection was closed there was one. -/
theorem Reach.closedConn (hj : Json dec) (hw1 : src.targets.WF) (hw2 : src.tasks.WF)
    (h : Reach dec basedir proc src (.running book st w)) {q : Str} (he : q ∈ w.closed) :
    w.conns.get? q = some true := by
  generalize hpr : Prog.running book st w = pr at h
  induction h generalizing st w with
  | rejected h => cases hpr
  | parsePanic h => cases hpr
  | makePanic h => cases hpr
  | start h hm order ho => cases hpr; simp at he
  | @act book st0 st1 w0 w1 h ha ih =>
    cases hpr
    have ih : q ∈ w0.closed → w0.conns.get? q = some true := fun x => ih x rfl
    have hpar := parsed hj hw1 hw2 h.parse
    have hctl := (h.runner.inv hpar.wf1 hpar.wf2).1
    have hst : q ∈ w0.closed → st0.tgt q = .stopped := by
      intro hq
      by_contra hc
      have := ((h.ninv hj hw1 hw2).closed q).2 (fun x => hc x.1)
      have := List.count_pos_iff.mpr hq
      omega
    cases ha with
    | started q' rest tgt tgt' conn net ok' hm hq hs =>
      have hne : q ≠ q' := by
        rintro rfl
        have := hctl.next_notStarted q rest hm
        rw [hst he] at this
        cases this
      cases conn with
      | none => exact ih he
      | some c => simpa [World.connect, GoMap.get?_set, Ne.symm hne] using ih he
    | startFailed q' rest tgt net ok' hm hq hs => exact ih he
    | stopped q' tgt closes hr hq hs =>
      rcases List.mem_append.mp he with he | he
      · exact ih he
      · split at he
        · rename_i hc
          simp only [List.mem_singleton] at he
          subst he
          unfold stop at hs
          split at hs
          · split at hs
            · assumption
            · cases hs
          · cases hs; cases hc
        · simp at he
    | handled q' t' task tgt tgt' ok' out calls ext hr ht hq hh => exact ih he
    | other hs h1 h2 h3 h4 => exact ih he
  | panic => cases hpr

/-- **C91.** The connections of a run are those the file asks for.  Every attempt to connect is made
for a pg target of the file, with its settings, those of the environment where it has none, and the
transports its `sslmode` permits; at most `connect_retries + 1` attempts are made for a target; and SQL
is sent only for targets whose last attempt succeeded. -/
theorem C91_connections (hj : Json dec) (hw1 : src.targets.WF) (hw2 : src.tasks.WF)
    (h : Reach dec basedir proc src (.running book st w)) :
    (∀ q cfg ok, (q, .connect cfg ok) ∈ w.net →
      ∃ t env, (q, .pg t) ∈ book.targets ∧ proc.libpq = .ok env ∧ Uses env t cfg) ∧
    (∀ q t, (q, .pg t) ∈ book.targets →
      (Pg.attempts (netOf w.net q)).length ≤ (t.connectRetries + 1).toNat) ∧
    (∀ id q text ok, (id, .sql q text, ok) ∈ w.calls →
      ∃ pre cfg, netOf w.net q = pre ++ [.connect cfg true]) := by
  have hp := parsed hj hw1 hw2 h.parse
  have hn := h.ninv hj hw1 hw2
  refine ⟨?_, ?_, ?_⟩
  · intro q cfg ok hm
    rw [← mem_netOf] at hm
    rcases hn.cases q with e | ⟨t, ok', ht, e⟩
    · rw [e] at hm; simp at hm
    · rw [e] at hm
      obtain ⟨env, h1, h2⟩ := new_uses (proc := proc) (ok := ok') (t := t) (cfg := cfg)
        (List.mem_filterMap.mpr ⟨_, hm, rfl⟩)
      exact ⟨t, env, GoMap.mem_of_get? ht, h1, h2⟩
  · intro q t ht
    rcases hn.cases q with e | ⟨t', ok', ht', e⟩
    · rw [e]; simp [Pg.attempts]
    · rw [GoMap.get?_of_mem hp.wfT ht] at ht'
      cases ht'
      rw [e]
      unfold Pg.new
      split
      · simp [Pg.attempts]
      · split
        · simp [Pg.attempts]
        · rw [Pg.loop_attempts]
          simp [options]
  · intro id q text ok hc
    rw [h.calls hj hw1 hw2] at hc
    obtain ⟨e, he, hce⟩ := List.mem_flatMap.mp hc
    cases e with
    | handleEnd q' t ok' =>
      simp only [callsAt, List.mem_map, Prod.mk.injEq] at hce
      obtain ⟨c, hc', rfl, rfl, rfl⟩ := hce
      have hq : q' = q ∧ ∃ p, book.targets.get? q = some (.pg p) := by
        unfold callsOf at hc'
        split at hc'
        · rename_i p _ ht hcf
          simp only [List.mem_singleton, Call.sql.injEq] at hc'
          obtain ⟨rfl, _⟩ := hc'
          exact ⟨rfl, p, ht⟩
        · simp at hc'
        · simp at hc'
      obtain ⟨rfl, p, hp'⟩ := hq
      obtain ⟨hc1, hc2⟩ := h.connected hj hw1 hw2 hp' he
      obtain ⟨ok2, h1, h2⟩ := hn.started q' p hp' hc2
      rcases h2 with ⟨⟨i, hi⟩, _⟩ | ⟨_, hf⟩
      · obtain ⟨pre, cfg, h3⟩ := new_conn hi
        exact ⟨pre, cfg, h1.trans h3⟩
      · rw [hc1] at hf; cases hf
    | _ => simp [callsAt] at hce

/-! ## C92 -/

theorem new_opened {ok : Nat → Bool} {o : Pg.Options} {i : Nat}
    (h : (Pg.new proc.libpq ok o).2 = .conn i) :
    ∃ l, Pg.attempts (Pg.new proc.libpq ok o).1 = l ++ [true] := by
  obtain ⟨pre, cfg, e⟩ := new_conn h
  rw [e]
  exact ⟨Pg.attempts pre, by simp [Pg.attempts]⟩

/-- **C92, at most once.** A connection is closed at most once, and only if one was opened. -/
theorem C92_closed_once (hj : Json dec) (hw1 : src.targets.WF) (hw2 : src.tasks.WF)
    (h : Reach dec basedir proc src (.running book st w)) (q : Str) :
    w.closed.count q ≤ 1 ∧
    (q ∈ w.closed → (∃ t, (q, .pg t) ∈ book.targets) ∧ .stopped q ∈ st.trace ∧
      true ∈ Pg.attempts (netOf w.net q)) := by
  have hn := h.ninv hj hw1 hw2
  have hp := parsed hj hw1 hw2 h.parse
  obtain ⟨c1, c2⟩ := hn.closed q
  by_cases hs : st.tgt q = .stopped ∧ ∃ t, book.targets.get? q = some (.pg t)
  · refine ⟨by rw [c1 hs], fun hq => ?_⟩
    obtain ⟨h1, t, ht⟩ := hs
    have hst := (h.runner.tinv hp.wf1 hp.wf2).stops q
    rw [if_pos h1] at hst
    refine ⟨⟨t, GoMap.mem_of_get? ht⟩, List.count_pos_iff.mp (by omega), ?_⟩
    obtain ⟨ok, e1, e2⟩ := hn.started q t ht (by rw [h1]; simp)
    have hconn := h.closedConn hj hw1 hw2 hq
    rcases e2 with ⟨⟨i, e2⟩, _⟩ | ⟨_, e2⟩
    · obtain ⟨l, e3⟩ := new_opened e2
      rw [e1, e3]; simp
    · rw [hconn] at e2; cases e2
  · rw [c2 hs]
    refine ⟨by omega, fun hq => ?_⟩
    have := List.count_pos_iff.mpr hq
    have := c2 hs
    omega

/-- **C92 (partial).** When `Run` has returned and every target could be started, the connection of
every pg target has been closed, once; and it was the only one opened for the target if no attempt
before the last succeeded (in particular with no retries).
Missing: attempts before the last that succeeded, and runs in which a target could not be started
(`C92_refuted`). -/
theorem C92_closed_partial (hj : Json dec) (hw1 : src.targets.WF) (hw2 : src.tasks.WF)
    (h : Reach dec basedir proc src (.running book st w)) {e : Option Runner.RunErr}
    (hret : st.main = .returned e) (he : ∀ q, e ≠ some (.start q)) {q : Str} {t : PgTarget}
    (ht : (q, .pg t) ∈ book.targets) :
    w.closed.count q = 1 ∧
    (true ∉ (Pg.attempts (netOf w.net q)).dropLast → (Pg.attempts (netOf w.net q)).count true = 1) := by
  have hn := h.ninv hj hw1 hw2
  have hp := parsed hj hw1 hw2 h.parse
  have hctl := (h.runner.inv hp.wf1 hp.wf2).1
  have ht' := GoMap.get?_of_mem hp.wfT ht
  have hnf : ∀ q, .startFailed q ∉ st.trace := by
    intro q' hq'
    rcases (hctl.startErr q').mp hq' with e' | e' <;> rw [hret] at e' <;> cases e'
    exact he q' rfl
  obtain ⟨h1, _, _⟩ := Runner.C25_clean_shutdown hp.wf1 hp.wf2 h.runner hret hnf
  have hk : q ∈ (limits book).keys := by rw [keys_limits]; exact GoMap.mem_keys_of_mem ht
  have htv := h.runner.tinv hp.wf1 hp.wf2
  have hst : st.tgt q = .stopped := by
    have := (h1 q hk).2
    rw [htv.stops q] at this
    by_contra hc
    rw [if_neg hc] at this
    omega
  have hcl := (hn.closed q).1 ⟨hst, t, ht'⟩
  refine ⟨hcl, fun hlast => ?_⟩
  obtain ⟨ok, e1, e2⟩ := hn.started q t ht' (by rw [hst]; simp)
  have hconn := h.closedConn hj hw1 hw2 (List.count_pos_iff.mp (by omega : 0 < w.closed.count q))
  rcases e2 with ⟨⟨i, e2⟩, _⟩ | ⟨_, e2⟩
  · obtain ⟨l, e3⟩ := new_opened e2
    rw [e1, e3] at hlast ⊢
    rw [List.dropLast_concat] at hlast
    rw [List.count_append, List.count_eq_zero.mpr hlast]
    rfl
  · rw [hconn] at e2; cases e2

/-- **C92, exactly**, if every target could be started: as many connections of a pg target are closed as were
opened, if and only if no attempt before the last succeeded. -/
theorem C92_exact (hj : Json dec) (hw1 : src.targets.WF) (hw2 : src.tasks.WF)
    (h : Reach dec basedir proc src (.running book st w)) {e : Option Runner.RunErr}
    (hret : st.main = .returned e) (he : ∀ q, e ≠ some (.start q)) {q : Str} {t : PgTarget}
    (ht : (q, .pg t) ∈ book.targets) :
    w.closed.count q = (Pg.attempts (netOf w.net q)).count true ↔
      true ∉ (Pg.attempts (netOf w.net q)).dropLast := by
  obtain ⟨h1, h2⟩ := C92_closed_partial hj hw1 hw2 h hret he ht
  refine ⟨fun hc hm => ?_, fun hm => by rw [h1, h2 hm]⟩
  have hp := parsed hj hw1 hw2 h.parse
  have hn := h.ninv hj hw1 hw2
  obtain ⟨h6, h7⟩ := hn.closed q
  have hst : st.tgt q = .stopped := by
    by_contra hc
    have := h7 (fun x => hc x.1)
    omega
  obtain ⟨ok, e1, e2⟩ := hn.started q t (GoMap.get?_of_mem hp.wfT ht) (by rw [hst]; simp)
  have hconn := h.closedConn hj hw1 hw2 (List.count_pos_iff.mp (by omega : 0 < w.closed.count q))
  rcases e2 with ⟨⟨i, e2⟩, _⟩ | ⟨_, e2⟩
  · obtain ⟨l', e3⟩ := new_opened e2
    rw [e1, e3] at hc hm
    rw [List.dropLast_concat] at hm
    rw [h1, List.count_append] at hc
    have := List.count_pos_iff.mpr hm
    simp at hc
    omega
  · rw [hconn] at e2; cases e2

end Verif.Run
