import Verif.Json.Secret
import Verif.Run.SecretSpec

/-!
# Runs of files that differ in passwords only
-/

namespace Verif.Pg
open Verif

theorem SameCfg.event {c c' : ConnConfig} (h : SameCfg c c') (ok : Bool) :
    (Event.connect c' ok).hide = (Event.connect c ok).hide := by
  have := h.1
  simp only [Event.hide]
  rw [this]

theorem connectLoop_hide (ok : Nat → Bool) {c c' : ConnConfig} (h : SameCfg c c') (max : Int) (n d : Nat)
    (conn : Option Nat) :
    (connectLoop ok c' max n d conn).1.map Event.hide = (connectLoop ok c max n d conn).1.map Event.hide ∧
    (connectLoop ok c' max n d conn).2 = (connectLoop ok c max n d conn).2 := by
  fun_induction connectLoop ok c max n d conn with
  | case1 n d conn h1 h2 r ih =>
    rw [connectLoop.eq_def ok c', if_pos h1, if_pos h2]
    exact ⟨by simp only [List.map_cons, h.event, ih.1]; rfl, ih.2⟩
  | case2 n d conn h1 h2 h3 r ih =>
    rw [connectLoop.eq_def ok c', if_pos h1, if_neg h2, if_pos h3]
    exact ⟨by simp only [List.map_cons, h.event, ih.1]; rfl, ih.2⟩
  | case3 n d conn h1 h2 h3 =>
    rw [connectLoop.eq_def ok c', if_pos h1, if_neg h2, if_neg h3]
    exact ⟨by simp only [List.map_cons, h.event], rfl⟩
  | case4 n d conn h1 =>
    rw [connectLoop.eq_def ok c', if_neg h1]
    exact ⟨rfl, rfl⟩

theorem applySSLMode_hide {c c' : ConnConfig} (h : SameCfg c c') (mode : Str) :
    (∃ e, applySSLMode c mode = .error e ∧ applySSLMode c' mode = .error e) ∨
    ∃ d d', applySSLMode c mode = .ok d ∧ applySSLMode c' mode = .ok d' ∧ SameCfg d d' := by
  obtain ⟨h1, h2⟩ := h
  unfold applySSLMode
  have host : c'.host = c.host := by rw [h1]
  repeat' split
  all_goals first
    | exact .inl ⟨_, rfl, rfl⟩
    | exact .inr ⟨_, _, rfl, rfl, by rw [h1], h2⟩

theorem configure_hide {c c' : ConnConfig} {o o' : Options} (h : SameCfg c c')
    (ho : o' = { o with password := o'.password }) (hp : o.password = [] ↔ o'.password = []) :
    (∃ e, configure c o = .error e ∧ configure c' o' = .error e) ∨
    ∃ d d', configure c o = .ok d ∧ configure c' o' = .ok d' ∧ SameCfg d d' := by
  obtain ⟨h1, h2⟩ := h
  have hpw : firstOfString o.password c.password = [] ↔ firstOfString o'.password c'.password = [] := by
    unfold firstOfString
    by_cases e : o.password = []
    · simp [e, hp.1 e, h2]
    · have e' : ¬ o'.password = [] := fun x => e (hp.2 x)
      simp [e, e']
  have hs : SameCfg { c with
      host := firstOfString o.host c.host
      port := firstOfUint16 o.port c.port
      user := firstOfString o.username c.user
      password := firstOfString o.password c.password
      database := firstOfString o.database c.database } { c' with
      host := firstOfString o'.host c'.host
      port := firstOfUint16 o'.port c'.port
      user := firstOfString o'.username c'.user
      password := firstOfString o'.password c'.password
      database := firstOfString o'.database c'.database } := by
    refine ⟨?_, hpw⟩
    rw [h1, ho]
  have hm : o'.sslMode = o.sslMode := by rw [ho]
  unfold configure
  simp only [hm, ne_eq, ← hpw]
  generalize (if o.sslMode = [] ∧ ¬firstOfString o.password c.password = [] then b!"verify-full"
    else o.sslMode) = mode
  split
  · exact applySSLMode_hide hs _
  · exact .inr ⟨_, _, rfl, rfl, hs⟩

theorem new_hide (ok : Nat → Bool) {c c' : ConnConfig} {o o' : Options} (h : SameCfg c c')
    (ho : o' = { o with password := o'.password }) (hp : o.password = [] ↔ o'.password = []) :
    (new (.ok c') ok o').1.map Event.hide = (new (.ok c) ok o).1.map Event.hide ∧
    (new (.ok c') ok o').2 = (new (.ok c) ok o).2 := by
  have hr : o'.connectRetries = o.connectRetries := by rw [ho]
  simp only [new]
  rcases configure_hide h ho hp with ⟨e, h1, h2⟩ | ⟨d, d', h1, h2, hd⟩
  · simp [h1, h2]
  · simp only [h1, h2, hr]; exact connectLoop_hide ok hd _ _ _ _

end Verif.Pg

namespace Verif.Run
open Verif Book Json.Secret

theorem limits_same {book book' : Runbook} (h : SameBook book book') : limits book' = limits book := by
  obtain ⟨h, -⟩ := h
  unfold limits
  revert h
  generalize book.targets = m
  generalize book'.targets = m'
  intro h
  induction h with
  | nil => rfl
  | cons hp _ ih => simp only [List.map_cons, ih, hp.1, hp.2.limit]

theorem jobs_same {book book' : Runbook} (h : SameBook book book') : jobs book' = jobs book := by
  unfold jobs
  rw [h.2]

theorem start_same (proc : Proc) (ok : Nat → Bool) {t t' : Target} (h : SameTarget t t') :
    (start proc ok t').1.map Pg.Event.hide = (start proc ok t).1.map Pg.Event.hide ∧
    (((start proc ok t).2 = none ∧ (start proc ok t').2 = none) ∨
      ∃ u u' c, (start proc ok t).2 = some (u, c) ∧ (start proc ok t').2 = some (u', c) ∧
        SameTarget u u') := by
  cases h with
  | refl =>
    refine ⟨rfl, ?_⟩
    cases h : (start proc ok t).2 with
    | none => exact .inl ⟨rfl, rfl⟩
    | some x => exact .inr ⟨x.1, x.1, x.2, rfl, rfl, .refl _⟩
  | pg t p h1 h2 =>
    have ht := SameTarget.pg t p h1 h2
    simp only [start]
    cases hl : proc.libpq with
    | error e => exact ⟨rfl, .inl ⟨rfl, rfl⟩⟩
    | ok c =>
      obtain ⟨e1, e2⟩ := Pg.new_hide ok (c := c) (c' := c) (o := options t)
        (o' := options { t with password := p }) ⟨rfl, Iff.rfl⟩ rfl
        ⟨fun e => absurd e h1, fun e => absurd e h2⟩
      refine ⟨e1, ?_⟩
      rw [e2]
      cases (Pg.new (.ok c) ok (options t)).2 with
      | conn i => exact .inr ⟨_, _, _, rfl, rfl, ht⟩
      | nilConn => exact .inr ⟨_, _, _, rfl, rfl, ht⟩
      | err e => exact .inl ⟨rfl, rfl⟩

theorem handle_same (q : Str) {t t' : Target} (h : SameTarget t t') (conn : Option Bool) (c : Config)
    (out : Str) (ext : Bool × Str) :
    (handle q t conn c out ext = none ∧ handle q t' conn c out ext = none) ∨
    ∃ ok u u' out' calls, handle q t conn c out ext = some (ok, u, out', calls) ∧
      handle q t' conn c out ext = some (ok, u', out', calls) ∧ SameTarget u u' := by
  cases h with
  | refl =>
    cases handle q t conn c out ext with
    | none => exact .inl ⟨rfl, rfl⟩
    | some x => exact .inr ⟨x.1, x.2.1, x.2.1, x.2.2.1, x.2.2.2, rfl, rfl, .refl _⟩
  | pg t p h1 h2 =>
    have ht := SameTarget.pg t p h1 h2
    simp only [handle]
    cases c with
    | pgExec sql =>
      simp only
      split
      · exact .inr ⟨_, _, _, _, _, rfl, rfl, ht⟩
      · exact .inl ⟨rfl, rfl⟩
    | _ => exact .inr ⟨_, _, _, _, _, rfl, rfl, ht⟩

theorem stop_same {t t' : Target} (h : SameTarget t t') (conn : Option Bool) : stop t' conn = stop t conn := by
  cases h <;> rfl

theorem hideNet_append (a b : List (Str × Pg.Event)) : hideNet (a ++ b) = hideNet a ++ hideNet b :=
  List.map_append

theorem hideNet_events (q : Str) (es : List Pg.Event) :
    hideNet (es.map fun e => (q, e)) = (es.map Pg.Event.hide).map fun e => (q, e) := by
  simp [hideNet]

theorem act_same {proc : Proc} {book book' : Runbook} (hb : SameBook book book') {st st1 : Runner.St}
    {w w1 w' : World} (hw : SameWorld w w') (h : Act proc book (st, w) (st1, w1)) :
    ∃ w1', Act proc book' (st, w') (st1, w1') ∧ SameWorld w1 w1' := by
  have hlim := limits_same hb
  have hjob := jobs_same hb
  cases h with
  | started q rest tgt tgt' conn net ok hst hq hs =>
    rcases hw.targets.get? q with ⟨e, -⟩ | ⟨t, t', e, e', ht⟩
    · rw [hq] at e; cases e
    · rw [hq] at e
      obtain rfl := Option.some.inj e
      obtain ⟨hn, ⟨h1, -⟩ | ⟨u, u', c, h1, h2, hu⟩⟩ := start_same proc ok ht
      · rw [hs] at h1; cases h1
      · rw [hs] at h1 hn
        simp only [Option.some.injEq, Prod.mk.injEq] at h1
        obtain ⟨rfl, rfl⟩ := h1
        refine ⟨_, .started q rest t' u' conn (start proc ok t').1 ok hst e' (Prod.ext rfl h2), ?_⟩
        refine ⟨hw.targets.set q hu, hw.stdout, hw.calls, ?_, ?_, hw.closed⟩
        · cases conn with
          | none => exact hw.conns
          | some c => exact congrArg (fun m : GoMap Str Bool => m.set q c) hw.conns
        · show hideNet (w'.net ++ _) = hideNet (w.net ++ _)
          rw [hideNet_append, hideNet_append, hw.net, hideNet_events, hideNet_events, hn]
  | startFailed q rest tgt net ok hst hq hs =>
    rcases hw.targets.get? q with ⟨e, -⟩ | ⟨t, t', e, e', ht⟩
    · rw [hq] at e; cases e
    · rw [hq] at e
      obtain rfl := Option.some.inj e
      obtain ⟨hn, ⟨-, h2⟩ | ⟨u, u', c, h1, -⟩⟩ := start_same proc ok ht
      · rw [hs] at hn
        refine ⟨_, .startFailed q rest t' (start proc ok t').1 ok hst e' (Prod.ext rfl h2), ?_⟩
        refine ⟨hw.targets, hw.stdout, hw.calls, hw.conns, ?_, hw.closed⟩
        show hideNet (w'.net ++ _) = hideNet (w.net ++ _)
        rw [hideNet_append, hideNet_append, hw.net, hideNet_events, hideNet_events, hn]
      · rw [hs] at h1; cases h1
  | handled q t task tgt tgt' ok out calls ext hr ht hq hh =>
    rcases hw.targets.get? q with ⟨e, -⟩ | ⟨g, g', e, e', hg⟩
    · rw [hq] at e; cases e
    · rw [hq] at e
      obtain rfl := Option.some.inj e
      rcases handle_same q hg (w.conns.get? q) task.config w.stdout ext with
        ⟨h1, -⟩ | ⟨ok', u, u', out', calls', h1, h2, hu⟩
      · rw [hh] at h1; cases h1
      · rw [hh] at h1
        simp only [Option.some.injEq, Prod.mk.injEq] at h1
        obtain ⟨rfl, rfl, rfl, rfl⟩ := h1
        refine ⟨_, .handled q t task g' u' ok out calls ext hr (hb.2 ▸ ht) e'
          (by rw [hw.conns, hw.stdout]; exact h2), ?_⟩
        exact ⟨hw.targets.set q hu, rfl, by simp only [hw.calls], hw.conns, hw.net, hw.closed⟩
  | stopped q tgt closes hr hq hs =>
    rcases hw.targets.get? q with ⟨e, -⟩ | ⟨g, g', e, e', hg⟩
    · rw [hq] at e; cases e
    · rw [hq] at e
      obtain rfl := Option.some.inj e
      refine ⟨_, .stopped q g' closes hr e' (by rw [hw.conns, stop_same hg]; exact hs), ?_⟩
      exact ⟨hw.targets, hw.stdout, hw.calls, hw.conns, hw.net, by simp only [hw.closed]⟩
  | other hs h1 h2 h3 h4 =>
    exact ⟨w', .other (by rw [hlim, hjob]; exact hs) h1 h2 h3 h4, hw⟩

theorem panics_same {book book' : Runbook} (hb : SameBook book book') {st : Runner.St} {w w' : World}
    (hw : SameWorld w w') (h : Panics book st w) : Panics book' st w' := by
  cases h with
  | handle q t task tgt ext hr ht hq hh =>
    rcases hw.targets.get? q with ⟨e, -⟩ | ⟨g, g', e, e', hg⟩
    · rw [hq] at e; cases e
    · rw [hq] at e
      obtain rfl := Option.some.inj e
      rcases handle_same q hg (w.conns.get? q) task.config w.stdout ext with
        ⟨-, h2⟩ | ⟨ok', u, u', out', calls', h1, -⟩
      · exact .handle q t task g' ext hr (hb.2 ▸ ht) e' (by rw [hw.conns, hw.stdout]; exact h2)
      · rw [hh] at h1; cases h1
  | stop q tgt hr hq hs =>
    rcases hw.targets.get? q with ⟨e, -⟩ | ⟨g, g', e, e', hg⟩
    · rw [hq] at e; cases e
    · rw [hq] at e
      obtain rfl := Option.some.inj e
      exact .stop q g' hr e' (by rw [hw.conns, stop_same hg]; exact hs)

theorem reach_same {dec : Decoder} {basedir : Str} {proc : Proc} {src src' : Src}
    (h : BothRes SameBook (parse dec basedir src) (parse dec basedir src')) {p : Prog}
    (hr : Reach dec basedir proc src p) : ∃ p', Reach dec basedir proc src' p' ∧ Looks p p' := by
  induction hr with
  | @rejected e he =>
    rw [he] at h
    generalize hx : parse dec basedir src' = x at h
    cases h with
    | error => exact ⟨_, .rejected hx, .rejected e⟩
  | parsePanic he =>
    rw [he] at h
    generalize hx : parse dec basedir src' = x at h
    cases h with
    | panic => exact ⟨_, .parsePanic hx, .panicked⟩
  | makePanic he hm =>
    rw [he] at h
    generalize hx : parse dec basedir src' = x at h
    cases h with
    | ok hb => exact ⟨_, .makePanic hx (by rw [limits_same hb]; exact hm), .panicked⟩
  | start he hm order ho =>
    rw [he] at h
    generalize hx : parse dec basedir src' = x at h
    cases h with
    | ok hb =>
      exact ⟨_, .start hx (by rw [limits_same hb]; exact hm) order (by rw [limits_same hb]; exact ho),
        .running hb ⟨hb.1, rfl, rfl, rfl, rfl, rfl⟩⟩
  | act _ ha ih =>
    obtain ⟨p', hp, hl⟩ := ih
    cases hl with
    | running hb hw =>
      obtain ⟨w1, ha', hw'⟩ := act_same hb hw ha
      exact ⟨_, .act hp ha', .running hb hw'⟩
  | panic _ hpn ih =>
    obtain ⟨p', hp, hl⟩ := ih
    cases hl with
    | running hb hw => exact ⟨_, .panic hp (panics_same hb hw hpn), .panicked⟩

end Verif.Run
