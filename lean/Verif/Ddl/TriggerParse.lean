import Verif.Ddl.KwLemmas
import Verif.Ddl.Parse
import Verif.Ddl.Certs.Trigger

/-!
# ParseTrigger accepts exactly the CREATE TRIGGER texts: lemmas
-/

namespace Verif.Ddl
open Verif Verif.Ragel

namespace TriggerG

/-- What is stored for the time. -/
def normWhen (t : Str) : Str := upper (collapseWhitespace t)

theorem derives_when {s : Str} {es : List (Ev TriggerAct)} (h : Derives when_ s es) :
    WhenText s (normWhen s) ∧ es = s.map .push := by
  unfold when_ at h
  simp only [derives_alt, derives_seqs_cons, derives_seqs_one, derives_wsP,
    derives_kwP (A := TriggerAct) (w := b!"BEFORE") (by decide),
    derives_kwP (A := TriggerAct) (w := b!"AFTER") (by decide),
    derives_kwP (A := TriggerAct) (w := b!"INSTEAD") (by decide),
    derives_kwP (A := TriggerAct) (w := b!"OF") (by decide)] at h
  unfold WhenText normWhen
  rcases h with ⟨h, rfl⟩ | ⟨h, rfl⟩ |
    ⟨t1, _, _, _, rfl, rfl, ⟨ht1, rfl⟩, w, t2, _, _, rfl, rfl, ⟨hw, rfl⟩, ht2, rfl⟩
  · refine ⟨Or.inl ?_, rfl⟩
    rw [norm_one' (by decide) h]
    exact ⟨by decide, h⟩
  · refine ⟨Or.inl ?_, rfl⟩
    rw [norm_one' (by decide) h]
    exact ⟨by decide, h⟩
  · refine ⟨Or.inr ⟨t1, w, collapseWhitespace w, t2, ht1, hw, collapsed_collapse w, ht2, by simp, ?_⟩,
      by simp⟩
    rw [← List.append_assoc, norm_two' (by decide) (by decide) ht1 hw.2 ht2]

theorem when_derives {s a : Str} (h : WhenText s a) :
    Derives when_ s (s.map .push) ∧ a = normWhen s := by
  unfold when_
  simp only [derives_alt, derives_seqs_cons, derives_seqs_one, derives_wsP,
    derives_kwP (A := TriggerAct) (w := b!"BEFORE") (by decide),
    derives_kwP (A := TriggerAct) (w := b!"AFTER") (by decide),
    derives_kwP (A := TriggerAct) (w := b!"INSTEAD") (by decide),
    derives_kwP (A := TriggerAct) (w := b!"OF") (by decide)]
  unfold normWhen
  rcases h with ⟨ha, h⟩ | ⟨t1, w, v, t2, ht1, hw, hv, ht2, rfl, rfl⟩
  · simp only [List.mem_cons, List.not_mem_nil, or_false] at ha
    rcases ha with rfl | rfl
    · exact ⟨Or.inl ⟨h, by simp⟩, (norm_one' (by decide) h).symm⟩
    · exact ⟨Or.inr (Or.inl ⟨h, by simp⟩), (norm_one' (by decide) h).symm⟩
  · refine ⟨Or.inr (Or.inr ⟨t1, w ++ t2, t1.map .push, (w ++ t2).map .push, by simp, by simp, ⟨ht1, rfl⟩,
      w, t2, w.map .push, t2.map .push, rfl, by simp, ⟨hw, rfl⟩, ht2, rfl⟩), ?_⟩
    rw [norm_two' (by decide) (by decide) ht1 hw.2 ht2, collapsed_iff.mp hv]

/-- Events of the columns. -/
def colEvents (cs : List Str) : List (Ev TriggerAct) := cs.flatMap (fun c => c.map .push ++ [.act .addColumn])

/-- Events of an event. -/
def evEvents : Event → List (Ev TriggerAct)
  | .insert => [.act .matchInsert]
  | .delete => [.act .matchDelete]
  | .truncate => [.act .matchTruncate]
  | .update cs => .act .matchUpdate :: colEvents cs

theorem derives_more {s : Str} {es : List (Ev TriggerAct)} :
    Derives more s es ↔ ∃ cs, MoreText s cs ∧ es = colEvents cs := derives_moreIdents

theorem derives_event {s : Str} {es : List (Ev TriggerAct)} :
    Derives event s es ↔ ∃ ev, EventText s ev ∧ es = evEvents ev := by
  unfold event
  simp only [derives_alt, derives_seq, derives_opt, derives_seqs_cons, derives_seqs_one, derives_ws,
    derives_ident, derives_act, derives_more,
    derives_kw (A := TriggerAct) (w := b!"OF") (by decide),
    derives_kwA (a := TriggerAct.matchInsert) (w := b!"INSERT") (by decide) (by decide),
    derives_kwA (a := TriggerAct.matchUpdate) (w := b!"UPDATE") (by decide) (by decide),
    derives_kwA (a := TriggerAct.matchDelete) (w := b!"DELETE") (by decide) (by decide),
    derives_kwA (a := TriggerAct.matchTruncate) (w := b!"TRUNCATE") (by decide) (by decide)]
  constructor
  · rintro (⟨h, rfl⟩ | ⟨k, _, _, _, rfl, rfl, ⟨hk, rfl⟩, h⟩ | ⟨h, rfl⟩ | ⟨h, rfl⟩)
    · exact ⟨.insert, h, rfl⟩
    · rcases h with ⟨v, _, _, _, rfl, rfl, ⟨hv, rfl⟩, o, _, _, _, rfl, rfl, ⟨ho, rfl⟩, w, _, _, _, rfl,
        rfl, ⟨hw, rfl⟩, c, _, _, _, rfl, rfl, ⟨hc, rfl⟩, _, m, _, _, rfl, rfl, ⟨rfl, rfl⟩, cs, hm, rfl⟩ |
        ⟨rfl, rfl⟩
      · exact ⟨.update (c :: cs), Or.inr ⟨k, v, o, w, c, m, cs, hk, hv, ho, hw, hc, hm, by simp, rfl⟩,
          by simp [evEvents, colEvents]⟩
      · exact ⟨.update [], Or.inl ⟨rfl, by simpa using hk⟩, rfl⟩
    · exact ⟨.delete, h, rfl⟩
    · exact ⟨.truncate, h, rfl⟩
  · rintro ⟨ev, h, rfl⟩
    cases ev with
    | insert => exact Or.inl ⟨h, rfl⟩
    | delete => exact Or.inr (Or.inr (Or.inl ⟨h, rfl⟩))
    | truncate => exact Or.inr (Or.inr (Or.inr ⟨h, rfl⟩))
    | update cols =>
      refine Or.inr (Or.inl ?_)
      rcases h with ⟨rfl, h⟩ | ⟨k, v, o, w, c, m, cs, hk, hv, ho, hw, hc, hm, rfl, rfl⟩
      · exact ⟨s, [], [.act .matchUpdate], [], by simp, rfl, ⟨h, rfl⟩, Or.inr ⟨rfl, rfl⟩⟩
      · exact ⟨k, v ++ (o ++ (w ++ (c ++ m))), [.act .matchUpdate], colEvents (c :: cs), by simp,
          rfl, ⟨hk, rfl⟩, Or.inl ⟨v, o ++ (w ++ (c ++ m)), [], colEvents (c :: cs), rfl, rfl, ⟨hv, rfl⟩,
          o, w ++ (c ++ m), [], colEvents (c :: cs), rfl, rfl, ⟨ho, rfl⟩, w, c ++ m, [],
          colEvents (c :: cs), rfl, rfl, ⟨hw, rfl⟩, c, m, c.map .push, .act .addColumn :: colEvents cs,
          rfl, by simp [colEvents], ⟨hc, rfl⟩, [], m, [.act .addColumn], colEvents cs, rfl, rfl,
          ⟨rfl, rfl⟩, cs, hm, rfl⟩⟩

theorem derives_moreEvents {s : Str} {es : List (Ev TriggerAct)} :
    Derives (.star (seqs [ws, kw b!"OR", ws, event])) s es ↔
      ∃ evs, MoreEventsText s evs ∧ es = evs.flatMap evEvents := by
  constructor
  · intro h
    generalize hg : Gram.star _ = g at h
    induction h with
    | starNil => exact ⟨[], .nil, rfl⟩
    | starCons h1 h2 _ ih2 =>
      obtain ⟨evs, hk, rfl⟩ := ih2 hg
      cases hg
      simp only [derives_seqs_cons, derives_seqs_one, derives_ws, derives_event,
        derives_kw (A := TriggerAct) (w := b!"OR") (by decide)] at h1
      obtain ⟨a, _, _, _, rfl, rfl, ⟨ha, rfl⟩, o, _, _, _, rfl, rfl, ⟨ho, rfl⟩, b, e, _, _, rfl, rfl,
        ⟨hb, rfl⟩, ev, hev, rfl⟩ := h1
      refine ⟨ev :: evs, ?_, by simp⟩
      have := MoreEventsText.cons ha ho hb hev hk
      simpa using this
    | _ => cases hg
  · rintro ⟨cs, h, rfl⟩
    induction h with
    | nil => exact .starNil
    | @cons a o b e s ev evs ha ho hb he _ ih =>
      rw [List.flatMap_cons]
      refine .starCons ?_ ih
      simp only [derives_seqs_cons, derives_seqs_one, derives_ws, derives_event,
        derives_kw (A := TriggerAct) (w := b!"OR") (by decide)]
      exact ⟨a, o ++ (b ++ e), [], evEvents ev, by simp, rfl, ⟨ha, rfl⟩, o, b ++ e, [], evEvents ev, rfl,
        rfl, ⟨ho, rfl⟩, b, e, [], evEvents ev, rfl, rfl, ⟨hb, rfl⟩, ev, he, rfl⟩

theorem derives_init {s : Str} {es : List (Ev TriggerAct)} :
    Derives initially s es ↔
      ∃ d, InitiallyText s d ∧ es = if d then [.act .matchInitiallyDeferred] else [] :=
  derives_initially

/-- Events of the deferrability clause. -/
abbrev dEvents (n : Nat) (i : Bool) : List (Ev TriggerAct) :=
  deferEvents .matchDeferrable .matchInitiallyDeferred n i

theorem derives_deferral {s : Str} {es : List (Ev TriggerAct)} (h : Derives deferral s es) :
    ∃ df w n i, s = df ++ w ∧ DeferText df (decide (0 < n)) i ∧ Ws w ∧ es = dEvents n i := by
  unfold deferral at h
  simp only [derives_alt] at h
  rcases h with h | h | h | h | h
  · obtain ⟨hs, rfl⟩ := derives_ws.mp h
    exact ⟨[], s, 0, false, rfl, Or.inl ⟨rfl, rfl, rfl⟩, hs, rfl⟩
  · simp only [derives_seqs_cons, derives_seqs_one, derives_ws,
      derives_kw (A := TriggerAct) (w := b!"NOT") (by decide),
      derives_kw (A := TriggerAct) (w := b!"DEFERRABLE") (by decide)] at h
    obtain ⟨v, _, _, _, rfl, rfl, ⟨hv, rfl⟩, k, _, _, _, rfl, rfl, ⟨hk, rfl⟩, w, _, _, _, rfl, rfl,
      ⟨hw, rfl⟩, d, tl, _, _, rfl, rfl, ⟨hd, rfl⟩, htl, rfl⟩ := h
    exact ⟨v ++ k ++ w ++ d, tl, 0, false, by simp,
      Or.inr (Or.inl ⟨v, k, w, d, hv, hk, hw, hd, rfl, rfl, rfl⟩), htl, rfl⟩
  · simp only [derives_seqs_cons, derives_seqs_one, derives_ws, derives_init,
      spF, derives_spA, derives_spAs,
      derives_kw (A := TriggerAct) (w := b!"DEFERRABLE") (by decide)] at h
    obtain ⟨v, _, _, _, rfl, rfl, ⟨hv, rfl⟩, k, _, _, _, rfl, rfl, ⟨hk, rfl⟩, _, _, _, _, rfl, rfl,
      ⟨b, hb, rfl, rfl⟩, r, _, _, _, rfl, rfl, ⟨hr, rfl⟩, i, tl, _, _, rfl, rfl, ⟨d, hi, rfl⟩, htl, rfl⟩ := h
    refine ⟨v ++ (k ++ ([b] ++ r)) ++ i, tl, r.length + 1, d, by simp,
      Or.inr (Or.inr ⟨v, k ++ ([b] ++ r), i, hv, Or.inr ⟨k, [b] ++ r, hk,
        ws_append (ws_one hb) hr, rfl, by simp⟩, Or.inr hi, rfl⟩), htl, ?_⟩
    simp [dEvents, deferEvents, List.replicate_succ]
  · simp only [derives_seqs_cons, derives_seqs_one, derives_ws,
      spF, derives_spA, derives_spAs,
      derives_kw (A := TriggerAct) (w := b!"DEFERRABLE") (by decide)] at h
    obtain ⟨v, _, _, _, rfl, rfl, ⟨hv, rfl⟩, k, _, _, _, rfl, rfl, ⟨hk, rfl⟩, _, _, _, _, rfl, rfl,
      ⟨b, hb, rfl, rfl⟩, _, r, _, _, rfl, rfl, ⟨c, hc, rfl, rfl⟩, hr, rfl⟩ := h
    refine ⟨v ++ (k ++ [b]) ++ [], [c] ++ r, r.length + 2, false, by simp,
      Or.inr (Or.inr ⟨v, k ++ [b], [], hv, Or.inr ⟨k, [b], hk, ws_one hb, rfl, by simp⟩,
        Or.inl ⟨rfl, rfl⟩, rfl⟩), ws_append (ws_one hc) hr, ?_⟩
    simp [dEvents, deferEvents, List.replicate_succ]
  · simp only [derives_seqs_cons, derives_seqs_one, derives_ws, derives_init] at h
    obtain ⟨v, _, _, _, rfl, rfl, ⟨hv, rfl⟩, i, tl, _, _, rfl, rfl, ⟨d, hi, rfl⟩, htl, rfl⟩ := h
    exact ⟨v ++ [] ++ i, tl, 0, d, by simp, Or.inr (Or.inr ⟨v, [], i, hv, Or.inl ⟨rfl, rfl⟩, Or.inr hi,
      rfl⟩), htl, by simp [dEvents, deferEvents]⟩

theorem deferral_derives {df tl : Str} {d i : Bool} (h : DeferText df d i) (htl : Ws tl) :
    ∃ n, Derives deferral (df ++ tl) (dEvents n i) ∧ d = decide (0 < n) := by
  unfold deferral
  simp only [derives_alt]
  rcases h with ⟨rfl, rfl, rfl⟩ | ⟨v, k, w, t, hv, hk, hw, ht, rfl, rfl, rfl⟩ |
    ⟨v, p, j, hv, hp, hj, rfl⟩
  · exact ⟨0, Or.inl (derives_ws.mpr ⟨htl, rfl⟩), rfl⟩
  · refine ⟨0, Or.inr (Or.inl ?_), rfl⟩
    simp only [derives_seqs_cons, derives_seqs_one, derives_ws,
      derives_kw (A := TriggerAct) (w := b!"NOT") (by decide),
      derives_kw (A := TriggerAct) (w := b!"DEFERRABLE") (by decide)]
    exact ⟨v, k ++ (w ++ (t ++ tl)), [], [], by simp, rfl, ⟨hv, rfl⟩, k, w ++ (t ++ tl), [], [], rfl,
      rfl, ⟨hk, rfl⟩, w, t ++ tl, [], [], rfl, rfl, ⟨hw, rfl⟩, t, tl, [], [], rfl, rfl, ⟨ht, rfl⟩, htl,
      rfl⟩
  · rcases hp with ⟨rfl, rfl⟩ | ⟨k, w, hk, hw, rfl, rfl⟩
    · rcases hj with ⟨rfl, rfl⟩ | hj
      · refine ⟨0, Or.inl (derives_ws.mpr ⟨?_, rfl⟩), rfl⟩
        rw [List.append_nil, List.append_nil]
        exact ws_append hv htl.2
      · refine ⟨0, Or.inr (Or.inr (Or.inr (Or.inr ?_))), rfl⟩
        simp only [derives_seqs_cons, derives_seqs_one, derives_ws, derives_init]
        exact ⟨v, j ++ tl, [], dEvents 0 i, by simp, rfl,
          ⟨hv, rfl⟩, j, tl, dEvents 0 i, [], rfl, by simp,
          ⟨i, hj, by simp [deferEvents]⟩, htl, rfl⟩
    · obtain ⟨b, r, rfl, hb, hr⟩ := ws_iff.mpr hw
      rcases hj with ⟨rfl, rfl⟩ | hj
      · have hws : Ws (r ++ tl) := ⟨by simp [htl.1], spaces_append.mpr ⟨hr, htl.2⟩⟩
        obtain ⟨c, r', hcr, hc, hr'⟩ := ws_iff.mpr hws
        refine ⟨r'.length + 2, Or.inr (Or.inr (Or.inr (Or.inl ?_))), by simp⟩
        simp only [derives_seqs_cons, derives_seqs_one, derives_ws,
          spF, derives_spA, derives_spAs,
          derives_kw (A := TriggerAct) (w := b!"DEFERRABLE") (by decide)]
        refine ⟨v, k ++ ([b] ++ (r ++ tl)), [], dEvents (r'.length + 2) false,
          by simp, rfl, ⟨hv, rfl⟩, k, [b] ++ (r ++ tl), [], dEvents (r'.length + 2) false, rfl, rfl,
          ⟨hk, rfl⟩, [b], r ++ tl, [.act .matchDeferrable],
          List.replicate (r'.length + 1) (.act .matchDeferrable), rfl,
          by simp [dEvents, deferEvents, List.replicate_succ], ⟨b, hb, rfl, rfl⟩, ?_⟩
        rw [hcr]
        exact ⟨[c], r', [.act .matchDeferrable], List.replicate r'.length (.act .matchDeferrable), rfl,
          by simp [List.replicate_succ], ⟨c, hc, rfl, rfl⟩, hr', rfl⟩
      · refine ⟨r.length + 1, Or.inr (Or.inr (Or.inl ?_)), by simp⟩
        simp only [derives_seqs_cons, derives_seqs_one, derives_ws, derives_init,
          spF, derives_spA, derives_spAs,
          derives_kw (A := TriggerAct) (w := b!"DEFERRABLE") (by decide)]
        exact ⟨v, k ++ ([b] ++ (r ++ (j ++ tl))), [], dEvents (r.length + 1) i,
          by simp, rfl, ⟨hv, rfl⟩, k, [b] ++ (r ++ (j ++ tl)), [],
          dEvents (r.length + 1) i, rfl, rfl, ⟨hk, rfl⟩, [b],
          r ++ (j ++ tl), [.act .matchDeferrable],
          dEvents r.length i, rfl,
          by simp [dEvents, deferEvents, List.replicate_succ], ⟨b, hb, rfl, rfl⟩, r, j ++ tl,
          List.replicate r.length (.act .matchDeferrable),
          if i then [.act .matchInitiallyDeferred] else [], rfl, rfl, ⟨hr, rfl⟩,
          j, tl, _, [], rfl, by rw [List.append_nil], ⟨i, hj, rfl⟩, htl, rfl⟩

/-- FOR without its leading spaces, but with the spaces up to EXECUTE. -/
def ForTail (s : Str) (row : Bool) : Prop :=
  ∃ k w e t x, Kw b!"FOR" k ∧ Ws w ∧ (e = [] ∨ ∃ k' w', Kw b!"EACH" k' ∧ Ws w' ∧ e = k' ++ w') ∧
    Kw (if row then b!"ROW" else b!"STATEMENT") t ∧ Ws x ∧ s = k ++ w ++ e ++ t ++ x

/-- Events of FOR. -/
def forEvents (row : Bool) : List (Ev TriggerAct) := if row then [.act .matchForEachRow] else []

theorem derives_for {s : Str} {es : List (Ev TriggerAct)} :
    Derives for_ s es ↔ (s = [] ∧ es = []) ∨ ∃ row, ForTail s row ∧ es = forEvents row := by
  unfold for_ ForTail
  simp only [derives_opt, derives_seqs_cons, derives_seqs_one, derives_seq, derives_alt, derives_ws,
    derives_kw (A := TriggerAct) (w := b!"FOR") (by decide),
    derives_kw (A := TriggerAct) (w := b!"EACH") (by decide),
    derives_kw (A := TriggerAct) (w := b!"STATEMENT") (by decide),
    derives_kwA (a := TriggerAct.matchForEachRow) (w := b!"ROW") (by decide) (by decide)]
  constructor
  · rintro (⟨k, _, _, _, rfl, rfl, ⟨hk, rfl⟩, w, _, _, _, rfl, rfl, ⟨hw, rfl⟩, e, _, _, _, rfl, rfl,
      he, t, x, _, _, rfl, rfl, ht, hx, rfl⟩ | h)
    · have he' : e = [] ∨ ∃ k' w', Kw b!"EACH" k' ∧ Ws w' ∧ e = k' ++ w' := by
        rcases he with ⟨k', w', _, _, rfl, rfl, ⟨hk', rfl⟩, hw', rfl⟩ | ⟨rfl, rfl⟩
        · exact Or.inr ⟨k', w', hk', hw', rfl⟩
        · exact Or.inl rfl
      refine Or.inr ?_
      have hee : ∀ l : List (Ev TriggerAct), (∃ s1 s2 e1 e2, e = s1 ++ s2 ∧ l = e1 ++ e2 ∧
          (Kw b!"EACH" s1 ∧ e1 = []) ∧ Ws s2 ∧ e2 = []) ∨ e = [] ∧ l = [] → l = [] := by
        rintro l (⟨_, _, _, _, _, rfl, ⟨_, rfl⟩, _, rfl⟩ | ⟨_, rfl⟩) <;> rfl
      rw [hee _ he]
      rcases ht with ⟨ht, rfl⟩ | ⟨ht, rfl⟩
      · exact ⟨true, ⟨k, w, e, t, x, hk, hw, he', by simpa using ht, hx, by simp⟩, by simp [forEvents]⟩
      · exact ⟨false, ⟨k, w, e, t, x, hk, hw, he', by simpa using ht, hx, by simp⟩, by simp [forEvents]⟩
    · exact Or.inl h
  · rintro (h | ⟨row, ⟨k, w, e, t, x, hk, hw, he, ht, hx, rfl⟩, rfl⟩)
    · exact Or.inr h
    · refine Or.inl ⟨k, w ++ (e ++ (t ++ x)), [], forEvents row, by simp, rfl, ⟨hk, rfl⟩, w,
        e ++ (t ++ x), [], forEvents row, rfl, rfl, ⟨hw, rfl⟩, e, t ++ x, [], forEvents row, rfl, rfl,
        ?_, t, x, forEvents row, [], rfl, by simp, ?_, hx, rfl⟩
      · rcases he with rfl | ⟨k', w', hk', hw', rfl⟩
        · exact Or.inr ⟨rfl, rfl⟩
        · exact Or.inl ⟨k', w', [], [], rfl, rfl, ⟨hk', rfl⟩, hw', rfl⟩
      · cases row
        · exact Or.inr ⟨by simpa using ht, by simp [forEvents]⟩
        · exact Or.inl ⟨by simpa using ht, by simp [forEvents]⟩

/-- Constraint. -/
theorem derives_constraint {s : Str} {es : List (Ev TriggerAct)} :
    Derives (opt (seqs [kwA .matchConstraint b!"CONSTRAINT", ws])) s es ↔
      ∃ u, ConstraintText s u ∧ es = if u then [.act .matchConstraint] else [] := by
  unfold ConstraintText
  rw [derives_opt]
  simp only [derives_seqs_cons, derives_seqs_one, derives_ws,
    derives_kwA (w := b!"CONSTRAINT") (a := TriggerAct.matchConstraint) (by decide) (by decide)]
  constructor
  · rintro (⟨k, w, _, _, rfl, rfl, ⟨hk, rfl⟩, hw, rfl⟩ | ⟨rfl, rfl⟩)
    · exact ⟨true, Or.inr ⟨k, w, hk, hw, rfl, rfl⟩, rfl⟩
    · exact ⟨false, Or.inl ⟨rfl, rfl⟩, rfl⟩
  · rintro ⟨u, (⟨rfl, rfl⟩ | ⟨k, w, hk, hw, rfl, rfl⟩), rfl⟩
    · exact Or.inr ⟨rfl, rfl⟩
    · exact Or.inl ⟨k, w, _, _, rfl, rfl, ⟨hk, rfl⟩, hw, rfl⟩

/-- The events of a whole statement. -/
def events (x : Trigger) (wh : Str) (evs : List Event) (n : Nat) : List (Ev TriggerAct) :=
  (if x.constraint then [.act .matchConstraint] else []) ++ (x.name.map .push ++ (.act .setName ::
    (wh.map .push ++ (.act .setWhen :: (evs.flatMap evEvents ++ (x.table.map .push ++ (.act .setTable ::
      (dEvents n x.initiallyDeferred ++ (forEvents x.forEachRow ++
        (x.function.map .push ++ [.act .setFunction]))))))))))

theorem doAll_pushes (x : Trigger) (b s : Str) (es : List (Ev TriggerAct)) :
    doAll triggerStep 0 ⟨x, b⟩ (s.map .push ++ es) = doAll triggerStep 0 ⟨x, b ++ s⟩ es := by
  induction s generalizing b with
  | nil => simp
  | cons c s ih =>
    simp only [List.map_cons, List.cons_append, doAll, triggerStep]
    rw [ih]
    simp

theorem doAll_columns (x : Trigger) (cs : List Str) (es : List (Ev TriggerAct)) :
    doAll triggerStep 0 ⟨x, []⟩ (colEvents cs ++ es) =
      doAll triggerStep 0 ⟨{ x with columns := x.columns ++ cs }, []⟩ es := by
  unfold colEvents
  induction cs generalizing x with
  | nil => simp
  | cons c cs ih =>
    rw [List.flatMap_cons, List.append_assoc, List.append_assoc, doAll_pushes]
    simp only [List.cons_append, List.nil_append, doAll, triggerStep]
    rw [ih]
    simp

theorem doAll_event (x : Trigger) (ev : Event) (es : List (Ev TriggerAct)) :
    doAll triggerStep 0 ⟨x, []⟩ (evEvents ev ++ es) =
      doAll triggerStep 0 ⟨{ x with
        insert := x.insert || decide (Event.insert = ev), delete := x.delete || decide (Event.delete = ev),
        truncate := x.truncate || decide (Event.truncate = ev), update := x.update || ev.isUpdate,
        columns := x.columns ++ ev.columns }, []⟩ es := by
  cases ev with
  | update cs =>
    simp only [evEvents, List.cons_append, doAll, triggerStep]
    rw [doAll_columns]
    simp [Event.isUpdate, Event.columns]
  | insert => simp [evEvents, doAll, triggerStep, Event.isUpdate, Event.columns]
  | delete => simp [evEvents, doAll, triggerStep, Event.isUpdate, Event.columns]
  | truncate => simp [evEvents, doAll, triggerStep, Event.isUpdate, Event.columns]

theorem doAll_eventList (x : Trigger) (evs : List Event) (es : List (Ev TriggerAct)) :
    doAll triggerStep 0 ⟨x, []⟩ (evs.flatMap evEvents ++ es) =
      doAll triggerStep 0 ⟨{ x with
        insert := x.insert || decide (Event.insert ∈ evs), delete := x.delete || decide (Event.delete ∈ evs),
        truncate := x.truncate || decide (Event.truncate ∈ evs), update := x.update || evs.any Event.isUpdate,
        columns := x.columns ++ evs.flatMap Event.columns }, []⟩ es := by
  induction evs generalizing x with
  | nil => simp
  | cons ev evs ih =>
    rw [List.flatMap_cons, List.append_assoc, doAll_event, ih]
    simp [Bool.or_assoc]

theorem doAll_defer (x : Trigger) (hx : x.deferrable = false) (hi : x.initiallyDeferred = false)
    (n : Nat) (i : Bool) (es : List (Ev TriggerAct)) :
    doAll triggerStep 0 ⟨x, []⟩ (dEvents n i ++ es) =
      doAll triggerStep 0 ⟨{ x with deferrable := decide (0 < n), initiallyDeferred := i }, []⟩ es := by
  have hfin : ∀ y : Trigger, y.initiallyDeferred = false →
      doAll triggerStep 0 ⟨y, []⟩ ((if i then [.act .matchInitiallyDeferred] else []) ++ es) =
      doAll triggerStep 0 ⟨{ y with initiallyDeferred := i }, []⟩ es := by
    intro y hy
    cases i
    · cases y
      simp only at hy
      subst hy
      rfl
    · rfl
  have hrep : ∀ n (y : Trigger) es, y.deferrable = true →
      doAll triggerStep 0 ⟨y, []⟩ (List.replicate n (.act .matchDeferrable) ++ es) =
      doAll triggerStep 0 ⟨y, []⟩ es := by
    intro n
    induction n with
    | zero => intro y es _; rfl
    | succ n ih =>
      intro y es hy
      rw [List.replicate_succ]
      simp only [List.cons_append, doAll, triggerStep]
      have : { y with deferrable := true } = y := by
        cases y; simp only at hy; subst hy; rfl
      rw [this]
      exact ih y es hy
  unfold dEvents deferEvents
  rw [List.append_assoc]
  cases n with
  | zero =>
    rw [show List.replicate 0 (Ev.act TriggerAct.matchDeferrable) = [] from rfl, List.nil_append,
      hfin x hi]
    cases x
    simp only at hx hi
    subst hx hi
    rfl
  | succ n =>
    rw [List.replicate_succ]
    simp only [List.cons_append, doAll, triggerStep]
    rw [hrep n _ _ rfl, hfin { x with deferrable := true } hi]
    simp

/-- The description the events make. -/
def made (x : Trigger) (wh : Str) (evs : List Event) (n : Nat) : Trigger :=
  { x with
    schema := [], when_ := normWhen wh, deferrable := decide (0 < n)
    insert := decide (Event.insert ∈ evs), delete := decide (Event.delete ∈ evs)
    truncate := decide (Event.truncate ∈ evs), update := evs.any Event.isUpdate
    columns := evs.flatMap Event.columns }

theorem doAll_events (x : Trigger) (wh : Str) (evs : List Event) (n : Nat) :
    doAll triggerStep 0 {} (events x wh evs n) = some ⟨made x wh evs n, []⟩ := by
  have h1 : ∀ es, doAll triggerStep 0 {} ((if x.constraint then [.act .matchConstraint] else []) ++ es) =
      doAll triggerStep 0 ⟨{ constraint := x.constraint }, []⟩ es := by
    intro es
    cases x.constraint <;> simp [doAll, triggerStep]
  have h2 : ∀ (y : Trigger) es, y.forEachRow = false →
      doAll triggerStep 0 ⟨y, []⟩ (forEvents x.forEachRow ++ es) =
      doAll triggerStep 0 ⟨{ y with forEachRow := x.forEachRow }, []⟩ es := by
    intro y es hy
    cases x.forEachRow
    · cases y
      simp only at hy
      subst hy
      rfl
    · rfl
  unfold events
  rw [h1, doAll_pushes]
  simp only [List.nil_append, doAll, triggerStep]
  rw [doAll_pushes]
  simp only [List.nil_append, doAll, triggerStep]
  rw [doAll_eventList, doAll_pushes]
  simp only [List.nil_append, doAll, triggerStep]
  rw [doAll_defer _ rfl rfl, h2 _ _ rfl, doAll_pushes]
  simp only [List.nil_append, doAll, triggerStep, Bool.false_or]
  rfl

theorem derivesS_t0 {s : Str} {es : List (Ev TriggerAct)} (h : DerivesS t0 s es) :
    ∃ (x : Trigger) (wh : Str) (evs : List Event) (n : Nat), TriggerText s x ∧
      es = events x wh evs n ∧ x = made x wh evs n := by
  obtain ⟨sp, _, _, _, rfl, rfl, d1, g1⟩ := derivesS_cons.mp h
  obtain ⟨h_sp, rfl⟩ := derives_sp.mp d1
  obtain ⟨create, _, _, _, rfl, rfl, d2, g2⟩ := derivesS_cons.mp g1
  obtain ⟨h_create, rfl⟩ := (derives_kw (by decide)).mp d2
  obtain ⟨w1, _, _, _, rfl, rfl, d3, g3⟩ := derivesS_cons.mp g2
  obtain ⟨h_w1, rfl⟩ := derives_ws.mp d3
  obtain ⟨c, _, _, _, rfl, rfl, d4, g4⟩ := derivesS_cons.mp g3
  obtain ⟨cn, h_c, rfl⟩ := derives_constraint.mp d4
  obtain ⟨trigger_, _, _, _, rfl, rfl, d5, g5⟩ := derivesS_cons.mp g4
  obtain ⟨h_trigger, rfl⟩ := (derives_kw (by decide)).mp d5
  obtain ⟨w2, _, _, _, rfl, rfl, d6, g6⟩ := derivesS_cons.mp g5
  obtain ⟨h_w2, rfl⟩ := derives_ws.mp d6
  obtain ⟨name, _, _, _, rfl, rfl, d7, g7⟩ := derivesS_cons.mp g6
  obtain ⟨h_name, rfl⟩ := derives_ident.mp d7
  obtain ⟨_, _, _, _, rfl, rfl, d8, g8⟩ := derivesS_cons.mp g7
  obtain ⟨rfl, rfl⟩ := derives_act.mp d8
  obtain ⟨w3, _, _, _, rfl, rfl, d9, g9⟩ := derivesS_cons.mp g8
  obtain ⟨h_w3, rfl⟩ := derives_ws.mp d9
  obtain ⟨wh, _, _, _, rfl, rfl, d10, g10⟩ := derivesS_cons.mp g9
  obtain ⟨h_wh, rfl⟩ := derives_when d10
  obtain ⟨_, _, _, _, rfl, rfl, d11, g11⟩ := derivesS_cons.mp g10
  obtain ⟨rfl, rfl⟩ := derives_act.mp d11
  obtain ⟨w4, _, _, _, rfl, rfl, d12, g12⟩ := derivesS_cons.mp g11
  obtain ⟨h_w4, rfl⟩ := derives_ws.mp d12
  obtain ⟨ev1, _, _, _, rfl, rfl, d13, g13⟩ := derivesS_cons.mp g12
  obtain ⟨ev, h_ev, rfl⟩ := derives_event.mp d13
  obtain ⟨more, _, _, _, rfl, rfl, d14, g14⟩ := derivesS_cons.mp g13
  obtain ⟨evs, h_evs, rfl⟩ := derives_moreEvents.mp d14
  obtain ⟨w5, _, _, _, rfl, rfl, d15, g15⟩ := derivesS_cons.mp g14
  obtain ⟨h_w5, rfl⟩ := derives_ws.mp d15
  obtain ⟨on, _, _, _, rfl, rfl, d16, g16⟩ := derivesS_cons.mp g15
  obtain ⟨h_on, rfl⟩ := (derives_kw (by decide)).mp d16
  obtain ⟨w6, _, _, _, rfl, rfl, d17, g17⟩ := derivesS_cons.mp g16
  obtain ⟨h_w6, rfl⟩ := derives_ws.mp d17
  obtain ⟨table, _, _, _, rfl, rfl, d18, g18⟩ := derivesS_cons.mp g17
  obtain ⟨h_table, rfl⟩ := derives_ident.mp d18
  obtain ⟨_, _, _, _, rfl, rfl, d19, g19⟩ := derivesS_cons.mp g18
  obtain ⟨rfl, rfl⟩ := derives_act.mp d19
  obtain ⟨dfs, _, _, _, rfl, rfl, d20, g20⟩ := derivesS_cons.mp g19
  obtain ⟨df, v, n, i, rfl, h_df, h_v, rfl⟩ := derives_deferral d20
  obtain ⟨fr, _, _, _, rfl, rfl, d21, g21⟩ := derivesS_cons.mp g20
  obtain ⟨execute, _, _, _, rfl, rfl, d22, g22⟩ := derivesS_cons.mp g21
  obtain ⟨h_execute, rfl⟩ := (derives_kw (by decide)).mp d22
  obtain ⟨w8, _, _, _, rfl, rfl, d23, g23⟩ := derivesS_cons.mp g22
  obtain ⟨h_w8, rfl⟩ := derives_ws.mp d23
  obtain ⟨proc, _, pe, _, rfl, rfl, d24, g24⟩ := derivesS_cons.mp g23
  have h_proc : (Kw b!"FUNCTION" proc ∨ Kw b!"PROCEDURE" proc) ∧ pe = [] := by
    rcases derives_alt.mp d24 with d | d
    · have := (derives_kw (by decide)).mp d
      exact ⟨Or.inl this.1, this.2⟩
    · have := (derives_kw (by decide)).mp d
      exact ⟨Or.inr this.1, this.2⟩
  obtain ⟨h_proc, rfl⟩ := h_proc
  obtain ⟨w9, _, _, _, rfl, rfl, d25, g25⟩ := derivesS_cons.mp g24
  obtain ⟨h_w9, rfl⟩ := derives_ws.mp d25
  obtain ⟨function, _, _, _, rfl, rfl, d26, g26⟩ := derivesS_cons.mp g25
  obtain ⟨h_function, rfl⟩ := derives_ident.mp d26
  obtain ⟨_, _, _, _, rfl, rfl, d27, g27⟩ := derivesS_cons.mp g26
  obtain ⟨rfl, rfl⟩ := derives_act.mp d27
  obtain ⟨_, _, _, _, rfl, rfl, d28, g28⟩ := derivesS_cons.mp g27
  obtain ⟨rfl, rfl⟩ := derives_ch.mp d28
  obtain ⟨_, _, _, _, rfl, rfl, d29, g29⟩ := derivesS_cons.mp g28
  obtain ⟨rfl, rfl⟩ := derives_ch.mp d29
  obtain ⟨w10, _, _, _, rfl, rfl, d30, g30⟩ := derivesS_cons.mp g29
  obtain ⟨h_w10, rfl⟩ := derives_sp.mp d30
  obtain ⟨rfl, rfl⟩ := derivesS_nil.mp g30
  rcases derives_for.mp d21 with ⟨rfl, rfl⟩ | ⟨row, ⟨k, w, e, t, w7, hk, hw, he, ht, hw7, rfl⟩, rfl⟩
  · refine ⟨made (Trigger.mk [] table name function [] cn false i false false false false false []) wh
      (ev :: evs) n, wh, ev :: evs, n, ?_, ?_, rfl⟩
    · exact ⟨sp, create, w1, c, trigger_, w2, w3, wh, w4, ev1, more, w5, on, w6, df, [], v, execute, w8,
        proc, w9, w10, ev, evs, by simp [made], h_sp, h_create, h_w1, h_c, h_trigger, h_w2, h_name, h_w3,
        h_wh, h_w4, h_ev, h_evs, h_w5, h_on, h_w6, h_table, h_df, Or.inl ⟨rfl, rfl⟩, h_v, h_execute,
        h_w8, h_proc, h_w9, h_function, h_w10, rfl, rfl, rfl, rfl, rfl, rfl⟩
    · simp [events, made, forEvents]
  · refine ⟨made (Trigger.mk [] table name function [] cn false i row false false false false []) wh
      (ev :: evs) n, wh, ev :: evs, n, ?_, ?_, rfl⟩
    · exact ⟨sp, create, w1, c, trigger_, w2, w3, wh, w4, ev1, more, w5, on, w6, df,
        v ++ k ++ w ++ e ++ t, w7, execute, w8,
        proc, w9, w10, ev, evs, by simp [made], h_sp, h_create, h_w1, h_c, h_trigger, h_w2, h_name, h_w3,
        h_wh, h_w4, h_ev, h_evs, h_w5, h_on, h_w6, h_table, h_df,
        Or.inr ⟨v, k, w, e, t, h_v, hk, hw, he, ht, rfl⟩, hw7, h_execute,
        h_w8, h_proc, h_w9, h_function, h_w10, rfl, rfl, rfl, rfl, rfl, rfl⟩
    · simp [events, made]

theorem t0_derives {s : Str} {x : Trigger} (h : TriggerText s x) :
    ∃ (wh : Str) (evs : List Event) (n : Nat), DerivesS t0 s (events x wh evs n) ∧
      x = made x wh evs n := by
  obtain ⟨sp, create, w1, c, trigger_, w2, w3, wh, w4, ev1, more, w5, on, w6, df, fr, w7, execute, w8,
    proc, w9, w10, ev, evs, hs, h_sp, h_create, h_w1, h_c, h_trigger, h_w2, h_name, h_w3,
    h_wh, h_w4, h_ev, h_evs, h_w5, h_on, h_w6, h_table, h_df, h_fr, h_w7, h_execute,
    h_w8, h_proc, h_w9, h_function, h_w10, e1, e2, e3, e4, e5, e6⟩ := h
  obtain ⟨dw, hwn⟩ := when_derives h_wh
  have h14 : DerivesS t14 (execute ++ (w8 ++ (proc ++ (w9 ++ (x.function ++ (40 :: 41 :: (w10 ++ [])))))))
      (x.function.map .push ++ [.act .setFunction]) := by
    have hp : Derives (A := TriggerAct) (.alt (kw b!"FUNCTION") (kw b!"PROCEDURE")) proc [] := by
      rcases h_proc with h | h
      · exact .altL ((derives_kw (by decide)).mpr ⟨h, rfl⟩)
      · exact .altR ((derives_kw (by decide)).mpr ⟨h, rfl⟩)
    exact cons_kw h_execute (by decide) (cons_ws h_w8 (.cons (es := []) hp (cons_ws h_w9 (cons_ident h_function
      (cons_act TriggerAct.setFunction (cons_ch 40 (cons_ch 41 (cons_sp h_w10 .nil))))))))
  have h12 : ∃ n, DerivesS t12 (df ++ fr ++ w7 ++
      (execute ++ (w8 ++ (proc ++ (w9 ++ (x.function ++ (40 :: 41 :: (w10 ++ []))))))))
      (dEvents n x.initiallyDeferred ++ (forEvents x.forEachRow ++
        (x.function.map .push ++ [.act .setFunction]))) ∧ x.deferrable = decide (0 < n) := by
    rcases h_fr with ⟨rfl, hrow⟩ | ⟨v, k, w, e, t, hv, hk, hw, he, ht, rfl⟩
    · obtain ⟨n, hn, hd⟩ := deferral_derives h_df h_w7
      refine ⟨n, ?_, hd⟩
      rw [hrow, List.append_nil]
      exact .cons hn (.cons (s := []) (es := []) (derives_for.mpr (Or.inl ⟨rfl, rfl⟩)) h14)
    · obtain ⟨n, hn, hd⟩ := deferral_derives h_df hv
      refine ⟨n, ?_, hd⟩
      have := DerivesS.cons hn (.cons (derives_for.mpr (Or.inr ⟨x.forEachRow,
        ⟨k, w, e, t, w7, hk, hw, he, ht, h_w7, rfl⟩, rfl⟩)) h14)
      simp only [List.append_assoc] at this ⊢
      exact this
  obtain ⟨n, h12, hd⟩ := h12
  refine ⟨wh, ev :: evs, n, ?_, ?_⟩
  · have h9 : DerivesS t9 _ _ := cons_ws h_w5 (cons_kw h_on (by decide) (cons_ws h_w6
      (cons_ident h_table (cons_act TriggerAct.setTable h12))))
    have h6 : DerivesS t6 _ _ := cons_ws h_w4 (.cons (derives_event.mpr ⟨_, h_ev, rfl⟩)
      (.cons (derives_moreEvents.mpr ⟨_, h_evs, rfl⟩) h9))
    have h4 : DerivesS t4 _ _ := cons_ident h_name (cons_act TriggerAct.setName (cons_ws h_w3
      (.cons dw (cons_act TriggerAct.setWhen h6))))
    have h0 : DerivesS t0 _ _ := cons_sp h_sp (cons_kw h_create (by decide) (cons_ws h_w1
      (.cons (derives_constraint.mpr ⟨_, h_c, rfl⟩) (cons_kw h_trigger (by decide) (cons_ws h_w2 h4)))))
    rw [hs]
    simpa only [events, List.flatMap_cons, List.append_assoc, List.nil_append,
      List.append_nil, List.cons_append] using h0
  · cases x
    simp only at hd hwn e1 e2 e3 e4 e5 e6
    subst hd hwn e1 e2 e3 e4 e5 e6
    rfl

end TriggerG

/-- `ParseTrigger` succeeds exactly on the CREATE TRIGGER texts, with what they describe. -/
theorem parseTrigger_ok_iff (s : Str) (x : Trigger) : parseTrigger s = .ok x ↔ TriggerText s x := by
  have hp : parseTrigger s = .ok x ↔
      ∃ m, triggerMachine.exec triggerStep triggerMachine.start 0 {} s = .ok m ∧ m.trigger = x := by
    unfold parseTrigger
    cases triggerMachine.exec triggerStep triggerMachine.start 0 {} s <;> simp
  rw [hp]
  constructor
  · rintro ⟨m, h, rfl⟩
    rw [exec_ok_iff _ _ (fun _ _ _ _ => rfl)] at h
    obtain ⟨es, ht, hd⟩ := h
    rw [TriggerG.trace_iff] at ht
    obtain ⟨y, wh, evs, n, hy, rfl, he⟩ := TriggerG.derivesS_t0 ht
    rw [TriggerG.doAll_events y, ← he] at hd
    cases hd
    exact hy
  · intro h
    obtain ⟨wh, evs, n, hd, he⟩ := TriggerG.t0_derives h
    refine ⟨⟨x, []⟩, ?_, rfl⟩
    rw [exec_ok_iff _ _ (fun _ _ _ _ => rfl)]
    refine ⟨_, (TriggerG.trace_iff _ _).mpr hd, ?_⟩
    rw [TriggerG.doAll_events x, ← he]

end Verif.Ddl
