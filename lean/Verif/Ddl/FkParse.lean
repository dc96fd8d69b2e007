import Verif.Ddl.KwLemmas
import Verif.Ddl.Parse
import Verif.Ddl.Certs.ForeignKey

/-!
# ParseForeignKey accepts exactly the FOREIGN KEY texts: lemmas
-/

namespace Verif.Ddl
open Verif Verif.Ragel

namespace FkG

/-- Events of a list of columns. -/
def listEvents (a : FkAct) (cs : List Str) : List (Ev FkAct) := cs.flatMap (fun c => c.map .push ++ [.act a])

theorem derives_more {a : FkAct} {s : Str} {es : List (Ev FkAct)} :
    Derives (more a) s es ↔ ∃ cs, MoreText s cs ∧ es = listEvents a cs := derives_moreIdents

theorem derives_match {s : Str} {es : List (Ev FkAct)} :
    Derives match_ s es ↔ (∃ m ∈ matchTypes, Kw m s) ∧ es = s.map .push := by
  unfold match_ matchTypes
  simp only [derives_alt, derives_kwP (A := FkAct) (w := b!"FULL") (by decide),
    derives_kwP (A := FkAct) (w := b!"PARTIAL") (by decide),
    derives_kwP (A := FkAct) (w := b!"SIMPLE") (by decide), List.mem_cons, List.not_mem_nil, or_false,
    exists_eq_or_imp, exists_eq_left]
  tauto

theorem matchTypes_ok : ∀ m ∈ matchTypes, m.all isUpper = true ∧ m ≠ [] := by decide

theorem derives_matchClause {s : Str} {es : List (Ev FkAct)}
    (h : Derives (opt (seqs [ws, kw b!"MATCH", ws, match_, .act .setMatch])) s es) :
    ∃ t, MatchText s (upper t) ∧ es = optEvents .setMatch t := by
  rw [derives_opt] at h
  simp only [derives_seqs_cons, derives_seqs_one, derives_ws, derives_match, derives_act,
    derives_kw (A := FkAct) (w := b!"MATCH") (by decide)] at h
  rcases h with ⟨v, _, _, _, rfl, rfl, ⟨hv, rfl⟩, k, _, _, _, rfl, rfl, ⟨hk, rfl⟩, w, _, _, _, rfl, rfl,
      ⟨hw, rfl⟩, t, _, _, _, rfl, rfl, ⟨⟨m, hm, ht⟩, rfl⟩, rfl, rfl⟩ | ⟨rfl, rfl⟩
  · have hm' := matchTypes_ok m hm
    refine ⟨t, Or.inr ⟨v, k, w, t, hv, hk, hw, ?_, ?_, by simp⟩, by simp [optEvents, kw_ne ht hm'.2]⟩
    · rw [kw_upper ht hm'.1]; exact hm
    · rw [kw_upper ht hm'.1]; exact ht
  · exact ⟨[], Or.inl ⟨rfl, rfl⟩, rfl⟩

theorem matchClause_derives {s m : Str} (h : MatchText s m) :
    ∃ t, Derives (opt (seqs [ws, kw b!"MATCH", ws, match_, .act .setMatch])) s (optEvents .setMatch t) ∧
      m = upper t := by
  simp only [derives_opt, derives_seqs_cons, derives_seqs_one, derives_ws, derives_match, derives_act,
    derives_kw (A := FkAct) (w := b!"MATCH") (by decide)]
  rcases h with ⟨rfl, rfl⟩ | ⟨v, k, w, t, hv, hk, hw, hm, ht, rfl⟩
  · exact ⟨[], Or.inr ⟨rfl, rfl⟩, rfl⟩
  · have hm' := matchTypes_ok m hm
    refine ⟨t, Or.inl ?_, (kw_upper ht hm'.1).symm⟩
    exact ⟨v, k ++ w ++ t, [], optEvents .setMatch t, by simp, rfl, ⟨hv, rfl⟩, k, w ++ t, [],
      optEvents .setMatch t, by simp, rfl, ⟨hk, rfl⟩, w, t, [], optEvents .setMatch t, rfl, rfl,
      ⟨hw, rfl⟩, t, [], t.map .push, [.act .setMatch], by simp, by simp [optEvents, kw_ne ht hm'.2],
      ⟨⟨m, hm, ht⟩, rfl⟩, rfl, rfl⟩

/-- The two-word actions. -/
def pairs : List (Str × Str) := [(b!"NO", b!"ACTION"), (b!"SET", b!"NULL"), (b!"SET", b!"DEFAULT")]
/-- The one-word actions. -/
def singles : List Str := [b!"RESTRICT", b!"CASCADE"]

theorem pairs_ok : ∀ p ∈ pairs, p.1.all isUpper = true ∧ p.1 ≠ [] ∧ p.2.all isUpper = true ∧ p.2 ≠ [] := by
  decide
theorem singles_ok : ∀ p ∈ singles, p.all isUpper = true ∧ p ≠ [] := by decide

theorem derives_pair {k1 k2 : Str} (h1 : k1.all isUpper = true) (h2 : k2.all isUpper = true) {s : Str}
    {es : List (Ev FkAct)} :
    Derives (seqs [kwP k1, wsP, kwP k2]) s es ↔
      (∃ t1 w t2, Kw k1 t1 ∧ Ws w ∧ Kw k2 t2 ∧ s = t1 ++ w ++ t2) ∧ es = s.map .push := by
  simp only [derives_seqs_cons, derives_seqs_one, derives_kwP h1, derives_kwP h2, derives_wsP]
  constructor
  · rintro ⟨t1, _, _, _, rfl, rfl, ⟨ht1, rfl⟩, w, t2, _, _, rfl, rfl, ⟨hw, rfl⟩, ht2, rfl⟩
    exact ⟨⟨t1, w, t2, ht1, hw, ht2, by simp⟩, by simp⟩
  · rintro ⟨⟨t1, w, t2, ht1, hw, ht2, rfl⟩, rfl⟩
    exact ⟨t1, w ++ t2, t1.map .push, (w ++ t2).map .push, by simp, by simp, ⟨ht1, rfl⟩, w, t2,
      w.map .push, t2.map .push, rfl, by simp, ⟨hw, rfl⟩, ht2, rfl⟩

/-- The action texts. -/
def RawAction (s : Str) : Prop :=
  (∃ k ∈ singles, Kw k s) ∨
  ∃ p ∈ pairs, ∃ t1 w t2, Kw p.1 t1 ∧ Ws w ∧ Kw p.2 t2 ∧ s = t1 ++ w ++ t2

theorem derives_onaction {s : Str} {es : List (Ev FkAct)} :
    Derives onaction s es ↔ RawAction s ∧ es = s.map .push := by
  unfold onaction RawAction
  simp only [derives_alt,
    derives_pair (k1 := b!"NO") (k2 := b!"ACTION") (by decide) (by decide),
    derives_pair (k1 := b!"SET") (k2 := b!"NULL") (by decide) (by decide),
    derives_pair (k1 := b!"SET") (k2 := b!"DEFAULT") (by decide) (by decide),
    derives_kwP (A := FkAct) (w := b!"RESTRICT") (by decide),
    derives_kwP (A := FkAct) (w := b!"CASCADE") (by decide), singles, pairs, List.mem_cons,
    List.not_mem_nil, or_false, exists_eq_or_imp, exists_eq_left]
  constructor
  · rintro (⟨h, rfl⟩ | ⟨h, rfl⟩ | ⟨h, rfl⟩ | ⟨h, rfl⟩ | ⟨h, rfl⟩)
    · exact ⟨Or.inr (Or.inl h), rfl⟩
    · exact ⟨Or.inl (Or.inl h), rfl⟩
    · exact ⟨Or.inl (Or.inr h), rfl⟩
    · exact ⟨Or.inr (Or.inr (Or.inl h)), rfl⟩
    · exact ⟨Or.inr (Or.inr (Or.inr h)), rfl⟩
  · rintro ⟨(h | h) | h | h | h, rfl⟩
    · exact Or.inr (Or.inl ⟨h, rfl⟩)
    · exact Or.inr (Or.inr (Or.inl ⟨h, rfl⟩))
    · exact Or.inl ⟨h, rfl⟩
    · exact Or.inr (Or.inr (Or.inr (Or.inl ⟨h, rfl⟩)))
    · exact Or.inr (Or.inr (Or.inr (Or.inr ⟨h, rfl⟩)))

/-- What is stored for an action. -/
def normAction (t : Str) : Str := collapseWhitespace (upper (trim t))

theorem actionText_iff {s a : Str} : ActionText s a ↔ RawAction s ∧ a = normAction s := by
  unfold ActionText RawAction normAction
  constructor
  · rintro (⟨ha, hk⟩ | ⟨k1, k2, t1, t2, w, v, hp, h1, hw, h2, hc, rfl, rfl⟩)
    · have ho := singles_ok a ha
      exact ⟨Or.inl ⟨a, ha, hk⟩, (norm_one ho.1 ho.2 hk).symm⟩
    · have ho := pairs_ok (k1, k2) hp
      refine ⟨Or.inr ⟨(k1, k2), hp, t1, w, t2, h1, hw, h2, rfl⟩, ?_⟩
      rw [norm_two ho.1 ho.2.2.1 ho.2.1 ho.2.2.2 h1 hw.2 h2, collapsed_iff.mp hc]
  · rintro ⟨⟨k, hk, h⟩ | ⟨p, hp, t1, w, t2, h1, hw, h2, rfl⟩, rfl⟩
    · have ho := singles_ok k hk
      left
      rw [norm_one ho.1 ho.2 h]
      exact ⟨hk, h⟩
    · have ho := pairs_ok p hp
      right
      exact ⟨p.1, p.2, t1, t2, w, collapseWhitespace w, hp, h1, hw, h2, collapsed_collapse w, rfl,
        norm_two ho.1 ho.2.2.1 ho.2.1 ho.2.2.2 h1 hw.2 h2⟩

theorem rawAction_ne {s : Str} (h : RawAction s) : s ≠ [] := by
  rcases h with ⟨k, hk, h⟩ | ⟨p, hp, t1, w, t2, h1, hw, h2, rfl⟩
  · exact kw_ne h (singles_ok k hk).2
  · have := kw_ne h1 (pairs_ok p hp).2.1
    simp [this]

theorem derives_onClause {ev : Str} (hev : ev.all isUpper = true) {a : FkAct} {s : Str}
    {es : List (Ev FkAct)}
    (h : Derives (opt (seqs [ws, kw b!"ON", ws, kw ev, ws, onaction, .act a])) s es) :
    ∃ t, OnText ev s (normAction t) ∧ es = optEvents a t := by
  rw [derives_opt] at h
  simp only [derives_seqs_cons, derives_seqs_one, derives_ws, derives_onaction, derives_act,
    derives_kw (A := FkAct) (w := b!"ON") (by decide), derives_kw (A := FkAct) hev] at h
  rcases h with ⟨v, _, _, _, rfl, rfl, ⟨hv, rfl⟩, k, _, _, _, rfl, rfl, ⟨hk, rfl⟩, w, _, _, _, rfl, rfl,
      ⟨hw, rfl⟩, e, _, _, _, rfl, rfl, ⟨he, rfl⟩, x, _, _, _, rfl, rfl, ⟨hx, rfl⟩, t, _, _, _, rfl, rfl,
      ⟨ht, rfl⟩, rfl, rfl⟩ | ⟨rfl, rfl⟩
  · exact ⟨t, Or.inr ⟨v, k, w, e, x, t, hv, hk, hw, he, hx, actionText_iff.mpr ⟨ht, rfl⟩, by simp⟩,
      by simp [optEvents, rawAction_ne ht]⟩
  · exact ⟨[], Or.inl ⟨rfl, rfl⟩, rfl⟩

theorem onClause_derives {ev : Str} (hev : ev.all isUpper = true) (a : FkAct) {s x : Str}
    (h : OnText ev s x) :
    ∃ t, Derives (opt (seqs [ws, kw b!"ON", ws, kw ev, ws, onaction, .act a])) s (optEvents a t) ∧
      x = normAction t := by
  simp only [derives_opt, derives_seqs_cons, derives_seqs_one, derives_ws, derives_onaction, derives_act,
    derives_kw (A := FkAct) (w := b!"ON") (by decide), derives_kw (A := FkAct) hev]
  rcases h with ⟨rfl, rfl⟩ | ⟨v, k, w, e, y, t, hv, hk, hw, he, hx, ht, rfl⟩
  · exact ⟨[], Or.inr ⟨rfl, rfl⟩, rfl⟩
  · obtain ⟨hr, rfl⟩ := actionText_iff.mp ht
    refine ⟨t, Or.inl ?_, rfl⟩
    exact ⟨v, k ++ w ++ e ++ y ++ t, [], optEvents a t, by simp, rfl, ⟨hv, rfl⟩, k, w ++ e ++ y ++ t, [],
      optEvents a t, by simp, rfl, ⟨hk, rfl⟩, w, e ++ y ++ t, [], optEvents a t, by simp, rfl,
      ⟨hw, rfl⟩, e, y ++ t, [], optEvents a t, by simp, rfl, ⟨he, rfl⟩, y, t, [], optEvents a t, rfl, rfl,
      ⟨hx, rfl⟩, t, [], t.map .push, [.act a], by simp, by simp [optEvents, rawAction_ne hr],
      ⟨hr, rfl⟩, rfl, rfl⟩

theorem derives_init {s : Str} {es : List (Ev FkAct)} :
    Derives initially s es ↔
      ∃ d, InitiallyText s d ∧ es = if d then [.act .matchInitiallyDeferred] else [] :=
  derives_initially

theorem derives_deferral {s : Str} {es : List (Ev FkAct)} (h : Derives deferral s es) :
    ∃ df tl n i, s = df ++ tl ∧ DeferText df (decide (0 < n)) i ∧ Spaces tl ∧
      es = deferEvents .matchDeferrable .matchInitiallyDeferred n i := by
  unfold deferral at h
  simp only [derives_alt] at h
  rcases h with h | h | h | h
  · obtain ⟨hs, rfl⟩ := derives_sp.mp h
    exact ⟨[], s, 0, false, rfl, Or.inl ⟨rfl, rfl, rfl⟩, hs, rfl⟩
  · simp only [derives_seqs_cons, derives_seqs_one, derives_ws, derives_sp,
      derives_kw (A := FkAct) (w := b!"NOT") (by decide),
      derives_kw (A := FkAct) (w := b!"DEFERRABLE") (by decide)] at h
    obtain ⟨v, _, _, _, rfl, rfl, ⟨hv, rfl⟩, k, _, _, _, rfl, rfl, ⟨hk, rfl⟩, w, _, _, _, rfl, rfl,
      ⟨hw, rfl⟩, d, tl, _, _, rfl, rfl, ⟨hd, rfl⟩, htl, rfl⟩ := h
    exact ⟨v ++ k ++ w ++ d, tl, 0, false, by simp,
      Or.inr (Or.inl ⟨v, k, w, d, hv, hk, hw, hd, rfl, rfl, rfl⟩), htl, rfl⟩
  · simp only [derives_seqs_cons, derives_seqs_one, derives_ws, derives_sp, derives_opt, derives_init,
      spF, derives_spA, derives_spAs,
      derives_kw (A := FkAct) (w := b!"DEFERRABLE") (by decide)] at h
    obtain ⟨v, _, _, _, rfl, rfl, ⟨hv, rfl⟩, k, _, _, _, rfl, rfl, ⟨hk, rfl⟩, _, _, _, _, rfl, rfl,
      ⟨b, hb, rfl, rfl⟩, r, _, _, _, rfl, rfl, ⟨hr, rfl⟩, h⟩ := h
    rcases h with ⟨i, tl, _, _, rfl, rfl, ⟨d, hi, rfl⟩, htl, rfl⟩ | ⟨rfl, rfl⟩
    · refine ⟨v ++ (k ++ ([b] ++ r)) ++ i, tl, r.length + 1, d, by simp,
        Or.inr (Or.inr ⟨v, k ++ ([b] ++ r), i, hv, Or.inr ⟨k, [b] ++ r, hk,
          ws_append (ws_one hb) hr, rfl, by simp⟩, Or.inr hi, rfl⟩), htl, ?_⟩
      simp [deferEvents, List.replicate_succ]
    · refine ⟨v ++ (k ++ ([b] ++ r)) ++ [], [], r.length + 1, false, by simp,
        Or.inr (Or.inr ⟨v, k ++ ([b] ++ r), [], hv, Or.inr ⟨k, [b] ++ r, hk,
          ws_append (ws_one hb) hr, rfl, by simp⟩, Or.inl ⟨rfl, rfl⟩, rfl⟩), by simp [Spaces], ?_⟩
      simp [deferEvents, List.replicate_succ]
  · simp only [derives_seqs_cons, derives_seqs_one, derives_ws, derives_sp, derives_init] at h
    obtain ⟨v, _, _, _, rfl, rfl, ⟨hv, rfl⟩, i, tl, _, _, rfl, rfl, ⟨d, hi, rfl⟩, htl, rfl⟩ := h
    exact ⟨v ++ [] ++ i, tl, 0, d, by simp, Or.inr (Or.inr ⟨v, [], i, hv, Or.inl ⟨rfl, rfl⟩, Or.inr hi,
      rfl⟩), htl, by simp [deferEvents]⟩

theorem deferral_derives {df tl : Str} {d i : Bool} (h : DeferText df d i) (htl : Spaces tl) :
    ∃ n, Derives deferral (df ++ tl) (deferEvents .matchDeferrable .matchInitiallyDeferred n i) ∧
      d = decide (0 < n) := by
  unfold deferral
  simp only [derives_alt]
  rcases h with ⟨rfl, rfl, rfl⟩ | ⟨v, k, w, t, hv, hk, hw, ht, rfl, rfl, rfl⟩ |
    ⟨v, p, j, hv, hp, hj, rfl⟩
  · exact ⟨0, Or.inl (derives_sp.mpr ⟨htl, rfl⟩), rfl⟩
  · refine ⟨0, Or.inr (Or.inl ?_), rfl⟩
    simp only [derives_seqs_cons, derives_seqs_one, derives_ws, derives_sp,
      derives_kw (A := FkAct) (w := b!"NOT") (by decide),
      derives_kw (A := FkAct) (w := b!"DEFERRABLE") (by decide)]
    exact ⟨v, k ++ (w ++ (t ++ tl)), [], [], by simp, rfl, ⟨hv, rfl⟩, k, w ++ (t ++ tl), [], [], rfl,
      rfl, ⟨hk, rfl⟩, w, t ++ tl, [], [], rfl, rfl, ⟨hw, rfl⟩, t, tl, [], [], rfl, rfl, ⟨ht, rfl⟩, htl,
      rfl⟩
  · rcases hp with ⟨rfl, rfl⟩ | ⟨k, w, hk, hw, rfl, rfl⟩
    · rcases hj with ⟨rfl, rfl⟩ | hj
      · refine ⟨0, Or.inl (derives_sp.mpr ⟨?_, rfl⟩), rfl⟩
        rw [List.append_nil, List.append_nil]
        exact spaces_append.mpr ⟨hv.2, htl⟩
      · refine ⟨0, Or.inr (Or.inr (Or.inr ?_)), rfl⟩
        simp only [derives_seqs_cons, derives_seqs_one, derives_ws, derives_sp, derives_init]
        exact ⟨v, j ++ tl, [], deferEvents .matchDeferrable .matchInitiallyDeferred 0 i, by simp, rfl,
          ⟨hv, rfl⟩, j, tl, deferEvents .matchDeferrable .matchInitiallyDeferred 0 i, [], rfl, by simp,
          ⟨i, hj, by simp [deferEvents]⟩, htl, rfl⟩
    · obtain ⟨b, r, rfl, hb, hr⟩ := ws_iff.mpr hw
      rcases hj with ⟨rfl, rfl⟩ | hj
      · refine ⟨(r ++ tl).length + 1, Or.inr (Or.inr (Or.inl ?_)), by simp⟩
        simp only [derives_seqs_cons, derives_seqs_one, derives_ws, derives_sp, derives_opt, derives_init,
          spF, derives_spA, derives_spAs,
          derives_kw (A := FkAct) (w := b!"DEFERRABLE") (by decide)]
        exact ⟨v, k ++ ([b] ++ (r ++ tl)), [], deferEvents .matchDeferrable .matchInitiallyDeferred ((r ++ tl).length + 1) false,
          by simp, rfl, ⟨hv, rfl⟩, k, [b] ++ (r ++ tl), [],
          deferEvents .matchDeferrable .matchInitiallyDeferred ((r ++ tl).length + 1) false, rfl, rfl, ⟨hk, rfl⟩, [b], r ++ tl,
          [.act .matchDeferrable], List.replicate (r ++ tl).length (.act .matchDeferrable), rfl,
          by simp [deferEvents, List.replicate_succ], ⟨b, hb, rfl, rfl⟩, r ++ tl, [],
          List.replicate (r ++ tl).length (.act .matchDeferrable), [], by simp, by simp,
          ⟨spaces_append.mpr ⟨hr, htl⟩, rfl⟩, Or.inr ⟨rfl, rfl⟩⟩
      · refine ⟨r.length + 1, Or.inr (Or.inr (Or.inl ?_)), by simp⟩
        simp only [derives_seqs_cons, derives_seqs_one, derives_ws, derives_sp, derives_opt, derives_init,
          spF, derives_spA, derives_spAs,
          derives_kw (A := FkAct) (w := b!"DEFERRABLE") (by decide)]
        exact ⟨v, k ++ ([b] ++ (r ++ (j ++ tl))), [],
          deferEvents .matchDeferrable .matchInitiallyDeferred (r.length + 1) i,
          by simp, rfl, ⟨hv, rfl⟩, k, [b] ++ (r ++ (j ++ tl)), [],
          deferEvents .matchDeferrable .matchInitiallyDeferred (r.length + 1) i, rfl, rfl, ⟨hk, rfl⟩, [b],
          r ++ (j ++ tl), [.act .matchDeferrable],
          deferEvents .matchDeferrable .matchInitiallyDeferred r.length i, rfl,
          by simp [deferEvents, List.replicate_succ], ⟨b, hb, rfl, rfl⟩, r, j ++ tl,
          List.replicate r.length (.act .matchDeferrable),
          if i then [.act .matchInitiallyDeferred] else [], rfl, rfl, ⟨hr, rfl⟩,
          Or.inl ⟨j, tl, _, [], rfl, by rw [List.append_nil], ⟨i, hj, rfl⟩, htl, rfl⟩⟩

/-- The events of a whole clause. -/
def events (x : ForeignKey) (m od ou : Str) (n : Nat) : List (Ev FkAct) :=
  listEvents .addColumn x.columns ++ (x.table.map .push ++ (.act .setTable ::
    (listEvents .addReferenced x.referenced ++ (optEvents .setMatch m ++ (optEvents .setOnDelete od ++
      (optEvents .setOnUpdate ou ++
        deferEvents .matchDeferrable .matchInitiallyDeferred n x.initiallyDeferred))))))

theorem doAll_pushes (x : ForeignKey) (b s : Str) (es : List (Ev FkAct)) :
    doAll fkStep 0 ⟨x, b⟩ (s.map .push ++ es) = doAll fkStep 0 ⟨x, b ++ s⟩ es := by
  induction s generalizing b with
  | nil => simp
  | cons c s ih =>
    simp only [List.map_cons, List.cons_append, doAll, fkStep]
    rw [ih]
    simp

theorem doAll_columns (x : ForeignKey) (cs : List Str) (es : List (Ev FkAct)) :
    doAll fkStep 0 ⟨x, []⟩ (listEvents .addColumn cs ++ es) =
      doAll fkStep 0 ⟨{ x with columns := x.columns ++ cs }, []⟩ es := by
  unfold listEvents
  induction cs generalizing x with
  | nil => simp
  | cons c cs ih =>
    rw [List.flatMap_cons, List.append_assoc, List.append_assoc, doAll_pushes]
    simp only [List.cons_append, List.nil_append, doAll, fkStep]
    rw [ih]
    simp

theorem doAll_referenced (x : ForeignKey) (cs : List Str) (es : List (Ev FkAct)) :
    doAll fkStep 0 ⟨x, []⟩ (listEvents .addReferenced cs ++ es) =
      doAll fkStep 0 ⟨{ x with referenced := x.referenced ++ cs }, []⟩ es := by
  unfold listEvents
  induction cs generalizing x with
  | nil => simp
  | cons c cs ih =>
    rw [List.flatMap_cons, List.append_assoc, List.append_assoc, doAll_pushes]
    simp only [List.cons_append, List.nil_append, doAll, fkStep]
    rw [ih]
    simp

theorem doAll_opt (x : ForeignKey) (a : FkAct) (t : Str) (es : List (Ev FkAct)) (y : ForeignKey)
    (h0 : t = [] → y = x) (h1 : fkStep 0 ⟨x, t⟩ (.act a) = some ⟨y, []⟩) :
    doAll fkStep 0 ⟨x, []⟩ (optEvents a t ++ es) = doAll fkStep 0 ⟨y, []⟩ es := by
  unfold optEvents
  by_cases ht : t = []
  · rw [if_pos ht, h0 ht]; rfl
  · rw [if_neg ht, List.append_assoc, doAll_pushes]
    simp only [List.nil_append, List.cons_append, doAll, h1]

theorem doAll_defer (x : ForeignKey) (hx : x.deferrable = false) (hi : x.initiallyDeferred = false)
    (n : Nat) (i : Bool) :
    doAll fkStep 0 ⟨x, []⟩ (deferEvents .matchDeferrable .matchInitiallyDeferred n i) =
      some ⟨{ x with deferrable := decide (0 < n), initiallyDeferred := i }, []⟩ := by
  have hfin : ∀ y : ForeignKey, y.initiallyDeferred = false →
      doAll fkStep 0 ⟨y, []⟩ (if i then [.act .matchInitiallyDeferred] else []) =
      some ⟨{ y with initiallyDeferred := i }, []⟩ := by
    intro y hy
    cases i
    · cases y
      simp only at hy
      subst hy
      rfl
    · rfl
  have hrep : ∀ n (y : ForeignKey) es, y.deferrable = true →
      doAll fkStep 0 ⟨y, []⟩ (List.replicate n (.act .matchDeferrable) ++ es) =
      doAll fkStep 0 ⟨y, []⟩ es := by
    intro n
    induction n with
    | zero => intro y es _; rfl
    | succ n ih =>
      intro y es hy
      rw [List.replicate_succ]
      simp only [List.cons_append, doAll, fkStep]
      have : { y with deferrable := true } = y := by
        cases y; simp only at hy; subst hy; rfl
      rw [this]
      exact ih y es hy
  unfold deferEvents
  cases n with
  | zero =>
    rw [show List.replicate 0 (Ev.act FkAct.matchDeferrable) = [] from rfl, List.nil_append,
      hfin x hi]
    cases x
    simp only at hx hi
    subst hx hi
    rfl
  | succ n =>
    rw [List.replicate_succ]
    simp only [List.cons_append, doAll, fkStep]
    rw [hrep n _ _ rfl, hfin { x with deferrable := true } hi]
    simp

theorem doAll_events (x : ForeignKey) (m od ou : Str) (n : Nat) :
    doAll fkStep 0 {} (events x m od ou n) =
      some ⟨{ columns := x.columns, table := x.table, referenced := x.referenced, match_ := upper m,
              onDelete := normAction od, onUpdate := normAction ou, deferrable := decide (0 < n),
              initiallyDeferred := x.initiallyDeferred }, []⟩ := by
  unfold events
  rw [doAll_columns, doAll_pushes]
  simp only [List.nil_append, doAll, fkStep]
  rw [doAll_referenced,
    doAll_opt _ .setMatch m _ { columns := x.columns, table := x.table, referenced := x.referenced, match_ := upper m }
      (by rintro rfl; rfl) rfl,
    doAll_opt _ .setOnDelete od _ { columns := x.columns, table := x.table, referenced := x.referenced, match_ := upper m, onDelete := normAction od }
      (by rintro rfl; rfl) rfl,
    doAll_opt _ .setOnUpdate ou _ { columns := x.columns, table := x.table, referenced := x.referenced, match_ := upper m, onDelete := normAction od, onUpdate := normAction ou }
      (by rintro rfl; rfl) rfl,
    doAll_defer _ rfl rfl]

theorem derivesS_t0 {s : Str} {es : List (Ev FkAct)} (h : DerivesS t0 s es) :
    ∃ (x : ForeignKey) (m od ou : Str) (n : Nat), ForeignKeyText s x ∧ es = events x m od ou n ∧
      x = { columns := x.columns, table := x.table, referenced := x.referenced, match_ := upper m,
            onDelete := normAction od, onUpdate := normAction ou, deferrable := decide (0 < n),
            initiallyDeferred := x.initiallyDeferred } := by
  obtain ⟨sp, _, _, _, rfl, rfl, d1, g1⟩ := derivesS_cons.mp h
  obtain ⟨h_sp, rfl⟩ := derives_sp.mp d1
  obtain ⟨foreign_, _, _, _, rfl, rfl, d2, g2⟩ := derivesS_cons.mp g1
  obtain ⟨h_foreign, rfl⟩ := (derives_kw (by decide)).mp d2
  obtain ⟨w1, _, _, _, rfl, rfl, d3, g3⟩ := derivesS_cons.mp g2
  obtain ⟨h_w1, rfl⟩ := derives_ws.mp d3
  obtain ⟨key, _, _, _, rfl, rfl, d4, g4⟩ := derivesS_cons.mp g3
  obtain ⟨h_key, rfl⟩ := (derives_kw (by decide)).mp d4
  obtain ⟨w2, _, _, _, rfl, rfl, d5, g5⟩ := derivesS_cons.mp g4
  obtain ⟨h_w2, rfl⟩ := derives_ws.mp d5
  obtain ⟨_, _, _, _, rfl, rfl, d6, g6⟩ := derivesS_cons.mp g5
  obtain ⟨rfl, rfl⟩ := derives_ch.mp d6
  obtain ⟨a1, _, _, _, rfl, rfl, d7, g7⟩ := derivesS_cons.mp g6
  obtain ⟨h_a1, rfl⟩ := derives_sp.mp d7
  obtain ⟨c1, _, _, _, rfl, rfl, d8, g8⟩ := derivesS_cons.mp g7
  obtain ⟨h_c1, rfl⟩ := derives_ident.mp d8
  obtain ⟨_, _, _, _, rfl, rfl, d9, g9⟩ := derivesS_cons.mp g8
  obtain ⟨rfl, rfl⟩ := derives_act.mp d9
  obtain ⟨m1, _, _, _, rfl, rfl, d10, g10⟩ := derivesS_cons.mp g9
  obtain ⟨cs, h_m1, rfl⟩ := derives_more.mp d10
  obtain ⟨b1, _, _, _, rfl, rfl, d11, g11⟩ := derivesS_cons.mp g10
  obtain ⟨h_b1, rfl⟩ := derives_sp.mp d11
  obtain ⟨_, _, _, _, rfl, rfl, d12, g12⟩ := derivesS_cons.mp g11
  obtain ⟨rfl, rfl⟩ := derives_ch.mp d12
  obtain ⟨w3, _, _, _, rfl, rfl, d13, g13⟩ := derivesS_cons.mp g12
  obtain ⟨h_w3, rfl⟩ := derives_ws.mp d13
  obtain ⟨references, _, _, _, rfl, rfl, d14, g14⟩ := derivesS_cons.mp g13
  obtain ⟨h_references, rfl⟩ := (derives_kw (by decide)).mp d14
  obtain ⟨w4, _, _, _, rfl, rfl, d15, g15⟩ := derivesS_cons.mp g14
  obtain ⟨h_w4, rfl⟩ := derives_ws.mp d15
  obtain ⟨table, _, _, _, rfl, rfl, d16, g16⟩ := derivesS_cons.mp g15
  obtain ⟨h_table, rfl⟩ := derives_ident.mp d16
  obtain ⟨_, _, _, _, rfl, rfl, d17, g17⟩ := derivesS_cons.mp g16
  obtain ⟨rfl, rfl⟩ := derives_act.mp d17
  obtain ⟨_, _, _, _, rfl, rfl, d18, g18⟩ := derivesS_cons.mp g17
  obtain ⟨rfl, rfl⟩ := derives_ch.mp d18
  obtain ⟨a2, _, _, _, rfl, rfl, d19, g19⟩ := derivesS_cons.mp g18
  obtain ⟨h_a2, rfl⟩ := derives_sp.mp d19
  obtain ⟨c2, _, _, _, rfl, rfl, d20, g20⟩ := derivesS_cons.mp g19
  obtain ⟨h_c2, rfl⟩ := derives_ident.mp d20
  obtain ⟨_, _, _, _, rfl, rfl, d21, g21⟩ := derivesS_cons.mp g20
  obtain ⟨rfl, rfl⟩ := derives_act.mp d21
  obtain ⟨m2, _, _, _, rfl, rfl, d22, g22⟩ := derivesS_cons.mp g21
  obtain ⟨rs, h_m2, rfl⟩ := derives_more.mp d22
  obtain ⟨b2, _, _, _, rfl, rfl, d23, g23⟩ := derivesS_cons.mp g22
  obtain ⟨h_b2, rfl⟩ := derives_sp.mp d23
  obtain ⟨_, _, _, _, rfl, rfl, d24, g24⟩ := derivesS_cons.mp g23
  obtain ⟨rfl, rfl⟩ := derives_ch.mp d24
  obtain ⟨ms, _, _, _, rfl, rfl, d25, g25⟩ := derivesS_cons.mp g24
  obtain ⟨m, h_ms, rfl⟩ := derives_matchClause d25
  obtain ⟨ods, _, _, _, rfl, rfl, d26, g26⟩ := derivesS_cons.mp g25
  obtain ⟨od, h_od, rfl⟩ := derives_onClause (by decide) d26
  obtain ⟨ous, _, _, _, rfl, rfl, d27, g27⟩ := derivesS_cons.mp g26
  obtain ⟨ou, h_ou, rfl⟩ := derives_onClause (by decide) d27
  obtain ⟨fin, _, _, _, rfl, rfl, d28, g28⟩ := derivesS_cons.mp g27
  obtain ⟨rfl, rfl⟩ := derivesS_nil.mp g28
  obtain ⟨df, tl, n, i, rfl, h_df, h_tl, rfl⟩ := derives_deferral d28
  refine ⟨ForeignKey.mk [] table (c1 :: cs) (c2 :: rs) (upper m) (normAction od) (normAction ou)
    (decide (0 < n)) i, m, od, ou, n, ?_, ?_, rfl⟩
  · exact ⟨sp, foreign_, w1, key, w2, b!"(" ++ a1 ++ c1 ++ m1 ++ b1 ++ b!")", w3, references, w4,
      b!"(" ++ a2 ++ c2 ++ m2 ++ b2 ++ b!")", ms, ods, ous, df, tl, by simp, h_sp, h_foreign, h_w1, h_key,
      h_w2, ⟨a1, c1, m1, b1, cs, h_a1, h_c1, h_m1, h_b1, rfl, rfl⟩, h_w3, h_references, h_w4, h_table,
      ⟨a2, c2, m2, b2, rs, h_a2, h_c2, h_m2, h_b2, rfl, rfl⟩, h_ms, h_od, h_ou, h_df, h_tl, rfl⟩
  · simp [events, listEvents]

theorem t0_derives {s : Str} {x : ForeignKey} (h : ForeignKeyText s x) :
    ∃ (m od ou : Str) (n : Nat), DerivesS t0 s (events x m od ou n) ∧
      x = { columns := x.columns, table := x.table, referenced := x.referenced, match_ := upper m,
            onDelete := normAction od, onUpdate := normAction ou, deferrable := decide (0 < n),
            initiallyDeferred := x.initiallyDeferred } := by
  obtain ⟨sp, foreign_, w1, key, w2, cols, w3, references, w4, refs, ms, ods, ous, df, tl, hs, h_sp,
    h_foreign, h_w1, h_key, h_w2, ⟨a1, c1, m1, b1, cs, h_a1, h_c1, h_m1, h_b1, hcols, hcs⟩, h_w3,
    h_references, h_w4, h_table, ⟨a2, c2, m2, b2, rs, h_a2, h_c2, h_m2, h_b2, hrefs, hrs⟩, h_ms, h_od,
    h_ou, h_df, h_tl, h_name⟩ := h
  obtain ⟨m, dm, hm⟩ := matchClause_derives h_ms
  obtain ⟨od, dd, hd⟩ := onClause_derives (by decide) .setOnDelete h_od
  obtain ⟨ou, du, hu⟩ := onClause_derives (by decide) .setOnUpdate h_ou
  obtain ⟨n, dn, hn⟩ := deferral_derives h_df h_tl
  refine ⟨m, od, ou, n, ?_, ?_⟩
  · have h19 : DerivesS t19 (df ++ tl)
        (deferEvents .matchDeferrable .matchInitiallyDeferred n x.initiallyDeferred) := by
      have := DerivesS.cons dn .nil
      rwa [List.append_nil, List.append_nil] at this
    have h16 : DerivesS t16 _ _ := .cons dm (.cons dd (.cons du h19))
    have h14 : DerivesS t14 _ _ :=
      .cons (derives_more.mpr ⟨_, h_m2, rfl⟩) (cons_sp h_b2 (cons_ch 41 h16))
    have h11 : DerivesS t11 _ _ := cons_act FkAct.setTable (cons_ch 40 (cons_sp h_a2
      (cons_ident h_c2 (cons_act FkAct.addReferenced h14))))
    have h8 : DerivesS t8 _ _ := cons_ws h_w3 (cons_kw h_references (by decide) (cons_ws h_w4
      (cons_ident h_table h11)))
    have h6 : DerivesS t6 _ _ :=
      .cons (derives_more.mpr ⟨_, h_m1, rfl⟩) (cons_sp h_b1 (cons_ch 41 h8))
    have h3 : DerivesS t3 _ _ := cons_ws h_w2 (cons_ch 40 (cons_sp h_a1
      (cons_ident h_c1 (cons_act FkAct.addColumn h6))))
    have h0 : DerivesS t0 _ _ := cons_sp h_sp (cons_kw h_foreign (by decide) (cons_ws h_w1
      (cons_kw h_key (by decide) h3)))
    rw [hs, hcols, hrefs]
    simpa only [events, hcs, hrs, listEvents, List.flatMap_cons, List.append_assoc, List.nil_append,
      List.append_nil, List.cons_append] using h0
  · cases x
    simp only at hm hd hu hn h_name
    subst hm hd hu hn h_name
    rfl

end FkG

/-- `ParseForeignKey` succeeds exactly on the FOREIGN KEY texts, with what they describe. -/
theorem parseForeignKey_ok_iff (s : Str) (x : ForeignKey) :
    parseForeignKey s = .ok x ↔ ForeignKeyText s x := by
  have hp : parseForeignKey s = .ok x ↔
      ∃ m, foreignKeyMachine.exec fkStep foreignKeyMachine.start 0 {} s = .ok m ∧ m.fk = x := by
    unfold parseForeignKey
    cases foreignKeyMachine.exec fkStep foreignKeyMachine.start 0 {} s <;> simp
  rw [hp]
  constructor
  · rintro ⟨m, h, rfl⟩
    rw [exec_ok_iff _ _ (fun _ _ _ _ => rfl)] at h
    obtain ⟨es, ht, hd⟩ := h
    rw [FkG.trace_iff] at ht
    obtain ⟨y, m, od, ou, n, hy, rfl, he⟩ := FkG.derivesS_t0 ht
    rw [FkG.doAll_events y, ← he] at hd
    cases hd
    exact hy
  · intro h
    obtain ⟨m, od, ou, n, hd, he⟩ := FkG.t0_derives h
    refine ⟨⟨x, []⟩, ?_, rfl⟩
    rw [exec_ok_iff _ _ (fun _ _ _ _ => rfl)]
    refine ⟨_, (FkG.trace_iff _ _).mpr hd, ?_⟩
    rw [FkG.doAll_events x, ← he]

end Verif.Ddl
