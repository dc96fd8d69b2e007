import Verif.Ddl.FkParse
import Verif.Ddl.Certs.Check
import Verif.Ddl.Certs.CheckDeferrable
import Verif.Ddl.Certs.CheckDeferred

/-!
# ParseCheck: lemmas
-/

namespace Verif.Ddl
open Verif Verif.Ragel

/-! ## Deferrability clauses are unambiguous -/

/-- A deferrability clause with trailing spaces can be read in one way only: two readings would give
two results of `ParseForeignKey` for one text. -/
theorem defer_unique {df tl df' tl' : Str} {d i d' i' : Bool} (h : df ++ tl = df' ++ tl')
    (h1 : DeferText df d i) (h2 : Spaces tl) (h3 : DeferText df' d' i') (h4 : Spaces tl') :
    d = d' ∧ i = i' := by
  have key : ∀ (df tl : Str) (d i : Bool), DeferText df d i → Spaces tl →
      parseForeignKey (b!"FOREIGN KEY (a) REFERENCES b(c)" ++ (df ++ tl)) =
        .ok { table := b!"b", columns := [b!"a"], referenced := [b!"c"], deferrable := d, initiallyDeferred := i } := by
    intro df tl d i hd ht
    rw [parseForeignKey_ok_iff]
    have hid : ∀ c : UInt8, Alpha c → Ident [c] := fun c hc => ⟨c, [], rfl, hc, by simp⟩
    have hw : Ws b!" " := ws_one (by decide)
    have hs : Spaces [] := by simp [Spaces]
    refine ⟨[], b!"FOREIGN", b!" ", b!"KEY", b!" ", b!"(a)", b!" ", b!"REFERENCES", b!" ", b!"(c)", [], [], [],
      df, tl, by simp, hs, kw_refl _, hw, kw_refl _, hw,
      ⟨[], b!"a", [], [], [], hs, hid _ (by decide), .nil, hs, rfl, rfl⟩, hw, kw_refl _, hw,
      hid _ (by decide), ⟨[], b!"c", [], [], [], hs, hid _ (by decide), .nil, hs, rfl, rfl⟩,
      Or.inl ⟨rfl, rfl⟩, Or.inl ⟨rfl, rfl⟩, Or.inl ⟨rfl, rfl⟩, hd, ht, rfl⟩
  have e1 := key df tl d i h1 h2
  have e2 := key df' tl' d' i' h3 h4
  rw [h, e2] at e1
  simp only [Outcome.ok.injEq, ForeignKey.mk.injEq] at e1
  exact ⟨e1.2.2.2.2.2.2.2.1.symm, e1.2.2.2.2.2.2.2.2.symm⟩

/-! ## The marks -/

theorem check_closed : checkMachine.closed = true := by decide +kernel

/-- The transitions before the opening parenthesis: no operations; 40 leads to 7, nothing else does. -/
def lowOk (q : Nat) (b : UInt8) : Bool :=
  match checkMachine.next q b with
  | none => true
  | some r => decide (r.ops = [] ∧ ((b = 40 ∧ r.target = 7) ∨ (b ≠ 40 ∧ 0 < r.target ∧ r.target < 7)))

/-- The transitions of the state after the opening parenthesis. -/
def sevenOk (b : UInt8) : Bool :=
  match checkMachine.next 7 b with
  | none => false
  | some r => decide (8 ≤ r.target ∧ r.target < 60 ∧
      r.ops = if b = 41 then [.act .setMark1, .act .setMark2] else [.act .setMark1])

/-- The transitions of the other states. -/
def highOk (q : Nat) (b : UInt8) : Bool :=
  match checkMachine.next q b with
  | none => true
  | some r => decide (8 ≤ r.target ∧ r.target < 60 ∧ .act .setMark1 ∉ r.ops ∧
      (if b = 41 then .act .setMark2 ∈ r.ops else .act .setMark2 ∉ r.ops))

theorem next_low : ∀ q < 7, 0 < q → ∀ b : UInt8, lowOk q b = true := by decide +kernel

theorem next_seven : ∀ b : UInt8, sevenOk b = true := by decide +kernel

theorem next_high : ∀ q < 60, 8 ≤ q → ∀ b : UInt8, highOk q b = true := by decide +kernel

theorem check_do (p : Nat) (m : CheckVars) (es : List (Ev CheckAct)) :
    doAll checkStep p m es = some
      { check := { m.check with
          deferrable := m.check.deferrable || decide (Ev.act CheckAct.matchDeferrable ∈ es)
          initiallyDeferred := m.check.initiallyDeferred ||
            decide (Ev.act CheckAct.matchInitiallyDeferred ∈ es) }
        mark1 := if .act .setMark1 ∈ es then p else m.mark1
        mark2 := if .act .setMark2 ∈ es then p else m.mark2 } := by
  induction es generalizing m with
  | nil => simp [doAll]
  | cons e es ih =>
    cases e with
    | push b => simp [doAll, checkStep, ih]
    | act a => cases a <;> simp [doAll, checkStep, ih]

theorem check_eof (q : Nat) : checkMachine.eofActs q = [] := closed_eof check_closed q

theorem on_mem {a : CheckAct} {b : UInt8} {ops : List (Op CheckAct)} :
    Ev.act a ∈ ops.map (Op.on b) ↔ Op.act a ∈ ops := by
  constructor
  · intro h
    obtain ⟨o, ho, he⟩ := List.mem_map.mp h
    cases o with
    | push => cases he
    | act a' => cases he; exact ho
  · intro h
    exact List.mem_map.mpr ⟨_, h, rfl⟩

/-- The run fails or succeeds as the trace does; the flags are the actions executed. -/
theorem check_exec (q p : Nat) (m : CheckVars) (s : Str) :
    (checkMachine.trace q s = none ∧ ∃ cs, checkMachine.exec checkStep q p m s = .err cs) ∨
    ∃ es m', checkMachine.trace q s = some es ∧ checkMachine.exec checkStep q p m s = .ok m' ∧
      m'.check.name = m.check.name ∧
      m'.check.deferrable = (m.check.deferrable || decide (Ev.act CheckAct.matchDeferrable ∈ es)) ∧
      m'.check.initiallyDeferred =
        (m.check.initiallyDeferred || decide (Ev.act CheckAct.matchInitiallyDeferred ∈ es)) := by
  induction s generalizing q p m with
  | nil =>
    simp only [Machine.trace, Machine.exec, check_eof, List.map_nil, doAll]
    by_cases hq : q < checkMachine.firstFinal
    · left
      simp [hq]
    · right
      refine ⟨[], m, by simp [hq], by simp [hq], rfl, by simp, by simp⟩
  | cons b s ih =>
    simp only [Machine.trace, Machine.exec]
    cases hn : checkMachine.next q b with
    | none => left; simp
    | some r =>
      simp only [check_do]
      rcases ih r.target (p + 1) _ with ⟨h1, h2⟩ | ⟨es, m', h1, h2, h3, h4, h5⟩
      · left
        refine ⟨by simp [h1], h2⟩
      · right
        refine ⟨_, m', by rw [h1]; rfl, h2, by rw [h3], ?_, ?_⟩
        · rw [h4]
          simp [List.mem_append, Bool.or_assoc]
        · rw [h5]
          simp [List.mem_append, Bool.or_assoc]

theorem marks_high (q p : Nat) (h1 : 8 ≤ q) (h2 : q < 60) (m m' : CheckVars) (s : Str)
    (h : checkMachine.exec checkStep q p m s = .ok m') :
    m'.mark1 = m.mark1 ∧
      ((41 ∉ s ∧ m'.mark2 = m.mark2) ∨ ∃ e t, s = e ++ 41 :: t ∧ 41 ∉ t ∧ m'.mark2 = p + e.length) := by
  induction s generalizing q p m with
  | nil =>
    simp only [Machine.exec, check_eof, List.map_nil, doAll] at h
    split at h
    · cases h
    · cases h
      exact ⟨rfl, Or.inl ⟨by simp, rfl⟩⟩
  | cons b s ih =>
    have hx := next_high q h2 h1 b
    simp only [Machine.exec] at h
    cases hn : checkMachine.next q b with
    | none => simp [hn] at h
    | some r =>
      simp only [highOk, hn, decide_eq_true_eq] at hx
      rw [hn] at h
      simp only [check_do] at h
      obtain ⟨hx1, hx2, hx3, hx4⟩ := hx
      obtain ⟨g1, g2⟩ := ih r.target (p + 1) hx1 hx2 _ h
      simp only [on_mem, hx3, if_false] at g1
      refine ⟨g1, ?_⟩
      rcases g2 with ⟨g2, g3⟩ | ⟨e, t, rfl, g2, g3⟩
      · by_cases hb : b = 41
        · subst hb
          rw [if_pos rfl] at hx4
          simp only [on_mem, hx4, if_true] at g3
          exact Or.inr ⟨[], s, rfl, g2, by simpa using g3⟩
        · rw [if_neg hb] at hx4
          simp only [on_mem, hx4, if_false] at g3
          exact Or.inl ⟨by simp [Ne.symm hb, g2], g3⟩
      · exact Or.inr ⟨b :: e, t, rfl, g2, by rw [g3]; simp; omega⟩

theorem marks_seven (p : Nat) (m m' : CheckVars) (s : Str)
    (h : checkMachine.exec checkStep 7 p m s = .ok m') :
    m'.mark1 = p ∧
      ((41 ∉ s ∧ m'.mark2 = m.mark2) ∨ ∃ e t, s = e ++ 41 :: t ∧ 41 ∉ t ∧ m'.mark2 = p + e.length) := by
  cases s with
  | nil =>
    have : checkMachine.exec checkStep 7 p m [] = .err 7 := by
      simp only [Machine.exec, check_eof, List.map_nil, doAll]
      rfl
    rw [this] at h
    cases h
  | cons b s =>
    have hx := next_seven b
    simp only [Machine.exec] at h
    cases hn : checkMachine.next 7 b with
    | none => simp [hn] at h
    | some r =>
      simp only [sevenOk, hn, decide_eq_true_eq] at hx
      rw [hn] at h
      simp only [check_do] at h
      obtain ⟨hx1, hx2, hx3⟩ := hx
      obtain ⟨g1, g2⟩ := marks_high r.target (p + 1) hx1 hx2 _ _ _ h
      by_cases hb : b = 41
      · subst hb
        rw [if_pos rfl] at hx3
        simp only [on_mem, hx3] at g1 g2
        refine ⟨by simpa using g1, ?_⟩
        rcases g2 with ⟨g2, g3⟩ | ⟨e, t, rfl, g2, g3⟩
        · exact Or.inr ⟨[], s, rfl, g2, by simpa using g3⟩
        · exact Or.inr ⟨41 :: e, t, rfl, g2, by rw [g3]; simp; omega⟩
      · rw [if_neg hb] at hx3
        simp only [on_mem, hx3] at g1 g2
        refine ⟨by simpa using g1, ?_⟩
        rcases g2 with ⟨g2, g3⟩ | ⟨e, t, rfl, g2, g3⟩
        · exact Or.inl ⟨by simp [Ne.symm hb, g2], by simpa using g3⟩
        · exact Or.inr ⟨b :: e, t, rfl, g2, by rw [g3]; simp; omega⟩

theorem marks_low (q p : Nat) (h1 : 0 < q) (h2 : q < 7) (m m' : CheckVars) (s : Str)
    (h : checkMachine.exec checkStep q p m s = .ok m') :
    ∃ a r, s = a ++ 40 :: r ∧ 40 ∉ a ∧ m'.mark1 = p + a.length + 1 ∧
      ((41 ∉ r ∧ m'.mark2 = m.mark2) ∨
        ∃ e t, r = e ++ 41 :: t ∧ 41 ∉ t ∧ m'.mark2 = p + a.length + 1 + e.length) := by
  induction s generalizing q p m with
  | nil =>
    simp only [Machine.exec, check_eof, List.map_nil, doAll] at h
    rw [if_pos (show q < checkMachine.firstFinal from Nat.lt_of_lt_of_le h2 (by decide))] at h
    cases h
  | cons b s ih =>
    have hx := next_low q h2 h1 b
    simp only [Machine.exec] at h
    cases hn : checkMachine.next q b with
    | none => simp [hn] at h
    | some r =>
      simp only [lowOk, hn, decide_eq_true_eq] at hx
      rw [hn] at h
      obtain ⟨hx1, hx2⟩ := hx
      simp only [hx1, List.map_nil, doAll] at h
      rcases hx2 with ⟨rfl, ht⟩ | ⟨hb, ht1, ht2⟩
      · rw [ht] at h
        obtain ⟨g1, g2⟩ := marks_seven _ _ _ _ h
        exact ⟨[], s, rfl, by simp, by simpa using g1, by simpa using g2⟩
      · obtain ⟨a, r', rfl, g1, g2, g3⟩ := ih _ _ ht1 ht2 _ h
        refine ⟨b :: a, r', rfl, by simp [g1, Ne.symm hb], by rw [g2]; simp; omega, ?_⟩
        rcases g3 with g3 | ⟨e, t, g3, g4, g5⟩
        · exact Or.inl g3
        · exact Or.inr ⟨e, t, g3, g4, by rw [g5]; simp; omega⟩

/-! ## The language -/

namespace CheckG

theorem derives_anys {s : Str} {es : List (Ev CheckAct)} : Derives anys s es ↔ es = [] := by
  unfold anys
  rw [derives_starCls, onAll_nil]
  simp [has_any]

theorem derives_initially {s : Str} {es : List (Ev CheckAct)} :
    Derives initially s es ↔ (∃ d, InitiallyText s d) ∧ es = [] := by
  unfold initially InitiallyText
  simp only [derives_seqs_cons, derives_seqs_one, derives_alt, derives_ws,
    derives_kw (A := CheckAct) (w := b!"INITIALLY") (by decide),
    derives_kw (A := CheckAct) (w := b!"IMMEDIATE") (by decide),
    derives_kw (A := CheckAct) (w := b!"DEFERRED") (by decide)]
  constructor
  · rintro ⟨k, _, _, _, rfl, rfl, ⟨hk, rfl⟩, w, t, _, _, rfl, rfl, ⟨hw, rfl⟩, (⟨ht, rfl⟩ | ⟨ht, rfl⟩)⟩
    · exact ⟨⟨false, k, w, t, hk, hw, by simpa using ht, by simp⟩, by simp⟩
    · exact ⟨⟨true, k, w, t, hk, hw, by simpa using ht, by simp⟩, by simp⟩
  · rintro ⟨⟨d, k, w, t, hk, hw, ht, rfl⟩, rfl⟩
    refine ⟨k, w ++ t, [], [], by simp, rfl, ⟨hk, rfl⟩, w, t, [], [], rfl, rfl, ⟨hw, rfl⟩, ?_⟩
    cases d
    · exact Or.inl ⟨by simpa using ht, rfl⟩
    · exact Or.inr ⟨by simpa using ht, rfl⟩

/-- A deferrability clause and trailing spaces. -/
def Fin (s : Str) : Prop := ∃ df tl d i, s = df ++ tl ∧ DeferText df d i ∧ Spaces tl

theorem derives_deferral {s : Str} {es : List (Ev CheckAct)} :
    Derives deferral s es ↔ Fin s ∧ es = [] := by
  unfold deferral Fin
  simp only [derives_alt, derives_seqs_cons, derives_seqs_one, derives_ws, derives_sp, derives_opt,
    derives_initially,
    derives_kw (A := CheckAct) (w := b!"NOT") (by decide),
    derives_kw (A := CheckAct) (w := b!"DEFERRABLE") (by decide)]
  constructor
  · rintro (⟨h, rfl⟩ | ⟨v, _, _, _, rfl, rfl, ⟨hv, rfl⟩, k, _, _, _, rfl, rfl, ⟨hk, rfl⟩, w, _, _, _, rfl,
      rfl, ⟨hw, rfl⟩, d, tl, _, _, rfl, rfl, ⟨hd, rfl⟩, htl, rfl⟩ | ⟨v, _, _, _, rfl, rfl, ⟨hv, rfl⟩, k, _,
      _, _, rfl, rfl, ⟨hk, rfl⟩, w, _, _, _, rfl, rfl, ⟨hw, rfl⟩, h⟩ | ⟨v, _, _, _, rfl, rfl, ⟨hv, rfl⟩,
      i, tl, _, _, rfl, rfl, ⟨⟨d, hi⟩, rfl⟩, htl, rfl⟩)
    · exact ⟨⟨[], s, false, false, rfl, Or.inl ⟨rfl, rfl, rfl⟩, h⟩, rfl⟩
    · exact ⟨⟨v ++ k ++ w ++ d, tl, false, false, by simp,
        Or.inr (Or.inl ⟨v, k, w, d, hv, hk, hw, hd, rfl, rfl, rfl⟩), htl⟩, rfl⟩
    · rcases h with ⟨i, tl, _, _, rfl, rfl, ⟨⟨d, hi⟩, rfl⟩, htl, rfl⟩ | ⟨rfl, rfl⟩
      · exact ⟨⟨v ++ (k ++ w) ++ i, tl, true, d, by simp, Or.inr (Or.inr ⟨v, k ++ w, i, hv,
          Or.inr ⟨k, w, hk, hw, rfl, rfl⟩, Or.inr hi, rfl⟩), htl⟩, rfl⟩
      · exact ⟨⟨v ++ (k ++ w) ++ [], [], true, false, by simp, Or.inr (Or.inr ⟨v, k ++ w, [], hv,
          Or.inr ⟨k, w, hk, hw, rfl, rfl⟩, Or.inl ⟨rfl, rfl⟩, rfl⟩), by simp [Spaces]⟩, rfl⟩
    · exact ⟨⟨v ++ [] ++ i, tl, false, d, by simp, Or.inr (Or.inr ⟨v, [], i, hv, Or.inl ⟨rfl, rfl⟩,
        Or.inr hi, rfl⟩), htl⟩, rfl⟩
  · rintro ⟨⟨df, tl, d, i, rfl, h, htl⟩, rfl⟩
    rcases h with ⟨rfl, rfl, rfl⟩ | ⟨v, k, w, t, hv, hk, hw, ht, rfl, rfl, rfl⟩ |
      ⟨v, p, j, hv, hp, hj, rfl⟩
    · exact Or.inl ⟨htl, rfl⟩
    · exact Or.inr (Or.inl ⟨v, k ++ (w ++ (t ++ tl)), [], [], by simp, rfl, ⟨hv, rfl⟩, k, w ++ (t ++ tl),
        [], [], rfl, rfl, ⟨hk, rfl⟩, w, t ++ tl, [], [], rfl, rfl, ⟨hw, rfl⟩, t, tl, [], [], rfl, rfl,
        ⟨ht, rfl⟩, htl, rfl⟩)
    · rcases hp with ⟨rfl, rfl⟩ | ⟨k, w, hk, hw, rfl, rfl⟩
      · rcases hj with ⟨rfl, rfl⟩ | hj
        · refine Or.inl ⟨?_, rfl⟩
          rw [List.append_nil, List.append_nil]
          exact spaces_append.mpr ⟨hv.2, htl⟩
        · exact Or.inr (Or.inr (Or.inr ⟨v, j ++ tl, [], [], by simp, rfl, ⟨hv, rfl⟩, j, tl, [], [], rfl,
            rfl, ⟨⟨i, hj⟩, rfl⟩, htl, rfl⟩))
      · rcases hj with ⟨rfl, rfl⟩ | hj
        · exact Or.inr (Or.inr (Or.inl ⟨v, k ++ (w ++ tl), [], [], by simp, rfl, ⟨hv, rfl⟩, k, w ++ tl,
            [], [], rfl, rfl, ⟨hk, rfl⟩, w ++ tl, [], [], [], by simp, rfl,
            ⟨ws_append hw htl, rfl⟩, Or.inr ⟨rfl, rfl⟩⟩))
        · exact Or.inr (Or.inr (Or.inl ⟨v, k ++ (w ++ (j ++ tl)), [], [], by simp, rfl, ⟨hv, rfl⟩, k,
            w ++ (j ++ tl), [], [], rfl, rfl, ⟨hk, rfl⟩, w, j ++ tl, [], [], rfl, rfl, ⟨hw, rfl⟩,
            Or.inl ⟨j, tl, [], [], rfl, rfl, ⟨⟨i, hj⟩, rfl⟩, htl, rfl⟩⟩))

/-- What comes before the parenthesis. -/
def Pre (s : Str) : Prop := ∃ sp k w, s = sp ++ k ++ w ∧ Spaces sp ∧ Kw b!"CHECK" k ∧ Spaces w

theorem derives_head {gs : List G} {s : Str} :
    DerivesS (head gs) s [] ↔ ∃ a e r, s = a ++ 40 :: (e ++ 41 :: r) ∧ Pre a ∧ DerivesS gs r [] := by
  unfold head Pre
  simp only [derivesS_cons, derives_sp, derives_ch, derives_anys,
    derives_kw (A := CheckAct) (w := b!"CHECK") (by decide)]
  constructor
  · rintro ⟨sp, _, _, e0, rfl, h0, ⟨hsp, rfl⟩, k, _, _, _, rfl, rfl, ⟨hk, rfl⟩, w, _, _, _, rfl, rfl,
      ⟨hw, rfl⟩, _, _, _, _, rfl, rfl, ⟨rfl, rfl⟩, e, _, _, _, rfl, rfl, rfl, _, r, _, _, rfl, rfl,
      ⟨rfl, rfl⟩, h⟩
    simp only [List.nil_append] at h0
    subst h0
    exact ⟨sp ++ k ++ w, e, r, by simp, ⟨sp, k, w, rfl, hsp, hk, hw⟩, h⟩
  · rintro ⟨_, e, r, rfl, ⟨sp, k, w, rfl, hsp, hk, hw⟩, h⟩
    exact ⟨sp, k ++ (w ++ ([40] ++ (e ++ ([41] ++ r)))), [], [], by simp, rfl, ⟨hsp, rfl⟩,
      k, w ++ ([40] ++ (e ++ ([41] ++ r))), [], [], rfl, rfl, ⟨hk, rfl⟩,
      w, [40] ++ (e ++ ([41] ++ r)), [], [], rfl, rfl, ⟨hw, rfl⟩,
      [40], e ++ ([41] ++ r), [], [], rfl, rfl, ⟨rfl, rfl⟩, e, [41] ++ r, [], [], rfl, rfl, rfl,
      [41], r, [], [], rfl, rfl, ⟨rfl, rfl⟩, h⟩

theorem accepts_iff (s : Str) :
    (∃ es, checkMachine.trace checkMachine.start s = some es) ↔
      ∃ a e r, s = a ++ 40 :: (e ++ 41 :: r) ∧ Pre a ∧ Fin r := by
  have h1 : (∃ es, checkMachine.trace checkMachine.start s = some es) ↔
      checkMachine.erase.trace checkMachine.erase.start s = some [] := by
    rw [erase_trace]
    have : checkMachine.erase.start = checkMachine.start := rfl
    rw [this]
    cases checkMachine.trace checkMachine.start s <;> simp
  rw [h1, Lang.trace_iff, t0, derives_head]
  have h2 : ∀ r, DerivesS [deferral] r [] ↔ Fin r := by
    intro r
    rw [derivesS_one, derives_deferral]
    simp
  simp only [h2]

theorem derives_d0 {s : Str} (h : DerivesS d0 s []) :
    ∃ a e r, s = a ++ 40 :: (e ++ 41 :: r) ∧ Pre a ∧
      ((StrayDeferrable e ∧ Fin r) ∨ ∃ df tl i, r = df ++ tl ∧ DeferText df true i ∧ Spaces tl) := by
  rw [d0, derives_head] at h
  obtain ⟨a, e, r, rfl, ha, h⟩ := h
  simp only [derivesS_cons, derives_ws, derivesS_nil,
    derives_kw (A := CheckAct) (w := b!"DEFERRABLE") (by decide)] at h
  obtain ⟨v, _, _, e0, rfl, h0, ⟨hv, rfl⟩, k, _, _, _, rfl, rfl, ⟨hk, rfl⟩, z, _, e1, _, rfl, rfl, hb,
    r0, _, _, _, rfl, rfl, h, rfl, rfl⟩ := h
  have hb' : ∃ b, Space b ∧ z = [b] ∧ e1 = [] := by
    have := derives_cls.mp hb
    simpa only [has_space, List.map_nil] using this
  clear hb
  obtain ⟨b, hb, rfl, rfl⟩ := hb'
  unfold dRest at h
  simp only [derives_alt, derives_seqs_cons, derives_seqs_one, derives_anys, derives_ch,
    derives_deferral, derives_opt, derives_initially, derives_sp] at h
  rcases h with ⟨y, _, _, _, rfl, rfl, rfl, _, f, _, _, rfl, rfl, ⟨rfl, rfl⟩, hf, rfl⟩ |
    ⟨w, _, _, _, rfl, rfl, ⟨hw, rfl⟩, h⟩
  · refine ⟨a, e ++ 41 :: (v ++ (k ++ b :: y)), f, by simp, ha, Or.inl ⟨?_, hf⟩⟩
    exact ⟨e, v, k, b, y, rfl, hv, hk, hb⟩
  · refine ⟨a, e, v ++ (k ++ ([b] ++ (w ++ _))), by simp; rfl, ha, Or.inr ?_⟩
    rcases h with ⟨i, tl, _, _, rfl, rfl, ⟨⟨d, hi⟩, rfl⟩, htl, rfl⟩ | ⟨rfl, rfl⟩
    · exact ⟨v ++ (k ++ ([b] ++ w)) ++ i, tl, d, by simp, Or.inr (Or.inr ⟨v, k ++ ([b] ++ w), i, hv,
        Or.inr ⟨k, [b] ++ w, hk, ws_append (ws_one hb) hw, rfl, rfl⟩, Or.inr hi, rfl⟩), htl⟩
    · exact ⟨v ++ (k ++ ([b] ++ w)) ++ [], [], false, by simp, Or.inr (Or.inr ⟨v, k ++ ([b] ++ w), [], hv,
        Or.inr ⟨k, [b] ++ w, hk, ws_append (ws_one hb) hw, rfl, rfl⟩, Or.inl ⟨rfl, rfl⟩, rfl⟩),
        by simp [Spaces]⟩

theorem sp1_derives {b : UInt8} (hb : Space b) : Derives (A := CheckAct) sp1 [b] [] :=
  .cls (ops := []) ((has_space b).mpr hb)

theorem d0_derives {a e r : Str} (ha : Pre a)
    (h : (StrayDeferrable e ∧ Fin r) ∨ ∃ df tl i, r = df ++ tl ∧ DeferText df true i ∧ Spaces tl) :
    DerivesS d0 (a ++ 40 :: (e ++ 41 :: r)) [] := by
  rw [d0, derives_head]
  rcases h with ⟨⟨x, v, k, b, y, rfl, hv, hk, hb⟩, hf⟩ | ⟨df, tl, i, rfl, hd, htl⟩
  · refine ⟨a, x, v ++ (k ++ ([b] ++ (y ++ 41 :: r))), by simp, ha, ?_⟩
    refine cons_ws hv (cons_kw hk (by decide) (.cons (es := []) (fs := []) (sp1_derives hb) ?_))
    rw [derivesS_one]
    unfold dRest
    simp only [derives_alt, derives_seqs_cons, derives_seqs_one, derives_anys, derives_ch,
      derives_deferral]
    exact Or.inl ⟨y, 41 :: r, [], [], rfl, rfl, rfl, [41], r, [], [], rfl, rfl, ⟨rfl, rfl⟩, hf, rfl⟩
  · rcases hd with ⟨_, hd, _⟩ | ⟨_, _, _, _, _, _, _, _, _, hd, _⟩ | ⟨v, p, j, hv, hp, hj, rfl⟩
    · cases hd
    · cases hd
    · rcases hp with ⟨_, hp⟩ | ⟨k, w, hk, hw, rfl, _⟩
      · cases hp
      · obtain ⟨b, w', rfl, hb, hw'⟩ := ws_iff.mpr hw
        refine ⟨a, e, v ++ (k ++ ([b] ++ (w' ++ (j ++ tl)))), by simp, ha, ?_⟩
        refine cons_ws hv (cons_kw hk (by decide) (.cons (es := []) (fs := []) (sp1_derives hb) ?_))
        rw [derivesS_one]
        unfold dRest
        simp only [derives_alt, derives_seqs_cons, derives_seqs_one, derives_opt, derives_initially,
          derives_sp]
        right
        rcases hj with ⟨rfl, rfl⟩ | hj
        · exact ⟨w' ++ tl, [], [], [], by simp, rfl, ⟨spaces_append.mpr ⟨hw', htl⟩, rfl⟩,
            Or.inr ⟨rfl, rfl⟩⟩
        · exact ⟨w', j ++ tl, [], [], rfl, rfl, ⟨hw', rfl⟩, Or.inl ⟨j, tl, [], [], rfl, rfl,
            ⟨⟨i, hj⟩, rfl⟩, htl, rfl⟩⟩

theorem derives_dOpt {s : Str} {es : List (Ev CheckAct)} :
    Derives (opt (seqs [kw b!"DEFERRABLE", ws])) s es ↔
      (s = [] ∨ ∃ k w, Kw b!"DEFERRABLE" k ∧ Ws w ∧ s = k ++ w) ∧ es = [] := by
  simp only [derives_opt, derives_seqs_cons, derives_seqs_one, derives_ws,
    derives_kw (A := CheckAct) (w := b!"DEFERRABLE") (by decide)]
  constructor
  · rintro (⟨k, w, _, _, rfl, rfl, ⟨hk, rfl⟩, hw, rfl⟩ | ⟨rfl, rfl⟩)
    · exact ⟨Or.inr ⟨k, w, hk, hw, rfl⟩, rfl⟩
    · exact ⟨Or.inl rfl, rfl⟩
  · rintro ⟨(rfl | ⟨k, w, hk, hw, rfl⟩), rfl⟩
    · exact Or.inr ⟨rfl, rfl⟩
    · exact Or.inl ⟨k, w, [], [], rfl, rfl, ⟨hk, rfl⟩, hw, rfl⟩

theorem derives_i0 {s : Str} (h : DerivesS i0 s []) :
    ∃ a e r, s = a ++ 40 :: (e ++ 41 :: r) ∧ Pre a ∧
      ((StrayDeferred e ∧ Fin r) ∨ ∃ df tl d, r = df ++ tl ∧ DeferText df d true ∧ Spaces tl) := by
  rw [i0, derives_head] at h
  obtain ⟨a, e, r, rfl, ha, h⟩ := h
  simp only [derivesS_cons, derives_ws, derivesS_nil, derives_dOpt,
    derives_kw (A := CheckAct) (w := b!"INITIALLY") (by decide),
    derives_kw (A := CheckAct) (w := b!"DEFERRED") (by decide)] at h
  obtain ⟨v, _, _, e0, rfl, h0, ⟨hv, rfl⟩, p, _, _, _, rfl, rfl, ⟨hp, rfl⟩, k, _, _, _, rfl, rfl,
    ⟨hk, rfl⟩, w, _, _, _, rfl, rfl, ⟨hw, rfl⟩, t, _, _, _, rfl, rfl, ⟨ht, rfl⟩,
    _, _, _, _, rfl, rfl, h, rfl, rfl⟩ := h
  unfold iRest at h
  simp only [derives_alt, derives_seqs_cons, derives_seqs_one, derives_anys, derives_ch,
    derives_deferral, derives_sp] at h
  rcases h with ⟨y, _, _, _, rfl, rfl, rfl, _, f, _, _, rfl, rfl, ⟨rfl, rfl⟩, hf, rfl⟩ | ⟨hs, rfl⟩
  · refine ⟨a, e ++ 41 :: (v ++ (p ++ (k ++ (w ++ (t ++ y))))), f, by simp, ha, Or.inl ⟨?_, hf⟩⟩
    exact ⟨e, v, p, k, w, t, y, rfl, hv, hp, hk, hw, ht⟩
  · refine ⟨a, e, v ++ (p ++ (k ++ (w ++ (t ++ _)))), by simp; rfl, ha, Or.inr ?_⟩
    have hi : InitiallyText (k ++ w ++ t) true := ⟨k, w, t, hk, hw, by simpa using ht, rfl⟩
    rcases hp with rfl | ⟨k', w', hk', hw', rfl⟩
    · exact ⟨v ++ [] ++ (k ++ w ++ t), _, false, by simp, Or.inr (Or.inr ⟨v, [], k ++ w ++ t, hv,
        Or.inl ⟨rfl, rfl⟩, Or.inr hi, rfl⟩), hs⟩
    · exact ⟨v ++ (k' ++ w') ++ (k ++ w ++ t), _, true, by simp, Or.inr (Or.inr ⟨v, k' ++ w',
        k ++ w ++ t, hv, Or.inr ⟨k', w', hk', hw', rfl, rfl⟩, Or.inr hi, rfl⟩), hs⟩

theorem i0_derives {a e r : Str} (ha : Pre a)
    (h : (StrayDeferred e ∧ Fin r) ∨ ∃ df tl d, r = df ++ tl ∧ DeferText df d true ∧ Spaces tl) :
    DerivesS i0 (a ++ 40 :: (e ++ 41 :: r)) [] := by
  rw [i0, derives_head]
  rcases h with ⟨⟨x, v, p, k, w, t, y, rfl, hv, hp, hk, hw, ht⟩, hf⟩ | ⟨df, tl, d, rfl, hd, htl⟩
  · refine ⟨a, x, v ++ (p ++ (k ++ (w ++ (t ++ (y ++ 41 :: r))))), by simp, ha, ?_⟩
    refine cons_ws hv (.cons (es := []) (fs := []) (derives_dOpt.mpr ⟨hp, rfl⟩)
      (cons_kw hk (by decide) (cons_ws hw (cons_kw ht (by decide) ?_))))
    rw [derivesS_one]
    unfold iRest
    simp only [derives_alt, derives_seqs_cons, derives_seqs_one, derives_anys, derives_ch,
      derives_deferral]
    exact Or.inl ⟨y, 41 :: r, [], [], rfl, rfl, rfl, [41], r, [], [], rfl, rfl, ⟨rfl, rfl⟩, hf, rfl⟩
  · rcases hd with ⟨_, _, hd⟩ | ⟨_, _, _, _, _, _, _, _, _, _, hd⟩ | ⟨v, p, j, hv, hp, hj, rfl⟩
    · cases hd
    · cases hd
    · rcases hj with ⟨_, hj⟩ | ⟨k, w, t, hk, hw, ht, rfl⟩
      · cases hj
      · refine ⟨a, e, v ++ (p ++ (k ++ (w ++ (t ++ tl)))), by simp, ha, ?_⟩
        refine cons_ws hv (.cons (es := []) (fs := []) (derives_dOpt.mpr ⟨?_, rfl⟩)
          (cons_kw hk (by decide) (cons_ws hw (cons_kw (by simpa using ht) (by decide) ?_))))
        · rcases hp with ⟨h, _⟩ | ⟨k', w', h1, h2, h3, _⟩
          · exact Or.inl h
          · exact Or.inr ⟨k', w', h1, h2, h3⟩
        · rw [derivesS_one]
          unfold iRest
          exact .altR (derives_sp.mpr ⟨htl, rfl⟩)

/-! ## The result -/

theorem pre_not {a : Str} (h : Pre a) : (40 : UInt8) ∉ a := by
  obtain ⟨sp, k, w, rfl, h1, h2, h3⟩ := h
  have n : ¬ Space 40 := by decide
  have n' : ¬ Alpha 40 := by decide
  simp only [List.mem_append, not_or]
  exact ⟨⟨fun h => n (h1 _ h), fun h => n' (kw_alpha h2 (by decide) _ h)⟩, fun h => n (h3 _ h)⟩

theorem initially_not {s : Str} {d : Bool} (h : InitiallyText s d) : (41 : UInt8) ∉ s := by
  obtain ⟨k, w, t, h1, h2, h3, rfl⟩ := h
  have n : ¬ Space 41 := by decide
  have n' : ¬ Alpha 41 := by decide
  simp only [List.mem_append, not_or]
  exact ⟨⟨fun h => n' (kw_alpha h1 (by decide) _ h), fun h => n (h2.2 _ h)⟩,
    fun h => n' (kw_alpha h3 (by cases d <;> decide) _ h)⟩

theorem defer_not {s : Str} {d i : Bool} (h : DeferText s d i) : (41 : UInt8) ∉ s := by
  have n : ¬ Space 41 := by decide
  have n' : ¬ Alpha 41 := by decide
  rcases h with ⟨rfl, -, -⟩ | ⟨v, k, w, t, h1, h2, h3, h4, rfl, -, -⟩ | ⟨v, p, j, h1, h2, h3, rfl⟩
  · simp
  · simp only [List.mem_append, not_or]
    exact ⟨⟨⟨fun h => n (h1.2 _ h), fun h => n' (kw_alpha h2 (by decide) _ h)⟩, fun h => n (h3.2 _ h)⟩,
      fun h => n' (kw_alpha h4 (by decide) _ h)⟩
  · simp only [List.mem_append, not_or]
    refine ⟨⟨fun h => n (h1.2 _ h), ?_⟩, ?_⟩
    · rcases h2 with ⟨rfl, -⟩ | ⟨k, w, g1, g2, rfl, -⟩
      · simp
      · simp only [List.mem_append, not_or]
        exact ⟨fun h => n' (kw_alpha g1 (by decide) _ h), fun h => n (g2.2 _ h)⟩
    · rcases h3 with ⟨rfl, -⟩ | h3
      · simp
      · exact initially_not h3

theorem fin_not {s : Str} (h : Fin s) : (41 : UInt8) ∉ s := by
  obtain ⟨df, tl, d, i, rfl, h1, h2⟩ := h
  simp only [List.mem_append, not_or]
  exact ⟨defer_not h1, fun h => (by decide : ¬ Space 41) (h2 _ h)⟩

theorem split_first {c : UInt8} {a a' r r' : Str} (h : a ++ c :: r = a' ++ c :: r') (h1 : c ∉ a) (h2 : c ∉ a') :
    a = a' ∧ r = r' := by
  induction a generalizing a' with
  | nil =>
    cases a' with
    | nil => simpa using h
    | cons x a' =>
      simp only [List.nil_append, List.cons_append, List.cons.injEq] at h
      exact absurd (by simp [h.1]) h2
  | cons x a ih =>
    cases a' with
    | nil =>
      simp only [List.nil_append, List.cons_append, List.cons.injEq] at h
      exact absurd (by simp [h.1]) h1
    | cons y a' =>
      simp only [List.cons_append, List.cons.injEq] at h
      simp only [List.mem_cons, not_or] at h1 h2
      obtain ⟨g1, g2⟩ := ih h.2 h1.2 h2.2
      exact ⟨by rw [h.1, g1], g2⟩

theorem split_last {c : UInt8} {a a' r r' : Str} (h : a ++ c :: r = a' ++ c :: r') (h1 : c ∉ r) (h2 : c ∉ r') :
    a = a' ∧ r = r' := by
  have h3 := congrArg List.reverse h
  simp only [List.reverse_append, List.reverse_cons, List.append_assoc, List.singleton_append] at h3
  obtain ⟨g1, g2⟩ := split_first h3 (by simpa using h1) (by simpa using h2)
  exact ⟨List.reverse_injective g2, List.reverse_injective g1⟩

theorem checkText_iff {s e : Str} {d i : Bool} :
    CheckText s e d i ↔ ∃ a df tl, s = a ++ 40 :: (e ++ 41 :: (df ++ tl)) ∧ Pre a ∧ DeferText df d i ∧ Spaces tl := by
  unfold CheckText Pre
  constructor
  · rintro ⟨sp, k, w, df, tl, rfl, h1, h2, h3, h4, h5⟩
    exact ⟨sp ++ k ++ w, df, tl, by simp, ⟨sp, k, w, rfl, h1, h2, h3⟩, h4, h5⟩
  · rintro ⟨_, df, tl, rfl, ⟨sp, k, w, rfl, h1, h2, h3⟩, h4, h5⟩
    exact ⟨sp, k, w, df, tl, by simp, h1, h2, h3, h4, h5⟩

theorem checkText_unique {s e e' : Str} {d i d' i' : Bool} (h : CheckText s e d i) (h' : CheckText s e' d' i') :
    e = e' ∧ d = d' ∧ i = i' := by
  obtain ⟨a, df, tl, rfl, h1, h2, h3⟩ := checkText_iff.mp h
  obtain ⟨a', df', tl', g, g1, g2, g3⟩ := checkText_iff.mp h'
  obtain ⟨_, hr⟩ := split_first g (pre_not h1) (pre_not g1)
  obtain ⟨he, ht⟩ := split_last hr (fin_not ⟨df, tl, d, i, rfl, h2, h3⟩) (fin_not ⟨df', tl', d', i', rfl, g2, g3⟩)
  exact ⟨he, defer_unique ht h2 h3 g2 g3⟩

theorem accepts_iff' (s : Str) :
    (∃ es, checkMachine.trace checkMachine.start s = some es) ↔ ∃ e d i, CheckText s e d i := by
  rw [accepts_iff]
  simp only [checkText_iff, Fin]
  constructor
  · rintro ⟨a, e, r, h, ha, df, tl, d, i, rfl, h1, h2⟩
    exact ⟨e, d, i, a, df, tl, h, ha, h1, h2⟩
  · rintro ⟨e, d, i, a, df, tl, h, ha, h1, h2⟩
    exact ⟨a, e, df ++ tl, h, ha, df, tl, d, i, rfl, h1, h2⟩

theorem deferrable_iff {s e : Str} {d i : Bool} (h : CheckText s e d i) {es : List (Ev CheckAct)}
    (ht : checkMachine.trace checkMachine.start s = some es) :
    .act .matchDeferrable ∈ es ↔ d = true ∨ StrayDeferrable e := by
  have h0 := track_trace check_closed .matchDeferrable checkMachine.start (by decide) s
  have hs : (checkMachine.track .matchDeferrable).start = checkMachine.start := rfl
  rw [← hs, Deferrable.trace_iff, hs, ht] at h0
  have h1 : Ev.act CheckAct.matchDeferrable ∈ es ↔ DerivesS d0 s [] := by
    rw [h0]; simp
  rw [h1]
  obtain ⟨a, df, tl, rfl, h2, h3, h4⟩ := checkText_iff.mp h
  constructor
  · intro hd
    obtain ⟨a', e', r', g, g1, g2⟩ := derives_d0 hd
    obtain ⟨_, hr⟩ := split_first g (pre_not h2) (pre_not g1)
    have hf : (41 : UInt8) ∉ r' := by
      rcases g2 with ⟨_, g2⟩ | ⟨df', tl', i', g3, g4, g5⟩
      · exact fin_not g2
      · exact fin_not ⟨df', tl', _, i', g3, g4, g5⟩
    obtain ⟨he, hr'⟩ := split_last hr (fin_not ⟨df, tl, d, i, rfl, h3, h4⟩) hf
    rcases g2 with ⟨g2, _⟩ | ⟨df', tl', i', g3, g4, g5⟩
    · exact Or.inr (he ▸ g2)
    · rw [g3] at hr'
      exact Or.inl (defer_unique hr' h3 h4 g4 g5).1
  · rintro (rfl | hl)
    · exact d0_derives h2 (Or.inr ⟨df, tl, i, rfl, h3, h4⟩)
    · exact d0_derives h2 (Or.inl ⟨hl, df, tl, d, i, rfl, h3, h4⟩)

theorem deferred_iff {s e : Str} {d i : Bool} (h : CheckText s e d i) {es : List (Ev CheckAct)}
    (ht : checkMachine.trace checkMachine.start s = some es) :
    .act .matchInitiallyDeferred ∈ es ↔ i = true ∨ StrayDeferred e := by
  have h0 := track_trace check_closed .matchInitiallyDeferred checkMachine.start (by decide) s
  have hs : (checkMachine.track .matchInitiallyDeferred).start = checkMachine.start := rfl
  rw [← hs, Deferred.trace_iff, hs, ht] at h0
  have h1 : Ev.act CheckAct.matchInitiallyDeferred ∈ es ↔ DerivesS i0 s [] := by
    rw [h0]; simp
  rw [h1]
  obtain ⟨a, df, tl, rfl, h2, h3, h4⟩ := checkText_iff.mp h
  constructor
  · intro hd
    obtain ⟨a', e', r', g, g1, g2⟩ := derives_i0 hd
    obtain ⟨_, hr⟩ := split_first g (pre_not h2) (pre_not g1)
    have hf : (41 : UInt8) ∉ r' := by
      rcases g2 with ⟨_, g2⟩ | ⟨df', tl', d', g3, g4, g5⟩
      · exact fin_not g2
      · exact fin_not ⟨df', tl', d', _, g3, g4, g5⟩
    obtain ⟨he, hr'⟩ := split_last hr (fin_not ⟨df, tl, d, i, rfl, h3, h4⟩) hf
    rcases g2 with ⟨g2, _⟩ | ⟨df', tl', d', g3, g4, g5⟩
    · exact Or.inr (he ▸ g2)
    · rw [g3] at hr'
      exact Or.inl (defer_unique hr' h3 h4 g4 g5).2
  · rintro (rfl | hl)
    · exact i0_derives h2 (Or.inr ⟨df, tl, d, rfl, h3, h4⟩)
    · exact i0_derives h2 (Or.inl ⟨hl, df, tl, d, i, rfl, h3, h4⟩)

end CheckG

open CheckG

/-- A text that is not a CHECK clause is an error; a CHECK clause gives its description. -/
theorem parseCheck_cases (s : Str) :
    ((¬ ∃ e d i, CheckText s e d i) ∧ ∃ cs, parseCheck s = .err cs) ∨
    ∃ e d i c, CheckText s e d i ∧ parseCheck s = .ok c ∧ c.name = [] ∧ c.expression = trim e ∧
      (c.deferrable = true ↔ d = true ∨ StrayDeferrable e) ∧
      (c.initiallyDeferred = true ↔ i = true ∨ StrayDeferred e) := by
  rcases check_exec checkMachine.start 0 {} s with ⟨h1, cs, h2⟩ | ⟨es, m, h1, h2, h3, h4, h5⟩
  · left
    refine ⟨?_, cs, ?_⟩
    · rw [← accepts_iff', h1]
      simp
    · rw [parseCheck, h2]
  · right
    obtain ⟨e, d, i, ht⟩ := (accepts_iff' s).mp ⟨es, h1⟩
    obtain ⟨a, df, tl, hs, g1, g2, g3⟩ := checkText_iff.mp ht
    obtain ⟨a', r', k0, k1, k2, k3⟩ := marks_low checkMachine.start 0 (by decide) (by decide) _ _ _ h2
    obtain ⟨ha, hr⟩ := split_first (hs.symm.trans k0) (pre_not g1) k1
    subst ha
    have hfin := fin_not ⟨df, tl, d, i, rfl, g2, g3⟩
    rcases k3 with ⟨k3, _⟩ | ⟨e', t', k3, k4, k5⟩
    · exact absurd (by rw [← hr]; simp) k3
    · rw [k3] at hr
      obtain ⟨he, _⟩ := split_last hr hfin k4
      subst he
      have hlen : s.length = a.length + 1 + e.length + 1 + (df ++ tl).length := by
        rw [hs]; simp; omega
      refine ⟨e, d, i, { m.check with expression := trim e }, ht, ?_, ?_⟩
      · rw [parseCheck, h2]
        simp only
        rw [if_pos ⟨by omega, by omega⟩]
        have : ((s.drop m.mark1).take (m.mark2 - m.mark1)) = e := by
          have e1 : m.mark1 = (a ++ [40]).length := by rw [k2]; simp
          have e2 : m.mark2 - m.mark1 = e.length := by omega
          have e3 : s = (a ++ [40]) ++ (e ++ 41 :: (df ++ tl)) := by rw [hs]; simp
          rw [e2, e1, e3, List.drop_left, List.take_left]
        rw [this]
      · refine ⟨h3, rfl, ?_, ?_⟩
        · rw [← deferrable_iff ht h1]
          simp [h4]
        · rw [← deferred_iff ht h1]
          simp [h5]

end Verif.Ddl
