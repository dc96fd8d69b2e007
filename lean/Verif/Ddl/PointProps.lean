import Verif.Ddl.Live

/-!
# C122: where a parse error points

The generated parsers report the state they end in as if it were a position: 0 if a byte is refused, wherever it is.
-/

namespace Verif.Ddl
open Verif Verif.Ragel

section
variable {A α : Type} {parse : Str → Outcome α} {M : Machine A} {cert : List (UInt8 × Nat)}

theorem viable_iff (hr : Runs parse M) (hl : live M cert = true) (hs : 0 < M.start ∧ M.start < M.rows.length) (s : Str) :
    Viable parse s ↔ ∃ q, M.after M.start s = some q := by
  constructor
  · rintro ⟨rest, x, h⟩
    cases ha : M.after M.start s with
    | some q => exact ⟨q, rfl⟩
    | none =>
      have := hr.refused (s ++ rest) (by rw [after_append, ha]; rfl)
      rw [h] at this
      cases this
  · rintro ⟨q, ha⟩
    obtain ⟨h1, h2⟩ := live_after hl s _ hs q ha
    obtain ⟨t, q', e1, e2⟩ : ∃ t q', M.after q t = some q' ∧ M.firstFinal ≤ q' := by
      cases hc : cert[q]? with
      | none => exact live_reach hl 0 q h1 h2 (by intro b k e; rw [hc] at e; cases e)
      | some p => exact live_reach hl p.2 q h1 h2 (by intro b k e; rw [hc] at e; cases e; exact Nat.le_refl _)
    obtain ⟨x, hx⟩ := hr.accepted (s ++ t) q' (by rw [after_append, ha]; exact e1) e2
    exact ⟨t, x, hx⟩

/-- What is reported of a text that is not accepted: 0 if it has a byte that is refused, and otherwise another state. -/
theorem states (hr : Runs parse M) (hl : live M cert = true) (hs : 0 < M.start ∧ M.start < M.rows.length) (s : Str) :
    (¬ Viable parse s → parse s = .err 0) ∧
    ∀ cs, parse s = .err cs → Viable parse s → 0 < cs ∧ cs < M.firstFinal := by
  rw [viable_iff hr hl hs]
  constructor
  · intro h
    refine hr.refused s ?_
    cases ha : M.after M.start s with
    | none => rfl
    | some q => exact absurd ⟨q, ha⟩ h
  · rintro cs hc ⟨q, ha⟩
    by_cases hf : q < M.firstFinal
    · have := hr.ended s q ha hf
      rw [hc] at this
      cases this
      exact ⟨(live_after hl s _ hs cs ha).1, hf⟩
    · obtain ⟨x, hx⟩ := hr.accepted s q ha (Nat.le_of_not_lt hf)
      rw [hc] at hx
      cases hx

theorem viable_prefix {s t : Str} (h : Viable parse (s ++ t)) : Viable parse s := by
  obtain ⟨rest, x, hx⟩ := h
  exact ⟨t ++ rest, x, by rw [← List.append_assoc]; exact hx⟩

theorem viable_take {s : Str} (h : Viable parse s) (n : Nat) : Viable parse (s.take n) :=
  viable_prefix (t := s.drop n) (by rw [List.take_append_drop]; exact h)

/-- Every text stops making sense at one position. -/
theorem stopsAt_unique {s : Str} {p p' : Nat} (h : StopsAt parse s p) (h' : StopsAt parse s p') : p = p' := by
  obtain ⟨a1, a2, a3⟩ := h
  obtain ⟨b1, b2, b3⟩ := h'
  rcases Nat.lt_trichotomy p p' with hlt | rfl | hlt
  · exact absurd (by
      have := viable_take b2 (p + 1)
      rwa [List.take_take, Nat.min_eq_left (by omega)] at this) (a3 (by omega))
  · rfl
  · exact absurd (by
      have := viable_take a2 (p' + 1)
      rwa [List.take_take, Nat.min_eq_left (by omega)] at this) (b3 (by omega))

theorem stopsAt_exists (h0 : Viable parse []) (s : Str) : ∃ pos, StopsAt parse s pos := by
  by_cases hv : Viable parse s
  · exact ⟨s.length, Nat.le_refl _, by rw [List.take_length]; exact hv, fun h => absurd h (Nat.lt_irrefl _)⟩
  · have key : ∀ n, n ≤ s.length → ¬ Viable parse (s.take n) → ∃ pos, StopsAt parse s pos := by
      intro n
      induction n with
      | zero => intro _ h; exact absurd (by simpa using h0) h
      | succ n ih =>
        intro hn h
        by_cases hv' : Viable parse (s.take n)
        · exact ⟨n, by omega, hv', fun _ => h⟩
        · exact ih (by omega) hv'
    exact key s.length (Nat.le_refl _) (by rw [List.take_length]; exact hv)

/-- The line of a position of a text without line breaks. -/
theorem lineAt_one {s : Str} (hnl : (10 : UInt8) ∉ s) {pos : Nat} {line : Str} {col : Nat} (h : LineAt s pos line col) :
    line = s ∧ col = pos := by
  obtain ⟨before, after, h1, h2, h3, h4, h5, h6⟩ := h
  have hb : before = [] := by
    rcases h3 with h3 | ⟨b, rfl⟩
    · exact h3
    · exact absurd (by rw [h1]; simp) hnl
  have ha : after = [] := by
    rcases h4 with h4 | ⟨a, rfl⟩
    · exact h4
    · exact absurd (by rw [h1]; simp) hnl
  subst hb ha
  simp at h1 h5
  exact ⟨h1.symm, h5.symm⟩

theorem replicate_caret {a : Str} {n m : Nat} (h : a ++ b!"\n" ++ List.replicate n 32 ++ b!"^" =
    a ++ b!"\n" ++ List.replicate m 32 ++ b!"^") : n = m := by
  have := congrArg List.length h
  simp at this
  omega

/-- **C122 (the part that holds).** If the first byte cannot begin a definition the message shows it; and if a text ends too
early and is no longer than the number of the state reached, the message says that it ended. -/
theorem points_partial (hr : Runs parse M) (hl : live M cert = true) (hs : 0 < M.start ∧ M.start < M.rows.length)
    (hnl : Viable parse b!"\n") {s : Str} {cs : Nat} (h : parse s = .err cs)
    (hc : StopsAt parse s 0 ∨ (Viable parse s ∧ s.length ≤ cs)) :
    ∃ msg, parseErrorString cs s = some msg ∧ Points parse s msg := by
  have late : Viable parse s → s.length ≤ cs → ∃ msg, parseErrorString cs s = some msg ∧ Points parse s msg :=
    fun hv hlen => ⟨_, C49_error_after_end cs s (by omega), s.length,
      ⟨Nat.le_refl _, by rw [List.take_length]; exact hv, fun h => absurd h (Nat.lt_irrefl _)⟩, .inr ⟨rfl, rfl⟩⟩
  rcases hc with h0 | ⟨hv, hlen⟩
  · match s, h, h0 with
    | [], h, h0 => exact late h0.2.1 (by simp)
    | b :: s, h, h0 =>
      have hnv : ¬ Viable parse [b] := h0.2.2 (by simp)
      have hb : b ≠ 10 := by rintro rfl; exact hnv hnl
      have hnv' : ¬ Viable parse (b :: s) := fun h => hnv (viable_prefix (s := [b]) (t := s) h)
      have := (states hr hl hs (b :: s)).1 hnv'
      rw [h] at this
      cases this
      obtain ⟨line, col, h1, h2⟩ := C49_error_shows_position_partial (b :: s) 0 (by simp) (by simpa using hb)
        fun _ _ h => Nat.lt_of_le_of_lt (lineAt_col_le h) (by decide)
      exact ⟨_, h2, 0, h0, .inl ⟨by simp, line, col, h1, rfl⟩⟩
  · exact late hv hlen

/-- **C122, exactly,** for texts of one line: otherwise the message is wrong. -/
theorem points_exact (hr : Runs parse M) (hl : live M cert = true) (hs : 0 < M.start ∧ M.start < M.rows.length)
    (hff : M.firstFinal < 1000000) (hnl : Viable parse b!"\n") {s : Str} (h1 : (10 : UInt8) ∉ s) {cs : Nat}
    (h : parse s = .err cs) :
    (∃ msg, parseErrorString cs s = some msg ∧ Points parse s msg) ↔
      StopsAt parse s 0 ∨ (Viable parse s ∧ s.length ≤ cs) := by
  refine ⟨?_, points_partial hr hl hs hnl h⟩
  rintro ⟨msg, hm, pos, hp, hmsg⟩
  have hlim : cs < 1000000 := by
    by_cases hv : Viable parse s
    · have := (states hr hl hs s).2 cs h hv; omega
    · have := (states hr hl hs s).1 hv
      rw [h] at this
      cases this
      decide
  by_cases hlen : s.length ≤ cs
  · by_cases hv : Viable parse s
    · exact .inr ⟨hv, hlen⟩
    · have := (states hr hl hs s).1 hv
      rw [h] at this
      cases this
      match s, hlen, hv with
      | [], _, hv => exact absurd hp.2.1 (by simpa using hv)
  · have hlt : cs < s.length := by omega
    obtain ⟨line, col, e1, e2⟩ := C49_error_shows_position_partial s cs hlt
      (fun he => h1 (he ▸ List.getElem_mem hlt)) fun _ _ h => Nat.lt_of_le_of_lt (lineAt_col_le h) hlim
    obtain ⟨rfl, rfl⟩ := lineAt_one h1 e1
    rw [hm] at e2
    cases e2
    rcases hmsg with ⟨hlt', line', col', f1, f2⟩ | ⟨-, f2⟩
    · obtain ⟨rfl, rfl⟩ := lineAt_one h1 f1
      have e := replicate_caret f2
      subst e
      by_cases hv : Viable parse line'
      · exact absurd (viable_take hv _) (hp.2.2 hlt')
      · have := (states hr hl hs line').1 hv
        rw [h] at this
        cases this
        exact .inl hp
    · exfalso
      have hin : (10 : UInt8) ∈ b!"error after end of data" := by rw [← f2]; simp
      exact absurd hin (by decide)

end

/-! ## The four parsers -/

theorem start_check : 0 < checkMachine.start ∧ checkMachine.start < checkMachine.rows.length := by decide +kernel
theorem start_index : 0 < indexMachine.start ∧ indexMachine.start < indexMachine.rows.length := by decide +kernel
theorem start_foreignKey : 0 < foreignKeyMachine.start ∧ foreignKeyMachine.start < foreignKeyMachine.rows.length := by
  decide +kernel
theorem start_trigger : 0 < triggerMachine.start ∧ triggerMachine.start < triggerMachine.rows.length := by
  decide +kernel

theorem viable_check (s : Str) : Viable parseCheck s ↔ (checkMachine.after checkMachine.start s).isSome = true := by
  rw [viable_iff runs_check live_check start_check, Option.isSome_iff_exists]
theorem viable_index (s : Str) : Viable parseIndex s ↔ (indexMachine.after indexMachine.start s).isSome = true := by
  rw [viable_iff runs_index live_index start_index, Option.isSome_iff_exists]
theorem viable_foreignKey (s : Str) :
    Viable parseForeignKey s ↔ (foreignKeyMachine.after foreignKeyMachine.start s).isSome = true := by
  rw [viable_iff runs_foreignKey live_foreignKey start_foreignKey, Option.isSome_iff_exists]
theorem viable_trigger (s : Str) : Viable parseTrigger s ↔ (triggerMachine.after triggerMachine.start s).isSome = true := by
  rw [viable_iff runs_trigger live_trigger start_trigger, Option.isSome_iff_exists]

/-- Every text stops making sense at exactly one place, for each of the parsers: so there is something to point at. -/
theorem C122_one_place (s : Str) :
    (∃! pos, StopsAt parseCheck s pos) ∧ (∃! pos, StopsAt parseIndex s pos) ∧
    (∃! pos, StopsAt parseForeignKey s pos) ∧ (∃! pos, StopsAt parseTrigger s pos) := by
  have one : ∀ {α : Type} {parse : Str → Outcome α}, Viable parse [] → ∃! pos, StopsAt parse s pos := by
    intro α parse h0
    obtain ⟨pos, h⟩ := stopsAt_exists h0 s
    exact ⟨pos, h, fun p hp => stopsAt_unique hp h⟩
  exact ⟨one ((viable_check _).2 (by decide +kernel)), one ((viable_index _).2 (by decide +kernel)),
    one ((viable_foreignKey _).2 (by decide +kernel)), one ((viable_trigger _).2 (by decide +kernel))⟩

/-- **C122, what is reported.** When a definition has a byte with which it ceases to be the beginning of one that can be
read, the error is that of position 0, wherever that byte is: its message shows the first line, with the caret under
its first byte. -/
theorem C122_first_byte (s : Str) (hs : s.head? ≠ some 10) :
    (¬ Viable parseCheck s → parseCheck s = .err 0) ∧ (¬ Viable parseIndex s → parseIndex s = .err 0) ∧
    (¬ Viable parseForeignKey s → parseForeignKey s = .err 0) ∧ (¬ Viable parseTrigger s → parseTrigger s = .err 0) ∧
    (s ≠ [] → ∃ line, LineAt s 0 line 0 ∧ parseErrorString 0 s = some (line ++ b!"\n^")) := by
  refine ⟨(states runs_check live_check start_check s).1, (states runs_index live_index start_index s).1,
    (states runs_foreignKey live_foreignKey start_foreignKey s).1, (states runs_trigger live_trigger start_trigger s).1, ?_⟩
  intro hne
  match s, hs with
  | b :: s, hs =>
    obtain ⟨line, col, h1, h2⟩ := C49_error_shows_position_partial (b :: s) 0 (by simp) (by simpa using hs)
      fun _ _ h => Nat.lt_of_le_of_lt (lineAt_col_le h) (by decide)
    have : col = 0 := by
      obtain ⟨_, _, _, _, _, _, h, _⟩ := h1
      omega
    subst this
    exact ⟨line, h1, by simpa using h2⟩

/-- **C122 (partial).** The message tells where the definition stops making sense if its first byte already cannot begin
one, and if it ends too early and is no longer than the number of the state reached.
Missing: all other texts, for which it does not (`C122_refuted`, `C122_exact`). -/
theorem C122_points_partial (s : Str) (cs : Nat) :
    (parseCheck s = .err cs → StopsAt parseCheck s 0 ∨ (Viable parseCheck s ∧ s.length ≤ cs) →
      ∃ msg, parseErrorString cs s = some msg ∧ Points parseCheck s msg) ∧
    (parseIndex s = .err cs → StopsAt parseIndex s 0 ∨ (Viable parseIndex s ∧ s.length ≤ cs) →
      ∃ msg, parseErrorString cs s = some msg ∧ Points parseIndex s msg) ∧
    (parseForeignKey s = .err cs → StopsAt parseForeignKey s 0 ∨ (Viable parseForeignKey s ∧ s.length ≤ cs) →
      ∃ msg, parseErrorString cs s = some msg ∧ Points parseForeignKey s msg) ∧
    (parseTrigger s = .err cs → StopsAt parseTrigger s 0 ∨ (Viable parseTrigger s ∧ s.length ≤ cs) →
      ∃ msg, parseErrorString cs s = some msg ∧ Points parseTrigger s msg) :=
  ⟨points_partial runs_check live_check start_check ((viable_check _).2 (by decide +kernel)),
    points_partial runs_index live_index start_index ((viable_index _).2 (by decide +kernel)),
    points_partial runs_foreignKey live_foreignKey start_foreignKey ((viable_foreignKey _).2 (by decide +kernel)),
    points_partial runs_trigger live_trigger start_trigger ((viable_trigger _).2 (by decide +kernel))⟩

/-- **C122, exactly,** for definitions of one line. -/
theorem C122_exact (s : Str) (h1 : (10 : UInt8) ∉ s) (cs : Nat) :
    (parseCheck s = .err cs → ((∃ msg, parseErrorString cs s = some msg ∧ Points parseCheck s msg) ↔
      StopsAt parseCheck s 0 ∨ (Viable parseCheck s ∧ s.length ≤ cs))) ∧
    (parseIndex s = .err cs → ((∃ msg, parseErrorString cs s = some msg ∧ Points parseIndex s msg) ↔
      StopsAt parseIndex s 0 ∨ (Viable parseIndex s ∧ s.length ≤ cs))) ∧
    (parseForeignKey s = .err cs → ((∃ msg, parseErrorString cs s = some msg ∧ Points parseForeignKey s msg) ↔
      StopsAt parseForeignKey s 0 ∨ (Viable parseForeignKey s ∧ s.length ≤ cs))) ∧
    (parseTrigger s = .err cs → ((∃ msg, parseErrorString cs s = some msg ∧ Points parseTrigger s msg) ↔
      StopsAt parseTrigger s 0 ∨ (Viable parseTrigger s ∧ s.length ≤ cs))) :=
  ⟨points_exact runs_check live_check start_check (by decide) ((viable_check _).2 (by decide +kernel)) h1,
    points_exact runs_index live_index start_index (by decide) ((viable_index _).2 (by decide +kernel)) h1,
    points_exact runs_foreignKey live_foreignKey start_foreignKey (by decide)
      ((viable_foreignKey _).2 (by decide +kernel)) h1,
    points_exact runs_trigger live_trigger start_trigger (by decide) ((viable_trigger _).2 (by decide +kernel)) h1⟩

/-- **C122 refuted.** Of a bracket in the place of a parenthesis, of the expression of an index after its first key, of a
second clause in PostgreSQL's order, and of a quoted name, the message shows the first byte of the text instead of the one
that could not be read; and of a check that lacks its last parenthesis it shows a byte within the text. -/
theorem C122_refuted :
    (parseErrorString 0 b!"CHECK [a > 0]" = some b!"CHECK [a > 0]\n^" ∧ parseCheck b!"CHECK [a > 0]" = .err 0 ∧
      StopsAt parseCheck b!"CHECK [a > 0]" 6) ∧
    (parseIndex b!"CREATE INDEX i ON t (a, lower(b))" = .err 0 ∧
      StopsAt parseIndex b!"CREATE INDEX i ON t (a, lower(b))" 29) ∧
    (parseForeignKey b!"FOREIGN KEY (a) REFERENCES t(b) ON UPDATE CASCADE ON DELETE CASCADE" = .err 0 ∧
      StopsAt parseForeignKey b!"FOREIGN KEY (a) REFERENCES t(b) ON UPDATE CASCADE ON DELETE CASCADE" 50) ∧
    (parseTrigger b!"CREATE TRIGGER \"a b\" AFTER INSERT ON t" = .err 0 ∧
      StopsAt parseTrigger b!"CREATE TRIGGER \"a b\" AFTER INSERT ON t" 15) ∧
    (parseCheck b!"CHECK (a > 0" = .err 8 ∧ StopsAt parseCheck b!"CHECK (a > 0" 12 ∧
      parseErrorString 8 b!"CHECK (a > 0" = some b!"CHECK (a > 0\n        ^") ∧
    ¬ (∀ s cs, parseCheck s = .err cs → ∃ msg, parseErrorString cs s = some msg ∧ Points parseCheck s msg) ∧
    ¬ (∀ s cs, parseIndex s = .err cs → ∃ msg, parseErrorString cs s = some msg ∧ Points parseIndex s msg) ∧
    ¬ (∀ s cs, parseForeignKey s = .err cs → ∃ msg, parseErrorString cs s = some msg ∧ Points parseForeignKey s msg) ∧
    ¬ (∀ s cs, parseTrigger s = .err cs → ∃ msg, parseErrorString cs s = some msg ∧ Points parseTrigger s msg) := by
  have c : StopsAt parseCheck b!"CHECK [a > 0]" 6 := by
    simp only [StopsAt, viable_check]; decide +kernel
  have i : StopsAt parseIndex b!"CREATE INDEX i ON t (a, lower(b))" 29 := by
    simp only [StopsAt, viable_index]; decide +kernel
  have f : StopsAt parseForeignKey b!"FOREIGN KEY (a) REFERENCES t(b) ON UPDATE CASCADE ON DELETE CASCADE" 50 := by
    simp only [StopsAt, viable_foreignKey]; decide +kernel
  have t : StopsAt parseTrigger b!"CREATE TRIGGER \"a b\" AFTER INSERT ON t" 15 := by
    simp only [StopsAt, viable_trigger]; decide +kernel
  have pc : parseCheck b!"CHECK [a > 0]" = .err 0 := by decide +kernel
  have pi : parseIndex b!"CREATE INDEX i ON t (a, lower(b))" = .err 0 := by decide +kernel
  have pf : parseForeignKey b!"FOREIGN KEY (a) REFERENCES t(b) ON UPDATE CASCADE ON DELETE CASCADE" = .err 0 := by
    decide +kernel
  have pt : parseTrigger b!"CREATE TRIGGER \"a b\" AFTER INSERT ON t" = .err 0 := by decide +kernel
  refine ⟨⟨by decide +kernel, pc, c⟩, ⟨pi, i⟩, ⟨pf, f⟩, ⟨pt, t⟩, ⟨by decide +kernel, ?_, by decide +kernel⟩, ?_, ?_, ?_, ?_⟩
  · simp only [StopsAt, viable_check]; decide +kernel
  · intro h
    rcases ((C122_exact _ (by decide +kernel) _).1 pc).1 (h _ _ pc) with h | ⟨-, h⟩
    · exact absurd (stopsAt_unique h c) (by decide)
    · exact absurd h (by decide)
  · intro h
    rcases ((C122_exact _ (by decide +kernel) _).2.1 pi).1 (h _ _ pi) with h | ⟨-, h⟩
    · exact absurd (stopsAt_unique h i) (by decide)
    · exact absurd h (by decide)
  · intro h
    rcases ((C122_exact _ (by decide +kernel) _).2.2.1 pf).1 (h _ _ pf) with h | ⟨-, h⟩
    · exact absurd (stopsAt_unique h f) (by decide)
    · exact absurd h (by decide)
  · intro h
    rcases ((C122_exact _ (by decide +kernel) _).2.2.2 pt).1 (h _ _ pt) with h | ⟨-, h⟩
    · exact absurd (stopsAt_unique h t) (by decide)
    · exact absurd h (by decide)

/-- A text to which `C122_points_partial` applies, and what is reported. -/
example : parseCheck b!"(a > 0)" = .err 0 ∧ StopsAt parseCheck b!"(a > 0)" 0 ∧
    parseErrorString 0 b!"(a > 0)" = some b!"(a > 0)\n^" := by
  refine ⟨by decide +kernel, ?_, by decide +kernel⟩
  simp only [StopsAt, viable_check]; decide +kernel

/-- The other case: a text that ends too early. -/
example : parseForeignKey b!"FOREIGN KEY (a) REFERENCES t" = .err 30 ∧ Viable parseForeignKey b!"FOREIGN KEY (a) REFERENCES t" ∧
    parseErrorString 30 b!"FOREIGN KEY (a) REFERENCES t" = some b!"error after end of data" := by
  refine ⟨by decide +kernel, ?_, by decide +kernel⟩
  rw [viable_foreignKey]; decide +kernel

end Verif.Ddl
