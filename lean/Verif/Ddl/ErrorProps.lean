import Verif.Ddl.Error
import Verif.Sh.Lemmas

/-!
# C49: `parseError.Error`
-/

namespace Verif.Ddl
open Verif

/-- `pos` is column `col` of `line`, a line of `data` (its newline is the column after its last
byte). -/
def LineAt (data : Str) (pos : Nat) (line : Str) (col : Nat) : Prop :=
  ∃ before after : Str, data = before ++ line ++ after ∧ (10 : UInt8) ∉ line ∧
    (before = [] ∨ ∃ b, before = b ++ [10]) ∧ (after = [] ∨ ∃ a, after = 10 :: a) ∧
    pos = before.length + col ∧ col ≤ line.length

theorem indexByte_split {c : UInt8} {s : Str} {i : Nat} (h : Sh.indexByte c s = some i) :
    ∃ a b, s = a ++ c :: b ∧ c ∉ a ∧ i = a.length := by
  obtain ⟨t, h1, h2⟩ := Sh.indexByte_some h
  refine ⟨_, t, h1, h2, ?_⟩
  have := Sh.indexByte_append (t := t) h2
  rw [← h1, h] at this
  simpa using this

theorem errLoop_total : ∀ (fuel : Nat) (cs : Int) (data : Str), data.length < fuel →
    ∃ r, errLoop fuel cs data = some r := by
  intro fuel
  induction fuel with
  | zero => intro cs data h; omega
  | succ fuel ih =>
    intro cs data h
    rw [errLoop]
    cases hi : Sh.indexByte 10 data with
    | none => exact ⟨_, rfl⟩
    | some idx =>
      by_cases hc : (idx : Int) > cs
      · exact ⟨(cs, data.take idx), by simp [hc]⟩
      · obtain ⟨a, b, h1, _, h3⟩ := indexByte_split hi
        have hlen : data.length = a.length + 1 + b.length := by simp [h1]; omega
        obtain ⟨r, hr⟩ := ih (cs - (idx + 1)) (data.drop (idx + 1)) (by rw [List.length_drop]; omega)
        exact ⟨r, by simp only [hc, if_false]; exact hr⟩

/-- C49: formatting terminates, for every state number and text. -/
theorem C49_error_total (cs : Int) (data : Str) : ∃ r, parseErrorString cs data = some r := by
  unfold parseErrorString
  split
  · exact ⟨_, rfl⟩
  · obtain ⟨r, hr⟩ := errLoop_total (data.length + 1) cs data (by omega)
    rw [hr]
    exact ⟨_, rfl⟩

theorem errLoop_line : ∀ (fuel : Nat) (pos : Nat) (data : Str), data.length < fuel →
    ∀ (h : pos < data.length), data[pos] ≠ 10 →
    ∃ (line : Str) (col : Nat), errLoop fuel pos data = some ((col : Int), line) ∧ LineAt data pos line col := by
  intro fuel
  induction fuel with
  | zero => intro pos data h; omega
  | succ fuel ih =>
    intro pos data hf hp hne
    rw [errLoop]
    cases hi : Sh.indexByte 10 data with
    | none =>
      exact ⟨data, pos, rfl, [], [], by simp, Sh.indexByte_none.mp hi, Or.inl rfl, Or.inl rfl, by simp,
        by omega⟩
    | some idx =>
      obtain ⟨a, b, h1, h2, h3⟩ := indexByte_split hi
      subst h3
      by_cases hc : ((a.length : Nat) : Int) > (pos : Int)
      · refine ⟨a, pos, by simp [hc, h1], [], 10 :: b, by simp [h1], h2, Or.inl rfl,
          Or.inr ⟨b, rfl⟩, by simp, by omega⟩
      · simp only [hc, if_false]
        have hpa : pos ≠ a.length := by
          rintro rfl
          apply hne
          simp [h1]
        have hd : data.drop (a.length + 1) = b := by simp [h1]
        have hlen : data.length = a.length + 1 + b.length := by simp [h1]; omega
        obtain ⟨line, col, e1, before, after, e2, e3, e4, e5, e6, e7⟩ :=
          ih (pos - (a.length + 1)) b (by omega) (by omega) (by
            have : data[pos] = b[pos - (a.length + 1)]'(by omega) := by
              subst h1
              rw [List.getElem_append_right (by omega)]
              rw [List.getElem_cons]
              rw [dif_neg (by omega)]
              congr 1
            rw [← this]; exact hne)
        refine ⟨line, col, ?_, a ++ 10 :: before, after, ?_, e3, Or.inr ?_, e5, ?_, e7⟩
        · rw [hd, ← e1]
          congr 1
          omega
        · rw [h1, e2]; simp
        · rcases e4 with rfl | ⟨c, rfl⟩
          · exact ⟨a, rfl⟩
          · exact ⟨a ++ 10 :: c, by simp⟩
        · simp; omega

theorem lineAt_col_le {data : Str} {pos : Nat} {line : Str} {col : Nat} (h : LineAt data pos line col) : col ≤ pos := by
  obtain ⟨_, _, _, _, _, _, h, _⟩ := h
  omega

/-- A position is in one line, and has one column there. -/
theorem lineAt_unique {data : Str} {pos : Nat} {line line' : Str} {col col' : Nat} (h : LineAt data pos line col)
    (h' : LineAt data pos line' col') : line = line' ∧ col = col' := by
  have hb : ∀ {b l a b' l' a' : Str} {c c' : Nat}, b ++ l ++ a = b' ++ l' ++ a' → (10 : UInt8) ∉ l →
      (b' = [] ∨ ∃ x, b' = x ++ [10]) → b.length + c = b'.length + c' → c ≤ l.length → b'.length ≤ b.length := by
    intro b l a b' l' a' c c' e hl hb' hc hcl
    by_contra hlt
    rcases hb' with rfl | ⟨x, rfl⟩
    · simp at hlt
    · simp only [List.length_append, List.length_cons, List.length_nil] at hlt hc
      apply hl
      have e1 : (b ++ l ++ a)[x.length]? = some 10 := by rw [e]; simp
      rw [List.append_assoc, List.getElem?_append_right (by omega), List.getElem?_append_left (by omega)] at e1
      exact List.mem_of_getElem? e1
  have hl : ∀ {l a l' a' : Str}, l ++ a = l' ++ a' → (10 : UInt8) ∉ l' → (a = [] ∨ ∃ x, a = 10 :: x) →
      l'.length ≤ l.length := by
    intro l a l' a' e hl' ha
    by_contra hlt
    rcases ha with rfl | ⟨x, rfl⟩
    · have := congrArg List.length e
      simp at this
      omega
    · apply hl'
      have e1 : (l ++ 10 :: x)[l.length]? = some 10 := by simp
      rw [e, List.getElem?_append_left (by omega)] at e1
      exact List.mem_of_getElem? e1
  obtain ⟨b, a, e1, e2, e3, e4, e5, e6⟩ := h
  obtain ⟨b', a', e1', e2', e3', e4', e5', e6'⟩ := h'
  have e := e1.symm.trans e1'
  have hbl : b.length = b'.length :=
    le_antisymm (hb e.symm e2' e3 (e5'.symm.trans e5) e6') (hb e e2 e3' (e5.symm.trans e5') e6)
  rw [List.append_assoc, List.append_assoc] at e
  obtain ⟨-, er⟩ := List.append_inj e hbl
  have hll : line.length = line'.length := le_antisymm (hl er.symm e2 e4') (hl er e2' e4)
  exact ⟨(List.append_inj er hll).1, by omega⟩

/-- C49 for a position inside a line (not at its newline): the message is that line, and a caret under that position,
up to a million columns. -/
theorem C49_in_line (data : Str) (pos : Nat) (hp : pos < data.length) (hne : data[pos] ≠ 10) :
    ∃ line col, LineAt data pos line col ∧ parseErrorString pos data = some (line ++ b!"\n" ++
      if col < 1000000 then List.replicate col 32 ++ b!"^" else b!"%!(BADWIDTH)^") := by
  obtain ⟨line, col, h1, h2⟩ := errLoop_line (data.length + 1) pos data (by omega) hp hne
  refine ⟨line, col, h2, ?_⟩
  unfold parseErrorString
  rw [if_neg (by omega), h1]
  simp only [caret]
  by_cases hc : col < 1000000
  · rw [if_neg (by omega), if_neg (by omega), if_pos hc]
    rw [show ((col : Int) + 1).toNat - 1 = col by omega]
  · rw [if_pos (by omega), if_neg hc]

/-- C49 for a position inside a line (not at its newline), within the first million columns: the message is
that line, and a caret under that position. -/
theorem C49_error_shows_position_partial (data : Str) (pos : Nat) (hp : pos < data.length)
    (hne : data[pos] ≠ 10) (hlim : ∀ line col, LineAt data pos line col → col < 1000000) :
    ∃ line col, LineAt data pos line col ∧
      parseErrorString pos data = some (line ++ b!"\n" ++ List.replicate col 32 ++ b!"^") := by
  obtain ⟨line, col, h1, h2⟩ := C49_in_line data pos hp hne
  rw [if_pos (hlim _ _ h1), ← List.append_assoc] at h2
  exact ⟨line, col, h1, h2⟩

/-- C49: a position beyond the text is reported as such. -/
theorem C49_error_after_end (cs : Int) (data : Str) (h : (data.length : Int) ≤ cs) :
    parseErrorString cs data = some b!"error after end of data" := if_pos h

/-- The line of position 2 of "ab⏎cd" is "ab". -/
theorem lineAt_ab {line : Str} {col : Nat} (h : LineAt b!"ab\ncd" 2 line col) : line = b!"ab" := by
  obtain ⟨before, after, h1, h2, h3, h4, h5, h6⟩ := h
  rcases h3 with rfl | ⟨c, rfl⟩
  · match line, h1, h2, h5, h6 with
    | [], _, _, h5, h6 => simp at h5 h6; omega
    | [a], _, _, h5, h6 => simp at h5 h6; omega
    | [a, b], h1, _, _, _ =>
      simp only [List.nil_append, List.cons_append, List.cons.injEq] at h1
      rw [← h1.1, ← h1.2.1]
    | a :: b :: c :: l, h1, h2, _, _ =>
      simp only [List.nil_append, List.cons_append, List.cons.injEq] at h1
      rw [← h1.2.2.1] at h2
      simp at h2
  · match c, h1, h5 with
    | [], h1, _ => simp at h1
    | [a], h1, _ => simp at h1
    | a :: b :: l, _, h5 => simp at h5; omega

/-- C49 is false when the position is a newline: the next line is shown, the caret before it. -/
theorem C49_refuted :
    ¬ ∀ (data : Str) (pos : Nat), pos < data.length → pos < 1000000 → ∃ line col,
      LineAt data pos line col ∧
        parseErrorString pos data = some (line ++ b!"\n" ++ List.replicate col 32 ++ b!"^") := by
  intro h
  obtain ⟨line, col, h1, h2⟩ := h b!"ab\ncd" 2 (by decide) (by decide)
  rw [lineAt_ab h1, show parseErrorString ((2 : Nat) : Int) b!"ab\ncd" = some b!"cd\n^" by decide] at h2
  simp at h2

theorem errLoop_newline : ∀ (fuel : Nat) (pos : Nat) (data : Str), data.length < fuel →
    ∀ (h : pos < data.length), data[pos] = 10 →
    ∃ next : Str, errLoop fuel pos data = some (-1, next) ∧ LineAt data (pos + 1) next 0 := by
  intro fuel
  induction fuel with
  | zero => intro pos data h; omega
  | succ fuel ih =>
    intro pos data hf hp hnl
    rw [errLoop]
    cases hi : Sh.indexByte 10 data with
    | none => exact absurd (hnl ▸ List.getElem_mem hp) (Sh.indexByte_none.mp hi)
    | some idx =>
      obtain ⟨a, b, h1, h2, h3⟩ := indexByte_split hi
      subst h3
      have hd : data.drop (a.length + 1) = b := by simp [h1]
      have hlen : data.length = a.length + 1 + b.length := by simp [h1]; omega
      have hge : a.length ≤ pos := by
        by_contra hc
        have hc : pos < a.length := by omega
        apply h2
        have : data[pos] = a[pos] := by subst h1; exact List.getElem_append_left hc
        rw [← hnl, this]
        exact List.getElem_mem _
      simp only [show ¬ ((a.length : Nat) : Int) > (pos : Int) by omega, if_false, hd]
      by_cases hpa : pos = a.length
      · subst hpa
        have hm : ((a.length : Nat) : Int) - ((a.length : Nat) + 1) = -1 := by omega
        rw [hm]
        cases fuel with
        | zero => omega
        | succ fuel =>
          rw [errLoop]
          cases hi : Sh.indexByte 10 b with
          | none =>
            exact ⟨b, rfl, a ++ [10], [], by simp [h1], Sh.indexByte_none.mp hi, .inr ⟨a, rfl⟩, .inl rfl,
              by simp, by simp⟩
          | some idx =>
            obtain ⟨c, d, e1, e2, e3⟩ := indexByte_split hi
            subst e3
            refine ⟨c, by simp [e1]; omega, a ++ [10], 10 :: d, by simp [h1, e1], e2, .inr ⟨a, rfl⟩, .inr ⟨d, rfl⟩,
              by simp, by simp⟩
      · obtain ⟨next, e1, before, after, e2, e3, e4, e5, e6, e7⟩ :=
          ih (pos - (a.length + 1)) b (by omega) (by omega) (by
            have : data[pos] = b[pos - (a.length + 1)]'(by omega) := by
              subst h1
              rw [List.getElem_append_right (by omega)]
              rw [List.getElem_cons]
              rw [dif_neg (by omega)]
              congr 1
            rw [← this]; exact hnl)
        refine ⟨next, ?_, a ++ 10 :: before, after, ?_, e3, Or.inr ?_, e5, ?_, e7⟩
        · rw [← e1]
          congr 1
          omega
        · rw [h1, e2]; simp
        · rcases e4 with rfl | ⟨c, rfl⟩
          · exact ⟨a, rfl⟩
          · exact ⟨a ++ 10 :: c, by simp⟩
        · simp; omega

/-- C49 when the position is a newline: the line after it is shown, with the caret under its first column. -/
theorem C49_at_newline (data : Str) (pos : Nat) (hp : pos < data.length) (hnl : data[pos] = 10) :
    ∃ next, LineAt data (pos + 1) next 0 ∧ parseErrorString pos data = some (next ++ b!"\n^") := by
  obtain ⟨next, h1, h2⟩ := errLoop_newline (data.length + 1) pos data (by omega) hp hnl
  refine ⟨next, h2, ?_⟩
  unfold parseErrorString
  rw [if_neg (by omega), h1]
  simp [caret]

/-- C49, exactly: the message is the line of the position and a caret under it if and only if the position is inside the
line and within its first million columns; or it is at the end of an empty line and another one follows. -/
theorem C49_exact (data : Str) (pos : Nat) (hp : pos < data.length) (line : Str) (col : Nat)
    (h : LineAt data pos line col) :
    parseErrorString pos data = some (line ++ b!"\n" ++ List.replicate col 32 ++ b!"^") ↔
      (data[pos] ≠ 10 ∧ col < 1000000) ∨ (line = [] ∧ ∀ c, data[pos + 1]? = some c → c = 10) := by
  by_cases hne : data[pos] = 10
  · obtain ⟨next, h1, h2⟩ := C49_at_newline data pos hp hne
    have hcol : col = line.length := by
      obtain ⟨b, a, e1, e2, e3, e4, e5, e6⟩ := h
      by_contra hc
      apply e2
      have e : data[pos]? = some 10 := by rw [List.getElem?_eq_getElem hp, hne]
      rw [e1, e5, List.append_assoc, List.getElem?_append_right (by omega), List.getElem?_append_left (by omega)] at e
      exact List.mem_of_getElem? e
    rw [h2]
    have hnext : next = [] ↔ ∀ c, data[pos + 1]? = some c → c = 10 := by
      obtain ⟨b, a, e1, e2, e3, e4, e5, e6⟩ := h1
      have e : data[pos + 1]? = (next ++ a)[0]? := by
        rw [e1, e5, List.append_assoc, List.getElem?_append_right (by omega)]
        simp
      rw [e]
      cases next with
      | nil =>
        rcases e4 with rfl | ⟨x, rfl⟩
        · simp
        · simp
      | cons d next => simp_all; exact fun h => e2.1 h.symm
    rw [← hnext, hcol]
    constructor
    · intro e
      right
      have e := Option.some.inj e
      have hlen := congrArg List.length e
      simp only [List.length_append, List.length_replicate, List.length_cons, List.length_nil] at hlen
      cases line with
      | nil => simpa using e
      | cons c line =>
        exfalso
        -- the first newline is after `next` on one side and after `line` on the other
        have h10 : (10 : UInt8) ∉ next := by obtain ⟨_, _, _, e2, _⟩ := h1; exact e2
        have h10' : (10 : UInt8) ∉ c :: line := by obtain ⟨_, _, _, e2, _⟩ := h; exact e2
        have i1 := Sh.indexByte_append (t := b!"^") h10
        have i2 := Sh.indexByte_append (t := List.replicate (c :: line).length 32 ++ b!"^") h10'
        have e' : next ++ 10 :: b!"^" = (c :: line) ++ 10 :: (List.replicate (c :: line).length 32 ++ b!"^") := by
          simpa using e
        rw [e', i2] at i1
        simp at i1 hlen
        omega
    · rintro (⟨hn, _⟩ | ⟨rfl, rfl⟩)
      · exact absurd hne hn
      · rfl
  · obtain ⟨line', col', h1, h2⟩ := C49_in_line data pos hp hne
    obtain ⟨rfl, rfl⟩ := lineAt_unique h h1
    rw [h2]
    have hl : line ≠ [] := by
      rintro rfl
      obtain ⟨b, a, e1, e2, e3, e4, e5, e6⟩ := h
      simp at e6
      subst e6
      rcases e4 with rfl | ⟨x, rfl⟩
      · simp [e1] at hp
        omega
      · simp only [e1, e5] at hne
        simp at hne
    by_cases hc : col < 1000000
    · simp [hc, hne]
    · simp only [hc, if_false, and_false, hl, false_and, or_false, iff_false]
      intro e
      simp only [Option.some.injEq, List.append_assoc] at e
      have e := List.append_cancel_left (List.append_cancel_left e)
      cases col with
      | zero => omega
      | succ n => simp [List.replicate_succ] at e

example : parseErrorString 3 b!"foo\nbar\nbaz" = some b!"bar\n^" := by decide
example : parseErrorString 5 b!"foo\nbar\nbaz" = some b!"bar\n ^" := by decide

end Verif.Ddl
