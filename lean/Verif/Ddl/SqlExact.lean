import Verif.Ddl.SqlProps

/-! C39, exactly: which function bodies survive. -/

namespace Verif.Ddl
open Verif Sql

/-- Reading on never changes the tokens read so far. -/
theorem startStep_acc (acc : List Tok) (b : UInt8) : acc <:+ (startStep acc b).2 := by
  unfold startStep
  repeat' split
  all_goals first | exact List.suffix_rfl | exact List.suffix_cons _ _

theorem step_acc (st : State) (acc : List Tok) (b : UInt8) : acc <:+ (step st acc b).2 := by
  cases st <;> simp only [step] <;> try split
  all_goals first
    | exact List.suffix_rfl
    | exact List.suffix_cons _ _
    | exact startStep_acc _ _
    | exact (List.suffix_cons _ _).trans (startStep_acc _ _)

theorem run_keeps {st : State} {acc : List Tok} {s : Str} {l : List Tok} (h : run st acc s = some l) :
    acc.reverse <+: l := by
  induction s generalizing st acc with
  | nil =>
    simp only [run, Option.map_eq_some_iff] at h
    obtain ⟨a, ha, rfl⟩ := h
    rw [List.reverse_prefix]
    cases st <;> simp only [finish, Option.some.injEq, reduceCtorEq] at ha <;> subst ha
    all_goals first | exact List.suffix_rfl | exact List.suffix_cons _ _
  | cons b s ih =>
    rw [run] at h
    exact (List.reverse_prefix.2 (step_acc st acc b)).trans (ih h)

/-- A body that contains `$$`, or ends in `$`, ends early. -/
theorem run_body_early (s : Str) (w : Str) (acc : List Tok) (rest : Str)
    (h : HasDelim s ∨ s.getLast? = some 36) :
    ∃ s' rest', s'.length < s.length ∧
      run (.body w) acc (s ++ b!"$$" ++ rest) = run .start (.dollar (w ++ s') :: acc) rest' := by
  match s with
  | [] =>
    rcases h with ⟨x, y, e⟩ | h
    · simp at e
    · simp at h
  | [a] =>
    have ha : a = 36 := by
      rcases h with ⟨x, y, e⟩ | h
      · have := congrArg List.length e; simp at this; omega
      · simpa using h
    subst ha
    exact ⟨[], 36 :: rest, by simp, by simp [run, step]⟩
  | a :: b :: s =>
    by_cases ha : a = 36
    · subst ha
      by_cases hb : b = 36
      · subst hb
        exact ⟨[], s ++ b!"$$" ++ rest, by simp, by simp [run, step]⟩
      · have h' : HasDelim s ∨ s.getLast? = some 36 := by
          rcases h with ⟨x, y, e⟩ | h
          · left
            match x, e with
            | [], e => simp at e; exact absurd e.1.symm hb
            | [c], e => simp at e; exact absurd e.2.1.symm hb
            | c :: d :: x, e => simp at e; exact ⟨x, y, by simp [e.2.2]⟩
          · right
            cases s with
            | nil => simp at h; exact absurd h hb
            | cons c s => simpa using h
        obtain ⟨s', rest', h1, h2⟩ := run_body_early s (w ++ [36, b]) acc rest h'
        refine ⟨36 :: b :: s', rest', by simpa using h1, ?_⟩
        simp only [List.cons_append, run, step, if_true, hb, if_false]
        rw [h2]
        simp
    · have h' : HasDelim (b :: s) ∨ (b :: s).getLast? = some 36 := by
        rcases h with ⟨x, y, e⟩ | h
        · left
          cases x with
          | nil => simp at e; exact absurd e.1.symm ha
          | cons c x => simp at e; exact ⟨x, y, by simp [e.2]⟩
        · right; simpa using h
      obtain ⟨s', rest', h1, h2⟩ := run_body_early (b :: s) (w ++ [a]) acc rest h'
      refine ⟨a :: s', rest', by simpa using h1, ?_⟩
      simp only [List.cons_append] at h2 ⊢
      rw [run]
      simp only [step, ha, if_false]
      rw [h2]
      simp
termination_by s.length

/-- **C39, exactly.** The statement reads back with the body `Definition` (after a newline) if and only if the definition
neither contains `$$` nor ends in `$`. -/
theorem C39_exact (f : Function) (name returns : List Tok)
    (hn : Fragment f.name name) (hr : Fragment f.returns returns) (hl : (39 : UInt8) ∉ f.language) :
    lex f.toSQL = some (
      [.word b!"CREATE", .word b!"OR", .word b!"REPLACE", .word b!"FUNCTION"] ++ name ++
      [.sym 40, .sym 41, .word b!"RETURNS"] ++ returns ++
      [.word b!"AS", .dollar (b!"\n" ++ f.definition), .word b!"LANGUAGE", .str f.language, .sym 59]) ↔
    ¬ HasDelim f.definition ∧ f.definition.getLast? ≠ some 36 := by
  constructor
  swap
  · exact fun h => C39_function_body_partial f name returns hn hr h.1 h.2 hl
  intro h
  by_contra hc
  have hbad : HasDelim (10 :: f.definition) ∨ (10 :: f.definition).getLast? = some 36 := by
    rw [not_and_or, not_not, not_not] at hc
    rcases hc with ⟨x, y, e⟩ | hc
    · exact .inl ⟨10 :: x, y, by simp [e]⟩
    · right
      cases hd : f.definition with
      | nil => simp [hd] at hc
      | cons a d => rw [hd] at hc; simpa using hc
  revert h
  unfold lex Function.toSQL
  simp only [List.append_assoc]
  have e1 : ∀ r, run .start [] (b!"CREATE OR REPLACE FUNCTION " ++ r) =
      run .start [.word b!"FUNCTION", .word b!"REPLACE", .word b!"OR", .word b!"CREATE"] r := fun r => rfl
  rw [e1]
  have e2 := fun r => hn [.word b!"FUNCTION", .word b!"REPLACE", .word b!"OR", .word b!"CREATE"] 40 r
    (Or.inr (Or.inl rfl))
  simp only [List.cons_append, List.nil_append] at e2 ⊢
  rw [e2]
  have e3 : ∀ acc r, run .start acc (40 :: 41 :: 10 :: 82 :: 69 :: 84 :: 85 :: 82 :: 78 :: 83 :: 32 :: r) =
      run .start (.word b!"RETURNS" :: .sym 41 :: .sym 40 :: acc) r := fun acc r => rfl
  rw [e3]
  have e4 := fun acc r => hr acc 32 r (Or.inl rfl)
  rw [e4]
  have e5 : ∀ acc r, run .start acc (32 :: 65 :: 83 :: 32 :: 36 :: 36 :: r) =
      run (.body []) (.word b!"AS" :: acc) r := fun acc r => rfl
  rw [e5]
  have e6 := fun acc r => run_body_early (10 :: f.definition) [] acc r hbad
  simp only [List.append_assoc, List.cons_append, List.nil_append] at e6
  intro h
  obtain ⟨s', rest', hs, e⟩ := e6 _ _
  rw [e] at h
  obtain ⟨t, ht⟩ := run_keeps h
  simp only [List.reverse_cons, List.reverse_append, List.reverse_reverse, List.reverse_nil, List.nil_append,
    List.append_assoc, List.cons_append, List.cons.injEq, true_and, List.append_cancel_left_eq,
    Tok.dollar.injEq] at ht
  have := congrArg List.length ht.1
  simp at this hs
  omega

/-- Bodies that survive and bodies that do not. -/
example : ¬ HasDelim b!"SELECT $1 + 1" ∧ b!"SELECT $1 + 1".getLast? ≠ some 36 ∧ HasDelim b!"SELECT $$x$$" := by
  refine ⟨?_, by decide, ⟨b!"SELECT ", b!"x$$", rfl⟩⟩
  rintro ⟨x, y, e⟩
  have : List.count 36 b!"SELECT $1 + 1" = 1 := by decide
  rw [← e] at this
  simp at this
  omega

end Verif.Ddl
