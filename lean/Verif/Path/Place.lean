import Verif.Path.Lemmas

/-!
# The places paths lead to: lemmas about `clean`, `dir`, `join`, `abs` and `base`
-/

namespace Verif.Path
open Verif Spec

/-- The place the kept elements lead to from `a`. -/
def val (a : List Str) (s : Kept) : List Str := List.dropLast^[s.2] a ++ s.1.reverse

theorem step_val {rooted : Bool} {a : List Str} {s : Kept} (h : Good rooted s) (ha : rooted = true → a = [])
    (e : Str) : step (val a s) e = val a (keep rooted s e) := by
  rw [step, keep]
  split
  · rfl
  split
  · obtain ⟨ns, k⟩ := s
    cases ns with
    | cons n ns => simp [val]
    | nil =>
      cases rooted with
      | true =>
        obtain rfl := ha rfl
        obtain rfl : k = 0 := h.zero rfl
        rfl
      | false => simp [val, Function.iterate_succ_apply']
  · simp [val]

theorem fold_val {rooted : Bool} {a : List Str} (ha : rooted = true → a = []) (es : List Str)
    (hes : ∀ e ∈ es, (47 : UInt8) ∉ e) {s : Kept} (h : Good rooted s) :
    es.foldl step (val a s) = val a (es.foldl (keep rooted) s) ∧ Good rooted (es.foldl (keep rooted) s) := by
  induction es generalizing s with
  | nil => exact ⟨rfl, h⟩
  | cons e es ih =>
    rw [List.foldl_cons, List.foldl_cons, step_val h ha]
    exact ih (fun x hx => hes x (by simp [hx])) (keep_good h (hes e (by simp)))

theorem parts_rj {es : List Str} (hn : es ≠ []) (h : ∀ e ∈ es, (47 : UInt8) ∉ e) :
    parts 47 (rj es).reverse = es.reverse := by
  induction es with
  | nil => exact absurd rfl hn
  | cons e es ih =>
    have he := h e (by simp)
    cases es with
    | nil => simp [rj, parts_plain he]
    | cons f es =>
      rw [rj_cons (by simp), List.reverse_append, List.reverse_cons, List.append_assoc, List.singleton_append,
        parts_snoc, ih (by simp) (fun x hx => h x (by simp [hx])), List.reverse_reverse, parts_plain he]
      simp

theorem fold_dots (k : Nat) (a : List Str) : (dots k).reverse.foldl step a = List.dropLast^[k] a := by
  rw [dots, List.reverse_replicate]
  induction k generalizing a with
  | zero => rfl
  | succ k ih => rw [List.replicate_succ, List.foldl_cons, ih, Function.iterate_succ_apply]; rfl

theorem step_plain {a : List Str} {e : Str} (h : Plain e) : step a e = a ++ [e] := by
  rw [step, if_neg (by rintro (h1 | h1); exacts [h.1 h1, h.2.1 h1]), if_neg h.2.2.1]

theorem fold_plain {es : List Str} (h : ∀ e ∈ es, Plain e) (a : List Str) : es.foldl step a = a ++ es := by
  induction es generalizing a with
  | nil => simp
  | cons e es ih =>
    rw [List.foldl_cons, step_plain (h e (by simp)), ih (fun x hx => h x (by simp [hx]))]
    simp

theorem fold_kept {rooted : Bool} {s : Kept} (h : Good rooted s) (a : List Str) :
    (s.1 ++ dots s.2).reverse.foldl step a = val a s := by
  rw [List.reverse_append, List.foldl_append, fold_dots,
    fold_plain (fun e he => h.plain e (List.mem_reverse.1 he))]
  rfl

theorem kept_mem {rooted : Bool} {s : Kept} (h : Good rooted s) {e : Str} (he : e ∈ s.1 ++ dots s.2) :
    e ≠ [] ∧ (47 : UInt8) ∉ e := by
  rcases List.mem_append.1 he with he | he
  · exact ⟨(h.plain e he).1, (h.plain e he).2.2.2⟩
  · rw [dots, List.mem_replicate] at he
    rw [he.2]
    decide

/-- What `clean` returns, and where it leads. -/
theorem clean_cases (p : Str) : ∃ s : Kept, ∃ rooted : Bool, (rooted = true ↔ p.head? = some 47) ∧
    Good rooted s ∧ (∀ a, loc a p = val (if p.head? = some 47 then [] else a) s) ∧
    clean p = (if written rooted s = [] then b!"." else (written rooted s).reverse) := by
  cases p with
  | nil =>
    exact ⟨([], 0), false, by simp, ⟨by simp, by simp⟩, by intro a; simp [loc, parts, step, val],
      by simp [clean, written, dots, rj, root]⟩
  | cons c rest =>
    have h0 : ∀ r, Good r (([], 0) : Kept) := fun r => ⟨by simp, by simp⟩
    by_cases hc : c = 47
    · subst hc
      have hf := fold_val (rooted := true) (a := []) (fun _ => rfl) (parts 47 rest) (fun e he => parts_mem he) (h0 true)
      refine ⟨(parts 47 rest).foldl (keep true) ([], 0), true, by simp, hf.2, ?_, ?_⟩
      · intro a
        have h1 := hf.1
        simp only [List.head?_cons, if_true]
        rw [← h1]
        simp [loc, parts, step, val]
      · have := cleanLoop_eq true rest ([], 0) (h0 true)
        simp only [clean, decide_true, if_true]
        rw [show ([47] : List UInt8) = written true ([], 0) from rfl, show (1 : Nat) = mark true 0 from rfl, this]
        simp
    · have hf := fun a => fold_val (rooted := false) (a := a) (by simp) (parts 47 (c :: rest))
        (fun e he => parts_mem he) (h0 false)
      refine ⟨(parts 47 (c :: rest)).foldl (keep false) ([], 0), false, by simp [hc], (hf []).2, ?_, ?_⟩
      · intro a
        rw [← (hf _).1]
        simp [loc, val, hc]
      · have := cleanLoop_eq false (c :: rest) ([], 0) (h0 false)
        simp only [clean, hc, decide_false, Bool.false_eq_true, if_false]
        rw [show cleanLoop false (c :: rest) [] 0 = _ from this]
        simp

theorem written_false (s : Kept) : written false s = rj (s.1 ++ dots s.2) := by simp [written, root]

theorem written_true {s : Kept} (h : Good true s) : written true s = rj s.1 ++ [47] := by
  simp [written, root, h.zero rfl, dots]

/-- Cleaning a path keeps the place it leads to. -/
theorem loc_clean (a : List Str) (p : Str) : loc a (clean p) = loc a p := by
  obtain ⟨s, rooted, hr, hg, hl, hc⟩ := clean_cases p
  rw [hl, hc]
  cases rooted with
  | true =>
    rw [if_pos (hr.1 rfl), written_true hg, if_neg (by simp)]
    have hd : dots s.2 = [] := by rw [hg.zero rfl]; rfl
    have hk := fold_kept hg []
    rw [hd, List.append_nil] at hk
    rw [← hk]
    simp only [loc, List.reverse_append, List.reverse_cons, List.reverse_nil, List.nil_append, List.singleton_append,
      List.head?_cons, if_true]
    rw [parts, if_pos rfl, List.foldl_cons]
    show (parts 47 (rj s.1).reverse).foldl step [] = _
    by_cases h : s.1 = []
    · rw [h]; rfl
    · rw [parts_rj h (fun e he => (hg.plain e he).2.2.2)]
  | false =>
    have h47 : p.head? ≠ some 47 := fun h => by cases hr.2 h
    rw [if_neg h47, written_false, ← fold_kept hg]
    by_cases h : s.1 ++ dots s.2 = []
    · simp [h, rj, loc, parts, step]
    · have hm : ∀ e ∈ s.1 ++ dots s.2, e ≠ [] ∧ (47 : UInt8) ∉ e := fun e he => kept_mem hg he
      have hp := parts_rj h (fun e he => (hm e he).2)
      rw [if_neg, loc, hp, if_neg]
      · intro hh
        cases hq : (rj (s.1 ++ dots s.2)).reverse with
        | nil => rw [hq] at hh; cases hh
        | cons c t =>
          rw [hq] at hh hp
          simp only [List.head?_cons, Option.some.injEq] at hh
          subst hh
          rw [parts, if_pos rfl] at hp
          have : [] ∈ (s.1 ++ dots s.2).reverse := by rw [← hp]; simp
          exact (hm [] (List.mem_reverse.1 this)).1 rfl
      · intro hh
        rw [hh] at hp
        have : [] ∈ (s.1 ++ dots s.2).reverse := by rw [← hp]; simp [parts]
        exact (hm [] (List.mem_reverse.1 this)).1 rfl

theorem rj_absolute {es : List Str} (h : es ≠ []) : 47 :: (rj es).reverse = absolute es.reverse := by
  rw [absolute, if_neg (by simpa using h)]
  induction es with
  | nil => exact absurd rfl h
  | cons e es ih =>
    cases es with
    | nil => simp [rj]
    | cons f es =>
      rw [rj_cons (by simp), List.reverse_cons, List.flatMap_append, ← ih (by simp)]
      simp

/-- Cleaning a path that begins at the root gives the path of the place it leads to. -/
theorem clean_rooted {p : Str} (h : p.head? = some 47) (a : List Str) : clean p = absolute (loc a p) := by
  obtain ⟨s, rooted, hr, hg, hl, hc⟩ := clean_cases p
  obtain rfl := hr.2 h
  rw [hl, hc, if_pos h, written_true hg, if_neg (by simp)]
  have hv : val [] s = s.1.reverse := by
    rw [val, hg.zero rfl]; rfl
  rw [hv]
  by_cases h1 : s.1 = []
  · rw [h1]; rfl
  · rw [← rj_absolute h1]; simp

theorem loc_nil (a : List Str) : loc a [] = a := by simp [loc, parts, step]

theorem loc_slash (a : List Str) {p q : Str} (hp : p ≠ []) (hq : q.head? ≠ some 47) :
    loc a (p ++ 47 :: q) = loc (loc a p) q := by
  rw [loc, parts_snoc, List.foldl_append]
  conv_rhs => rw [loc, if_neg hq]
  cases p with
  | nil => exact absurd rfl hp
  | cons c p => rfl

theorem join_eq {p q : Str} (hp : p ≠ []) (hq : q ≠ []) : join p q = clean (p ++ 47 :: q) := by
  rw [join, if_pos hp, if_pos hq]

theorem loc_join (a : List Str) {p q : Str} (hp : p ≠ []) (hq : q.head? ≠ some 47) :
    loc a (join p q) = loc (loc a p) q := by
  by_cases h : q = []
  · rw [join, if_pos hp, if_neg (by simp [h]), loc_clean, h, loc_nil]
  · rw [join_eq hp h, loc_clean, loc_slash a hp hq]

theorem isAbs_iff {p : Str} : isAbs p = true ↔ p.head? = some 47 := by
  cases p <;> simp [isAbs]

/-- `Abs` gives the path of the place. -/
theorem abs_eq {wd : Str} (hw : wd.head? = some 47) (p : Str) (a : List Str) :
    abs wd p = absolute (loc (loc a wd) p) := by
  have hwn : wd ≠ [] := fun h => by rw [h] at hw; cases hw
  rw [abs]
  split
  · rename_i h
    exact clean_rooted (isAbs_iff.1 h) _
  · rename_i h
    have hp : p.head? ≠ some 47 := fun e => h (isAbs_iff.2 e)
    by_cases hn : p = []
    · rw [join, if_pos hwn, if_neg (by simp [hn]), clean_rooted hw a, hn, loc_nil]
    · rw [join_eq hwn hn, clean_rooted (a := a), loc_slash a hwn hp]
      cases wd with
      | nil => exact absurd rfl hwn
      | cons c wd => exact hw

theorem mem_takeWhile {f : UInt8 → Bool} {c : UInt8} {l : List UInt8} (h : c ∈ l.takeWhile f) : f c = true := by
  induction l with
  | nil => cases h
  | cons a l ih =>
    rw [List.takeWhile_cons] at h
    split at h
    · rcases List.mem_cons.1 h with rfl | h
      · assumption
      · exact ih h
    · cases h

theorem takeWhile_self {f : UInt8 → Bool} {l : List UInt8} (h : ∀ c ∈ l, f c = true) : l.takeWhile f = l := by
  induction l with
  | nil => rfl
  | cons a l ih => rw [List.takeWhile_cons, if_pos (h a (by simp)), ih (fun c hc => h c (by simp [hc]))]

/-- The directory part of a path and its last element. -/
theorem dir_split (p : Str) : ∃ q e, p = q ++ e ∧ (47 : UInt8) ∉ e ∧ (q = [] ∨ ∃ q', q = q' ++ [47]) ∧
    dir p = clean q := by
  refine ⟨(p.reverse.dropWhile (fun c => c ≠ 47)).reverse, (p.reverse.takeWhile (fun c => c ≠ 47)).reverse, ?_, ?_, ?_, rfl⟩
  · rw [← List.reverse_append, List.takeWhile_append_dropWhile, List.reverse_reverse]
  · intro h
    have := mem_takeWhile (List.mem_reverse.1 h)
    simp at this
  · cases h : p.reverse.dropWhile (fun c => c ≠ 47) with
    | nil => exact .inl rfl
    | cons c t =>
      have := List.head_dropWhile_not (fun c => decide (c ≠ 47)) (l := p.reverse) (by rw [h]; simp)
      simp only [h, List.head_cons, decide_eq_false_iff_not, not_not] at this
      subst this
      exact .inr ⟨t.reverse, by simp⟩

theorem loc_dir (a : List Str) {p : Str} {ps : List Str} {e : Str} (h : parts 47 p = ps ++ [e]) :
    loc a p = step (loc a (dir p)) e := by
  obtain ⟨q, f, rfl, hf, hq, hd⟩ := dir_split p
  rw [hd, loc_clean]
  rcases hq with rfl | ⟨q', rfl⟩
  · rw [List.nil_append, parts_plain hf] at h
    have he : e = f := by
      have := congrArg List.getLast? h
      simpa using this.symm
    subst he
    rw [List.nil_append, loc_nil, loc, parts_plain hf, if_neg]
    · rfl
    · intro h47
      cases e with
      | nil => cases h47
      | cons c e =>
        simp only [List.head?_cons, Option.some.injEq] at h47
        exact hf (by simp [h47])
  · rw [List.append_assoc, List.singleton_append] at h ⊢
    rw [parts_snoc, parts_plain hf] at h
    have he : e = f := by
      have := congrArg List.getLast? h
      simpa using this.symm
    subst he
    rw [loc, loc, parts_snoc, parts_snoc, parts_plain hf, List.foldl_append, List.foldl_append]
    have : (q' ++ 47 :: e).head? = (q' ++ [47]).head? := by cases q' <;> rfl
    rw [this]
    simp [parts, step]

theorem loc_plain {es : List Str} (h : ∀ e ∈ es, Plain e) (a : List Str) : loc a (absolute es) = es := by
  rw [absolute]
  split
  · rename_i h1; rw [h1]; rfl
  · rename_i h1
    have h2 : es.reverse ≠ [] := by simpa using h1
    have := rj_absolute h2
    rw [List.reverse_reverse, absolute, if_neg h1] at this
    rw [← this, loc, List.head?_cons, if_pos rfl, parts, if_pos rfl,
      parts_rj h2 (fun e he => (h e (List.mem_reverse.1 he)).2.2.2), List.reverse_reverse, List.foldl_cons]
    show es.foldl step [] = es
    rw [fold_plain h]; rfl

theorem step_all_plain {a : List Str} {e : Str} (ha : ∀ x ∈ a, Plain x) (he : (47 : UInt8) ∉ e) :
    ∀ x ∈ step a e, Plain x := by
  rw [step]
  split
  · exact ha
  split
  · exact fun x hx => ha x (List.dropLast_subset _ hx)
  · rename_i h1 h2
    intro x hx
    rcases List.mem_append.1 hx with hx | hx
    · exact ha x hx
    · obtain rfl := List.mem_singleton.1 hx
      exact ⟨fun e => h1 (.inl e), fun e => h1 (.inr e), h2, he⟩

/-- A place has names on the way to it that files can have. -/
theorem loc_all_plain {a : List Str} (ha : ∀ x ∈ a, Plain x) (p : Str) : ∀ x ∈ loc a p, Plain x := by
  rw [loc]
  have : ∀ es : List Str, (∀ e ∈ es, (47 : UInt8) ∉ e) → ∀ b : List Str, (∀ x ∈ b, Plain x) →
      ∀ x ∈ es.foldl step b, Plain x := by
    intro es
    induction es with
    | nil => exact fun _ b hb => hb
    | cons e es ih =>
      exact fun he b hb => ih (fun x hx => he x (by simp [hx])) _ (step_all_plain hb (he e (by simp)))
  refine this _ (fun e he => parts_mem he) _ ?_
  split
  · simp
  · exact ha

theorem base_self {p : Str} : base p = p ↔ (p ≠ [] ∧ (47 : UInt8) ∉ p) ∨ p = [47] := by
  cases hp : p with
  | nil => simp [base]
  | cons c rest =>
    rw [← hp]
    have hne : p ≠ [] := by simp [hp]
    have hb : base p = (if ((((p.reverse.dropWhile (fun c => c = 47)).reverse).reverse.takeWhile
        (fun c => c ≠ 47)).reverse) = [] then b!"/" else
        ((((p.reverse.dropWhile (fun c => c = 47)).reverse).reverse.takeWhile (fun c => c ≠ 47)).reverse)) := by
      rw [hp]; rfl
    rw [hb]
    constructor
    · intro h
      split at h
      · exact .inr h.symm
      · refine .inl ⟨hne, ?_⟩
        intro h47
        rw [← h] at h47
        have := mem_takeWhile (List.mem_reverse.1 h47)
        simp at this
    · rintro (⟨_, h47⟩ | rfl)
      · have h1 : p.reverse.dropWhile (fun c => decide (c = 47)) = p.reverse := by
          cases hr : p.reverse with
          | nil => rfl
          | cons d t =>
            have : d ≠ 47 := by
              rintro rfl
              exact h47 (List.mem_reverse.1 (by rw [hr]; simp))
            simp [this]
        have h2 : p.reverse.takeWhile (fun c => decide (c ≠ 47)) = p.reverse := by
          refine takeWhile_self ?_
          intro d hd
          have : d ≠ 47 := by
            rintro rfl
            exact h47 (List.mem_reverse.1 hd)
          simpa using this
        rw [h1, List.reverse_reverse, h2, List.reverse_reverse, if_neg hne]
      · rfl

end Verif.Path
