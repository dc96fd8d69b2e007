import Verif.Path.Model
import Verif.Path.Spec

/-!
# Cleaning a path keeps the place it leads to: helper lemmas
-/

namespace Verif.Path
open Verif Spec

/-! ## The parts of a path -/

theorem parts_plain {sep : UInt8} {e : Str} (h : sep ∉ e) : parts sep e = [e] := by
  induction e with
  | nil => rfl
  | cons c e ih =>
    simp only [List.mem_cons, not_or] at h
    rw [parts, if_neg (Ne.symm h.1), ih h.2]

theorem parts_ne_nil {sep : UInt8} (p : Str) : parts sep p ≠ [] := by
  cases p with
  | nil => simp [parts]
  | cons c p => rw [parts]; split <;> [simp; (split <;> simp)]

theorem parts_append {sep : UInt8} {e : Str} (h : sep ∉ e) (t : Str) :
    parts sep (e ++ sep :: t) = e :: parts sep t := by
  induction e with
  | nil => simp [parts]
  | cons c e ih =>
    simp only [List.mem_cons, not_or] at h
    rw [List.cons_append, parts, if_neg (Ne.symm h.1), ih h.2]

theorem parts_snoc {sep : UInt8} (p t : Str) :
    parts sep (p ++ sep :: t) = parts sep p ++ parts sep t := by
  induction p with
  | nil => simp [parts]
  | cons c p ih =>
    rw [List.cons_append, parts, ih, parts]
    split
    · simp
    · cases h : parts sep p with
      | nil => exact absurd h (parts_ne_nil p)
      | cons e es => simp

theorem parts_mem {sep : UInt8} {p e : Str} (h : e ∈ parts sep p) : sep ∉ e := by
  induction p generalizing e with
  | nil => simp [parts] at h; simp [h]
  | cons c p ih =>
    rw [parts] at h
    split at h
    · simp only [List.mem_cons] at h
      rcases h with rfl | h
      · simp
      · exact ih h
    · rename_i hc
      cases h2 : parts sep p with
      | nil => exact absurd h2 (parts_ne_nil p)
      | cons a es =>
        rw [h2] at h ih
        simp only [List.mem_cons] at h
        rcases h with rfl | h
        · simp only [List.mem_cons, not_or]
          exact ⟨Ne.symm hc, ih (by simp)⟩
        · exact ih (by simp [h])

/-! ## What the loop has written -/

/-- The elements kept so far: the names, last one first, and the number of `..` before them. -/
abbrev Kept := List Str × Nat

/-- One element. -/
def keep (rooted : Bool) (s : Kept) (e : Str) : Kept :=
  if e = [] ∨ e = [46] then s
  else if e = [46, 46] then
    match s.1 with
    | _ :: ns => (ns, s.2)
    | [] => if rooted then s else ([], s.2 + 1)
  else (e :: s.1, s.2)

/-- The bytes of elements, last element and last byte first. -/
def rj : List Str → List UInt8
  | [] => []
  | [e] => e.reverse
  | e :: f :: es => e.reverse ++ 47 :: rj (f :: es)

theorem rj_cons {e : Str} {es : List Str} (h : es ≠ []) : rj (e :: es) = e.reverse ++ 47 :: rj es := by
  cases es with
  | nil => exact absurd rfl h
  | cons f es => rfl

def dots (k : Nat) : List Str := List.replicate k [46, 46]

def root (rooted : Bool) : List UInt8 := if rooted then [47] else []

def written (rooted : Bool) (s : Kept) : List UInt8 := rj (s.1 ++ dots s.2) ++ root rooted

def mark (rooted : Bool) (k : Nat) : Nat := (rj (dots k) ++ root rooted).length

structure Good (rooted : Bool) (s : Kept) : Prop where
  plain : ∀ e ∈ s.1, Plain e
  zero : rooted = true → s.2 = 0

theorem keep_good {rooted : Bool} {s : Kept} {e : Str} (h : Good rooted s) (he : (47 : UInt8) ∉ e) :
    Good rooted (keep rooted s e) := by
  rw [keep]
  split
  · exact h
  rename_i h1
  split
  · split
    · rename_i heq
      exact ⟨fun x hx => h.plain x (by rw [heq]; exact List.mem_cons_of_mem _ hx), h.zero⟩
    · split
      · exact h
      · rename_i hr
        exact ⟨by simp, fun e => absurd e hr⟩
  · rename_i h2
    refine ⟨?_, h.zero⟩
    intro x hx
    rcases List.mem_cons.1 hx with rfl | hx
    · exact ⟨fun e => h1 (.inl e), fun e => h1 (.inr e), h2, he⟩
    · exact h.plain x hx

theorem rj_length_pos {es : List Str} (h : es ≠ []) (hp : ∀ e ∈ es, e ≠ []) : 0 < (rj es).length := by
  cases es with
  | nil => exact absurd rfl h
  | cons e es =>
    have := List.length_pos_of_ne_nil (hp e (by simp))
    cases es with
    | nil => simpa [rj] using this
    | cons f es => simp [rj]; omega

theorem rj_mono (ns ds : List Str) (hp : ∀ e ∈ ns, e ≠ []) :
    (rj ds).length ≤ (rj (ns ++ ds)).length ∧ (ns ≠ [] → (rj ds).length < (rj (ns ++ ds)).length) := by
  induction ns with
  | nil => simp
  | cons e ns ih =>
    have ih := ih (fun x hx => hp x (by simp [hx]))
    have he := List.length_pos_of_ne_nil (hp e (by simp))
    suffices h : (rj ds).length < (rj (e :: ns ++ ds)).length from ⟨h.le, fun _ => h⟩
    rw [List.cons_append]
    by_cases h : ns ++ ds = []
    · simp only [List.append_eq_nil_iff] at h
      simp [h, rj, he]
    · rw [rj_cons h]
      simp only [List.length_append, List.length_reverse, List.length_cons]
      omega

theorem back_slash {dd : Nat} {u t : List UInt8} (hu : (47 : UInt8) ∉ u) (ht : dd ≤ t.length) :
    back dd (u ++ 47 :: t) = t := by
  induction u with
  | nil => simp [back]
  | cons c u ih =>
    simp only [List.mem_cons, not_or] at hu
    rw [List.cons_append, back, if_pos, ih hu.2]
    refine ⟨?_, Ne.symm hu.1⟩
    simp only [List.length_append, List.length_cons]
    omega

theorem back_root {u t : List UInt8} (hn : u ≠ []) (hu : (47 : UInt8) ∉ u) :
    back t.length (u ++ t) = t := by
  induction u with
  | nil => exact absurd rfl hn
  | cons c u ih =>
    simp only [List.mem_cons, not_or] at hu
    rw [List.cons_append, back]
    cases u with
    | nil => simp
    | cons d u =>
      rw [if_pos, ih (by simp) hu.2]
      exact ⟨by simp only [List.length_append, List.length_cons]; omega, Ne.symm hu.1⟩

theorem back_written {rooted : Bool} {e : Str} {ns : List Str} {k : Nat}
    (h : Good rooted (e :: ns, k)) :
    back (mark rooted k) (written rooted (e :: ns, k)) = written rooted (ns, k) := by
  have he := h.plain e (by simp)
  have hr : (47 : UInt8) ∉ e.reverse := by simpa using he.2.2.2
  have hne : e.reverse ≠ [] := by simpa using he.1
  simp only [written, List.cons_append]
  by_cases hn : ns ++ dots k = []
  · have hn' := List.append_eq_nil_iff.1 hn
    rw [hn, mark, hn'.2]
    exact back_root hne hr
  · rw [rj_cons hn, List.append_assoc, List.cons_append]
    refine back_slash hr ?_
    rw [mark]
    have := (rj_mono ns (dots k) (fun x hx => (h.plain x (by simp [hx])).1)).1
    simp only [List.length_append]
    omega

theorem mark_lt {rooted : Bool} {s : Kept} (h : Good rooted s) :
    mark rooted s.2 < (written rooted s).length ↔ s.1 ≠ [] := by
  have := rj_mono s.1 (dots s.2) (fun x hx => (h.plain x hx).1)
  simp only [mark, written, List.length_append]
  constructor
  · intro h2 h3
    rw [h3] at h2
    simp at h2
  · intro h2
    have := this.2 h2
    omega

theorem written_push {rooted : Bool} {s : Kept} (h : Good rooted s) {e : Str} :
    e.reverse ++ (if (rooted ∧ (written rooted s).length ≠ 1) ∨ (!rooted ∧ (written rooted s).length ≠ 0)
        then 47 :: written rooted s else written rooted s) = written rooted (e :: s.1, s.2) := by
  have hd : ∀ x ∈ s.1 ++ dots s.2, x ≠ [] := by
    intro x hx
    rcases List.mem_append.1 hx with hx | hx
    · exact (h.plain x hx).1
    · rw [dots, List.mem_replicate] at hx; simp [hx.2]
  obtain ⟨w, hw⟩ : ∃ w, written rooted s = w := ⟨_, rfl⟩
  rw [hw]
  simp only [written, List.cons_append] at hw ⊢
  by_cases hn : s.1 ++ dots s.2 = []
  · rw [hn] at hw ⊢
    subst hw
    cases rooted <;> simp [rj, root]
  · have := rj_length_pos hn hd
    rw [rj_cons hn, if_pos]
    · rw [← hw]; simp
    · rw [← hw]
      cases rooted
      · refine .inr ⟨rfl, ?_⟩
        simp only [root, Bool.false_eq_true, if_false, List.append_nil]
        omega
      · refine .inl ⟨rfl, ?_⟩
        simp only [root, if_true, List.length_append, List.length_cons, List.length_nil]
        omega

/-! ## The loop -/

theorem ends_iff {p : Str} : ends p = true ↔ p = [] ∨ ∃ t, p = 47 :: t := by
  cases p <;> simp [ends]

theorem fold_parts {rooted : Bool} {e t : Str} (he : (47 : UInt8) ∉ e) (ht : ends t = true) (s : Kept) :
    (parts 47 (e ++ t)).foldl (keep rooted) s = (parts 47 t).foldl (keep rooted) (keep rooted s e) := by
  rcases ends_iff.1 ht with rfl | ⟨u, rfl⟩
  · rw [List.append_nil, parts_plain he]
    simp [parts, keep]
  · rw [parts_append he, parts, if_pos rfl]
    simp [keep]

theorem copy_eq (p : Str) (out : List UInt8) :
    ∃ e t, p = e ++ t ∧ (47 : UInt8) ∉ e ∧ ends t = true ∧ copy p out = (e.reverse ++ out, t) := by
  induction p generalizing out with
  | nil => exact ⟨[], [], rfl, by simp, rfl, rfl⟩
  | cons c p ih =>
    rw [copy]
    split
    · rename_i h
      subst h
      exact ⟨[], 47 :: p, rfl, by simp, rfl, rfl⟩
    · rename_i h
      obtain ⟨e, t, h1, h2, h3, h4⟩ := ih (c :: out)
      refine ⟨c :: e, t, by simp [h1], ?_, h3, by simp [h4]⟩
      simp only [List.mem_cons, not_or]
      exact ⟨Ne.symm h, h2⟩

theorem keep_dots_snd {s : Kept} (h : s.1 = []) :
    written false ([], s.2 + 1) =
      46 :: 46 :: (if (written false s).length > 0 then 47 :: written false s else written false s) := by
  obtain ⟨ns, k⟩ := s
  subst h
  cases k with
  | zero => simp [written, dots, rj, root]
  | succ k =>
    have : (written false ([], k + 1)).length > 0 := by
      simp only [written, root, List.nil_append, Bool.false_eq_true, if_false, List.append_nil]
      exact rj_length_pos (by simp [dots]) (by simp [dots])
    simp only [this, if_true]
    simp only [written, root, List.nil_append, Bool.false_eq_true, if_false, List.append_nil]
    rw [dots, List.replicate_succ, rj_cons (by simp)]
    rfl

theorem cleanLoop_eq (rooted : Bool) (p : Str) (s : Kept) (h : Good rooted s) :
    cleanLoop rooted p (written rooted s) (mark rooted s.2) =
      written rooted ((parts 47 p).foldl (keep rooted) s) := by
  induction hl : p.length using Nat.strong_induction_on generalizing p s with
  | _ n ih =>
  subst hl
  cases p with
  | nil => simp [cleanLoop, parts, keep]
  | cons c rest =>
    rw [cleanLoop]
    split
    · rename_i hc
      subst hc
      rw [ih _ (by simp) rest s h rfl, parts, if_pos rfl]
      simp [keep]
    rename_i hc
    split
    · rename_i h1
      obtain ⟨rfl, h1⟩ := h1
      rw [ih _ (by simp) rest s h rfl, show (46 : UInt8) :: rest = [46] ++ rest from rfl,
        fold_parts (by decide) h1]
      simp [keep]
    rename_i h1
    split
    · rename_i h2
      obtain ⟨rfl, h2, h3⟩ := h2
      cases rest with
      | nil => cases h2
      | cons d t =>
        simp only [List.head?_cons, Option.some.injEq] at h2
        subst h2
        simp only [List.tail_cons] at h3 ⊢
        have hl : t.length < (46 :: 46 :: t : Str).length := by simp; omega
        rw [show (46 : UInt8) :: 46 :: t = [46, 46] ++ t from rfl, fold_parts (by decide) h3]
        have hg := keep_good (e := [46, 46]) h (by decide)
        obtain ⟨ns, k⟩ := s
        cases ns with
        | cons e ns =>
          have hk : keep rooted (e :: ns, k) [46, 46] = (ns, k) := by simp [keep]
          rw [hk] at hg ⊢
          rw [if_pos ((mark_lt h).2 (by simp)), back_written h, ih _ hl t (ns, k) hg rfl]
        | nil =>
          rw [if_neg (fun x => (mark_lt h).1 x rfl)]
          cases rooted with
          | true =>
            have hk : keep true ([], k) [46, 46] = ([], k) := by simp [keep]
            rw [hk]
            simp only [Bool.not_true, Bool.false_eq_true, if_false]
            exact ih _ hl t ([], k) h rfl
          | false =>
            have hk : keep false ([], k) [46, 46] = ([], k + 1) := by simp [keep]
            rw [hk] at hg ⊢
            simp only [Bool.not_false, if_true]
            rw [← keep_dots_snd (s := ([], k)) rfl]
            have : (written false ([], k + 1)).length = mark false (k + 1) := rfl
            rw [this]
            exact ih _ hl t ([], k + 1) hg rfl
    · rename_i h2
      obtain ⟨e, t, he, hs, ht, hc2⟩ := copy_eq rest
        (c :: (if (rooted ∧ (written rooted s).length ≠ 1) ∨ (!rooted ∧ (written rooted s).length ≠ 0)
          then 47 :: written rooted s else written rooted s))
      have hce : (47 : UInt8) ∉ c :: e := by
        simp only [List.mem_cons, not_or]; exact ⟨Ne.symm hc, hs⟩
      have hk : keep rooted s (c :: e) = ((c :: e) :: s.1, s.2) := by
        rw [keep, if_neg, if_neg]
        · intro h3
          obtain ⟨rfl, rfl⟩ := List.cons.inj h3
          exact h2 ⟨rfl, by simp [he], by simpa [he] using ht⟩
        · rintro (h3 | h3)
          · cases h3
          · obtain ⟨rfl, rfl⟩ := List.cons.inj h3
            exact h1 ⟨rfl, by simpa [he] using ht⟩
      have hg := keep_good h hce
      simp only [hc2]
      rw [hk] at hg
      have hw : e.reverse ++ c :: (if (rooted ∧ (written rooted s).length ≠ 1) ∨
          (!rooted ∧ (written rooted s).length ≠ 0) then 47 :: written rooted s else written rooted s) =
          written rooted ((c :: e) :: s.1, s.2) := by
        rw [← written_push h]
        simp
      rw [hw, show c :: rest = (c :: e) ++ t by rw [he]; rfl, fold_parts hce ht, hk]
      refine ih _ ?_ t _ hg rfl
      have := congrArg List.length he
      simp only [List.length_append, List.length_cons] at this ⊢
      omega

end Verif.Path
