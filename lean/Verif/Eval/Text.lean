import Verif.Eval.Decode

/-!
# The printed text: UTF-8, colours, and printing it again
-/

namespace Verif.Eval
open Verif Json Spec

/-! ## UTF-8 -/

theorem valid_append {a b : Str} (ha : Utf8.Valid a) (hb : Utf8.Valid b) : Utf8.Valid (a ++ b) := by
  obtain ⟨x, rfl⟩ := ha
  obtain ⟨y, rfl⟩ := hb
  exact ⟨x ++ y, by rw [List.flatMap_append]⟩

theorem valid_ascii {a : Str} (h : ∀ c ∈ a, c.toNat < 128) : Utf8.Valid a := by
  rw [Utf8.valid_iff_encode]
  refine ⟨a.map UInt8.toNat, ?_, ?_⟩
  · intro r hr
    obtain ⟨c, hc, rfl⟩ := List.mem_map.1 hr
    exact .inl (by have := h c hc; omega)
  · induction a with
    | nil => rfl
    | cons c a ih =>
      rw [List.map_cons, Utf8.encode, List.flatMap_cons, encode1_low (h c (by simp))]
      rw [show UInt8.ofNat c.toNat = c by simp]
      rw [List.singleton_append, List.cons_inj_right]
      exact ih fun d hd => h d (by simp [hd])

theorem valid_encode1 {r : Nat} (h : Utf8.Scalar r) : Utf8.Valid (Utf8.encode1 r) := by
  have := Utf8.valid_encode (rs := [r]) (by simpa using h)
  simpa [Utf8.encode] using this

theorem hexDigit_ascii {n : Nat} (h : n < 16) : (hexDigit n).toNat < 128 ∧ (hexDigit n) ≠ 27 := by
  have : ∀ n < 16, (hexDigit n).toNat < 128 ∧ (hexDigit n) ≠ 27 := by decide
  exact this n h

theorem quoteRune_valid {r : Nat} (h : Utf8.Scalar r) : Utf8.Valid (quoteRune r) := by
  unfold quoteRune
  split
  · rename_i h1
    split
    · rename_i h2
      refine valid_ascii ?_
      rcases h2 with rfl | rfl <;> decide +kernel
    split
    · exact valid_ascii (by decide +kernel)
    split
    · exact valid_ascii (by decide +kernel)
    split
    · exact valid_ascii (by decide +kernel)
    split
    · refine valid_append (valid_ascii (by decide +kernel)) (valid_ascii ?_)
      intro c hc
      simp only [List.mem_cons, List.not_mem_nil, or_false] at hc
      rcases hc with rfl | rfl
      · exact (hexDigit_ascii (by omega)).1
      · exact (hexDigit_ascii (by omega)).1
    · rw [← encode1_low h1]
      exact valid_encode1 h
  split
  · refine valid_append (valid_ascii (by decide +kernel)) (valid_ascii ?_)
    intro c hc
    simp only [List.mem_cons, List.not_mem_nil, or_false] at hc
    subst hc
    exact (hexDigit_ascii (by omega)).1
  · exact valid_encode1 h

theorem quote_valid (s : Str) : Utf8.Valid (quote s) := by
  refine valid_append (valid_append (valid_ascii (by decide +kernel)) ?_) (valid_ascii (by decide +kernel))
  have := Utf8.scalar_decode s
  revert this
  generalize Utf8.decode s = rs
  intro this
  induction rs with
  | nil => exact valid_ascii (by simp)
  | cons r rs ih =>
    rw [List.flatMap_cons]
    exact valid_append (quoteRune_valid (this r (by simp))) (ih fun x hx => this x (by simp [hx]))

theorem join_valid {rows : List Str} (h : ∀ r ∈ rows, Utf8.Valid r) : Utf8.Valid (joinRows rows) := by
  induction rows with
  | nil => exact valid_ascii (by simp [joinRows])
  | cons r rows ih =>
    cases rows with
    | nil => exact h r (by simp)
    | cons r' rows =>
      rw [joinRows]
      exact valid_append (valid_append (h r (by simp)) (valid_ascii (by decide +kernel)))
        (ih fun x hx => h x (by simp [hx]))

theorem indent_ascii (d : Nat) : ∀ c ∈ indent d, c.toNat < 128 := by
  intro c hc
  rw [List.eq_of_mem_replicate hc]
  decide

theorem isNum_ascii : ∀ c : UInt8, isNum c = true → c.toNat < 128 ∧ c ≠ 27 := by decide +kernel

theorem picked_mem {α : Type} {a : GoMap Str α} {keys : List Str} {x : α} (h : x ∈ keys.filterMap a.get?) :
    ∃ k, (k, x) ∈ a := by
  obtain ⟨k, -, hk⟩ := List.mem_filterMap.1 h
  exact ⟨k, GoMap.mem_of_get? hk⟩

section
variable {F : Type} (fl : Floats F)

mutual
theorem pretty_valid (hf : Sound fl) (d : Nat) (t : Tree F) (h : Good t) :
    Utf8.Valid (pretty fl false d t) := by
  cases t with
  | null => simp only [pretty, paint]; exact valid_ascii (by decide +kernel)
  | bool b => cases b <;> simp only [pretty, paint] <;> exact valid_ascii (by decide +kernel)
  | num x =>
    simp only [pretty, paint]
    exact valid_ascii fun c hc => (isNum_ascii c (number_isNum (hf.number x) c hc)).1
  | str s => simp only [pretty, paint]; exact quote_valid s
  | arr l =>
    simp only [Good] at h
    have he := elems_valid hf d l h
    simp only [pretty]
    split
    · exact valid_ascii (by decide +kernel)
    · exact valid_append (valid_append (valid_append (valid_append (valid_ascii (by decide +kernel)) (join_valid he))
        (valid_ascii (by decide +kernel))) (valid_ascii (indent_ascii _))) (valid_ascii (by decide +kernel))
  | obj m =>
    simp only [Good] at h
    have he := rows_valid hf d m h.2
    simp only [pretty]
    split
    · exact valid_ascii (by decide +kernel)
    · refine valid_append (valid_append (valid_append (valid_append (valid_ascii (by decide +kernel)) (join_valid ?_))
        (valid_ascii (by decide +kernel))) (valid_ascii (indent_ascii _))) (valid_ascii (by decide +kernel))
      intro r hr
      obtain ⟨k, hk⟩ := picked_mem hr
      exact he _ hk

theorem elems_valid (hf : Sound fl) (d : Nat) (l : List (Tree F)) (h : GoodElems l) :
    ∀ r ∈ prettyElems fl false d l, Utf8.Valid r := by
  cases l with
  | nil => intro r hr; cases hr
  | cons v l =>
    simp only [GoodElems] at h
    have h1 := pretty_valid hf (d + 1) v h.1
    have h2 := elems_valid hf d l h.2
    intro r hr
    simp only [prettyElems, List.mem_cons] at hr
    rcases hr with rfl | hr
    · exact valid_append (valid_ascii (indent_ascii _)) h1
    · exact h2 r hr

theorem rows_valid (hf : Sound fl) (d : Nat) (m : List (Str × Tree F)) (h : GoodRows m) :
    ∀ p ∈ prettyRows fl false d m, Utf8.Valid p.2 := by
  cases m with
  | nil => intro r hr; cases hr
  | cons q m =>
    obtain ⟨k, v⟩ := q
    simp only [GoodRows] at h
    have h1 := pretty_valid hf (d + 1) v h.2.2.1
    have h2 := rows_valid hf d m h.2.2.2
    intro r hr
    simp only [prettyRows, List.mem_cons] at hr
    rcases hr with rfl | hr
    · exact valid_append (valid_append (valid_append (valid_ascii (indent_ascii _))
        (valid_append (valid_append (valid_ascii (by decide +kernel)) h.2.1) (valid_ascii (by decide +kernel))))
        (valid_ascii (by decide +kernel))) h1
    · exact h2 r hr
end

end

/-! ## Colours -/

theorem uncolour_skip {code t : Str} (h : ∀ c ∈ code, Code c) :
    uncolour true (code ++ 109 :: t) = uncolour false t := by
  induction code with
  | nil => simp [uncolour]
  | cons c code ih =>
    have hc := h c (by simp)
    have hm : c ≠ 109 := by
      rintro rfl
      exact absurd hc (by decide)
    simpa [uncolour, hc, hm] using ih fun d hd => h d (by simp [hd])

theorem uncolour_plain {s : Str} (h : ∀ c ∈ s, c ≠ 27) (t : Str) :
    uncolour false (s ++ t) = s ++ uncolour false t := by
  induction s with
  | nil => rfl
  | cons c s ih =>
    have hc := h c (by simp)
    rw [List.cons_append, List.cons_append, ← ih fun d hd => h d (by simp [hd])]
    rw [uncolour]
    rintro t' e -
    exact absurd e hc

theorem uncolour_paint (on : Bool) {code s : Str} (hc : ∀ c ∈ code, Code c) (hs : ∀ c ∈ s, c ≠ 27)
    (t : Str) : uncolour false (paint on code s ++ t) = paint false code s ++ uncolour false t := by
  cases on
  · exact uncolour_plain hs t
  simp only [paint, if_true, Bool.false_eq_true, if_false, List.append_assoc, List.cons_append,
    List.nil_append]
  rw [uncolour, uncolour_skip hc, uncolour_plain hs, uncolour]
  rw [show (48 : UInt8) :: 109 :: t = [48] ++ 109 :: t from rfl, uncolour_skip (by decide +kernel)]

theorem quoteRune_no_esc (r : Nat) : ∀ c ∈ quoteRune r, c ≠ 27 := by
  unfold quoteRune
  split
  · rename_i h1
    split
    · rename_i h2
      rcases h2 with rfl | rfl <;> decide +kernel
    split
    · decide +kernel
    split
    · decide +kernel
    split
    · decide +kernel
    split
    · intro c hc
      simp only [List.mem_append, List.mem_cons, List.not_mem_nil, or_false] at hc
      rcases hc with hc | rfl | rfl
      · rcases hc with rfl | rfl | rfl | rfl <;> decide
      · exact (hexDigit_ascii (by omega)).2
      · exact (hexDigit_ascii (by omega)).2
    · rename_i h6
      intro c hc e
      simp only [List.mem_cons, List.not_mem_nil, or_false] at hc
      have := Utf8.toNat_ofNat (n := r) (by omega)
      rw [← hc, e] at this
      simp at this
      omega
  split
  · intro c hc
    simp only [List.mem_append, List.mem_cons, List.not_mem_nil, or_false] at hc
    rcases hc with hc | rfl
    · rcases hc with rfl | rfl | rfl | rfl | rfl <;> decide
    · exact (hexDigit_ascii (by omega)).2
  · rename_i h1 h2
    intro c hc e
    have := encode1_high h1 c hc
    rw [e] at this
    simp at this

theorem quote_no_esc (s : Str) : ∀ c ∈ quote s, c ≠ 27 := by
  intro c hc
  simp only [quote, List.mem_append, List.mem_cons, List.not_mem_nil, or_false, List.mem_flatMap] at hc
  rcases hc with (rfl | ⟨r, -, hr⟩) | rfl
  · decide
  · exact quoteRune_no_esc r c hr
  · decide

/-- The second text is the first without its colours, whatever follows. -/
def Bare (a b : Str) : Prop := ∀ t, uncolour false (a ++ t) = b ++ uncolour false t

theorem bare_append {a b c d : Str} (h1 : Bare a b) (h2 : Bare c d) : Bare (a ++ c) (b ++ d) := by
  intro t
  rw [List.append_assoc, h1, h2, List.append_assoc]

theorem bare_plain {s : Str} (h : ∀ c ∈ s, c ≠ 27) : Bare s s := uncolour_plain h

theorem bare_indent (d : Nat) : Bare (indent d) (indent d) :=
  bare_plain fun c hc => by rw [List.eq_of_mem_replicate hc]; decide

theorem bare_join {a b : List Str} (h : List.Forall₂ Bare a b) : Bare (joinRows a) (joinRows b) := by
  induction h with
  | nil => exact bare_plain (by simp [joinRows])
  | cons hr hl ih =>
    cases hl with
    | nil => exact hr
    | cons h1 h2 => exact bare_append (bare_append hr (bare_plain (by decide +kernel))) ih

theorem picked_both {α β : Type} {R : α → β → Prop} {a : GoMap Str α} {b : GoMap Str β}
    (h : List.Forall₂ (fun p q => p.1 = q.1 ∧ R p.2 q.2) a b) (keys : List Str) :
    List.Forall₂ R (keys.filterMap a.get?) (keys.filterMap b.get?) := by
  induction keys with
  | nil => exact .nil
  | cons k keys ih =>
    rcases get_related (R := fun _ => R) h k with ⟨h1, h2⟩ | ⟨x, y, h1, h2, hr⟩
    · simpa [List.filterMap_cons, h1, h2] using ih
    · simp only [List.filterMap_cons, h1, h2]
      exact .cons hr ih

section
variable {F : Type} (fl : Floats F)

mutual
theorem pretty_bare (hf : Sound fl) (on : Bool) (d : Nat) (t : Tree F) (h : Good t) :
    Bare (pretty fl on d t) (pretty fl false d t) := by
  cases t with
  | null => simp only [pretty]; exact uncolour_paint on (by decide +kernel) (by decide +kernel)
  | bool b => cases b <;> simp only [pretty] <;> exact uncolour_paint on (by decide +kernel) (by decide +kernel)
  | num x =>
    simp only [pretty]
    exact uncolour_paint on (by decide +kernel) fun c hc => (isNum_ascii c (number_isNum (hf.number x) c hc)).2
  | str s => simp only [pretty]; exact uncolour_paint on (by decide +kernel) (quote_no_esc s)
  | arr l =>
    simp only [Good] at h
    have he := elems_bare hf on d l h
    simp only [pretty]
    split
    · exact bare_plain (by decide +kernel)
    · exact bare_append (bare_append (bare_append (bare_append (bare_plain (by decide +kernel)) (bare_join he))
        (bare_plain (by decide +kernel))) (bare_indent _)) (bare_plain (by decide +kernel))
  | obj m =>
    simp only [Good] at h
    have he := rows_bare hf on d m h.2
    simp only [pretty]
    split
    · exact bare_plain (by decide +kernel)
    · exact bare_append (bare_append (bare_append (bare_append (bare_plain (by decide +kernel))
        (bare_join (picked_both he _))) (bare_plain (by decide +kernel))) (bare_indent _)) (bare_plain (by decide +kernel))

theorem elems_bare (hf : Sound fl) (on : Bool) (d : Nat) (l : List (Tree F)) (h : GoodElems l) :
    List.Forall₂ Bare (prettyElems fl on d l) (prettyElems fl false d l) := by
  cases l with
  | nil => exact .nil
  | cons v l =>
    simp only [GoodElems] at h
    simp only [prettyElems]
    exact .cons (bare_append (bare_indent d) (pretty_bare hf on (d + 1) v h.1)) (elems_bare hf on d l h.2)

theorem rows_bare (hf : Sound fl) (on : Bool) (d : Nat) (m : List (Str × Tree F)) (h : GoodRows m) :
    List.Forall₂ (fun p q => p.1 = q.1 ∧ Bare p.2 q.2) (prettyRows fl on d m) (prettyRows fl false d m) := by
  cases m with
  | nil => exact .nil
  | cons q m =>
    obtain ⟨k, v⟩ := q
    simp only [GoodRows] at h
    simp only [prettyRows]
    refine .cons ⟨rfl, ?_⟩ (rows_bare hf on d m h.2.2.2)
    refine bare_append (bare_append (bare_append (bare_indent d) (uncolour_paint on (by decide +kernel) ?_))
      (bare_plain (by decide +kernel))) (pretty_bare hf on (d + 1) v h.2.2.1)
    intro c hc e
    simp only [List.mem_append, List.mem_cons, List.not_mem_nil, or_false] at hc
    subst e
    rcases hc with (hc | hc) | hc
    · cases hc
    · have := (h.1 _ hc).1
      simp at this
    · cases hc
end

/-! ## Printing again -/

mutual
/-- The tree of what is shown. -/
def sorted : Tree F → Tree F
  | .arr l => .arr (sortedElems l)
  | .obj m => .obj ((sortStrs (m.map Prod.fst)).filterMap fun k =>
      (GoMap.get? (sortedRows m) k).map fun v => (k, v))
  | t => t

def sortedElems : List (Tree F) → List (Tree F)
  | [] => []
  | v :: l => sorted v :: sortedElems l

def sortedRows : List (Str × Tree F) → List (Str × Tree F)
  | [] => []
  | (k, v) :: m => (k, sorted v) :: sortedRows m
end

theorem get_sortedRows (m : List (Str × Tree F)) (k : Str) :
    GoMap.get? (sortedRows m) k = (GoMap.get? m k).map sorted := by
  induction m with
  | nil => rfl
  | cons p m ih =>
    obtain ⟨j, v⟩ := p
    simp only [sortedRows, GoMap.get?_cons, ih]
    split <;> rfl

theorem set_fresh {m : GoMap Str (Tree F)} {k : Str} {x : Tree F} (h : k ∉ m.map Prod.fst) :
    m.set k x = m ++ [(k, x)] := by
  induction m with
  | nil => rfl
  | cons p m ih =>
    obtain ⟨a, w⟩ := p
    simp only [List.map_cons, List.mem_cons, not_or] at h
    rw [GoMap.set, if_neg (fun e => h.1 e.symm), ih h.2]
    rfl

/-- Members with different names are put into the map one after the other. -/
theorem decodeMembers_of {l : List (Str × Value)} {m : List (Str × Tree F)}
    (h : List.Forall₂ (fun p q => p.1 = q.1 ∧ decode fl p.2 = some q.2) l m) (m0 : GoMap Str (Tree F))
    (hn : (m0.map Prod.fst ++ m.map Prod.fst).Nodup) : decodeMembers fl l m0 = some (m0 ++ m) := by
  induction h generalizing m0 with
  | nil => simp [decodeMembers]
  | @cons p q l m hp _ ih =>
    obtain ⟨k, v⟩ := p
    obtain ⟨k', x⟩ := q
    obtain ⟨rfl, hx⟩ := hp
    simp only at hx
    simp only [decodeMembers, hx]
    rw [List.map_cons] at hn
    have hk : k ∉ m0.map Prod.fst := by
      intro hk
      rw [List.nodup_append] at hn
      exact hn.2.2 _ hk _ (by simp) rfl
    rw [set_fresh hk, ih (m0 ++ [(k, x)]) (by simpa using hn)]
    simp

theorem picked_pairs {α β : Type} {R : α → β → Prop} {a : GoMap Str α} {b : GoMap Str β}
    (h : List.Forall₂ (fun p q => p.1 = q.1 ∧ R p.2 q.2) a b) (keys : List Str) :
    List.Forall₂ (fun p q => p.1 = q.1 ∧ R p.2 q.2) (keys.filterMap fun k => (a.get? k).map fun v => (k, v))
      (keys.filterMap fun k => (b.get? k).map fun v => (k, v)) := by
  induction keys with
  | nil => exact .nil
  | cons k keys ih =>
    rcases get_related (R := fun _ => R) h k with ⟨h1, h2⟩ | ⟨x, y, h1, h2, hr⟩
    · simpa [List.filterMap_cons, h1, h2] using ih
    · simp only [List.filterMap_cons, h1, h2, Option.map_some]
      exact .cons ⟨rfl, hr⟩ ih

theorem sorted_keys (m : List (Str × Tree F)) :
    ((sortStrs (m.map Prod.fst)).filterMap fun k =>
      (GoMap.get? (sortedRows m) k).map fun v => (k, v)).map Prod.fst = sortStrs (m.map Prod.fst) := by
  have : ∀ keys : List Str, (∀ k ∈ keys, k ∈ m.map Prod.fst) →
      (keys.filterMap fun k => (GoMap.get? (sortedRows m) k).map fun v => (k, v)).map Prod.fst = keys := by
    intro keys h
    induction keys with
    | nil => rfl
    | cons k keys ih =>
      obtain ⟨x, hx⟩ := GoMap.exists_get?_of_mem_keys (h k (by simp))
      rw [List.filterMap_cons, get_sortedRows, hx]
      simp only [Option.map_some, List.map_cons]
      rw [ih fun j hj => h j (by simp [hj])]
  exact this _ fun k hk => mem_sortStrs.1 hk

mutual
theorem decode_shown (hf : Sound fl) (t : Tree F) (h : Good t) : decode fl (shown fl t) = some (sorted t) := by
  cases t with
  | null => rfl
  | bool b => rfl
  | num x => simp [shown, decode, hf.parse_print, sorted]
  | str s => rfl
  | arr l =>
    simp only [Good] at h
    simp only [shown, decode, elems_shown hf l h, sorted, Option.map_some]
  | obj m =>
    simp only [Good] at h
    simp only [shown, decode, sorted]
    rw [decodeMembers_of fl (picked_pairs (R := fun v x => decode fl v = some x) (rows_shown hf m h.2) _) [] (by
      rw [sorted_keys]; simpa using sortStrs_nodup h.1)]
    simp

theorem elems_shown (hf : Sound fl) (l : List (Tree F)) (h : GoodElems l) :
    decodeElems fl (shownElems fl l) = some (sortedElems l) := by
  cases l with
  | nil => rfl
  | cons v l =>
    simp only [GoodElems] at h
    simp only [shownElems, decodeElems, decode_shown hf v h.1, elems_shown hf l h.2, sortedElems,
      Option.map_some]

theorem rows_shown (hf : Sound fl) (m : List (Str × Tree F)) (h : GoodRows m) :
    List.Forall₂ (fun p q => p.1 = q.1 ∧ decode fl p.2 = some q.2) (shownRows fl m) (sortedRows m) := by
  cases m with
  | nil => exact .nil
  | cons q m =>
    obtain ⟨k, v⟩ := q
    simp only [GoodRows] at h
    simp only [shownRows, sortedRows]
    exact .cons ⟨rfl, decode_shown hf v h.2.2.1⟩ (rows_shown hf m h.2.2.2)
end

theorem get_prettyRows (on : Bool) (d : Nat) (m : List (Str × Tree F)) (k : Str) :
    GoMap.get? (prettyRows fl on d m) k = (GoMap.get? m k).map fun v =>
      indent d ++ paint on b!"34;1" (b!"\"" ++ k ++ b!"\"") ++ b!": " ++ pretty fl on (d + 1) v := by
  induction m with
  | nil => rfl
  | cons p m ih =>
    obtain ⟨j, v⟩ := p
    simp only [prettyRows, GoMap.get?_cons, ih]
    split
    · rename_i e; subst e; rfl
    · rfl

/-- Looking up the picked members. -/
theorem get_picked {α : Type} (b : GoMap Str α) (keys : List Str) (k : Str) (hk : k ∈ keys) :
    GoMap.get? (keys.filterMap fun k => (b.get? k).map fun v => (k, v)) k = b.get? k := by
  induction keys with
  | nil => cases hk
  | cons j keys ih =>
    by_cases e : j = k
    · subst e
      cases h : b.get? j with
      | none =>
        rw [List.filterMap_cons, h]
        simp only [Option.map_none]
        by_cases hj : j ∈ keys
        · rw [ih hj, h]
        · rw [GoMap.get?_eq_none]
          intro hm
          obtain ⟨p, hp, e⟩ := List.mem_map.1 hm
          obtain ⟨i, hi, e'⟩ := List.mem_filterMap.1 hp
          obtain ⟨x, -, rfl⟩ := Option.map_eq_some_iff.1 e'
          simp only at e
          exact hj (e ▸ hi)
      | some x => rw [List.filterMap_cons, h]; simp [GoMap.get?_cons]
    · have hk' : k ∈ keys := by
        rcases List.mem_cons.1 hk with rfl | hk
        · exact absurd rfl e
        · exact hk
      rw [List.filterMap_cons]
      cases b.get? j with
      | none => exact ih hk'
      | some x => simpa [GoMap.get?_cons, e] using ih hk'

mutual
theorem pretty_sorted (on : Bool) (d : Nat) (t : Tree F) : pretty fl on d (sorted t) = pretty fl on d t := by
  cases t with
  | null => rfl
  | bool b => rfl
  | num x => rfl
  | str s => rfl
  | arr l =>
    have he : (sortedElems l = []) = (l = []) := by cases l <;> simp [sortedElems]
    simp only [sorted, pretty, elems_sorted on d l, he]
  | obj m =>
    have hk := sorted_keys m
    have he : ((sortStrs (m.map Prod.fst)).filterMap fun k =>
        (GoMap.get? (sortedRows m) k).map fun v => (k, v)) = [] ↔ m = [] := by
      constructor
      · intro e
        rw [e] at hk
        cases m with
        | nil => rfl
        | cons p m =>
          have : p.1 ∈ sortStrs ((p :: m).map Prod.fst) := by simp
          rw [← hk] at this
          simp at this
      · rintro rfl; rfl
    have hs : sortStrs (sortStrs (m.map Prod.fst)) = sortStrs (m.map Prod.fst) :=
      sortStrs_congr (sortStrs_perm _)
    simp only [sorted, pretty]
    by_cases hm : m = []
    · rw [if_pos hm, if_pos (he.2 hm)]
    · rw [if_neg hm, if_neg fun e => hm (he.1 e), hk, hs]
      have hr := rows_sorted on d m
      have : (sortStrs (m.map Prod.fst)).filterMap (GoMap.get? (prettyRows fl on d
            ((sortStrs (m.map Prod.fst)).filterMap fun k =>
              (GoMap.get? (sortedRows m) k).map fun v => (k, v)))) =
          (sortStrs (m.map Prod.fst)).filterMap (GoMap.get? (prettyRows fl on d m)) := by
        refine List.filterMap_congr fun k hk => ?_
        rw [get_prettyRows, get_picked _ _ _ hk, ← get_prettyRows, hr]
      rw [this]

theorem elems_sorted (on : Bool) (d : Nat) (l : List (Tree F)) :
    prettyElems fl on d (sortedElems l) = prettyElems fl on d l := by
  cases l with
  | nil => rfl
  | cons v l => simp only [sortedElems, prettyElems, pretty_sorted on (d + 1) v, elems_sorted on d l]

theorem rows_sorted (on : Bool) (d : Nat) (m : List (Str × Tree F)) :
    prettyRows fl on d (sortedRows m) = prettyRows fl on d m := by
  cases m with
  | nil => rfl
  | cons q m =>
    obtain ⟨k, v⟩ := q
    simp only [sortedRows, prettyRows, pretty_sorted on (d + 1) v, rows_sorted on d m]
end

end

end Verif.Eval
