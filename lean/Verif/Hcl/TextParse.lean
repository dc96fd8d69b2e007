import Verif.Hcl.TextLemmas

/-!
# Reading what was printed: values and items
-/

namespace Verif.Hcl
open Verif Read

section
variable {N : Type} {isPrint : Nat → Bool} {showN : N → Str} {readN : Str → Option N}

/-! ## The words of values -/

def numToks : Str → List Tok
  | 0x2D :: s => [.sym 0x2D, .num s]
  | s => [.num s]

theorem numToks_digits {s : Str} (h : Digits s) : numToks s = [.num s] := by
  cases s with
  | nil => cases h
  | cons c s =>
    have : c ≠ 0x2D := by rintro rfl; exact absurd h.1 (by decide)
    rw [numToks.eq_def]
    split <;> simp_all

mutual
def valueToks (showN : N → Str) : Value N → List Tok
  | .null => [.ident b!"null"]
  | .str s => [.str s]
  | .bool true => [.ident b!"true"]
  | .bool false => [.ident b!"false"]
  | .num n => numToks (showN n)
  | .list l => .sym 0x5B :: elemsToks showN l
def elemsToks (showN : N → Str) : List (Value N) → List Tok
  | [] => [.sym 0x5D]
  | [v] => valueToks showN v ++ [.sym 0x5D]
  | v :: w :: l => valueToks showN v ++ .sym 0x2C :: elemsToks showN (w :: l)
end

/-- What ends a value. -/
def Stop (rest : Str) : Prop := ∃ c s, rest = c :: s ∧ (c = 0x0A ∨ c = 0x2C ∨ c = 0x5D)

theorem stop_facts {c : UInt8} (h : c = 0x0A ∨ c = 0x2C ∨ c = 0x5D) :
    identByte c = false ∧ numByte c = false ∧ letter c = false := by
  rcases h with rfl | rfl | rfl <;> decide

mutual
theorem run_value (hp : isPrint 0x7B = true) (hN : Numerals showN readN) :
    ∀ (v : Value N), ValueUtf8 v → ∀ rest, Stop rest →
      run .start (valueText isPrint showN v ++ rest) = prep (valueToks showN v) (run .start rest)
  | .null, _, rest, ⟨c, s, e, hc⟩ => by
    rw [e, valueText, valueToks]
    exact run_ident (by decide) (stop_facts hc).1 s
  | .bool true, _, rest, ⟨c, s, e, hc⟩ => by
    rw [e, valueText, valueToks]
    exact run_ident (by decide) (stop_facts hc).1 s
  | .bool false, _, rest, ⟨c, s, e, hc⟩ => by
    rw [e, valueText, valueToks]
    exact run_ident (by decide) (stop_facts hc).1 s
  | .str t, h, rest, _ => by
    rw [valueText, valueToks]
    exact run_quoted hp (by simpa [ValueUtf8] using h) rest
  | .num n, _, rest, ⟨c, s, e, hc⟩ => by
    rw [e, valueText, valueToks]
    obtain ⟨_, h2, h3⟩ := stop_facts hc
    rcases hN.form n with h | ⟨ds, h, hd⟩
    · rw [numToks_digits h, run_num h h2 h3]
    · rw [h, List.cons_append, run_cons (ts := [.sym 0x2D]) (st' := .start) rfl, run_num hd h2 h3]
      simp [numToks]
  | .list l, h, rest, _ => by
    rw [valueText, valueToks]
    show run .start (0x5B :: (elemsText isPrint showN l ++ rest)) = _
    rw [run_cons (ts := [.sym 0x5B]) (st' := .start) rfl, run_elems hp hN l (by simpa [ValueUtf8] using h) rest]
    simp
theorem run_elems (hp : isPrint 0x7B = true) (hN : Numerals showN readN) :
    ∀ (l : List (Value N)), ElemsUtf8 l → ∀ rest,
      run .start (elemsText isPrint showN l ++ rest) = prep (elemsToks showN l) (run .start rest)
  | [], _, rest => by
    rw [elemsText, elemsToks]
    exact run_cons rfl rest
  | [v], h, rest => by
    rw [elemsText, elemsToks, List.append_assoc]
    show run .start (valueText isPrint showN v ++ 0x5D :: rest) = _
    rw [run_value hp hN v (by simp [ElemsUtf8] at h; exact h) _ ⟨_, _, rfl, .inr (.inr rfl)⟩]
    rw [run_cons (ts := [.sym 0x5D]) (st' := .start) rfl]
    simp
  | v :: w :: l, h, rest => by
    rw [ElemsUtf8] at h
    rw [elemsText, elemsToks, List.append_assoc, List.append_assoc]
    show run .start (valueText isPrint showN v ++ 0x2C :: 0x20 :: (elemsText isPrint showN (w :: l) ++ rest)) = _
    rw [run_value hp hN v h.1 _ ⟨_, _, rfl, .inr (.inl rfl)⟩]
    rw [run_cons (ts := [.sym 0x2C]) (st' := .start) rfl, run_cons (ts := []) (st' := .start) rfl,
      run_elems hp hN (w :: l) h.2 rest]
    simp
end

/-! ## The words of items -/

def labelToks (ls : List Str) : List Tok := ls.map .str

def gapToks : Prev → List Tok
  | .block _ => [.newline]
  | _ => []

mutual
def itemToks (showN : N → Str) (prev : Prev) : Item N → List Tok
  | .attr n v =>
    gapToks prev ++ .ident n :: .sym 0x3D :: (valueToks showN v ++ [.newline])
  | .block t ls body =>
    (if prev = .block t then [] else [.newline]) ++
    .ident t :: (labelToks ls ++ .sym 0x7B :: .newline :: (bodyToks showN .start body ++ [.sym 0x7D, .newline]))
def bodyToks (showN : N → Str) (prev : Prev) : List (Item N) → List Tok
  | [] => []
  | i :: rest =>
    itemToks showN prev i ++ bodyToks showN i.kind rest
end

theorem run_labels (hp : isPrint 0x7B = true) {ls : List Str} (h : ∀ l ∈ ls, Utf8.Valid l) (rest : Str) :
    run .start (labelsText isPrint ls ++ rest) = prep (labelToks ls) (run .start rest) := by
  induction ls with
  | nil => simp [labelsText, labelToks]
  | cons l ls ih =>
    have e : labelsText isPrint (l :: ls) ++ rest =
        0x20 :: (quoted isPrint l ++ (labelsText isPrint ls ++ rest)) := by simp [labelsText]
    rw [e, run_cons (ts := []) (st' := .start) rfl, prep_nil, run_quoted hp (h l (by simp)),
      ih fun x hx => h x (by simp [hx])]
    simp [labelToks]

theorem run_blank (c : Prop) [Decidable c] (s : Str) :
    run .start ((if c then [] else b!"\n") ++ s) = prep (if c then [] else [.newline]) (run .start s) := by
  split
  · simp
  · exact run_newline s

mutual
theorem run_item (hp : isPrint 0x7B = true) (hN : Numerals showN readN) (d : Nat) (prev : Prev) (w : Nat) :
    ∀ (i : Item N), ItemOk i → ∀ rest,
      run .start (itemText isPrint showN d prev w i ++ rest) = prep (itemToks showN prev i) (run .start rest)
  | .attr n v, h, rest => by
    rw [ItemOk] at h
    have hv := run_value hp hN v h.2 (0x0A :: rest) ⟨_, _, rfl, .inl rfl⟩
    rw [run_newline] at hv
    have tail : run .start (spaces (2 * d) ++ (n ++ (0x20 :: (spaces (w - n.length) ++
        (0x3D :: 0x20 :: (valueText isPrint showN v ++ 0x0A :: rest)))))) =
        prep (.ident n :: .sym 0x3D :: (valueToks showN v ++ [.newline])) (run .start rest) := by
      rw [run_spaces, run_ident h.1 (by decide), run_cons (ts := []) (st' := .start) rfl, prep_nil, run_spaces,
        run_cons (ts := [.sym 0x3D]) (st' := .start) rfl, run_cons (ts := []) (st' := .start) rfl, prep_nil, hv]
      simp
    have e : itemText isPrint showN d prev w (.attr n v) ++ rest = attrGap prev ++ (spaces (2 * d) ++
        (n ++ (0x20 :: (spaces (w - n.length) ++
        (0x3D :: 0x20 :: (valueText isPrint showN v ++ 0x0A :: rest)))))) := by
      have : spaces (w - n.length + 1) = 0x20 :: spaces (w - n.length) := rfl
      rw [itemText, this]
      simp
    rw [e, itemToks]
    cases prev with
    | start => exact tail
    | attr => exact tail
    | block t =>
      have := run_newline (spaces (2 * d) ++ (n ++ (0x20 :: (spaces (w - n.length) ++
        (0x3D :: 0x20 :: (valueText isPrint showN v ++ 0x0A :: rest))))))
      rw [tail, prep_prep] at this
      exact this
  | .block t ls body, h, rest => by
    rw [ItemOk] at h
    have hb := run_body hp hN (d + 1) .start 0 body h.2.2 (spaces (2 * d) ++ (0x7D :: 0x0A :: rest))
    rw [run_spaces, run_cons (ts := [.sym 0x7D]) (st' := .start) rfl, run_newline] at hb
    have e : itemText isPrint showN d prev w (.block t ls body) ++ rest =
        (if prev = .block t then [] else b!"\n") ++ (spaces (2 * d) ++ (t ++ (labelsText isPrint ls ++
          (0x20 :: 0x7B :: 0x0A :: (bodyText isPrint showN (d + 1) .start 0 body ++
            (spaces (2 * d) ++ (0x7D :: 0x0A :: rest))))))) := by
      rw [itemText]
      simp
    have hl := run_labels hp h.2.1 (0x20 :: 0x7B :: 0x0A :: (bodyText isPrint showN (d + 1) .start 0 body ++
            (spaces (2 * d) ++ (0x7D :: 0x0A :: rest))))
    rw [run_cons (ts := []) (st' := .start) rfl, prep_nil, run_cons (ts := [.sym 0x7B]) (st' := .start) rfl,
      run_newline, hb] at hl
    rw [e, itemToks, run_blank, run_spaces]
    have ht : run .start (t ++ (labelsText isPrint ls ++
          (0x20 :: 0x7B :: 0x0A :: (bodyText isPrint showN (d + 1) .start 0 body ++
            (spaces (2 * d) ++ (0x7D :: 0x0A :: rest)))))) =
        prep [.ident t] (run .start (labelsText isPrint ls ++
          (0x20 :: 0x7B :: 0x0A :: (bodyText isPrint showN (d + 1) .start 0 body ++
            (spaces (2 * d) ++ (0x7D :: 0x0A :: rest)))))) := by
      cases ls with
      | nil => exact run_ident h.1 (by decide) _
      | cons l ls => exact run_ident h.1 (by decide) _
    rw [ht, hl]
    simp
theorem run_body (hp : isPrint 0x7B = true) (hN : Numerals showN readN) (d : Nat) (prev : Prev) (w : Nat) :
    ∀ (l : List (Item N)), BodyOk l → ∀ rest,
      run .start (bodyText isPrint showN d prev w l ++ rest) = prep (bodyToks showN prev l) (run .start rest)
  | [], _, rest => by
    rw [bodyText, bodyToks]
    simp
  | i :: l, h, rest => by
    rw [BodyOk] at h
    rw [bodyText, bodyToks, List.append_assoc, run_item hp hN _ _ _ i h.1, run_body hp hN _ _ _ l h.2]
    simp
end

theorem words_print (hp : isPrint 0x7B = true) (hN : Numerals showN readN) {doc : List (Item N)} (h : BodyOk doc) :
    words (print isPrint showN doc) = some (bodyToks showN .start doc) := by
  have := run_body hp hN 0 .start 0 doc h []
  rw [List.append_nil] at this
  rw [words, print, this]
  simp [run, prep]

/-! ## Parsing -/

theorem value_head : ∀ v : Value N, ∃ t ts, valueToks showN v = t :: ts ∧ t ≠ .newline ∧ t ≠ .sym 0x5D
  | .null => ⟨_, _, by rw [valueToks], by simp, by simp⟩
  | .bool true => ⟨_, _, by rw [valueToks], by simp, by simp⟩
  | .bool false => ⟨_, _, by rw [valueToks], by simp, by simp⟩
  | .str _ => ⟨_, _, by rw [valueToks], by simp, by simp⟩
  | .list _ => ⟨_, _, by rw [valueToks], by simp, by simp⟩
  | .num n => by
    rw [valueToks, numToks.eq_def]
    split
    · exact ⟨_, _, rfl, by simp, by simp⟩
    · exact ⟨_, _, rfl, by simp, by simp⟩

theorem skip_head {t : Tok} (h : t ≠ .newline) (ts : List Tok) : skip (t :: ts) = t :: ts := by
  rw [skip.eq_def]
  split <;> simp_all

theorem skip_elems : ∀ (l : List (Value N)) (rest : List Tok),
    skip (elemsToks showN l ++ rest) = elemsToks showN l ++ rest
  | [], rest => by
    rw [elemsToks]
    exact skip_head (by simp) _
  | [v], rest => by
    obtain ⟨t, ts, h, h1, _⟩ := value_head (showN := showN) v
    rw [elemsToks, h]
    exact skip_head h1 _
  | v :: w :: l, rest => by
    obtain ⟨t, ts, h, h1, _⟩ := value_head (showN := showN) v
    rw [elemsToks, h]
    exact skip_head h1 _

theorem elems_cons {n : Nat} {v : Value N} {rest : List Tok}
    (h : value readN n (valueToks showN v ++ rest) = some (v, rest)) :
    elems readN (n + 1) (valueToks showN v ++ rest) =
      match skip rest with
      | .sym 0x5D :: ts => some ([v], ts)
      | .sym 0x2C :: ts => (elems readN n (skip ts)).map fun (l, ts) => (v :: l, ts)
      | _ => none := by
  obtain ⟨t, ts, e, _, h1⟩ := value_head (showN := showN) v
  rw [elems.eq_3 _ _ _ (by rw [e]; simpa using h1), h]
  rfl

mutual
theorem value_toks (hN : Numerals showN readN) : ∀ (v : Value N) (n : Nat) (rest : List Tok),
    (valueToks showN v).length ≤ n → value readN n (valueToks showN v ++ rest) = some (v, rest)
  | .null, 0, _, h | .bool true, 0, _, h | .bool false, 0, _, h | .str _, 0, _, h => by simp [valueToks] at h
  | .num n, 0, _, h => by
    rw [valueToks, numToks.eq_def] at h
    split at h <;> simp at h
  | .list _, 0, _, h => by simp [valueToks] at h
  | .null, n + 1, rest, _ => by simp [valueToks, value]
  | .bool true, n + 1, rest, _ => by simp [valueToks, value]
  | .bool false, n + 1, rest, _ => by simp [valueToks, value]
  | .str s, n + 1, rest, _ => by simp [valueToks, value]
  | .num m, n + 1, rest, _ => by
    rw [valueToks]
    rcases hN.form m with h | ⟨ds, h, hd⟩
    · rw [numToks_digits h]
      simp [value, hN.read]
    · have := hN.read m
      rw [h] at this ⊢
      simp [numToks, value, this]
  | .list l, n + 1, rest, h => by
    rw [valueToks] at h ⊢
    simp only [List.length_cons, Nat.add_le_add_iff_right] at h
    have := elems_toks hN l n rest h
    have hs : skip (elemsToks showN l ++ rest) = elemsToks showN l ++ rest := skip_elems l rest
    simp [value, hs, this]
theorem elems_toks (hN : Numerals showN readN) : ∀ (l : List (Value N)) (n : Nat) (rest : List Tok),
    (elemsToks showN l).length ≤ n → elems readN n (elemsToks showN l ++ rest) = some (l, rest)
  | [], 0, rest, h => by simp [elemsToks] at h
  | [v], 0, rest, h => by simp [elemsToks] at h
  | v :: w :: l, 0, rest, h => by simp [elemsToks] at h
  | [], n + 1, rest, h => by simp [elemsToks, elems]
  | [v], n + 1, rest, h => by
    rw [elemsToks] at h ⊢
    simp only [List.length_append, List.length_cons, List.length_nil, Nat.add_le_add_iff_right] at h
    have := value_toks hN v n (.sym 0x5D :: rest) (by omega)
    rw [List.append_assoc]
    show elems readN (n + 1) (valueToks showN v ++ .sym 0x5D :: rest) = _
    rw [elems_cons this]
    rfl
  | v :: w :: l, n + 1, rest, h => by
    rw [elemsToks] at h ⊢
    simp only [List.length_append, List.length_cons] at h
    have h1 := value_toks hN v n (.sym 0x2C :: (elemsToks showN (w :: l) ++ rest)) (by omega)
    have h2 := elems_toks hN (w :: l) n rest (by omega)
    rw [List.append_assoc]
    show elems readN (n + 1) (valueToks showN v ++ .sym 0x2C :: (elemsToks showN (w :: l) ++ rest)) = _
    rw [elems_cons h1, skip_head (by simp)]
    simp only
    rw [skip_elems, h2]
    rfl
end

theorem labels_toks (ls : List Str) (ts : List Tok) : labels (labelToks ls ++ .sym 0x7B :: ts) = (ls, .sym 0x7B :: ts) := by
  induction ls with
  | nil => rfl
  | cons l ls ih =>
    show labels (.str l :: (labelToks ls ++ .sym 0x7B :: ts)) = _
    rw [labels, ih]

theorem items_newline (n : Nat) (ts : List Tok) : items readN (n + 1) (.newline :: ts) = items readN n ts := by
  rw [items]

theorem items_attr {n : Nat} {name : Str} {ts ts' : List Tok} {v : Value N}
    (h : value readN n ts = some (v, .newline :: ts')) :
    items readN (n + 1) (.ident name :: .sym 0x3D :: ts) = (items readN n ts').map fun (l, us) => (.attr name v :: l, us) := by
  rw [items, h]
  rfl

theorem items_block {n : Nat} {type : Str} {ls : List Str} {ts ts' : List Tok} {body : List (Item N)}
    (h : items readN n ts = some (body, .sym 0x7D :: .newline :: ts')) :
    items readN (n + 1) (.ident type :: (labelToks ls ++ .sym 0x7B :: .newline :: ts)) =
      (items readN n ts').map fun (l, us) => (.block type ls body :: l, us) := by
  rw [items.eq_6 _ _ _ _ (by cases ls <;> simp [labelToks]), labels_toks]
  simp only [h, Option.bind_some, lineEnd]

/-- What ends a body. -/
def Ends (rest : List Tok) : Prop := rest = [] ∨ ∃ ts, rest = .sym 0x7D :: ts

theorem items_end {n : Nat} {rest : List Tok} (h : Ends rest) : items readN (n + 1) rest = some ([], rest) := by
  rcases h with rfl | ⟨ts, rfl⟩ <;> rw [items]

mutual
theorem item_toks (hN : Numerals showN readN) (prev : Prev) : ∀ (i : Item N) (n : Nat) (rest : List Tok),
    (itemToks showN prev i).length < n →
    ∃ m, n ≤ m + (itemToks showN prev i).length ∧
      items readN n (itemToks showN prev i ++ rest) = (items readN m rest).map fun (l, us) => (i :: l, us)
  | .attr name v, n, rest, h => by
    have key : ∀ k, (valueToks showN v).length + 2 < k → ∃ m, k ≤ m + 1 ∧
        items readN k (.ident name :: .sym 0x3D :: (valueToks showN v ++ .newline :: rest)) =
          (items readN m rest).map fun (l, us) => (.attr name v :: l, us) := by
      intro k hk
      obtain ⟨k, rfl⟩ : ∃ j, k = j + 1 := ⟨k - 1, by omega⟩
      exact ⟨k, by omega, items_attr (value_toks hN v k (.newline :: rest) (by omega))⟩
    rw [itemToks] at h ⊢
    cases prev with
    | start =>
      simp [gapToks] at h
      obtain ⟨m, hm, e⟩ := key n (by omega)
      exact ⟨m, by simp [gapToks]; omega, by simpa [gapToks] using e⟩
    | attr =>
      simp [gapToks] at h
      obtain ⟨m, hm, e⟩ := key n (by omega)
      exact ⟨m, by simp [gapToks]; omega, by simpa [gapToks] using e⟩
    | block t =>
      simp [gapToks] at h
      obtain ⟨n, rfl⟩ : ∃ j, n = j + 1 := ⟨n - 1, by omega⟩
      obtain ⟨m, hm, e⟩ := key n (by omega)
      refine ⟨m, by simp [gapToks]; omega, ?_⟩
      simp only [gapToks, List.cons_append, List.nil_append, List.append_assoc]
      rw [items_newline]
      exact e
  | .block t ls body, n, rest, h => by
    have key : ∀ k, (bodyToks showN .start body).length + 2 < k → ∃ m, k ≤ m + 1 ∧
        items readN k (.ident t :: (labelToks ls ++ .sym 0x7B :: .newline ::
          (bodyToks showN .start body ++ .sym 0x7D :: .newline :: rest))) =
          (items readN m rest).map fun (l, us) => (.block t ls body :: l, us) := by
      intro k hk
      obtain ⟨k, rfl⟩ : ∃ j, k = j + 1 := ⟨k - 1, by omega⟩
      exact ⟨k, by omega, items_block (body_toks hN .start body k _ (.inr ⟨_, rfl⟩) (by omega))⟩
    rw [itemToks] at h ⊢
    split at h
    · next hc =>
      simp at h
      obtain ⟨m, hm, e⟩ := key n (by omega)
      refine ⟨m, by simp [hc]; omega, ?_⟩
      rw [if_pos hc]
      simpa using e
    · next hc =>
      simp at h
      obtain ⟨n, rfl⟩ : ∃ j, n = j + 1 := ⟨n - 1, by omega⟩
      obtain ⟨m, hm, e⟩ := key n (by omega)
      refine ⟨m, by simp [hc]; omega, ?_⟩
      rw [if_neg hc]
      simp only [List.cons_append, List.nil_append, List.append_assoc]
      rw [items_newline]
      exact e
theorem body_toks (hN : Numerals showN readN) (prev : Prev) : ∀ (l : List (Item N)) (n : Nat) (rest : List Tok),
    Ends rest → (bodyToks showN prev l).length < n →
    items readN n (bodyToks showN prev l ++ rest) = some (l, rest)
  | [], n, rest, hr, h => by
    obtain ⟨n, rfl⟩ : ∃ j, n = j + 1 := ⟨n - 1, by omega⟩
    rw [bodyToks]
    exact items_end hr
  | i :: l, n, rest, hr, h => by
    rw [bodyToks] at h ⊢
    rw [List.length_append] at h
    rw [List.append_assoc]
    obtain ⟨m, hm, e⟩ := item_toks hN prev i n (bodyToks showN _ l ++ rest) (by omega)
    rw [e, body_toks hN _ l m rest hr (by omega)]
    rfl
end

/-- Reading what was printed. -/
theorem document_print (hp : isPrint 0x7B = true) (hN : Numerals showN readN) {doc : List (Item N)} (h : BodyOk doc) :
    document readN (print isPrint showN doc) = some doc := by
  have hb := body_toks hN .start doc ((bodyToks showN .start doc).length + 1) [] (.inl rfl) (by omega)
  rw [List.append_nil] at hb
  rw [document, words_print hp hN h]
  simp [hb]

end

end Verif.Hcl
