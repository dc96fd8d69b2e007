import Verif.Base.Byte
import Verif.Hcl.Text
import Verif.Hcl.TextSpec

/-!
# Reading what was printed: texts and words
-/

namespace Verif.Hcl
open Verif Read

/-! ## Quoted texts -/

theorem unquote_plain {c : UInt8} {s : Str} (h1 : c ≠ 0x5C)
    (h2 : c ≠ 0x24 ∧ c ≠ 0x25 ∨ (∀ t, s ≠ 0x7B :: t) ∧ ∀ t, s ≠ c :: 0x7B :: t) :
    unquote (c :: s) = (unquote s).map (c :: ·) := by
  rcases h2 with ⟨h2, h3⟩ | ⟨h2, h3⟩
  · rw [unquote.eq_def]
    split <;> simp_all
  · rw [unquote.eq_def]
    split <;> simp_all

theorem unquote_bytes {cs : Str} (h : ∀ c ∈ cs, c ≠ 0x5C ∧ c ≠ 0x24 ∧ c ≠ 0x25) (s : Str) :
    unquote (cs ++ s) = (unquote s).map (cs ++ ·) := by
  induction cs with
  | nil => simp
  | cons c cs ih =>
    obtain ⟨h1, h2⟩ := h c (by simp)
    rw [List.cons_append, unquote_plain h1 (.inl h2), ih fun d hd => h d (by simp [hd])]
    simp [Option.map_map, Function.comp_def]

theorem hexVal_digit : ∀ n, n < 16 → hexVal (hexDigit n) = some n := by decide

theorem hexDigits_length : ∀ n r, (hexDigits n r).length = n
  | 0, _ => rfl
  | n + 1, r => by simp [hexDigits, hexDigits_length n]

theorem hexNum_append (s t : Str) : ∀ n, hexNum n (s ++ t) = (hexNum n s).bind fun m => hexNum m t := by
  induction s with
  | nil => intro n; rfl
  | cons c s ih =>
    intro n
    simp only [List.cons_append, hexNum]
    cases hexVal c with
    | none => rfl
    | some v => simpa using ih _

theorem hexNum_digits : ∀ n r, r < 16 ^ n → hexNum 0 (hexDigits n r) = some r
  | 0, r, h => by simp_all [hexDigits, hexNum]
  | n + 1, r, h => by
    have : r / 16 < 16 ^ n := by
      rw [Nat.div_lt_iff_lt_mul (by decide)]
      rwa [Nat.pow_succ] at h
    rw [hexDigits, hexNum_append, hexNum_digits n _ this]
    simp only [Option.bind_some, hexNum, hexVal_digit _ (Nat.mod_lt r (by decide : 0 < 16))]
    simp
    omega

theorem charOf_scalar {r : Nat} (h : Utf8.Scalar r) : charOf r = some (Utf8.encode1 r) := if_pos h

theorem hexDigit_facts : ∀ n, n < 16 → hexDigit n ≠ 0x5C ∧ hexDigit n ≠ 0x22 ∧ hexDigit n ≠ 0x0A := by decide

theorem hexDigits_facts : ∀ n r, ∀ c ∈ hexDigits n r, c ≠ 0x5C ∧ c ≠ 0x22 ∧ c ≠ 0x0A
  | 0, _, c, h => by cases h
  | n + 1, r, c, h => by
    rw [hexDigits, List.mem_append] at h
    rcases h with h | h
    · exact hexDigits_facts n _ c h
    · rw [List.mem_singleton] at h
      rw [h]
      exact hexDigit_facts _ (Nat.mod_lt r (by decide))

theorem unquote_u {r : Nat} (hr : Utf8.Scalar r) (h : r < 65536) (s : Str) :
    unquote (b!"\\u" ++ hexDigits 4 r ++ s) = (unquote s).map (Utf8.encode1 r ++ ·) := by
  have hn := hexNum_digits 4 r h
  have hl := hexDigits_length 4 r
  revert hn hl
  generalize hexDigits 4 r = d
  intro hn hl
  match d, hl with
  | [a, b, c, d], _ =>
    show unquote (0x5C :: 0x75 :: a :: b :: c :: d :: s) = _
    simp only [unquote, hn, Option.bind_some, charOf_scalar hr]

theorem unquote_U {r : Nat} (hr : Utf8.Scalar r) (s : Str) :
    unquote (b!"\\U" ++ hexDigits 8 r ++ s) = (unquote s).map (Utf8.encode1 r ++ ·) := by
  have hn := hexNum_digits 8 r (by rcases hr with h | h <;> omega)
  have hl := hexDigits_length 8 r
  revert hn hl
  generalize hexDigits 8 r = d
  intro hn hl
  match d, hl with
  | [a, b, c, d, e, f, g, h], _ =>
    show unquote (0x5C :: 0x55 :: a :: b :: c :: d :: e :: f :: g :: h :: s) = _
    simp only [unquote, hn, Option.bind_some, charOf_scalar hr]

/-- The bytes of a character. -/
theorem encode1_bytes {r : Nat} : ∀ c ∈ Utf8.encode1 r, 0x80 ≤ c.toNat ∨ r < 0x80 ∧ c = UInt8.ofNat r := by
  intro c hc
  unfold Utf8.encode1 at hc
  split at hc
  · simp at hc
    exact .inr ⟨by assumption, hc⟩
  · left
    have aux : ∀ n, 0x80 ≤ n → n < 256 → 0x80 ≤ (UInt8.ofNat n).toNat := fun n h1 h2 => by
      rw [Utf8.toNat_ofNat h2]; exact h1
    split at hc
    · simp only [List.mem_cons, List.not_mem_nil, or_false] at hc
      rcases hc with rfl | rfl <;> apply aux <;> omega
    · split at hc
      · simp only [List.mem_cons, List.not_mem_nil, or_false] at hc
        rcases hc with rfl | rfl | rfl <;> decide
      · next hs =>
        split at hc
        · simp only [List.mem_cons, List.not_mem_nil, or_false] at hc
          rcases hc with rfl | rfl | rfl <;> apply aux <;> omega
        · simp only [List.mem_cons, List.not_mem_nil, or_false] at hc
          rcases hc with rfl | rfl | rfl | rfl <;> apply aux <;> omega

theorem encode1_ne {r k : Nat} (hr : r ≠ k) (hk : k < 0x80) : ∀ c ∈ Utf8.encode1 r, c ≠ UInt8.ofNat k := by
  intro c hc e
  rcases encode1_bytes c hc with h | ⟨h, rfl⟩
  · rw [e, Utf8.toNat_ofNat (by omega)] at h
    omega
  · have := congrArg UInt8.toNat e
    rw [Utf8.toNat_ofNat (by omega), Utf8.toNat_ofNat (by omega)] at this
    exact hr this

theorem encode1_ne_nil (r : Nat) : Utf8.encode1 r ≠ [] := by
  unfold Utf8.encode1
  repeat' split
  all_goals simp

variable {isPrint : Nat → Bool}

/-- A printed text begins with a brace only if the text does. -/
theorem escape_brace {rs : List Nat} (h : rs.head? ≠ some 0x7B) (t : Str) : escape isPrint rs ≠ 0x7B :: t := by
  cases rs with
  | nil => simp [escape]
  | cons r rs =>
    have h : r ≠ 0x7B := by simpa using h
    rw [escape]
    split
    · simp
    split
    · simp
    split
    · simp
    split
    · simp
    split
    · simp
    split
    · next h => rcases h with rfl | rfl <;> split <;> simp
    split
    · intro e
      have hne := encode1_ne_nil r
      cases he : Utf8.encode1 r with
      | nil => exact hne he
      | cons c cs =>
        rw [he] at e
        have hc := encode1_ne h (by decide) c (by rw [he]; simp)
        simp at e
        exact hc e.1
    split <;> simp

/-- A printed text begins with `$` and a brace in no case. -/
theorem escape_intro {c : UInt8} (hc : c = 0x24 ∨ c = 0x25) (rs : List Nat) (t : Str) :
    escape isPrint rs ≠ c :: 0x7B :: t := by
  cases rs with
  | nil => simp [escape]
  | cons r rs =>
    have hc' : c ≠ 0x5C := by rcases hc with rfl | rfl <;> decide
    rw [escape]
    split
    · simp [hc'.symm]
    split
    · simp [hc'.symm]
    split
    · simp [hc'.symm]
    split
    · simp [hc'.symm]
    split
    · simp [hc'.symm]
    split
    · next h =>
      have hr : UInt8.ofNat r ≠ 0x7B := by rcases h with rfl | rfl <;> decide
      split
      · simp [hr]
      · next hb =>
        intro e
        simp only [List.cons_append, List.nil_append, List.cons.injEq] at e
        exact escape_brace hb _ e.2
    · next h24 =>
      split
      · intro e
        have hne := encode1_ne_nil r
        cases he : Utf8.encode1 r with
        | nil => exact hne he
        | cons d cs =>
          rw [he] at e
          simp only [List.cons_append, List.cons.injEq] at e
          have h1 := encode1_ne (r := r) (k := 0x24) (by omega) (by decide) d (by rw [he]; simp)
          have h2 := encode1_ne (r := r) (k := 0x25) (by omega) (by decide) d (by rw [he]; simp)
          rw [e.1] at h1 h2
          rcases hc with rfl | rfl
          · exact h1 rfl
          · exact h2 rfl
      split <;> simp [hc'.symm]

/-- What is between the quotes is read as the text. -/
theorem unquote_escape (hp : isPrint 0x7B = true) : ∀ {rs : List Nat}, (∀ r ∈ rs, Utf8.Scalar r) →
    unquote (escape isPrint rs) = some (Utf8.encode rs)
  | [], _ => rfl
  | r :: rs, h => by
    have ih := unquote_escape hp (rs := rs) fun x hx => h x (by simp [hx])
    have hr := h r (by simp)
    have he : Utf8.encode (r :: rs) = Utf8.encode1 r ++ Utf8.encode rs := rfl
    rw [escape, he]
    split
    · subst r; show unquote (0x5C :: 0x6E :: escape isPrint rs) = _; simp only [unquote, ih]; rfl
    split
    · subst r; show unquote (0x5C :: 0x72 :: escape isPrint rs) = _; simp only [unquote, ih]; rfl
    split
    · subst r; show unquote (0x5C :: 0x74 :: escape isPrint rs) = _; simp only [unquote, ih]; rfl
    split
    · subst r; show unquote (0x5C :: 0x22 :: escape isPrint rs) = _; simp only [unquote, ih]; rfl
    split
    · subst r; show unquote (0x5C :: 0x5C :: escape isPrint rs) = _; simp only [unquote, ih]; rfl
    split
    · next hd =>
      have hc : UInt8.ofNat r = 0x24 ∨ UInt8.ofNat r = 0x25 := by rcases hd with rfl | rfl <;> simp
      have h1 : Utf8.encode1 r = [UInt8.ofNat r] := by rcases hd with rfl | rfl <;> rfl
      rw [h1]
      split
      · next hb =>
        cases rs with
        | nil => cases hb
        | cons b rs =>
          have hb : b = 0x7B := by simpa using hb
          subst hb
          have e : escape isPrint (0x7B :: rs) = 0x7B :: escape isPrint rs := by
            rw [escape]; simp only [hp]; rfl
          rw [e, unquote_plain (by decide) (.inl (by decide))] at ih
          rw [e]
          have h2 : unquote ([UInt8.ofNat r, UInt8.ofNat r] ++ 0x7B :: escape isPrint rs) =
              (unquote (escape isPrint rs)).map ([UInt8.ofNat r, 0x7B] ++ ·) := by
            rcases hd with rfl | rfl
            · show unquote (0x24 :: 0x24 :: 0x7B :: _) = _
              simp only [unquote]; rfl
            · show unquote (0x25 :: 0x25 :: 0x7B :: _) = _
              simp only [unquote]; rfl
          rw [h2]
          cases hu : unquote (escape isPrint rs) with
          | none => rw [hu] at ih; cases ih
          | some u =>
            rw [hu] at ih
            simp only [Option.map_some, Option.some.injEq] at ih ⊢
            rw [← ih]
            rfl
      · next hb =>
        rw [List.cons_append, List.nil_append,
          unquote_plain (by rcases hc with e | e <;> rw [e] <;> decide)
            (.inr ⟨escape_brace hb, escape_intro hc rs⟩), ih]
        rfl
    · next hd =>
      split
      · rw [unquote_bytes, ih]
        · rfl
        · intro c hc
          refine ⟨encode1_ne (k := 0x5C) ?_ (by decide) c hc, encode1_ne (k := 0x24) ?_ (by decide) c hc,
            encode1_ne (k := 0x25) ?_ (by decide) c hc⟩ <;> omega
      split
      · next h16 => rw [unquote_u hr h16, ih]; rfl
      · rw [unquote_U hr, ih]; rfl

/-! ## Words -/

/-- Words before the others. -/
def prep (ts : List Tok) (x : Option (List Tok × State)) : Option (List Tok × State) :=
  x.map fun (us, st) => (ts ++ us, st)

@[simp] theorem prep_nil (x : Option (List Tok × State)) : prep [] x = x := by
  cases x <;> rfl

@[simp] theorem prep_prep (ts us : List Tok) (x : Option (List Tok × State)) :
    prep ts (prep us x) = prep (ts ++ us) x := by
  cases x <;> simp [prep]

theorem run_cons {st st' : State} {c : UInt8} {ts : List Tok} (h : step st c = some (ts, st')) (s : Str) :
    run st (c :: s) = prep ts (run st' s) := by
  rw [run, h]
  rfl

theorem run_spaces (n : Nat) (s : Str) : run .start (spaces n ++ s) = run .start s := by
  induction n with
  | zero => rfl
  | succ n ih =>
    show run .start (0x20 :: (spaces n ++ s)) = _
    rw [run_cons (show step .start 0x20 = some ([], .start) from rfl), prep_nil, ih]

theorem run_newline (s : Str) : run .start (0x0A :: s) = prep [.newline] (run .start s) := run_cons rfl s

theorem enter_letter {c : UInt8} (h : letter c = true) : enter c = some ([], .ident [c]) := by
  have h1 : ¬ (c = 0x20 ∨ c = 0x09) := by rintro (rfl | rfl) <;> revert h <;> decide
  have h2 : c ≠ 0x0A := by rintro rfl; revert h; decide
  simp [enter, h1, h2, h]

theorem digit_letter : ∀ c, digit c = true → letter c = false := by decide +kernel

theorem enter_digit {c : UInt8} (h : digit c = true) : enter c = some ([], .num [c]) := by
  have h1 : ¬ (c = 0x20 ∨ c = 0x09) := by rintro (rfl | rfl) <;> revert h <;> decide
  have h2 : c ≠ 0x0A := by rintro rfl; revert h; decide
  have h3 : letter c = false := digit_letter c h
  simp [enter, h1, h2, h3, h]

theorem run_ident_state {c : UInt8} (hc : identByte c = false) (t s : Str) (ht : ∀ d ∈ t, identByte d = true) :
    ∀ acc, run (.ident acc) (t ++ c :: s) = prep [.ident (acc ++ t)] (run .start (c :: s)) := by
  induction t with
  | nil =>
    intro acc
    simp only [List.nil_append, List.append_nil, run, step, hc]
    cases enter c with
    | none => rfl
    | some x => cases hr : run x.2 s <;> simp [prep, hr]
  | cons d t ih =>
    intro acc
    rw [List.cons_append, run_cons (ts := []) (st' := .ident (acc ++ [d])) (by simp [step, ht d (by simp)]),
      prep_nil, ih fun e he => ht e (by simp [he])]
    simp

theorem run_ident {n : Str} (h : Ident n) {c : UInt8} (hc : identByte c = false) (s : Str) :
    run .start (n ++ c :: s) = prep [.ident n] (run .start (c :: s)) := by
  cases n with
  | nil => cases h
  | cons d t =>
    rw [List.cons_append, run_cons (st := .start) (enter_letter h.1), prep_nil, run_ident_state hc t s h.2]
    rfl

theorem run_num_state {c : UInt8} (hc : numByte c = false) (hl : letter c = false) (t s : Str)
    (ht : ∀ d ∈ t, numByte d = true) :
    ∀ acc, run (.num acc) (t ++ c :: s) = prep [.num (acc ++ t)] (run .start (c :: s)) := by
  induction t with
  | nil =>
    intro acc
    simp only [List.nil_append, List.append_nil, run, step, hc, hl]
    cases enter c with
    | none => rfl
    | some x => cases hr : run x.2 s <;> simp [prep, hr]
  | cons d t ih =>
    intro acc
    rw [List.cons_append, run_cons (ts := []) (st' := .num (acc ++ [d])) (by simp [step, ht d (by simp)]),
      prep_nil, ih fun e he => ht e (by simp [he])]
    simp

theorem run_num {n : Str} (h : Digits n) {c : UInt8} (hc : numByte c = false) (hl : letter c = false) (s : Str) :
    run .start (n ++ c :: s) = prep [.num n] (run .start (c :: s)) := by
  cases n with
  | nil => cases h
  | cons d t =>
    rw [List.cons_append, run_cons (st := .start) (enter_digit h.1), prep_nil, run_num_state hc hl t s h.2]
    rfl

theorem run_str_bytes {t : Str} (ht : ∀ c ∈ t, c ≠ 0x5C ∧ c ≠ 0x22 ∧ c ≠ 0x0A) (s : Str) :
    ∀ acc, run (.str acc) (t ++ s) = run (.str (acc ++ t)) s := by
  induction t with
  | nil => simp
  | cons d t ih =>
    intro acc
    obtain ⟨h1, h2, h3⟩ := ht d (by simp)
    rw [List.cons_append, run_cons (ts := []) (st' := .str (acc ++ [d])) (by simp [step, h1, h2, h3]),
      prep_nil, ih fun e he => ht e (by simp [he])]
    simp

theorem run_str_esc {e : UInt8} (he : e ≠ 0x0A) (acc s : Str) :
    run (.str acc) (0x5C :: e :: s) = run (.str (acc ++ [0x5C, e])) s := by
  rw [run_cons (ts := []) (st' := .esc (acc ++ [0x5C])) (by simp [step]), prep_nil,
    run_cons (ts := []) (st' := .str (acc ++ [0x5C] ++ [e])) (by simp [step, he]), prep_nil]
  simp

theorem run_str_escape (rs : List Nat) (s : Str) :
    ∀ acc, run (.str acc) (escape isPrint rs ++ s) = run (.str (acc ++ escape isPrint rs)) s := by
  induction rs with
  | nil => simp [escape]
  | cons r rs ih =>
    intro acc
    rw [escape]
    have key : ∀ t : Str, (∀ acc u, run (.str acc) (t ++ u) = run (.str (acc ++ t)) u) →
        run (.str acc) (t ++ escape isPrint rs ++ s) = run (.str (acc ++ (t ++ escape isPrint rs))) s := by
      intro t ht
      rw [List.append_assoc, ht, ih, List.append_assoc]
    apply key
    clear key
    split
    · exact fun acc u => run_str_esc (by decide) acc u
    split
    · exact fun acc u => run_str_esc (by decide) acc u
    split
    · exact fun acc u => run_str_esc (by decide) acc u
    split
    · exact fun acc u => run_str_esc (by decide) acc u
    split
    · exact fun acc u => run_str_esc (by decide) acc u
    split
    · next h =>
      have hf : UInt8.ofNat r ≠ 0x5C ∧ UInt8.ofNat r ≠ 0x22 ∧ UInt8.ofNat r ≠ 0x0A := by
        rcases h with rfl | rfl <;> decide
      split
      · exact fun acc u => run_str_bytes (by simpa using hf) u acc
      · exact fun acc u => run_str_bytes (by simpa using hf) u acc
    split
    · refine fun acc u => run_str_bytes (fun c hc => ?_) u acc
      exact ⟨encode1_ne (k := 0x5C) (by assumption) (by decide) c hc,
        encode1_ne (k := 0x22) (by assumption) (by decide) c hc,
        encode1_ne (k := 0x0A) (by assumption) (by decide) c hc⟩
    split
    · intro acc u
      show run (.str acc) (0x5C :: 0x75 :: (hexDigits 4 r ++ u)) = _
      rw [run_str_esc (by decide), run_str_bytes (hexDigits_facts 4 r)]
      simp
    · intro acc u
      show run (.str acc) (0x5C :: 0x55 :: (hexDigits 8 r ++ u)) = _
      rw [run_str_esc (by decide), run_str_bytes (hexDigits_facts 8 r)]
      simp

/-- A quoted text is read as the text. -/
theorem run_quoted (hp : isPrint 0x7B = true) {t : Str} (ht : Utf8.Valid t) (s : Str) :
    run .start (quoted isPrint t ++ s) = prep [.str t] (run .start s) := by
  have h1 : unquote (escape isPrint (Utf8.decode t)) = some t := by
    rw [unquote_escape hp (Utf8.scalar_decode t), Utf8.valid_iff.1 ht]
  rw [quoted, List.cons_append, List.append_assoc,
    run_cons (show step .start 0x22 = some ([], .str []) from rfl), prep_nil, run_str_escape]
  simp only [List.nil_append, List.cons_append]
  rw [run_cons (ts := [.str t]) (st' := .start) (by simp [step, h1])]

end Verif.Hcl
