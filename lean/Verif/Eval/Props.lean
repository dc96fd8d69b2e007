import Verif.Eval.Text
import Verif.Main.Exit

/-!
# C102, C103: what `runbook eval` prints
-/

namespace Verif.Eval
open Verif Json Spec

/-- **C102.** What `eval` prints for a file (without colours) is one JSON text, in UTF-8. It denotes
exactly one value, which shows that of the file; `eval` of it prints the same text again. (Proved for
files whose names have no quotes, backslashes and control characters.) -/
theorem C102_json_partial {F : Type} (fl : Floats F) (hf : Sound fl) (noColor : Bool) (doc : Value)
    (hs : ValidStrings doc) (hn : PlainNames doc) (text : Str) (h : eval fl noColor false doc = some text) :
    Utf8.Valid text ∧ ∃ v, Denotes text v ∧ (∀ v', Denotes text v' → v' = v) ∧
      Shows (fun a b => ∃ x, fl.parse a = some x ∧ fl.parse b = some x ∧ b = fl.print x) doc v ∧
      eval fl noColor false v = some text := by
  obtain ⟨t, ht, rfl⟩ := Option.map_eq_some_iff.1 h
  have hg := decode_good fl doc hn hs t ht
  have hd := pretty_denotes fl hf 1 t hg
  refine ⟨pretty_valid fl hf 1 t hg, shown fl t, hd, fun v' hv' => ?_, decode_shows fl hf doc t ht, ?_⟩
  · have h1 := readText_of hd
    have h2 : readText (pretty fl false 1 t) = some (v', []) := readText_of hv'
    rw [h2] at h1
    simpa using h1
  · rw [eval, decode_shown fl hf t hg]
    exact congrArg some (pretty_sorted fl false 1 t)

/-- **C102, colours.** With colours it prints the same, with sequences put in that set colours. -/
theorem C102_colours_partial {F : Type} (fl : Floats F) (hf : Sound fl) (noColor : Bool) (doc : Value)
    (hs : ValidStrings doc) (hn : PlainNames doc) (text : Str) (h : eval fl noColor true doc = some text) :
    eval fl noColor false doc = some (uncolour false text) := by
  obtain ⟨t, ht, rfl⟩ := Option.map_eq_some_iff.1 h
  have hb := pretty_bare fl hf (true && !noColor) 1 t (decode_good fl doc hn hs t ht) []
  rw [List.append_nil, uncolour, List.append_nil] at hb
  rw [eval, ht, hb]
  rfl

/-- **C102, failures.** Nothing is printed exactly if a number of the file is none of the numbers the
program can represent. -/
theorem C102_fails {F : Type} (fl : Floats F) (noColor color : Bool) (doc : Value) :
    eval fl noColor color doc = none ↔ ∃ lit, Within (.num lit) doc ∧ fl.parse lit = none := by
  rw [eval, Option.map_eq_none_iff]
  constructor
  · exact decode_none fl doc
  · rintro ⟨lit, h, hp⟩
    exact decode_none_of fl h (by rw [decode, hp]; rfl)

/-- **C102 is false** of files with other names: names are printed as they are. What is printed for
`{"\"": null}` is not JSON, and what is printed for a file with one member may be JSON for a file with
two. -/
theorem C102_refuted {F : Type} (fl : Floats F) (noColor : Bool) :
    (∃ text, eval fl noColor false (.obj [(b!"\"", .null)]) = some text ∧ ∀ v, ¬ Denotes text v) ∧
    ∃ k text, eval fl noColor false (.obj [(k, .null)]) = some text ∧
      Denotes text (.obj [(b!"a", .null), (b!"b", .null)]) := by
  refine ⟨⟨b!"{\n  \"\"\": null\n}", rfl, fun v hv => ?_⟩,
    b!"a\": null,\n  \"b", b!"{\n  \"a\": null,\n  \"b\": null\n}", rfl, ?_⟩
  · have := readText_of hv
    rw [show readText b!"{\n  \"\"\": null\n}" = none by decide +kernel] at this
    cases this
  · have hp : ∀ c : UInt8, 97 ≤ c.toNat → Chars [c] [c] := fun c hc =>
      .plain (by omega) (by rintro rfl; simp at hc) (by rintro rfl; simp at hc) .nil
    have h1 := Members.one (w := b!"\n  ") (w1 := []) (w2 := b!" ") (w3 := b!"\n") (by simp [Space])
      (hp 98 (by decide)) space_nil (by simp [Space]) .null space_newline
    have h2 := Members.more (w := b!"\n  ") (w1 := []) (w2 := b!" ") (w3 := []) (by simp [Space])
      (hp 97 (by decide)) space_nil (by simp [Space]) .null space_nil h1
    exact .obj h2

/-- **C102, for the command.** If `pgutil runbook eval` exits with status 0 (and writing does not fail)
the output holds the text printed for the value of the file, with colours if they were asked for, and
nothing else. -/
theorem C102_command {F N G : Type} (env : Main.Env F N) (hw : Main.Spec.Writes env.os) (message : Str)
    (fl : Floats G) (noColor : Bool) (load : (Str → Option Str) → Str → Option Value)
    (he : ∀ files file color text, env.libs.eval files file color = .ok text →
      ∃ doc, load files file = some doc ∧ eval fl noColor color doc = some text)
    (c : Cmd.EvalCmd) (w w' : Cmd.World) (h : Main.main env message (some (.eval c)) w = (w', 0)) :
    ∃ files doc color text, Main.Spec.Seen c.output w files ∧ load files c.file = some doc ∧
      (color = true ↔ c.color = b!"true" ∨
        c.color = b!"auto" ∧ env.terminal (Main.Spec.destOf c.output) = true) ∧
      eval fl noColor color doc = some text ∧ Main.Spec.Left c.output text w w' := by
  rcases Main.C96_exit_status_partial env hw message (.eval c) w _ _ h with ⟨-, hd⟩ | ⟨e, -⟩
  · obtain ⟨files, color, text, h1, h2, h3, h4⟩ := hd
    obtain ⟨doc, hl, ht⟩ := he files c.file color text h3
    exact ⟨files, doc, color, text, h1, hl, h2, ht, h4⟩
  · cases e

/-! ## Colours -/

theorem space_esc {w : Str} (h : Space w) : 27 ∉ w := fun hc => by
  rcases h _ hc with e | e | e | e <;> cases e

theorem hex_esc {c : UInt8} {n : Nat} (h : Hex c n) : c ≠ 27 := by
  rintro rfl
  have := hexVal_of h
  rw [show hexVal 27 = none by decide] at this
  cases this

theorem chars_esc {t s : Str} (h : Chars t s) : 27 ∉ t := by
  have h4 : ∀ {a b c d : UInt8} {n : Nat}, Hex4 a b c d n → 27 ≠ a ∧ 27 ≠ b ∧ 27 ≠ c ∧ 27 ≠ d := by
    rintro a b c d n ⟨w, x, y, z, h1, h2, h3, h4, -⟩
    exact ⟨(hex_esc h1).symm, (hex_esc h2).symm, (hex_esc h3).symm, (hex_esc h4).symm⟩
  induction h with
  | nil => simp
  | plain h1 _ _ _ ih =>
    simp only [List.mem_cons, not_or]
    exact ⟨by rintro rfl; simp at h1, ih⟩
  | short h1 _ ih =>
    simp only [List.mem_cons, not_or]
    exact ⟨by decide, by rintro rfl; simp [shorts] at h1, ih⟩
  | unicode h1 _ _ ih =>
    obtain ⟨a1, a2, a3, a4⟩ := h4 h1
    simp only [List.mem_cons, not_or]
    exact ⟨by decide, by decide, a1, a2, a3, a4, ih⟩
  | pair h1 _ _ h2 _ _ _ ih =>
    obtain ⟨a1, a2, a3, a4⟩ := h4 h1
    obtain ⟨b1, b2, b3, b4⟩ := h4 h2
    simp only [List.mem_cons, not_or]
    exact ⟨by decide, by decide, a1, a2, a3, a4, by decide, by decide, b1, b2, b3, b4, ih⟩

mutual
theorem denotes_esc {t : Str} {v : Value} (h : Denotes t v) : 27 ∉ t := by
  cases h with
  | null => decide
  | true => decide
  | false => decide
  | num h => exact fun hc => (isNum_ascii _ (number_isNum h _ hc)).2 rfl
  | str h => simpa using chars_esc h
  | noElems h => simpa using space_esc h
  | arr h => simpa using elems_esc h
  | noMembers h => simpa using space_esc h
  | obj h => simpa using members_esc h

theorem elems_esc {t : Str} {l : List Value} (h : Elems t l) : 27 ∉ t := by
  cases h with
  | one h1 h2 h3 => simpa using ⟨space_esc h1, denotes_esc h2, space_esc h3⟩
  | more h1 h2 h3 h4 => simpa using ⟨space_esc h1, denotes_esc h2, space_esc h3, elems_esc h4⟩

theorem members_esc {t : Str} {l : List (Str × Value)} (h : Members t l) : 27 ∉ t := by
  cases h with
  | one h1 h2 h3 h4 h5 h6 =>
    simpa using ⟨space_esc h1, chars_esc h2, space_esc h3, space_esc h4, denotes_esc h5, space_esc h6⟩
  | more h1 h2 h3 h4 h5 h6 h7 =>
    simpa using ⟨space_esc h1, chars_esc h2, space_esc h3, space_esc h4, denotes_esc h5, space_esc h6,
      members_esc h7⟩
end

theorem paint_esc (code s : Str) : 27 ∈ paint true code s := by simp [paint]

theorem join_esc {rows : List Str} {r : Str} (hr : r ∈ rows) (h : 27 ∈ r) : 27 ∈ joinRows rows := by
  induction rows with
  | nil => cases hr
  | cons q rows ih =>
    cases rows with
    | nil =>
      rcases List.mem_cons.1 hr with rfl | hr
      · exact h
      · cases hr
    | cons q' rows =>
      rw [joinRows]
      rcases List.mem_cons.1 hr with rfl | hr
      · simp [h]
      · have := ih hr
        simp [this]

theorem elems_mem {F : Type} {fl : Floats F} {l : List Value} {ts : List (Tree F)} {v : Value}
    (h : decodeElems fl l = some ts) (hv : v ∈ l) : ∃ x ∈ ts, decode fl v = some x := by
  induction l generalizing ts with
  | nil => cases hv
  | cons u l ih =>
    rw [decodeElems] at h
    split at h
    · cases h
    · rename_i x hx
      obtain ⟨ts, ht, rfl⟩ := Option.map_eq_some_iff.1 h
      rcases List.mem_cons.1 hv with rfl | hv
      · exact ⟨x, by simp, hx⟩
      · obtain ⟨y, hy, hd⟩ := ih ht hv
        exact ⟨y, by simp [hy], hd⟩

theorem mem_prettyElems {F : Type} (fl : Floats F) (on : Bool) (d : Nat) {l : List (Tree F)} {x : Tree F}
    (h : x ∈ l) : indent d ++ pretty fl on (d + 1) x ∈ prettyElems fl on d l := by
  induction l with
  | nil => cases h
  | cons v l ih =>
    rw [prettyElems]
    rcases List.mem_cons.1 h with rfl | h
    · simp
    · simp [ih h]

theorem obj_esc {F : Type} {fl : Floats F} {l : List (Str × Value)} (hl : l ≠ []) (d : Nat) {t : Tree F}
    (h : decode fl (.obj l) = some t) : 27 ∈ pretty fl true d t := by
  rw [decode] at h
  obtain ⟨m, hm, rfl⟩ := Option.map_eq_some_iff.1 h
  have hg := given fl hm
  cases l with
  | nil => exact absurd rfl hl
  | cons p l =>
    have hk : p.1 ∈ m.map Prod.fst := (hg.keys p.1).2 (by simp)
    obtain ⟨x, hx⟩ := GoMap.exists_get?_of_mem_keys hk
    have hne : m ≠ [] := by rintro rfl; simp at hk
    rw [pretty, if_neg hne]
    have := join_esc (rows := (sortStrs (m.map Prod.fst)).filterMap (GoMap.get? (prettyRows fl true d m)))
      (List.mem_filterMap.2 ⟨p.1, mem_sortStrs.2 hk, by rw [get_prettyRows, hx]; rfl⟩) (by
        simp [paint_esc])
    simp [this]

/-- Something that is printed in colour: all but brackets. -/
def Paintable (v : Value) : Prop := (∀ l, v ≠ .arr l) ∧ v ≠ .obj []

theorem pretty_esc {F : Type} (fl : Floats F) {a doc : Value} (h : Within a doc) (ha : Paintable a) (d : Nat)
    (t : Tree F) (ht : decode fl doc = some t) : 27 ∈ pretty fl true d t := by
  induction h generalizing d t with
  | self =>
    cases a with
    | null => cases ht; exact paint_esc _ _
    | bool b => cases ht; exact paint_esc _ _
    | num lit =>
      rw [decode] at ht
      obtain ⟨x, hx, rfl⟩ := Option.map_eq_some_iff.1 ht
      exact paint_esc _ _
    | str s => cases ht; exact paint_esc _ _
    | arr l => exact absurd rfl (ha.1 l)
    | obj l => exact obj_esc (fun e => ha.2 (by rw [e])) d ht
  | @elem v l hv _ ih =>
    rw [decode] at ht
    obtain ⟨ts, hts, rfl⟩ := Option.map_eq_some_iff.1 ht
    obtain ⟨x, hx, hd⟩ := elems_mem hts hv
    have hne : ts ≠ [] := by rintro rfl; cases hx
    rw [pretty, if_neg hne]
    have := join_esc (mem_prettyElems fl true d hx) (by simp [ih (d + 1) x hd])
    simp [this]
  | @member k v l hv _ ih => exact obj_esc (by rintro rfl; cases hv) d ht

/-- **C103.** If standard output is a terminal (and `TERM` is not `dumb`) the output of `eval` has colours
exactly if they are asked for, whenever the value of the file has anything in it but brackets. -/
theorem C103_colours_partial {F : Type} (fl : Floats F) (hf : Sound fl) (color : Bool) (doc : Value)
    (hs : ValidStrings doc) (hn : PlainNames doc)
    (hp : ∃ a, Within a doc ∧ (∀ l, a ≠ .arr l) ∧ a ≠ .obj []) (text : Str)
    (h : eval fl false color doc = some text) : 27 ∈ text ↔ color = true := by
  cases color with
  | false =>
    obtain ⟨t, ht, rfl⟩ := Option.map_eq_some_iff.1 h
    have := denotes_esc (pretty_denotes fl hf 1 t (decode_good fl doc hn hs t ht))
    simpa using this
  | true =>
    obtain ⟨t, ht, rfl⟩ := Option.map_eq_some_iff.1 h
    obtain ⟨a, hw, ha⟩ := hp
    simpa using pretty_esc fl hw ha 1 t ht

/-- **C103 is false** when standard output is not a terminal: then there are no colours, even with
`--color true` or when the output goes to a file that is a terminal. -/
theorem C103_refuted {F : Type} (fl : Floats F) (hf : Sound fl) (color : Bool) (doc : Value)
    (hs : ValidStrings doc) (hn : PlainNames doc) (text : Str) (h : eval fl true color doc = some text) :
    27 ∉ text := by
  have h' : eval fl true false doc = some text := by rw [← h, eval, eval, Bool.not_true, Bool.and_false, Bool.and_false]
  obtain ⟨-, v, hd, -⟩ := C102_json_partial fl hf true doc hs hn text h'
  exact denotes_esc hd

/-- **C103, exactly**: the output has colours if and only if they are asked for and standard output is a terminal
(and `TERM` is not `dumb`), whenever the value of the file has anything in it but brackets. -/
theorem C103_exact {F : Type} (fl : Floats F) (hf : Sound fl) (noColor color : Bool) (doc : Value)
    (hs : ValidStrings doc) (hn : PlainNames doc)
    (hp : ∃ a, Within a doc ∧ (∀ l, a ≠ .arr l) ∧ a ≠ .obj []) (text : Str)
    (h : eval fl noColor color doc = some text) : 27 ∈ text ↔ color = true ∧ noColor = false := by
  cases noColor with
  | false => simpa using C103_colours_partial fl hf color doc hs hn hp text h
  | true => simpa using C103_refuted fl hf color doc hs hn text h

/-! ## An example -/

/-- The decimal digits of a number. -/
def decimal (n : Nat) : Str :=
  if n < 10 then [UInt8.ofNat (48 + n)] else decimal (n / 10) ++ [UInt8.ofNat (48 + n % 10)]

/-- Numbers without sign, fraction and exponent. -/
def naturals : Floats Nat where
  parse s := if s ≠ [] ∧ Ddl.allDigits s = true then some (Ddl.digitsVal s) else none
  print := decimal

theorem decimal_digits (n : Nat) : Digits (decimal n) ∧ Ddl.digitsVal (decimal n) = n ∧
    (decimal n = b!"0" ∨ ∀ r, decimal n ≠ 48 :: r) := by
  induction n using Nat.strongRecOn with
  | _ n ih =>
    rw [decimal]
    split
    · rename_i h
      have e : (UInt8.ofNat (48 + n)).toNat = 48 + n := Utf8.toNat_ofNat (by omega)
      refine ⟨⟨by simp, fun c hc => ?_⟩, ?_, ?_⟩
      · simp only [List.mem_cons, List.not_mem_nil, or_false] at hc
        rw [hc, e]
        omega
      · simp [Ddl.digitsVal]
        omega
      · by_cases h0 : n = 0
        · subst h0; exact .inl rfl
        · right
          intro r e'
          injection e' with e'
          rw [e'] at e
          simp at e
          omega
    · rename_i h
      obtain ⟨⟨h1, h2⟩, h3, h4⟩ := ih (n / 10) (by omega)
      have e : (UInt8.ofNat (48 + n % 10)).toNat = 48 + n % 10 := Utf8.toNat_ofNat (by omega)
      refine ⟨⟨by simp, fun c hc => ?_⟩, ?_, .inr ?_⟩
      · rcases List.mem_append.1 hc with hc | hc
        · exact h2 c hc
        · simp only [List.mem_cons, List.not_mem_nil, or_false] at hc
          rw [hc, e]
          omega
      · unfold Ddl.digitsVal at h3 ⊢
        rw [List.foldl_append, h3]
        simp only [List.foldl_cons, List.foldl_nil, e]
        omega
      · intro r e'
        rcases h4 with h4 | h4
        · rw [h4] at h3
          have : Ddl.digitsVal b!"0" = 0 := rfl
          omega
        · cases hd : decimal (n / 10) with
          | nil => exact h1 hd
          | cons c q =>
            rw [hd, List.cons_append] at e'
            injection e' with e' _
            exact h4 q (by rw [hd, e'])

theorem naturals_sound : Sound naturals where
  parse_print n := by
    obtain ⟨⟨h1, h2⟩, h3, -⟩ := decimal_digits n
    have : Ddl.allDigits (decimal n) = true := by
      rw [Ddl.allDigits, List.all_eq_true]
      intro c hc
      obtain ⟨a, b⟩ := h2 c hc
      simp only [Bool.and_eq_true, decide_eq_true_eq]
      exact ⟨UInt8.le_iff_toNat_le.2 a, UInt8.le_iff_toNat_le.2 b⟩
    simp only [naturals]
    rw [if_pos ⟨h1, this⟩, h3]
  number n := by
    obtain ⟨h1, -, h2⟩ := decimal_digits n
    refine ⟨[], decimal n, [], [], by show decimal n = _; simp, .inl rfl, ?_, .inl rfl, .inl rfl⟩
    rcases h2 with h2 | h2
    · exact .inl h2
    · exact .inr ⟨h1, h2⟩

/-- A file with a task given twice, a string with a quote and a line break, and a number with zeros in
front. -/
def sample : Value :=
  .obj [(b!"tasks", .null), (b!"targets", .arr [.obj [], .str b!"a\"\né", .num b!"007", .arr [.bool true]]),
    (b!"tasks", .obj [(b!"b", .bool false), (b!"a", .null)])]

example : eval naturals false false sample = some
    b!"{\n  \"targets\": [\n    {},\n    \"a\\\"\\né\",\n    7,\n    [\n      true\n    ]\n  ],\n  \"tasks\": {\n    \"a\": null,\n    \"b\": false\n  }\n}" := by
  decide +kernel

mutual
def parts : Value → List Value
  | .arr l => .arr l :: partsElems l
  | .obj l => .obj l :: partsMembers l
  | v => [v]

def partsElems : List Value → List Value
  | [] => []
  | v :: l => parts v ++ partsElems l

def partsMembers : List (Str × Value) → List Value
  | [] => []
  | (_, v) :: l => parts v ++ partsMembers l
end

theorem within_parts {a v : Value} (h : Within a v) : a ∈ parts v := by
  induction h with
  | self => cases a <;> simp [parts]
  | @elem v l hv _ ih =>
    rw [parts]
    refine List.mem_cons_of_mem _ ?_
    induction l with
    | nil => cases hv
    | cons u l ihl =>
      rw [partsElems, List.mem_append]
      rcases List.mem_cons.1 hv with rfl | hv
      · exact .inl ih
      · exact .inr (ihl hv)
  | @member k v l hv _ ih =>
    rw [parts]
    refine List.mem_cons_of_mem _ ?_
    induction l with
    | nil => cases hv
    | cons u l ihl =>
      obtain ⟨j, u⟩ := u
      rw [partsMembers, List.mem_append]
      rcases List.mem_cons.1 hv with e | hv
      · cases e; exact .inl ih
      · exact .inr (ihl hv)

/-- Names are plain, names and strings valid. -/
def fine : Value → Bool
  | .str s => decide (Utf8.encode (Utf8.decode s) = s)
  | .obj l => l.all fun p => decide (Utf8.encode (Utf8.decode p.1) = p.1) &&
      p.1.all fun c => decide (32 ≤ c.toNat) && c != 34 && c != 92
  | _ => true

theorem fine_doc {doc : Value} (h : (parts doc).all fine = true) : PlainNames doc ∧ ValidStrings doc := by
  rw [List.all_eq_true] at h
  refine ⟨fun l hl p hp c hc => ?_, fun s hs => ?_, fun l hl p hp => ?_⟩
  · have := h _ (within_parts hl)
    simp only [fine, List.all_eq_true, Bool.and_eq_true, decide_eq_true_eq, bne_iff_ne] at this
    have := (this p hp).2 c hc
    exact ⟨this.1.1, this.1.2, this.2⟩
  · have := h _ (within_parts hs)
    simp only [fine, decide_eq_true_eq] at this
    exact Utf8.valid_iff.2 this
  · have := h _ (within_parts hl)
    simp only [fine, List.all_eq_true, Bool.and_eq_true, decide_eq_true_eq] at this
    exact Utf8.valid_iff.2 (this p hp).1

/-- The theorems apply to it. -/
example : PlainNames sample ∧ ValidStrings sample ∧ Sound naturals ∧
    (∃ a, Within a sample ∧ (∀ l, a ≠ .arr l) ∧ a ≠ .obj []) ∧
    ∃ text, eval naturals false true sample = some text := by
  obtain ⟨h1, h2⟩ := fine_doc (doc := sample) (by decide +kernel)
  refine ⟨h1, h2, naturals_sound, ⟨_, .self, by simp [sample], by simp [sample]⟩, ?_⟩
  exact Option.isSome_iff_exists.1 (by decide +kernel)

/-- A number that is too large. -/
example : eval naturals false false (.arr [.num b!"1e999"]) = none := by decide +kernel

end Verif.Eval
