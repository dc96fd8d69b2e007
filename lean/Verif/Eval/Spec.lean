import Verif.Json.Model
import Verif.Base.Utf8

/-!
# JSON texts

The grammar of RFC 8259, and when one JSON value shows another.  Nothing here refers to a function of the
model.
-/

namespace Verif.Eval.Spec
open Verif Json

/-- White space. -/
def Space (w : Str) : Prop := ∀ c ∈ w, c = 32 ∨ c = 9 ∨ c = 10 ∨ c = 13

/-- A hexadecimal digit and its value. -/
inductive Hex : UInt8 → Nat → Prop
  | digit {n} : n < 10 → Hex (UInt8.ofNat (48 + n)) n
  | upper {n} : n < 6 → Hex (UInt8.ofNat (65 + n)) (10 + n)
  | lower {n} : n < 6 → Hex (UInt8.ofNat (97 + n)) (10 + n)

/-- Four hexadecimal digits and their value. -/
def Hex4 (a b c d : UInt8) (n : Nat) : Prop :=
  ∃ w x y z, Hex a w ∧ Hex b x ∧ Hex c y ∧ Hex d z ∧ n = 4096 * w + 256 * x + 16 * y + z

/-- The characters after a backslash, and what they stand for. -/
def shorts : List (UInt8 × UInt8) :=
  [(34, 34), (92, 92), (47, 47), (98, 8), (102, 12), (110, 10), (114, 13), (116, 9)]

/-- What is between the quotes of a string, and the string. -/
inductive Chars : Str → Str → Prop
  | nil : Chars [] []
  | plain {c t s} : 32 ≤ c.toNat → c ≠ 34 → c ≠ 92 → Chars t s → Chars (c :: t) (c :: s)
  | short {e c t s} : (e, c) ∈ shorts → Chars t s → Chars (92 :: e :: t) (c :: s)
  | unicode {a b c d n t s} : Hex4 a b c d n → Utf8.Scalar n → Chars t s →
      Chars (92 :: 117 :: a :: b :: c :: d :: t) (Utf8.encode1 n ++ s)
  | pair {a b c d e f g h n m t s} : Hex4 a b c d n → 0xD800 ≤ n → n < 0xDC00 →
      Hex4 e f g h m → 0xDC00 ≤ m → m < 0xE000 → Chars t s →
      Chars (92 :: 117 :: a :: b :: c :: d :: 92 :: 117 :: e :: f :: g :: h :: t)
        (Utf8.encode1 (0x10000 + 0x400 * (n - 0xD800) + (m - 0xDC00)) ++ s)

/-- Decimal digits. -/
def Digits (s : Str) : Prop := s ≠ [] ∧ ∀ c ∈ s, 48 ≤ c.toNat ∧ c.toNat ≤ 57

/-- A number. -/
def Number (s : Str) : Prop := ∃ sign int frac exp, s = sign ++ int ++ frac ++ exp ∧
  (sign = [] ∨ sign = b!"-") ∧
  (int = b!"0" ∨ Digits int ∧ ∀ r, int ≠ 48 :: r) ∧
  (frac = [] ∨ ∃ ds, frac = b!"." ++ ds ∧ Digits ds) ∧
  (exp = [] ∨ ∃ e sg ds, exp = e ++ sg ++ ds ∧ (e = b!"e" ∨ e = b!"E") ∧
    (sg = [] ∨ sg = b!"+" ∨ sg = b!"-") ∧ Digits ds)

mutual
/-- The text `t` is JSON for the value `v`. -/
inductive Denotes : Str → Value → Prop
  | null : Denotes b!"null" .null
  | true : Denotes b!"true" (.bool true)
  | false : Denotes b!"false" (.bool false)
  | num {t} : Number t → Denotes t (.num t)
  | str {t s} : Chars t s → Denotes (b!"\"" ++ t ++ b!"\"") (.str s)
  | noElems {w} : Space w → Denotes (b!"[" ++ w ++ b!"]") (.arr [])
  | arr {t l} : Elems t l → Denotes (b!"[" ++ t ++ b!"]") (.arr l)
  | noMembers {w} : Space w → Denotes (b!"{" ++ w ++ b!"}") (.obj [])
  | obj {t l} : Members t l → Denotes (b!"{" ++ t ++ b!"}") (.obj l)

/-- One or more values, separated by commas. -/
inductive Elems : Str → List Value → Prop
  | one {w t w' v} : Space w → Denotes t v → Space w' → Elems (w ++ t ++ w') [v]
  | more {w t w' v ts l} : Space w → Denotes t v → Space w' → Elems ts l →
      Elems (w ++ t ++ w' ++ b!"," ++ ts) (v :: l)

/-- One or more members, separated by commas. -/
inductive Members : Str → List (Str × Value) → Prop
  | one {w k s w1 w2 t v w3} : Space w → Chars k s → Space w1 → Space w2 → Denotes t v → Space w3 →
      Members (w ++ (b!"\"" ++ k ++ b!"\"") ++ w1 ++ b!":" ++ w2 ++ t ++ w3) [(s, v)]
  | more {w k s w1 w2 t v w3 ts l} : Space w → Chars k s → Space w1 → Space w2 → Denotes t v → Space w3 →
      Members ts l →
      Members (w ++ (b!"\"" ++ k ++ b!"\"") ++ w1 ++ b!":" ++ w2 ++ t ++ w3 ++ b!"," ++ ts) ((s, v) :: l)
end

/-- The last member of the name `k` has the value `v`. -/
def Last (l : List (Str × Value)) (k : Str) (v : Value) : Prop :=
  ∃ pre post, l = pre ++ (k, v) :: post ∧ ∀ p ∈ post, p.1 ≠ k

/-- The second value shows the first: they are the same, except that numbers are written in another way
(`same` says when two numbers are) and that each object has its members in order of their names, each once,
with the value that was given last. -/
inductive Shows (same : Str → Str → Prop) : Value → Value → Prop
  | null : Shows same .null .null
  | bool {b} : Shows same (.bool b) (.bool b)
  | num {a b} : same a b → Shows same (.num a) (.num b)
  | str {s} : Shows same (.str s) (.str s)
  | arr {l l'} : List.Forall₂ (Shows same) l l' → Shows same (.arr l) (.arr l')
  | obj {l l'} : (l'.map Prod.fst).Pairwise (fun a b => Str.lt a b = true) →
      (∀ k, k ∈ l.map Prod.fst ↔ k ∈ l'.map Prod.fst) →
      (∀ k v v', Last l k v → (k, v') ∈ l' → Shows same v v') → Shows same (.obj l) (.obj l')

/-- `a` is `b`, or part of it. -/
inductive Within : Value → Value → Prop
  | self {v} : Within v v
  | elem {a v l} : v ∈ l → Within a v → Within a (.arr l)
  | member {a k v l} : (k, v) ∈ l → Within a v → Within a (.obj l)

/-- Names that are the same in a JSON text: without quotes, backslashes and control characters. -/
def PlainName (k : Str) : Prop := ∀ c ∈ k, 32 ≤ c.toNat ∧ c ≠ 34 ∧ c ≠ 92

/-- All names in the value are of that kind. -/
def PlainNames (doc : Value) : Prop := ∀ l, Within (.obj l) doc → ∀ p ∈ l, PlainName p.1

/-- The strings and names of the value are valid UTF-8. -/
def ValidStrings (doc : Value) : Prop :=
  (∀ s, Within (.str s) doc → Utf8.Valid s) ∧ ∀ l, Within (.obj l) doc → ∀ p ∈ l, Utf8.Valid p.1

/-- What is in a sequence that sets colours: digits and semicolons. -/
def Code (c : UInt8) : Prop := 48 ≤ c.toNat ∧ c.toNat ≤ 57 ∨ c = 59

instance (c : UInt8) : Decidable (Code c) := inferInstanceAs (Decidable (_ ∨ _))

/-- A text without the sequences that set colours: those that begin with escape and `[`, go on with digits and
semicolons and end with `m`. (The first argument says that such a sequence has begun.) -/
def uncolour : Bool → Str → Str
  | _, [] => []
  | true, c :: t => if c = 109 then uncolour false t else if Code c then uncolour true t else c :: uncolour false t
  | false, 27 :: 91 :: t => uncolour true t
  | false, c :: t => c :: uncolour false t

end Verif.Eval.Spec
