import Verif.Hcl.Model
import Verif.Hcl.Tags

/-!
# Specification: which documents are read, and what becomes of them

Stated over the tags in the source (`structs`), not over the fields of the model.
-/

namespace Verif.Hcl
open Verif

section
variable {F N : Type}

/-- The tags of a struct in the source. -/
def tagsOf (goName : Str) : List Tag := ((structs.find? (·.1 = goName)).map (·.2)).getD []

/-- The struct in `*T` and `[]*T`. -/
def elemOf : Str → Str
  | 0x5B :: 0x5D :: 0x2A :: s => s
  | 0x2A :: s => s
  | s => s

/-- A value is no list, or an empty one. -/
def EmptyList (v : Value N) : Prop := v = .null ∨ v = .list []

/-- A value `v` in a document can be stored in a field of a Go type, and is then written as `o` (none:
nothing is written). -/
inductive Stored (L : Lib F N) : Str → Value N → Option (Value N) → Prop where
  | string {v s} : L.convert .string v = some (.str s) → Stored L b!"string" v (some (.str (L.nfc s)))
  | bool {v b} : L.convert .bool v = some (.bool b) → Stored L b!"bool" v (some (.bool b))
  | int {v n i} : L.convert .number v = some (.num n) → L.toInt n = some i →
      Stored L b!"int64" v (some (.num (L.ofInt i)))
  | noInt {v} : L.convert .number v = some .null → Stored L b!"*int" v none
  | someInt {v n i} : L.convert .number v = some (.num n) → L.toInt n = some i →
      Stored L b!"*int" v (some (.num (L.ofInt i)))
  | noBool {v} : L.convert .bool v = some .null → Stored L b!"*bool" v none
  | someBool {v b} : L.convert .bool v = some (.bool b) → Stored L b!"*bool" v (some (.bool b))
  | noFloat {v} : L.convert .number v = some .null → Stored L b!"*float64" v none
  | someFloat {v n f} : L.convert .number v = some (.num n) → L.toFloat n = some f →
      Stored L b!"*float64" v (some (.num (L.ofFloat f)))
  | noStrings {v w e} : L.convert .strings v = some w → EmptyList w → EmptyList e →
      Stored L b!"[]string" v (some e)
  | strings {v} {s : Str} {l : List Str} : L.convert .strings v = some (.list ((s :: l).map .str)) →
      Stored L b!"[]string" v (some (.list ((s :: l).map fun s => .str (L.nfc s))))

/-- How a field is written which no attribute has set. -/
inductive Unset (L : Lib F N) : Str → Option (Value N) → Prop where
  | string : Unset L b!"string" (some (.str (L.nfc [])))
  | bool : Unset L b!"bool" (some (.bool false))
  | int : Unset L b!"int64" (some (.num (L.ofInt 0)))
  | strings {e} : EmptyList e → Unset L b!"[]string" (some e)
  | ptr {t} : Unset L (b!"*" ++ t) none

/-- The attributes of a name. -/
def attrs (items : List (Item N)) (name : Str) : List (Item N) :=
  items.filter fun i => i.isAttr && decide (i.name = name)

/-- The blocks of a type. -/
def blocks (items : List (Item N)) (type : Str) : List (Item N) :=
  items.filter fun i => !i.isAttr && decide (i.name = type)

/-- A block, or a whole document, has the form of a struct: every attribute and every block in it
belongs to a field, attributes are given once and fit, mandatory ones are there, there are as many
labels as label fields, blocks of `*T` fields occur once, and blocks have the form of their structs. -/
inductive Conforms (L : Lib F N) : Str → List Str → List (Item N) → Prop where
  | intro {goName : Str} {labels : List Str} {items : List (Item N)}
    (hlabels : labels.length = ((tagsOf goName).filter fun t => t.kind = b!"label").length)
    (hattr : ∀ n v, Item.attr n v ∈ items → ∃ t ∈ tagsOf goName,
      (t.kind = b!"attr" ∨ t.kind = b!"optional") ∧ t.name = n ∧ ∃ o, Stored L t.goType v o)
    (honce : ∀ n, (attrs items n).length ≤ 1)
    (hrequired : ∀ t ∈ tagsOf goName, t.kind = b!"attr" → attrs items t.name ≠ [])
    (hblock : ∀ n ls body, Item.block n ls body ∈ items → ∃ t ∈ tagsOf goName,
      t.kind = b!"block" ∧ t.name = n)
    (hsingle : ∀ t ∈ tagsOf goName, t.kind = b!"block" → t.goType.head? = some 0x2A →
      (blocks items t.name).length ≤ 1)
    (hbody : ∀ t ∈ tagsOf goName, t.kind = b!"block" → ∀ ls body, Item.block t.name ls body ∈ items →
      Conforms L (elemOf t.goType) ls body) :
    Conforms L goName labels items

/-- A block, or a whole document, `labels' items'` says what `labels items` says: the labels are the
same, up to their normal form. Every attribute that was there is there with the same value, converted
to the type of its field. Those that were not have the zero value. And there are the same blocks, in
the same order, which say the same. -/
inductive Rewritten (L : Lib F N) : Str → List Str → List (Item N) → List Str → List (Item N) → Prop where
  | intro {goName : Str} {labels labels' : List Str} {items items' : List (Item N)}
    (hlabels : labels' = labels.map L.nfc)
    (hset : ∀ t ∈ tagsOf goName, t.kind = b!"attr" ∨ t.kind = b!"optional" → ∀ v,
      Item.attr t.name v ∈ items → ∃ o, Stored L t.goType v o ∧
        attrs items' t.name = o.toList.map (.attr t.name))
    (hunset : ∀ t ∈ tagsOf goName, t.kind = b!"attr" ∨ t.kind = b!"optional" → attrs items t.name = [] →
      ∃ o, Unset L t.goType o ∧ attrs items' t.name = o.toList.map (.attr t.name))
    (hnum : ∀ t ∈ tagsOf goName, t.kind = b!"block" →
      (blocks items' t.name).length = (blocks items t.name).length)
    (hbody : ∀ t ∈ tagsOf goName, t.kind = b!"block" → ∀ (k : Nat) (n n' : Str) (ls ls' : List Str)
      (body body' : List (Item N)),
      (blocks items t.name)[k]? = some (.block n ls body) →
      (blocks items' t.name)[k]? = some (.block n' ls' body') →
      Rewritten L (elemOf t.goType) ls body ls' body') :
    Rewritten L goName labels items labels' items'

end

end Verif.Hcl
