import Verif.Base.GoMap

/-!
# Model of `/repo/internal/ddl/ddl.go`: writing and reading structs as HCL documents

`ddl.go` hands the structs to `gohcl`, which goes by the tags of their fields. The model is `gohcl`'s:
documents (bodies of attributes and blocks) on one side, values on the other. The text of a document
is in `Text.lean`.
-/

namespace Verif.Hcl
open Verif

/-- Values in a document (cty). `N` is the type of numbers. -/
inductive Value (N : Type) where
  | null
  | str (s : Str)
  | bool (b : Bool)
  | num (n : N)
  | list (l : List (Value N))
deriving Repr

/-- A document is a list of items: `name = value` and `type "label" ... { items }`. -/
inductive Item (N : Type) where
  | attr (name : Str) (v : Value N)
  | block (type : Str) (labels : List Str) (body : List (Item N))
deriving Repr

/-- The types to which values are converted before they are stored in a field. -/
inductive Kind where
  | string
  | bool
  | number
  | strings
deriving DecidableEq, Repr

/-- What the HCL library brings along. `F` is the type of (finite) float64 values. -/
structure Lib (F N : Type) where
  /-- `cty.StringVal` brings every text into Unicode normal form C -/
  nfc : Str → Str
  /-- `cty.NumberIntVal` -/
  ofInt : Int → N
  /-- `cty.NumberFloatVal` -/
  ofFloat : F → N
  /-- `gocty.FromCtyValue` into an int or int64: whole numbers in range -/
  toInt : N → Option Int
  /-- `gocty.FromCtyValue` into a float64 -/
  toFloat : N → Option F
  /-- `convert.Convert` -/
  convert : Kind → Value N → Option (Value N)

/-- A tag: `Name string `hcl:"name,label"`` is ⟨Name, string, name, label⟩. -/
structure Tag where
  goName : Str
  goType : Str
  name : Str
  kind : Str
deriving DecidableEq, Repr

/-- How a Go type is written as an attribute's value (none: nil, nothing is written) and read after
conversion. -/
structure Attr (N β : Type) where
  goType : Str
  kind : Kind
  enc : β → Option (Value N)
  dec : Value N → Option β

/-- `string` -/
def Attr.string {F N : Type} (L : Lib F N) : Attr N Str where
  goType := b!"string"
  kind := .string
  enc s := some (.str (L.nfc s))
  dec
    | .str s => some s
    | _ => none

/-- `bool` -/
def Attr.bool {N : Type} : Attr N Bool where
  goType := b!"bool"
  kind := .bool
  enc b := some (.bool b)
  dec
    | .bool b => some b
    | _ => none

/-- `int` and `int64` -/
def Attr.int {F N : Type} (L : Lib F N) (goType : Str) : Attr N Int where
  goType := goType
  kind := .number
  enc i := some (.num (L.ofInt i))
  dec
    | .num n => L.toInt n
    | _ => none

/-- `float64` -/
def Attr.float {F N : Type} (L : Lib F N) : Attr N F where
  goType := b!"float64"
  kind := .number
  enc f := some (.num (L.ofFloat f))
  dec
    | .num n => L.toFloat n
    | _ => none

/-- `*T` -/
def Attr.ptr {N β : Type} (A : Attr N β) : Attr N (Option β) where
  goType := b!"*" ++ A.goType
  kind := A.kind
  enc o := o.bind A.enc
  dec
    | .null => some none
    | v => (A.dec v).map some

/-- `[]string`. Nil and empty slices are not distinguished: the code makes slices with `append` and
`strings.Split`, so an empty one is nil, which is written `null`. -/
def Attr.strings {F N : Type} (L : Lib F N) : Attr N (List Str) where
  goType := b!"[]string"
  kind := .strings
  enc l := some (if l = [] then .null else .list (l.map fun s => .str (L.nfc s)))
  dec
    | .null => some []
    | .list l => l.mapM (fun v => match v with
      | .str s => some s
      | _ => none)
    | _ => none

/-- Why a document is refused. -/
inductive Diag where
  | unsupported (name : Str)
  | redefined (name : Str)
  | missing (name : Str)
  | labels
  | duplicateBlock (type : Str)
  | badValue (name : Str)
deriving DecidableEq, Repr

/-- A tagged field of the struct `α`. -/
structure Field (N α : Type) where
  tag : Tag
  /-- blocks: the struct they hold -/
  elem : Str := []
  /-- blocks: how many labels -/
  elemLabels : Nat := 0
  /-- labels: the value -/
  label : α → List Str := fun _ => []
  setLabel : Str → α → α := fun _ a => a
  /-- what is written into the body -/
  items : α → List (Item N) := fun _ => []
  /-- reads the items of the field's name -/
  decode : List (Item N) → α → Except Diag α := fun _ a => .ok a

def Item.name {N : Type} : Item N → Str
  | .attr n _ => n
  | .block t _ _ => t

def Item.isAttr {N : Type} : Item N → Bool
  | .attr _ _ => true
  | .block _ _ _ => false

def Tag.isAttr (t : Tag) : Bool := t.kind = b!"attr" || t.kind = b!"optional"

/-- A struct: its name, its fields in order, its zero value. -/
structure Codec (N α : Type) where
  goName : Str
  zero : α
  fields : List (Field N α)

section
variable {F N α : Type}

/-- The values of the label fields. -/
def Codec.labels (C : Codec N α) (a : α) : List Str := C.fields.flatMap fun f => f.label a

/-- `gohcl.EncodeIntoBody`: attributes and blocks in the order of the fields. -/
def Codec.items (C : Codec N α) (a : α) : List (Item N) := C.fields.flatMap fun f => f.items a

/-- `body.Content` with the schema of the struct: is the item known? -/
def Field.allows (f : Field N α) : Item N → Bool
  | .attr n _ => f.tag.isAttr && decide (f.tag.name = n)
  | .block t ls _ => decide (f.tag.kind = b!"block") && decide (f.tag.name = t) &&
      decide (ls.length = f.elemLabels)

def labelFields (fs : List (Field N α)) : List (Field N α) := fs.filter (fun f => f.tag.kind = b!"label")

/-- Sets the label fields in turn. -/
def setLabels : List (Field N α) → List Str → α → α
  | f :: fs, s :: ss, a => setLabels fs ss (f.setLabel s a)
  | _, _, a => a

/-- The loop over the fields of `decodeBodyToStruct`. -/
def decodeFields (items : List (Item N)) : List (Field N α) → α → Except Diag α
  | [], a => .ok a
  | f :: fs, a =>
    match f.decode (items.filter fun i => i.name = f.tag.name) a with
    | .error e => .error e
    | .ok a => decodeFields items fs a

/-- `gohcl.DecodeBody` into a zero value, with the labels of the block around the body. (The library
collects all errors; here the first one is returned.) That an attribute may be given only once is
checked by the parser. -/
def Codec.decode (C : Codec N α) (labels : List Str) (items : List (Item N)) : Except Diag α :=
  match items.find? (fun i => !C.fields.any fun f => f.allows i) with
  | some i => .error (.unsupported i.name)
  | none =>
    if ¬ ((items.filter Item.isAttr).map Item.name).Nodup then .error (.redefined [])
    else
      match C.fields.find? (fun f => f.tag.kind = b!"attr" &&
          !items.any fun i => i.isAttr && decide (i.name = f.tag.name)) with
      | some f => .error (.missing f.tag.name)
      | none =>
        if labels.length ≠ (labelFields C.fields).length then .error .labels
        else decodeFields items C.fields (setLabels (labelFields C.fields) labels C.zero)

/-- `Name string `hcl:"name,label"`` -/
def Field.ofLabel (L : Lib F N) (goName name : Str) (get : α → Str) (set : Str → α → α) :
    Field N α where
  tag := ⟨goName, b!"string", name, b!"label"⟩
  label a := [L.nfc (get a)]
  setLabel := set

/-- `Name T `hcl:"name,attr"`` and `optional`. -/
def Field.ofAttr {β : Type} (L : Lib F N) (goName name kind : Str) (A : Attr N β) (get : α → β)
    (set : β → α → α) : Field N α where
  tag := ⟨goName, A.goType, name, kind⟩
  items a :=
    match A.enc (get a) with
    | none => []
    | some v => [.attr name v]
  decode
    | .attr _ v :: _, a =>
      match (L.convert A.kind v).bind A.dec with
      | none => .error (.badValue name)
      | some x => .ok (set x a)
    | _, a => .ok a

/-- Decodes the blocks of a field. -/
def decodeBlocks {β : Type} (C : Codec N β) : List (Item N) → Except Diag (List β)
  | [] => .ok []
  | .block _ ls body :: rest =>
    match C.decode ls body with
    | .error e => .error e
    | .ok x =>
      match decodeBlocks C rest with
      | .error e => .error e
      | .ok xs => .ok (x :: xs)
  | .attr _ _ :: rest => decodeBlocks C rest

/-- `Names []*T `hcl:"name,block"``. (Nil pointers in the slice, which are left out, are not
modelled.) -/
def Field.ofBlocks {β : Type} (goName name : Str) (C : Codec N β) (get : α → List β)
    (set : List β → α → α) : Field N α where
  tag := ⟨goName, b!"[]*" ++ C.goName, name, b!"block"⟩
  elem := C.goName
  elemLabels := (labelFields C.fields).length
  items a := (get a).map fun x => .block name (C.labels x) (C.items x)
  decode items a :=
    match decodeBlocks C items with
    | .error e => .error e
    | .ok xs => .ok (set xs a)

/-- `Name *T `hcl:"name,block"`` -/
def Field.ofBlock {β : Type} (goName name : Str) (C : Codec N β) (get : α → Option β)
    (set : Option β → α → α) : Field N α where
  tag := ⟨goName, b!"*" ++ C.goName, name, b!"block"⟩
  elem := C.goName
  elemLabels := (labelFields C.fields).length
  items a := ((get a).toList).map fun x => .block name (C.labels x) (C.items x)
  decode
    | [], a => .ok a
    | [.block _ ls body], a =>
      match C.decode ls body with
      | .error e => .error e
      | .ok x => .ok (set (some x) a)
    | _, _ => .error (.duplicateBlock name)

end

end Verif.Hcl
