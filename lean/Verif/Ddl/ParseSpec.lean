import Verif.Ddl.Model

/-!
# What the parsed texts look like

Written from the `.rl` files and independent of the machines: for each statement a relation between
a text and the description it stands for.
-/

namespace Verif.Ddl
open Verif

/-- A space character: tab, newline, vertical tab, form feed, carriage return or space. -/
def Space (b : UInt8) : Prop := b = 32 ∨ (9 ≤ b ∧ b ≤ 13)
/-- Any number of spaces. -/
def Spaces (s : Str) : Prop := ∀ b ∈ s, Space b
/-- At least one space. -/
def Ws (s : Str) : Prop := s ≠ [] ∧ Spaces s
/-- A letter a-z or A-Z. -/
def Alpha (b : UInt8) : Prop := (65 ≤ b ∧ b ≤ 90) ∨ (97 ≤ b ∧ b ≤ 122)
/-- A letter, digit or underscore. -/
def Word (b : UInt8) : Prop := Alpha b ∨ (48 ≤ b ∧ b ≤ 57) ∨ b = 95
/-- A plain identifier: a letter, then letters, digits and underscores. -/
def Ident (s : Str) : Prop := ∃ c r, s = c :: r ∧ Alpha c ∧ ∀ b ∈ r, Word b

/-- `s` is the (upper case) keyword `w` in any mixture of cases. -/
inductive Kw : Str → Str → Prop
  | nil : Kw [] []
  | cons {c b : UInt8} {w s : Str} (h : b = c ∨ b = c + 32) : Kw w s → Kw (c :: w) (b :: s)

/-- What Go's `\s` matches. -/
def ReSpace (b : UInt8) : Prop := b = 9 ∨ b = 10 ∨ b = 12 ∨ b = 13 ∨ b = 32

/-- `t` is `s` with every maximal run of whitespace replaced by one space. -/
inductive Collapsed : Str → Str → Prop
  | nil : Collapsed [] []
  | char {b : UInt8} {s t : Str} (h : ¬ ReSpace b) : Collapsed s t → Collapsed (b :: s) (b :: t)
  | run {w s t : Str} (hw : w ≠ []) (h : ∀ b ∈ w, ReSpace b) (hs : ∀ b, s.head? = some b → ¬ ReSpace b) :
      Collapsed s t → Collapsed (w ++ s) (32 :: t)

/-- The UTF-8 encodings of the Unicode white space characters. -/
def whiteSpace : List Str :=
  [[9], [10], [11], [12], [13], [32], [0xC2, 0x85], [0xC2, 0xA0], [0xE1, 0x9A, 0x80],
   [0xE2, 0x80, 0x80], [0xE2, 0x80, 0x81], [0xE2, 0x80, 0x82], [0xE2, 0x80, 0x83],
   [0xE2, 0x80, 0x84], [0xE2, 0x80, 0x85], [0xE2, 0x80, 0x86], [0xE2, 0x80, 0x87],
   [0xE2, 0x80, 0x88], [0xE2, 0x80, 0x89], [0xE2, 0x80, 0x8A], [0xE2, 0x80, 0xA8],
   [0xE2, 0x80, 0xA9], [0xE2, 0x80, 0xAF], [0xE2, 0x81, 0x9F], [0xE3, 0x80, 0x80]]

/-- `t` is `s` without leading and trailing white space. -/
def Trimmed (s t : Str) : Prop :=
  ∃ ls rs : List Str, (∀ x ∈ ls, x ∈ whiteSpace) ∧ (∀ x ∈ rs, x ∈ whiteSpace) ∧
    s = ls.flatten ++ t ++ rs.flatten ∧
    (∀ x ∈ whiteSpace, ¬ x <+: t) ∧ (∀ x ∈ whiteSpace, ¬ x <:+ t)

/-! ## CREATE INDEX (index_parser.rl) -/

/-- An optional operator class. -/
def OpClassText (s oc : Str) : Prop := (s = [] ∧ oc = []) ∨ ∃ w, Ws w ∧ Ident oc ∧ s = w ++ oc

/-- The first key: a parenthesised expression, a function call, or a column. -/
def FirstKeyText (s : Str) (k : IndexKey) : Prop :=
  (∃ e, e ≠ [] ∧ (41 : UInt8) ∉ e ∧ s = b!"(" ++ e ++ b!")" ∧ k = { expression := s }) ∨
  (∃ f a, Ident f ∧ (41 : UInt8) ∉ a ∧ s = f ++ b!"(" ++ a ++ b!")" ∧ k = { expression := s }) ∨
  (Ident s ∧ k = { column := s })

/-- Further keys, each after a comma: columns. -/
inductive MoreKeysText : Str → List IndexKey → Prop
  | nil : MoreKeysText [] []
  | cons {a b c o oc s : Str} {ks : List IndexKey} : Spaces a → Spaces b → Ident c →
      OpClassText o oc → MoreKeysText s ks →
      MoreKeysText (a ++ b!"," ++ b ++ c ++ o ++ s) ({ column := c, opClass := oc } :: ks)

/-- An optional UNIQUE. -/
def UniqueText (s : Str) (u : Bool) : Prop :=
  (s = [] ∧ u = false) ∨ ∃ k w, Kw b!"UNIQUE" k ∧ Ws w ∧ s = k ++ w ∧ u = true

/-- An optional access method. -/
def UsingText (s u : Str) : Prop :=
  (s = [] ∧ u = []) ∨ ∃ v k w, Ws v ∧ Kw b!"USING" k ∧ Ws w ∧ Ident u ∧ s = v ++ k ++ w ++ u

/-- The end: a WHERE clause, whose text is trimmed and collapsed, or spaces. -/
def WhereText (s c : Str) : Prop :=
  (Spaces s ∧ c = []) ∨
  ∃ v k w e t, Ws v ∧ Kw b!"WHERE" k ∧ Ws w ∧ e ≠ [] ∧ s = v ++ k ++ w ++ e ∧ Trimmed e t ∧
    Collapsed t c

/-- `s` is a CREATE INDEX statement for `x`. -/
def IndexText (s : Str) (x : Index) : Prop :=
  ∃ (sp create w1 u index w2 w3 on w4 us w5 w6 k1 o1 oc more w7 wh : Str) (k : IndexKey)
      (ks : List IndexKey),
    s = sp ++ create ++ w1 ++ u ++ index ++ w2 ++ x.name ++ w3 ++ on ++ w4 ++ x.table ++ us ++ w5 ++
      b!"(" ++ w6 ++ k1 ++ o1 ++ more ++ w7 ++ b!")" ++ wh ∧
    Spaces sp ∧ Kw b!"CREATE" create ∧ Ws w1 ∧ UniqueText u x.unique ∧ Kw b!"INDEX" index ∧ Ws w2 ∧
    Ident x.name ∧ Ws w3 ∧ Kw b!"ON" on ∧ Ws w4 ∧ Ident x.table ∧ UsingText us x.using_ ∧ Ws w5 ∧
    Spaces w6 ∧ FirstKeyText k1 k ∧ OpClassText o1 oc ∧ MoreKeysText more ks ∧ Spaces w7 ∧
    WhereText wh x.where_ ∧
    x.keys = { k with opClass := oc } :: ks ∧ x.schema = [] ∧ x.primary = false

/-! ## FOREIGN KEY (foreign_key_parser.rl) -/

/-- Further identifiers, each after a comma. -/
inductive MoreText : Str → List Str → Prop
  | nil : MoreText [] []
  | cons {a b c s : Str} {cs : List Str} : Spaces a → Spaces b → Ident c → MoreText s cs →
      MoreText (a ++ b!"," ++ b ++ c ++ s) (c :: cs)

/-- A parenthesised, comma-separated list of identifiers. -/
def ListText (s : Str) (cs : List Str) : Prop :=
  ∃ a c more b ds, Spaces a ∧ Ident c ∧ MoreText more ds ∧ Spaces b ∧
    s = b!"(" ++ a ++ c ++ more ++ b ++ b!")" ∧ cs = c :: ds

/-- The keywords of a match type; the description has it in upper case. -/
def matchTypes : List Str := [b!"FULL", b!"PARTIAL", b!"SIMPLE"]

/-- An optional MATCH clause. -/
def MatchText (s m : Str) : Prop :=
  (s = [] ∧ m = []) ∨ ∃ v k w t, Ws v ∧ Kw b!"MATCH" k ∧ Ws w ∧ m ∈ matchTypes ∧ Kw m t ∧
    s = v ++ k ++ w ++ t

/-- A referential action. Two-word actions are joined by one space; but a vertical tab is kept, as
`\s` does not match it. -/
def ActionText (s a : Str) : Prop :=
  (a ∈ [b!"RESTRICT", b!"CASCADE"] ∧ Kw a s) ∨
  ∃ k1 k2 t1 t2 w v, (k1, k2) ∈ [(b!"NO", b!"ACTION"), (b!"SET", b!"NULL"), (b!"SET", b!"DEFAULT")] ∧
    Kw k1 t1 ∧ Ws w ∧ Kw k2 t2 ∧ Collapsed w v ∧ s = t1 ++ w ++ t2 ∧ a = k1 ++ v ++ k2

/-- An optional ON DELETE or ON UPDATE clause. -/
def OnText (event s a : Str) : Prop :=
  (s = [] ∧ a = []) ∨ ∃ v on w ev x t, Ws v ∧ Kw b!"ON" on ∧ Ws w ∧ Kw event ev ∧ Ws x ∧
    ActionText t a ∧ s = v ++ on ++ w ++ ev ++ x ++ t

/-- INITIALLY IMMEDIATE or INITIALLY DEFERRED. -/
def InitiallyText (s : Str) (d : Bool) : Prop :=
  ∃ k w t, Kw b!"INITIALLY" k ∧ Ws w ∧ Kw (if d then b!"DEFERRED" else b!"IMMEDIATE") t ∧
    s = k ++ w ++ t

/-- The optional deferrability clause with its leading spaces. DEFERRABLE needs a space after it. -/
def DeferText (s : Str) (deferrable deferred : Bool) : Prop :=
  (s = [] ∧ deferrable = false ∧ deferred = false) ∨
  (∃ v k w d, Ws v ∧ Kw b!"NOT" k ∧ Ws w ∧ Kw b!"DEFERRABLE" d ∧ s = v ++ k ++ w ++ d ∧
    deferrable = false ∧ deferred = false) ∨
  (∃ v p i, Ws v ∧
    ((p = [] ∧ deferrable = false) ∨
      ∃ d w, Kw b!"DEFERRABLE" d ∧ Ws w ∧ p = d ++ w ∧ deferrable = true) ∧
    ((i = [] ∧ deferred = false) ∨ InitiallyText i deferred) ∧ s = v ++ p ++ i)

/-- `s` is a FOREIGN KEY clause for `x`. -/
def ForeignKeyText (s : Str) (x : ForeignKey) : Prop :=
  ∃ sp foreign_ w1 key w2 cols w3 references w4 refs m od ou df tl : Str,
    s = sp ++ foreign_ ++ w1 ++ key ++ w2 ++ cols ++ w3 ++ references ++ w4 ++ x.table ++ refs ++ m ++
      od ++ ou ++ df ++ tl ∧
    Spaces sp ∧ Kw b!"FOREIGN" foreign_ ∧ Ws w1 ∧ Kw b!"KEY" key ∧ Ws w2 ∧ ListText cols x.columns ∧
    Ws w3 ∧ Kw b!"REFERENCES" references ∧ Ws w4 ∧ Ident x.table ∧ ListText refs x.referenced ∧
    MatchText m x.match_ ∧ OnText b!"DELETE" od x.onDelete ∧ OnText b!"UPDATE" ou x.onUpdate ∧
    DeferText df x.deferrable x.initiallyDeferred ∧ Spaces tl ∧ x.name = []

/-! ## CREATE TRIGGER (trigger_parser.rl) -/

/-- An optional CONSTRAINT. -/
def ConstraintText (s : Str) (c : Bool) : Prop :=
  (s = [] ∧ c = false) ∨ ∃ k w, Kw b!"CONSTRAINT" k ∧ Ws w ∧ s = k ++ w ∧ c = true

/-- The time; INSTEAD OF is joined as referential actions are. -/
def WhenText (s a : Str) : Prop :=
  (a ∈ [b!"BEFORE", b!"AFTER"] ∧ Kw a s) ∨
  ∃ t1 w v t2, Kw b!"INSTEAD" t1 ∧ Ws w ∧ Collapsed w v ∧ Kw b!"OF" t2 ∧ s = t1 ++ w ++ t2 ∧
    a = b!"INSTEAD" ++ v ++ b!"OF"

/-- The events. -/
inductive Event where
  | insert
  | update (columns : List Str)
  | delete
  | truncate
deriving DecidableEq, Repr

/-- An event. -/
def EventText (s : Str) : Event → Prop
  | .insert => Kw b!"INSERT" s
  | .delete => Kw b!"DELETE" s
  | .truncate => Kw b!"TRUNCATE" s
  | .update cols =>
    (cols = [] ∧ Kw b!"UPDATE" s) ∨
    ∃ k v o w c more cs, Kw b!"UPDATE" k ∧ Ws v ∧ Kw b!"OF" o ∧ Ws w ∧ Ident c ∧ MoreText more cs ∧
      s = k ++ v ++ o ++ w ++ c ++ more ∧ cols = c :: cs

/-- Further events, each after OR. -/
inductive MoreEventsText : Str → List Event → Prop
  | nil : MoreEventsText [] []
  | cons {a o b e s : Str} {ev : Event} {evs : List Event} : Ws a → Kw b!"OR" o → Ws b →
      EventText e ev → MoreEventsText s evs → MoreEventsText (a ++ o ++ b ++ e ++ s) (ev :: evs)

/-- An optional FOR EACH ROW, FOR ROW, FOR EACH STATEMENT or FOR STATEMENT. -/
def ForText (s : Str) (row : Bool) : Prop :=
  (s = [] ∧ row = false) ∨
  ∃ v k w e t, Ws v ∧ Kw b!"FOR" k ∧ Ws w ∧ (e = [] ∨ ∃ k' w', Kw b!"EACH" k' ∧ Ws w' ∧ e = k' ++ w') ∧
    Kw (if row then b!"ROW" else b!"STATEMENT") t ∧ s = v ++ k ++ w ++ e ++ t

/-- Is it an UPDATE event? -/
def Event.isUpdate : Event → Bool
  | .update _ => true
  | _ => false

/-- The columns of an event. -/
def Event.columns : Event → List Str
  | .update cs => cs
  | _ => []

/-- `s` is a CREATE TRIGGER statement for `x`. -/
def TriggerText (s : Str) (x : Trigger) : Prop :=
  ∃ (sp create w1 c trigger_ w2 w3 wh w4 ev1 more w5 on w6 df fr w7 execute w8 proc w9 w10 : Str)
      (ev : Event) (evs : List Event),
    s = sp ++ create ++ w1 ++ c ++ trigger_ ++ w2 ++ x.name ++ w3 ++ wh ++ w4 ++ ev1 ++ more ++ w5 ++
      on ++ w6 ++ x.table ++ df ++ fr ++ w7 ++ execute ++ w8 ++ proc ++ w9 ++ x.function ++ b!"()" ++
      w10 ∧
    Spaces sp ∧ Kw b!"CREATE" create ∧ Ws w1 ∧ ConstraintText c x.constraint ∧
    Kw b!"TRIGGER" trigger_ ∧ Ws w2 ∧ Ident x.name ∧ Ws w3 ∧ WhenText wh x.when_ ∧ Ws w4 ∧
    EventText ev1 ev ∧ MoreEventsText more evs ∧ Ws w5 ∧ Kw b!"ON" on ∧ Ws w6 ∧ Ident x.table ∧
    DeferText df x.deferrable x.initiallyDeferred ∧ ForText fr x.forEachRow ∧ Ws w7 ∧
    Kw b!"EXECUTE" execute ∧ Ws w8 ∧ (Kw b!"FUNCTION" proc ∨ Kw b!"PROCEDURE" proc) ∧ Ws w9 ∧
    Ident x.function ∧ Spaces w10 ∧
    x.insert = decide (Event.insert ∈ ev :: evs) ∧ x.delete = decide (Event.delete ∈ ev :: evs) ∧
    x.truncate = decide (Event.truncate ∈ ev :: evs) ∧ x.update = (ev :: evs).any Event.isUpdate ∧
    x.columns = (ev :: evs).flatMap Event.columns ∧ x.schema = []

/-! ## CHECK (check_parser.rl) -/

/-- `s` is a CHECK clause with the text `e` between the parentheses. -/
def CheckText (s e : Str) (deferrable deferred : Bool) : Prop :=
  ∃ sp k w df tl, s = sp ++ k ++ w ++ b!"(" ++ e ++ b!")" ++ df ++ tl ∧ Spaces sp ∧ Kw b!"CHECK" k ∧
    Spaces w ∧ DeferText df deferrable deferred ∧ Spaces tl

/-- The text between the parentheses has `) DEFERRABLE ` in it. -/
def StrayDeferrable (e : Str) : Prop :=
  ∃ x v k b y, e = x ++ 41 :: (v ++ (k ++ b :: y)) ∧ Ws v ∧ Kw b!"DEFERRABLE" k ∧ Space b

/-- The text between the parentheses has `) INITIALLY DEFERRED` or `) DEFERRABLE INITIALLY DEFERRED`
in it. -/
def StrayDeferred (e : Str) : Prop :=
  ∃ x v p k w t y, e = x ++ 41 :: (v ++ (p ++ (k ++ (w ++ (t ++ y))))) ∧ Ws v ∧
    (p = [] ∨ ∃ k' w', Kw b!"DEFERRABLE" k' ∧ Ws w' ∧ p = k' ++ w') ∧
    Kw b!"INITIALLY" k ∧ Ws w ∧ Kw b!"DEFERRED" t

end Verif.Ddl
