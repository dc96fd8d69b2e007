import Verif.Ragel.Comb
import Verif.Ddl.Tables.Check
import Verif.Ddl.Tables.Index
import Verif.Ddl.Tables.ForeignKey
import Verif.Ddl.Tables.Trigger

/-!
# The grammars of the `.rl` files, in a form whose actions are unambiguous

These are the grammars the machines are checked against. They match the same texts as the `.rl`
files; where a `.rl` grammar is ambiguous (runs of spaces) ragel executes the actions of all
readings, and the grammar here has them on the one reading it has. The readable statements are in
`ParseSpec.lean`; nothing there depends on this file.
-/

namespace Verif.Ddl
open Verif Verif.Ragel

/-! ## index_parser.rl:57-81 -/

namespace IndexG

abbrev G := Gram IndexAct

/-- `expr = '(' [^)]+ ')'`, recorded. -/
def expr : G := seqs [.cls [(40, 40)] [.push], .cls [(0, 40), (42, 255)] [.push],
  .star (.cls [(0, 40), (42, 255)] [.push]), .cls [(41, 41)] [.push]]
/-- `fncall = [a-zA-Z][_a-zA-Z0-9]* '(' [^)]* ')'`, recorded. -/
def fncall : G := seqs [ident, .cls [(40, 40)] [.push], .star (.cls [(0, 40), (42, 255)] [.push]),
  .cls [(41, 41)] [.push]]
/-- The first key. -/
def key : G := .alt (.seq expr (.act .addExpression))
  (.alt (.seq fncall (.act .addExpression)) (.seq ident (.act .addColumn)))
/-- An operator class, or nothing. -/
def opclass : G := opt (seqs [ws, ident, .act .setOpClass])
/-- A further key. -/
def more : G := .star (seqs [sp, ch 44, sp, ident, .act .addColumn, opclass])
/-- The WHERE clause, or spaces. -/
def where_ : G := .alt (seqs [ws, kw b!"WHERE", sp1, .cls anyCls [.push],
  .star (.cls anyCls [.push]), .act .setWhere]) sp

def t17 : List G := [where_]
def t16 : List G := ch 41 :: t17
def t15 : List G := sp :: t16
def t14 : List G := more :: t15
def t13 : List G := opclass :: t14
def t12 : List G := key :: t13
def t11 : List G := ws :: ch 40 :: sp :: t12
def t10 : List G := opt (seqs [ws, kw b!"USING", ws, ident, .act .setUsing]) :: t11
def t9 : List G := .act .setTable :: t10
def t8 : List G := ident :: t9
def t7 : List G := ws :: t8
def t6 : List G := kw b!"ON" :: t7
def t5 : List G := .act .setName :: ws :: t6
def t4 : List G := ident :: t5
def t3 : List G := ws :: t4
def t2 : List G := kw b!"INDEX" :: t3
def t1 : List G := opt (seqs [kwA .matchUnique b!"UNIQUE", ws]) :: t2
def t0 : List G := sp :: kw b!"CREATE" :: ws :: t1

end IndexG

/-! ## foreign_key_parser.rl:52-79 -/

namespace FkG

abbrev G := Gram FkAct

/-- `match`, recorded. -/
def match_ : G := .alt (kwP b!"FULL") (.alt (kwP b!"PARTIAL") (kwP b!"SIMPLE"))
/-- `onaction`, recorded. -/
def onaction : G := .alt (seqs [kwP b!"NO", wsP, kwP b!"ACTION"]) (.alt (kwP b!"RESTRICT")
  (.alt (kwP b!"CASCADE") (.alt (seqs [kwP b!"SET", wsP, kwP b!"NULL"])
    (seqs [kwP b!"SET", wsP, kwP b!"DEFAULT"]))))
/-- A space after DEFERRABLE. -/
def spF : G := .cls spaceCls [.act .matchDeferrable]
/-- `INITIALLY ...`. -/
def initially : G := seqs [kw b!"INITIALLY", ws, .alt (kw b!"IMMEDIATE")
  (kwA .matchInitiallyDeferred b!"DEFERRED")]
/-- The deferrability clause and the trailing spaces. -/
def deferral : G := .alt sp (.alt (seqs [ws, kw b!"NOT", ws, kw b!"DEFERRABLE", sp])
  (.alt (seqs [ws, kw b!"DEFERRABLE", spF, .star spF, opt (seqs [initially, sp])])
    (seqs [ws, initially, sp])))
/-- Further columns. -/
def more (a : FkAct) : G := .star (seqs [sp, ch 44, sp, ident, .act a])

def t19 : List G := [deferral]
def t18 : List G := opt (seqs [ws, kw b!"ON", ws, kw b!"UPDATE", ws, onaction, .act .setOnUpdate]) :: t19
def t17 : List G := opt (seqs [ws, kw b!"ON", ws, kw b!"DELETE", ws, onaction, .act .setOnDelete]) :: t18
def t16 : List G := opt (seqs [ws, kw b!"MATCH", ws, match_, .act .setMatch]) :: t17
def t15 : List G := sp :: ch 41 :: t16
def t14 : List G := more .addReferenced :: t15
def t13 : List G := ident :: .act .addReferenced :: t14
def t12 : List G := sp :: t13
def t11 : List G := .act .setTable :: ch 40 :: t12
def t10 : List G := ident :: t11
def t9 : List G := ws :: t10
def t8 : List G := ws :: kw b!"REFERENCES" :: t9
def t7 : List G := sp :: ch 41 :: t8
def t6 : List G := more .addColumn :: t7
def t5 : List G := ident :: .act .addColumn :: t6
def t4 : List G := sp :: t5
def t3 : List G := ws :: ch 40 :: t4
def t2 : List G := kw b!"KEY" :: t3
def t1 : List G := ws :: t2
def t0 : List G := sp :: kw b!"FOREIGN" :: t1

end FkG

/-! ## trigger_parser.rl:59-88 -/

namespace TriggerG

abbrev G := Gram TriggerAct

/-- The time, recorded. -/
def when_ : G := .alt (kwP b!"BEFORE") (.alt (kwP b!"AFTER")
  (seqs [kwP b!"INSTEAD", wsP, kwP b!"OF"]))
/-- Further columns. -/
def more : G := .star (seqs [sp, ch 44, sp, ident, .act .addColumn])
/-- An event. -/
def event : G := .alt (kwA .matchInsert b!"INSERT")
  (.alt (.seq (kwA .matchUpdate b!"UPDATE")
      (opt (seqs [ws, kw b!"OF", ws, ident, .act .addColumn, more])))
    (.alt (kwA .matchDelete b!"DELETE") (kwA .matchTruncate b!"TRUNCATE")))
/-- A space after DEFERRABLE. -/
def spF : G := .cls spaceCls [.act .matchDeferrable]
/-- `INITIALLY ...`. -/
def initially : G := seqs [kw b!"INITIALLY", ws, .alt (kw b!"IMMEDIATE")
  (kwA .matchInitiallyDeferred b!"DEFERRED")]
/-- The deferrability clause and the spaces up to FOR or EXECUTE. -/
def deferral : G := .alt ws (.alt (seqs [ws, kw b!"NOT", ws, kw b!"DEFERRABLE", ws])
  (.alt (seqs [ws, kw b!"DEFERRABLE", spF, .star spF, initially, ws])
    (.alt (seqs [ws, kw b!"DEFERRABLE", spF, spF, .star spF])
      (seqs [ws, initially, ws]))))
/-- FOR EACH ROW and so on, with the spaces up to EXECUTE. -/
def for_ : G := opt (seqs [kw b!"FOR", ws, opt (.seq (kw b!"EACH") ws),
  .alt (kwA .matchForEachRow b!"ROW") (kw b!"STATEMENT"), ws])

def t19 : List G := [sp]
def t18 : List G := ch 40 :: ch 41 :: t19
def t17 : List G := ident :: .act .setFunction :: t18
def t16 : List G := ws :: t17
def t15 : List G := .alt (kw b!"FUNCTION") (kw b!"PROCEDURE") :: t16
def t14 : List G := kw b!"EXECUTE" :: ws :: t15
def t13 : List G := for_ :: t14
def t12 : List G := deferral :: t13
def t11 : List G := ident :: .act .setTable :: t12
def t10 : List G := ws :: t11
def t9 : List G := ws :: kw b!"ON" :: t10
def t8 : List G := .star (seqs [ws, kw b!"OR", ws, event]) :: t9
def t7 : List G := event :: t8
def t6 : List G := ws :: t7
def t5 : List G := when_ :: .act .setWhen :: t6
def t4 : List G := ident :: .act .setName :: ws :: t5
def t3 : List G := ws :: t4
def t2 : List G := kw b!"TRIGGER" :: t3
def t1 : List G := opt (seqs [kwA .matchConstraint b!"CONSTRAINT", ws]) :: t2
def t0 : List G := sp :: kw b!"CREATE" :: ws :: t1

end TriggerG

/-! ## check_parser.rl:31-44

The check grammar is ambiguous in `any** ')'`, so its machine is checked three times, without
operations: for the texts it accepts, and for those on which it executes each of the two flags. -/

namespace CheckG

abbrev G := Gram CheckAct

/-- `any*` -/
def anys : G := .star (.cls anyCls [])
/-- `INITIALLY ...`. -/
def initially : G := seqs [kw b!"INITIALLY", ws, .alt (kw b!"IMMEDIATE") (kw b!"DEFERRED")]
/-- The deferrability clause and the trailing spaces. -/
def deferral : G := .alt sp (.alt (seqs [ws, kw b!"NOT", ws, kw b!"DEFERRABLE", sp])
  (.alt (seqs [ws, kw b!"DEFERRABLE", ws, opt (seqs [initially, sp])])
    (seqs [ws, initially, sp])))
/-- The head, up to and with a closing parenthesis. -/
def head (gs : List G) : List G := sp :: kw b!"CHECK" :: sp :: ch 40 :: anys :: ch 41 :: gs
/-- Everything. -/
def t0 : List G := head [deferral]
/-- What may follow `) DEFERRABLE `. -/
def dRest : G := .alt (seqs [anys, ch 41, deferral]) (seqs [sp, opt (seqs [initially, sp])])
/-- The texts with `) DEFERRABLE `, in the expression or at the end. -/
def d0 : List G := head (ws :: kw b!"DEFERRABLE" :: sp1 :: [dRest])
/-- What may follow `) INITIALLY DEFERRED`. -/
def iRest : G := .alt (seqs [anys, ch 41, deferral]) sp
/-- The texts with `) INITIALLY DEFERRED` or `) DEFERRABLE INITIALLY DEFERRED`. -/
def i0 : List G := head (ws :: opt (seqs [kw b!"DEFERRABLE", ws]) :: kw b!"INITIALLY" :: ws ::
  kw b!"DEFERRED" :: [iRest])

end CheckG

end Verif.Ddl
