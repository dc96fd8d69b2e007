import Verif.Ragel.Bisim
import Verif.Ddl.Grammars
import Verif.Ragel.Track

/-!
# Certificate that `triggerMachine` implements its grammar

Generated by tools/GenCert.txt; do not edit. Checked by the kernel below.
-/

namespace Verif.Ddl.TriggerG
open Verif Verif.Ragel Verif.Ddl

/-- The sequences that can remain to be matched. -/
def conts : List (List (Gram TriggerAct)) := [
  t0,
  (.seq (.cls [(82, 82), (114, 114)] []) (.seq (.cls [(69, 69), (101, 101)] []) (.seq (.cls [(65, 65), (97, 97)] []) (.seq (.cls [(84, 84), (116, 116)] []) (.cls [(69, 69), (101, 101)] []))))) :: ws :: t1,
  (.seq (.cls [(69, 69), (101, 101)] []) (.seq (.cls [(65, 65), (97, 97)] []) (.seq (.cls [(84, 84), (116, 116)] []) (.cls [(69, 69), (101, 101)] [])))) :: ws :: t1,
  (.seq (.cls [(65, 65), (97, 97)] []) (.seq (.cls [(84, 84), (116, 116)] []) (.cls [(69, 69), (101, 101)] []))) :: ws :: t1,
  (.seq (.cls [(84, 84), (116, 116)] []) (.cls [(69, 69), (101, 101)] [])) :: ws :: t1,
  (.cls [(69, 69), (101, 101)] []) :: ws :: t1,
  ws :: t1,
  sp :: t1,
  (.seq (.cls [(79, 79), (111, 111)] []) (.seq (.cls [(78, 78), (110, 110)] []) (.seq (.cls [(83, 83), (115, 115)] []) (.seq (.cls [(84, 84), (116, 116)] []) (.seq (.cls [(82, 82), (114, 114)] []) (.seq (.cls [(65, 65), (97, 97)] []) (.seq (.cls [(73, 73), (105, 105)] []) (.seq (.cls [(78, 78), (110, 110)] []) (.cls [(84, 84), (116, 116)] [.act .matchConstraint]))))))))) :: ws :: t2,
  (.seq (.cls [(82, 82), (114, 114)] []) (.seq (.cls [(73, 73), (105, 105)] []) (.seq (.cls [(71, 71), (103, 103)] []) (.seq (.cls [(71, 71), (103, 103)] []) (.seq (.cls [(69, 69), (101, 101)] []) (.cls [(82, 82), (114, 114)] [])))))) :: t3,
  (.seq (.cls [(78, 78), (110, 110)] []) (.seq (.cls [(83, 83), (115, 115)] []) (.seq (.cls [(84, 84), (116, 116)] []) (.seq (.cls [(82, 82), (114, 114)] []) (.seq (.cls [(65, 65), (97, 97)] []) (.seq (.cls [(73, 73), (105, 105)] []) (.seq (.cls [(78, 78), (110, 110)] []) (.cls [(84, 84), (116, 116)] [.act .matchConstraint])))))))) :: ws :: t2,
  (.seq (.cls [(73, 73), (105, 105)] []) (.seq (.cls [(71, 71), (103, 103)] []) (.seq (.cls [(71, 71), (103, 103)] []) (.seq (.cls [(69, 69), (101, 101)] []) (.cls [(82, 82), (114, 114)] []))))) :: t3,
  (.seq (.cls [(83, 83), (115, 115)] []) (.seq (.cls [(84, 84), (116, 116)] []) (.seq (.cls [(82, 82), (114, 114)] []) (.seq (.cls [(65, 65), (97, 97)] []) (.seq (.cls [(73, 73), (105, 105)] []) (.seq (.cls [(78, 78), (110, 110)] []) (.cls [(84, 84), (116, 116)] [.act .matchConstraint]))))))) :: ws :: t2,
  (.seq (.cls [(71, 71), (103, 103)] []) (.seq (.cls [(71, 71), (103, 103)] []) (.seq (.cls [(69, 69), (101, 101)] []) (.cls [(82, 82), (114, 114)] [])))) :: t3,
  (.seq (.cls [(84, 84), (116, 116)] []) (.seq (.cls [(82, 82), (114, 114)] []) (.seq (.cls [(65, 65), (97, 97)] []) (.seq (.cls [(73, 73), (105, 105)] []) (.seq (.cls [(78, 78), (110, 110)] []) (.cls [(84, 84), (116, 116)] [.act .matchConstraint])))))) :: ws :: t2,
  (.seq (.cls [(71, 71), (103, 103)] []) (.seq (.cls [(69, 69), (101, 101)] []) (.cls [(82, 82), (114, 114)] []))) :: t3,
  (.seq (.cls [(82, 82), (114, 114)] []) (.seq (.cls [(65, 65), (97, 97)] []) (.seq (.cls [(73, 73), (105, 105)] []) (.seq (.cls [(78, 78), (110, 110)] []) (.cls [(84, 84), (116, 116)] [.act .matchConstraint]))))) :: ws :: t2,
  (.seq (.cls [(69, 69), (101, 101)] []) (.cls [(82, 82), (114, 114)] [])) :: t3,
  (.seq (.cls [(65, 65), (97, 97)] []) (.seq (.cls [(73, 73), (105, 105)] []) (.seq (.cls [(78, 78), (110, 110)] []) (.cls [(84, 84), (116, 116)] [.act .matchConstraint])))) :: ws :: t2,
  (.cls [(82, 82), (114, 114)] []) :: t3,
  (.seq (.cls [(73, 73), (105, 105)] []) (.seq (.cls [(78, 78), (110, 110)] []) (.cls [(84, 84), (116, 116)] [.act .matchConstraint]))) :: ws :: t2,
  t3,
  (.seq (.cls [(78, 78), (110, 110)] []) (.cls [(84, 84), (116, 116)] [.act .matchConstraint])) :: ws :: t2,
  sp :: t4,
  (.cls [(84, 84), (116, 116)] [.act .matchConstraint]) :: ws :: t2,
  identR :: (.act .setName) :: ws :: t5,
  ws :: t2,
  sp :: t5,
  sp :: t2,
  (.seq (.cls [(69, 69), (101, 101)] [.push]) (.seq (.cls [(70, 70), (102, 102)] [.push]) (.seq (.cls [(79, 79), (111, 111)] [.push]) (.seq (.cls [(82, 82), (114, 114)] [.push]) (.cls [(69, 69), (101, 101)] [.push]))))) :: (.act .setWhen) :: t6,
  (.seq (.cls [(70, 70), (102, 102)] [.push]) (.seq (.cls [(84, 84), (116, 116)] [.push]) (.seq (.cls [(69, 69), (101, 101)] [.push]) (.cls [(82, 82), (114, 114)] [.push])))) :: (.act .setWhen) :: t6,
  (.seq (.cls [(78, 78), (110, 110)] [.push]) (.seq (.cls [(83, 83), (115, 115)] [.push]) (.seq (.cls [(84, 84), (116, 116)] [.push]) (.seq (.cls [(69, 69), (101, 101)] [.push]) (.seq (.cls [(65, 65), (97, 97)] [.push]) (.cls [(68, 68), (100, 100)] [.push])))))) :: (.seq wsP (.seq (.cls [(79, 79), (111, 111)] [.push]) (.cls [(70, 70), (102, 102)] [.push]))) :: (.act .setWhen) :: t6,
  (.seq (.cls [(70, 70), (102, 102)] [.push]) (.seq (.cls [(79, 79), (111, 111)] [.push]) (.seq (.cls [(82, 82), (114, 114)] [.push]) (.cls [(69, 69), (101, 101)] [.push])))) :: (.act .setWhen) :: t6,
  (.seq (.cls [(84, 84), (116, 116)] [.push]) (.seq (.cls [(69, 69), (101, 101)] [.push]) (.cls [(82, 82), (114, 114)] [.push]))) :: (.act .setWhen) :: t6,
  (.seq (.cls [(83, 83), (115, 115)] [.push]) (.seq (.cls [(84, 84), (116, 116)] [.push]) (.seq (.cls [(69, 69), (101, 101)] [.push]) (.seq (.cls [(65, 65), (97, 97)] [.push]) (.cls [(68, 68), (100, 100)] [.push]))))) :: (.seq wsP (.seq (.cls [(79, 79), (111, 111)] [.push]) (.cls [(70, 70), (102, 102)] [.push]))) :: (.act .setWhen) :: t6,
  (.seq (.cls [(79, 79), (111, 111)] [.push]) (.seq (.cls [(82, 82), (114, 114)] [.push]) (.cls [(69, 69), (101, 101)] [.push]))) :: (.act .setWhen) :: t6,
  (.seq (.cls [(69, 69), (101, 101)] [.push]) (.cls [(82, 82), (114, 114)] [.push])) :: (.act .setWhen) :: t6,
  (.seq (.cls [(84, 84), (116, 116)] [.push]) (.seq (.cls [(69, 69), (101, 101)] [.push]) (.seq (.cls [(65, 65), (97, 97)] [.push]) (.cls [(68, 68), (100, 100)] [.push])))) :: (.seq wsP (.seq (.cls [(79, 79), (111, 111)] [.push]) (.cls [(70, 70), (102, 102)] [.push]))) :: (.act .setWhen) :: t6,
  (.seq (.cls [(82, 82), (114, 114)] [.push]) (.cls [(69, 69), (101, 101)] [.push])) :: (.act .setWhen) :: t6,
  (.cls [(82, 82), (114, 114)] [.push]) :: (.act .setWhen) :: t6,
  (.seq (.cls [(69, 69), (101, 101)] [.push]) (.seq (.cls [(65, 65), (97, 97)] [.push]) (.cls [(68, 68), (100, 100)] [.push]))) :: (.seq wsP (.seq (.cls [(79, 79), (111, 111)] [.push]) (.cls [(70, 70), (102, 102)] [.push]))) :: (.act .setWhen) :: t6,
  (.cls [(69, 69), (101, 101)] [.push]) :: (.act .setWhen) :: t6,
  (.act .setWhen) :: t6,
  (.seq (.cls [(65, 65), (97, 97)] [.push]) (.cls [(68, 68), (100, 100)] [.push])) :: (.seq wsP (.seq (.cls [(79, 79), (111, 111)] [.push]) (.cls [(70, 70), (102, 102)] [.push]))) :: (.act .setWhen) :: t6,
  sp :: t7,
  (.cls [(68, 68), (100, 100)] [.push]) :: (.seq wsP (.seq (.cls [(79, 79), (111, 111)] [.push]) (.cls [(70, 70), (102, 102)] [.push]))) :: (.act .setWhen) :: t6,
  (.seq (.cls [(78, 78), (110, 110)] []) (.seq (.cls [(83, 83), (115, 115)] []) (.seq (.cls [(69, 69), (101, 101)] []) (.seq (.cls [(82, 82), (114, 114)] []) (.cls [(84, 84), (116, 116)] [.act .matchInsert]))))) :: t8,
  (.seq (.cls [(80, 80), (112, 112)] []) (.seq (.cls [(68, 68), (100, 100)] []) (.seq (.cls [(65, 65), (97, 97)] []) (.seq (.cls [(84, 84), (116, 116)] []) (.cls [(69, 69), (101, 101)] [.act .matchUpdate]))))) :: (.alt (.seq ws (.seq (.seq (.cls [(79, 79), (111, 111)] []) (.cls [(70, 70), (102, 102)] [])) (.seq ws (.seq ident (.seq (.act .addColumn) more))))) .eps) :: t8,
  (.seq (.cls [(69, 69), (101, 101)] []) (.seq (.cls [(76, 76), (108, 108)] []) (.seq (.cls [(69, 69), (101, 101)] []) (.seq (.cls [(84, 84), (116, 116)] []) (.cls [(69, 69), (101, 101)] [.act .matchDelete]))))) :: t8,
  (.seq (.cls [(82, 82), (114, 114)] []) (.seq (.cls [(85, 85), (117, 117)] []) (.seq (.cls [(78, 78), (110, 110)] []) (.seq (.cls [(67, 67), (99, 99)] []) (.seq (.cls [(65, 65), (97, 97)] []) (.seq (.cls [(84, 84), (116, 116)] []) (.cls [(69, 69), (101, 101)] [.act .matchTruncate]))))))) :: t8,
  (.seq wsP (.seq (.cls [(79, 79), (111, 111)] [.push]) (.cls [(70, 70), (102, 102)] [.push]))) :: (.act .setWhen) :: t6,
  (.seq (.cls [(83, 83), (115, 115)] []) (.seq (.cls [(69, 69), (101, 101)] []) (.seq (.cls [(82, 82), (114, 114)] []) (.cls [(84, 84), (116, 116)] [.act .matchInsert])))) :: t8,
  (.seq (.cls [(68, 68), (100, 100)] []) (.seq (.cls [(65, 65), (97, 97)] []) (.seq (.cls [(84, 84), (116, 116)] []) (.cls [(69, 69), (101, 101)] [.act .matchUpdate])))) :: (.alt (.seq ws (.seq (.seq (.cls [(79, 79), (111, 111)] []) (.cls [(70, 70), (102, 102)] [])) (.seq ws (.seq ident (.seq (.act .addColumn) more))))) .eps) :: t8,
  (.seq (.cls [(76, 76), (108, 108)] []) (.seq (.cls [(69, 69), (101, 101)] []) (.seq (.cls [(84, 84), (116, 116)] []) (.cls [(69, 69), (101, 101)] [.act .matchDelete])))) :: t8,
  (.seq (.cls [(85, 85), (117, 117)] []) (.seq (.cls [(78, 78), (110, 110)] []) (.seq (.cls [(67, 67), (99, 99)] []) (.seq (.cls [(65, 65), (97, 97)] []) (.seq (.cls [(84, 84), (116, 116)] []) (.cls [(69, 69), (101, 101)] [.act .matchTruncate])))))) :: t8,
  spP :: (.seq (.cls [(79, 79), (111, 111)] [.push]) (.cls [(70, 70), (102, 102)] [.push])) :: (.act .setWhen) :: t6,
  (.seq (.cls [(69, 69), (101, 101)] []) (.seq (.cls [(82, 82), (114, 114)] []) (.cls [(84, 84), (116, 116)] [.act .matchInsert]))) :: t8,
  (.seq (.cls [(65, 65), (97, 97)] []) (.seq (.cls [(84, 84), (116, 116)] []) (.cls [(69, 69), (101, 101)] [.act .matchUpdate]))) :: (.alt (.seq ws (.seq (.seq (.cls [(79, 79), (111, 111)] []) (.cls [(70, 70), (102, 102)] [])) (.seq ws (.seq ident (.seq (.act .addColumn) more))))) .eps) :: t8,
  (.seq (.cls [(69, 69), (101, 101)] []) (.seq (.cls [(84, 84), (116, 116)] []) (.cls [(69, 69), (101, 101)] [.act .matchDelete]))) :: t8,
  (.seq (.cls [(78, 78), (110, 110)] []) (.seq (.cls [(67, 67), (99, 99)] []) (.seq (.cls [(65, 65), (97, 97)] []) (.seq (.cls [(84, 84), (116, 116)] []) (.cls [(69, 69), (101, 101)] [.act .matchTruncate]))))) :: t8,
  (.cls [(70, 70), (102, 102)] [.push]) :: (.act .setWhen) :: t6,
  (.seq (.cls [(82, 82), (114, 114)] []) (.cls [(84, 84), (116, 116)] [.act .matchInsert])) :: t8,
  (.seq (.cls [(84, 84), (116, 116)] []) (.cls [(69, 69), (101, 101)] [.act .matchUpdate])) :: (.alt (.seq ws (.seq (.seq (.cls [(79, 79), (111, 111)] []) (.cls [(70, 70), (102, 102)] [])) (.seq ws (.seq ident (.seq (.act .addColumn) more))))) .eps) :: t8,
  (.seq (.cls [(84, 84), (116, 116)] []) (.cls [(69, 69), (101, 101)] [.act .matchDelete])) :: t8,
  (.seq (.cls [(67, 67), (99, 99)] []) (.seq (.cls [(65, 65), (97, 97)] []) (.seq (.cls [(84, 84), (116, 116)] []) (.cls [(69, 69), (101, 101)] [.act .matchTruncate])))) :: t8,
  (.cls [(84, 84), (116, 116)] [.act .matchInsert]) :: t8,
  (.cls [(69, 69), (101, 101)] [.act .matchUpdate]) :: (.alt (.seq ws (.seq (.seq (.cls [(79, 79), (111, 111)] []) (.cls [(70, 70), (102, 102)] [])) (.seq ws (.seq ident (.seq (.act .addColumn) more))))) .eps) :: t8,
  (.cls [(69, 69), (101, 101)] [.act .matchDelete]) :: t8,
  (.seq (.cls [(65, 65), (97, 97)] []) (.seq (.cls [(84, 84), (116, 116)] []) (.cls [(69, 69), (101, 101)] [.act .matchTruncate]))) :: t8,
  t8,
  (.alt (.seq ws (.seq (.seq (.cls [(79, 79), (111, 111)] []) (.cls [(70, 70), (102, 102)] [])) (.seq ws (.seq ident (.seq (.act .addColumn) more))))) .eps) :: t8,
  (.seq (.cls [(84, 84), (116, 116)] []) (.cls [(69, 69), (101, 101)] [.act .matchTruncate])) :: t8,
  sp :: (.seq (.seq (.cls [(79, 79), (111, 111)] []) (.cls [(82, 82), (114, 114)] [])) (.seq ws event)) :: t8,
  sp :: (.seq (.cls [(79, 79), (111, 111)] []) (.cls [(78, 78), (110, 110)] [])) :: t10,
  sp :: (.seq (.seq (.cls [(79, 79), (111, 111)] []) (.cls [(70, 70), (102, 102)] [])) (.seq ws (.seq ident (.seq (.act .addColumn) more)))) :: t8,
  (.cls [(69, 69), (101, 101)] [.act .matchTruncate]) :: t8,
  (.cls [(82, 82), (114, 114)] []) :: (.seq ws event) :: t8,
  (.cls [(78, 78), (110, 110)] []) :: t10,
  (.cls [(70, 70), (102, 102)] []) :: (.seq ws (.seq ident (.seq (.act .addColumn) more))) :: t8,
  (.seq ws event) :: t8,
  t10,
  (.seq ws (.seq ident (.seq (.act .addColumn) more))) :: t8,
  sp :: t11,
  sp :: (.seq ident (.seq (.act .addColumn) more)) :: t8,
  identR :: (.act .setTable) :: t12,
  identR :: (.seq (.act .addColumn) more) :: t8,
  sp :: t13,
  sp :: (.seq (.seq (.cls [(78, 78), (110, 110)] []) (.seq (.cls [(79, 79), (111, 111)] []) (.cls [(84, 84), (116, 116)] []))) (.seq ws (.seq (.seq (.cls [(68, 68), (100, 100)] []) (.seq (.cls [(69, 69), (101, 101)] []) (.seq (.cls [(70, 70), (102, 102)] []) (.seq (.cls [(69, 69), (101, 101)] []) (.seq (.cls [(82, 82), (114, 114)] []) (.seq (.cls [(82, 82), (114, 114)] []) (.seq (.cls [(65, 65), (97, 97)] []) (.seq (.cls [(66, 66), (98, 98)] []) (.seq (.cls [(76, 76), (108, 108)] []) (.cls [(69, 69), (101, 101)] [])))))))))) ws))) :: t13,
  sp :: (.seq (.seq (.cls [(68, 68), (100, 100)] []) (.seq (.cls [(69, 69), (101, 101)] []) (.seq (.cls [(70, 70), (102, 102)] []) (.seq (.cls [(69, 69), (101, 101)] []) (.seq (.cls [(82, 82), (114, 114)] []) (.seq (.cls [(82, 82), (114, 114)] []) (.seq (.cls [(65, 65), (97, 97)] []) (.seq (.cls [(66, 66), (98, 98)] []) (.seq (.cls [(76, 76), (108, 108)] []) (.cls [(69, 69), (101, 101)] [])))))))))) (.seq spF (.seq (.star spF) (.seq initially ws)))) :: t13,
  sp :: (.seq (.seq (.cls [(68, 68), (100, 100)] []) (.seq (.cls [(69, 69), (101, 101)] []) (.seq (.cls [(70, 70), (102, 102)] []) (.seq (.cls [(69, 69), (101, 101)] []) (.seq (.cls [(82, 82), (114, 114)] []) (.seq (.cls [(82, 82), (114, 114)] []) (.seq (.cls [(65, 65), (97, 97)] []) (.seq (.cls [(66, 66), (98, 98)] []) (.seq (.cls [(76, 76), (108, 108)] []) (.cls [(69, 69), (101, 101)] [])))))))))) (.seq spF (.seq spF (.star spF)))) :: t13,
  sp :: (.seq initially ws) :: t13,
  sp :: (.seq (.cls [(44, 44)] []) (.seq sp (.seq ident (.act .addColumn)))) :: more :: t8,
  (.seq sp (.seq ident (.act .addColumn))) :: more :: t8,
  (.seq (.cls [(79, 79), (111, 111)] []) (.cls [(82, 82), (114, 114)] [])) :: (.seq ws (.seq (.alt (.seq (.seq (.cls [(69, 69), (101, 101)] []) (.seq (.cls [(65, 65), (97, 97)] []) (.seq (.cls [(67, 67), (99, 99)] []) (.cls [(72, 72), (104, 104)] [])))) ws) .eps) (.seq (.alt (.seq (.cls [(82, 82), (114, 114)] []) (.seq (.cls [(79, 79), (111, 111)] []) (.cls [(87, 87), (119, 119)] [.act .matchForEachRow]))) (.seq (.cls [(83, 83), (115, 115)] []) (.seq (.cls [(84, 84), (116, 116)] []) (.seq (.cls [(65, 65), (97, 97)] []) (.seq (.cls [(84, 84), (116, 116)] []) (.seq (.cls [(69, 69), (101, 101)] []) (.seq (.cls [(77, 77), (109, 109)] []) (.seq (.cls [(69, 69), (101, 101)] []) (.seq (.cls [(78, 78), (110, 110)] []) (.cls [(84, 84), (116, 116)] [])))))))))) ws))) :: t14,
  (.seq (.cls [(88, 88), (120, 120)] []) (.seq (.cls [(69, 69), (101, 101)] []) (.seq (.cls [(67, 67), (99, 99)] []) (.seq (.cls [(85, 85), (117, 117)] []) (.seq (.cls [(84, 84), (116, 116)] []) (.cls [(69, 69), (101, 101)] [])))))) :: ws :: t15,
  (.seq (.cls [(79, 79), (111, 111)] []) (.cls [(84, 84), (116, 116)] [])) :: (.seq ws (.seq (.seq (.cls [(68, 68), (100, 100)] []) (.seq (.cls [(69, 69), (101, 101)] []) (.seq (.cls [(70, 70), (102, 102)] []) (.seq (.cls [(69, 69), (101, 101)] []) (.seq (.cls [(82, 82), (114, 114)] []) (.seq (.cls [(82, 82), (114, 114)] []) (.seq (.cls [(65, 65), (97, 97)] []) (.seq (.cls [(66, 66), (98, 98)] []) (.seq (.cls [(76, 76), (108, 108)] []) (.cls [(69, 69), (101, 101)] [])))))))))) ws)) :: t13,
  (.seq (.cls [(69, 69), (101, 101)] []) (.seq (.cls [(70, 70), (102, 102)] []) (.seq (.cls [(69, 69), (101, 101)] []) (.seq (.cls [(82, 82), (114, 114)] []) (.seq (.cls [(82, 82), (114, 114)] []) (.seq (.cls [(65, 65), (97, 97)] []) (.seq (.cls [(66, 66), (98, 98)] []) (.seq (.cls [(76, 76), (108, 108)] []) (.cls [(69, 69), (101, 101)] []))))))))) :: (.seq spF (.seq (.star spF) (.seq initially ws))) :: t13,
  (.seq (.cls [(69, 69), (101, 101)] []) (.seq (.cls [(70, 70), (102, 102)] []) (.seq (.cls [(69, 69), (101, 101)] []) (.seq (.cls [(82, 82), (114, 114)] []) (.seq (.cls [(82, 82), (114, 114)] []) (.seq (.cls [(65, 65), (97, 97)] []) (.seq (.cls [(66, 66), (98, 98)] []) (.seq (.cls [(76, 76), (108, 108)] []) (.cls [(69, 69), (101, 101)] []))))))))) :: (.seq spF (.seq spF (.star spF))) :: t13,
  (.seq (.cls [(78, 78), (110, 110)] []) (.seq (.cls [(73, 73), (105, 105)] []) (.seq (.cls [(84, 84), (116, 116)] []) (.seq (.cls [(73, 73), (105, 105)] []) (.seq (.cls [(65, 65), (97, 97)] []) (.seq (.cls [(76, 76), (108, 108)] []) (.seq (.cls [(76, 76), (108, 108)] []) (.cls [(89, 89), (121, 121)] [])))))))) :: (.seq ws (.alt (.seq (.cls [(73, 73), (105, 105)] []) (.seq (.cls [(77, 77), (109, 109)] []) (.seq (.cls [(77, 77), (109, 109)] []) (.seq (.cls [(69, 69), (101, 101)] []) (.seq (.cls [(68, 68), (100, 100)] []) (.seq (.cls [(73, 73), (105, 105)] []) (.seq (.cls [(65, 65), (97, 97)] []) (.seq (.cls [(84, 84), (116, 116)] []) (.cls [(69, 69), (101, 101)] []))))))))) (.seq (.cls [(68, 68), (100, 100)] []) (.seq (.cls [(69, 69), (101, 101)] []) (.seq (.cls [(70, 70), (102, 102)] []) (.seq (.cls [(69, 69), (101, 101)] []) (.seq (.cls [(82, 82), (114, 114)] []) (.seq (.cls [(82, 82), (114, 114)] []) (.seq (.cls [(69, 69), (101, 101)] []) (.cls [(68, 68), (100, 100)] [.act .matchInitiallyDeferred])))))))))) :: ws :: t13,
  sp :: (.seq ident (.act .addColumn)) :: more :: t8,
  identR :: (.act .addColumn) :: more :: t8,
  (.cls [(82, 82), (114, 114)] []) :: (.seq ws (.seq (.alt (.seq (.seq (.cls [(69, 69), (101, 101)] []) (.seq (.cls [(65, 65), (97, 97)] []) (.seq (.cls [(67, 67), (99, 99)] []) (.cls [(72, 72), (104, 104)] [])))) ws) .eps) (.seq (.alt (.seq (.cls [(82, 82), (114, 114)] []) (.seq (.cls [(79, 79), (111, 111)] []) (.cls [(87, 87), (119, 119)] [.act .matchForEachRow]))) (.seq (.cls [(83, 83), (115, 115)] []) (.seq (.cls [(84, 84), (116, 116)] []) (.seq (.cls [(65, 65), (97, 97)] []) (.seq (.cls [(84, 84), (116, 116)] []) (.seq (.cls [(69, 69), (101, 101)] []) (.seq (.cls [(77, 77), (109, 109)] []) (.seq (.cls [(69, 69), (101, 101)] []) (.seq (.cls [(78, 78), (110, 110)] []) (.cls [(84, 84), (116, 116)] [])))))))))) ws))) :: t14,
  (.seq (.cls [(69, 69), (101, 101)] []) (.seq (.cls [(67, 67), (99, 99)] []) (.seq (.cls [(85, 85), (117, 117)] []) (.seq (.cls [(84, 84), (116, 116)] []) (.cls [(69, 69), (101, 101)] []))))) :: ws :: t15,
  (.cls [(84, 84), (116, 116)] []) :: (.seq ws (.seq (.seq (.cls [(68, 68), (100, 100)] []) (.seq (.cls [(69, 69), (101, 101)] []) (.seq (.cls [(70, 70), (102, 102)] []) (.seq (.cls [(69, 69), (101, 101)] []) (.seq (.cls [(82, 82), (114, 114)] []) (.seq (.cls [(82, 82), (114, 114)] []) (.seq (.cls [(65, 65), (97, 97)] []) (.seq (.cls [(66, 66), (98, 98)] []) (.seq (.cls [(76, 76), (108, 108)] []) (.cls [(69, 69), (101, 101)] [])))))))))) ws)) :: t13,
  (.seq (.cls [(70, 70), (102, 102)] []) (.seq (.cls [(69, 69), (101, 101)] []) (.seq (.cls [(82, 82), (114, 114)] []) (.seq (.cls [(82, 82), (114, 114)] []) (.seq (.cls [(65, 65), (97, 97)] []) (.seq (.cls [(66, 66), (98, 98)] []) (.seq (.cls [(76, 76), (108, 108)] []) (.cls [(69, 69), (101, 101)] [])))))))) :: (.seq spF (.seq (.star spF) (.seq initially ws))) :: t13,
  (.seq (.cls [(70, 70), (102, 102)] []) (.seq (.cls [(69, 69), (101, 101)] []) (.seq (.cls [(82, 82), (114, 114)] []) (.seq (.cls [(82, 82), (114, 114)] []) (.seq (.cls [(65, 65), (97, 97)] []) (.seq (.cls [(66, 66), (98, 98)] []) (.seq (.cls [(76, 76), (108, 108)] []) (.cls [(69, 69), (101, 101)] [])))))))) :: (.seq spF (.seq spF (.star spF))) :: t13,
  (.seq (.cls [(73, 73), (105, 105)] []) (.seq (.cls [(84, 84), (116, 116)] []) (.seq (.cls [(73, 73), (105, 105)] []) (.seq (.cls [(65, 65), (97, 97)] []) (.seq (.cls [(76, 76), (108, 108)] []) (.seq (.cls [(76, 76), (108, 108)] []) (.cls [(89, 89), (121, 121)] []))))))) :: (.seq ws (.alt (.seq (.cls [(73, 73), (105, 105)] []) (.seq (.cls [(77, 77), (109, 109)] []) (.seq (.cls [(77, 77), (109, 109)] []) (.seq (.cls [(69, 69), (101, 101)] []) (.seq (.cls [(68, 68), (100, 100)] []) (.seq (.cls [(73, 73), (105, 105)] []) (.seq (.cls [(65, 65), (97, 97)] []) (.seq (.cls [(84, 84), (116, 116)] []) (.cls [(69, 69), (101, 101)] []))))))))) (.seq (.cls [(68, 68), (100, 100)] []) (.seq (.cls [(69, 69), (101, 101)] []) (.seq (.cls [(70, 70), (102, 102)] []) (.seq (.cls [(69, 69), (101, 101)] []) (.seq (.cls [(82, 82), (114, 114)] []) (.seq (.cls [(82, 82), (114, 114)] []) (.seq (.cls [(69, 69), (101, 101)] []) (.cls [(68, 68), (100, 100)] [.act .matchInitiallyDeferred])))))))))) :: ws :: t13,
  (.seq ws (.seq (.alt (.seq (.seq (.cls [(69, 69), (101, 101)] []) (.seq (.cls [(65, 65), (97, 97)] []) (.seq (.cls [(67, 67), (99, 99)] []) (.cls [(72, 72), (104, 104)] [])))) ws) .eps) (.seq (.alt (.seq (.cls [(82, 82), (114, 114)] []) (.seq (.cls [(79, 79), (111, 111)] []) (.cls [(87, 87), (119, 119)] [.act .matchForEachRow]))) (.seq (.cls [(83, 83), (115, 115)] []) (.seq (.cls [(84, 84), (116, 116)] []) (.seq (.cls [(65, 65), (97, 97)] []) (.seq (.cls [(84, 84), (116, 116)] []) (.seq (.cls [(69, 69), (101, 101)] []) (.seq (.cls [(77, 77), (109, 109)] []) (.seq (.cls [(69, 69), (101, 101)] []) (.seq (.cls [(78, 78), (110, 110)] []) (.cls [(84, 84), (116, 116)] [])))))))))) ws))) :: t14,
  (.seq (.cls [(67, 67), (99, 99)] []) (.seq (.cls [(85, 85), (117, 117)] []) (.seq (.cls [(84, 84), (116, 116)] []) (.cls [(69, 69), (101, 101)] [])))) :: ws :: t15,
  (.seq ws (.seq (.seq (.cls [(68, 68), (100, 100)] []) (.seq (.cls [(69, 69), (101, 101)] []) (.seq (.cls [(70, 70), (102, 102)] []) (.seq (.cls [(69, 69), (101, 101)] []) (.seq (.cls [(82, 82), (114, 114)] []) (.seq (.cls [(82, 82), (114, 114)] []) (.seq (.cls [(65, 65), (97, 97)] []) (.seq (.cls [(66, 66), (98, 98)] []) (.seq (.cls [(76, 76), (108, 108)] []) (.cls [(69, 69), (101, 101)] [])))))))))) ws)) :: t13,
  (.seq (.cls [(69, 69), (101, 101)] []) (.seq (.cls [(82, 82), (114, 114)] []) (.seq (.cls [(82, 82), (114, 114)] []) (.seq (.cls [(65, 65), (97, 97)] []) (.seq (.cls [(66, 66), (98, 98)] []) (.seq (.cls [(76, 76), (108, 108)] []) (.cls [(69, 69), (101, 101)] []))))))) :: (.seq spF (.seq (.star spF) (.seq initially ws))) :: t13,
  (.seq (.cls [(69, 69), (101, 101)] []) (.seq (.cls [(82, 82), (114, 114)] []) (.seq (.cls [(82, 82), (114, 114)] []) (.seq (.cls [(65, 65), (97, 97)] []) (.seq (.cls [(66, 66), (98, 98)] []) (.seq (.cls [(76, 76), (108, 108)] []) (.cls [(69, 69), (101, 101)] []))))))) :: (.seq spF (.seq spF (.star spF))) :: t13,
  (.seq (.cls [(84, 84), (116, 116)] []) (.seq (.cls [(73, 73), (105, 105)] []) (.seq (.cls [(65, 65), (97, 97)] []) (.seq (.cls [(76, 76), (108, 108)] []) (.seq (.cls [(76, 76), (108, 108)] []) (.cls [(89, 89), (121, 121)] [])))))) :: (.seq ws (.alt (.seq (.cls [(73, 73), (105, 105)] []) (.seq (.cls [(77, 77), (109, 109)] []) (.seq (.cls [(77, 77), (109, 109)] []) (.seq (.cls [(69, 69), (101, 101)] []) (.seq (.cls [(68, 68), (100, 100)] []) (.seq (.cls [(73, 73), (105, 105)] []) (.seq (.cls [(65, 65), (97, 97)] []) (.seq (.cls [(84, 84), (116, 116)] []) (.cls [(69, 69), (101, 101)] []))))))))) (.seq (.cls [(68, 68), (100, 100)] []) (.seq (.cls [(69, 69), (101, 101)] []) (.seq (.cls [(70, 70), (102, 102)] []) (.seq (.cls [(69, 69), (101, 101)] []) (.seq (.cls [(82, 82), (114, 114)] []) (.seq (.cls [(82, 82), (114, 114)] []) (.seq (.cls [(69, 69), (101, 101)] []) (.cls [(68, 68), (100, 100)] [.act .matchInitiallyDeferred])))))))))) :: ws :: t13,
  sp :: (.seq (.alt (.seq (.seq (.cls [(69, 69), (101, 101)] []) (.seq (.cls [(65, 65), (97, 97)] []) (.seq (.cls [(67, 67), (99, 99)] []) (.cls [(72, 72), (104, 104)] [])))) ws) .eps) (.seq (.alt (.seq (.cls [(82, 82), (114, 114)] []) (.seq (.cls [(79, 79), (111, 111)] []) (.cls [(87, 87), (119, 119)] [.act .matchForEachRow]))) (.seq (.cls [(83, 83), (115, 115)] []) (.seq (.cls [(84, 84), (116, 116)] []) (.seq (.cls [(65, 65), (97, 97)] []) (.seq (.cls [(84, 84), (116, 116)] []) (.seq (.cls [(69, 69), (101, 101)] []) (.seq (.cls [(77, 77), (109, 109)] []) (.seq (.cls [(69, 69), (101, 101)] []) (.seq (.cls [(78, 78), (110, 110)] []) (.cls [(84, 84), (116, 116)] [])))))))))) ws)) :: t14,
  (.seq (.cls [(85, 85), (117, 117)] []) (.seq (.cls [(84, 84), (116, 116)] []) (.cls [(69, 69), (101, 101)] []))) :: ws :: t15,
  sp :: (.seq (.seq (.cls [(68, 68), (100, 100)] []) (.seq (.cls [(69, 69), (101, 101)] []) (.seq (.cls [(70, 70), (102, 102)] []) (.seq (.cls [(69, 69), (101, 101)] []) (.seq (.cls [(82, 82), (114, 114)] []) (.seq (.cls [(82, 82), (114, 114)] []) (.seq (.cls [(65, 65), (97, 97)] []) (.seq (.cls [(66, 66), (98, 98)] []) (.seq (.cls [(76, 76), (108, 108)] []) (.cls [(69, 69), (101, 101)] [])))))))))) ws) :: t13,
  (.seq (.cls [(82, 82), (114, 114)] []) (.seq (.cls [(82, 82), (114, 114)] []) (.seq (.cls [(65, 65), (97, 97)] []) (.seq (.cls [(66, 66), (98, 98)] []) (.seq (.cls [(76, 76), (108, 108)] []) (.cls [(69, 69), (101, 101)] [])))))) :: (.seq spF (.seq (.star spF) (.seq initially ws))) :: t13,
  (.seq (.cls [(82, 82), (114, 114)] []) (.seq (.cls [(82, 82), (114, 114)] []) (.seq (.cls [(65, 65), (97, 97)] []) (.seq (.cls [(66, 66), (98, 98)] []) (.seq (.cls [(76, 76), (108, 108)] []) (.cls [(69, 69), (101, 101)] [])))))) :: (.seq spF (.seq spF (.star spF))) :: t13,
  (.seq (.cls [(73, 73), (105, 105)] []) (.seq (.cls [(65, 65), (97, 97)] []) (.seq (.cls [(76, 76), (108, 108)] []) (.seq (.cls [(76, 76), (108, 108)] []) (.cls [(89, 89), (121, 121)] []))))) :: (.seq ws (.alt (.seq (.cls [(73, 73), (105, 105)] []) (.seq (.cls [(77, 77), (109, 109)] []) (.seq (.cls [(77, 77), (109, 109)] []) (.seq (.cls [(69, 69), (101, 101)] []) (.seq (.cls [(68, 68), (100, 100)] []) (.seq (.cls [(73, 73), (105, 105)] []) (.seq (.cls [(65, 65), (97, 97)] []) (.seq (.cls [(84, 84), (116, 116)] []) (.cls [(69, 69), (101, 101)] []))))))))) (.seq (.cls [(68, 68), (100, 100)] []) (.seq (.cls [(69, 69), (101, 101)] []) (.seq (.cls [(70, 70), (102, 102)] []) (.seq (.cls [(69, 69), (101, 101)] []) (.seq (.cls [(82, 82), (114, 114)] []) (.seq (.cls [(82, 82), (114, 114)] []) (.seq (.cls [(69, 69), (101, 101)] []) (.cls [(68, 68), (100, 100)] [.act .matchInitiallyDeferred])))))))))) :: ws :: t13,
  (.seq (.cls [(65, 65), (97, 97)] []) (.seq (.cls [(67, 67), (99, 99)] []) (.cls [(72, 72), (104, 104)] []))) :: ws :: (.seq (.alt (.seq (.cls [(82, 82), (114, 114)] []) (.seq (.cls [(79, 79), (111, 111)] []) (.cls [(87, 87), (119, 119)] [.act .matchForEachRow]))) (.seq (.cls [(83, 83), (115, 115)] []) (.seq (.cls [(84, 84), (116, 116)] []) (.seq (.cls [(65, 65), (97, 97)] []) (.seq (.cls [(84, 84), (116, 116)] []) (.seq (.cls [(69, 69), (101, 101)] []) (.seq (.cls [(77, 77), (109, 109)] []) (.seq (.cls [(69, 69), (101, 101)] []) (.seq (.cls [(78, 78), (110, 110)] []) (.cls [(84, 84), (116, 116)] [])))))))))) ws) :: t14,
  (.seq (.cls [(79, 79), (111, 111)] []) (.cls [(87, 87), (119, 119)] [.act .matchForEachRow])) :: ws :: t14,
  (.seq (.cls [(84, 84), (116, 116)] []) (.seq (.cls [(65, 65), (97, 97)] []) (.seq (.cls [(84, 84), (116, 116)] []) (.seq (.cls [(69, 69), (101, 101)] []) (.seq (.cls [(77, 77), (109, 109)] []) (.seq (.cls [(69, 69), (101, 101)] []) (.seq (.cls [(78, 78), (110, 110)] []) (.cls [(84, 84), (116, 116)] [])))))))) :: ws :: t14,
  (.seq (.cls [(84, 84), (116, 116)] []) (.cls [(69, 69), (101, 101)] [])) :: ws :: t15,
  (.seq (.cls [(69, 69), (101, 101)] []) (.seq (.cls [(70, 70), (102, 102)] []) (.seq (.cls [(69, 69), (101, 101)] []) (.seq (.cls [(82, 82), (114, 114)] []) (.seq (.cls [(82, 82), (114, 114)] []) (.seq (.cls [(65, 65), (97, 97)] []) (.seq (.cls [(66, 66), (98, 98)] []) (.seq (.cls [(76, 76), (108, 108)] []) (.cls [(69, 69), (101, 101)] []))))))))) :: ws :: t13,
  (.seq (.cls [(82, 82), (114, 114)] []) (.seq (.cls [(65, 65), (97, 97)] []) (.seq (.cls [(66, 66), (98, 98)] []) (.seq (.cls [(76, 76), (108, 108)] []) (.cls [(69, 69), (101, 101)] []))))) :: (.seq spF (.seq (.star spF) (.seq initially ws))) :: t13,
  (.seq (.cls [(82, 82), (114, 114)] []) (.seq (.cls [(65, 65), (97, 97)] []) (.seq (.cls [(66, 66), (98, 98)] []) (.seq (.cls [(76, 76), (108, 108)] []) (.cls [(69, 69), (101, 101)] []))))) :: (.seq spF (.seq spF (.star spF))) :: t13,
  (.seq (.cls [(65, 65), (97, 97)] []) (.seq (.cls [(76, 76), (108, 108)] []) (.seq (.cls [(76, 76), (108, 108)] []) (.cls [(89, 89), (121, 121)] [])))) :: (.seq ws (.alt (.seq (.cls [(73, 73), (105, 105)] []) (.seq (.cls [(77, 77), (109, 109)] []) (.seq (.cls [(77, 77), (109, 109)] []) (.seq (.cls [(69, 69), (101, 101)] []) (.seq (.cls [(68, 68), (100, 100)] []) (.seq (.cls [(73, 73), (105, 105)] []) (.seq (.cls [(65, 65), (97, 97)] []) (.seq (.cls [(84, 84), (116, 116)] []) (.cls [(69, 69), (101, 101)] []))))))))) (.seq (.cls [(68, 68), (100, 100)] []) (.seq (.cls [(69, 69), (101, 101)] []) (.seq (.cls [(70, 70), (102, 102)] []) (.seq (.cls [(69, 69), (101, 101)] []) (.seq (.cls [(82, 82), (114, 114)] []) (.seq (.cls [(82, 82), (114, 114)] []) (.seq (.cls [(69, 69), (101, 101)] []) (.cls [(68, 68), (100, 100)] [.act .matchInitiallyDeferred])))))))))) :: ws :: t13,
  (.seq (.cls [(67, 67), (99, 99)] []) (.cls [(72, 72), (104, 104)] [])) :: ws :: (.seq (.alt (.seq (.cls [(82, 82), (114, 114)] []) (.seq (.cls [(79, 79), (111, 111)] []) (.cls [(87, 87), (119, 119)] [.act .matchForEachRow]))) (.seq (.cls [(83, 83), (115, 115)] []) (.seq (.cls [(84, 84), (116, 116)] []) (.seq (.cls [(65, 65), (97, 97)] []) (.seq (.cls [(84, 84), (116, 116)] []) (.seq (.cls [(69, 69), (101, 101)] []) (.seq (.cls [(77, 77), (109, 109)] []) (.seq (.cls [(69, 69), (101, 101)] []) (.seq (.cls [(78, 78), (110, 110)] []) (.cls [(84, 84), (116, 116)] [])))))))))) ws) :: t14,
  (.cls [(87, 87), (119, 119)] [.act .matchForEachRow]) :: ws :: t14,
  (.seq (.cls [(65, 65), (97, 97)] []) (.seq (.cls [(84, 84), (116, 116)] []) (.seq (.cls [(69, 69), (101, 101)] []) (.seq (.cls [(77, 77), (109, 109)] []) (.seq (.cls [(69, 69), (101, 101)] []) (.seq (.cls [(78, 78), (110, 110)] []) (.cls [(84, 84), (116, 116)] []))))))) :: ws :: t14,
  (.cls [(69, 69), (101, 101)] []) :: ws :: t15,
  (.seq (.cls [(70, 70), (102, 102)] []) (.seq (.cls [(69, 69), (101, 101)] []) (.seq (.cls [(82, 82), (114, 114)] []) (.seq (.cls [(82, 82), (114, 114)] []) (.seq (.cls [(65, 65), (97, 97)] []) (.seq (.cls [(66, 66), (98, 98)] []) (.seq (.cls [(76, 76), (108, 108)] []) (.cls [(69, 69), (101, 101)] [])))))))) :: ws :: t13,
  (.seq (.cls [(65, 65), (97, 97)] []) (.seq (.cls [(66, 66), (98, 98)] []) (.seq (.cls [(76, 76), (108, 108)] []) (.cls [(69, 69), (101, 101)] [])))) :: (.seq spF (.seq (.star spF) (.seq initially ws))) :: t13,
  (.seq (.cls [(65, 65), (97, 97)] []) (.seq (.cls [(66, 66), (98, 98)] []) (.seq (.cls [(76, 76), (108, 108)] []) (.cls [(69, 69), (101, 101)] [])))) :: (.seq spF (.seq spF (.star spF))) :: t13,
  (.seq (.cls [(76, 76), (108, 108)] []) (.seq (.cls [(76, 76), (108, 108)] []) (.cls [(89, 89), (121, 121)] []))) :: (.seq ws (.alt (.seq (.cls [(73, 73), (105, 105)] []) (.seq (.cls [(77, 77), (109, 109)] []) (.seq (.cls [(77, 77), (109, 109)] []) (.seq (.cls [(69, 69), (101, 101)] []) (.seq (.cls [(68, 68), (100, 100)] []) (.seq (.cls [(73, 73), (105, 105)] []) (.seq (.cls [(65, 65), (97, 97)] []) (.seq (.cls [(84, 84), (116, 116)] []) (.cls [(69, 69), (101, 101)] []))))))))) (.seq (.cls [(68, 68), (100, 100)] []) (.seq (.cls [(69, 69), (101, 101)] []) (.seq (.cls [(70, 70), (102, 102)] []) (.seq (.cls [(69, 69), (101, 101)] []) (.seq (.cls [(82, 82), (114, 114)] []) (.seq (.cls [(82, 82), (114, 114)] []) (.seq (.cls [(69, 69), (101, 101)] []) (.cls [(68, 68), (100, 100)] [.act .matchInitiallyDeferred])))))))))) :: ws :: t13,
  (.cls [(72, 72), (104, 104)] []) :: ws :: (.seq (.alt (.seq (.cls [(82, 82), (114, 114)] []) (.seq (.cls [(79, 79), (111, 111)] []) (.cls [(87, 87), (119, 119)] [.act .matchForEachRow]))) (.seq (.cls [(83, 83), (115, 115)] []) (.seq (.cls [(84, 84), (116, 116)] []) (.seq (.cls [(65, 65), (97, 97)] []) (.seq (.cls [(84, 84), (116, 116)] []) (.seq (.cls [(69, 69), (101, 101)] []) (.seq (.cls [(77, 77), (109, 109)] []) (.seq (.cls [(69, 69), (101, 101)] []) (.seq (.cls [(78, 78), (110, 110)] []) (.cls [(84, 84), (116, 116)] [])))))))))) ws) :: t14,
  ws :: t14,
  (.seq (.cls [(84, 84), (116, 116)] []) (.seq (.cls [(69, 69), (101, 101)] []) (.seq (.cls [(77, 77), (109, 109)] []) (.seq (.cls [(69, 69), (101, 101)] []) (.seq (.cls [(78, 78), (110, 110)] []) (.cls [(84, 84), (116, 116)] [])))))) :: ws :: t14,
  ws :: t15,
  (.seq (.cls [(69, 69), (101, 101)] []) (.seq (.cls [(82, 82), (114, 114)] []) (.seq (.cls [(82, 82), (114, 114)] []) (.seq (.cls [(65, 65), (97, 97)] []) (.seq (.cls [(66, 66), (98, 98)] []) (.seq (.cls [(76, 76), (108, 108)] []) (.cls [(69, 69), (101, 101)] []))))))) :: ws :: t13,
  (.seq (.cls [(66, 66), (98, 98)] []) (.seq (.cls [(76, 76), (108, 108)] []) (.cls [(69, 69), (101, 101)] []))) :: (.seq spF (.seq (.star spF) (.seq initially ws))) :: t13,
  (.seq (.cls [(66, 66), (98, 98)] []) (.seq (.cls [(76, 76), (108, 108)] []) (.cls [(69, 69), (101, 101)] []))) :: (.seq spF (.seq spF (.star spF))) :: t13,
  (.seq (.cls [(76, 76), (108, 108)] []) (.cls [(89, 89), (121, 121)] [])) :: (.seq ws (.alt (.seq (.cls [(73, 73), (105, 105)] []) (.seq (.cls [(77, 77), (109, 109)] []) (.seq (.cls [(77, 77), (109, 109)] []) (.seq (.cls [(69, 69), (101, 101)] []) (.seq (.cls [(68, 68), (100, 100)] []) (.seq (.cls [(73, 73), (105, 105)] []) (.seq (.cls [(65, 65), (97, 97)] []) (.seq (.cls [(84, 84), (116, 116)] []) (.cls [(69, 69), (101, 101)] []))))))))) (.seq (.cls [(68, 68), (100, 100)] []) (.seq (.cls [(69, 69), (101, 101)] []) (.seq (.cls [(70, 70), (102, 102)] []) (.seq (.cls [(69, 69), (101, 101)] []) (.seq (.cls [(82, 82), (114, 114)] []) (.seq (.cls [(82, 82), (114, 114)] []) (.seq (.cls [(69, 69), (101, 101)] []) (.cls [(68, 68), (100, 100)] [.act .matchInitiallyDeferred])))))))))) :: ws :: t13,
  ws :: (.seq (.alt (.seq (.cls [(82, 82), (114, 114)] []) (.seq (.cls [(79, 79), (111, 111)] []) (.cls [(87, 87), (119, 119)] [.act .matchForEachRow]))) (.seq (.cls [(83, 83), (115, 115)] []) (.seq (.cls [(84, 84), (116, 116)] []) (.seq (.cls [(65, 65), (97, 97)] []) (.seq (.cls [(84, 84), (116, 116)] []) (.seq (.cls [(69, 69), (101, 101)] []) (.seq (.cls [(77, 77), (109, 109)] []) (.seq (.cls [(69, 69), (101, 101)] []) (.seq (.cls [(78, 78), (110, 110)] []) (.cls [(84, 84), (116, 116)] [])))))))))) ws) :: t14,
  sp :: t14,
  (.seq (.cls [(69, 69), (101, 101)] []) (.seq (.cls [(77, 77), (109, 109)] []) (.seq (.cls [(69, 69), (101, 101)] []) (.seq (.cls [(78, 78), (110, 110)] []) (.cls [(84, 84), (116, 116)] []))))) :: ws :: t14,
  sp :: t15,
  (.seq (.cls [(82, 82), (114, 114)] []) (.seq (.cls [(82, 82), (114, 114)] []) (.seq (.cls [(65, 65), (97, 97)] []) (.seq (.cls [(66, 66), (98, 98)] []) (.seq (.cls [(76, 76), (108, 108)] []) (.cls [(69, 69), (101, 101)] [])))))) :: ws :: t13,
  (.seq (.cls [(76, 76), (108, 108)] []) (.cls [(69, 69), (101, 101)] [])) :: (.seq spF (.seq (.star spF) (.seq initially ws))) :: t13,
  (.seq (.cls [(76, 76), (108, 108)] []) (.cls [(69, 69), (101, 101)] [])) :: (.seq spF (.seq spF (.star spF))) :: t13,
  (.cls [(89, 89), (121, 121)] []) :: (.seq ws (.alt (.seq (.cls [(73, 73), (105, 105)] []) (.seq (.cls [(77, 77), (109, 109)] []) (.seq (.cls [(77, 77), (109, 109)] []) (.seq (.cls [(69, 69), (101, 101)] []) (.seq (.cls [(68, 68), (100, 100)] []) (.seq (.cls [(73, 73), (105, 105)] []) (.seq (.cls [(65, 65), (97, 97)] []) (.seq (.cls [(84, 84), (116, 116)] []) (.cls [(69, 69), (101, 101)] []))))))))) (.seq (.cls [(68, 68), (100, 100)] []) (.seq (.cls [(69, 69), (101, 101)] []) (.seq (.cls [(70, 70), (102, 102)] []) (.seq (.cls [(69, 69), (101, 101)] []) (.seq (.cls [(82, 82), (114, 114)] []) (.seq (.cls [(82, 82), (114, 114)] []) (.seq (.cls [(69, 69), (101, 101)] []) (.cls [(68, 68), (100, 100)] [.act .matchInitiallyDeferred])))))))))) :: ws :: t13,
  sp :: (.seq (.alt (.seq (.cls [(82, 82), (114, 114)] []) (.seq (.cls [(79, 79), (111, 111)] []) (.cls [(87, 87), (119, 119)] [.act .matchForEachRow]))) (.seq (.cls [(83, 83), (115, 115)] []) (.seq (.cls [(84, 84), (116, 116)] []) (.seq (.cls [(65, 65), (97, 97)] []) (.seq (.cls [(84, 84), (116, 116)] []) (.seq (.cls [(69, 69), (101, 101)] []) (.seq (.cls [(77, 77), (109, 109)] []) (.seq (.cls [(69, 69), (101, 101)] []) (.seq (.cls [(78, 78), (110, 110)] []) (.cls [(84, 84), (116, 116)] [])))))))))) ws) :: t14,
  (.seq (.cls [(77, 77), (109, 109)] []) (.seq (.cls [(69, 69), (101, 101)] []) (.seq (.cls [(78, 78), (110, 110)] []) (.cls [(84, 84), (116, 116)] [])))) :: ws :: t14,
  (.seq (.cls [(85, 85), (117, 117)] []) (.seq (.cls [(78, 78), (110, 110)] []) (.seq (.cls [(67, 67), (99, 99)] []) (.seq (.cls [(84, 84), (116, 116)] []) (.seq (.cls [(73, 73), (105, 105)] []) (.seq (.cls [(79, 79), (111, 111)] []) (.cls [(78, 78), (110, 110)] []))))))) :: t16,
  (.seq (.cls [(82, 82), (114, 114)] []) (.seq (.cls [(79, 79), (111, 111)] []) (.seq (.cls [(67, 67), (99, 99)] []) (.seq (.cls [(69, 69), (101, 101)] []) (.seq (.cls [(68, 68), (100, 100)] []) (.seq (.cls [(85, 85), (117, 117)] []) (.seq (.cls [(82, 82), (114, 114)] []) (.cls [(69, 69), (101, 101)] [])))))))) :: t16,
  (.seq (.cls [(82, 82), (114, 114)] []) (.seq (.cls [(65, 65), (97, 97)] []) (.seq (.cls [(66, 66), (98, 98)] []) (.seq (.cls [(76, 76), (108, 108)] []) (.cls [(69, 69), (101, 101)] []))))) :: ws :: t13,
  (.cls [(69, 69), (101, 101)] []) :: (.seq spF (.seq (.star spF) (.seq initially ws))) :: t13,
  (.cls [(69, 69), (101, 101)] []) :: (.seq spF (.seq spF (.star spF))) :: t13,
  (.seq ws (.alt (.seq (.cls [(73, 73), (105, 105)] []) (.seq (.cls [(77, 77), (109, 109)] []) (.seq (.cls [(77, 77), (109, 109)] []) (.seq (.cls [(69, 69), (101, 101)] []) (.seq (.cls [(68, 68), (100, 100)] []) (.seq (.cls [(73, 73), (105, 105)] []) (.seq (.cls [(65, 65), (97, 97)] []) (.seq (.cls [(84, 84), (116, 116)] []) (.cls [(69, 69), (101, 101)] []))))))))) (.seq (.cls [(68, 68), (100, 100)] []) (.seq (.cls [(69, 69), (101, 101)] []) (.seq (.cls [(70, 70), (102, 102)] []) (.seq (.cls [(69, 69), (101, 101)] []) (.seq (.cls [(82, 82), (114, 114)] []) (.seq (.cls [(82, 82), (114, 114)] []) (.seq (.cls [(69, 69), (101, 101)] []) (.cls [(68, 68), (100, 100)] [.act .matchInitiallyDeferred])))))))))) :: ws :: t13,
  (.seq (.cls [(69, 69), (101, 101)] []) (.seq (.cls [(78, 78), (110, 110)] []) (.cls [(84, 84), (116, 116)] []))) :: ws :: t14,
  (.seq (.cls [(78, 78), (110, 110)] []) (.seq (.cls [(67, 67), (99, 99)] []) (.seq (.cls [(84, 84), (116, 116)] []) (.seq (.cls [(73, 73), (105, 105)] []) (.seq (.cls [(79, 79), (111, 111)] []) (.cls [(78, 78), (110, 110)] [])))))) :: t16,
  (.seq (.cls [(79, 79), (111, 111)] []) (.seq (.cls [(67, 67), (99, 99)] []) (.seq (.cls [(69, 69), (101, 101)] []) (.seq (.cls [(68, 68), (100, 100)] []) (.seq (.cls [(85, 85), (117, 117)] []) (.seq (.cls [(82, 82), (114, 114)] []) (.cls [(69, 69), (101, 101)] []))))))) :: t16,
  (.seq (.cls [(65, 65), (97, 97)] []) (.seq (.cls [(66, 66), (98, 98)] []) (.seq (.cls [(76, 76), (108, 108)] []) (.cls [(69, 69), (101, 101)] [])))) :: ws :: t13,
  (.seq spF (.seq (.star spF) (.seq initially ws))) :: t13,
  (.seq spF (.seq spF (.star spF))) :: t13,
  sp :: (.alt (.seq (.cls [(73, 73), (105, 105)] []) (.seq (.cls [(77, 77), (109, 109)] []) (.seq (.cls [(77, 77), (109, 109)] []) (.seq (.cls [(69, 69), (101, 101)] []) (.seq (.cls [(68, 68), (100, 100)] []) (.seq (.cls [(73, 73), (105, 105)] []) (.seq (.cls [(65, 65), (97, 97)] []) (.seq (.cls [(84, 84), (116, 116)] []) (.cls [(69, 69), (101, 101)] []))))))))) (.seq (.cls [(68, 68), (100, 100)] []) (.seq (.cls [(69, 69), (101, 101)] []) (.seq (.cls [(70, 70), (102, 102)] []) (.seq (.cls [(69, 69), (101, 101)] []) (.seq (.cls [(82, 82), (114, 114)] []) (.seq (.cls [(82, 82), (114, 114)] []) (.seq (.cls [(69, 69), (101, 101)] []) (.cls [(68, 68), (100, 100)] [.act .matchInitiallyDeferred]))))))))) :: ws :: t13,
  (.seq (.cls [(78, 78), (110, 110)] []) (.cls [(84, 84), (116, 116)] [])) :: ws :: t14,
  (.seq (.cls [(67, 67), (99, 99)] []) (.seq (.cls [(84, 84), (116, 116)] []) (.seq (.cls [(73, 73), (105, 105)] []) (.seq (.cls [(79, 79), (111, 111)] []) (.cls [(78, 78), (110, 110)] []))))) :: t16,
  (.seq (.cls [(67, 67), (99, 99)] []) (.seq (.cls [(69, 69), (101, 101)] []) (.seq (.cls [(68, 68), (100, 100)] []) (.seq (.cls [(85, 85), (117, 117)] []) (.seq (.cls [(82, 82), (114, 114)] []) (.cls [(69, 69), (101, 101)] [])))))) :: t16,
  (.seq (.cls [(66, 66), (98, 98)] []) (.seq (.cls [(76, 76), (108, 108)] []) (.cls [(69, 69), (101, 101)] []))) :: ws :: t13,
  (.seq (.star spF) (.seq initially ws)) :: t13,
  (.seq spF (.star spF)) :: t13,
  (.seq (.cls [(77, 77), (109, 109)] []) (.seq (.cls [(77, 77), (109, 109)] []) (.seq (.cls [(69, 69), (101, 101)] []) (.seq (.cls [(68, 68), (100, 100)] []) (.seq (.cls [(73, 73), (105, 105)] []) (.seq (.cls [(65, 65), (97, 97)] []) (.seq (.cls [(84, 84), (116, 116)] []) (.cls [(69, 69), (101, 101)] [])))))))) :: ws :: t13,
  (.seq (.cls [(69, 69), (101, 101)] []) (.seq (.cls [(70, 70), (102, 102)] []) (.seq (.cls [(69, 69), (101, 101)] []) (.seq (.cls [(82, 82), (114, 114)] []) (.seq (.cls [(82, 82), (114, 114)] []) (.seq (.cls [(69, 69), (101, 101)] []) (.cls [(68, 68), (100, 100)] [.act .matchInitiallyDeferred]))))))) :: ws :: t13,
  (.cls [(84, 84), (116, 116)] []) :: ws :: t14,
  (.seq (.cls [(84, 84), (116, 116)] []) (.seq (.cls [(73, 73), (105, 105)] []) (.seq (.cls [(79, 79), (111, 111)] []) (.cls [(78, 78), (110, 110)] [])))) :: t16,
  (.seq (.cls [(69, 69), (101, 101)] []) (.seq (.cls [(68, 68), (100, 100)] []) (.seq (.cls [(85, 85), (117, 117)] []) (.seq (.cls [(82, 82), (114, 114)] []) (.cls [(69, 69), (101, 101)] []))))) :: t16,
  (.seq (.cls [(76, 76), (108, 108)] []) (.cls [(69, 69), (101, 101)] [])) :: ws :: t13,
  (.star spF) :: (.seq initially ws) :: t13,
  (.star spF) :: t13,
  (.seq (.cls [(77, 77), (109, 109)] []) (.seq (.cls [(69, 69), (101, 101)] []) (.seq (.cls [(68, 68), (100, 100)] []) (.seq (.cls [(73, 73), (105, 105)] []) (.seq (.cls [(65, 65), (97, 97)] []) (.seq (.cls [(84, 84), (116, 116)] []) (.cls [(69, 69), (101, 101)] []))))))) :: ws :: t13,
  (.seq (.cls [(70, 70), (102, 102)] []) (.seq (.cls [(69, 69), (101, 101)] []) (.seq (.cls [(82, 82), (114, 114)] []) (.seq (.cls [(82, 82), (114, 114)] []) (.seq (.cls [(69, 69), (101, 101)] []) (.cls [(68, 68), (100, 100)] [.act .matchInitiallyDeferred])))))) :: ws :: t13,
  (.seq (.cls [(73, 73), (105, 105)] []) (.seq (.cls [(79, 79), (111, 111)] []) (.cls [(78, 78), (110, 110)] []))) :: t16,
  (.seq (.cls [(68, 68), (100, 100)] []) (.seq (.cls [(85, 85), (117, 117)] []) (.seq (.cls [(82, 82), (114, 114)] []) (.cls [(69, 69), (101, 101)] [])))) :: t16,
  (.cls [(69, 69), (101, 101)] []) :: ws :: t13,
  (.seq (.cls [(69, 69), (101, 101)] []) (.seq (.cls [(68, 68), (100, 100)] []) (.seq (.cls [(73, 73), (105, 105)] []) (.seq (.cls [(65, 65), (97, 97)] []) (.seq (.cls [(84, 84), (116, 116)] []) (.cls [(69, 69), (101, 101)] [])))))) :: ws :: t13,
  (.seq (.cls [(69, 69), (101, 101)] []) (.seq (.cls [(82, 82), (114, 114)] []) (.seq (.cls [(82, 82), (114, 114)] []) (.seq (.cls [(69, 69), (101, 101)] []) (.cls [(68, 68), (100, 100)] [.act .matchInitiallyDeferred]))))) :: ws :: t13,
  (.seq (.cls [(79, 79), (111, 111)] []) (.cls [(78, 78), (110, 110)] [])) :: t16,
  (.seq (.cls [(85, 85), (117, 117)] []) (.seq (.cls [(82, 82), (114, 114)] []) (.cls [(69, 69), (101, 101)] []))) :: t16,
  ws :: t13,
  (.seq (.cls [(68, 68), (100, 100)] []) (.seq (.cls [(73, 73), (105, 105)] []) (.seq (.cls [(65, 65), (97, 97)] []) (.seq (.cls [(84, 84), (116, 116)] []) (.cls [(69, 69), (101, 101)] []))))) :: ws :: t13,
  (.seq (.cls [(82, 82), (114, 114)] []) (.seq (.cls [(82, 82), (114, 114)] []) (.seq (.cls [(69, 69), (101, 101)] []) (.cls [(68, 68), (100, 100)] [.act .matchInitiallyDeferred])))) :: ws :: t13,
  (.cls [(78, 78), (110, 110)] []) :: t16,
  (.seq (.cls [(82, 82), (114, 114)] []) (.cls [(69, 69), (101, 101)] [])) :: t16,
  (.seq (.cls [(73, 73), (105, 105)] []) (.seq (.cls [(65, 65), (97, 97)] []) (.seq (.cls [(84, 84), (116, 116)] []) (.cls [(69, 69), (101, 101)] [])))) :: ws :: t13,
  (.seq (.cls [(82, 82), (114, 114)] []) (.seq (.cls [(69, 69), (101, 101)] []) (.cls [(68, 68), (100, 100)] [.act .matchInitiallyDeferred]))) :: ws :: t13,
  t16,
  (.cls [(69, 69), (101, 101)] []) :: t16,
  (.seq (.cls [(65, 65), (97, 97)] []) (.seq (.cls [(84, 84), (116, 116)] []) (.cls [(69, 69), (101, 101)] []))) :: ws :: t13,
  (.seq (.cls [(69, 69), (101, 101)] []) (.cls [(68, 68), (100, 100)] [.act .matchInitiallyDeferred])) :: ws :: t13,
  sp :: t17,
  (.seq (.cls [(84, 84), (116, 116)] []) (.cls [(69, 69), (101, 101)] [])) :: ws :: t13,
  (.cls [(68, 68), (100, 100)] [.act .matchInitiallyDeferred]) :: ws :: t13,
  identR :: (.act .setFunction) :: t18,
  (.cls [(41, 41)] []) :: t19,
  t19]

/-- Their linear forms. -/
def lins : List (List (NLin TriggerAct)) := [
  [⟨[(9, 13), (32, 32)], [], 0⟩, ⟨[(67, 67), (99, 99)], [], 1⟩],
  [⟨[(82, 82), (114, 114)], [], 2⟩],
  [⟨[(69, 69), (101, 101)], [], 3⟩],
  [⟨[(65, 65), (97, 97)], [], 4⟩],
  [⟨[(84, 84), (116, 116)], [], 5⟩],
  [⟨[(69, 69), (101, 101)], [], 6⟩],
  [⟨[(9, 13), (32, 32)], [], 7⟩],
  [⟨[(9, 13), (32, 32)], [], 7⟩, ⟨[(67, 67), (99, 99)], [], 8⟩, ⟨[(84, 84), (116, 116)], [], 9⟩],
  [⟨[(79, 79), (111, 111)], [], 10⟩],
  [⟨[(82, 82), (114, 114)], [], 11⟩],
  [⟨[(78, 78), (110, 110)], [], 12⟩],
  [⟨[(73, 73), (105, 105)], [], 13⟩],
  [⟨[(83, 83), (115, 115)], [], 14⟩],
  [⟨[(71, 71), (103, 103)], [], 15⟩],
  [⟨[(84, 84), (116, 116)], [], 16⟩],
  [⟨[(71, 71), (103, 103)], [], 17⟩],
  [⟨[(82, 82), (114, 114)], [], 18⟩],
  [⟨[(69, 69), (101, 101)], [], 19⟩],
  [⟨[(65, 65), (97, 97)], [], 20⟩],
  [⟨[(82, 82), (114, 114)], [], 21⟩],
  [⟨[(73, 73), (105, 105)], [], 22⟩],
  [⟨[(9, 13), (32, 32)], [], 23⟩],
  [⟨[(78, 78), (110, 110)], [], 24⟩],
  [⟨[(9, 13), (32, 32)], [], 23⟩, ⟨[(65, 90), (97, 122)], [.push], 25⟩],
  [⟨[(84, 84), (116, 116)], [.act .matchConstraint], 26⟩],
  [⟨[(48, 57), (65, 90), (95, 95), (97, 122)], [.push], 25⟩, ⟨[(9, 13), (32, 32)], [.act .setName], 27⟩],
  [⟨[(9, 13), (32, 32)], [], 28⟩],
  [⟨[(9, 13), (32, 32)], [], 27⟩, ⟨[(66, 66), (98, 98)], [.push], 29⟩, ⟨[(65, 65), (97, 97)], [.push], 30⟩, ⟨[(73, 73), (105, 105)], [.push], 31⟩],
  [⟨[(9, 13), (32, 32)], [], 28⟩, ⟨[(84, 84), (116, 116)], [], 9⟩],
  [⟨[(69, 69), (101, 101)], [.push], 32⟩],
  [⟨[(70, 70), (102, 102)], [.push], 33⟩],
  [⟨[(78, 78), (110, 110)], [.push], 34⟩],
  [⟨[(70, 70), (102, 102)], [.push], 35⟩],
  [⟨[(84, 84), (116, 116)], [.push], 36⟩],
  [⟨[(83, 83), (115, 115)], [.push], 37⟩],
  [⟨[(79, 79), (111, 111)], [.push], 38⟩],
  [⟨[(69, 69), (101, 101)], [.push], 39⟩],
  [⟨[(84, 84), (116, 116)], [.push], 40⟩],
  [⟨[(82, 82), (114, 114)], [.push], 41⟩],
  [⟨[(82, 82), (114, 114)], [.push], 42⟩],
  [⟨[(69, 69), (101, 101)], [.push], 43⟩],
  [⟨[(69, 69), (101, 101)], [.push], 42⟩],
  [⟨[(9, 13), (32, 32)], [.act .setWhen], 44⟩],
  [⟨[(65, 65), (97, 97)], [.push], 45⟩],
  [⟨[(9, 13), (32, 32)], [], 44⟩, ⟨[(73, 73), (105, 105)], [], 46⟩, ⟨[(85, 85), (117, 117)], [], 47⟩, ⟨[(68, 68), (100, 100)], [], 48⟩, ⟨[(84, 84), (116, 116)], [], 49⟩],
  [⟨[(68, 68), (100, 100)], [.push], 50⟩],
  [⟨[(78, 78), (110, 110)], [], 51⟩],
  [⟨[(80, 80), (112, 112)], [], 52⟩],
  [⟨[(69, 69), (101, 101)], [], 53⟩],
  [⟨[(82, 82), (114, 114)], [], 54⟩],
  [⟨[(9, 13), (32, 32)], [.push], 55⟩],
  [⟨[(83, 83), (115, 115)], [], 56⟩],
  [⟨[(68, 68), (100, 100)], [], 57⟩],
  [⟨[(76, 76), (108, 108)], [], 58⟩],
  [⟨[(85, 85), (117, 117)], [], 59⟩],
  [⟨[(9, 13), (32, 32)], [.push], 55⟩, ⟨[(79, 79), (111, 111)], [.push], 60⟩],
  [⟨[(69, 69), (101, 101)], [], 61⟩],
  [⟨[(65, 65), (97, 97)], [], 62⟩],
  [⟨[(69, 69), (101, 101)], [], 63⟩],
  [⟨[(78, 78), (110, 110)], [], 64⟩],
  [⟨[(70, 70), (102, 102)], [.push], 42⟩],
  [⟨[(82, 82), (114, 114)], [], 65⟩],
  [⟨[(84, 84), (116, 116)], [], 66⟩],
  [⟨[(84, 84), (116, 116)], [], 67⟩],
  [⟨[(67, 67), (99, 99)], [], 68⟩],
  [⟨[(84, 84), (116, 116)], [.act .matchInsert], 69⟩],
  [⟨[(69, 69), (101, 101)], [.act .matchUpdate], 70⟩],
  [⟨[(69, 69), (101, 101)], [.act .matchDelete], 69⟩],
  [⟨[(65, 65), (97, 97)], [], 71⟩],
  [⟨[(9, 13), (32, 32)], [], 72⟩, ⟨[(9, 13), (32, 32)], [], 73⟩],
  [⟨[(9, 13), (32, 32)], [], 74⟩, ⟨[(9, 13), (32, 32)], [], 72⟩, ⟨[(9, 13), (32, 32)], [], 73⟩],
  [⟨[(84, 84), (116, 116)], [], 75⟩],
  [⟨[(9, 13), (32, 32)], [], 72⟩, ⟨[(79, 79), (111, 111)], [], 76⟩],
  [⟨[(9, 13), (32, 32)], [], 73⟩, ⟨[(79, 79), (111, 111)], [], 77⟩],
  [⟨[(9, 13), (32, 32)], [], 74⟩, ⟨[(79, 79), (111, 111)], [], 78⟩],
  [⟨[(69, 69), (101, 101)], [.act .matchTruncate], 69⟩],
  [⟨[(82, 82), (114, 114)], [], 79⟩],
  [⟨[(78, 78), (110, 110)], [], 80⟩],
  [⟨[(70, 70), (102, 102)], [], 81⟩],
  [⟨[(9, 13), (32, 32)], [], 44⟩],
  [⟨[(9, 13), (32, 32)], [], 82⟩],
  [⟨[(9, 13), (32, 32)], [], 83⟩],
  [⟨[(9, 13), (32, 32)], [], 82⟩, ⟨[(65, 90), (97, 122)], [.push], 84⟩],
  [⟨[(9, 13), (32, 32)], [], 83⟩, ⟨[(65, 90), (97, 122)], [.push], 85⟩],
  [⟨[(48, 57), (65, 90), (95, 95), (97, 122)], [.push], 84⟩, ⟨[(9, 13), (32, 32)], [.act .setTable], 86⟩, ⟨[(9, 13), (32, 32)], [.act .setTable], 87⟩, ⟨[(9, 13), (32, 32)], [.act .setTable], 88⟩, ⟨[(9, 13), (32, 32)], [.act .setTable], 89⟩, ⟨[(9, 13), (32, 32)], [.act .setTable], 90⟩],
  [⟨[(48, 57), (65, 90), (95, 95), (97, 122)], [.push], 85⟩, ⟨[(9, 13), (32, 32)], [.act .addColumn], 91⟩, ⟨[(44, 44)], [.act .addColumn], 92⟩, ⟨[(9, 13), (32, 32)], [.act .addColumn], 72⟩, ⟨[(9, 13), (32, 32)], [.act .addColumn], 73⟩],
  [⟨[(9, 13), (32, 32)], [], 86⟩, ⟨[(70, 70), (102, 102)], [], 93⟩, ⟨[(69, 69), (101, 101)], [], 94⟩],
  [⟨[(9, 13), (32, 32)], [], 87⟩, ⟨[(78, 78), (110, 110)], [], 95⟩],
  [⟨[(9, 13), (32, 32)], [], 88⟩, ⟨[(68, 68), (100, 100)], [], 96⟩],
  [⟨[(9, 13), (32, 32)], [], 89⟩, ⟨[(68, 68), (100, 100)], [], 97⟩],
  [⟨[(9, 13), (32, 32)], [], 90⟩, ⟨[(73, 73), (105, 105)], [], 98⟩],
  [⟨[(9, 13), (32, 32)], [], 91⟩, ⟨[(44, 44)], [], 92⟩],
  [⟨[(9, 13), (32, 32)], [], 99⟩, ⟨[(65, 90), (97, 122)], [.push], 100⟩],
  [⟨[(79, 79), (111, 111)], [], 101⟩],
  [⟨[(88, 88), (120, 120)], [], 102⟩],
  [⟨[(79, 79), (111, 111)], [], 103⟩],
  [⟨[(69, 69), (101, 101)], [], 104⟩],
  [⟨[(69, 69), (101, 101)], [], 105⟩],
  [⟨[(78, 78), (110, 110)], [], 106⟩],
  [⟨[(9, 13), (32, 32)], [], 99⟩, ⟨[(65, 90), (97, 122)], [.push], 100⟩],
  [⟨[(48, 57), (65, 90), (95, 95), (97, 122)], [.push], 100⟩, ⟨[(9, 13), (32, 32)], [.act .addColumn], 91⟩, ⟨[(44, 44)], [.act .addColumn], 92⟩, ⟨[(9, 13), (32, 32)], [.act .addColumn], 72⟩, ⟨[(9, 13), (32, 32)], [.act .addColumn], 73⟩],
  [⟨[(82, 82), (114, 114)], [], 107⟩],
  [⟨[(69, 69), (101, 101)], [], 108⟩],
  [⟨[(84, 84), (116, 116)], [], 109⟩],
  [⟨[(70, 70), (102, 102)], [], 110⟩],
  [⟨[(70, 70), (102, 102)], [], 111⟩],
  [⟨[(73, 73), (105, 105)], [], 112⟩],
  [⟨[(9, 13), (32, 32)], [], 113⟩],
  [⟨[(67, 67), (99, 99)], [], 114⟩],
  [⟨[(9, 13), (32, 32)], [], 115⟩],
  [⟨[(69, 69), (101, 101)], [], 116⟩],
  [⟨[(69, 69), (101, 101)], [], 117⟩],
  [⟨[(84, 84), (116, 116)], [], 118⟩],
  [⟨[(9, 13), (32, 32)], [], 113⟩, ⟨[(69, 69), (101, 101)], [], 119⟩, ⟨[(82, 82), (114, 114)], [], 120⟩, ⟨[(83, 83), (115, 115)], [], 121⟩],
  [⟨[(85, 85), (117, 117)], [], 122⟩],
  [⟨[(9, 13), (32, 32)], [], 115⟩, ⟨[(68, 68), (100, 100)], [], 123⟩],
  [⟨[(82, 82), (114, 114)], [], 124⟩],
  [⟨[(82, 82), (114, 114)], [], 125⟩],
  [⟨[(73, 73), (105, 105)], [], 126⟩],
  [⟨[(65, 65), (97, 97)], [], 127⟩],
  [⟨[(79, 79), (111, 111)], [], 128⟩],
  [⟨[(84, 84), (116, 116)], [], 129⟩],
  [⟨[(84, 84), (116, 116)], [], 130⟩],
  [⟨[(69, 69), (101, 101)], [], 131⟩],
  [⟨[(82, 82), (114, 114)], [], 132⟩],
  [⟨[(82, 82), (114, 114)], [], 133⟩],
  [⟨[(65, 65), (97, 97)], [], 134⟩],
  [⟨[(67, 67), (99, 99)], [], 135⟩],
  [⟨[(87, 87), (119, 119)], [.act .matchForEachRow], 136⟩],
  [⟨[(65, 65), (97, 97)], [], 137⟩],
  [⟨[(69, 69), (101, 101)], [], 138⟩],
  [⟨[(70, 70), (102, 102)], [], 139⟩],
  [⟨[(65, 65), (97, 97)], [], 140⟩],
  [⟨[(65, 65), (97, 97)], [], 141⟩],
  [⟨[(76, 76), (108, 108)], [], 142⟩],
  [⟨[(72, 72), (104, 104)], [], 143⟩],
  [⟨[(9, 13), (32, 32)], [], 144⟩],
  [⟨[(84, 84), (116, 116)], [], 145⟩],
  [⟨[(9, 13), (32, 32)], [], 146⟩],
  [⟨[(69, 69), (101, 101)], [], 147⟩],
  [⟨[(66, 66), (98, 98)], [], 148⟩],
  [⟨[(66, 66), (98, 98)], [], 149⟩],
  [⟨[(76, 76), (108, 108)], [], 150⟩],
  [⟨[(9, 13), (32, 32)], [], 151⟩],
  [⟨[(9, 13), (32, 32)], [], 144⟩, ⟨[(69, 69), (101, 101)], [], 94⟩],
  [⟨[(69, 69), (101, 101)], [], 152⟩],
  [⟨[(9, 13), (32, 32)], [], 146⟩, ⟨[(70, 70), (102, 102)], [], 153⟩, ⟨[(80, 80), (112, 112)], [], 154⟩],
  [⟨[(82, 82), (114, 114)], [], 155⟩],
  [⟨[(76, 76), (108, 108)], [], 156⟩],
  [⟨[(76, 76), (108, 108)], [], 157⟩],
  [⟨[(89, 89), (121, 121)], [], 158⟩],
  [⟨[(9, 13), (32, 32)], [], 151⟩, ⟨[(82, 82), (114, 114)], [], 120⟩, ⟨[(83, 83), (115, 115)], [], 121⟩],
  [⟨[(77, 77), (109, 109)], [], 159⟩],
  [⟨[(85, 85), (117, 117)], [], 160⟩],
  [⟨[(82, 82), (114, 114)], [], 161⟩],
  [⟨[(82, 82), (114, 114)], [], 162⟩],
  [⟨[(69, 69), (101, 101)], [], 163⟩],
  [⟨[(69, 69), (101, 101)], [], 164⟩],
  [⟨[(9, 13), (32, 32)], [], 165⟩],
  [⟨[(69, 69), (101, 101)], [], 166⟩],
  [⟨[(78, 78), (110, 110)], [], 167⟩],
  [⟨[(79, 79), (111, 111)], [], 168⟩],
  [⟨[(65, 65), (97, 97)], [], 169⟩],
  [⟨[(9, 13), (32, 32)], [.act .matchDeferrable], 170⟩],
  [⟨[(9, 13), (32, 32)], [.act .matchDeferrable], 171⟩],
  [⟨[(9, 13), (32, 32)], [], 165⟩, ⟨[(73, 73), (105, 105)], [], 172⟩, ⟨[(68, 68), (100, 100)], [], 173⟩],
  [⟨[(78, 78), (110, 110)], [], 174⟩],
  [⟨[(67, 67), (99, 99)], [], 175⟩],
  [⟨[(67, 67), (99, 99)], [], 176⟩],
  [⟨[(66, 66), (98, 98)], [], 177⟩],
  [⟨[(9, 13), (32, 32)], [.act .matchDeferrable], 178⟩, ⟨[(73, 73), (105, 105)], [], 98⟩],
  [⟨[(9, 13), (32, 32)], [.act .matchDeferrable], 179⟩],
  [⟨[(77, 77), (109, 109)], [], 180⟩],
  [⟨[(69, 69), (101, 101)], [], 181⟩],
  [⟨[(84, 84), (116, 116)], [], 136⟩],
  [⟨[(84, 84), (116, 116)], [], 182⟩],
  [⟨[(69, 69), (101, 101)], [], 183⟩],
  [⟨[(76, 76), (108, 108)], [], 184⟩],
  [⟨[(9, 13), (32, 32)], [.act .matchDeferrable], 178⟩, ⟨[(73, 73), (105, 105)], [], 98⟩],
  [⟨[(9, 13), (32, 32)], [.act .matchDeferrable], 179⟩, ⟨[(70, 70), (102, 102)], [], 93⟩, ⟨[(69, 69), (101, 101)], [], 94⟩],
  [⟨[(77, 77), (109, 109)], [], 185⟩],
  [⟨[(70, 70), (102, 102)], [], 186⟩],
  [⟨[(73, 73), (105, 105)], [], 187⟩],
  [⟨[(68, 68), (100, 100)], [], 188⟩],
  [⟨[(69, 69), (101, 101)], [], 189⟩],
  [⟨[(69, 69), (101, 101)], [], 190⟩],
  [⟨[(69, 69), (101, 101)], [], 191⟩],
  [⟨[(79, 79), (111, 111)], [], 192⟩],
  [⟨[(85, 85), (117, 117)], [], 193⟩],
  [⟨[(9, 13), (32, 32)], [], 86⟩],
  [⟨[(68, 68), (100, 100)], [], 194⟩],
  [⟨[(82, 82), (114, 114)], [], 195⟩],
  [⟨[(78, 78), (110, 110)], [], 196⟩],
  [⟨[(82, 82), (114, 114)], [], 197⟩],
  [⟨[(73, 73), (105, 105)], [], 198⟩],
  [⟨[(82, 82), (114, 114)], [], 199⟩],
  [⟨[(9, 13), (32, 32)], [], 200⟩],
  [⟨[(69, 69), (101, 101)], [], 196⟩],
  [⟨[(65, 65), (97, 97)], [], 201⟩],
  [⟨[(69, 69), (101, 101)], [], 202⟩],
  [⟨[(9, 13), (32, 32)], [], 200⟩, ⟨[(65, 90), (97, 122)], [.push], 203⟩],
  [⟨[(84, 84), (116, 116)], [], 184⟩],
  [⟨[(68, 68), (100, 100)], [.act .matchInitiallyDeferred], 189⟩],
  [⟨[(48, 57), (65, 90), (95, 95), (97, 122)], [.push], 203⟩, ⟨[(40, 40)], [.act .setFunction], 204⟩],
  [⟨[(41, 41)], [], 205⟩],
  [⟨[(9, 13), (32, 32)], [], 205⟩]]

/-- The ways they match the empty string. -/
def nulls : List (List (List TriggerAct)) := [
  [],
  [],
  [],
  [],
  [],
  [],
  [],
  [],
  [],
  [],
  [],
  [],
  [],
  [],
  [],
  [],
  [],
  [],
  [],
  [],
  [],
  [],
  [],
  [],
  [],
  [],
  [],
  [],
  [],
  [],
  [],
  [],
  [],
  [],
  [],
  [],
  [],
  [],
  [],
  [],
  [],
  [],
  [],
  [],
  [],
  [],
  [],
  [],
  [],
  [],
  [],
  [],
  [],
  [],
  [],
  [],
  [],
  [],
  [],
  [],
  [],
  [],
  [],
  [],
  [],
  [],
  [],
  [],
  [],
  [],
  [],
  [],
  [],
  [],
  [],
  [],
  [],
  [],
  [],
  [],
  [],
  [],
  [],
  [],
  [],
  [],
  [],
  [],
  [],
  [],
  [],
  [],
  [],
  [],
  [],
  [],
  [],
  [],
  [],
  [],
  [],
  [],
  [],
  [],
  [],
  [],
  [],
  [],
  [],
  [],
  [],
  [],
  [],
  [],
  [],
  [],
  [],
  [],
  [],
  [],
  [],
  [],
  [],
  [],
  [],
  [],
  [],
  [],
  [],
  [],
  [],
  [],
  [],
  [],
  [],
  [],
  [],
  [],
  [],
  [],
  [],
  [],
  [],
  [],
  [],
  [],
  [],
  [],
  [],
  [],
  [],
  [],
  [],
  [],
  [],
  [],
  [],
  [],
  [],
  [],
  [],
  [],
  [],
  [],
  [],
  [],
  [],
  [],
  [],
  [],
  [],
  [],
  [],
  [],
  [],
  [],
  [],
  [],
  [],
  [],
  [],
  [],
  [],
  [],
  [],
  [],
  [],
  [],
  [],
  [],
  [],
  [],
  [],
  [],
  [],
  [],
  [],
  [],
  [],
  [],
  [],
  [],
  [],
  [],
  [],
  [[]]]

/-- Machine states with the stacks that can remain there. -/
def entries : List Entry := [
  ⟨1, [0], [(9, 13, 0), (32, 32, 0), (67, 67, 1), (99, 99, 1)]⟩,
  ⟨2, [1], [(82, 82, 2), (114, 114, 2)]⟩,
  ⟨3, [2], [(69, 69, 3), (101, 101, 3)]⟩,
  ⟨4, [3], [(65, 65, 4), (97, 97, 4)]⟩,
  ⟨5, [4], [(84, 84, 5), (116, 116, 5)]⟩,
  ⟨6, [5], [(69, 69, 6), (101, 101, 6)]⟩,
  ⟨7, [6], [(9, 13, 7), (32, 32, 7)]⟩,
  ⟨8, [7], [(9, 13, 7), (32, 32, 7), (67, 67, 8), (84, 84, 9), (99, 99, 8), (116, 116, 9)]⟩,
  ⟨9, [8], [(79, 79, 10), (111, 111, 10)]⟩,
  ⟨20, [9], [(82, 82, 11), (114, 114, 11)]⟩,
  ⟨10, [10], [(78, 78, 12), (110, 110, 12)]⟩,
  ⟨21, [11], [(73, 73, 13), (105, 105, 13)]⟩,
  ⟨11, [12], [(83, 83, 14), (115, 115, 14)]⟩,
  ⟨22, [13], [(71, 71, 15), (103, 103, 15)]⟩,
  ⟨12, [14], [(84, 84, 16), (116, 116, 16)]⟩,
  ⟨23, [15], [(71, 71, 17), (103, 103, 17)]⟩,
  ⟨13, [16], [(82, 82, 18), (114, 114, 18)]⟩,
  ⟨24, [17], [(69, 69, 19), (101, 101, 19)]⟩,
  ⟨14, [18], [(65, 65, 20), (97, 97, 20)]⟩,
  ⟨25, [19], [(82, 82, 21), (114, 114, 21)]⟩,
  ⟨15, [20], [(73, 73, 22), (105, 105, 22)]⟩,
  ⟨26, [21], [(9, 13, 23), (32, 32, 23)]⟩,
  ⟨16, [22], [(78, 78, 24), (110, 110, 24)]⟩,
  ⟨27, [23], [(9, 13, 23), (32, 32, 23), (65, 90, 25), (97, 122, 25)]⟩,
  ⟨17, [24], [(84, 84, 26), (116, 116, 26)]⟩,
  ⟨28, [25], [(9, 13, 27), (32, 32, 27), (48, 57, 25), (65, 90, 25), (95, 95, 25), (97, 122, 25)]⟩,
  ⟨18, [26], [(9, 13, 28), (32, 32, 28)]⟩,
  ⟨29, [27], [(9, 13, 27), (32, 32, 27), (65, 65, 29), (66, 66, 30), (73, 73, 31), (97, 97, 29), (98, 98, 30), (105, 105, 31)]⟩,
  ⟨19, [28], [(9, 13, 28), (32, 32, 28), (84, 84, 9), (116, 116, 9)]⟩,
  ⟨30, [30], [(70, 70, 32), (102, 102, 32)]⟩,
  ⟨172, [29], [(69, 69, 33), (101, 101, 33)]⟩,
  ⟨177, [31], [(78, 78, 34), (110, 110, 34)]⟩,
  ⟨31, [33], [(84, 84, 35), (116, 116, 35)]⟩,
  ⟨173, [32], [(70, 70, 36), (102, 102, 36)]⟩,
  ⟨178, [34], [(83, 83, 37), (115, 115, 37)]⟩,
  ⟨32, [36], [(69, 69, 38), (101, 101, 38)]⟩,
  ⟨174, [35], [(79, 79, 39), (111, 111, 39)]⟩,
  ⟨179, [37], [(84, 84, 40), (116, 116, 40)]⟩,
  ⟨33, [39], [(82, 82, 41), (114, 114, 41)]⟩,
  ⟨175, [38], [(82, 82, 42), (114, 114, 42)]⟩,
  ⟨180, [40], [(69, 69, 43), (101, 101, 43)]⟩,
  ⟨34, [42], [(9, 13, 44), (32, 32, 44)]⟩,
  ⟨176, [41], [(69, 69, 41), (101, 101, 41)]⟩,
  ⟨181, [43], [(65, 65, 45), (97, 97, 45)]⟩,
  ⟨35, [44], [(9, 13, 44), (32, 32, 44), (68, 68, 46), (73, 73, 47), (84, 84, 48), (85, 85, 49), (100, 100, 46), (105, 105, 47), (116, 116, 48), (117, 117, 49)]⟩,
  ⟨182, [45], [(68, 68, 50), (100, 100, 50)]⟩,
  ⟨36, [48], [(69, 69, 51), (101, 101, 51)]⟩,
  ⟨148, [46], [(78, 78, 52), (110, 110, 52)]⟩,
  ⟨153, [49], [(82, 82, 53), (114, 114, 53)]⟩,
  ⟨160, [47], [(80, 80, 54), (112, 112, 54)]⟩,
  ⟨183, [50], [(9, 13, 55), (32, 32, 55)]⟩,
  ⟨37, [53], [(76, 76, 56), (108, 108, 56)]⟩,
  ⟨149, [51], [(83, 83, 57), (115, 115, 57)]⟩,
  ⟨154, [54], [(85, 85, 58), (117, 117, 58)]⟩,
  ⟨161, [52], [(68, 68, 59), (100, 100, 59)]⟩,
  ⟨184, [55], [(9, 13, 55), (32, 32, 55), (79, 79, 60), (111, 111, 60)]⟩,
  ⟨38, [58], [(69, 69, 61), (101, 101, 61)]⟩,
  ⟨150, [56], [(69, 69, 62), (101, 101, 62)]⟩,
  ⟨155, [59], [(78, 78, 63), (110, 110, 63)]⟩,
  ⟨162, [57], [(65, 65, 64), (97, 97, 64)]⟩,
  ⟨185, [60], [(70, 70, 41), (102, 102, 41)]⟩,
  ⟨39, [63], [(84, 84, 65), (116, 116, 65)]⟩,
  ⟨151, [61], [(82, 82, 66), (114, 114, 66)]⟩,
  ⟨156, [64], [(67, 67, 67), (99, 99, 67)]⟩,
  ⟨163, [62], [(84, 84, 68), (116, 116, 68)]⟩,
  ⟨40, [67], [(69, 69, 69), (101, 101, 69)]⟩,
  ⟨152, [65], [(84, 84, 69), (116, 116, 69)]⟩,
  ⟨157, [68], [(65, 65, 70), (97, 97, 70)]⟩,
  ⟨164, [66], [(69, 69, 71), (101, 101, 71)]⟩,
  ⟨41, [69], [(9, 13, 72), (32, 32, 72)]⟩,
  ⟨158, [71], [(84, 84, 73), (116, 116, 73)]⟩,
  ⟨165, [70], [(9, 13, 74), (32, 32, 74)]⟩,
  ⟨42, [72, 73], [(9, 13, 72), (32, 32, 72), (79, 79, 75), (111, 111, 75)]⟩,
  ⟨159, [75], [(69, 69, 69), (101, 101, 69)]⟩,
  ⟨166, [72, 73, 74], [(9, 13, 74), (32, 32, 74), (79, 79, 76), (111, 111, 76)]⟩,
  ⟨43, [76, 77], [(78, 78, 77), (82, 82, 78), (110, 110, 77), (114, 114, 78)]⟩,
  ⟨167, [76, 77, 78], [(70, 70, 79), (78, 78, 77), (82, 82, 78), (102, 102, 79), (110, 110, 77), (114, 114, 78)]⟩,
  ⟨44, [80], [(9, 13, 80), (32, 32, 80)]⟩,
  ⟨147, [79], [(9, 13, 44), (32, 32, 44)]⟩,
  ⟨168, [81], [(9, 13, 81), (32, 32, 81)]⟩,
  ⟨45, [82], [(9, 13, 80), (32, 32, 80), (65, 90, 82), (97, 122, 82)]⟩,
  ⟨169, [83], [(9, 13, 81), (32, 32, 81), (65, 90, 83), (97, 122, 83)]⟩,
  ⟨46, [84], [(9, 13, 84), (32, 32, 84), (48, 57, 82), (65, 90, 82), (95, 95, 82), (97, 122, 82)]⟩,
  ⟨170, [85], [(9, 13, 85), (32, 32, 85), (44, 44, 86), (48, 57, 83), (65, 90, 83), (95, 95, 83), (97, 122, 83)]⟩,
  ⟨47, [86, 87, 88, 89, 90], [(9, 13, 84), (32, 32, 84), (68, 68, 87), (69, 69, 88), (70, 70, 89), (73, 73, 90), (78, 78, 91), (100, 100, 87), (101, 101, 88), (102, 102, 89), (105, 105, 90), (110, 110, 91)]⟩,
  ⟨171, [72, 73, 91], [(9, 13, 85), (32, 32, 85), (44, 44, 86), (79, 79, 75), (111, 111, 75)]⟩,
  ⟨169, [92], [(9, 13, 92), (32, 32, 92), (65, 90, 93), (97, 122, 93)]⟩,
  ⟨48, [96, 97], [(69, 69, 94), (101, 101, 94)]⟩,
  ⟨60, [94], [(88, 88, 95), (120, 120, 95)]⟩,
  ⟨87, [93], [(79, 79, 96), (111, 111, 96)]⟩,
  ⟨108, [98], [(78, 78, 97), (110, 110, 97)]⟩,
  ⟨135, [95], [(79, 79, 98), (111, 111, 98)]⟩,
  ⟨169, [99], [(9, 13, 92), (32, 32, 92), (65, 90, 93), (97, 122, 93)]⟩,
  ⟨170, [100], [(9, 13, 85), (32, 32, 85), (44, 44, 86), (48, 57, 93), (65, 90, 93), (95, 95, 93), (97, 122, 93)]⟩,
  ⟨49, [104, 105], [(70, 70, 99), (102, 102, 99)]⟩,
  ⟨61, [102], [(69, 69, 100), (101, 101, 100)]⟩,
  ⟨88, [101], [(82, 82, 101), (114, 114, 101)]⟩,
  ⟨109, [106], [(73, 73, 102), (105, 105, 102)]⟩,
  ⟨136, [103], [(84, 84, 103), (116, 116, 103)]⟩,
  ⟨50, [110, 111], [(69, 69, 104), (101, 101, 104)]⟩,
  ⟨62, [108], [(67, 67, 105), (99, 99, 105)]⟩,
  ⟨89, [107], [(9, 13, 106), (32, 32, 106)]⟩,
  ⟨110, [112], [(84, 84, 107), (116, 116, 107)]⟩,
  ⟨137, [109], [(9, 13, 108), (32, 32, 108)]⟩,
  ⟨51, [116, 117], [(82, 82, 109), (114, 114, 109)]⟩,
  ⟨63, [114], [(85, 85, 110), (117, 117, 110)]⟩,
  ⟨90, [113], [(9, 13, 106), (32, 32, 106), (69, 69, 111), (82, 82, 112), (83, 83, 113), (101, 101, 111), (114, 114, 112), (115, 115, 113)]⟩,
  ⟨111, [118], [(73, 73, 114), (105, 105, 114)]⟩,
  ⟨138, [115], [(9, 13, 108), (32, 32, 108), (68, 68, 115), (100, 100, 115)]⟩,
  ⟨52, [124, 125], [(82, 82, 116), (114, 114, 116)]⟩,
  ⟨64, [122], [(84, 84, 117), (116, 116, 117)]⟩,
  ⟨91, [119], [(65, 65, 118), (97, 97, 118)]⟩,
  ⟨96, [120], [(79, 79, 119), (111, 111, 119)]⟩,
  ⟨100, [121], [(84, 84, 120), (116, 116, 120)]⟩,
  ⟨112, [126], [(65, 65, 121), (97, 97, 121)]⟩,
  ⟨139, [123], [(69, 69, 122), (101, 101, 122)]⟩,
  ⟨53, [132, 133], [(65, 65, 123), (97, 97, 123)]⟩,
  ⟨65, [130], [(69, 69, 124), (101, 101, 124)]⟩,
  ⟨92, [127], [(67, 67, 125), (99, 99, 125)]⟩,
  ⟨97, [128], [(87, 87, 126), (119, 119, 126)]⟩,
  ⟨101, [129], [(65, 65, 127), (97, 97, 127)]⟩,
  ⟨113, [134], [(76, 76, 128), (108, 108, 128)]⟩,
  ⟨140, [131], [(70, 70, 129), (102, 102, 129)]⟩,
  ⟨54, [140, 141], [(66, 66, 130), (98, 98, 130)]⟩,
  ⟨66, [138], [(9, 13, 131), (32, 32, 131)]⟩,
  ⟨93, [135], [(72, 72, 132), (104, 104, 132)]⟩,
  ⟨98, [136], [(9, 13, 133), (32, 32, 133)]⟩,
  ⟨102, [137], [(84, 84, 134), (116, 116, 134)]⟩,
  ⟨114, [142], [(76, 76, 135), (108, 108, 135)]⟩,
  ⟨141, [139], [(69, 69, 136), (101, 101, 136)]⟩,
  ⟨55, [148, 149], [(76, 76, 137), (108, 108, 137)]⟩,
  ⟨67, [146], [(9, 13, 131), (32, 32, 131), (70, 70, 138), (80, 80, 139), (102, 102, 138), (112, 112, 139)]⟩,
  ⟨94, [143], [(9, 13, 140), (32, 32, 140)]⟩,
  ⟨99, [144], [(9, 13, 133), (32, 32, 133), (69, 69, 88), (101, 101, 88)]⟩,
  ⟨103, [145], [(69, 69, 141), (101, 101, 141)]⟩,
  ⟨115, [150], [(89, 89, 142), (121, 121, 142)]⟩,
  ⟨142, [147], [(82, 82, 143), (114, 114, 143)]⟩,
  ⟨56, [156, 157], [(69, 69, 144), (101, 101, 144)]⟩,
  ⟨68, [153], [(85, 85, 145), (117, 117, 145)]⟩,
  ⟨79, [154], [(82, 82, 146), (114, 114, 146)]⟩,
  ⟨95, [151], [(9, 13, 140), (32, 32, 140), (82, 82, 112), (83, 83, 113), (114, 114, 112), (115, 115, 113)]⟩,
  ⟨104, [152], [(77, 77, 147), (109, 109, 147)]⟩,
  ⟨116, [158], [(9, 13, 148), (32, 32, 148)]⟩,
  ⟨143, [155], [(82, 82, 149), (114, 114, 149)]⟩,
  ⟨57, [163, 164], [(9, 13, 150), (32, 32, 150)]⟩,
  ⟨69, [160], [(78, 78, 151), (110, 110, 151)]⟩,
  ⟨80, [161], [(79, 79, 152), (111, 111, 152)]⟩,
  ⟨105, [159], [(69, 69, 153), (101, 101, 153)]⟩,
  ⟨117, [165], [(9, 13, 148), (32, 32, 148), (68, 68, 154), (73, 73, 155), (100, 100, 154), (105, 105, 155)]⟩,
  ⟨144, [162], [(65, 65, 156), (97, 97, 156)]⟩,
  ⟨58, [170, 171], [(9, 13, 157), (32, 32, 157), (73, 73, 90), (105, 105, 90)]⟩,
  ⟨70, [167], [(67, 67, 158), (99, 99, 158)]⟩,
  ⟨81, [168], [(67, 67, 159), (99, 99, 159)]⟩,
  ⟨106, [166], [(78, 78, 160), (110, 110, 160)]⟩,
  ⟨118, [173], [(69, 69, 161), (101, 101, 161)]⟩,
  ⟨127, [172], [(77, 77, 162), (109, 109, 162)]⟩,
  ⟨145, [169], [(66, 66, 163), (98, 98, 163)]⟩,
  ⟨59, [178, 179], [(9, 13, 157), (32, 32, 157), (69, 69, 88), (70, 70, 89), (73, 73, 90), (101, 101, 88), (102, 102, 89), (105, 105, 90)]⟩,
  ⟨71, [175], [(84, 84, 164), (116, 116, 164)]⟩,
  ⟨82, [176], [(69, 69, 165), (101, 101, 165)]⟩,
  ⟨107, [174], [(84, 84, 126), (116, 116, 126)]⟩,
  ⟨119, [181], [(70, 70, 166), (102, 102, 166)]⟩,
  ⟨128, [180], [(77, 77, 167), (109, 109, 167)]⟩,
  ⟨146, [177], [(76, 76, 168), (108, 108, 168)]⟩,
  ⟨72, [182], [(73, 73, 169), (105, 105, 169)]⟩,
  ⟨83, [183], [(68, 68, 170), (100, 100, 170)]⟩,
  ⟨120, [186], [(69, 69, 171), (101, 101, 171)]⟩,
  ⟨129, [185], [(69, 69, 172), (101, 101, 172)]⟩,
  ⟨134, [184], [(69, 69, 173), (101, 101, 173)]⟩,
  ⟨73, [187], [(79, 79, 174), (111, 111, 174)]⟩,
  ⟨84, [188], [(85, 85, 175), (117, 117, 175)]⟩,
  ⟨121, [191], [(82, 82, 176), (114, 114, 176)]⟩,
  ⟨130, [190], [(68, 68, 177), (100, 100, 177)]⟩,
  ⟨125, [189], [(9, 13, 178), (32, 32, 178)]⟩,
  ⟨74, [192], [(78, 78, 179), (110, 110, 179)]⟩,
  ⟨85, [193], [(82, 82, 180), (114, 114, 180)]⟩,
  ⟨122, [195], [(82, 82, 181), (114, 114, 181)]⟩,
  ⟨131, [194], [(73, 73, 182), (105, 105, 182)]⟩,
  ⟨126, [86], [(9, 13, 178), (32, 32, 178), (69, 69, 88), (70, 70, 89), (101, 101, 88), (102, 102, 89)]⟩,
  ⟨75, [196], [(9, 13, 183), (32, 32, 183)]⟩,
  ⟨86, [197], [(69, 69, 179), (101, 101, 179)]⟩,
  ⟨123, [199], [(69, 69, 184), (101, 101, 184)]⟩,
  ⟨132, [198], [(65, 65, 185), (97, 97, 185)]⟩,
  ⟨76, [200], [(9, 13, 183), (32, 32, 183), (65, 90, 186), (97, 122, 186)]⟩,
  ⟨124, [202], [(68, 68, 173), (100, 100, 173)]⟩,
  ⟨133, [201], [(84, 84, 168), (116, 116, 168)]⟩,
  ⟨77, [203], [(40, 40, 187), (48, 57, 186), (65, 90, 186), (95, 95, 186), (97, 122, 186)]⟩,
  ⟨78, [204], [(41, 41, 188)]⟩,
  ⟨186, [205], [(9, 13, 188), (32, 32, 188)]⟩]

set_option maxRecDepth 100000 in
theorem nfa_ok : NfaOk conts lins nulls := ⟨rfl, rfl, rfl⟩

theorem items_ok : itemsOk entries 206 = true := by decide +kernel

theorem entries_ok : entries.all (checkEntry triggerMachine lins nulls entries) = true := by
  decide +kernel

/-- The machine's successful runs are the derivations of the grammar. -/
theorem trace_iff (s : Str) (es : List (Ev TriggerAct)) :
    triggerMachine.trace triggerMachine.start s = some es ↔ DerivesS t0 s es := by
  have h := check_sound nfa_ok (n := 206) rfl items_ok entries_ok s (e := entries.head (by simp [entries]))
    (List.head_mem _) es
  have h0 : (entries.head (by simp [entries])).items = [0] := rfl
  have h1 : stackAt conts 0 = t0 := rfl
  rw [h0] at h
  simp only [List.mem_singleton, exists_eq_left, h1] at h
  exact h

end Verif.Ddl.TriggerG
