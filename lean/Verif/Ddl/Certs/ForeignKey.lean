import Verif.Ragel.Bisim
import Verif.Ddl.Grammars
import Verif.Ragel.Track

/-!
# Certificate that `foreignKeyMachine` implements its grammar

Generated by tools/GenCert.txt; do not edit. Checked by the kernel below.
-/

namespace Verif.Ddl.FkG
open Verif Verif.Ragel Verif.Ddl

/-- The sequences that can remain to be matched. -/
def conts : List (List (Gram FkAct)) := [
  t0,
  (.seq (.cls [(79, 79), (111, 111)] []) (.seq (.cls [(82, 82), (114, 114)] []) (.seq (.cls [(69, 69), (101, 101)] []) (.seq (.cls [(73, 73), (105, 105)] []) (.seq (.cls [(71, 71), (103, 103)] []) (.cls [(78, 78), (110, 110)] [])))))) :: t1,
  (.seq (.cls [(82, 82), (114, 114)] []) (.seq (.cls [(69, 69), (101, 101)] []) (.seq (.cls [(73, 73), (105, 105)] []) (.seq (.cls [(71, 71), (103, 103)] []) (.cls [(78, 78), (110, 110)] []))))) :: t1,
  (.seq (.cls [(69, 69), (101, 101)] []) (.seq (.cls [(73, 73), (105, 105)] []) (.seq (.cls [(71, 71), (103, 103)] []) (.cls [(78, 78), (110, 110)] [])))) :: t1,
  (.seq (.cls [(73, 73), (105, 105)] []) (.seq (.cls [(71, 71), (103, 103)] []) (.cls [(78, 78), (110, 110)] []))) :: t1,
  (.seq (.cls [(71, 71), (103, 103)] []) (.cls [(78, 78), (110, 110)] [])) :: t1,
  (.cls [(78, 78), (110, 110)] []) :: t1,
  t1,
  sp :: t2,
  (.seq (.cls [(69, 69), (101, 101)] []) (.cls [(89, 89), (121, 121)] [])) :: t3,
  (.cls [(89, 89), (121, 121)] []) :: t3,
  t3,
  sp :: (.cls [(40, 40)] []) :: t4,
  t4,
  identR :: (.act .addColumn) :: t6,
  sp :: (.seq (.cls [(44, 44)] []) (.seq sp (.seq ident (.act .addColumn)))) :: t6,
  (.seq sp (.seq ident (.act .addColumn))) :: t6,
  t7,
  t8,
  sp :: (.seq ident (.act .addColumn)) :: t6,
  sp :: (.seq (.cls [(82, 82), (114, 114)] []) (.seq (.cls [(69, 69), (101, 101)] []) (.seq (.cls [(70, 70), (102, 102)] []) (.seq (.cls [(69, 69), (101, 101)] []) (.seq (.cls [(82, 82), (114, 114)] []) (.seq (.cls [(69, 69), (101, 101)] []) (.seq (.cls [(78, 78), (110, 110)] []) (.seq (.cls [(67, 67), (99, 99)] []) (.seq (.cls [(69, 69), (101, 101)] []) (.cls [(83, 83), (115, 115)] [])))))))))) :: t9,
  (.seq (.cls [(69, 69), (101, 101)] []) (.seq (.cls [(70, 70), (102, 102)] []) (.seq (.cls [(69, 69), (101, 101)] []) (.seq (.cls [(82, 82), (114, 114)] []) (.seq (.cls [(69, 69), (101, 101)] []) (.seq (.cls [(78, 78), (110, 110)] []) (.seq (.cls [(67, 67), (99, 99)] []) (.seq (.cls [(69, 69), (101, 101)] []) (.cls [(83, 83), (115, 115)] []))))))))) :: t9,
  (.seq (.cls [(70, 70), (102, 102)] []) (.seq (.cls [(69, 69), (101, 101)] []) (.seq (.cls [(82, 82), (114, 114)] []) (.seq (.cls [(69, 69), (101, 101)] []) (.seq (.cls [(78, 78), (110, 110)] []) (.seq (.cls [(67, 67), (99, 99)] []) (.seq (.cls [(69, 69), (101, 101)] []) (.cls [(83, 83), (115, 115)] [])))))))) :: t9,
  (.seq (.cls [(69, 69), (101, 101)] []) (.seq (.cls [(82, 82), (114, 114)] []) (.seq (.cls [(69, 69), (101, 101)] []) (.seq (.cls [(78, 78), (110, 110)] []) (.seq (.cls [(67, 67), (99, 99)] []) (.seq (.cls [(69, 69), (101, 101)] []) (.cls [(83, 83), (115, 115)] []))))))) :: t9,
  (.seq (.cls [(82, 82), (114, 114)] []) (.seq (.cls [(69, 69), (101, 101)] []) (.seq (.cls [(78, 78), (110, 110)] []) (.seq (.cls [(67, 67), (99, 99)] []) (.seq (.cls [(69, 69), (101, 101)] []) (.cls [(83, 83), (115, 115)] [])))))) :: t9,
  (.seq (.cls [(69, 69), (101, 101)] []) (.seq (.cls [(78, 78), (110, 110)] []) (.seq (.cls [(67, 67), (99, 99)] []) (.seq (.cls [(69, 69), (101, 101)] []) (.cls [(83, 83), (115, 115)] []))))) :: t9,
  (.seq (.cls [(78, 78), (110, 110)] []) (.seq (.cls [(67, 67), (99, 99)] []) (.seq (.cls [(69, 69), (101, 101)] []) (.cls [(83, 83), (115, 115)] [])))) :: t9,
  (.seq (.cls [(67, 67), (99, 99)] []) (.seq (.cls [(69, 69), (101, 101)] []) (.cls [(83, 83), (115, 115)] []))) :: t9,
  (.seq (.cls [(69, 69), (101, 101)] []) (.cls [(83, 83), (115, 115)] [])) :: t9,
  (.cls [(83, 83), (115, 115)] []) :: t9,
  t9,
  sp :: t10,
  identR :: t11,
  t12,
  identR :: (.act .addReferenced) :: t14,
  sp :: (.seq (.cls [(44, 44)] []) (.seq sp (.seq ident (.act .addReferenced)))) :: t14,
  (.seq sp (.seq ident (.act .addReferenced))) :: t14,
  t15,
  t16,
  sp :: (.seq ident (.act .addReferenced)) :: t14,
  sp :: (.seq (.seq (.cls [(77, 77), (109, 109)] []) (.seq (.cls [(65, 65), (97, 97)] []) (.seq (.cls [(84, 84), (116, 116)] []) (.seq (.cls [(67, 67), (99, 99)] []) (.cls [(72, 72), (104, 104)] []))))) (.seq ws (.seq match_ (.act .setMatch)))) :: t17,
  sp :: (.seq (.seq (.cls [(79, 79), (111, 111)] []) (.cls [(78, 78), (110, 110)] [])) (.seq ws (.seq (.seq (.cls [(68, 68), (100, 100)] []) (.seq (.cls [(69, 69), (101, 101)] []) (.seq (.cls [(76, 76), (108, 108)] []) (.seq (.cls [(69, 69), (101, 101)] []) (.seq (.cls [(84, 84), (116, 116)] []) (.cls [(69, 69), (101, 101)] [])))))) (.seq ws (.seq onaction (.act .setOnDelete)))))) :: t18,
  sp :: (.seq (.seq (.cls [(79, 79), (111, 111)] []) (.cls [(78, 78), (110, 110)] [])) (.seq ws (.seq (.seq (.cls [(85, 85), (117, 117)] []) (.seq (.cls [(80, 80), (112, 112)] []) (.seq (.cls [(68, 68), (100, 100)] []) (.seq (.cls [(65, 65), (97, 97)] []) (.seq (.cls [(84, 84), (116, 116)] []) (.cls [(69, 69), (101, 101)] [])))))) (.seq ws (.seq onaction (.act .setOnUpdate)))))) :: t19,
  sp :: [],
  sp :: (.seq (.seq (.cls [(78, 78), (110, 110)] []) (.seq (.cls [(79, 79), (111, 111)] []) (.cls [(84, 84), (116, 116)] []))) (.seq ws (.seq (.seq (.cls [(68, 68), (100, 100)] []) (.seq (.cls [(69, 69), (101, 101)] []) (.seq (.cls [(70, 70), (102, 102)] []) (.seq (.cls [(69, 69), (101, 101)] []) (.seq (.cls [(82, 82), (114, 114)] []) (.seq (.cls [(82, 82), (114, 114)] []) (.seq (.cls [(65, 65), (97, 97)] []) (.seq (.cls [(66, 66), (98, 98)] []) (.seq (.cls [(76, 76), (108, 108)] []) (.cls [(69, 69), (101, 101)] [])))))))))) sp))) :: [],
  sp :: (.seq (.seq (.cls [(68, 68), (100, 100)] []) (.seq (.cls [(69, 69), (101, 101)] []) (.seq (.cls [(70, 70), (102, 102)] []) (.seq (.cls [(69, 69), (101, 101)] []) (.seq (.cls [(82, 82), (114, 114)] []) (.seq (.cls [(82, 82), (114, 114)] []) (.seq (.cls [(65, 65), (97, 97)] []) (.seq (.cls [(66, 66), (98, 98)] []) (.seq (.cls [(76, 76), (108, 108)] []) (.cls [(69, 69), (101, 101)] [])))))))))) (.seq spF (.seq (.star spF) (.alt (.seq initially sp) .eps)))) :: [],
  sp :: (.seq initially sp) :: [],
  (.seq (.cls [(65, 65), (97, 97)] []) (.seq (.cls [(84, 84), (116, 116)] []) (.seq (.cls [(67, 67), (99, 99)] []) (.cls [(72, 72), (104, 104)] [])))) :: (.seq ws (.seq match_ (.act .setMatch))) :: t17,
  (.cls [(78, 78), (110, 110)] []) :: (.seq ws (.seq (.seq (.cls [(68, 68), (100, 100)] []) (.seq (.cls [(69, 69), (101, 101)] []) (.seq (.cls [(76, 76), (108, 108)] []) (.seq (.cls [(69, 69), (101, 101)] []) (.seq (.cls [(84, 84), (116, 116)] []) (.cls [(69, 69), (101, 101)] [])))))) (.seq ws (.seq onaction (.act .setOnDelete))))) :: t18,
  (.cls [(78, 78), (110, 110)] []) :: (.seq ws (.seq (.seq (.cls [(85, 85), (117, 117)] []) (.seq (.cls [(80, 80), (112, 112)] []) (.seq (.cls [(68, 68), (100, 100)] []) (.seq (.cls [(65, 65), (97, 97)] []) (.seq (.cls [(84, 84), (116, 116)] []) (.cls [(69, 69), (101, 101)] [])))))) (.seq ws (.seq onaction (.act .setOnUpdate))))) :: t19,
  (.seq (.cls [(79, 79), (111, 111)] []) (.cls [(84, 84), (116, 116)] [])) :: (.seq ws (.seq (.seq (.cls [(68, 68), (100, 100)] []) (.seq (.cls [(69, 69), (101, 101)] []) (.seq (.cls [(70, 70), (102, 102)] []) (.seq (.cls [(69, 69), (101, 101)] []) (.seq (.cls [(82, 82), (114, 114)] []) (.seq (.cls [(82, 82), (114, 114)] []) (.seq (.cls [(65, 65), (97, 97)] []) (.seq (.cls [(66, 66), (98, 98)] []) (.seq (.cls [(76, 76), (108, 108)] []) (.cls [(69, 69), (101, 101)] [])))))))))) sp)) :: [],
  (.seq (.cls [(69, 69), (101, 101)] []) (.seq (.cls [(70, 70), (102, 102)] []) (.seq (.cls [(69, 69), (101, 101)] []) (.seq (.cls [(82, 82), (114, 114)] []) (.seq (.cls [(82, 82), (114, 114)] []) (.seq (.cls [(65, 65), (97, 97)] []) (.seq (.cls [(66, 66), (98, 98)] []) (.seq (.cls [(76, 76), (108, 108)] []) (.cls [(69, 69), (101, 101)] []))))))))) :: (.seq spF (.seq (.star spF) (.alt (.seq initially sp) .eps))) :: [],
  (.seq (.cls [(78, 78), (110, 110)] []) (.seq (.cls [(73, 73), (105, 105)] []) (.seq (.cls [(84, 84), (116, 116)] []) (.seq (.cls [(73, 73), (105, 105)] []) (.seq (.cls [(65, 65), (97, 97)] []) (.seq (.cls [(76, 76), (108, 108)] []) (.seq (.cls [(76, 76), (108, 108)] []) (.cls [(89, 89), (121, 121)] [])))))))) :: (.seq ws (.alt (.seq (.cls [(73, 73), (105, 105)] []) (.seq (.cls [(77, 77), (109, 109)] []) (.seq (.cls [(77, 77), (109, 109)] []) (.seq (.cls [(69, 69), (101, 101)] []) (.seq (.cls [(68, 68), (100, 100)] []) (.seq (.cls [(73, 73), (105, 105)] []) (.seq (.cls [(65, 65), (97, 97)] []) (.seq (.cls [(84, 84), (116, 116)] []) (.cls [(69, 69), (101, 101)] []))))))))) (.seq (.cls [(68, 68), (100, 100)] []) (.seq (.cls [(69, 69), (101, 101)] []) (.seq (.cls [(70, 70), (102, 102)] []) (.seq (.cls [(69, 69), (101, 101)] []) (.seq (.cls [(82, 82), (114, 114)] []) (.seq (.cls [(82, 82), (114, 114)] []) (.seq (.cls [(69, 69), (101, 101)] []) (.cls [(68, 68), (100, 100)] [.act .matchInitiallyDeferred])))))))))) :: sp :: [],
  (.seq (.cls [(84, 84), (116, 116)] []) (.seq (.cls [(67, 67), (99, 99)] []) (.cls [(72, 72), (104, 104)] []))) :: (.seq ws (.seq match_ (.act .setMatch))) :: t17,
  (.seq ws (.seq (.seq (.cls [(68, 68), (100, 100)] []) (.seq (.cls [(69, 69), (101, 101)] []) (.seq (.cls [(76, 76), (108, 108)] []) (.seq (.cls [(69, 69), (101, 101)] []) (.seq (.cls [(84, 84), (116, 116)] []) (.cls [(69, 69), (101, 101)] [])))))) (.seq ws (.seq onaction (.act .setOnDelete))))) :: t18,
  (.seq ws (.seq (.seq (.cls [(85, 85), (117, 117)] []) (.seq (.cls [(80, 80), (112, 112)] []) (.seq (.cls [(68, 68), (100, 100)] []) (.seq (.cls [(65, 65), (97, 97)] []) (.seq (.cls [(84, 84), (116, 116)] []) (.cls [(69, 69), (101, 101)] [])))))) (.seq ws (.seq onaction (.act .setOnUpdate))))) :: t19,
  (.cls [(84, 84), (116, 116)] []) :: (.seq ws (.seq (.seq (.cls [(68, 68), (100, 100)] []) (.seq (.cls [(69, 69), (101, 101)] []) (.seq (.cls [(70, 70), (102, 102)] []) (.seq (.cls [(69, 69), (101, 101)] []) (.seq (.cls [(82, 82), (114, 114)] []) (.seq (.cls [(82, 82), (114, 114)] []) (.seq (.cls [(65, 65), (97, 97)] []) (.seq (.cls [(66, 66), (98, 98)] []) (.seq (.cls [(76, 76), (108, 108)] []) (.cls [(69, 69), (101, 101)] [])))))))))) sp)) :: [],
  (.seq (.cls [(70, 70), (102, 102)] []) (.seq (.cls [(69, 69), (101, 101)] []) (.seq (.cls [(82, 82), (114, 114)] []) (.seq (.cls [(82, 82), (114, 114)] []) (.seq (.cls [(65, 65), (97, 97)] []) (.seq (.cls [(66, 66), (98, 98)] []) (.seq (.cls [(76, 76), (108, 108)] []) (.cls [(69, 69), (101, 101)] [])))))))) :: (.seq spF (.seq (.star spF) (.alt (.seq initially sp) .eps))) :: [],
  (.seq (.cls [(73, 73), (105, 105)] []) (.seq (.cls [(84, 84), (116, 116)] []) (.seq (.cls [(73, 73), (105, 105)] []) (.seq (.cls [(65, 65), (97, 97)] []) (.seq (.cls [(76, 76), (108, 108)] []) (.seq (.cls [(76, 76), (108, 108)] []) (.cls [(89, 89), (121, 121)] []))))))) :: (.seq ws (.alt (.seq (.cls [(73, 73), (105, 105)] []) (.seq (.cls [(77, 77), (109, 109)] []) (.seq (.cls [(77, 77), (109, 109)] []) (.seq (.cls [(69, 69), (101, 101)] []) (.seq (.cls [(68, 68), (100, 100)] []) (.seq (.cls [(73, 73), (105, 105)] []) (.seq (.cls [(65, 65), (97, 97)] []) (.seq (.cls [(84, 84), (116, 116)] []) (.cls [(69, 69), (101, 101)] []))))))))) (.seq (.cls [(68, 68), (100, 100)] []) (.seq (.cls [(69, 69), (101, 101)] []) (.seq (.cls [(70, 70), (102, 102)] []) (.seq (.cls [(69, 69), (101, 101)] []) (.seq (.cls [(82, 82), (114, 114)] []) (.seq (.cls [(82, 82), (114, 114)] []) (.seq (.cls [(69, 69), (101, 101)] []) (.cls [(68, 68), (100, 100)] [.act .matchInitiallyDeferred])))))))))) :: sp :: [],
  (.seq (.cls [(67, 67), (99, 99)] []) (.cls [(72, 72), (104, 104)] [])) :: (.seq ws (.seq match_ (.act .setMatch))) :: t17,
  sp :: (.seq (.seq (.cls [(68, 68), (100, 100)] []) (.seq (.cls [(69, 69), (101, 101)] []) (.seq (.cls [(76, 76), (108, 108)] []) (.seq (.cls [(69, 69), (101, 101)] []) (.seq (.cls [(84, 84), (116, 116)] []) (.cls [(69, 69), (101, 101)] [])))))) (.seq ws (.seq onaction (.act .setOnDelete)))) :: t18,
  sp :: (.seq (.seq (.cls [(85, 85), (117, 117)] []) (.seq (.cls [(80, 80), (112, 112)] []) (.seq (.cls [(68, 68), (100, 100)] []) (.seq (.cls [(65, 65), (97, 97)] []) (.seq (.cls [(84, 84), (116, 116)] []) (.cls [(69, 69), (101, 101)] [])))))) (.seq ws (.seq onaction (.act .setOnUpdate)))) :: t19,
  (.seq ws (.seq (.seq (.cls [(68, 68), (100, 100)] []) (.seq (.cls [(69, 69), (101, 101)] []) (.seq (.cls [(70, 70), (102, 102)] []) (.seq (.cls [(69, 69), (101, 101)] []) (.seq (.cls [(82, 82), (114, 114)] []) (.seq (.cls [(82, 82), (114, 114)] []) (.seq (.cls [(65, 65), (97, 97)] []) (.seq (.cls [(66, 66), (98, 98)] []) (.seq (.cls [(76, 76), (108, 108)] []) (.cls [(69, 69), (101, 101)] [])))))))))) sp)) :: [],
  (.seq (.cls [(69, 69), (101, 101)] []) (.seq (.cls [(82, 82), (114, 114)] []) (.seq (.cls [(82, 82), (114, 114)] []) (.seq (.cls [(65, 65), (97, 97)] []) (.seq (.cls [(66, 66), (98, 98)] []) (.seq (.cls [(76, 76), (108, 108)] []) (.cls [(69, 69), (101, 101)] []))))))) :: (.seq spF (.seq (.star spF) (.alt (.seq initially sp) .eps))) :: [],
  (.seq (.cls [(84, 84), (116, 116)] []) (.seq (.cls [(73, 73), (105, 105)] []) (.seq (.cls [(65, 65), (97, 97)] []) (.seq (.cls [(76, 76), (108, 108)] []) (.seq (.cls [(76, 76), (108, 108)] []) (.cls [(89, 89), (121, 121)] [])))))) :: (.seq ws (.alt (.seq (.cls [(73, 73), (105, 105)] []) (.seq (.cls [(77, 77), (109, 109)] []) (.seq (.cls [(77, 77), (109, 109)] []) (.seq (.cls [(69, 69), (101, 101)] []) (.seq (.cls [(68, 68), (100, 100)] []) (.seq (.cls [(73, 73), (105, 105)] []) (.seq (.cls [(65, 65), (97, 97)] []) (.seq (.cls [(84, 84), (116, 116)] []) (.cls [(69, 69), (101, 101)] []))))))))) (.seq (.cls [(68, 68), (100, 100)] []) (.seq (.cls [(69, 69), (101, 101)] []) (.seq (.cls [(70, 70), (102, 102)] []) (.seq (.cls [(69, 69), (101, 101)] []) (.seq (.cls [(82, 82), (114, 114)] []) (.seq (.cls [(82, 82), (114, 114)] []) (.seq (.cls [(69, 69), (101, 101)] []) (.cls [(68, 68), (100, 100)] [.act .matchInitiallyDeferred])))))))))) :: sp :: [],
  (.cls [(72, 72), (104, 104)] []) :: (.seq ws (.seq match_ (.act .setMatch))) :: t17,
  (.seq (.cls [(69, 69), (101, 101)] []) (.seq (.cls [(76, 76), (108, 108)] []) (.seq (.cls [(69, 69), (101, 101)] []) (.seq (.cls [(84, 84), (116, 116)] []) (.cls [(69, 69), (101, 101)] []))))) :: (.seq ws (.seq onaction (.act .setOnDelete))) :: t18,
  (.seq (.cls [(80, 80), (112, 112)] []) (.seq (.cls [(68, 68), (100, 100)] []) (.seq (.cls [(65, 65), (97, 97)] []) (.seq (.cls [(84, 84), (116, 116)] []) (.cls [(69, 69), (101, 101)] []))))) :: (.seq ws (.seq onaction (.act .setOnUpdate))) :: t19,
  sp :: (.seq (.seq (.cls [(68, 68), (100, 100)] []) (.seq (.cls [(69, 69), (101, 101)] []) (.seq (.cls [(70, 70), (102, 102)] []) (.seq (.cls [(69, 69), (101, 101)] []) (.seq (.cls [(82, 82), (114, 114)] []) (.seq (.cls [(82, 82), (114, 114)] []) (.seq (.cls [(65, 65), (97, 97)] []) (.seq (.cls [(66, 66), (98, 98)] []) (.seq (.cls [(76, 76), (108, 108)] []) (.cls [(69, 69), (101, 101)] [])))))))))) sp) :: [],
  (.seq (.cls [(82, 82), (114, 114)] []) (.seq (.cls [(82, 82), (114, 114)] []) (.seq (.cls [(65, 65), (97, 97)] []) (.seq (.cls [(66, 66), (98, 98)] []) (.seq (.cls [(76, 76), (108, 108)] []) (.cls [(69, 69), (101, 101)] [])))))) :: (.seq spF (.seq (.star spF) (.alt (.seq initially sp) .eps))) :: [],
  (.seq (.cls [(73, 73), (105, 105)] []) (.seq (.cls [(65, 65), (97, 97)] []) (.seq (.cls [(76, 76), (108, 108)] []) (.seq (.cls [(76, 76), (108, 108)] []) (.cls [(89, 89), (121, 121)] []))))) :: (.seq ws (.alt (.seq (.cls [(73, 73), (105, 105)] []) (.seq (.cls [(77, 77), (109, 109)] []) (.seq (.cls [(77, 77), (109, 109)] []) (.seq (.cls [(69, 69), (101, 101)] []) (.seq (.cls [(68, 68), (100, 100)] []) (.seq (.cls [(73, 73), (105, 105)] []) (.seq (.cls [(65, 65), (97, 97)] []) (.seq (.cls [(84, 84), (116, 116)] []) (.cls [(69, 69), (101, 101)] []))))))))) (.seq (.cls [(68, 68), (100, 100)] []) (.seq (.cls [(69, 69), (101, 101)] []) (.seq (.cls [(70, 70), (102, 102)] []) (.seq (.cls [(69, 69), (101, 101)] []) (.seq (.cls [(82, 82), (114, 114)] []) (.seq (.cls [(82, 82), (114, 114)] []) (.seq (.cls [(69, 69), (101, 101)] []) (.cls [(68, 68), (100, 100)] [.act .matchInitiallyDeferred])))))))))) :: sp :: [],
  (.seq ws (.seq match_ (.act .setMatch))) :: t17,
  (.seq (.cls [(76, 76), (108, 108)] []) (.seq (.cls [(69, 69), (101, 101)] []) (.seq (.cls [(84, 84), (116, 116)] []) (.cls [(69, 69), (101, 101)] [])))) :: (.seq ws (.seq onaction (.act .setOnDelete))) :: t18,
  (.seq (.cls [(68, 68), (100, 100)] []) (.seq (.cls [(65, 65), (97, 97)] []) (.seq (.cls [(84, 84), (116, 116)] []) (.cls [(69, 69), (101, 101)] [])))) :: (.seq ws (.seq onaction (.act .setOnUpdate))) :: t19,
  (.seq (.cls [(69, 69), (101, 101)] []) (.seq (.cls [(70, 70), (102, 102)] []) (.seq (.cls [(69, 69), (101, 101)] []) (.seq (.cls [(82, 82), (114, 114)] []) (.seq (.cls [(82, 82), (114, 114)] []) (.seq (.cls [(65, 65), (97, 97)] []) (.seq (.cls [(66, 66), (98, 98)] []) (.seq (.cls [(76, 76), (108, 108)] []) (.cls [(69, 69), (101, 101)] []))))))))) :: sp :: [],
  (.seq (.cls [(82, 82), (114, 114)] []) (.seq (.cls [(65, 65), (97, 97)] []) (.seq (.cls [(66, 66), (98, 98)] []) (.seq (.cls [(76, 76), (108, 108)] []) (.cls [(69, 69), (101, 101)] []))))) :: (.seq spF (.seq (.star spF) (.alt (.seq initially sp) .eps))) :: [],
  (.seq (.cls [(65, 65), (97, 97)] []) (.seq (.cls [(76, 76), (108, 108)] []) (.seq (.cls [(76, 76), (108, 108)] []) (.cls [(89, 89), (121, 121)] [])))) :: (.seq ws (.alt (.seq (.cls [(73, 73), (105, 105)] []) (.seq (.cls [(77, 77), (109, 109)] []) (.seq (.cls [(77, 77), (109, 109)] []) (.seq (.cls [(69, 69), (101, 101)] []) (.seq (.cls [(68, 68), (100, 100)] []) (.seq (.cls [(73, 73), (105, 105)] []) (.seq (.cls [(65, 65), (97, 97)] []) (.seq (.cls [(84, 84), (116, 116)] []) (.cls [(69, 69), (101, 101)] []))))))))) (.seq (.cls [(68, 68), (100, 100)] []) (.seq (.cls [(69, 69), (101, 101)] []) (.seq (.cls [(70, 70), (102, 102)] []) (.seq (.cls [(69, 69), (101, 101)] []) (.seq (.cls [(82, 82), (114, 114)] []) (.seq (.cls [(82, 82), (114, 114)] []) (.seq (.cls [(69, 69), (101, 101)] []) (.cls [(68, 68), (100, 100)] [.act .matchInitiallyDeferred])))))))))) :: sp :: [],
  sp :: (.seq match_ (.act .setMatch)) :: t17,
  (.seq (.cls [(69, 69), (101, 101)] []) (.seq (.cls [(84, 84), (116, 116)] []) (.cls [(69, 69), (101, 101)] []))) :: (.seq ws (.seq onaction (.act .setOnDelete))) :: t18,
  (.seq (.cls [(65, 65), (97, 97)] []) (.seq (.cls [(84, 84), (116, 116)] []) (.cls [(69, 69), (101, 101)] []))) :: (.seq ws (.seq onaction (.act .setOnUpdate))) :: t19,
  (.seq (.cls [(70, 70), (102, 102)] []) (.seq (.cls [(69, 69), (101, 101)] []) (.seq (.cls [(82, 82), (114, 114)] []) (.seq (.cls [(82, 82), (114, 114)] []) (.seq (.cls [(65, 65), (97, 97)] []) (.seq (.cls [(66, 66), (98, 98)] []) (.seq (.cls [(76, 76), (108, 108)] []) (.cls [(69, 69), (101, 101)] [])))))))) :: sp :: [],
  (.seq (.cls [(65, 65), (97, 97)] []) (.seq (.cls [(66, 66), (98, 98)] []) (.seq (.cls [(76, 76), (108, 108)] []) (.cls [(69, 69), (101, 101)] [])))) :: (.seq spF (.seq (.star spF) (.alt (.seq initially sp) .eps))) :: [],
  (.seq (.cls [(76, 76), (108, 108)] []) (.seq (.cls [(76, 76), (108, 108)] []) (.cls [(89, 89), (121, 121)] []))) :: (.seq ws (.alt (.seq (.cls [(73, 73), (105, 105)] []) (.seq (.cls [(77, 77), (109, 109)] []) (.seq (.cls [(77, 77), (109, 109)] []) (.seq (.cls [(69, 69), (101, 101)] []) (.seq (.cls [(68, 68), (100, 100)] []) (.seq (.cls [(73, 73), (105, 105)] []) (.seq (.cls [(65, 65), (97, 97)] []) (.seq (.cls [(84, 84), (116, 116)] []) (.cls [(69, 69), (101, 101)] []))))))))) (.seq (.cls [(68, 68), (100, 100)] []) (.seq (.cls [(69, 69), (101, 101)] []) (.seq (.cls [(70, 70), (102, 102)] []) (.seq (.cls [(69, 69), (101, 101)] []) (.seq (.cls [(82, 82), (114, 114)] []) (.seq (.cls [(82, 82), (114, 114)] []) (.seq (.cls [(69, 69), (101, 101)] []) (.cls [(68, 68), (100, 100)] [.act .matchInitiallyDeferred])))))))))) :: sp :: [],
  (.seq (.cls [(85, 85), (117, 117)] [.push]) (.seq (.cls [(76, 76), (108, 108)] [.push]) (.cls [(76, 76), (108, 108)] [.push]))) :: (.act .setMatch) :: t17,
  (.seq (.cls [(65, 65), (97, 97)] [.push]) (.seq (.cls [(82, 82), (114, 114)] [.push]) (.seq (.cls [(84, 84), (116, 116)] [.push]) (.seq (.cls [(73, 73), (105, 105)] [.push]) (.seq (.cls [(65, 65), (97, 97)] [.push]) (.cls [(76, 76), (108, 108)] [.push])))))) :: (.act .setMatch) :: t17,
  (.seq (.cls [(73, 73), (105, 105)] [.push]) (.seq (.cls [(77, 77), (109, 109)] [.push]) (.seq (.cls [(80, 80), (112, 112)] [.push]) (.seq (.cls [(76, 76), (108, 108)] [.push]) (.cls [(69, 69), (101, 101)] [.push]))))) :: (.act .setMatch) :: t17,
  (.seq (.cls [(84, 84), (116, 116)] []) (.cls [(69, 69), (101, 101)] [])) :: (.seq ws (.seq onaction (.act .setOnDelete))) :: t18,
  (.seq (.cls [(84, 84), (116, 116)] []) (.cls [(69, 69), (101, 101)] [])) :: (.seq ws (.seq onaction (.act .setOnUpdate))) :: t19,
  (.seq (.cls [(69, 69), (101, 101)] []) (.seq (.cls [(82, 82), (114, 114)] []) (.seq (.cls [(82, 82), (114, 114)] []) (.seq (.cls [(65, 65), (97, 97)] []) (.seq (.cls [(66, 66), (98, 98)] []) (.seq (.cls [(76, 76), (108, 108)] []) (.cls [(69, 69), (101, 101)] []))))))) :: sp :: [],
  (.seq (.cls [(66, 66), (98, 98)] []) (.seq (.cls [(76, 76), (108, 108)] []) (.cls [(69, 69), (101, 101)] []))) :: (.seq spF (.seq (.star spF) (.alt (.seq initially sp) .eps))) :: [],
  (.seq (.cls [(76, 76), (108, 108)] []) (.cls [(89, 89), (121, 121)] [])) :: (.seq ws (.alt (.seq (.cls [(73, 73), (105, 105)] []) (.seq (.cls [(77, 77), (109, 109)] []) (.seq (.cls [(77, 77), (109, 109)] []) (.seq (.cls [(69, 69), (101, 101)] []) (.seq (.cls [(68, 68), (100, 100)] []) (.seq (.cls [(73, 73), (105, 105)] []) (.seq (.cls [(65, 65), (97, 97)] []) (.seq (.cls [(84, 84), (116, 116)] []) (.cls [(69, 69), (101, 101)] []))))))))) (.seq (.cls [(68, 68), (100, 100)] []) (.seq (.cls [(69, 69), (101, 101)] []) (.seq (.cls [(70, 70), (102, 102)] []) (.seq (.cls [(69, 69), (101, 101)] []) (.seq (.cls [(82, 82), (114, 114)] []) (.seq (.cls [(82, 82), (114, 114)] []) (.seq (.cls [(69, 69), (101, 101)] []) (.cls [(68, 68), (100, 100)] [.act .matchInitiallyDeferred])))))))))) :: sp :: [],
  (.seq (.cls [(76, 76), (108, 108)] [.push]) (.cls [(76, 76), (108, 108)] [.push])) :: (.act .setMatch) :: t17,
  (.seq (.cls [(82, 82), (114, 114)] [.push]) (.seq (.cls [(84, 84), (116, 116)] [.push]) (.seq (.cls [(73, 73), (105, 105)] [.push]) (.seq (.cls [(65, 65), (97, 97)] [.push]) (.cls [(76, 76), (108, 108)] [.push]))))) :: (.act .setMatch) :: t17,
  (.seq (.cls [(77, 77), (109, 109)] [.push]) (.seq (.cls [(80, 80), (112, 112)] [.push]) (.seq (.cls [(76, 76), (108, 108)] [.push]) (.cls [(69, 69), (101, 101)] [.push])))) :: (.act .setMatch) :: t17,
  (.cls [(69, 69), (101, 101)] []) :: (.seq ws (.seq onaction (.act .setOnDelete))) :: t18,
  (.cls [(69, 69), (101, 101)] []) :: (.seq ws (.seq onaction (.act .setOnUpdate))) :: t19,
  (.seq (.cls [(82, 82), (114, 114)] []) (.seq (.cls [(82, 82), (114, 114)] []) (.seq (.cls [(65, 65), (97, 97)] []) (.seq (.cls [(66, 66), (98, 98)] []) (.seq (.cls [(76, 76), (108, 108)] []) (.cls [(69, 69), (101, 101)] [])))))) :: sp :: [],
  (.seq (.cls [(76, 76), (108, 108)] []) (.cls [(69, 69), (101, 101)] [])) :: (.seq spF (.seq (.star spF) (.alt (.seq initially sp) .eps))) :: [],
  (.cls [(89, 89), (121, 121)] []) :: (.seq ws (.alt (.seq (.cls [(73, 73), (105, 105)] []) (.seq (.cls [(77, 77), (109, 109)] []) (.seq (.cls [(77, 77), (109, 109)] []) (.seq (.cls [(69, 69), (101, 101)] []) (.seq (.cls [(68, 68), (100, 100)] []) (.seq (.cls [(73, 73), (105, 105)] []) (.seq (.cls [(65, 65), (97, 97)] []) (.seq (.cls [(84, 84), (116, 116)] []) (.cls [(69, 69), (101, 101)] []))))))))) (.seq (.cls [(68, 68), (100, 100)] []) (.seq (.cls [(69, 69), (101, 101)] []) (.seq (.cls [(70, 70), (102, 102)] []) (.seq (.cls [(69, 69), (101, 101)] []) (.seq (.cls [(82, 82), (114, 114)] []) (.seq (.cls [(82, 82), (114, 114)] []) (.seq (.cls [(69, 69), (101, 101)] []) (.cls [(68, 68), (100, 100)] [.act .matchInitiallyDeferred])))))))))) :: sp :: [],
  (.cls [(76, 76), (108, 108)] [.push]) :: (.act .setMatch) :: t17,
  (.seq (.cls [(84, 84), (116, 116)] [.push]) (.seq (.cls [(73, 73), (105, 105)] [.push]) (.seq (.cls [(65, 65), (97, 97)] [.push]) (.cls [(76, 76), (108, 108)] [.push])))) :: (.act .setMatch) :: t17,
  (.seq (.cls [(80, 80), (112, 112)] [.push]) (.seq (.cls [(76, 76), (108, 108)] [.push]) (.cls [(69, 69), (101, 101)] [.push]))) :: (.act .setMatch) :: t17,
  (.seq ws (.seq onaction (.act .setOnDelete))) :: t18,
  (.seq ws (.seq onaction (.act .setOnUpdate))) :: t19,
  (.seq (.cls [(82, 82), (114, 114)] []) (.seq (.cls [(65, 65), (97, 97)] []) (.seq (.cls [(66, 66), (98, 98)] []) (.seq (.cls [(76, 76), (108, 108)] []) (.cls [(69, 69), (101, 101)] []))))) :: sp :: [],
  (.cls [(69, 69), (101, 101)] []) :: (.seq spF (.seq (.star spF) (.alt (.seq initially sp) .eps))) :: [],
  (.seq ws (.alt (.seq (.cls [(73, 73), (105, 105)] []) (.seq (.cls [(77, 77), (109, 109)] []) (.seq (.cls [(77, 77), (109, 109)] []) (.seq (.cls [(69, 69), (101, 101)] []) (.seq (.cls [(68, 68), (100, 100)] []) (.seq (.cls [(73, 73), (105, 105)] []) (.seq (.cls [(65, 65), (97, 97)] []) (.seq (.cls [(84, 84), (116, 116)] []) (.cls [(69, 69), (101, 101)] []))))))))) (.seq (.cls [(68, 68), (100, 100)] []) (.seq (.cls [(69, 69), (101, 101)] []) (.seq (.cls [(70, 70), (102, 102)] []) (.seq (.cls [(69, 69), (101, 101)] []) (.seq (.cls [(82, 82), (114, 114)] []) (.seq (.cls [(82, 82), (114, 114)] []) (.seq (.cls [(69, 69), (101, 101)] []) (.cls [(68, 68), (100, 100)] [.act .matchInitiallyDeferred])))))))))) :: sp :: [],
  (.act .setMatch) :: t17,
  (.seq (.cls [(73, 73), (105, 105)] [.push]) (.seq (.cls [(65, 65), (97, 97)] [.push]) (.cls [(76, 76), (108, 108)] [.push]))) :: (.act .setMatch) :: t17,
  (.seq (.cls [(76, 76), (108, 108)] [.push]) (.cls [(69, 69), (101, 101)] [.push])) :: (.act .setMatch) :: t17,
  sp :: (.seq onaction (.act .setOnDelete)) :: t18,
  sp :: (.seq onaction (.act .setOnUpdate)) :: t19,
  (.seq (.cls [(65, 65), (97, 97)] []) (.seq (.cls [(66, 66), (98, 98)] []) (.seq (.cls [(76, 76), (108, 108)] []) (.cls [(69, 69), (101, 101)] [])))) :: sp :: [],
  (.seq spF (.seq (.star spF) (.alt (.seq initially sp) .eps))) :: [],
  sp :: (.alt (.seq (.cls [(73, 73), (105, 105)] []) (.seq (.cls [(77, 77), (109, 109)] []) (.seq (.cls [(77, 77), (109, 109)] []) (.seq (.cls [(69, 69), (101, 101)] []) (.seq (.cls [(68, 68), (100, 100)] []) (.seq (.cls [(73, 73), (105, 105)] []) (.seq (.cls [(65, 65), (97, 97)] []) (.seq (.cls [(84, 84), (116, 116)] []) (.cls [(69, 69), (101, 101)] []))))))))) (.seq (.cls [(68, 68), (100, 100)] []) (.seq (.cls [(69, 69), (101, 101)] []) (.seq (.cls [(70, 70), (102, 102)] []) (.seq (.cls [(69, 69), (101, 101)] []) (.seq (.cls [(82, 82), (114, 114)] []) (.seq (.cls [(82, 82), (114, 114)] []) (.seq (.cls [(69, 69), (101, 101)] []) (.cls [(68, 68), (100, 100)] [.act .matchInitiallyDeferred]))))))))) :: sp :: [],
  (.seq (.cls [(65, 65), (97, 97)] [.push]) (.cls [(76, 76), (108, 108)] [.push])) :: (.act .setMatch) :: t17,
  (.cls [(69, 69), (101, 101)] [.push]) :: (.act .setMatch) :: t17,
  (.cls [(79, 79), (111, 111)] [.push]) :: (.seq wsP (.seq (.cls [(65, 65), (97, 97)] [.push]) (.seq (.cls [(67, 67), (99, 99)] [.push]) (.seq (.cls [(84, 84), (116, 116)] [.push]) (.seq (.cls [(73, 73), (105, 105)] [.push]) (.seq (.cls [(79, 79), (111, 111)] [.push]) (.cls [(78, 78), (110, 110)] [.push]))))))) :: (.act .setOnDelete) :: t18,
  (.seq (.cls [(69, 69), (101, 101)] [.push]) (.seq (.cls [(83, 83), (115, 115)] [.push]) (.seq (.cls [(84, 84), (116, 116)] [.push]) (.seq (.cls [(82, 82), (114, 114)] [.push]) (.seq (.cls [(73, 73), (105, 105)] [.push]) (.seq (.cls [(67, 67), (99, 99)] [.push]) (.cls [(84, 84), (116, 116)] [.push]))))))) :: (.act .setOnDelete) :: t18,
  (.seq (.cls [(65, 65), (97, 97)] [.push]) (.seq (.cls [(83, 83), (115, 115)] [.push]) (.seq (.cls [(67, 67), (99, 99)] [.push]) (.seq (.cls [(65, 65), (97, 97)] [.push]) (.seq (.cls [(68, 68), (100, 100)] [.push]) (.cls [(69, 69), (101, 101)] [.push])))))) :: (.act .setOnDelete) :: t18,
  (.seq (.cls [(69, 69), (101, 101)] [.push]) (.cls [(84, 84), (116, 116)] [.push])) :: (.seq wsP (.seq (.cls [(78, 78), (110, 110)] [.push]) (.seq (.cls [(85, 85), (117, 117)] [.push]) (.seq (.cls [(76, 76), (108, 108)] [.push]) (.cls [(76, 76), (108, 108)] [.push]))))) :: (.act .setOnDelete) :: t18,
  (.seq (.cls [(69, 69), (101, 101)] [.push]) (.cls [(84, 84), (116, 116)] [.push])) :: (.seq wsP (.seq (.cls [(68, 68), (100, 100)] [.push]) (.seq (.cls [(69, 69), (101, 101)] [.push]) (.seq (.cls [(70, 70), (102, 102)] [.push]) (.seq (.cls [(65, 65), (97, 97)] [.push]) (.seq (.cls [(85, 85), (117, 117)] [.push]) (.seq (.cls [(76, 76), (108, 108)] [.push]) (.cls [(84, 84), (116, 116)] [.push])))))))) :: (.act .setOnDelete) :: t18,
  (.cls [(79, 79), (111, 111)] [.push]) :: (.seq wsP (.seq (.cls [(65, 65), (97, 97)] [.push]) (.seq (.cls [(67, 67), (99, 99)] [.push]) (.seq (.cls [(84, 84), (116, 116)] [.push]) (.seq (.cls [(73, 73), (105, 105)] [.push]) (.seq (.cls [(79, 79), (111, 111)] [.push]) (.cls [(78, 78), (110, 110)] [.push]))))))) :: (.act .setOnUpdate) :: t19,
  (.seq (.cls [(69, 69), (101, 101)] [.push]) (.seq (.cls [(83, 83), (115, 115)] [.push]) (.seq (.cls [(84, 84), (116, 116)] [.push]) (.seq (.cls [(82, 82), (114, 114)] [.push]) (.seq (.cls [(73, 73), (105, 105)] [.push]) (.seq (.cls [(67, 67), (99, 99)] [.push]) (.cls [(84, 84), (116, 116)] [.push]))))))) :: (.act .setOnUpdate) :: t19,
  (.seq (.cls [(65, 65), (97, 97)] [.push]) (.seq (.cls [(83, 83), (115, 115)] [.push]) (.seq (.cls [(67, 67), (99, 99)] [.push]) (.seq (.cls [(65, 65), (97, 97)] [.push]) (.seq (.cls [(68, 68), (100, 100)] [.push]) (.cls [(69, 69), (101, 101)] [.push])))))) :: (.act .setOnUpdate) :: t19,
  (.seq (.cls [(69, 69), (101, 101)] [.push]) (.cls [(84, 84), (116, 116)] [.push])) :: (.seq wsP (.seq (.cls [(78, 78), (110, 110)] [.push]) (.seq (.cls [(85, 85), (117, 117)] [.push]) (.seq (.cls [(76, 76), (108, 108)] [.push]) (.cls [(76, 76), (108, 108)] [.push]))))) :: (.act .setOnUpdate) :: t19,
  (.seq (.cls [(69, 69), (101, 101)] [.push]) (.cls [(84, 84), (116, 116)] [.push])) :: (.seq wsP (.seq (.cls [(68, 68), (100, 100)] [.push]) (.seq (.cls [(69, 69), (101, 101)] [.push]) (.seq (.cls [(70, 70), (102, 102)] [.push]) (.seq (.cls [(65, 65), (97, 97)] [.push]) (.seq (.cls [(85, 85), (117, 117)] [.push]) (.seq (.cls [(76, 76), (108, 108)] [.push]) (.cls [(84, 84), (116, 116)] [.push])))))))) :: (.act .setOnUpdate) :: t19,
  (.seq (.cls [(66, 66), (98, 98)] []) (.seq (.cls [(76, 76), (108, 108)] []) (.cls [(69, 69), (101, 101)] []))) :: sp :: [],
  (.seq (.star spF) (.alt (.seq initially sp) .eps)) :: [],
  (.seq (.cls [(77, 77), (109, 109)] []) (.seq (.cls [(77, 77), (109, 109)] []) (.seq (.cls [(69, 69), (101, 101)] []) (.seq (.cls [(68, 68), (100, 100)] []) (.seq (.cls [(73, 73), (105, 105)] []) (.seq (.cls [(65, 65), (97, 97)] []) (.seq (.cls [(84, 84), (116, 116)] []) (.cls [(69, 69), (101, 101)] [])))))))) :: sp :: [],
  (.seq (.cls [(69, 69), (101, 101)] []) (.seq (.cls [(70, 70), (102, 102)] []) (.seq (.cls [(69, 69), (101, 101)] []) (.seq (.cls [(82, 82), (114, 114)] []) (.seq (.cls [(82, 82), (114, 114)] []) (.seq (.cls [(69, 69), (101, 101)] []) (.cls [(68, 68), (100, 100)] [.act .matchInitiallyDeferred]))))))) :: sp :: [],
  (.seq wsP (.seq (.cls [(65, 65), (97, 97)] [.push]) (.seq (.cls [(67, 67), (99, 99)] [.push]) (.seq (.cls [(84, 84), (116, 116)] [.push]) (.seq (.cls [(73, 73), (105, 105)] [.push]) (.seq (.cls [(79, 79), (111, 111)] [.push]) (.cls [(78, 78), (110, 110)] [.push]))))))) :: (.act .setOnDelete) :: t18,
  (.seq (.cls [(83, 83), (115, 115)] [.push]) (.seq (.cls [(84, 84), (116, 116)] [.push]) (.seq (.cls [(82, 82), (114, 114)] [.push]) (.seq (.cls [(73, 73), (105, 105)] [.push]) (.seq (.cls [(67, 67), (99, 99)] [.push]) (.cls [(84, 84), (116, 116)] [.push])))))) :: (.act .setOnDelete) :: t18,
  (.seq (.cls [(83, 83), (115, 115)] [.push]) (.seq (.cls [(67, 67), (99, 99)] [.push]) (.seq (.cls [(65, 65), (97, 97)] [.push]) (.seq (.cls [(68, 68), (100, 100)] [.push]) (.cls [(69, 69), (101, 101)] [.push]))))) :: (.act .setOnDelete) :: t18,
  (.cls [(84, 84), (116, 116)] [.push]) :: (.seq wsP (.seq (.cls [(78, 78), (110, 110)] [.push]) (.seq (.cls [(85, 85), (117, 117)] [.push]) (.seq (.cls [(76, 76), (108, 108)] [.push]) (.cls [(76, 76), (108, 108)] [.push]))))) :: (.act .setOnDelete) :: t18,
  (.cls [(84, 84), (116, 116)] [.push]) :: (.seq wsP (.seq (.cls [(68, 68), (100, 100)] [.push]) (.seq (.cls [(69, 69), (101, 101)] [.push]) (.seq (.cls [(70, 70), (102, 102)] [.push]) (.seq (.cls [(65, 65), (97, 97)] [.push]) (.seq (.cls [(85, 85), (117, 117)] [.push]) (.seq (.cls [(76, 76), (108, 108)] [.push]) (.cls [(84, 84), (116, 116)] [.push])))))))) :: (.act .setOnDelete) :: t18,
  (.seq wsP (.seq (.cls [(65, 65), (97, 97)] [.push]) (.seq (.cls [(67, 67), (99, 99)] [.push]) (.seq (.cls [(84, 84), (116, 116)] [.push]) (.seq (.cls [(73, 73), (105, 105)] [.push]) (.seq (.cls [(79, 79), (111, 111)] [.push]) (.cls [(78, 78), (110, 110)] [.push]))))))) :: (.act .setOnUpdate) :: t19,
  (.seq (.cls [(83, 83), (115, 115)] [.push]) (.seq (.cls [(84, 84), (116, 116)] [.push]) (.seq (.cls [(82, 82), (114, 114)] [.push]) (.seq (.cls [(73, 73), (105, 105)] [.push]) (.seq (.cls [(67, 67), (99, 99)] [.push]) (.cls [(84, 84), (116, 116)] [.push])))))) :: (.act .setOnUpdate) :: t19,
  (.seq (.cls [(83, 83), (115, 115)] [.push]) (.seq (.cls [(67, 67), (99, 99)] [.push]) (.seq (.cls [(65, 65), (97, 97)] [.push]) (.seq (.cls [(68, 68), (100, 100)] [.push]) (.cls [(69, 69), (101, 101)] [.push]))))) :: (.act .setOnUpdate) :: t19,
  (.cls [(84, 84), (116, 116)] [.push]) :: (.seq wsP (.seq (.cls [(78, 78), (110, 110)] [.push]) (.seq (.cls [(85, 85), (117, 117)] [.push]) (.seq (.cls [(76, 76), (108, 108)] [.push]) (.cls [(76, 76), (108, 108)] [.push]))))) :: (.act .setOnUpdate) :: t19,
  (.cls [(84, 84), (116, 116)] [.push]) :: (.seq wsP (.seq (.cls [(68, 68), (100, 100)] [.push]) (.seq (.cls [(69, 69), (101, 101)] [.push]) (.seq (.cls [(70, 70), (102, 102)] [.push]) (.seq (.cls [(65, 65), (97, 97)] [.push]) (.seq (.cls [(85, 85), (117, 117)] [.push]) (.seq (.cls [(76, 76), (108, 108)] [.push]) (.cls [(84, 84), (116, 116)] [.push])))))))) :: (.act .setOnUpdate) :: t19,
  (.seq (.cls [(76, 76), (108, 108)] []) (.cls [(69, 69), (101, 101)] [])) :: sp :: [],
  (.star spF) :: (.alt (.seq initially sp) .eps) :: [],
  (.seq (.cls [(77, 77), (109, 109)] []) (.seq (.cls [(69, 69), (101, 101)] []) (.seq (.cls [(68, 68), (100, 100)] []) (.seq (.cls [(73, 73), (105, 105)] []) (.seq (.cls [(65, 65), (97, 97)] []) (.seq (.cls [(84, 84), (116, 116)] []) (.cls [(69, 69), (101, 101)] []))))))) :: sp :: [],
  (.seq (.cls [(70, 70), (102, 102)] []) (.seq (.cls [(69, 69), (101, 101)] []) (.seq (.cls [(82, 82), (114, 114)] []) (.seq (.cls [(82, 82), (114, 114)] []) (.seq (.cls [(69, 69), (101, 101)] []) (.cls [(68, 68), (100, 100)] [.act .matchInitiallyDeferred])))))) :: sp :: [],
  spP :: (.seq (.cls [(65, 65), (97, 97)] [.push]) (.seq (.cls [(67, 67), (99, 99)] [.push]) (.seq (.cls [(84, 84), (116, 116)] [.push]) (.seq (.cls [(73, 73), (105, 105)] [.push]) (.seq (.cls [(79, 79), (111, 111)] [.push]) (.cls [(78, 78), (110, 110)] [.push])))))) :: (.act .setOnDelete) :: t18,
  (.seq (.cls [(84, 84), (116, 116)] [.push]) (.seq (.cls [(82, 82), (114, 114)] [.push]) (.seq (.cls [(73, 73), (105, 105)] [.push]) (.seq (.cls [(67, 67), (99, 99)] [.push]) (.cls [(84, 84), (116, 116)] [.push]))))) :: (.act .setOnDelete) :: t18,
  (.seq (.cls [(67, 67), (99, 99)] [.push]) (.seq (.cls [(65, 65), (97, 97)] [.push]) (.seq (.cls [(68, 68), (100, 100)] [.push]) (.cls [(69, 69), (101, 101)] [.push])))) :: (.act .setOnDelete) :: t18,
  (.seq wsP (.seq (.cls [(78, 78), (110, 110)] [.push]) (.seq (.cls [(85, 85), (117, 117)] [.push]) (.seq (.cls [(76, 76), (108, 108)] [.push]) (.cls [(76, 76), (108, 108)] [.push]))))) :: (.act .setOnDelete) :: t18,
  (.seq wsP (.seq (.cls [(68, 68), (100, 100)] [.push]) (.seq (.cls [(69, 69), (101, 101)] [.push]) (.seq (.cls [(70, 70), (102, 102)] [.push]) (.seq (.cls [(65, 65), (97, 97)] [.push]) (.seq (.cls [(85, 85), (117, 117)] [.push]) (.seq (.cls [(76, 76), (108, 108)] [.push]) (.cls [(84, 84), (116, 116)] [.push])))))))) :: (.act .setOnDelete) :: t18,
  spP :: (.seq (.cls [(65, 65), (97, 97)] [.push]) (.seq (.cls [(67, 67), (99, 99)] [.push]) (.seq (.cls [(84, 84), (116, 116)] [.push]) (.seq (.cls [(73, 73), (105, 105)] [.push]) (.seq (.cls [(79, 79), (111, 111)] [.push]) (.cls [(78, 78), (110, 110)] [.push])))))) :: (.act .setOnUpdate) :: t19,
  (.seq (.cls [(84, 84), (116, 116)] [.push]) (.seq (.cls [(82, 82), (114, 114)] [.push]) (.seq (.cls [(73, 73), (105, 105)] [.push]) (.seq (.cls [(67, 67), (99, 99)] [.push]) (.cls [(84, 84), (116, 116)] [.push]))))) :: (.act .setOnUpdate) :: t19,
  (.seq (.cls [(67, 67), (99, 99)] [.push]) (.seq (.cls [(65, 65), (97, 97)] [.push]) (.seq (.cls [(68, 68), (100, 100)] [.push]) (.cls [(69, 69), (101, 101)] [.push])))) :: (.act .setOnUpdate) :: t19,
  (.seq wsP (.seq (.cls [(78, 78), (110, 110)] [.push]) (.seq (.cls [(85, 85), (117, 117)] [.push]) (.seq (.cls [(76, 76), (108, 108)] [.push]) (.cls [(76, 76), (108, 108)] [.push]))))) :: (.act .setOnUpdate) :: t19,
  (.seq wsP (.seq (.cls [(68, 68), (100, 100)] [.push]) (.seq (.cls [(69, 69), (101, 101)] [.push]) (.seq (.cls [(70, 70), (102, 102)] [.push]) (.seq (.cls [(65, 65), (97, 97)] [.push]) (.seq (.cls [(85, 85), (117, 117)] [.push]) (.seq (.cls [(76, 76), (108, 108)] [.push]) (.cls [(84, 84), (116, 116)] [.push])))))))) :: (.act .setOnUpdate) :: t19,
  (.cls [(69, 69), (101, 101)] []) :: sp :: [],
  (.seq (.cls [(69, 69), (101, 101)] []) (.seq (.cls [(68, 68), (100, 100)] []) (.seq (.cls [(73, 73), (105, 105)] []) (.seq (.cls [(65, 65), (97, 97)] []) (.seq (.cls [(84, 84), (116, 116)] []) (.cls [(69, 69), (101, 101)] [])))))) :: sp :: [],
  (.seq (.cls [(69, 69), (101, 101)] []) (.seq (.cls [(82, 82), (114, 114)] []) (.seq (.cls [(82, 82), (114, 114)] []) (.seq (.cls [(69, 69), (101, 101)] []) (.cls [(68, 68), (100, 100)] [.act .matchInitiallyDeferred]))))) :: sp :: [],
  (.seq (.cls [(67, 67), (99, 99)] [.push]) (.seq (.cls [(84, 84), (116, 116)] [.push]) (.seq (.cls [(73, 73), (105, 105)] [.push]) (.seq (.cls [(79, 79), (111, 111)] [.push]) (.cls [(78, 78), (110, 110)] [.push]))))) :: (.act .setOnDelete) :: t18,
  (.seq (.cls [(82, 82), (114, 114)] [.push]) (.seq (.cls [(73, 73), (105, 105)] [.push]) (.seq (.cls [(67, 67), (99, 99)] [.push]) (.cls [(84, 84), (116, 116)] [.push])))) :: (.act .setOnDelete) :: t18,
  (.seq (.cls [(65, 65), (97, 97)] [.push]) (.seq (.cls [(68, 68), (100, 100)] [.push]) (.cls [(69, 69), (101, 101)] [.push]))) :: (.act .setOnDelete) :: t18,
  spP :: (.seq (.cls [(78, 78), (110, 110)] [.push]) (.seq (.cls [(85, 85), (117, 117)] [.push]) (.seq (.cls [(76, 76), (108, 108)] [.push]) (.cls [(76, 76), (108, 108)] [.push])))) :: (.act .setOnDelete) :: t18,
  spP :: (.seq (.cls [(68, 68), (100, 100)] [.push]) (.seq (.cls [(69, 69), (101, 101)] [.push]) (.seq (.cls [(70, 70), (102, 102)] [.push]) (.seq (.cls [(65, 65), (97, 97)] [.push]) (.seq (.cls [(85, 85), (117, 117)] [.push]) (.seq (.cls [(76, 76), (108, 108)] [.push]) (.cls [(84, 84), (116, 116)] [.push]))))))) :: (.act .setOnDelete) :: t18,
  (.seq (.cls [(67, 67), (99, 99)] [.push]) (.seq (.cls [(84, 84), (116, 116)] [.push]) (.seq (.cls [(73, 73), (105, 105)] [.push]) (.seq (.cls [(79, 79), (111, 111)] [.push]) (.cls [(78, 78), (110, 110)] [.push]))))) :: (.act .setOnUpdate) :: t19,
  (.seq (.cls [(82, 82), (114, 114)] [.push]) (.seq (.cls [(73, 73), (105, 105)] [.push]) (.seq (.cls [(67, 67), (99, 99)] [.push]) (.cls [(84, 84), (116, 116)] [.push])))) :: (.act .setOnUpdate) :: t19,
  (.seq (.cls [(65, 65), (97, 97)] [.push]) (.seq (.cls [(68, 68), (100, 100)] [.push]) (.cls [(69, 69), (101, 101)] [.push]))) :: (.act .setOnUpdate) :: t19,
  spP :: (.seq (.cls [(78, 78), (110, 110)] [.push]) (.seq (.cls [(85, 85), (117, 117)] [.push]) (.seq (.cls [(76, 76), (108, 108)] [.push]) (.cls [(76, 76), (108, 108)] [.push])))) :: (.act .setOnUpdate) :: t19,
  spP :: (.seq (.cls [(68, 68), (100, 100)] [.push]) (.seq (.cls [(69, 69), (101, 101)] [.push]) (.seq (.cls [(70, 70), (102, 102)] [.push]) (.seq (.cls [(65, 65), (97, 97)] [.push]) (.seq (.cls [(85, 85), (117, 117)] [.push]) (.seq (.cls [(76, 76), (108, 108)] [.push]) (.cls [(84, 84), (116, 116)] [.push]))))))) :: (.act .setOnUpdate) :: t19,
  (.seq (.cls [(68, 68), (100, 100)] []) (.seq (.cls [(73, 73), (105, 105)] []) (.seq (.cls [(65, 65), (97, 97)] []) (.seq (.cls [(84, 84), (116, 116)] []) (.cls [(69, 69), (101, 101)] []))))) :: sp :: [],
  (.seq (.cls [(82, 82), (114, 114)] []) (.seq (.cls [(82, 82), (114, 114)] []) (.seq (.cls [(69, 69), (101, 101)] []) (.cls [(68, 68), (100, 100)] [.act .matchInitiallyDeferred])))) :: sp :: [],
  (.seq (.cls [(84, 84), (116, 116)] [.push]) (.seq (.cls [(73, 73), (105, 105)] [.push]) (.seq (.cls [(79, 79), (111, 111)] [.push]) (.cls [(78, 78), (110, 110)] [.push])))) :: (.act .setOnDelete) :: t18,
  (.seq (.cls [(73, 73), (105, 105)] [.push]) (.seq (.cls [(67, 67), (99, 99)] [.push]) (.cls [(84, 84), (116, 116)] [.push]))) :: (.act .setOnDelete) :: t18,
  (.seq (.cls [(68, 68), (100, 100)] [.push]) (.cls [(69, 69), (101, 101)] [.push])) :: (.act .setOnDelete) :: t18,
  (.seq (.cls [(85, 85), (117, 117)] [.push]) (.seq (.cls [(76, 76), (108, 108)] [.push]) (.cls [(76, 76), (108, 108)] [.push]))) :: (.act .setOnDelete) :: t18,
  (.seq (.cls [(69, 69), (101, 101)] [.push]) (.seq (.cls [(70, 70), (102, 102)] [.push]) (.seq (.cls [(65, 65), (97, 97)] [.push]) (.seq (.cls [(85, 85), (117, 117)] [.push]) (.seq (.cls [(76, 76), (108, 108)] [.push]) (.cls [(84, 84), (116, 116)] [.push])))))) :: (.act .setOnDelete) :: t18,
  (.seq (.cls [(84, 84), (116, 116)] [.push]) (.seq (.cls [(73, 73), (105, 105)] [.push]) (.seq (.cls [(79, 79), (111, 111)] [.push]) (.cls [(78, 78), (110, 110)] [.push])))) :: (.act .setOnUpdate) :: t19,
  (.seq (.cls [(73, 73), (105, 105)] [.push]) (.seq (.cls [(67, 67), (99, 99)] [.push]) (.cls [(84, 84), (116, 116)] [.push]))) :: (.act .setOnUpdate) :: t19,
  (.seq (.cls [(68, 68), (100, 100)] [.push]) (.cls [(69, 69), (101, 101)] [.push])) :: (.act .setOnUpdate) :: t19,
  (.seq (.cls [(85, 85), (117, 117)] [.push]) (.seq (.cls [(76, 76), (108, 108)] [.push]) (.cls [(76, 76), (108, 108)] [.push]))) :: (.act .setOnUpdate) :: t19,
  (.seq (.cls [(69, 69), (101, 101)] [.push]) (.seq (.cls [(70, 70), (102, 102)] [.push]) (.seq (.cls [(65, 65), (97, 97)] [.push]) (.seq (.cls [(85, 85), (117, 117)] [.push]) (.seq (.cls [(76, 76), (108, 108)] [.push]) (.cls [(84, 84), (116, 116)] [.push])))))) :: (.act .setOnUpdate) :: t19,
  (.seq (.cls [(73, 73), (105, 105)] []) (.seq (.cls [(65, 65), (97, 97)] []) (.seq (.cls [(84, 84), (116, 116)] []) (.cls [(69, 69), (101, 101)] [])))) :: sp :: [],
  (.seq (.cls [(82, 82), (114, 114)] []) (.seq (.cls [(69, 69), (101, 101)] []) (.cls [(68, 68), (100, 100)] [.act .matchInitiallyDeferred]))) :: sp :: [],
  (.seq (.cls [(73, 73), (105, 105)] [.push]) (.seq (.cls [(79, 79), (111, 111)] [.push]) (.cls [(78, 78), (110, 110)] [.push]))) :: (.act .setOnDelete) :: t18,
  (.seq (.cls [(67, 67), (99, 99)] [.push]) (.cls [(84, 84), (116, 116)] [.push])) :: (.act .setOnDelete) :: t18,
  (.cls [(69, 69), (101, 101)] [.push]) :: (.act .setOnDelete) :: t18,
  (.seq (.cls [(76, 76), (108, 108)] [.push]) (.cls [(76, 76), (108, 108)] [.push])) :: (.act .setOnDelete) :: t18,
  (.seq (.cls [(70, 70), (102, 102)] [.push]) (.seq (.cls [(65, 65), (97, 97)] [.push]) (.seq (.cls [(85, 85), (117, 117)] [.push]) (.seq (.cls [(76, 76), (108, 108)] [.push]) (.cls [(84, 84), (116, 116)] [.push]))))) :: (.act .setOnDelete) :: t18,
  (.seq (.cls [(73, 73), (105, 105)] [.push]) (.seq (.cls [(79, 79), (111, 111)] [.push]) (.cls [(78, 78), (110, 110)] [.push]))) :: (.act .setOnUpdate) :: t19,
  (.seq (.cls [(67, 67), (99, 99)] [.push]) (.cls [(84, 84), (116, 116)] [.push])) :: (.act .setOnUpdate) :: t19,
  (.cls [(69, 69), (101, 101)] [.push]) :: (.act .setOnUpdate) :: t19,
  (.seq (.cls [(76, 76), (108, 108)] [.push]) (.cls [(76, 76), (108, 108)] [.push])) :: (.act .setOnUpdate) :: t19,
  (.seq (.cls [(70, 70), (102, 102)] [.push]) (.seq (.cls [(65, 65), (97, 97)] [.push]) (.seq (.cls [(85, 85), (117, 117)] [.push]) (.seq (.cls [(76, 76), (108, 108)] [.push]) (.cls [(84, 84), (116, 116)] [.push]))))) :: (.act .setOnUpdate) :: t19,
  (.seq (.cls [(65, 65), (97, 97)] []) (.seq (.cls [(84, 84), (116, 116)] []) (.cls [(69, 69), (101, 101)] []))) :: sp :: [],
  (.seq (.cls [(69, 69), (101, 101)] []) (.cls [(68, 68), (100, 100)] [.act .matchInitiallyDeferred])) :: sp :: [],
  (.seq (.cls [(79, 79), (111, 111)] [.push]) (.cls [(78, 78), (110, 110)] [.push])) :: (.act .setOnDelete) :: t18,
  (.cls [(84, 84), (116, 116)] [.push]) :: (.act .setOnDelete) :: t18,
  (.act .setOnDelete) :: t18,
  (.cls [(76, 76), (108, 108)] [.push]) :: (.act .setOnDelete) :: t18,
  (.seq (.cls [(65, 65), (97, 97)] [.push]) (.seq (.cls [(85, 85), (117, 117)] [.push]) (.seq (.cls [(76, 76), (108, 108)] [.push]) (.cls [(84, 84), (116, 116)] [.push])))) :: (.act .setOnDelete) :: t18,
  (.seq (.cls [(79, 79), (111, 111)] [.push]) (.cls [(78, 78), (110, 110)] [.push])) :: (.act .setOnUpdate) :: t19,
  (.cls [(84, 84), (116, 116)] [.push]) :: (.act .setOnUpdate) :: t19,
  (.act .setOnUpdate) :: t19,
  (.cls [(76, 76), (108, 108)] [.push]) :: (.act .setOnUpdate) :: t19,
  (.seq (.cls [(65, 65), (97, 97)] [.push]) (.seq (.cls [(85, 85), (117, 117)] [.push]) (.seq (.cls [(76, 76), (108, 108)] [.push]) (.cls [(84, 84), (116, 116)] [.push])))) :: (.act .setOnUpdate) :: t19,
  (.seq (.cls [(84, 84), (116, 116)] []) (.cls [(69, 69), (101, 101)] [])) :: sp :: [],
  (.cls [(68, 68), (100, 100)] [.act .matchInitiallyDeferred]) :: sp :: [],
  (.cls [(78, 78), (110, 110)] [.push]) :: (.act .setOnDelete) :: t18,
  (.seq (.cls [(85, 85), (117, 117)] [.push]) (.seq (.cls [(76, 76), (108, 108)] [.push]) (.cls [(84, 84), (116, 116)] [.push]))) :: (.act .setOnDelete) :: t18,
  (.cls [(78, 78), (110, 110)] [.push]) :: (.act .setOnUpdate) :: t19,
  (.seq (.cls [(85, 85), (117, 117)] [.push]) (.seq (.cls [(76, 76), (108, 108)] [.push]) (.cls [(84, 84), (116, 116)] [.push]))) :: (.act .setOnUpdate) :: t19,
  (.seq (.cls [(76, 76), (108, 108)] [.push]) (.cls [(84, 84), (116, 116)] [.push])) :: (.act .setOnDelete) :: t18,
  (.seq (.cls [(76, 76), (108, 108)] [.push]) (.cls [(84, 84), (116, 116)] [.push])) :: (.act .setOnUpdate) :: t19]

/-- Their linear forms. -/
def lins : List (List (NLin FkAct)) := [
  [⟨[(9, 13), (32, 32)], [], 0⟩, ⟨[(70, 70), (102, 102)], [], 1⟩],
  [⟨[(79, 79), (111, 111)], [], 2⟩],
  [⟨[(82, 82), (114, 114)], [], 3⟩],
  [⟨[(69, 69), (101, 101)], [], 4⟩],
  [⟨[(73, 73), (105, 105)], [], 5⟩],
  [⟨[(71, 71), (103, 103)], [], 6⟩],
  [⟨[(78, 78), (110, 110)], [], 7⟩],
  [⟨[(9, 13), (32, 32)], [], 8⟩],
  [⟨[(9, 13), (32, 32)], [], 8⟩, ⟨[(75, 75), (107, 107)], [], 9⟩],
  [⟨[(69, 69), (101, 101)], [], 10⟩],
  [⟨[(89, 89), (121, 121)], [], 11⟩],
  [⟨[(9, 13), (32, 32)], [], 12⟩],
  [⟨[(9, 13), (32, 32)], [], 12⟩, ⟨[(40, 40)], [], 13⟩],
  [⟨[(9, 13), (32, 32)], [], 13⟩, ⟨[(65, 90), (97, 122)], [.push], 14⟩],
  [⟨[(48, 57), (65, 90), (95, 95), (97, 122)], [.push], 14⟩, ⟨[(9, 13), (32, 32)], [.act .addColumn], 15⟩, ⟨[(44, 44)], [.act .addColumn], 16⟩, ⟨[(9, 13), (32, 32)], [.act .addColumn], 17⟩, ⟨[(41, 41)], [.act .addColumn], 18⟩],
  [⟨[(9, 13), (32, 32)], [], 15⟩, ⟨[(44, 44)], [], 16⟩],
  [⟨[(9, 13), (32, 32)], [], 19⟩, ⟨[(65, 90), (97, 122)], [.push], 14⟩],
  [⟨[(9, 13), (32, 32)], [], 17⟩, ⟨[(41, 41)], [], 18⟩],
  [⟨[(9, 13), (32, 32)], [], 20⟩],
  [⟨[(9, 13), (32, 32)], [], 19⟩, ⟨[(65, 90), (97, 122)], [.push], 14⟩],
  [⟨[(9, 13), (32, 32)], [], 20⟩, ⟨[(82, 82), (114, 114)], [], 21⟩],
  [⟨[(69, 69), (101, 101)], [], 22⟩],
  [⟨[(70, 70), (102, 102)], [], 23⟩],
  [⟨[(69, 69), (101, 101)], [], 24⟩],
  [⟨[(82, 82), (114, 114)], [], 25⟩],
  [⟨[(69, 69), (101, 101)], [], 26⟩],
  [⟨[(78, 78), (110, 110)], [], 27⟩],
  [⟨[(67, 67), (99, 99)], [], 28⟩],
  [⟨[(69, 69), (101, 101)], [], 29⟩],
  [⟨[(83, 83), (115, 115)], [], 30⟩],
  [⟨[(9, 13), (32, 32)], [], 31⟩],
  [⟨[(9, 13), (32, 32)], [], 31⟩, ⟨[(65, 90), (97, 122)], [.push], 32⟩],
  [⟨[(48, 57), (65, 90), (95, 95), (97, 122)], [.push], 32⟩, ⟨[(40, 40)], [.act .setTable], 33⟩],
  [⟨[(9, 13), (32, 32)], [], 33⟩, ⟨[(65, 90), (97, 122)], [.push], 34⟩],
  [⟨[(48, 57), (65, 90), (95, 95), (97, 122)], [.push], 34⟩, ⟨[(9, 13), (32, 32)], [.act .addReferenced], 35⟩, ⟨[(44, 44)], [.act .addReferenced], 36⟩, ⟨[(9, 13), (32, 32)], [.act .addReferenced], 37⟩, ⟨[(41, 41)], [.act .addReferenced], 38⟩],
  [⟨[(9, 13), (32, 32)], [], 35⟩, ⟨[(44, 44)], [], 36⟩],
  [⟨[(9, 13), (32, 32)], [], 39⟩, ⟨[(65, 90), (97, 122)], [.push], 34⟩],
  [⟨[(9, 13), (32, 32)], [], 37⟩, ⟨[(41, 41)], [], 38⟩],
  [⟨[(9, 13), (32, 32)], [], 40⟩, ⟨[(9, 13), (32, 32)], [], 41⟩, ⟨[(9, 13), (32, 32)], [], 42⟩, ⟨[(9, 13), (32, 32)], [], 43⟩, ⟨[(9, 13), (32, 32)], [], 44⟩, ⟨[(9, 13), (32, 32)], [], 45⟩, ⟨[(9, 13), (32, 32)], [], 46⟩],
  [⟨[(9, 13), (32, 32)], [], 39⟩, ⟨[(65, 90), (97, 122)], [.push], 34⟩],
  [⟨[(9, 13), (32, 32)], [], 40⟩, ⟨[(77, 77), (109, 109)], [], 47⟩],
  [⟨[(9, 13), (32, 32)], [], 41⟩, ⟨[(79, 79), (111, 111)], [], 48⟩],
  [⟨[(9, 13), (32, 32)], [], 42⟩, ⟨[(79, 79), (111, 111)], [], 49⟩],
  [⟨[(9, 13), (32, 32)], [], 43⟩],
  [⟨[(9, 13), (32, 32)], [], 44⟩, ⟨[(78, 78), (110, 110)], [], 50⟩],
  [⟨[(9, 13), (32, 32)], [], 45⟩, ⟨[(68, 68), (100, 100)], [], 51⟩],
  [⟨[(9, 13), (32, 32)], [], 46⟩, ⟨[(73, 73), (105, 105)], [], 52⟩],
  [⟨[(65, 65), (97, 97)], [], 53⟩],
  [⟨[(78, 78), (110, 110)], [], 54⟩],
  [⟨[(78, 78), (110, 110)], [], 55⟩],
  [⟨[(79, 79), (111, 111)], [], 56⟩],
  [⟨[(69, 69), (101, 101)], [], 57⟩],
  [⟨[(78, 78), (110, 110)], [], 58⟩],
  [⟨[(84, 84), (116, 116)], [], 59⟩],
  [⟨[(9, 13), (32, 32)], [], 60⟩],
  [⟨[(9, 13), (32, 32)], [], 61⟩],
  [⟨[(84, 84), (116, 116)], [], 62⟩],
  [⟨[(70, 70), (102, 102)], [], 63⟩],
  [⟨[(73, 73), (105, 105)], [], 64⟩],
  [⟨[(67, 67), (99, 99)], [], 65⟩],
  [⟨[(9, 13), (32, 32)], [], 60⟩, ⟨[(68, 68), (100, 100)], [], 66⟩],
  [⟨[(9, 13), (32, 32)], [], 61⟩, ⟨[(85, 85), (117, 117)], [], 67⟩],
  [⟨[(9, 13), (32, 32)], [], 68⟩],
  [⟨[(69, 69), (101, 101)], [], 69⟩],
  [⟨[(84, 84), (116, 116)], [], 70⟩],
  [⟨[(72, 72), (104, 104)], [], 71⟩],
  [⟨[(69, 69), (101, 101)], [], 72⟩],
  [⟨[(80, 80), (112, 112)], [], 73⟩],
  [⟨[(9, 13), (32, 32)], [], 68⟩, ⟨[(68, 68), (100, 100)], [], 74⟩],
  [⟨[(82, 82), (114, 114)], [], 75⟩],
  [⟨[(73, 73), (105, 105)], [], 76⟩],
  [⟨[(9, 13), (32, 32)], [], 77⟩],
  [⟨[(76, 76), (108, 108)], [], 78⟩],
  [⟨[(68, 68), (100, 100)], [], 79⟩],
  [⟨[(69, 69), (101, 101)], [], 80⟩],
  [⟨[(82, 82), (114, 114)], [], 81⟩],
  [⟨[(65, 65), (97, 97)], [], 82⟩],
  [⟨[(9, 13), (32, 32)], [], 77⟩, ⟨[(70, 70), (102, 102)], [.push], 83⟩, ⟨[(80, 80), (112, 112)], [.push], 84⟩, ⟨[(83, 83), (115, 115)], [.push], 85⟩],
  [⟨[(69, 69), (101, 101)], [], 86⟩],
  [⟨[(65, 65), (97, 97)], [], 87⟩],
  [⟨[(70, 70), (102, 102)], [], 88⟩],
  [⟨[(65, 65), (97, 97)], [], 89⟩],
  [⟨[(76, 76), (108, 108)], [], 90⟩],
  [⟨[(85, 85), (117, 117)], [.push], 91⟩],
  [⟨[(65, 65), (97, 97)], [.push], 92⟩],
  [⟨[(73, 73), (105, 105)], [.push], 93⟩],
  [⟨[(84, 84), (116, 116)], [], 94⟩],
  [⟨[(84, 84), (116, 116)], [], 95⟩],
  [⟨[(69, 69), (101, 101)], [], 96⟩],
  [⟨[(66, 66), (98, 98)], [], 97⟩],
  [⟨[(76, 76), (108, 108)], [], 98⟩],
  [⟨[(76, 76), (108, 108)], [.push], 99⟩],
  [⟨[(82, 82), (114, 114)], [.push], 100⟩],
  [⟨[(77, 77), (109, 109)], [.push], 101⟩],
  [⟨[(69, 69), (101, 101)], [], 102⟩],
  [⟨[(69, 69), (101, 101)], [], 103⟩],
  [⟨[(82, 82), (114, 114)], [], 104⟩],
  [⟨[(76, 76), (108, 108)], [], 105⟩],
  [⟨[(89, 89), (121, 121)], [], 106⟩],
  [⟨[(76, 76), (108, 108)], [.push], 107⟩],
  [⟨[(84, 84), (116, 116)], [.push], 108⟩],
  [⟨[(80, 80), (112, 112)], [.push], 109⟩],
  [⟨[(9, 13), (32, 32)], [], 110⟩],
  [⟨[(9, 13), (32, 32)], [], 111⟩],
  [⟨[(82, 82), (114, 114)], [], 112⟩],
  [⟨[(69, 69), (101, 101)], [], 113⟩],
  [⟨[(9, 13), (32, 32)], [], 114⟩],
  [⟨[(9, 13), (32, 32)], [.act .setMatch], 41⟩, ⟨[(9, 13), (32, 32)], [.act .setMatch], 42⟩, ⟨[(9, 13), (32, 32)], [.act .setMatch], 43⟩, ⟨[(9, 13), (32, 32)], [.act .setMatch], 44⟩, ⟨[(9, 13), (32, 32)], [.act .setMatch], 45⟩, ⟨[(9, 13), (32, 32)], [.act .setMatch], 46⟩],
  [⟨[(73, 73), (105, 105)], [.push], 115⟩],
  [⟨[(76, 76), (108, 108)], [.push], 116⟩],
  [⟨[(9, 13), (32, 32)], [], 110⟩, ⟨[(78, 78), (110, 110)], [.push], 117⟩, ⟨[(82, 82), (114, 114)], [.push], 118⟩, ⟨[(67, 67), (99, 99)], [.push], 119⟩, ⟨[(83, 83), (115, 115)], [.push], 120⟩, ⟨[(83, 83), (115, 115)], [.push], 121⟩],
  [⟨[(9, 13), (32, 32)], [], 111⟩, ⟨[(78, 78), (110, 110)], [.push], 122⟩, ⟨[(82, 82), (114, 114)], [.push], 123⟩, ⟨[(67, 67), (99, 99)], [.push], 124⟩, ⟨[(83, 83), (115, 115)], [.push], 125⟩, ⟨[(83, 83), (115, 115)], [.push], 126⟩],
  [⟨[(65, 65), (97, 97)], [], 127⟩],
  [⟨[(9, 13), (32, 32)], [.act .matchDeferrable], 128⟩],
  [⟨[(9, 13), (32, 32)], [], 114⟩, ⟨[(73, 73), (105, 105)], [], 129⟩, ⟨[(68, 68), (100, 100)], [], 130⟩],
  [⟨[(65, 65), (97, 97)], [.push], 99⟩],
  [⟨[(69, 69), (101, 101)], [.push], 107⟩],
  [⟨[(79, 79), (111, 111)], [.push], 131⟩],
  [⟨[(69, 69), (101, 101)], [.push], 132⟩],
  [⟨[(65, 65), (97, 97)], [.push], 133⟩],
  [⟨[(69, 69), (101, 101)], [.push], 134⟩],
  [⟨[(69, 69), (101, 101)], [.push], 135⟩],
  [⟨[(79, 79), (111, 111)], [.push], 136⟩],
  [⟨[(69, 69), (101, 101)], [.push], 137⟩],
  [⟨[(65, 65), (97, 97)], [.push], 138⟩],
  [⟨[(69, 69), (101, 101)], [.push], 139⟩],
  [⟨[(69, 69), (101, 101)], [.push], 140⟩],
  [⟨[(66, 66), (98, 98)], [], 141⟩],
  [⟨[(9, 13), (32, 32)], [.act .matchDeferrable], 142⟩, ⟨[(73, 73), (105, 105)], [], 52⟩],
  [⟨[(77, 77), (109, 109)], [], 143⟩],
  [⟨[(69, 69), (101, 101)], [], 144⟩],
  [⟨[(9, 13), (32, 32)], [.push], 145⟩],
  [⟨[(83, 83), (115, 115)], [.push], 146⟩],
  [⟨[(83, 83), (115, 115)], [.push], 147⟩],
  [⟨[(84, 84), (116, 116)], [.push], 148⟩],
  [⟨[(84, 84), (116, 116)], [.push], 149⟩],
  [⟨[(9, 13), (32, 32)], [.push], 150⟩],
  [⟨[(83, 83), (115, 115)], [.push], 151⟩],
  [⟨[(83, 83), (115, 115)], [.push], 152⟩],
  [⟨[(84, 84), (116, 116)], [.push], 153⟩],
  [⟨[(84, 84), (116, 116)], [.push], 154⟩],
  [⟨[(76, 76), (108, 108)], [], 155⟩],
  [⟨[(9, 13), (32, 32)], [.act .matchDeferrable], 142⟩, ⟨[(73, 73), (105, 105)], [], 52⟩],
  [⟨[(77, 77), (109, 109)], [], 156⟩],
  [⟨[(70, 70), (102, 102)], [], 157⟩],
  [⟨[(9, 13), (32, 32)], [.push], 145⟩, ⟨[(65, 65), (97, 97)], [.push], 158⟩],
  [⟨[(84, 84), (116, 116)], [.push], 159⟩],
  [⟨[(67, 67), (99, 99)], [.push], 160⟩],
  [⟨[(9, 13), (32, 32)], [.push], 161⟩],
  [⟨[(9, 13), (32, 32)], [.push], 162⟩],
  [⟨[(9, 13), (32, 32)], [.push], 150⟩, ⟨[(65, 65), (97, 97)], [.push], 163⟩],
  [⟨[(84, 84), (116, 116)], [.push], 164⟩],
  [⟨[(67, 67), (99, 99)], [.push], 165⟩],
  [⟨[(9, 13), (32, 32)], [.push], 166⟩],
  [⟨[(9, 13), (32, 32)], [.push], 167⟩],
  [⟨[(69, 69), (101, 101)], [], 43⟩],
  [⟨[(69, 69), (101, 101)], [], 168⟩],
  [⟨[(69, 69), (101, 101)], [], 169⟩],
  [⟨[(67, 67), (99, 99)], [.push], 170⟩],
  [⟨[(82, 82), (114, 114)], [.push], 171⟩],
  [⟨[(65, 65), (97, 97)], [.push], 172⟩],
  [⟨[(9, 13), (32, 32)], [.push], 161⟩, ⟨[(78, 78), (110, 110)], [.push], 173⟩],
  [⟨[(9, 13), (32, 32)], [.push], 162⟩, ⟨[(68, 68), (100, 100)], [.push], 174⟩],
  [⟨[(67, 67), (99, 99)], [.push], 175⟩],
  [⟨[(82, 82), (114, 114)], [.push], 176⟩],
  [⟨[(65, 65), (97, 97)], [.push], 177⟩],
  [⟨[(9, 13), (32, 32)], [.push], 166⟩, ⟨[(78, 78), (110, 110)], [.push], 178⟩],
  [⟨[(9, 13), (32, 32)], [.push], 167⟩, ⟨[(68, 68), (100, 100)], [.push], 179⟩],
  [⟨[(68, 68), (100, 100)], [], 180⟩],
  [⟨[(82, 82), (114, 114)], [], 181⟩],
  [⟨[(84, 84), (116, 116)], [.push], 182⟩],
  [⟨[(73, 73), (105, 105)], [.push], 183⟩],
  [⟨[(68, 68), (100, 100)], [.push], 184⟩],
  [⟨[(85, 85), (117, 117)], [.push], 185⟩],
  [⟨[(69, 69), (101, 101)], [.push], 186⟩],
  [⟨[(84, 84), (116, 116)], [.push], 187⟩],
  [⟨[(73, 73), (105, 105)], [.push], 188⟩],
  [⟨[(68, 68), (100, 100)], [.push], 189⟩],
  [⟨[(85, 85), (117, 117)], [.push], 190⟩],
  [⟨[(69, 69), (101, 101)], [.push], 191⟩],
  [⟨[(73, 73), (105, 105)], [], 192⟩],
  [⟨[(82, 82), (114, 114)], [], 193⟩],
  [⟨[(73, 73), (105, 105)], [.push], 194⟩],
  [⟨[(67, 67), (99, 99)], [.push], 195⟩],
  [⟨[(69, 69), (101, 101)], [.push], 196⟩],
  [⟨[(76, 76), (108, 108)], [.push], 197⟩],
  [⟨[(70, 70), (102, 102)], [.push], 198⟩],
  [⟨[(73, 73), (105, 105)], [.push], 199⟩],
  [⟨[(67, 67), (99, 99)], [.push], 200⟩],
  [⟨[(69, 69), (101, 101)], [.push], 201⟩],
  [⟨[(76, 76), (108, 108)], [.push], 202⟩],
  [⟨[(70, 70), (102, 102)], [.push], 203⟩],
  [⟨[(65, 65), (97, 97)], [], 204⟩],
  [⟨[(69, 69), (101, 101)], [], 205⟩],
  [⟨[(79, 79), (111, 111)], [.push], 206⟩],
  [⟨[(84, 84), (116, 116)], [.push], 196⟩],
  [⟨[(9, 13), (32, 32)], [.act .setOnDelete], 42⟩, ⟨[(9, 13), (32, 32)], [.act .setOnDelete], 43⟩, ⟨[(9, 13), (32, 32)], [.act .setOnDelete], 44⟩, ⟨[(9, 13), (32, 32)], [.act .setOnDelete], 45⟩, ⟨[(9, 13), (32, 32)], [.act .setOnDelete], 46⟩],
  [⟨[(76, 76), (108, 108)], [.push], 196⟩],
  [⟨[(65, 65), (97, 97)], [.push], 207⟩],
  [⟨[(79, 79), (111, 111)], [.push], 208⟩],
  [⟨[(84, 84), (116, 116)], [.push], 201⟩],
  [⟨[(9, 13), (32, 32)], [.act .setOnUpdate], 43⟩, ⟨[(9, 13), (32, 32)], [.act .setOnUpdate], 44⟩, ⟨[(9, 13), (32, 32)], [.act .setOnUpdate], 45⟩, ⟨[(9, 13), (32, 32)], [.act .setOnUpdate], 46⟩],
  [⟨[(76, 76), (108, 108)], [.push], 201⟩],
  [⟨[(65, 65), (97, 97)], [.push], 209⟩],
  [⟨[(84, 84), (116, 116)], [], 155⟩],
  [⟨[(68, 68), (100, 100)], [.act .matchInitiallyDeferred], 43⟩],
  [⟨[(78, 78), (110, 110)], [.push], 196⟩],
  [⟨[(85, 85), (117, 117)], [.push], 210⟩],
  [⟨[(78, 78), (110, 110)], [.push], 201⟩],
  [⟨[(85, 85), (117, 117)], [.push], 211⟩],
  [⟨[(76, 76), (108, 108)], [.push], 195⟩],
  [⟨[(76, 76), (108, 108)], [.push], 200⟩]]

/-- The ways they match the empty string. -/
def nulls : List (List (List FkAct)) := [
  [],
  [],
  [],
  [],
  [],
  [],
  [],
  [],
  [],
  [],
  [],
  [],
  [],
  [],
  [],
  [],
  [],
  [],
  [],
  [],
  [],
  [],
  [],
  [],
  [],
  [],
  [],
  [],
  [],
  [],
  [],
  [],
  [],
  [],
  [],
  [],
  [],
  [],
  [[]],
  [],
  [],
  [],
  [],
  [[]],
  [],
  [],
  [],
  [],
  [],
  [],
  [],
  [],
  [],
  [],
  [],
  [],
  [],
  [],
  [],
  [],
  [],
  [],
  [],
  [],
  [],
  [],
  [],
  [],
  [],
  [],
  [],
  [],
  [],
  [],
  [],
  [],
  [],
  [],
  [],
  [],
  [],
  [],
  [],
  [],
  [],
  [],
  [],
  [],
  [],
  [],
  [],
  [],
  [],
  [],
  [],
  [],
  [],
  [],
  [],
  [],
  [],
  [],
  [],
  [],
  [],
  [],
  [],
  [[.setMatch]],
  [],
  [],
  [],
  [],
  [],
  [],
  [],
  [],
  [],
  [],
  [],
  [],
  [],
  [],
  [],
  [],
  [],
  [],
  [],
  [],
  [[]],
  [],
  [],
  [],
  [],
  [],
  [],
  [],
  [],
  [],
  [],
  [],
  [],
  [],
  [[]],
  [],
  [],
  [],
  [],
  [],
  [],
  [],
  [],
  [],
  [],
  [],
  [],
  [],
  [],
  [],
  [],
  [],
  [],
  [],
  [],
  [],
  [],
  [],
  [],
  [],
  [],
  [],
  [],
  [],
  [],
  [],
  [],
  [],
  [],
  [],
  [],
  [],
  [],
  [],
  [],
  [],
  [],
  [],
  [],
  [],
  [],
  [],
  [],
  [],
  [],
  [],
  [],
  [],
  [[.setOnDelete]],
  [],
  [],
  [],
  [],
  [[.setOnUpdate]],
  [],
  [],
  [],
  [],
  [],
  [],
  [],
  [],
  [],
  []]

/-- Machine states with the stacks that can remain there. -/
def entries : List Entry := [
  ⟨1, [0], [(9, 13, 0), (32, 32, 0), (70, 70, 1), (102, 102, 1)]⟩,
  ⟨2, [1], [(79, 79, 2), (111, 111, 2)]⟩,
  ⟨3, [2], [(82, 82, 3), (114, 114, 3)]⟩,
  ⟨4, [3], [(69, 69, 4), (101, 101, 4)]⟩,
  ⟨5, [4], [(73, 73, 5), (105, 105, 5)]⟩,
  ⟨6, [5], [(71, 71, 6), (103, 103, 6)]⟩,
  ⟨7, [6], [(78, 78, 7), (110, 110, 7)]⟩,
  ⟨8, [7], [(9, 13, 8), (32, 32, 8)]⟩,
  ⟨9, [8], [(9, 13, 8), (32, 32, 8), (75, 75, 9), (107, 107, 9)]⟩,
  ⟨10, [9], [(69, 69, 10), (101, 101, 10)]⟩,
  ⟨11, [10], [(89, 89, 11), (121, 121, 11)]⟩,
  ⟨12, [11], [(9, 13, 12), (32, 32, 12)]⟩,
  ⟨13, [12], [(9, 13, 12), (32, 32, 12), (40, 40, 13)]⟩,
  ⟨14, [13], [(9, 13, 13), (32, 32, 13), (65, 90, 14), (97, 122, 14)]⟩,
  ⟨15, [14], [(9, 13, 15), (32, 32, 15), (41, 41, 16), (44, 44, 17), (48, 57, 14), (65, 90, 14), (95, 95, 14), (97, 122, 14)]⟩,
  ⟨16, [15, 17], [(9, 13, 15), (32, 32, 15), (41, 41, 16), (44, 44, 17)]⟩,
  ⟨17, [18], [(9, 13, 18), (32, 32, 18)]⟩,
  ⟨14, [16], [(9, 13, 19), (32, 32, 19), (65, 90, 14), (97, 122, 14)]⟩,
  ⟨18, [20], [(9, 13, 18), (32, 32, 18), (82, 82, 20), (114, 114, 20)]⟩,
  ⟨14, [19], [(9, 13, 19), (32, 32, 19), (65, 90, 14), (97, 122, 14)]⟩,
  ⟨19, [21], [(69, 69, 21), (101, 101, 21)]⟩,
  ⟨20, [22], [(70, 70, 22), (102, 102, 22)]⟩,
  ⟨21, [23], [(69, 69, 23), (101, 101, 23)]⟩,
  ⟨22, [24], [(82, 82, 24), (114, 114, 24)]⟩,
  ⟨23, [25], [(69, 69, 25), (101, 101, 25)]⟩,
  ⟨24, [26], [(78, 78, 26), (110, 110, 26)]⟩,
  ⟨25, [27], [(67, 67, 27), (99, 99, 27)]⟩,
  ⟨26, [28], [(69, 69, 28), (101, 101, 28)]⟩,
  ⟨27, [29], [(83, 83, 29), (115, 115, 29)]⟩,
  ⟨28, [30], [(9, 13, 30), (32, 32, 30)]⟩,
  ⟨29, [31], [(9, 13, 30), (32, 32, 30), (65, 90, 31), (97, 122, 31)]⟩,
  ⟨30, [32], [(40, 40, 32), (48, 57, 31), (65, 90, 31), (95, 95, 31), (97, 122, 31)]⟩,
  ⟨31, [33], [(9, 13, 32), (32, 32, 32), (65, 90, 33), (97, 122, 33)]⟩,
  ⟨32, [34], [(9, 13, 34), (32, 32, 34), (41, 41, 35), (44, 44, 36), (48, 57, 33), (65, 90, 33), (95, 95, 33), (97, 122, 33)]⟩,
  ⟨33, [35, 37], [(9, 13, 34), (32, 32, 34), (41, 41, 35), (44, 44, 36)]⟩,
  ⟨186, [38], [(9, 13, 37), (32, 32, 37)]⟩,
  ⟨31, [36], [(9, 13, 38), (32, 32, 38), (65, 90, 33), (97, 122, 33)]⟩,
  ⟨187, [40, 41, 42, 43, 44, 45, 46], [(9, 13, 37), (32, 32, 37), (68, 68, 39), (73, 73, 40), (77, 77, 41), (78, 78, 42), (79, 79, 43), (100, 100, 39), (105, 105, 40), (109, 109, 41), (110, 110, 42), (111, 111, 43)]⟩,
  ⟨31, [39], [(9, 13, 38), (32, 32, 38), (65, 90, 33), (97, 122, 33)]⟩,
  ⟨34, [51], [(69, 69, 44), (101, 101, 44)]⟩,
  ⟨44, [52], [(78, 78, 45), (110, 110, 45)]⟩,
  ⟨69, [47], [(65, 65, 46), (97, 97, 46)]⟩,
  ⟨78, [50], [(79, 79, 47), (111, 111, 47)]⟩,
  ⟨90, [48, 49], [(78, 78, 48), (110, 110, 48)]⟩,
  ⟨35, [57], [(70, 70, 49), (102, 102, 49)]⟩,
  ⟨45, [58], [(73, 73, 50), (105, 105, 50)]⟩,
  ⟨70, [53], [(84, 84, 51), (116, 116, 51)]⟩,
  ⟨79, [56], [(84, 84, 52), (116, 116, 52)]⟩,
  ⟨91, [54, 55], [(9, 13, 53), (32, 32, 53)]⟩,
  ⟨36, [63], [(69, 69, 54), (101, 101, 54)]⟩,
  ⟨46, [64], [(84, 84, 55), (116, 116, 55)]⟩,
  ⟨71, [59], [(67, 67, 56), (99, 99, 56)]⟩,
  ⟨80, [62], [(9, 13, 57), (32, 32, 57)]⟩,
  ⟨92, [60, 61], [(9, 13, 53), (32, 32, 53), (68, 68, 58), (85, 85, 59), (100, 100, 58), (117, 117, 59)]⟩,
  ⟨37, [69], [(82, 82, 60), (114, 114, 60)]⟩,
  ⟨47, [70], [(73, 73, 61), (105, 105, 61)]⟩,
  ⟨72, [65], [(72, 72, 62), (104, 104, 62)]⟩,
  ⟨81, [68], [(9, 13, 57), (32, 32, 57), (68, 68, 63), (100, 100, 63)]⟩,
  ⟨93, [66], [(69, 69, 64), (101, 101, 64)]⟩,
  ⟨109, [67], [(80, 80, 65), (112, 112, 65)]⟩,
  ⟨38, [75], [(82, 82, 66), (114, 114, 66)]⟩,
  ⟨48, [76], [(65, 65, 67), (97, 97, 67)]⟩,
  ⟨73, [71], [(9, 13, 68), (32, 32, 68)]⟩,
  ⟨82, [74], [(69, 69, 69), (101, 101, 69)]⟩,
  ⟨94, [72], [(76, 76, 70), (108, 108, 70)]⟩,
  ⟨110, [73], [(68, 68, 71), (100, 100, 71)]⟩,
  ⟨39, [81], [(65, 65, 72), (97, 97, 72)]⟩,
  ⟨49, [82], [(76, 76, 73), (108, 108, 73)]⟩,
  ⟨74, [77], [(9, 13, 68), (32, 32, 68), (70, 70, 74), (80, 80, 75), (83, 83, 76), (102, 102, 74), (112, 112, 75), (115, 115, 76)]⟩,
  ⟨83, [80], [(70, 70, 77), (102, 102, 77)]⟩,
  ⟨95, [78], [(69, 69, 78), (101, 101, 78)]⟩,
  ⟨111, [79], [(65, 65, 79), (97, 97, 79)]⟩,
  ⟨40, [89], [(66, 66, 80), (98, 98, 80)]⟩,
  ⟨50, [90], [(76, 76, 81), (108, 108, 81)]⟩,
  ⟨75, [83], [(85, 85, 82), (117, 117, 82)]⟩,
  ⟨176, [84], [(65, 65, 83), (97, 97, 83)]⟩,
  ⟨181, [85], [(73, 73, 84), (105, 105, 84)]⟩,
  ⟨84, [88], [(69, 69, 85), (101, 101, 85)]⟩,
  ⟨96, [86], [(84, 84, 86), (116, 116, 86)]⟩,
  ⟨112, [87], [(84, 84, 87), (116, 116, 87)]⟩,
  ⟨41, [97], [(76, 76, 88), (108, 108, 88)]⟩,
  ⟨51, [98], [(89, 89, 89), (121, 121, 89)]⟩,
  ⟨76, [91], [(76, 76, 90), (108, 108, 90)]⟩,
  ⟨177, [92], [(82, 82, 91), (114, 114, 91)]⟩,
  ⟨182, [93], [(77, 77, 92), (109, 109, 92)]⟩,
  ⟨85, [96], [(82, 82, 93), (114, 114, 93)]⟩,
  ⟨97, [94], [(69, 69, 94), (101, 101, 94)]⟩,
  ⟨113, [95], [(69, 69, 95), (101, 101, 95)]⟩,
  ⟨42, [105], [(69, 69, 96), (101, 101, 96)]⟩,
  ⟨52, [106], [(9, 13, 97), (32, 32, 97)]⟩,
  ⟨77, [99], [(76, 76, 98), (108, 108, 98)]⟩,
  ⟨178, [100], [(84, 84, 99), (116, 116, 99)]⟩,
  ⟨183, [101], [(80, 80, 100), (112, 112, 100)]⟩,
  ⟨86, [104], [(82, 82, 101), (114, 114, 101)]⟩,
  ⟨98, [102], [(9, 13, 102), (32, 32, 102)]⟩,
  ⟨114, [103], [(9, 13, 103), (32, 32, 103)]⟩,
  ⟨43, [113], [(9, 13, 104), (32, 32, 104)]⟩,
  ⟨53, [114], [(9, 13, 97), (32, 32, 97), (68, 68, 105), (73, 73, 106), (100, 100, 105), (105, 105, 106)]⟩,
  ⟨190, [107], [(9, 13, 107), (32, 32, 107)]⟩,
  ⟨179, [108], [(73, 73, 108), (105, 105, 108)]⟩,
  ⟨184, [109], [(76, 76, 109), (108, 108, 109)]⟩,
  ⟨87, [112], [(65, 65, 110), (97, 97, 110)]⟩,
  ⟨99, [110], [(9, 13, 102), (32, 32, 102), (67, 67, 111), (78, 78, 112), (82, 82, 113), (83, 83, 114), (99, 99, 111), (110, 110, 112), (114, 114, 113), (115, 115, 114)]⟩,
  ⟨115, [111], [(9, 13, 103), (32, 32, 103), (67, 67, 115), (78, 78, 116), (82, 82, 117), (83, 83, 118), (99, 99, 115), (110, 110, 116), (114, 114, 117), (115, 115, 118)]⟩,
  ⟨188, [128], [(9, 13, 119), (32, 32, 119), (73, 73, 40), (105, 105, 40)]⟩,
  ⟨54, [130], [(69, 69, 120), (101, 101, 120)]⟩,
  ⟨61, [129], [(77, 77, 121), (109, 109, 121)]⟩,
  ⟨191, [41, 42, 43, 44, 45, 46], [(9, 13, 107), (32, 32, 107), (68, 68, 39), (73, 73, 40), (78, 78, 42), (79, 79, 43), (100, 100, 39), (105, 105, 40), (110, 110, 42), (111, 111, 43)]⟩,
  ⟨180, [115], [(65, 65, 90), (97, 97, 90)]⟩,
  ⟨185, [116], [(69, 69, 98), (101, 101, 98)]⟩,
  ⟨88, [127], [(66, 66, 122), (98, 98, 122)]⟩,
  ⟨100, [119], [(65, 65, 123), (97, 97, 123)]⟩,
  ⟨149, [117], [(79, 79, 124), (111, 111, 124)]⟩,
  ⟨157, [118], [(69, 69, 125), (101, 101, 125)]⟩,
  ⟨164, [120, 121], [(69, 69, 126), (101, 101, 126)]⟩,
  ⟨116, [124], [(65, 65, 127), (97, 97, 127)]⟩,
  ⟨122, [122], [(79, 79, 128), (111, 111, 128)]⟩,
  ⟨130, [123], [(69, 69, 129), (101, 101, 129)]⟩,
  ⟨137, [125, 126], [(69, 69, 130), (101, 101, 130)]⟩,
  ⟨188, [142], [(9, 13, 119), (32, 32, 119), (73, 73, 40), (105, 105, 40)]⟩,
  ⟨55, [144], [(70, 70, 131), (102, 102, 131)]⟩,
  ⟨62, [143], [(77, 77, 132), (109, 109, 132)]⟩,
  ⟨89, [141], [(76, 76, 133), (108, 108, 133)]⟩,
  ⟨101, [133], [(83, 83, 134), (115, 115, 134)]⟩,
  ⟨150, [131], [(9, 13, 135), (32, 32, 135)]⟩,
  ⟨158, [132], [(83, 83, 136), (115, 115, 136)]⟩,
  ⟨165, [134, 135], [(84, 84, 137), (116, 116, 137)]⟩,
  ⟨117, [138], [(83, 83, 138), (115, 115, 138)]⟩,
  ⟨123, [136], [(9, 13, 139), (32, 32, 139)]⟩,
  ⟨131, [137], [(83, 83, 140), (115, 115, 140)]⟩,
  ⟨138, [139, 140], [(84, 84, 141), (116, 116, 141)]⟩,
  ⟨56, [157], [(69, 69, 142), (101, 101, 142)]⟩,
  ⟨63, [156], [(69, 69, 143), (101, 101, 143)]⟩,
  ⟨68, [155], [(69, 69, 144), (101, 101, 144)]⟩,
  ⟨102, [147], [(67, 67, 145), (99, 99, 145)]⟩,
  ⟨151, [145], [(9, 13, 135), (32, 32, 135), (65, 65, 146), (97, 97, 146)]⟩,
  ⟨159, [146], [(84, 84, 147), (116, 116, 147)]⟩,
  ⟨166, [148, 149], [(9, 13, 148), (32, 32, 148)]⟩,
  ⟨118, [152], [(67, 67, 149), (99, 99, 149)]⟩,
  ⟨124, [150], [(9, 13, 139), (32, 32, 139), (65, 65, 150), (97, 97, 150)]⟩,
  ⟨132, [151], [(84, 84, 151), (116, 116, 151)]⟩,
  ⟨139, [153, 154], [(9, 13, 152), (32, 32, 152)]⟩,
  ⟨57, [169], [(82, 82, 153), (114, 114, 153)]⟩,
  ⟨64, [168], [(68, 68, 154), (100, 100, 154)]⟩,
  ⟨189, [43], [(9, 13, 144), (32, 32, 144)]⟩,
  ⟨103, [160], [(65, 65, 155), (97, 97, 155)]⟩,
  ⟨152, [158], [(67, 67, 156), (99, 99, 156)]⟩,
  ⟨160, [159], [(82, 82, 157), (114, 114, 157)]⟩,
  ⟨167, [161, 162], [(9, 13, 148), (32, 32, 148), (68, 68, 158), (78, 78, 159), (100, 100, 158), (110, 110, 159)]⟩,
  ⟨119, [165], [(65, 65, 160), (97, 97, 160)]⟩,
  ⟨125, [163], [(67, 67, 161), (99, 99, 161)]⟩,
  ⟨133, [164], [(82, 82, 162), (114, 114, 162)]⟩,
  ⟨140, [166, 167], [(9, 13, 152), (32, 32, 152), (68, 68, 163), (78, 78, 164), (100, 100, 163), (110, 110, 164)]⟩,
  ⟨58, [181], [(82, 82, 165), (114, 114, 165)]⟩,
  ⟨65, [180], [(73, 73, 166), (105, 105, 166)]⟩,
  ⟨104, [172], [(68, 68, 167), (100, 100, 167)]⟩,
  ⟨153, [170], [(84, 84, 168), (116, 116, 168)]⟩,
  ⟨161, [171], [(73, 73, 169), (105, 105, 169)]⟩,
  ⟨168, [174], [(69, 69, 170), (101, 101, 170)]⟩,
  ⟨173, [173], [(85, 85, 171), (117, 117, 171)]⟩,
  ⟨120, [177], [(68, 68, 172), (100, 100, 172)]⟩,
  ⟨126, [175], [(84, 84, 173), (116, 116, 173)]⟩,
  ⟨134, [176], [(73, 73, 174), (105, 105, 174)]⟩,
  ⟨141, [179], [(69, 69, 175), (101, 101, 175)]⟩,
  ⟨146, [178], [(85, 85, 176), (117, 117, 176)]⟩,
  ⟨59, [193], [(69, 69, 177), (101, 101, 177)]⟩,
  ⟨66, [192], [(65, 65, 178), (97, 97, 178)]⟩,
  ⟨105, [184], [(69, 69, 179), (101, 101, 179)]⟩,
  ⟨154, [182], [(73, 73, 180), (105, 105, 180)]⟩,
  ⟨162, [183], [(67, 67, 181), (99, 99, 181)]⟩,
  ⟨169, [186], [(70, 70, 182), (102, 102, 182)]⟩,
  ⟨174, [185], [(76, 76, 183), (108, 108, 183)]⟩,
  ⟨121, [189], [(69, 69, 184), (101, 101, 184)]⟩,
  ⟨127, [187], [(73, 73, 185), (105, 105, 185)]⟩,
  ⟨135, [188], [(67, 67, 186), (99, 99, 186)]⟩,
  ⟨142, [191], [(70, 70, 187), (102, 102, 187)]⟩,
  ⟨147, [190], [(76, 76, 188), (108, 108, 188)]⟩,
  ⟨60, [205], [(68, 68, 144), (100, 100, 144)]⟩,
  ⟨67, [204], [(84, 84, 133), (116, 116, 133)]⟩,
  ⟨192, [196], [(9, 13, 189), (32, 32, 189)]⟩,
  ⟨155, [194], [(79, 79, 190), (111, 111, 190)]⟩,
  ⟨163, [195], [(84, 84, 179), (116, 116, 179)]⟩,
  ⟨170, [198], [(65, 65, 191), (97, 97, 191)]⟩,
  ⟨175, [197], [(76, 76, 179), (108, 108, 179)]⟩,
  ⟨194, [201], [(9, 13, 192), (32, 32, 192)]⟩,
  ⟨128, [199], [(79, 79, 193), (111, 111, 193)]⟩,
  ⟨136, [200], [(84, 84, 184), (116, 116, 184)]⟩,
  ⟨143, [203], [(65, 65, 194), (97, 97, 194)]⟩,
  ⟨148, [202], [(76, 76, 184), (108, 108, 184)]⟩,
  ⟨193, [42, 43, 44, 45, 46], [(9, 13, 189), (32, 32, 189), (68, 68, 39), (73, 73, 40), (78, 78, 42), (79, 79, 195), (100, 100, 39), (105, 105, 40), (110, 110, 42), (111, 111, 195)]⟩,
  ⟨156, [206], [(78, 78, 179), (110, 110, 179)]⟩,
  ⟨171, [207], [(85, 85, 196), (117, 117, 196)]⟩,
  ⟨195, [43, 44, 45, 46], [(9, 13, 192), (32, 32, 192), (68, 68, 39), (73, 73, 40), (78, 78, 42), (100, 100, 39), (105, 105, 40), (110, 110, 42)]⟩,
  ⟨129, [208], [(78, 78, 184), (110, 110, 184)]⟩,
  ⟨144, [209], [(85, 85, 197), (117, 117, 197)]⟩,
  ⟨106, [49], [(78, 78, 198), (110, 110, 198)]⟩,
  ⟨172, [210], [(76, 76, 181), (108, 108, 181)]⟩,
  ⟨145, [211], [(76, 76, 186), (108, 108, 186)]⟩,
  ⟨107, [55], [(9, 13, 199), (32, 32, 199)]⟩,
  ⟨108, [61], [(9, 13, 199), (32, 32, 199), (85, 85, 59), (117, 117, 59)]⟩]

set_option maxRecDepth 100000 in
theorem nfa_ok : NfaOk conts lins nulls := ⟨rfl, rfl, rfl⟩

theorem items_ok : itemsOk entries 212 = true := by decide +kernel

theorem entries_ok : entries.all (checkEntry foreignKeyMachine lins nulls entries) = true := by
  decide +kernel

/-- The machine's successful runs are the derivations of the grammar. -/
theorem trace_iff (s : Str) (es : List (Ev FkAct)) :
    foreignKeyMachine.trace foreignKeyMachine.start s = some es ↔ DerivesS t0 s es := by
  have h := check_sound nfa_ok (n := 212) rfl items_ok entries_ok s (e := entries.head (by simp [entries]))
    (List.head_mem _) es
  have h0 : (entries.head (by simp [entries])).items = [0] := rfl
  have h1 : stackAt conts 0 = t0 := rfl
  rw [h0] at h
  simp only [List.mem_singleton, exists_eq_left, h1] at h
  exact h

end Verif.Ddl.FkG
