import Verif.Ragel.Bisim
import Verif.Ddl.Grammars
import Verif.Ragel.Track

/-!
# Certificate that `(checkMachine.track .matchInitiallyDeferred)` implements its grammar

Generated by tools/GenCert.txt; do not edit. Checked by the kernel below.
-/

namespace Verif.Ddl.CheckG.Deferred
open Verif Verif.Ragel Verif.Ddl CheckG

/-- The sequences that can remain to be matched. -/
def conts : List (List (Gram CheckAct)) := [
  i0,
  (.seq (.cls [(72, 72), (104, 104)] []) (.seq (.cls [(69, 69), (101, 101)] []) (.seq (.cls [(67, 67), (99, 99)] []) (.cls [(75, 75), (107, 107)] [])))) :: sp :: (.cls [(40, 40)] []) :: anys :: (.cls [(41, 41)] []) :: ws :: (.alt (.seq (.seq (.cls [(68, 68), (100, 100)] []) (.seq (.cls [(69, 69), (101, 101)] []) (.seq (.cls [(70, 70), (102, 102)] []) (.seq (.cls [(69, 69), (101, 101)] []) (.seq (.cls [(82, 82), (114, 114)] []) (.seq (.cls [(82, 82), (114, 114)] []) (.seq (.cls [(65, 65), (97, 97)] []) (.seq (.cls [(66, 66), (98, 98)] []) (.seq (.cls [(76, 76), (108, 108)] []) (.cls [(69, 69), (101, 101)] [])))))))))) ws) .eps) :: (.seq (.cls [(73, 73), (105, 105)] []) (.seq (.cls [(78, 78), (110, 110)] []) (.seq (.cls [(73, 73), (105, 105)] []) (.seq (.cls [(84, 84), (116, 116)] []) (.seq (.cls [(73, 73), (105, 105)] []) (.seq (.cls [(65, 65), (97, 97)] []) (.seq (.cls [(76, 76), (108, 108)] []) (.seq (.cls [(76, 76), (108, 108)] []) (.cls [(89, 89), (121, 121)] []))))))))) :: ws :: (.seq (.cls [(68, 68), (100, 100)] []) (.seq (.cls [(69, 69), (101, 101)] []) (.seq (.cls [(70, 70), (102, 102)] []) (.seq (.cls [(69, 69), (101, 101)] []) (.seq (.cls [(82, 82), (114, 114)] []) (.seq (.cls [(82, 82), (114, 114)] []) (.seq (.cls [(69, 69), (101, 101)] []) (.cls [(68, 68), (100, 100)] [])))))))) :: iRest :: [],
  (.seq (.cls [(69, 69), (101, 101)] []) (.seq (.cls [(67, 67), (99, 99)] []) (.cls [(75, 75), (107, 107)] []))) :: sp :: (.cls [(40, 40)] []) :: anys :: (.cls [(41, 41)] []) :: ws :: (.alt (.seq (.seq (.cls [(68, 68), (100, 100)] []) (.seq (.cls [(69, 69), (101, 101)] []) (.seq (.cls [(70, 70), (102, 102)] []) (.seq (.cls [(69, 69), (101, 101)] []) (.seq (.cls [(82, 82), (114, 114)] []) (.seq (.cls [(82, 82), (114, 114)] []) (.seq (.cls [(65, 65), (97, 97)] []) (.seq (.cls [(66, 66), (98, 98)] []) (.seq (.cls [(76, 76), (108, 108)] []) (.cls [(69, 69), (101, 101)] [])))))))))) ws) .eps) :: (.seq (.cls [(73, 73), (105, 105)] []) (.seq (.cls [(78, 78), (110, 110)] []) (.seq (.cls [(73, 73), (105, 105)] []) (.seq (.cls [(84, 84), (116, 116)] []) (.seq (.cls [(73, 73), (105, 105)] []) (.seq (.cls [(65, 65), (97, 97)] []) (.seq (.cls [(76, 76), (108, 108)] []) (.seq (.cls [(76, 76), (108, 108)] []) (.cls [(89, 89), (121, 121)] []))))))))) :: ws :: (.seq (.cls [(68, 68), (100, 100)] []) (.seq (.cls [(69, 69), (101, 101)] []) (.seq (.cls [(70, 70), (102, 102)] []) (.seq (.cls [(69, 69), (101, 101)] []) (.seq (.cls [(82, 82), (114, 114)] []) (.seq (.cls [(82, 82), (114, 114)] []) (.seq (.cls [(69, 69), (101, 101)] []) (.cls [(68, 68), (100, 100)] [])))))))) :: iRest :: [],
  (.seq (.cls [(67, 67), (99, 99)] []) (.cls [(75, 75), (107, 107)] [])) :: sp :: (.cls [(40, 40)] []) :: anys :: (.cls [(41, 41)] []) :: ws :: (.alt (.seq (.seq (.cls [(68, 68), (100, 100)] []) (.seq (.cls [(69, 69), (101, 101)] []) (.seq (.cls [(70, 70), (102, 102)] []) (.seq (.cls [(69, 69), (101, 101)] []) (.seq (.cls [(82, 82), (114, 114)] []) (.seq (.cls [(82, 82), (114, 114)] []) (.seq (.cls [(65, 65), (97, 97)] []) (.seq (.cls [(66, 66), (98, 98)] []) (.seq (.cls [(76, 76), (108, 108)] []) (.cls [(69, 69), (101, 101)] [])))))))))) ws) .eps) :: (.seq (.cls [(73, 73), (105, 105)] []) (.seq (.cls [(78, 78), (110, 110)] []) (.seq (.cls [(73, 73), (105, 105)] []) (.seq (.cls [(84, 84), (116, 116)] []) (.seq (.cls [(73, 73), (105, 105)] []) (.seq (.cls [(65, 65), (97, 97)] []) (.seq (.cls [(76, 76), (108, 108)] []) (.seq (.cls [(76, 76), (108, 108)] []) (.cls [(89, 89), (121, 121)] []))))))))) :: ws :: (.seq (.cls [(68, 68), (100, 100)] []) (.seq (.cls [(69, 69), (101, 101)] []) (.seq (.cls [(70, 70), (102, 102)] []) (.seq (.cls [(69, 69), (101, 101)] []) (.seq (.cls [(82, 82), (114, 114)] []) (.seq (.cls [(82, 82), (114, 114)] []) (.seq (.cls [(69, 69), (101, 101)] []) (.cls [(68, 68), (100, 100)] [])))))))) :: iRest :: [],
  (.cls [(75, 75), (107, 107)] []) :: sp :: (.cls [(40, 40)] []) :: anys :: (.cls [(41, 41)] []) :: ws :: (.alt (.seq (.seq (.cls [(68, 68), (100, 100)] []) (.seq (.cls [(69, 69), (101, 101)] []) (.seq (.cls [(70, 70), (102, 102)] []) (.seq (.cls [(69, 69), (101, 101)] []) (.seq (.cls [(82, 82), (114, 114)] []) (.seq (.cls [(82, 82), (114, 114)] []) (.seq (.cls [(65, 65), (97, 97)] []) (.seq (.cls [(66, 66), (98, 98)] []) (.seq (.cls [(76, 76), (108, 108)] []) (.cls [(69, 69), (101, 101)] [])))))))))) ws) .eps) :: (.seq (.cls [(73, 73), (105, 105)] []) (.seq (.cls [(78, 78), (110, 110)] []) (.seq (.cls [(73, 73), (105, 105)] []) (.seq (.cls [(84, 84), (116, 116)] []) (.seq (.cls [(73, 73), (105, 105)] []) (.seq (.cls [(65, 65), (97, 97)] []) (.seq (.cls [(76, 76), (108, 108)] []) (.seq (.cls [(76, 76), (108, 108)] []) (.cls [(89, 89), (121, 121)] []))))))))) :: ws :: (.seq (.cls [(68, 68), (100, 100)] []) (.seq (.cls [(69, 69), (101, 101)] []) (.seq (.cls [(70, 70), (102, 102)] []) (.seq (.cls [(69, 69), (101, 101)] []) (.seq (.cls [(82, 82), (114, 114)] []) (.seq (.cls [(82, 82), (114, 114)] []) (.seq (.cls [(69, 69), (101, 101)] []) (.cls [(68, 68), (100, 100)] [])))))))) :: iRest :: [],
  sp :: (.cls [(40, 40)] []) :: anys :: (.cls [(41, 41)] []) :: ws :: (.alt (.seq (.seq (.cls [(68, 68), (100, 100)] []) (.seq (.cls [(69, 69), (101, 101)] []) (.seq (.cls [(70, 70), (102, 102)] []) (.seq (.cls [(69, 69), (101, 101)] []) (.seq (.cls [(82, 82), (114, 114)] []) (.seq (.cls [(82, 82), (114, 114)] []) (.seq (.cls [(65, 65), (97, 97)] []) (.seq (.cls [(66, 66), (98, 98)] []) (.seq (.cls [(76, 76), (108, 108)] []) (.cls [(69, 69), (101, 101)] [])))))))))) ws) .eps) :: (.seq (.cls [(73, 73), (105, 105)] []) (.seq (.cls [(78, 78), (110, 110)] []) (.seq (.cls [(73, 73), (105, 105)] []) (.seq (.cls [(84, 84), (116, 116)] []) (.seq (.cls [(73, 73), (105, 105)] []) (.seq (.cls [(65, 65), (97, 97)] []) (.seq (.cls [(76, 76), (108, 108)] []) (.seq (.cls [(76, 76), (108, 108)] []) (.cls [(89, 89), (121, 121)] []))))))))) :: ws :: (.seq (.cls [(68, 68), (100, 100)] []) (.seq (.cls [(69, 69), (101, 101)] []) (.seq (.cls [(70, 70), (102, 102)] []) (.seq (.cls [(69, 69), (101, 101)] []) (.seq (.cls [(82, 82), (114, 114)] []) (.seq (.cls [(82, 82), (114, 114)] []) (.seq (.cls [(69, 69), (101, 101)] []) (.cls [(68, 68), (100, 100)] [])))))))) :: iRest :: [],
  anys :: (.cls [(41, 41)] []) :: ws :: (.alt (.seq (.seq (.cls [(68, 68), (100, 100)] []) (.seq (.cls [(69, 69), (101, 101)] []) (.seq (.cls [(70, 70), (102, 102)] []) (.seq (.cls [(69, 69), (101, 101)] []) (.seq (.cls [(82, 82), (114, 114)] []) (.seq (.cls [(82, 82), (114, 114)] []) (.seq (.cls [(65, 65), (97, 97)] []) (.seq (.cls [(66, 66), (98, 98)] []) (.seq (.cls [(76, 76), (108, 108)] []) (.cls [(69, 69), (101, 101)] [])))))))))) ws) .eps) :: (.seq (.cls [(73, 73), (105, 105)] []) (.seq (.cls [(78, 78), (110, 110)] []) (.seq (.cls [(73, 73), (105, 105)] []) (.seq (.cls [(84, 84), (116, 116)] []) (.seq (.cls [(73, 73), (105, 105)] []) (.seq (.cls [(65, 65), (97, 97)] []) (.seq (.cls [(76, 76), (108, 108)] []) (.seq (.cls [(76, 76), (108, 108)] []) (.cls [(89, 89), (121, 121)] []))))))))) :: ws :: (.seq (.cls [(68, 68), (100, 100)] []) (.seq (.cls [(69, 69), (101, 101)] []) (.seq (.cls [(70, 70), (102, 102)] []) (.seq (.cls [(69, 69), (101, 101)] []) (.seq (.cls [(82, 82), (114, 114)] []) (.seq (.cls [(82, 82), (114, 114)] []) (.seq (.cls [(69, 69), (101, 101)] []) (.cls [(68, 68), (100, 100)] [])))))))) :: iRest :: [],
  ws :: (.alt (.seq (.seq (.cls [(68, 68), (100, 100)] []) (.seq (.cls [(69, 69), (101, 101)] []) (.seq (.cls [(70, 70), (102, 102)] []) (.seq (.cls [(69, 69), (101, 101)] []) (.seq (.cls [(82, 82), (114, 114)] []) (.seq (.cls [(82, 82), (114, 114)] []) (.seq (.cls [(65, 65), (97, 97)] []) (.seq (.cls [(66, 66), (98, 98)] []) (.seq (.cls [(76, 76), (108, 108)] []) (.cls [(69, 69), (101, 101)] [])))))))))) ws) .eps) :: (.seq (.cls [(73, 73), (105, 105)] []) (.seq (.cls [(78, 78), (110, 110)] []) (.seq (.cls [(73, 73), (105, 105)] []) (.seq (.cls [(84, 84), (116, 116)] []) (.seq (.cls [(73, 73), (105, 105)] []) (.seq (.cls [(65, 65), (97, 97)] []) (.seq (.cls [(76, 76), (108, 108)] []) (.seq (.cls [(76, 76), (108, 108)] []) (.cls [(89, 89), (121, 121)] []))))))))) :: ws :: (.seq (.cls [(68, 68), (100, 100)] []) (.seq (.cls [(69, 69), (101, 101)] []) (.seq (.cls [(70, 70), (102, 102)] []) (.seq (.cls [(69, 69), (101, 101)] []) (.seq (.cls [(82, 82), (114, 114)] []) (.seq (.cls [(82, 82), (114, 114)] []) (.seq (.cls [(69, 69), (101, 101)] []) (.cls [(68, 68), (100, 100)] [])))))))) :: iRest :: [],
  sp :: (.alt (.seq (.seq (.cls [(68, 68), (100, 100)] []) (.seq (.cls [(69, 69), (101, 101)] []) (.seq (.cls [(70, 70), (102, 102)] []) (.seq (.cls [(69, 69), (101, 101)] []) (.seq (.cls [(82, 82), (114, 114)] []) (.seq (.cls [(82, 82), (114, 114)] []) (.seq (.cls [(65, 65), (97, 97)] []) (.seq (.cls [(66, 66), (98, 98)] []) (.seq (.cls [(76, 76), (108, 108)] []) (.cls [(69, 69), (101, 101)] [])))))))))) ws) .eps) :: (.seq (.cls [(73, 73), (105, 105)] []) (.seq (.cls [(78, 78), (110, 110)] []) (.seq (.cls [(73, 73), (105, 105)] []) (.seq (.cls [(84, 84), (116, 116)] []) (.seq (.cls [(73, 73), (105, 105)] []) (.seq (.cls [(65, 65), (97, 97)] []) (.seq (.cls [(76, 76), (108, 108)] []) (.seq (.cls [(76, 76), (108, 108)] []) (.cls [(89, 89), (121, 121)] []))))))))) :: ws :: (.seq (.cls [(68, 68), (100, 100)] []) (.seq (.cls [(69, 69), (101, 101)] []) (.seq (.cls [(70, 70), (102, 102)] []) (.seq (.cls [(69, 69), (101, 101)] []) (.seq (.cls [(82, 82), (114, 114)] []) (.seq (.cls [(82, 82), (114, 114)] []) (.seq (.cls [(69, 69), (101, 101)] []) (.cls [(68, 68), (100, 100)] [])))))))) :: iRest :: [],
  (.seq (.cls [(69, 69), (101, 101)] []) (.seq (.cls [(70, 70), (102, 102)] []) (.seq (.cls [(69, 69), (101, 101)] []) (.seq (.cls [(82, 82), (114, 114)] []) (.seq (.cls [(82, 82), (114, 114)] []) (.seq (.cls [(65, 65), (97, 97)] []) (.seq (.cls [(66, 66), (98, 98)] []) (.seq (.cls [(76, 76), (108, 108)] []) (.cls [(69, 69), (101, 101)] []))))))))) :: ws :: (.seq (.cls [(73, 73), (105, 105)] []) (.seq (.cls [(78, 78), (110, 110)] []) (.seq (.cls [(73, 73), (105, 105)] []) (.seq (.cls [(84, 84), (116, 116)] []) (.seq (.cls [(73, 73), (105, 105)] []) (.seq (.cls [(65, 65), (97, 97)] []) (.seq (.cls [(76, 76), (108, 108)] []) (.seq (.cls [(76, 76), (108, 108)] []) (.cls [(89, 89), (121, 121)] []))))))))) :: ws :: (.seq (.cls [(68, 68), (100, 100)] []) (.seq (.cls [(69, 69), (101, 101)] []) (.seq (.cls [(70, 70), (102, 102)] []) (.seq (.cls [(69, 69), (101, 101)] []) (.seq (.cls [(82, 82), (114, 114)] []) (.seq (.cls [(82, 82), (114, 114)] []) (.seq (.cls [(69, 69), (101, 101)] []) (.cls [(68, 68), (100, 100)] [])))))))) :: iRest :: [],
  (.seq (.cls [(78, 78), (110, 110)] []) (.seq (.cls [(73, 73), (105, 105)] []) (.seq (.cls [(84, 84), (116, 116)] []) (.seq (.cls [(73, 73), (105, 105)] []) (.seq (.cls [(65, 65), (97, 97)] []) (.seq (.cls [(76, 76), (108, 108)] []) (.seq (.cls [(76, 76), (108, 108)] []) (.cls [(89, 89), (121, 121)] [])))))))) :: ws :: (.seq (.cls [(68, 68), (100, 100)] []) (.seq (.cls [(69, 69), (101, 101)] []) (.seq (.cls [(70, 70), (102, 102)] []) (.seq (.cls [(69, 69), (101, 101)] []) (.seq (.cls [(82, 82), (114, 114)] []) (.seq (.cls [(82, 82), (114, 114)] []) (.seq (.cls [(69, 69), (101, 101)] []) (.cls [(68, 68), (100, 100)] [])))))))) :: iRest :: [],
  (.seq (.cls [(70, 70), (102, 102)] []) (.seq (.cls [(69, 69), (101, 101)] []) (.seq (.cls [(82, 82), (114, 114)] []) (.seq (.cls [(82, 82), (114, 114)] []) (.seq (.cls [(65, 65), (97, 97)] []) (.seq (.cls [(66, 66), (98, 98)] []) (.seq (.cls [(76, 76), (108, 108)] []) (.cls [(69, 69), (101, 101)] [])))))))) :: ws :: (.seq (.cls [(73, 73), (105, 105)] []) (.seq (.cls [(78, 78), (110, 110)] []) (.seq (.cls [(73, 73), (105, 105)] []) (.seq (.cls [(84, 84), (116, 116)] []) (.seq (.cls [(73, 73), (105, 105)] []) (.seq (.cls [(65, 65), (97, 97)] []) (.seq (.cls [(76, 76), (108, 108)] []) (.seq (.cls [(76, 76), (108, 108)] []) (.cls [(89, 89), (121, 121)] []))))))))) :: ws :: (.seq (.cls [(68, 68), (100, 100)] []) (.seq (.cls [(69, 69), (101, 101)] []) (.seq (.cls [(70, 70), (102, 102)] []) (.seq (.cls [(69, 69), (101, 101)] []) (.seq (.cls [(82, 82), (114, 114)] []) (.seq (.cls [(82, 82), (114, 114)] []) (.seq (.cls [(69, 69), (101, 101)] []) (.cls [(68, 68), (100, 100)] [])))))))) :: iRest :: [],
  (.seq (.cls [(73, 73), (105, 105)] []) (.seq (.cls [(84, 84), (116, 116)] []) (.seq (.cls [(73, 73), (105, 105)] []) (.seq (.cls [(65, 65), (97, 97)] []) (.seq (.cls [(76, 76), (108, 108)] []) (.seq (.cls [(76, 76), (108, 108)] []) (.cls [(89, 89), (121, 121)] []))))))) :: ws :: (.seq (.cls [(68, 68), (100, 100)] []) (.seq (.cls [(69, 69), (101, 101)] []) (.seq (.cls [(70, 70), (102, 102)] []) (.seq (.cls [(69, 69), (101, 101)] []) (.seq (.cls [(82, 82), (114, 114)] []) (.seq (.cls [(82, 82), (114, 114)] []) (.seq (.cls [(69, 69), (101, 101)] []) (.cls [(68, 68), (100, 100)] [])))))))) :: iRest :: [],
  (.seq (.cls [(69, 69), (101, 101)] []) (.seq (.cls [(82, 82), (114, 114)] []) (.seq (.cls [(82, 82), (114, 114)] []) (.seq (.cls [(65, 65), (97, 97)] []) (.seq (.cls [(66, 66), (98, 98)] []) (.seq (.cls [(76, 76), (108, 108)] []) (.cls [(69, 69), (101, 101)] []))))))) :: ws :: (.seq (.cls [(73, 73), (105, 105)] []) (.seq (.cls [(78, 78), (110, 110)] []) (.seq (.cls [(73, 73), (105, 105)] []) (.seq (.cls [(84, 84), (116, 116)] []) (.seq (.cls [(73, 73), (105, 105)] []) (.seq (.cls [(65, 65), (97, 97)] []) (.seq (.cls [(76, 76), (108, 108)] []) (.seq (.cls [(76, 76), (108, 108)] []) (.cls [(89, 89), (121, 121)] []))))))))) :: ws :: (.seq (.cls [(68, 68), (100, 100)] []) (.seq (.cls [(69, 69), (101, 101)] []) (.seq (.cls [(70, 70), (102, 102)] []) (.seq (.cls [(69, 69), (101, 101)] []) (.seq (.cls [(82, 82), (114, 114)] []) (.seq (.cls [(82, 82), (114, 114)] []) (.seq (.cls [(69, 69), (101, 101)] []) (.cls [(68, 68), (100, 100)] [])))))))) :: iRest :: [],
  (.seq (.cls [(84, 84), (116, 116)] []) (.seq (.cls [(73, 73), (105, 105)] []) (.seq (.cls [(65, 65), (97, 97)] []) (.seq (.cls [(76, 76), (108, 108)] []) (.seq (.cls [(76, 76), (108, 108)] []) (.cls [(89, 89), (121, 121)] [])))))) :: ws :: (.seq (.cls [(68, 68), (100, 100)] []) (.seq (.cls [(69, 69), (101, 101)] []) (.seq (.cls [(70, 70), (102, 102)] []) (.seq (.cls [(69, 69), (101, 101)] []) (.seq (.cls [(82, 82), (114, 114)] []) (.seq (.cls [(82, 82), (114, 114)] []) (.seq (.cls [(69, 69), (101, 101)] []) (.cls [(68, 68), (100, 100)] [])))))))) :: iRest :: [],
  (.seq (.cls [(82, 82), (114, 114)] []) (.seq (.cls [(82, 82), (114, 114)] []) (.seq (.cls [(65, 65), (97, 97)] []) (.seq (.cls [(66, 66), (98, 98)] []) (.seq (.cls [(76, 76), (108, 108)] []) (.cls [(69, 69), (101, 101)] [])))))) :: ws :: (.seq (.cls [(73, 73), (105, 105)] []) (.seq (.cls [(78, 78), (110, 110)] []) (.seq (.cls [(73, 73), (105, 105)] []) (.seq (.cls [(84, 84), (116, 116)] []) (.seq (.cls [(73, 73), (105, 105)] []) (.seq (.cls [(65, 65), (97, 97)] []) (.seq (.cls [(76, 76), (108, 108)] []) (.seq (.cls [(76, 76), (108, 108)] []) (.cls [(89, 89), (121, 121)] []))))))))) :: ws :: (.seq (.cls [(68, 68), (100, 100)] []) (.seq (.cls [(69, 69), (101, 101)] []) (.seq (.cls [(70, 70), (102, 102)] []) (.seq (.cls [(69, 69), (101, 101)] []) (.seq (.cls [(82, 82), (114, 114)] []) (.seq (.cls [(82, 82), (114, 114)] []) (.seq (.cls [(69, 69), (101, 101)] []) (.cls [(68, 68), (100, 100)] [])))))))) :: iRest :: [],
  (.seq (.cls [(73, 73), (105, 105)] []) (.seq (.cls [(65, 65), (97, 97)] []) (.seq (.cls [(76, 76), (108, 108)] []) (.seq (.cls [(76, 76), (108, 108)] []) (.cls [(89, 89), (121, 121)] []))))) :: ws :: (.seq (.cls [(68, 68), (100, 100)] []) (.seq (.cls [(69, 69), (101, 101)] []) (.seq (.cls [(70, 70), (102, 102)] []) (.seq (.cls [(69, 69), (101, 101)] []) (.seq (.cls [(82, 82), (114, 114)] []) (.seq (.cls [(82, 82), (114, 114)] []) (.seq (.cls [(69, 69), (101, 101)] []) (.cls [(68, 68), (100, 100)] [])))))))) :: iRest :: [],
  (.seq (.cls [(82, 82), (114, 114)] []) (.seq (.cls [(65, 65), (97, 97)] []) (.seq (.cls [(66, 66), (98, 98)] []) (.seq (.cls [(76, 76), (108, 108)] []) (.cls [(69, 69), (101, 101)] []))))) :: ws :: (.seq (.cls [(73, 73), (105, 105)] []) (.seq (.cls [(78, 78), (110, 110)] []) (.seq (.cls [(73, 73), (105, 105)] []) (.seq (.cls [(84, 84), (116, 116)] []) (.seq (.cls [(73, 73), (105, 105)] []) (.seq (.cls [(65, 65), (97, 97)] []) (.seq (.cls [(76, 76), (108, 108)] []) (.seq (.cls [(76, 76), (108, 108)] []) (.cls [(89, 89), (121, 121)] []))))))))) :: ws :: (.seq (.cls [(68, 68), (100, 100)] []) (.seq (.cls [(69, 69), (101, 101)] []) (.seq (.cls [(70, 70), (102, 102)] []) (.seq (.cls [(69, 69), (101, 101)] []) (.seq (.cls [(82, 82), (114, 114)] []) (.seq (.cls [(82, 82), (114, 114)] []) (.seq (.cls [(69, 69), (101, 101)] []) (.cls [(68, 68), (100, 100)] [])))))))) :: iRest :: [],
  (.seq (.cls [(65, 65), (97, 97)] []) (.seq (.cls [(76, 76), (108, 108)] []) (.seq (.cls [(76, 76), (108, 108)] []) (.cls [(89, 89), (121, 121)] [])))) :: ws :: (.seq (.cls [(68, 68), (100, 100)] []) (.seq (.cls [(69, 69), (101, 101)] []) (.seq (.cls [(70, 70), (102, 102)] []) (.seq (.cls [(69, 69), (101, 101)] []) (.seq (.cls [(82, 82), (114, 114)] []) (.seq (.cls [(82, 82), (114, 114)] []) (.seq (.cls [(69, 69), (101, 101)] []) (.cls [(68, 68), (100, 100)] [])))))))) :: iRest :: [],
  (.seq (.cls [(65, 65), (97, 97)] []) (.seq (.cls [(66, 66), (98, 98)] []) (.seq (.cls [(76, 76), (108, 108)] []) (.cls [(69, 69), (101, 101)] [])))) :: ws :: (.seq (.cls [(73, 73), (105, 105)] []) (.seq (.cls [(78, 78), (110, 110)] []) (.seq (.cls [(73, 73), (105, 105)] []) (.seq (.cls [(84, 84), (116, 116)] []) (.seq (.cls [(73, 73), (105, 105)] []) (.seq (.cls [(65, 65), (97, 97)] []) (.seq (.cls [(76, 76), (108, 108)] []) (.seq (.cls [(76, 76), (108, 108)] []) (.cls [(89, 89), (121, 121)] []))))))))) :: ws :: (.seq (.cls [(68, 68), (100, 100)] []) (.seq (.cls [(69, 69), (101, 101)] []) (.seq (.cls [(70, 70), (102, 102)] []) (.seq (.cls [(69, 69), (101, 101)] []) (.seq (.cls [(82, 82), (114, 114)] []) (.seq (.cls [(82, 82), (114, 114)] []) (.seq (.cls [(69, 69), (101, 101)] []) (.cls [(68, 68), (100, 100)] [])))))))) :: iRest :: [],
  (.seq (.cls [(76, 76), (108, 108)] []) (.seq (.cls [(76, 76), (108, 108)] []) (.cls [(89, 89), (121, 121)] []))) :: ws :: (.seq (.cls [(68, 68), (100, 100)] []) (.seq (.cls [(69, 69), (101, 101)] []) (.seq (.cls [(70, 70), (102, 102)] []) (.seq (.cls [(69, 69), (101, 101)] []) (.seq (.cls [(82, 82), (114, 114)] []) (.seq (.cls [(82, 82), (114, 114)] []) (.seq (.cls [(69, 69), (101, 101)] []) (.cls [(68, 68), (100, 100)] [])))))))) :: iRest :: [],
  (.seq (.cls [(66, 66), (98, 98)] []) (.seq (.cls [(76, 76), (108, 108)] []) (.cls [(69, 69), (101, 101)] []))) :: ws :: (.seq (.cls [(73, 73), (105, 105)] []) (.seq (.cls [(78, 78), (110, 110)] []) (.seq (.cls [(73, 73), (105, 105)] []) (.seq (.cls [(84, 84), (116, 116)] []) (.seq (.cls [(73, 73), (105, 105)] []) (.seq (.cls [(65, 65), (97, 97)] []) (.seq (.cls [(76, 76), (108, 108)] []) (.seq (.cls [(76, 76), (108, 108)] []) (.cls [(89, 89), (121, 121)] []))))))))) :: ws :: (.seq (.cls [(68, 68), (100, 100)] []) (.seq (.cls [(69, 69), (101, 101)] []) (.seq (.cls [(70, 70), (102, 102)] []) (.seq (.cls [(69, 69), (101, 101)] []) (.seq (.cls [(82, 82), (114, 114)] []) (.seq (.cls [(82, 82), (114, 114)] []) (.seq (.cls [(69, 69), (101, 101)] []) (.cls [(68, 68), (100, 100)] [])))))))) :: iRest :: [],
  (.seq (.cls [(76, 76), (108, 108)] []) (.cls [(89, 89), (121, 121)] [])) :: ws :: (.seq (.cls [(68, 68), (100, 100)] []) (.seq (.cls [(69, 69), (101, 101)] []) (.seq (.cls [(70, 70), (102, 102)] []) (.seq (.cls [(69, 69), (101, 101)] []) (.seq (.cls [(82, 82), (114, 114)] []) (.seq (.cls [(82, 82), (114, 114)] []) (.seq (.cls [(69, 69), (101, 101)] []) (.cls [(68, 68), (100, 100)] [])))))))) :: iRest :: [],
  (.seq (.cls [(76, 76), (108, 108)] []) (.cls [(69, 69), (101, 101)] [])) :: ws :: (.seq (.cls [(73, 73), (105, 105)] []) (.seq (.cls [(78, 78), (110, 110)] []) (.seq (.cls [(73, 73), (105, 105)] []) (.seq (.cls [(84, 84), (116, 116)] []) (.seq (.cls [(73, 73), (105, 105)] []) (.seq (.cls [(65, 65), (97, 97)] []) (.seq (.cls [(76, 76), (108, 108)] []) (.seq (.cls [(76, 76), (108, 108)] []) (.cls [(89, 89), (121, 121)] []))))))))) :: ws :: (.seq (.cls [(68, 68), (100, 100)] []) (.seq (.cls [(69, 69), (101, 101)] []) (.seq (.cls [(70, 70), (102, 102)] []) (.seq (.cls [(69, 69), (101, 101)] []) (.seq (.cls [(82, 82), (114, 114)] []) (.seq (.cls [(82, 82), (114, 114)] []) (.seq (.cls [(69, 69), (101, 101)] []) (.cls [(68, 68), (100, 100)] [])))))))) :: iRest :: [],
  (.cls [(89, 89), (121, 121)] []) :: ws :: (.seq (.cls [(68, 68), (100, 100)] []) (.seq (.cls [(69, 69), (101, 101)] []) (.seq (.cls [(70, 70), (102, 102)] []) (.seq (.cls [(69, 69), (101, 101)] []) (.seq (.cls [(82, 82), (114, 114)] []) (.seq (.cls [(82, 82), (114, 114)] []) (.seq (.cls [(69, 69), (101, 101)] []) (.cls [(68, 68), (100, 100)] [])))))))) :: iRest :: [],
  (.cls [(69, 69), (101, 101)] []) :: ws :: (.seq (.cls [(73, 73), (105, 105)] []) (.seq (.cls [(78, 78), (110, 110)] []) (.seq (.cls [(73, 73), (105, 105)] []) (.seq (.cls [(84, 84), (116, 116)] []) (.seq (.cls [(73, 73), (105, 105)] []) (.seq (.cls [(65, 65), (97, 97)] []) (.seq (.cls [(76, 76), (108, 108)] []) (.seq (.cls [(76, 76), (108, 108)] []) (.cls [(89, 89), (121, 121)] []))))))))) :: ws :: (.seq (.cls [(68, 68), (100, 100)] []) (.seq (.cls [(69, 69), (101, 101)] []) (.seq (.cls [(70, 70), (102, 102)] []) (.seq (.cls [(69, 69), (101, 101)] []) (.seq (.cls [(82, 82), (114, 114)] []) (.seq (.cls [(82, 82), (114, 114)] []) (.seq (.cls [(69, 69), (101, 101)] []) (.cls [(68, 68), (100, 100)] [])))))))) :: iRest :: [],
  ws :: (.seq (.cls [(68, 68), (100, 100)] []) (.seq (.cls [(69, 69), (101, 101)] []) (.seq (.cls [(70, 70), (102, 102)] []) (.seq (.cls [(69, 69), (101, 101)] []) (.seq (.cls [(82, 82), (114, 114)] []) (.seq (.cls [(82, 82), (114, 114)] []) (.seq (.cls [(69, 69), (101, 101)] []) (.cls [(68, 68), (100, 100)] [])))))))) :: iRest :: [],
  ws :: (.seq (.cls [(73, 73), (105, 105)] []) (.seq (.cls [(78, 78), (110, 110)] []) (.seq (.cls [(73, 73), (105, 105)] []) (.seq (.cls [(84, 84), (116, 116)] []) (.seq (.cls [(73, 73), (105, 105)] []) (.seq (.cls [(65, 65), (97, 97)] []) (.seq (.cls [(76, 76), (108, 108)] []) (.seq (.cls [(76, 76), (108, 108)] []) (.cls [(89, 89), (121, 121)] []))))))))) :: ws :: (.seq (.cls [(68, 68), (100, 100)] []) (.seq (.cls [(69, 69), (101, 101)] []) (.seq (.cls [(70, 70), (102, 102)] []) (.seq (.cls [(69, 69), (101, 101)] []) (.seq (.cls [(82, 82), (114, 114)] []) (.seq (.cls [(82, 82), (114, 114)] []) (.seq (.cls [(69, 69), (101, 101)] []) (.cls [(68, 68), (100, 100)] [])))))))) :: iRest :: [],
  sp :: (.seq (.cls [(68, 68), (100, 100)] []) (.seq (.cls [(69, 69), (101, 101)] []) (.seq (.cls [(70, 70), (102, 102)] []) (.seq (.cls [(69, 69), (101, 101)] []) (.seq (.cls [(82, 82), (114, 114)] []) (.seq (.cls [(82, 82), (114, 114)] []) (.seq (.cls [(69, 69), (101, 101)] []) (.cls [(68, 68), (100, 100)] [])))))))) :: iRest :: [],
  sp :: (.seq (.cls [(73, 73), (105, 105)] []) (.seq (.cls [(78, 78), (110, 110)] []) (.seq (.cls [(73, 73), (105, 105)] []) (.seq (.cls [(84, 84), (116, 116)] []) (.seq (.cls [(73, 73), (105, 105)] []) (.seq (.cls [(65, 65), (97, 97)] []) (.seq (.cls [(76, 76), (108, 108)] []) (.seq (.cls [(76, 76), (108, 108)] []) (.cls [(89, 89), (121, 121)] []))))))))) :: ws :: (.seq (.cls [(68, 68), (100, 100)] []) (.seq (.cls [(69, 69), (101, 101)] []) (.seq (.cls [(70, 70), (102, 102)] []) (.seq (.cls [(69, 69), (101, 101)] []) (.seq (.cls [(82, 82), (114, 114)] []) (.seq (.cls [(82, 82), (114, 114)] []) (.seq (.cls [(69, 69), (101, 101)] []) (.cls [(68, 68), (100, 100)] [])))))))) :: iRest :: [],
  (.seq (.cls [(69, 69), (101, 101)] []) (.seq (.cls [(70, 70), (102, 102)] []) (.seq (.cls [(69, 69), (101, 101)] []) (.seq (.cls [(82, 82), (114, 114)] []) (.seq (.cls [(82, 82), (114, 114)] []) (.seq (.cls [(69, 69), (101, 101)] []) (.cls [(68, 68), (100, 100)] []))))))) :: iRest :: [],
  (.seq (.cls [(70, 70), (102, 102)] []) (.seq (.cls [(69, 69), (101, 101)] []) (.seq (.cls [(82, 82), (114, 114)] []) (.seq (.cls [(82, 82), (114, 114)] []) (.seq (.cls [(69, 69), (101, 101)] []) (.cls [(68, 68), (100, 100)] [])))))) :: iRest :: [],
  (.seq (.cls [(69, 69), (101, 101)] []) (.seq (.cls [(82, 82), (114, 114)] []) (.seq (.cls [(82, 82), (114, 114)] []) (.seq (.cls [(69, 69), (101, 101)] []) (.cls [(68, 68), (100, 100)] []))))) :: iRest :: [],
  (.seq (.cls [(82, 82), (114, 114)] []) (.seq (.cls [(82, 82), (114, 114)] []) (.seq (.cls [(69, 69), (101, 101)] []) (.cls [(68, 68), (100, 100)] [])))) :: iRest :: [],
  (.seq (.cls [(82, 82), (114, 114)] []) (.seq (.cls [(69, 69), (101, 101)] []) (.cls [(68, 68), (100, 100)] []))) :: iRest :: [],
  (.seq (.cls [(69, 69), (101, 101)] []) (.cls [(68, 68), (100, 100)] [])) :: iRest :: [],
  (.cls [(68, 68), (100, 100)] []) :: iRest :: [],
  iRest :: [],
  anys :: (.seq (.cls [(41, 41)] []) deferral) :: [],
  deferral :: [],
  sp :: [],
  sp :: (.seq (.seq (.cls [(78, 78), (110, 110)] []) (.seq (.cls [(79, 79), (111, 111)] []) (.cls [(84, 84), (116, 116)] []))) (.seq ws (.seq (.seq (.cls [(68, 68), (100, 100)] []) (.seq (.cls [(69, 69), (101, 101)] []) (.seq (.cls [(70, 70), (102, 102)] []) (.seq (.cls [(69, 69), (101, 101)] []) (.seq (.cls [(82, 82), (114, 114)] []) (.seq (.cls [(82, 82), (114, 114)] []) (.seq (.cls [(65, 65), (97, 97)] []) (.seq (.cls [(66, 66), (98, 98)] []) (.seq (.cls [(76, 76), (108, 108)] []) (.cls [(69, 69), (101, 101)] [])))))))))) sp))) :: [],
  sp :: (.seq (.seq (.cls [(68, 68), (100, 100)] []) (.seq (.cls [(69, 69), (101, 101)] []) (.seq (.cls [(70, 70), (102, 102)] []) (.seq (.cls [(69, 69), (101, 101)] []) (.seq (.cls [(82, 82), (114, 114)] []) (.seq (.cls [(82, 82), (114, 114)] []) (.seq (.cls [(65, 65), (97, 97)] []) (.seq (.cls [(66, 66), (98, 98)] []) (.seq (.cls [(76, 76), (108, 108)] []) (.cls [(69, 69), (101, 101)] [])))))))))) (.seq ws (.alt (.seq initially sp) .eps))) :: [],
  sp :: (.seq initially sp) :: [],
  (.seq (.cls [(79, 79), (111, 111)] []) (.cls [(84, 84), (116, 116)] [])) :: (.seq ws (.seq (.seq (.cls [(68, 68), (100, 100)] []) (.seq (.cls [(69, 69), (101, 101)] []) (.seq (.cls [(70, 70), (102, 102)] []) (.seq (.cls [(69, 69), (101, 101)] []) (.seq (.cls [(82, 82), (114, 114)] []) (.seq (.cls [(82, 82), (114, 114)] []) (.seq (.cls [(65, 65), (97, 97)] []) (.seq (.cls [(66, 66), (98, 98)] []) (.seq (.cls [(76, 76), (108, 108)] []) (.cls [(69, 69), (101, 101)] [])))))))))) sp)) :: [],
  (.seq (.cls [(69, 69), (101, 101)] []) (.seq (.cls [(70, 70), (102, 102)] []) (.seq (.cls [(69, 69), (101, 101)] []) (.seq (.cls [(82, 82), (114, 114)] []) (.seq (.cls [(82, 82), (114, 114)] []) (.seq (.cls [(65, 65), (97, 97)] []) (.seq (.cls [(66, 66), (98, 98)] []) (.seq (.cls [(76, 76), (108, 108)] []) (.cls [(69, 69), (101, 101)] []))))))))) :: (.seq ws (.alt (.seq initially sp) .eps)) :: [],
  (.seq (.cls [(78, 78), (110, 110)] []) (.seq (.cls [(73, 73), (105, 105)] []) (.seq (.cls [(84, 84), (116, 116)] []) (.seq (.cls [(73, 73), (105, 105)] []) (.seq (.cls [(65, 65), (97, 97)] []) (.seq (.cls [(76, 76), (108, 108)] []) (.seq (.cls [(76, 76), (108, 108)] []) (.cls [(89, 89), (121, 121)] [])))))))) :: (.seq ws (.alt (.seq (.cls [(73, 73), (105, 105)] []) (.seq (.cls [(77, 77), (109, 109)] []) (.seq (.cls [(77, 77), (109, 109)] []) (.seq (.cls [(69, 69), (101, 101)] []) (.seq (.cls [(68, 68), (100, 100)] []) (.seq (.cls [(73, 73), (105, 105)] []) (.seq (.cls [(65, 65), (97, 97)] []) (.seq (.cls [(84, 84), (116, 116)] []) (.cls [(69, 69), (101, 101)] []))))))))) (.seq (.cls [(68, 68), (100, 100)] []) (.seq (.cls [(69, 69), (101, 101)] []) (.seq (.cls [(70, 70), (102, 102)] []) (.seq (.cls [(69, 69), (101, 101)] []) (.seq (.cls [(82, 82), (114, 114)] []) (.seq (.cls [(82, 82), (114, 114)] []) (.seq (.cls [(69, 69), (101, 101)] []) (.cls [(68, 68), (100, 100)] [])))))))))) :: sp :: [],
  (.cls [(84, 84), (116, 116)] []) :: (.seq ws (.seq (.seq (.cls [(68, 68), (100, 100)] []) (.seq (.cls [(69, 69), (101, 101)] []) (.seq (.cls [(70, 70), (102, 102)] []) (.seq (.cls [(69, 69), (101, 101)] []) (.seq (.cls [(82, 82), (114, 114)] []) (.seq (.cls [(82, 82), (114, 114)] []) (.seq (.cls [(65, 65), (97, 97)] []) (.seq (.cls [(66, 66), (98, 98)] []) (.seq (.cls [(76, 76), (108, 108)] []) (.cls [(69, 69), (101, 101)] [])))))))))) sp)) :: [],
  (.seq (.cls [(70, 70), (102, 102)] []) (.seq (.cls [(69, 69), (101, 101)] []) (.seq (.cls [(82, 82), (114, 114)] []) (.seq (.cls [(82, 82), (114, 114)] []) (.seq (.cls [(65, 65), (97, 97)] []) (.seq (.cls [(66, 66), (98, 98)] []) (.seq (.cls [(76, 76), (108, 108)] []) (.cls [(69, 69), (101, 101)] [])))))))) :: (.seq ws (.alt (.seq initially sp) .eps)) :: [],
  (.seq (.cls [(73, 73), (105, 105)] []) (.seq (.cls [(84, 84), (116, 116)] []) (.seq (.cls [(73, 73), (105, 105)] []) (.seq (.cls [(65, 65), (97, 97)] []) (.seq (.cls [(76, 76), (108, 108)] []) (.seq (.cls [(76, 76), (108, 108)] []) (.cls [(89, 89), (121, 121)] []))))))) :: (.seq ws (.alt (.seq (.cls [(73, 73), (105, 105)] []) (.seq (.cls [(77, 77), (109, 109)] []) (.seq (.cls [(77, 77), (109, 109)] []) (.seq (.cls [(69, 69), (101, 101)] []) (.seq (.cls [(68, 68), (100, 100)] []) (.seq (.cls [(73, 73), (105, 105)] []) (.seq (.cls [(65, 65), (97, 97)] []) (.seq (.cls [(84, 84), (116, 116)] []) (.cls [(69, 69), (101, 101)] []))))))))) (.seq (.cls [(68, 68), (100, 100)] []) (.seq (.cls [(69, 69), (101, 101)] []) (.seq (.cls [(70, 70), (102, 102)] []) (.seq (.cls [(69, 69), (101, 101)] []) (.seq (.cls [(82, 82), (114, 114)] []) (.seq (.cls [(82, 82), (114, 114)] []) (.seq (.cls [(69, 69), (101, 101)] []) (.cls [(68, 68), (100, 100)] [])))))))))) :: sp :: [],
  (.seq ws (.seq (.seq (.cls [(68, 68), (100, 100)] []) (.seq (.cls [(69, 69), (101, 101)] []) (.seq (.cls [(70, 70), (102, 102)] []) (.seq (.cls [(69, 69), (101, 101)] []) (.seq (.cls [(82, 82), (114, 114)] []) (.seq (.cls [(82, 82), (114, 114)] []) (.seq (.cls [(65, 65), (97, 97)] []) (.seq (.cls [(66, 66), (98, 98)] []) (.seq (.cls [(76, 76), (108, 108)] []) (.cls [(69, 69), (101, 101)] [])))))))))) sp)) :: [],
  (.seq (.cls [(69, 69), (101, 101)] []) (.seq (.cls [(82, 82), (114, 114)] []) (.seq (.cls [(82, 82), (114, 114)] []) (.seq (.cls [(65, 65), (97, 97)] []) (.seq (.cls [(66, 66), (98, 98)] []) (.seq (.cls [(76, 76), (108, 108)] []) (.cls [(69, 69), (101, 101)] []))))))) :: (.seq ws (.alt (.seq initially sp) .eps)) :: [],
  (.seq (.cls [(84, 84), (116, 116)] []) (.seq (.cls [(73, 73), (105, 105)] []) (.seq (.cls [(65, 65), (97, 97)] []) (.seq (.cls [(76, 76), (108, 108)] []) (.seq (.cls [(76, 76), (108, 108)] []) (.cls [(89, 89), (121, 121)] [])))))) :: (.seq ws (.alt (.seq (.cls [(73, 73), (105, 105)] []) (.seq (.cls [(77, 77), (109, 109)] []) (.seq (.cls [(77, 77), (109, 109)] []) (.seq (.cls [(69, 69), (101, 101)] []) (.seq (.cls [(68, 68), (100, 100)] []) (.seq (.cls [(73, 73), (105, 105)] []) (.seq (.cls [(65, 65), (97, 97)] []) (.seq (.cls [(84, 84), (116, 116)] []) (.cls [(69, 69), (101, 101)] []))))))))) (.seq (.cls [(68, 68), (100, 100)] []) (.seq (.cls [(69, 69), (101, 101)] []) (.seq (.cls [(70, 70), (102, 102)] []) (.seq (.cls [(69, 69), (101, 101)] []) (.seq (.cls [(82, 82), (114, 114)] []) (.seq (.cls [(82, 82), (114, 114)] []) (.seq (.cls [(69, 69), (101, 101)] []) (.cls [(68, 68), (100, 100)] [])))))))))) :: sp :: [],
  sp :: (.seq (.seq (.cls [(68, 68), (100, 100)] []) (.seq (.cls [(69, 69), (101, 101)] []) (.seq (.cls [(70, 70), (102, 102)] []) (.seq (.cls [(69, 69), (101, 101)] []) (.seq (.cls [(82, 82), (114, 114)] []) (.seq (.cls [(82, 82), (114, 114)] []) (.seq (.cls [(65, 65), (97, 97)] []) (.seq (.cls [(66, 66), (98, 98)] []) (.seq (.cls [(76, 76), (108, 108)] []) (.cls [(69, 69), (101, 101)] [])))))))))) sp) :: [],
  (.seq (.cls [(82, 82), (114, 114)] []) (.seq (.cls [(82, 82), (114, 114)] []) (.seq (.cls [(65, 65), (97, 97)] []) (.seq (.cls [(66, 66), (98, 98)] []) (.seq (.cls [(76, 76), (108, 108)] []) (.cls [(69, 69), (101, 101)] [])))))) :: (.seq ws (.alt (.seq initially sp) .eps)) :: [],
  (.seq (.cls [(73, 73), (105, 105)] []) (.seq (.cls [(65, 65), (97, 97)] []) (.seq (.cls [(76, 76), (108, 108)] []) (.seq (.cls [(76, 76), (108, 108)] []) (.cls [(89, 89), (121, 121)] []))))) :: (.seq ws (.alt (.seq (.cls [(73, 73), (105, 105)] []) (.seq (.cls [(77, 77), (109, 109)] []) (.seq (.cls [(77, 77), (109, 109)] []) (.seq (.cls [(69, 69), (101, 101)] []) (.seq (.cls [(68, 68), (100, 100)] []) (.seq (.cls [(73, 73), (105, 105)] []) (.seq (.cls [(65, 65), (97, 97)] []) (.seq (.cls [(84, 84), (116, 116)] []) (.cls [(69, 69), (101, 101)] []))))))))) (.seq (.cls [(68, 68), (100, 100)] []) (.seq (.cls [(69, 69), (101, 101)] []) (.seq (.cls [(70, 70), (102, 102)] []) (.seq (.cls [(69, 69), (101, 101)] []) (.seq (.cls [(82, 82), (114, 114)] []) (.seq (.cls [(82, 82), (114, 114)] []) (.seq (.cls [(69, 69), (101, 101)] []) (.cls [(68, 68), (100, 100)] [])))))))))) :: sp :: [],
  (.seq (.cls [(69, 69), (101, 101)] []) (.seq (.cls [(70, 70), (102, 102)] []) (.seq (.cls [(69, 69), (101, 101)] []) (.seq (.cls [(82, 82), (114, 114)] []) (.seq (.cls [(82, 82), (114, 114)] []) (.seq (.cls [(65, 65), (97, 97)] []) (.seq (.cls [(66, 66), (98, 98)] []) (.seq (.cls [(76, 76), (108, 108)] []) (.cls [(69, 69), (101, 101)] []))))))))) :: sp :: [],
  (.seq (.cls [(82, 82), (114, 114)] []) (.seq (.cls [(65, 65), (97, 97)] []) (.seq (.cls [(66, 66), (98, 98)] []) (.seq (.cls [(76, 76), (108, 108)] []) (.cls [(69, 69), (101, 101)] []))))) :: (.seq ws (.alt (.seq initially sp) .eps)) :: [],
  (.seq (.cls [(65, 65), (97, 97)] []) (.seq (.cls [(76, 76), (108, 108)] []) (.seq (.cls [(76, 76), (108, 108)] []) (.cls [(89, 89), (121, 121)] [])))) :: (.seq ws (.alt (.seq (.cls [(73, 73), (105, 105)] []) (.seq (.cls [(77, 77), (109, 109)] []) (.seq (.cls [(77, 77), (109, 109)] []) (.seq (.cls [(69, 69), (101, 101)] []) (.seq (.cls [(68, 68), (100, 100)] []) (.seq (.cls [(73, 73), (105, 105)] []) (.seq (.cls [(65, 65), (97, 97)] []) (.seq (.cls [(84, 84), (116, 116)] []) (.cls [(69, 69), (101, 101)] []))))))))) (.seq (.cls [(68, 68), (100, 100)] []) (.seq (.cls [(69, 69), (101, 101)] []) (.seq (.cls [(70, 70), (102, 102)] []) (.seq (.cls [(69, 69), (101, 101)] []) (.seq (.cls [(82, 82), (114, 114)] []) (.seq (.cls [(82, 82), (114, 114)] []) (.seq (.cls [(69, 69), (101, 101)] []) (.cls [(68, 68), (100, 100)] [])))))))))) :: sp :: [],
  (.seq (.cls [(70, 70), (102, 102)] []) (.seq (.cls [(69, 69), (101, 101)] []) (.seq (.cls [(82, 82), (114, 114)] []) (.seq (.cls [(82, 82), (114, 114)] []) (.seq (.cls [(65, 65), (97, 97)] []) (.seq (.cls [(66, 66), (98, 98)] []) (.seq (.cls [(76, 76), (108, 108)] []) (.cls [(69, 69), (101, 101)] [])))))))) :: sp :: [],
  (.seq (.cls [(65, 65), (97, 97)] []) (.seq (.cls [(66, 66), (98, 98)] []) (.seq (.cls [(76, 76), (108, 108)] []) (.cls [(69, 69), (101, 101)] [])))) :: (.seq ws (.alt (.seq initially sp) .eps)) :: [],
  (.seq (.cls [(76, 76), (108, 108)] []) (.seq (.cls [(76, 76), (108, 108)] []) (.cls [(89, 89), (121, 121)] []))) :: (.seq ws (.alt (.seq (.cls [(73, 73), (105, 105)] []) (.seq (.cls [(77, 77), (109, 109)] []) (.seq (.cls [(77, 77), (109, 109)] []) (.seq (.cls [(69, 69), (101, 101)] []) (.seq (.cls [(68, 68), (100, 100)] []) (.seq (.cls [(73, 73), (105, 105)] []) (.seq (.cls [(65, 65), (97, 97)] []) (.seq (.cls [(84, 84), (116, 116)] []) (.cls [(69, 69), (101, 101)] []))))))))) (.seq (.cls [(68, 68), (100, 100)] []) (.seq (.cls [(69, 69), (101, 101)] []) (.seq (.cls [(70, 70), (102, 102)] []) (.seq (.cls [(69, 69), (101, 101)] []) (.seq (.cls [(82, 82), (114, 114)] []) (.seq (.cls [(82, 82), (114, 114)] []) (.seq (.cls [(69, 69), (101, 101)] []) (.cls [(68, 68), (100, 100)] [])))))))))) :: sp :: [],
  (.seq (.cls [(69, 69), (101, 101)] []) (.seq (.cls [(82, 82), (114, 114)] []) (.seq (.cls [(82, 82), (114, 114)] []) (.seq (.cls [(65, 65), (97, 97)] []) (.seq (.cls [(66, 66), (98, 98)] []) (.seq (.cls [(76, 76), (108, 108)] []) (.cls [(69, 69), (101, 101)] []))))))) :: sp :: [],
  (.seq (.cls [(66, 66), (98, 98)] []) (.seq (.cls [(76, 76), (108, 108)] []) (.cls [(69, 69), (101, 101)] []))) :: (.seq ws (.alt (.seq initially sp) .eps)) :: [],
  (.seq (.cls [(76, 76), (108, 108)] []) (.cls [(89, 89), (121, 121)] [])) :: (.seq ws (.alt (.seq (.cls [(73, 73), (105, 105)] []) (.seq (.cls [(77, 77), (109, 109)] []) (.seq (.cls [(77, 77), (109, 109)] []) (.seq (.cls [(69, 69), (101, 101)] []) (.seq (.cls [(68, 68), (100, 100)] []) (.seq (.cls [(73, 73), (105, 105)] []) (.seq (.cls [(65, 65), (97, 97)] []) (.seq (.cls [(84, 84), (116, 116)] []) (.cls [(69, 69), (101, 101)] []))))))))) (.seq (.cls [(68, 68), (100, 100)] []) (.seq (.cls [(69, 69), (101, 101)] []) (.seq (.cls [(70, 70), (102, 102)] []) (.seq (.cls [(69, 69), (101, 101)] []) (.seq (.cls [(82, 82), (114, 114)] []) (.seq (.cls [(82, 82), (114, 114)] []) (.seq (.cls [(69, 69), (101, 101)] []) (.cls [(68, 68), (100, 100)] [])))))))))) :: sp :: [],
  (.seq (.cls [(82, 82), (114, 114)] []) (.seq (.cls [(82, 82), (114, 114)] []) (.seq (.cls [(65, 65), (97, 97)] []) (.seq (.cls [(66, 66), (98, 98)] []) (.seq (.cls [(76, 76), (108, 108)] []) (.cls [(69, 69), (101, 101)] [])))))) :: sp :: [],
  (.seq (.cls [(76, 76), (108, 108)] []) (.cls [(69, 69), (101, 101)] [])) :: (.seq ws (.alt (.seq initially sp) .eps)) :: [],
  (.cls [(89, 89), (121, 121)] []) :: (.seq ws (.alt (.seq (.cls [(73, 73), (105, 105)] []) (.seq (.cls [(77, 77), (109, 109)] []) (.seq (.cls [(77, 77), (109, 109)] []) (.seq (.cls [(69, 69), (101, 101)] []) (.seq (.cls [(68, 68), (100, 100)] []) (.seq (.cls [(73, 73), (105, 105)] []) (.seq (.cls [(65, 65), (97, 97)] []) (.seq (.cls [(84, 84), (116, 116)] []) (.cls [(69, 69), (101, 101)] []))))))))) (.seq (.cls [(68, 68), (100, 100)] []) (.seq (.cls [(69, 69), (101, 101)] []) (.seq (.cls [(70, 70), (102, 102)] []) (.seq (.cls [(69, 69), (101, 101)] []) (.seq (.cls [(82, 82), (114, 114)] []) (.seq (.cls [(82, 82), (114, 114)] []) (.seq (.cls [(69, 69), (101, 101)] []) (.cls [(68, 68), (100, 100)] [])))))))))) :: sp :: [],
  (.seq (.cls [(82, 82), (114, 114)] []) (.seq (.cls [(65, 65), (97, 97)] []) (.seq (.cls [(66, 66), (98, 98)] []) (.seq (.cls [(76, 76), (108, 108)] []) (.cls [(69, 69), (101, 101)] []))))) :: sp :: [],
  (.cls [(69, 69), (101, 101)] []) :: (.seq ws (.alt (.seq initially sp) .eps)) :: [],
  (.seq ws (.alt (.seq (.cls [(73, 73), (105, 105)] []) (.seq (.cls [(77, 77), (109, 109)] []) (.seq (.cls [(77, 77), (109, 109)] []) (.seq (.cls [(69, 69), (101, 101)] []) (.seq (.cls [(68, 68), (100, 100)] []) (.seq (.cls [(73, 73), (105, 105)] []) (.seq (.cls [(65, 65), (97, 97)] []) (.seq (.cls [(84, 84), (116, 116)] []) (.cls [(69, 69), (101, 101)] []))))))))) (.seq (.cls [(68, 68), (100, 100)] []) (.seq (.cls [(69, 69), (101, 101)] []) (.seq (.cls [(70, 70), (102, 102)] []) (.seq (.cls [(69, 69), (101, 101)] []) (.seq (.cls [(82, 82), (114, 114)] []) (.seq (.cls [(82, 82), (114, 114)] []) (.seq (.cls [(69, 69), (101, 101)] []) (.cls [(68, 68), (100, 100)] [])))))))))) :: sp :: [],
  (.seq (.cls [(65, 65), (97, 97)] []) (.seq (.cls [(66, 66), (98, 98)] []) (.seq (.cls [(76, 76), (108, 108)] []) (.cls [(69, 69), (101, 101)] [])))) :: sp :: [],
  (.seq ws (.alt (.seq initially sp) .eps)) :: [],
  sp :: (.alt (.seq (.cls [(73, 73), (105, 105)] []) (.seq (.cls [(77, 77), (109, 109)] []) (.seq (.cls [(77, 77), (109, 109)] []) (.seq (.cls [(69, 69), (101, 101)] []) (.seq (.cls [(68, 68), (100, 100)] []) (.seq (.cls [(73, 73), (105, 105)] []) (.seq (.cls [(65, 65), (97, 97)] []) (.seq (.cls [(84, 84), (116, 116)] []) (.cls [(69, 69), (101, 101)] []))))))))) (.seq (.cls [(68, 68), (100, 100)] []) (.seq (.cls [(69, 69), (101, 101)] []) (.seq (.cls [(70, 70), (102, 102)] []) (.seq (.cls [(69, 69), (101, 101)] []) (.seq (.cls [(82, 82), (114, 114)] []) (.seq (.cls [(82, 82), (114, 114)] []) (.seq (.cls [(69, 69), (101, 101)] []) (.cls [(68, 68), (100, 100)] []))))))))) :: sp :: [],
  (.seq (.cls [(66, 66), (98, 98)] []) (.seq (.cls [(76, 76), (108, 108)] []) (.cls [(69, 69), (101, 101)] []))) :: sp :: [],
  sp :: (.alt (.seq initially sp) .eps) :: [],
  (.seq (.cls [(77, 77), (109, 109)] []) (.seq (.cls [(77, 77), (109, 109)] []) (.seq (.cls [(69, 69), (101, 101)] []) (.seq (.cls [(68, 68), (100, 100)] []) (.seq (.cls [(73, 73), (105, 105)] []) (.seq (.cls [(65, 65), (97, 97)] []) (.seq (.cls [(84, 84), (116, 116)] []) (.cls [(69, 69), (101, 101)] [])))))))) :: sp :: [],
  (.seq (.cls [(69, 69), (101, 101)] []) (.seq (.cls [(70, 70), (102, 102)] []) (.seq (.cls [(69, 69), (101, 101)] []) (.seq (.cls [(82, 82), (114, 114)] []) (.seq (.cls [(82, 82), (114, 114)] []) (.seq (.cls [(69, 69), (101, 101)] []) (.cls [(68, 68), (100, 100)] []))))))) :: sp :: [],
  (.seq (.cls [(76, 76), (108, 108)] []) (.cls [(69, 69), (101, 101)] [])) :: sp :: [],
  (.seq (.cls [(77, 77), (109, 109)] []) (.seq (.cls [(69, 69), (101, 101)] []) (.seq (.cls [(68, 68), (100, 100)] []) (.seq (.cls [(73, 73), (105, 105)] []) (.seq (.cls [(65, 65), (97, 97)] []) (.seq (.cls [(84, 84), (116, 116)] []) (.cls [(69, 69), (101, 101)] []))))))) :: sp :: [],
  (.seq (.cls [(70, 70), (102, 102)] []) (.seq (.cls [(69, 69), (101, 101)] []) (.seq (.cls [(82, 82), (114, 114)] []) (.seq (.cls [(82, 82), (114, 114)] []) (.seq (.cls [(69, 69), (101, 101)] []) (.cls [(68, 68), (100, 100)] [])))))) :: sp :: [],
  (.cls [(69, 69), (101, 101)] []) :: sp :: [],
  (.seq (.cls [(69, 69), (101, 101)] []) (.seq (.cls [(68, 68), (100, 100)] []) (.seq (.cls [(73, 73), (105, 105)] []) (.seq (.cls [(65, 65), (97, 97)] []) (.seq (.cls [(84, 84), (116, 116)] []) (.cls [(69, 69), (101, 101)] [])))))) :: sp :: [],
  (.seq (.cls [(69, 69), (101, 101)] []) (.seq (.cls [(82, 82), (114, 114)] []) (.seq (.cls [(82, 82), (114, 114)] []) (.seq (.cls [(69, 69), (101, 101)] []) (.cls [(68, 68), (100, 100)] []))))) :: sp :: [],
  (.seq (.cls [(68, 68), (100, 100)] []) (.seq (.cls [(73, 73), (105, 105)] []) (.seq (.cls [(65, 65), (97, 97)] []) (.seq (.cls [(84, 84), (116, 116)] []) (.cls [(69, 69), (101, 101)] []))))) :: sp :: [],
  (.seq (.cls [(82, 82), (114, 114)] []) (.seq (.cls [(82, 82), (114, 114)] []) (.seq (.cls [(69, 69), (101, 101)] []) (.cls [(68, 68), (100, 100)] [])))) :: sp :: [],
  (.seq (.cls [(73, 73), (105, 105)] []) (.seq (.cls [(65, 65), (97, 97)] []) (.seq (.cls [(84, 84), (116, 116)] []) (.cls [(69, 69), (101, 101)] [])))) :: sp :: [],
  (.seq (.cls [(82, 82), (114, 114)] []) (.seq (.cls [(69, 69), (101, 101)] []) (.cls [(68, 68), (100, 100)] []))) :: sp :: [],
  (.seq (.cls [(65, 65), (97, 97)] []) (.seq (.cls [(84, 84), (116, 116)] []) (.cls [(69, 69), (101, 101)] []))) :: sp :: [],
  (.seq (.cls [(69, 69), (101, 101)] []) (.cls [(68, 68), (100, 100)] [])) :: sp :: [],
  (.seq (.cls [(84, 84), (116, 116)] []) (.cls [(69, 69), (101, 101)] [])) :: sp :: [],
  (.cls [(68, 68), (100, 100)] []) :: sp :: []]

/-- Their linear forms. -/
def lins : List (List (NLin CheckAct)) := [
  [⟨[(9, 13), (32, 32)], [], 0⟩, ⟨[(67, 67), (99, 99)], [], 1⟩],
  [⟨[(72, 72), (104, 104)], [], 2⟩],
  [⟨[(69, 69), (101, 101)], [], 3⟩],
  [⟨[(67, 67), (99, 99)], [], 4⟩],
  [⟨[(75, 75), (107, 107)], [], 5⟩],
  [⟨[(9, 13), (32, 32)], [], 5⟩, ⟨[(40, 40)], [], 6⟩],
  [⟨[(0, 255)], [], 6⟩, ⟨[(41, 41)], [], 7⟩],
  [⟨[(9, 13), (32, 32)], [], 8⟩],
  [⟨[(9, 13), (32, 32)], [], 8⟩, ⟨[(68, 68), (100, 100)], [], 9⟩, ⟨[(73, 73), (105, 105)], [], 10⟩],
  [⟨[(69, 69), (101, 101)], [], 11⟩],
  [⟨[(78, 78), (110, 110)], [], 12⟩],
  [⟨[(70, 70), (102, 102)], [], 13⟩],
  [⟨[(73, 73), (105, 105)], [], 14⟩],
  [⟨[(69, 69), (101, 101)], [], 15⟩],
  [⟨[(84, 84), (116, 116)], [], 16⟩],
  [⟨[(82, 82), (114, 114)], [], 17⟩],
  [⟨[(73, 73), (105, 105)], [], 18⟩],
  [⟨[(82, 82), (114, 114)], [], 19⟩],
  [⟨[(65, 65), (97, 97)], [], 20⟩],
  [⟨[(65, 65), (97, 97)], [], 21⟩],
  [⟨[(76, 76), (108, 108)], [], 22⟩],
  [⟨[(66, 66), (98, 98)], [], 23⟩],
  [⟨[(76, 76), (108, 108)], [], 24⟩],
  [⟨[(76, 76), (108, 108)], [], 25⟩],
  [⟨[(89, 89), (121, 121)], [], 26⟩],
  [⟨[(69, 69), (101, 101)], [], 27⟩],
  [⟨[(9, 13), (32, 32)], [], 28⟩],
  [⟨[(9, 13), (32, 32)], [], 29⟩],
  [⟨[(9, 13), (32, 32)], [], 28⟩, ⟨[(68, 68), (100, 100)], [], 30⟩],
  [⟨[(9, 13), (32, 32)], [], 29⟩, ⟨[(73, 73), (105, 105)], [], 10⟩],
  [⟨[(69, 69), (101, 101)], [], 31⟩],
  [⟨[(70, 70), (102, 102)], [], 32⟩],
  [⟨[(69, 69), (101, 101)], [], 33⟩],
  [⟨[(82, 82), (114, 114)], [], 34⟩],
  [⟨[(82, 82), (114, 114)], [], 35⟩],
  [⟨[(69, 69), (101, 101)], [], 36⟩],
  [⟨[(68, 68), (100, 100)], [], 37⟩],
  [⟨[(0, 255)], [], 38⟩, ⟨[(41, 41)], [], 39⟩, ⟨[(9, 13), (32, 32)], [], 40⟩],
  [⟨[(0, 255)], [], 38⟩, ⟨[(41, 41)], [], 39⟩],
  [⟨[(9, 13), (32, 32)], [], 40⟩, ⟨[(9, 13), (32, 32)], [], 41⟩, ⟨[(9, 13), (32, 32)], [], 42⟩, ⟨[(9, 13), (32, 32)], [], 43⟩],
  [⟨[(9, 13), (32, 32)], [], 40⟩],
  [⟨[(9, 13), (32, 32)], [], 41⟩, ⟨[(78, 78), (110, 110)], [], 44⟩],
  [⟨[(9, 13), (32, 32)], [], 42⟩, ⟨[(68, 68), (100, 100)], [], 45⟩],
  [⟨[(9, 13), (32, 32)], [], 43⟩, ⟨[(73, 73), (105, 105)], [], 46⟩],
  [⟨[(79, 79), (111, 111)], [], 47⟩],
  [⟨[(69, 69), (101, 101)], [], 48⟩],
  [⟨[(78, 78), (110, 110)], [], 49⟩],
  [⟨[(84, 84), (116, 116)], [], 50⟩],
  [⟨[(70, 70), (102, 102)], [], 51⟩],
  [⟨[(73, 73), (105, 105)], [], 52⟩],
  [⟨[(9, 13), (32, 32)], [], 53⟩],
  [⟨[(69, 69), (101, 101)], [], 54⟩],
  [⟨[(84, 84), (116, 116)], [], 55⟩],
  [⟨[(9, 13), (32, 32)], [], 53⟩, ⟨[(68, 68), (100, 100)], [], 56⟩],
  [⟨[(82, 82), (114, 114)], [], 57⟩],
  [⟨[(73, 73), (105, 105)], [], 58⟩],
  [⟨[(69, 69), (101, 101)], [], 59⟩],
  [⟨[(82, 82), (114, 114)], [], 60⟩],
  [⟨[(65, 65), (97, 97)], [], 61⟩],
  [⟨[(70, 70), (102, 102)], [], 62⟩],
  [⟨[(65, 65), (97, 97)], [], 63⟩],
  [⟨[(76, 76), (108, 108)], [], 64⟩],
  [⟨[(69, 69), (101, 101)], [], 65⟩],
  [⟨[(66, 66), (98, 98)], [], 66⟩],
  [⟨[(76, 76), (108, 108)], [], 67⟩],
  [⟨[(82, 82), (114, 114)], [], 68⟩],
  [⟨[(76, 76), (108, 108)], [], 69⟩],
  [⟨[(89, 89), (121, 121)], [], 70⟩],
  [⟨[(82, 82), (114, 114)], [], 71⟩],
  [⟨[(69, 69), (101, 101)], [], 72⟩],
  [⟨[(9, 13), (32, 32)], [], 73⟩],
  [⟨[(65, 65), (97, 97)], [], 74⟩],
  [⟨[(9, 13), (32, 32)], [], 75⟩],
  [⟨[(9, 13), (32, 32)], [], 73⟩, ⟨[(73, 73), (105, 105)], [], 76⟩, ⟨[(68, 68), (100, 100)], [], 77⟩],
  [⟨[(66, 66), (98, 98)], [], 78⟩],
  [⟨[(9, 13), (32, 32)], [], 75⟩, ⟨[(73, 73), (105, 105)], [], 46⟩],
  [⟨[(77, 77), (109, 109)], [], 79⟩],
  [⟨[(69, 69), (101, 101)], [], 80⟩],
  [⟨[(76, 76), (108, 108)], [], 81⟩],
  [⟨[(77, 77), (109, 109)], [], 82⟩],
  [⟨[(70, 70), (102, 102)], [], 83⟩],
  [⟨[(69, 69), (101, 101)], [], 40⟩],
  [⟨[(69, 69), (101, 101)], [], 84⟩],
  [⟨[(69, 69), (101, 101)], [], 85⟩],
  [⟨[(68, 68), (100, 100)], [], 86⟩],
  [⟨[(82, 82), (114, 114)], [], 87⟩],
  [⟨[(73, 73), (105, 105)], [], 88⟩],
  [⟨[(82, 82), (114, 114)], [], 89⟩],
  [⟨[(65, 65), (97, 97)], [], 90⟩],
  [⟨[(69, 69), (101, 101)], [], 91⟩],
  [⟨[(84, 84), (116, 116)], [], 81⟩],
  [⟨[(68, 68), (100, 100)], [], 40⟩]]

/-- The ways they match the empty string. -/
def nulls : List (List (List CheckAct)) := [
  [],
  [],
  [],
  [],
  [],
  [],
  [],
  [],
  [],
  [],
  [],
  [],
  [],
  [],
  [],
  [],
  [],
  [],
  [],
  [],
  [],
  [],
  [],
  [],
  [],
  [],
  [],
  [],
  [],
  [],
  [],
  [],
  [],
  [],
  [],
  [],
  [],
  [[]],
  [],
  [[]],
  [[]],
  [],
  [],
  [],
  [],
  [],
  [],
  [],
  [],
  [],
  [],
  [],
  [],
  [],
  [],
  [],
  [],
  [],
  [],
  [],
  [],
  [],
  [],
  [],
  [],
  [],
  [],
  [],
  [],
  [],
  [],
  [],
  [],
  [],
  [],
  [[]],
  [],
  [],
  [],
  [],
  [],
  [],
  [],
  [],
  [],
  [],
  [],
  [],
  [],
  [],
  [],
  []]

/-- Machine states with the stacks that can remain there. -/
def entries : List Entry := [
  ⟨1, [0], [(9, 13, 0), (32, 32, 0), (67, 67, 1), (99, 99, 1)]⟩,
  ⟨2, [1], [(72, 72, 2), (104, 104, 2)]⟩,
  ⟨3, [2], [(69, 69, 3), (101, 101, 3)]⟩,
  ⟨4, [3], [(67, 67, 4), (99, 99, 4)]⟩,
  ⟨5, [4], [(75, 75, 5), (107, 107, 5)]⟩,
  ⟨6, [5], [(9, 13, 5), (32, 32, 5), (40, 40, 6)]⟩,
  ⟨7, [6], [(0, 40, 7), (41, 41, 8), (42, 255, 7)]⟩,
  ⟨8, [6], [(0, 40, 7), (41, 41, 8), (42, 255, 7)]⟩,
  ⟨56, [6, 7], [(0, 8, 7), (9, 13, 9), (14, 31, 7), (32, 32, 9), (33, 40, 7), (41, 41, 8), (42, 255, 7)]⟩,
  ⟨57, [6, 8], [(0, 8, 7), (9, 13, 9), (14, 31, 7), (32, 32, 9), (33, 40, 7), (41, 41, 8), (42, 67, 7), (68, 68, 10), (69, 72, 7), (73, 73, 11), (74, 77, 7), (78, 78, 12), (79, 99, 7), (100, 100, 10), (101, 104, 7), (105, 105, 11), (106, 109, 7), (110, 110, 12), (111, 255, 7)]⟩,
  ⟨9, [6, 9], [(0, 40, 7), (41, 41, 8), (42, 68, 7), (69, 69, 13), (70, 100, 7), (101, 101, 13), (102, 255, 7)]⟩,
  ⟨19, [6, 10], [(0, 40, 7), (41, 41, 8), (42, 77, 7), (78, 78, 14), (79, 109, 7), (110, 110, 14), (111, 255, 7)]⟩,
  ⟨44, [6], [(0, 40, 7), (41, 41, 8), (42, 78, 7), (79, 79, 15), (80, 110, 7), (111, 111, 15), (112, 255, 7)]⟩,
  ⟨10, [6, 11], [(0, 40, 7), (41, 41, 8), (42, 69, 7), (70, 70, 16), (71, 101, 7), (102, 102, 16), (103, 255, 7)]⟩,
  ⟨20, [6, 12], [(0, 40, 7), (41, 41, 8), (42, 72, 7), (73, 73, 17), (74, 104, 7), (105, 105, 17), (106, 255, 7)]⟩,
  ⟨45, [6], [(0, 40, 7), (41, 41, 8), (42, 83, 7), (84, 84, 18), (85, 115, 7), (116, 116, 18), (117, 255, 7)]⟩,
  ⟨11, [6, 13], [(0, 40, 7), (41, 41, 8), (42, 68, 7), (69, 69, 19), (70, 100, 7), (101, 101, 19), (102, 255, 7)]⟩,
  ⟨21, [6, 14], [(0, 40, 7), (41, 41, 8), (42, 83, 7), (84, 84, 20), (85, 115, 7), (116, 116, 20), (117, 255, 7)]⟩,
  ⟨46, [6], [(0, 8, 7), (9, 13, 21), (14, 31, 7), (32, 32, 21), (33, 40, 7), (41, 41, 8), (42, 255, 7)]⟩,
  ⟨12, [6, 15], [(0, 40, 7), (41, 41, 8), (42, 81, 7), (82, 82, 22), (83, 113, 7), (114, 114, 22), (115, 255, 7)]⟩,
  ⟨22, [6, 16], [(0, 40, 7), (41, 41, 8), (42, 72, 7), (73, 73, 23), (74, 104, 7), (105, 105, 23), (106, 255, 7)]⟩,
  ⟨47, [6], [(0, 8, 7), (9, 13, 21), (14, 31, 7), (32, 32, 21), (33, 40, 7), (41, 41, 8), (42, 67, 7), (68, 68, 24), (69, 99, 7), (100, 100, 24), (101, 255, 7)]⟩,
  ⟨13, [6, 17], [(0, 40, 7), (41, 41, 8), (42, 81, 7), (82, 82, 25), (83, 113, 7), (114, 114, 25), (115, 255, 7)]⟩,
  ⟨23, [6, 18], [(0, 40, 7), (41, 41, 8), (42, 64, 7), (65, 65, 26), (66, 96, 7), (97, 97, 26), (98, 255, 7)]⟩,
  ⟨48, [6], [(0, 40, 7), (41, 41, 8), (42, 68, 7), (69, 69, 27), (70, 100, 7), (101, 101, 27), (102, 255, 7)]⟩,
  ⟨14, [6, 19], [(0, 40, 7), (41, 41, 8), (42, 64, 7), (65, 65, 28), (66, 96, 7), (97, 97, 28), (98, 255, 7)]⟩,
  ⟨24, [6, 20], [(0, 40, 7), (41, 41, 8), (42, 75, 7), (76, 76, 29), (77, 107, 7), (108, 108, 29), (109, 255, 7)]⟩,
  ⟨49, [6], [(0, 40, 7), (41, 41, 8), (42, 69, 7), (70, 70, 30), (71, 101, 7), (102, 102, 30), (103, 255, 7)]⟩,
  ⟨15, [6, 21], [(0, 40, 7), (41, 41, 8), (42, 65, 7), (66, 66, 31), (67, 97, 7), (98, 98, 31), (99, 255, 7)]⟩,
  ⟨25, [6, 22], [(0, 40, 7), (41, 41, 8), (42, 75, 7), (76, 76, 32), (77, 107, 7), (108, 108, 32), (109, 255, 7)]⟩,
  ⟨50, [6], [(0, 40, 7), (41, 41, 8), (42, 68, 7), (69, 69, 33), (70, 100, 7), (101, 101, 33), (102, 255, 7)]⟩,
  ⟨16, [6, 23], [(0, 40, 7), (41, 41, 8), (42, 75, 7), (76, 76, 34), (77, 107, 7), (108, 108, 34), (109, 255, 7)]⟩,
  ⟨26, [6, 24], [(0, 40, 7), (41, 41, 8), (42, 88, 7), (89, 89, 35), (90, 120, 7), (121, 121, 35), (122, 255, 7)]⟩,
  ⟨51, [6], [(0, 40, 7), (41, 41, 8), (42, 81, 7), (82, 82, 36), (83, 113, 7), (114, 114, 36), (115, 255, 7)]⟩,
  ⟨17, [6, 25], [(0, 40, 7), (41, 41, 8), (42, 68, 7), (69, 69, 37), (70, 100, 7), (101, 101, 37), (102, 255, 7)]⟩,
  ⟨27, [6, 26], [(0, 8, 7), (9, 13, 38), (14, 31, 7), (32, 32, 38), (33, 40, 7), (41, 41, 8), (42, 255, 7)]⟩,
  ⟨52, [6], [(0, 40, 7), (41, 41, 8), (42, 81, 7), (82, 82, 39), (83, 113, 7), (114, 114, 39), (115, 255, 7)]⟩,
  ⟨18, [6, 27], [(0, 8, 7), (9, 13, 40), (14, 31, 7), (32, 32, 40), (33, 40, 7), (41, 41, 8), (42, 255, 7)]⟩,
  ⟨28, [6, 28], [(0, 8, 7), (9, 13, 38), (14, 31, 7), (32, 32, 38), (33, 40, 7), (41, 41, 8), (42, 67, 7), (68, 68, 41), (69, 72, 7), (73, 73, 42), (74, 99, 7), (100, 100, 41), (101, 104, 7), (105, 105, 42), (106, 255, 7)]⟩,
  ⟨53, [6], [(0, 40, 7), (41, 41, 8), (42, 64, 7), (65, 65, 43), (66, 96, 7), (97, 97, 43), (98, 255, 7)]⟩,
  ⟨58, [6, 29], [(0, 8, 7), (9, 13, 40), (14, 31, 7), (32, 32, 40), (33, 40, 7), (41, 41, 8), (42, 72, 7), (73, 73, 11), (74, 104, 7), (105, 105, 11), (106, 255, 7)]⟩,
  ⟨29, [6, 30], [(0, 40, 7), (41, 41, 8), (42, 68, 7), (69, 69, 44), (70, 100, 7), (101, 101, 44), (102, 255, 7)]⟩,
  ⟨36, [6], [(0, 40, 7), (41, 41, 8), (42, 76, 7), (77, 77, 45), (78, 108, 7), (109, 109, 45), (110, 255, 7)]⟩,
  ⟨54, [6], [(0, 40, 7), (41, 41, 8), (42, 65, 7), (66, 66, 46), (67, 97, 7), (98, 98, 46), (99, 255, 7)]⟩,
  ⟨30, [6, 31], [(0, 40, 7), (41, 41, 8), (42, 69, 7), (70, 70, 47), (71, 101, 7), (102, 102, 47), (103, 255, 7)]⟩,
  ⟨37, [6], [(0, 40, 7), (41, 41, 8), (42, 76, 7), (77, 77, 48), (78, 108, 7), (109, 109, 48), (110, 255, 7)]⟩,
  ⟨55, [6], [(0, 40, 7), (41, 41, 8), (42, 75, 7), (76, 76, 49), (77, 107, 7), (108, 108, 49), (109, 255, 7)]⟩,
  ⟨31, [6, 32], [(0, 40, 7), (41, 41, 8), (42, 68, 7), (69, 69, 50), (70, 100, 7), (101, 101, 50), (102, 255, 7)]⟩,
  ⟨38, [6], [(0, 40, 7), (41, 41, 8), (42, 68, 7), (69, 69, 51), (70, 100, 7), (101, 101, 51), (102, 255, 7)]⟩,
  ⟨43, [6], [(0, 40, 7), (41, 41, 8), (42, 68, 7), (69, 69, 52), (70, 100, 7), (101, 101, 52), (102, 255, 7)]⟩,
  ⟨32, [6, 33], [(0, 40, 7), (41, 41, 8), (42, 81, 7), (82, 82, 53), (83, 113, 7), (114, 114, 53), (115, 255, 7)]⟩,
  ⟨39, [6], [(0, 40, 7), (41, 41, 8), (42, 67, 7), (68, 68, 54), (69, 99, 7), (100, 100, 54), (101, 255, 7)]⟩,
  ⟨59, [6], [(0, 8, 7), (9, 13, 52), (14, 31, 7), (32, 32, 52), (33, 40, 7), (41, 41, 8), (42, 255, 7)]⟩,
  ⟨33, [6, 34], [(0, 40, 7), (41, 41, 8), (42, 81, 7), (82, 82, 55), (83, 113, 7), (114, 114, 55), (115, 255, 7)]⟩,
  ⟨40, [6], [(0, 40, 7), (41, 41, 8), (42, 72, 7), (73, 73, 56), (74, 104, 7), (105, 105, 56), (106, 255, 7)]⟩,
  ⟨34, [6, 35], [(0, 40, 7), (41, 41, 8), (42, 68, 7), (69, 69, 57), (70, 100, 7), (101, 101, 57), (102, 255, 7)]⟩,
  ⟨41, [6], [(0, 40, 7), (41, 41, 8), (42, 64, 7), (65, 65, 58), (66, 96, 7), (97, 97, 58), (98, 255, 7)]⟩,
  ⟨35, [6, 36], [(0, 40, 7), (41, 41, 8), (42, 67, 7), (68, 68, 59), (69, 99, 7), (100, 100, 59), (101, 255, 7)]⟩,
  ⟨42, [6], [(0, 40, 7), (41, 41, 8), (42, 83, 7), (84, 84, 49), (85, 115, 7), (116, 116, 49), (117, 255, 7)]⟩,
  ⟨119, [6, 37], [(0, 8, 60), (9, 13, 61), (14, 31, 60), (32, 32, 61), (33, 40, 60), (41, 41, 62), (42, 255, 60)]⟩,
  ⟨68, [6, 38], [(0, 40, 60), (41, 41, 62), (42, 255, 60)]⟩,
  ⟨119, [6, 38, 40], [(0, 8, 60), (9, 13, 61), (14, 31, 60), (32, 32, 61), (33, 40, 60), (41, 41, 62), (42, 255, 60)]⟩,
  ⟨116, [6, 7, 38, 39], [(0, 8, 60), (9, 13, 63), (14, 31, 60), (32, 32, 63), (33, 40, 60), (41, 41, 62), (42, 255, 60)]⟩,
  ⟨117, [6, 8, 38, 40, 41, 42, 43], [(0, 8, 60), (9, 13, 63), (14, 31, 60), (32, 32, 63), (33, 40, 60), (41, 41, 62), (42, 67, 60), (68, 68, 64), (69, 72, 60), (73, 73, 65), (74, 77, 60), (78, 78, 66), (79, 99, 60), (100, 100, 64), (101, 104, 60), (105, 105, 65), (106, 109, 60), (110, 110, 66), (111, 255, 60)]⟩,
  ⟨69, [6, 9, 38, 45], [(0, 40, 60), (41, 41, 62), (42, 68, 60), (69, 69, 67), (70, 100, 60), (101, 101, 67), (102, 255, 60)]⟩,
  ⟨79, [6, 10, 38, 46], [(0, 40, 60), (41, 41, 62), (42, 77, 60), (78, 78, 68), (79, 109, 60), (110, 110, 68), (111, 255, 60)]⟩,
  ⟨104, [6, 38, 44], [(0, 40, 60), (41, 41, 62), (42, 78, 60), (79, 79, 69), (80, 110, 60), (111, 111, 69), (112, 255, 60)]⟩,
  ⟨70, [6, 11, 38, 48], [(0, 40, 60), (41, 41, 62), (42, 69, 60), (70, 70, 70), (71, 101, 60), (102, 102, 70), (103, 255, 60)]⟩,
  ⟨80, [6, 12, 38, 49], [(0, 40, 60), (41, 41, 62), (42, 72, 60), (73, 73, 71), (74, 104, 60), (105, 105, 71), (106, 255, 60)]⟩,
  ⟨105, [6, 38, 47], [(0, 40, 60), (41, 41, 62), (42, 83, 60), (84, 84, 72), (85, 115, 60), (116, 116, 72), (117, 255, 60)]⟩,
  ⟨71, [6, 13, 38, 51], [(0, 40, 60), (41, 41, 62), (42, 68, 60), (69, 69, 73), (70, 100, 60), (101, 101, 73), (102, 255, 60)]⟩,
  ⟨81, [6, 14, 38, 52], [(0, 40, 60), (41, 41, 62), (42, 83, 60), (84, 84, 74), (85, 115, 60), (116, 116, 74), (117, 255, 60)]⟩,
  ⟨106, [6, 38, 50], [(0, 8, 60), (9, 13, 75), (14, 31, 60), (32, 32, 75), (33, 40, 60), (41, 41, 62), (42, 255, 60)]⟩,
  ⟨72, [6, 15, 38, 54], [(0, 40, 60), (41, 41, 62), (42, 81, 60), (82, 82, 76), (83, 113, 60), (114, 114, 76), (115, 255, 60)]⟩,
  ⟨82, [6, 16, 38, 55], [(0, 40, 60), (41, 41, 62), (42, 72, 60), (73, 73, 77), (74, 104, 60), (105, 105, 77), (106, 255, 60)]⟩,
  ⟨107, [6, 38, 53], [(0, 8, 60), (9, 13, 75), (14, 31, 60), (32, 32, 75), (33, 40, 60), (41, 41, 62), (42, 67, 60), (68, 68, 78), (69, 99, 60), (100, 100, 78), (101, 255, 60)]⟩,
  ⟨73, [6, 17, 38, 57], [(0, 40, 60), (41, 41, 62), (42, 81, 60), (82, 82, 79), (83, 113, 60), (114, 114, 79), (115, 255, 60)]⟩,
  ⟨83, [6, 18, 38, 58], [(0, 40, 60), (41, 41, 62), (42, 64, 60), (65, 65, 80), (66, 96, 60), (97, 97, 80), (98, 255, 60)]⟩,
  ⟨108, [6, 38, 56], [(0, 40, 60), (41, 41, 62), (42, 68, 60), (69, 69, 81), (70, 100, 60), (101, 101, 81), (102, 255, 60)]⟩,
  ⟨74, [6, 19, 38, 60], [(0, 40, 60), (41, 41, 62), (42, 64, 60), (65, 65, 82), (66, 96, 60), (97, 97, 82), (98, 255, 60)]⟩,
  ⟨84, [6, 20, 38, 61], [(0, 40, 60), (41, 41, 62), (42, 75, 60), (76, 76, 83), (77, 107, 60), (108, 108, 83), (109, 255, 60)]⟩,
  ⟨109, [6, 38, 59], [(0, 40, 60), (41, 41, 62), (42, 69, 60), (70, 70, 84), (71, 101, 60), (102, 102, 84), (103, 255, 60)]⟩,
  ⟨75, [6, 21, 38, 63], [(0, 40, 60), (41, 41, 62), (42, 65, 60), (66, 66, 85), (67, 97, 60), (98, 98, 85), (99, 255, 60)]⟩,
  ⟨85, [6, 22, 38, 64], [(0, 40, 60), (41, 41, 62), (42, 75, 60), (76, 76, 86), (77, 107, 60), (108, 108, 86), (109, 255, 60)]⟩,
  ⟨110, [6, 38, 62], [(0, 40, 60), (41, 41, 62), (42, 68, 60), (69, 69, 87), (70, 100, 60), (101, 101, 87), (102, 255, 60)]⟩,
  ⟨76, [6, 23, 38, 66], [(0, 40, 60), (41, 41, 62), (42, 75, 60), (76, 76, 88), (77, 107, 60), (108, 108, 88), (109, 255, 60)]⟩,
  ⟨86, [6, 24, 38, 67], [(0, 40, 60), (41, 41, 62), (42, 88, 60), (89, 89, 89), (90, 120, 60), (121, 121, 89), (122, 255, 60)]⟩,
  ⟨111, [6, 38, 65], [(0, 40, 60), (41, 41, 62), (42, 81, 60), (82, 82, 90), (83, 113, 60), (114, 114, 90), (115, 255, 60)]⟩,
  ⟨77, [6, 25, 38, 69], [(0, 40, 60), (41, 41, 62), (42, 68, 60), (69, 69, 91), (70, 100, 60), (101, 101, 91), (102, 255, 60)]⟩,
  ⟨87, [6, 26, 38, 70], [(0, 8, 60), (9, 13, 92), (14, 31, 60), (32, 32, 92), (33, 40, 60), (41, 41, 62), (42, 255, 60)]⟩,
  ⟨112, [6, 38, 68], [(0, 40, 60), (41, 41, 62), (42, 81, 60), (82, 82, 93), (83, 113, 60), (114, 114, 93), (115, 255, 60)]⟩,
  ⟨78, [6, 27, 38, 72], [(0, 8, 60), (9, 13, 94), (14, 31, 60), (32, 32, 94), (33, 40, 60), (41, 41, 62), (42, 255, 60)]⟩,
  ⟨88, [6, 28, 38, 73], [(0, 8, 60), (9, 13, 92), (14, 31, 60), (32, 32, 92), (33, 40, 60), (41, 41, 62), (42, 67, 60), (68, 68, 95), (69, 72, 60), (73, 73, 96), (74, 99, 60), (100, 100, 95), (101, 104, 60), (105, 105, 96), (106, 255, 60)]⟩,
  ⟨113, [6, 38, 71], [(0, 40, 60), (41, 41, 62), (42, 64, 60), (65, 65, 97), (66, 96, 60), (97, 97, 97), (98, 255, 60)]⟩,
  ⟨118, [6, 29, 38, 75], [(0, 8, 60), (9, 13, 94), (14, 31, 60), (32, 32, 94), (33, 40, 60), (41, 41, 62), (42, 72, 60), (73, 73, 65), (74, 104, 60), (105, 105, 65), (106, 255, 60)]⟩,
  ⟨89, [6, 30, 38, 77], [(0, 40, 60), (41, 41, 62), (42, 68, 60), (69, 69, 98), (70, 100, 60), (101, 101, 98), (102, 255, 60)]⟩,
  ⟨96, [6, 38, 76], [(0, 40, 60), (41, 41, 62), (42, 76, 60), (77, 77, 99), (78, 108, 60), (109, 109, 99), (110, 255, 60)]⟩,
  ⟨114, [6, 38, 74], [(0, 40, 60), (41, 41, 62), (42, 65, 60), (66, 66, 100), (67, 97, 60), (98, 98, 100), (99, 255, 60)]⟩,
  ⟨90, [6, 31, 38, 80], [(0, 40, 60), (41, 41, 62), (42, 69, 60), (70, 70, 101), (71, 101, 60), (102, 102, 101), (103, 255, 60)]⟩,
  ⟨97, [6, 38, 79], [(0, 40, 60), (41, 41, 62), (42, 76, 60), (77, 77, 102), (78, 108, 60), (109, 109, 102), (110, 255, 60)]⟩,
  ⟨115, [6, 38, 78], [(0, 40, 60), (41, 41, 62), (42, 75, 60), (76, 76, 103), (77, 107, 60), (108, 108, 103), (109, 255, 60)]⟩,
  ⟨91, [6, 32, 38, 83], [(0, 40, 60), (41, 41, 62), (42, 68, 60), (69, 69, 104), (70, 100, 60), (101, 101, 104), (102, 255, 60)]⟩,
  ⟨98, [6, 38, 82], [(0, 40, 60), (41, 41, 62), (42, 68, 60), (69, 69, 105), (70, 100, 60), (101, 101, 105), (102, 255, 60)]⟩,
  ⟨103, [6, 38, 81], [(0, 40, 60), (41, 41, 62), (42, 68, 60), (69, 69, 61), (70, 100, 60), (101, 101, 61), (102, 255, 60)]⟩,
  ⟨92, [6, 33, 38, 85], [(0, 40, 60), (41, 41, 62), (42, 81, 60), (82, 82, 106), (83, 113, 60), (114, 114, 106), (115, 255, 60)]⟩,
  ⟨99, [6, 38, 84], [(0, 40, 60), (41, 41, 62), (42, 67, 60), (68, 68, 107), (69, 99, 60), (100, 100, 107), (101, 255, 60)]⟩,
  ⟨93, [6, 34, 38, 87], [(0, 40, 60), (41, 41, 62), (42, 81, 60), (82, 82, 108), (83, 113, 60), (114, 114, 108), (115, 255, 60)]⟩,
  ⟨100, [6, 38, 86], [(0, 40, 60), (41, 41, 62), (42, 72, 60), (73, 73, 109), (74, 104, 60), (105, 105, 109), (106, 255, 60)]⟩,
  ⟨94, [6, 35, 38, 89], [(0, 40, 60), (41, 41, 62), (42, 68, 60), (69, 69, 110), (70, 100, 60), (101, 101, 110), (102, 255, 60)]⟩,
  ⟨101, [6, 38, 88], [(0, 40, 60), (41, 41, 62), (42, 64, 60), (65, 65, 111), (66, 96, 60), (97, 97, 111), (98, 255, 60)]⟩,
  ⟨95, [6, 36, 38, 91], [(0, 40, 60), (41, 41, 62), (42, 67, 60), (68, 68, 112), (69, 99, 60), (100, 100, 112), (101, 255, 60)]⟩,
  ⟨102, [6, 38, 90], [(0, 40, 60), (41, 41, 62), (42, 83, 60), (84, 84, 103), (85, 115, 60), (116, 116, 103), (117, 255, 60)]⟩,
  ⟨119, [6, 37, 38, 40], [(0, 8, 60), (9, 13, 61), (14, 31, 60), (32, 32, 61), (33, 40, 60), (41, 41, 62), (42, 255, 60)]⟩]

set_option maxRecDepth 100000 in
theorem nfa_ok : NfaOk conts lins nulls := ⟨rfl, rfl, rfl⟩

theorem items_ok : itemsOk entries 92 = true := by decide +kernel

theorem entries_ok : entries.all (checkEntry (checkMachine.track .matchInitiallyDeferred) lins nulls entries) = true := by
  decide +kernel

/-- The machine's successful runs are the derivations of the grammar. -/
theorem trace_iff (s : Str) (es : List (Ev CheckAct)) :
    (checkMachine.track .matchInitiallyDeferred).trace (checkMachine.track .matchInitiallyDeferred).start s = some es ↔ DerivesS i0 s es := by
  have h := check_sound nfa_ok (n := 92) rfl items_ok entries_ok s (e := entries.head (by simp [entries]))
    (List.head_mem _) es
  have h0 : (entries.head (by simp [entries])).items = [0] := rfl
  have h1 : stackAt conts 0 = i0 := rfl
  rw [h0] at h
  simp only [List.mem_singleton, exists_eq_left, h1] at h
  exact h

end Verif.Ddl.CheckG.Deferred
