import Verif.Ragel.Bisim
import Verif.Ddl.Grammars
import Verif.Ragel.Track

/-!
# Certificate that `checkMachine.erase` implements its grammar

Generated by tools/GenCert.txt; do not edit. Checked by the kernel below.
-/

namespace Verif.Ddl.CheckG.Lang
open Verif Verif.Ragel Verif.Ddl CheckG

/-- The sequences that can remain to be matched. -/
def conts : List (List (Gram CheckAct)) := [
  t0,
  (.seq (.cls [(72, 72), (104, 104)] []) (.seq (.cls [(69, 69), (101, 101)] []) (.seq (.cls [(67, 67), (99, 99)] []) (.cls [(75, 75), (107, 107)] [])))) :: sp :: (.cls [(40, 40)] []) :: anys :: (.cls [(41, 41)] []) :: deferral :: [],
  (.seq (.cls [(69, 69), (101, 101)] []) (.seq (.cls [(67, 67), (99, 99)] []) (.cls [(75, 75), (107, 107)] []))) :: sp :: (.cls [(40, 40)] []) :: anys :: (.cls [(41, 41)] []) :: deferral :: [],
  (.seq (.cls [(67, 67), (99, 99)] []) (.cls [(75, 75), (107, 107)] [])) :: sp :: (.cls [(40, 40)] []) :: anys :: (.cls [(41, 41)] []) :: deferral :: [],
  (.cls [(75, 75), (107, 107)] []) :: sp :: (.cls [(40, 40)] []) :: anys :: (.cls [(41, 41)] []) :: deferral :: [],
  sp :: (.cls [(40, 40)] []) :: anys :: (.cls [(41, 41)] []) :: deferral :: [],
  anys :: (.cls [(41, 41)] []) :: deferral :: [],
  deferral :: [],
  sp :: [],
  sp :: (.seq (.seq (.cls [(78, 78), (110, 110)] []) (.seq (.cls [(79, 79), (111, 111)] []) (.cls [(84, 84), (116, 116)] []))) (.seq ws (.seq (.seq (.cls [(68, 68), (100, 100)] []) (.seq (.cls [(69, 69), (101, 101)] []) (.seq (.cls [(70, 70), (102, 102)] []) (.seq (.cls [(69, 69), (101, 101)] []) (.seq (.cls [(82, 82), (114, 114)] []) (.seq (.cls [(82, 82), (114, 114)] []) (.seq (.cls [(65, 65), (97, 97)] []) (.seq (.cls [(66, 66), (98, 98)] []) (.seq (.cls [(76, 76), (108, 108)] []) (.cls [(69, 69), (101, 101)] [])))))))))) sp))) :: [],
  sp :: (.seq (.seq (.cls [(68, 68), (100, 100)] []) (.seq (.cls [(69, 69), (101, 101)] []) (.seq (.cls [(70, 70), (102, 102)] []) (.seq (.cls [(69, 69), (101, 101)] []) (.seq (.cls [(82, 82), (114, 114)] []) (.seq (.cls [(82, 82), (114, 114)] []) (.seq (.cls [(65, 65), (97, 97)] []) (.seq (.cls [(66, 66), (98, 98)] []) (.seq (.cls [(76, 76), (108, 108)] []) (.cls [(69, 69), (101, 101)] [])))))))))) (.seq ws (.alt (.seq initially sp) .eps))) :: [],
  sp :: (.seq initially sp) :: [],
  (.seq (.cls [(79, 79), (111, 111)] []) (.cls [(84, 84), (116, 116)] [])) :: (.seq ws (.seq (.seq (.cls [(68, 68), (100, 100)] []) (.seq (.cls [(69, 69), (101, 101)] []) (.seq (.cls [(70, 70), (102, 102)] []) (.seq (.cls [(69, 69), (101, 101)] []) (.seq (.cls [(82, 82), (114, 114)] []) (.seq (.cls [(82, 82), (114, 114)] []) (.seq (.cls [(65, 65), (97, 97)] []) (.seq (.cls [(66, 66), (98, 98)] []) (.seq (.cls [(76, 76), (108, 108)] []) (.cls [(69, 69), (101, 101)] [])))))))))) sp)) :: [],
  (.seq (.cls [(69, 69), (101, 101)] []) (.seq (.cls [(70, 70), (102, 102)] []) (.seq (.cls [(69, 69), (101, 101)] []) (.seq (.cls [(82, 82), (114, 114)] []) (.seq (.cls [(82, 82), (114, 114)] []) (.seq (.cls [(65, 65), (97, 97)] []) (.seq (.cls [(66, 66), (98, 98)] []) (.seq (.cls [(76, 76), (108, 108)] []) (.cls [(69, 69), (101, 101)] []))))))))) :: (.seq ws (.alt (.seq initially sp) .eps)) :: [],
  (.seq (.cls [(78, 78), (110, 110)] []) (.seq (.cls [(73, 73), (105, 105)] []) (.seq (.cls [(84, 84), (116, 116)] []) (.seq (.cls [(73, 73), (105, 105)] []) (.seq (.cls [(65, 65), (97, 97)] []) (.seq (.cls [(76, 76), (108, 108)] []) (.seq (.cls [(76, 76), (108, 108)] []) (.cls [(89, 89), (121, 121)] [])))))))) :: (.seq ws (.alt (.seq (.cls [(73, 73), (105, 105)] []) (.seq (.cls [(77, 77), (109, 109)] []) (.seq (.cls [(77, 77), (109, 109)] []) (.seq (.cls [(69, 69), (101, 101)] []) (.seq (.cls [(68, 68), (100, 100)] []) (.seq (.cls [(73, 73), (105, 105)] []) (.seq (.cls [(65, 65), (97, 97)] []) (.seq (.cls [(84, 84), (116, 116)] []) (.cls [(69, 69), (101, 101)] []))))))))) (.seq (.cls [(68, 68), (100, 100)] []) (.seq (.cls [(69, 69), (101, 101)] []) (.seq (.cls [(70, 70), (102, 102)] []) (.seq (.cls [(69, 69), (101, 101)] []) (.seq (.cls [(82, 82), (114, 114)] []) (.seq (.cls [(82, 82), (114, 114)] []) (.seq (.cls [(69, 69), (101, 101)] []) (.cls [(68, 68), (100, 100)] [])))))))))) :: sp :: [],
  (.cls [(84, 84), (116, 116)] []) :: (.seq ws (.seq (.seq (.cls [(68, 68), (100, 100)] []) (.seq (.cls [(69, 69), (101, 101)] []) (.seq (.cls [(70, 70), (102, 102)] []) (.seq (.cls [(69, 69), (101, 101)] []) (.seq (.cls [(82, 82), (114, 114)] []) (.seq (.cls [(82, 82), (114, 114)] []) (.seq (.cls [(65, 65), (97, 97)] []) (.seq (.cls [(66, 66), (98, 98)] []) (.seq (.cls [(76, 76), (108, 108)] []) (.cls [(69, 69), (101, 101)] [])))))))))) sp)) :: [],
  (.seq (.cls [(70, 70), (102, 102)] []) (.seq (.cls [(69, 69), (101, 101)] []) (.seq (.cls [(82, 82), (114, 114)] []) (.seq (.cls [(82, 82), (114, 114)] []) (.seq (.cls [(65, 65), (97, 97)] []) (.seq (.cls [(66, 66), (98, 98)] []) (.seq (.cls [(76, 76), (108, 108)] []) (.cls [(69, 69), (101, 101)] [])))))))) :: (.seq ws (.alt (.seq initially sp) .eps)) :: [],
  (.seq (.cls [(73, 73), (105, 105)] []) (.seq (.cls [(84, 84), (116, 116)] []) (.seq (.cls [(73, 73), (105, 105)] []) (.seq (.cls [(65, 65), (97, 97)] []) (.seq (.cls [(76, 76), (108, 108)] []) (.seq (.cls [(76, 76), (108, 108)] []) (.cls [(89, 89), (121, 121)] []))))))) :: (.seq ws (.alt (.seq (.cls [(73, 73), (105, 105)] []) (.seq (.cls [(77, 77), (109, 109)] []) (.seq (.cls [(77, 77), (109, 109)] []) (.seq (.cls [(69, 69), (101, 101)] []) (.seq (.cls [(68, 68), (100, 100)] []) (.seq (.cls [(73, 73), (105, 105)] []) (.seq (.cls [(65, 65), (97, 97)] []) (.seq (.cls [(84, 84), (116, 116)] []) (.cls [(69, 69), (101, 101)] []))))))))) (.seq (.cls [(68, 68), (100, 100)] []) (.seq (.cls [(69, 69), (101, 101)] []) (.seq (.cls [(70, 70), (102, 102)] []) (.seq (.cls [(69, 69), (101, 101)] []) (.seq (.cls [(82, 82), (114, 114)] []) (.seq (.cls [(82, 82), (114, 114)] []) (.seq (.cls [(69, 69), (101, 101)] []) (.cls [(68, 68), (100, 100)] [])))))))))) :: sp :: [],
  (.seq ws (.seq (.seq (.cls [(68, 68), (100, 100)] []) (.seq (.cls [(69, 69), (101, 101)] []) (.seq (.cls [(70, 70), (102, 102)] []) (.seq (.cls [(69, 69), (101, 101)] []) (.seq (.cls [(82, 82), (114, 114)] []) (.seq (.cls [(82, 82), (114, 114)] []) (.seq (.cls [(65, 65), (97, 97)] []) (.seq (.cls [(66, 66), (98, 98)] []) (.seq (.cls [(76, 76), (108, 108)] []) (.cls [(69, 69), (101, 101)] [])))))))))) sp)) :: [],
  (.seq (.cls [(69, 69), (101, 101)] []) (.seq (.cls [(82, 82), (114, 114)] []) (.seq (.cls [(82, 82), (114, 114)] []) (.seq (.cls [(65, 65), (97, 97)] []) (.seq (.cls [(66, 66), (98, 98)] []) (.seq (.cls [(76, 76), (108, 108)] []) (.cls [(69, 69), (101, 101)] []))))))) :: (.seq ws (.alt (.seq initially sp) .eps)) :: [],
  (.seq (.cls [(84, 84), (116, 116)] []) (.seq (.cls [(73, 73), (105, 105)] []) (.seq (.cls [(65, 65), (97, 97)] []) (.seq (.cls [(76, 76), (108, 108)] []) (.seq (.cls [(76, 76), (108, 108)] []) (.cls [(89, 89), (121, 121)] [])))))) :: (.seq ws (.alt (.seq (.cls [(73, 73), (105, 105)] []) (.seq (.cls [(77, 77), (109, 109)] []) (.seq (.cls [(77, 77), (109, 109)] []) (.seq (.cls [(69, 69), (101, 101)] []) (.seq (.cls [(68, 68), (100, 100)] []) (.seq (.cls [(73, 73), (105, 105)] []) (.seq (.cls [(65, 65), (97, 97)] []) (.seq (.cls [(84, 84), (116, 116)] []) (.cls [(69, 69), (101, 101)] []))))))))) (.seq (.cls [(68, 68), (100, 100)] []) (.seq (.cls [(69, 69), (101, 101)] []) (.seq (.cls [(70, 70), (102, 102)] []) (.seq (.cls [(69, 69), (101, 101)] []) (.seq (.cls [(82, 82), (114, 114)] []) (.seq (.cls [(82, 82), (114, 114)] []) (.seq (.cls [(69, 69), (101, 101)] []) (.cls [(68, 68), (100, 100)] [])))))))))) :: sp :: [],
  sp :: (.seq (.seq (.cls [(68, 68), (100, 100)] []) (.seq (.cls [(69, 69), (101, 101)] []) (.seq (.cls [(70, 70), (102, 102)] []) (.seq (.cls [(69, 69), (101, 101)] []) (.seq (.cls [(82, 82), (114, 114)] []) (.seq (.cls [(82, 82), (114, 114)] []) (.seq (.cls [(65, 65), (97, 97)] []) (.seq (.cls [(66, 66), (98, 98)] []) (.seq (.cls [(76, 76), (108, 108)] []) (.cls [(69, 69), (101, 101)] [])))))))))) sp) :: [],
  (.seq (.cls [(82, 82), (114, 114)] []) (.seq (.cls [(82, 82), (114, 114)] []) (.seq (.cls [(65, 65), (97, 97)] []) (.seq (.cls [(66, 66), (98, 98)] []) (.seq (.cls [(76, 76), (108, 108)] []) (.cls [(69, 69), (101, 101)] [])))))) :: (.seq ws (.alt (.seq initially sp) .eps)) :: [],
  (.seq (.cls [(73, 73), (105, 105)] []) (.seq (.cls [(65, 65), (97, 97)] []) (.seq (.cls [(76, 76), (108, 108)] []) (.seq (.cls [(76, 76), (108, 108)] []) (.cls [(89, 89), (121, 121)] []))))) :: (.seq ws (.alt (.seq (.cls [(73, 73), (105, 105)] []) (.seq (.cls [(77, 77), (109, 109)] []) (.seq (.cls [(77, 77), (109, 109)] []) (.seq (.cls [(69, 69), (101, 101)] []) (.seq (.cls [(68, 68), (100, 100)] []) (.seq (.cls [(73, 73), (105, 105)] []) (.seq (.cls [(65, 65), (97, 97)] []) (.seq (.cls [(84, 84), (116, 116)] []) (.cls [(69, 69), (101, 101)] []))))))))) (.seq (.cls [(68, 68), (100, 100)] []) (.seq (.cls [(69, 69), (101, 101)] []) (.seq (.cls [(70, 70), (102, 102)] []) (.seq (.cls [(69, 69), (101, 101)] []) (.seq (.cls [(82, 82), (114, 114)] []) (.seq (.cls [(82, 82), (114, 114)] []) (.seq (.cls [(69, 69), (101, 101)] []) (.cls [(68, 68), (100, 100)] [])))))))))) :: sp :: [],
  (.seq (.cls [(69, 69), (101, 101)] []) (.seq (.cls [(70, 70), (102, 102)] []) (.seq (.cls [(69, 69), (101, 101)] []) (.seq (.cls [(82, 82), (114, 114)] []) (.seq (.cls [(82, 82), (114, 114)] []) (.seq (.cls [(65, 65), (97, 97)] []) (.seq (.cls [(66, 66), (98, 98)] []) (.seq (.cls [(76, 76), (108, 108)] []) (.cls [(69, 69), (101, 101)] []))))))))) :: sp :: [],
  (.seq (.cls [(82, 82), (114, 114)] []) (.seq (.cls [(65, 65), (97, 97)] []) (.seq (.cls [(66, 66), (98, 98)] []) (.seq (.cls [(76, 76), (108, 108)] []) (.cls [(69, 69), (101, 101)] []))))) :: (.seq ws (.alt (.seq initially sp) .eps)) :: [],
  (.seq (.cls [(65, 65), (97, 97)] []) (.seq (.cls [(76, 76), (108, 108)] []) (.seq (.cls [(76, 76), (108, 108)] []) (.cls [(89, 89), (121, 121)] [])))) :: (.seq ws (.alt (.seq (.cls [(73, 73), (105, 105)] []) (.seq (.cls [(77, 77), (109, 109)] []) (.seq (.cls [(77, 77), (109, 109)] []) (.seq (.cls [(69, 69), (101, 101)] []) (.seq (.cls [(68, 68), (100, 100)] []) (.seq (.cls [(73, 73), (105, 105)] []) (.seq (.cls [(65, 65), (97, 97)] []) (.seq (.cls [(84, 84), (116, 116)] []) (.cls [(69, 69), (101, 101)] []))))))))) (.seq (.cls [(68, 68), (100, 100)] []) (.seq (.cls [(69, 69), (101, 101)] []) (.seq (.cls [(70, 70), (102, 102)] []) (.seq (.cls [(69, 69), (101, 101)] []) (.seq (.cls [(82, 82), (114, 114)] []) (.seq (.cls [(82, 82), (114, 114)] []) (.seq (.cls [(69, 69), (101, 101)] []) (.cls [(68, 68), (100, 100)] [])))))))))) :: sp :: [],
  (.seq (.cls [(70, 70), (102, 102)] []) (.seq (.cls [(69, 69), (101, 101)] []) (.seq (.cls [(82, 82), (114, 114)] []) (.seq (.cls [(82, 82), (114, 114)] []) (.seq (.cls [(65, 65), (97, 97)] []) (.seq (.cls [(66, 66), (98, 98)] []) (.seq (.cls [(76, 76), (108, 108)] []) (.cls [(69, 69), (101, 101)] [])))))))) :: sp :: [],
  (.seq (.cls [(65, 65), (97, 97)] []) (.seq (.cls [(66, 66), (98, 98)] []) (.seq (.cls [(76, 76), (108, 108)] []) (.cls [(69, 69), (101, 101)] [])))) :: (.seq ws (.alt (.seq initially sp) .eps)) :: [],
  (.seq (.cls [(76, 76), (108, 108)] []) (.seq (.cls [(76, 76), (108, 108)] []) (.cls [(89, 89), (121, 121)] []))) :: (.seq ws (.alt (.seq (.cls [(73, 73), (105, 105)] []) (.seq (.cls [(77, 77), (109, 109)] []) (.seq (.cls [(77, 77), (109, 109)] []) (.seq (.cls [(69, 69), (101, 101)] []) (.seq (.cls [(68, 68), (100, 100)] []) (.seq (.cls [(73, 73), (105, 105)] []) (.seq (.cls [(65, 65), (97, 97)] []) (.seq (.cls [(84, 84), (116, 116)] []) (.cls [(69, 69), (101, 101)] []))))))))) (.seq (.cls [(68, 68), (100, 100)] []) (.seq (.cls [(69, 69), (101, 101)] []) (.seq (.cls [(70, 70), (102, 102)] []) (.seq (.cls [(69, 69), (101, 101)] []) (.seq (.cls [(82, 82), (114, 114)] []) (.seq (.cls [(82, 82), (114, 114)] []) (.seq (.cls [(69, 69), (101, 101)] []) (.cls [(68, 68), (100, 100)] [])))))))))) :: sp :: [],
  (.seq (.cls [(69, 69), (101, 101)] []) (.seq (.cls [(82, 82), (114, 114)] []) (.seq (.cls [(82, 82), (114, 114)] []) (.seq (.cls [(65, 65), (97, 97)] []) (.seq (.cls [(66, 66), (98, 98)] []) (.seq (.cls [(76, 76), (108, 108)] []) (.cls [(69, 69), (101, 101)] []))))))) :: sp :: [],
  (.seq (.cls [(66, 66), (98, 98)] []) (.seq (.cls [(76, 76), (108, 108)] []) (.cls [(69, 69), (101, 101)] []))) :: (.seq ws (.alt (.seq initially sp) .eps)) :: [],
  (.seq (.cls [(76, 76), (108, 108)] []) (.cls [(89, 89), (121, 121)] [])) :: (.seq ws (.alt (.seq (.cls [(73, 73), (105, 105)] []) (.seq (.cls [(77, 77), (109, 109)] []) (.seq (.cls [(77, 77), (109, 109)] []) (.seq (.cls [(69, 69), (101, 101)] []) (.seq (.cls [(68, 68), (100, 100)] []) (.seq (.cls [(73, 73), (105, 105)] []) (.seq (.cls [(65, 65), (97, 97)] []) (.seq (.cls [(84, 84), (116, 116)] []) (.cls [(69, 69), (101, 101)] []))))))))) (.seq (.cls [(68, 68), (100, 100)] []) (.seq (.cls [(69, 69), (101, 101)] []) (.seq (.cls [(70, 70), (102, 102)] []) (.seq (.cls [(69, 69), (101, 101)] []) (.seq (.cls [(82, 82), (114, 114)] []) (.seq (.cls [(82, 82), (114, 114)] []) (.seq (.cls [(69, 69), (101, 101)] []) (.cls [(68, 68), (100, 100)] [])))))))))) :: sp :: [],
  (.seq (.cls [(82, 82), (114, 114)] []) (.seq (.cls [(82, 82), (114, 114)] []) (.seq (.cls [(65, 65), (97, 97)] []) (.seq (.cls [(66, 66), (98, 98)] []) (.seq (.cls [(76, 76), (108, 108)] []) (.cls [(69, 69), (101, 101)] [])))))) :: sp :: [],
  (.seq (.cls [(76, 76), (108, 108)] []) (.cls [(69, 69), (101, 101)] [])) :: (.seq ws (.alt (.seq initially sp) .eps)) :: [],
  (.cls [(89, 89), (121, 121)] []) :: (.seq ws (.alt (.seq (.cls [(73, 73), (105, 105)] []) (.seq (.cls [(77, 77), (109, 109)] []) (.seq (.cls [(77, 77), (109, 109)] []) (.seq (.cls [(69, 69), (101, 101)] []) (.seq (.cls [(68, 68), (100, 100)] []) (.seq (.cls [(73, 73), (105, 105)] []) (.seq (.cls [(65, 65), (97, 97)] []) (.seq (.cls [(84, 84), (116, 116)] []) (.cls [(69, 69), (101, 101)] []))))))))) (.seq (.cls [(68, 68), (100, 100)] []) (.seq (.cls [(69, 69), (101, 101)] []) (.seq (.cls [(70, 70), (102, 102)] []) (.seq (.cls [(69, 69), (101, 101)] []) (.seq (.cls [(82, 82), (114, 114)] []) (.seq (.cls [(82, 82), (114, 114)] []) (.seq (.cls [(69, 69), (101, 101)] []) (.cls [(68, 68), (100, 100)] [])))))))))) :: sp :: [],
  (.seq (.cls [(82, 82), (114, 114)] []) (.seq (.cls [(65, 65), (97, 97)] []) (.seq (.cls [(66, 66), (98, 98)] []) (.seq (.cls [(76, 76), (108, 108)] []) (.cls [(69, 69), (101, 101)] []))))) :: sp :: [],
  (.cls [(69, 69), (101, 101)] []) :: (.seq ws (.alt (.seq initially sp) .eps)) :: [],
  (.seq ws (.alt (.seq (.cls [(73, 73), (105, 105)] []) (.seq (.cls [(77, 77), (109, 109)] []) (.seq (.cls [(77, 77), (109, 109)] []) (.seq (.cls [(69, 69), (101, 101)] []) (.seq (.cls [(68, 68), (100, 100)] []) (.seq (.cls [(73, 73), (105, 105)] []) (.seq (.cls [(65, 65), (97, 97)] []) (.seq (.cls [(84, 84), (116, 116)] []) (.cls [(69, 69), (101, 101)] []))))))))) (.seq (.cls [(68, 68), (100, 100)] []) (.seq (.cls [(69, 69), (101, 101)] []) (.seq (.cls [(70, 70), (102, 102)] []) (.seq (.cls [(69, 69), (101, 101)] []) (.seq (.cls [(82, 82), (114, 114)] []) (.seq (.cls [(82, 82), (114, 114)] []) (.seq (.cls [(69, 69), (101, 101)] []) (.cls [(68, 68), (100, 100)] [])))))))))) :: sp :: [],
  (.seq (.cls [(65, 65), (97, 97)] []) (.seq (.cls [(66, 66), (98, 98)] []) (.seq (.cls [(76, 76), (108, 108)] []) (.cls [(69, 69), (101, 101)] [])))) :: sp :: [],
  (.seq ws (.alt (.seq initially sp) .eps)) :: [],
  sp :: (.alt (.seq (.cls [(73, 73), (105, 105)] []) (.seq (.cls [(77, 77), (109, 109)] []) (.seq (.cls [(77, 77), (109, 109)] []) (.seq (.cls [(69, 69), (101, 101)] []) (.seq (.cls [(68, 68), (100, 100)] []) (.seq (.cls [(73, 73), (105, 105)] []) (.seq (.cls [(65, 65), (97, 97)] []) (.seq (.cls [(84, 84), (116, 116)] []) (.cls [(69, 69), (101, 101)] []))))))))) (.seq (.cls [(68, 68), (100, 100)] []) (.seq (.cls [(69, 69), (101, 101)] []) (.seq (.cls [(70, 70), (102, 102)] []) (.seq (.cls [(69, 69), (101, 101)] []) (.seq (.cls [(82, 82), (114, 114)] []) (.seq (.cls [(82, 82), (114, 114)] []) (.seq (.cls [(69, 69), (101, 101)] []) (.cls [(68, 68), (100, 100)] []))))))))) :: sp :: [],
  (.seq (.cls [(66, 66), (98, 98)] []) (.seq (.cls [(76, 76), (108, 108)] []) (.cls [(69, 69), (101, 101)] []))) :: sp :: [],
  sp :: (.alt (.seq initially sp) .eps) :: [],
  (.seq (.cls [(77, 77), (109, 109)] []) (.seq (.cls [(77, 77), (109, 109)] []) (.seq (.cls [(69, 69), (101, 101)] []) (.seq (.cls [(68, 68), (100, 100)] []) (.seq (.cls [(73, 73), (105, 105)] []) (.seq (.cls [(65, 65), (97, 97)] []) (.seq (.cls [(84, 84), (116, 116)] []) (.cls [(69, 69), (101, 101)] [])))))))) :: sp :: [],
  (.seq (.cls [(69, 69), (101, 101)] []) (.seq (.cls [(70, 70), (102, 102)] []) (.seq (.cls [(69, 69), (101, 101)] []) (.seq (.cls [(82, 82), (114, 114)] []) (.seq (.cls [(82, 82), (114, 114)] []) (.seq (.cls [(69, 69), (101, 101)] []) (.cls [(68, 68), (100, 100)] []))))))) :: sp :: [],
  (.seq (.cls [(76, 76), (108, 108)] []) (.cls [(69, 69), (101, 101)] [])) :: sp :: [],
  (.seq (.cls [(77, 77), (109, 109)] []) (.seq (.cls [(69, 69), (101, 101)] []) (.seq (.cls [(68, 68), (100, 100)] []) (.seq (.cls [(73, 73), (105, 105)] []) (.seq (.cls [(65, 65), (97, 97)] []) (.seq (.cls [(84, 84), (116, 116)] []) (.cls [(69, 69), (101, 101)] []))))))) :: sp :: [],
  (.seq (.cls [(70, 70), (102, 102)] []) (.seq (.cls [(69, 69), (101, 101)] []) (.seq (.cls [(82, 82), (114, 114)] []) (.seq (.cls [(82, 82), (114, 114)] []) (.seq (.cls [(69, 69), (101, 101)] []) (.cls [(68, 68), (100, 100)] [])))))) :: sp :: [],
  (.cls [(69, 69), (101, 101)] []) :: sp :: [],
  (.seq (.cls [(69, 69), (101, 101)] []) (.seq (.cls [(68, 68), (100, 100)] []) (.seq (.cls [(73, 73), (105, 105)] []) (.seq (.cls [(65, 65), (97, 97)] []) (.seq (.cls [(84, 84), (116, 116)] []) (.cls [(69, 69), (101, 101)] [])))))) :: sp :: [],
  (.seq (.cls [(69, 69), (101, 101)] []) (.seq (.cls [(82, 82), (114, 114)] []) (.seq (.cls [(82, 82), (114, 114)] []) (.seq (.cls [(69, 69), (101, 101)] []) (.cls [(68, 68), (100, 100)] []))))) :: sp :: [],
  (.seq (.cls [(68, 68), (100, 100)] []) (.seq (.cls [(73, 73), (105, 105)] []) (.seq (.cls [(65, 65), (97, 97)] []) (.seq (.cls [(84, 84), (116, 116)] []) (.cls [(69, 69), (101, 101)] []))))) :: sp :: [],
  (.seq (.cls [(82, 82), (114, 114)] []) (.seq (.cls [(82, 82), (114, 114)] []) (.seq (.cls [(69, 69), (101, 101)] []) (.cls [(68, 68), (100, 100)] [])))) :: sp :: [],
  (.seq (.cls [(73, 73), (105, 105)] []) (.seq (.cls [(65, 65), (97, 97)] []) (.seq (.cls [(84, 84), (116, 116)] []) (.cls [(69, 69), (101, 101)] [])))) :: sp :: [],
  (.seq (.cls [(82, 82), (114, 114)] []) (.seq (.cls [(69, 69), (101, 101)] []) (.cls [(68, 68), (100, 100)] []))) :: sp :: [],
  (.seq (.cls [(65, 65), (97, 97)] []) (.seq (.cls [(84, 84), (116, 116)] []) (.cls [(69, 69), (101, 101)] []))) :: sp :: [],
  (.seq (.cls [(69, 69), (101, 101)] []) (.cls [(68, 68), (100, 100)] [])) :: sp :: [],
  (.seq (.cls [(84, 84), (116, 116)] []) (.cls [(69, 69), (101, 101)] [])) :: sp :: [],
  (.cls [(68, 68), (100, 100)] []) :: sp :: []]

/-- Their linear forms. -/
def lins : List (List (NLin CheckAct)) := [
  [⟨[(9, 13), (32, 32)], [], 0⟩, ⟨[(67, 67), (99, 99)], [], 1⟩],
  [⟨[(72, 72), (104, 104)], [], 2⟩],
  [⟨[(69, 69), (101, 101)], [], 3⟩],
  [⟨[(67, 67), (99, 99)], [], 4⟩],
  [⟨[(75, 75), (107, 107)], [], 5⟩],
  [⟨[(9, 13), (32, 32)], [], 5⟩, ⟨[(40, 40)], [], 6⟩],
  [⟨[(0, 255)], [], 6⟩, ⟨[(41, 41)], [], 7⟩],
  [⟨[(9, 13), (32, 32)], [], 8⟩, ⟨[(9, 13), (32, 32)], [], 9⟩, ⟨[(9, 13), (32, 32)], [], 10⟩, ⟨[(9, 13), (32, 32)], [], 11⟩],
  [⟨[(9, 13), (32, 32)], [], 8⟩],
  [⟨[(9, 13), (32, 32)], [], 9⟩, ⟨[(78, 78), (110, 110)], [], 12⟩],
  [⟨[(9, 13), (32, 32)], [], 10⟩, ⟨[(68, 68), (100, 100)], [], 13⟩],
  [⟨[(9, 13), (32, 32)], [], 11⟩, ⟨[(73, 73), (105, 105)], [], 14⟩],
  [⟨[(79, 79), (111, 111)], [], 15⟩],
  [⟨[(69, 69), (101, 101)], [], 16⟩],
  [⟨[(78, 78), (110, 110)], [], 17⟩],
  [⟨[(84, 84), (116, 116)], [], 18⟩],
  [⟨[(70, 70), (102, 102)], [], 19⟩],
  [⟨[(73, 73), (105, 105)], [], 20⟩],
  [⟨[(9, 13), (32, 32)], [], 21⟩],
  [⟨[(69, 69), (101, 101)], [], 22⟩],
  [⟨[(84, 84), (116, 116)], [], 23⟩],
  [⟨[(9, 13), (32, 32)], [], 21⟩, ⟨[(68, 68), (100, 100)], [], 24⟩],
  [⟨[(82, 82), (114, 114)], [], 25⟩],
  [⟨[(73, 73), (105, 105)], [], 26⟩],
  [⟨[(69, 69), (101, 101)], [], 27⟩],
  [⟨[(82, 82), (114, 114)], [], 28⟩],
  [⟨[(65, 65), (97, 97)], [], 29⟩],
  [⟨[(70, 70), (102, 102)], [], 30⟩],
  [⟨[(65, 65), (97, 97)], [], 31⟩],
  [⟨[(76, 76), (108, 108)], [], 32⟩],
  [⟨[(69, 69), (101, 101)], [], 33⟩],
  [⟨[(66, 66), (98, 98)], [], 34⟩],
  [⟨[(76, 76), (108, 108)], [], 35⟩],
  [⟨[(82, 82), (114, 114)], [], 36⟩],
  [⟨[(76, 76), (108, 108)], [], 37⟩],
  [⟨[(89, 89), (121, 121)], [], 38⟩],
  [⟨[(82, 82), (114, 114)], [], 39⟩],
  [⟨[(69, 69), (101, 101)], [], 40⟩],
  [⟨[(9, 13), (32, 32)], [], 41⟩],
  [⟨[(65, 65), (97, 97)], [], 42⟩],
  [⟨[(9, 13), (32, 32)], [], 43⟩],
  [⟨[(9, 13), (32, 32)], [], 41⟩, ⟨[(73, 73), (105, 105)], [], 44⟩, ⟨[(68, 68), (100, 100)], [], 45⟩],
  [⟨[(66, 66), (98, 98)], [], 46⟩],
  [⟨[(9, 13), (32, 32)], [], 43⟩, ⟨[(73, 73), (105, 105)], [], 14⟩],
  [⟨[(77, 77), (109, 109)], [], 47⟩],
  [⟨[(69, 69), (101, 101)], [], 48⟩],
  [⟨[(76, 76), (108, 108)], [], 49⟩],
  [⟨[(77, 77), (109, 109)], [], 50⟩],
  [⟨[(70, 70), (102, 102)], [], 51⟩],
  [⟨[(69, 69), (101, 101)], [], 8⟩],
  [⟨[(69, 69), (101, 101)], [], 52⟩],
  [⟨[(69, 69), (101, 101)], [], 53⟩],
  [⟨[(68, 68), (100, 100)], [], 54⟩],
  [⟨[(82, 82), (114, 114)], [], 55⟩],
  [⟨[(73, 73), (105, 105)], [], 56⟩],
  [⟨[(82, 82), (114, 114)], [], 57⟩],
  [⟨[(65, 65), (97, 97)], [], 58⟩],
  [⟨[(69, 69), (101, 101)], [], 59⟩],
  [⟨[(84, 84), (116, 116)], [], 49⟩],
  [⟨[(68, 68), (100, 100)], [], 8⟩]]

/-- The ways they match the empty string. -/
def nulls : List (List (List CheckAct)) := [
  [],
  [],
  [],
  [],
  [],
  [],
  [],
  [[]],
  [[]],
  [],
  [],
  [],
  [],
  [],
  [],
  [],
  [],
  [],
  [],
  [],
  [],
  [],
  [],
  [],
  [],
  [],
  [],
  [],
  [],
  [],
  [],
  [],
  [],
  [],
  [],
  [],
  [],
  [],
  [],
  [],
  [],
  [],
  [],
  [[]],
  [],
  [],
  [],
  [],
  [],
  [],
  [],
  [],
  [],
  [],
  [],
  [],
  [],
  [],
  [],
  []]

/-- Machine states with the stacks that can remain there. -/
def entries : List Entry := [
  ⟨1, [0], [(9, 13, 0), (32, 32, 0), (67, 67, 1), (99, 99, 1)]⟩,
  ⟨2, [1], [(72, 72, 2), (104, 104, 2)]⟩,
  ⟨3, [2], [(69, 69, 3), (101, 101, 3)]⟩,
  ⟨4, [3], [(67, 67, 4), (99, 99, 4)]⟩,
  ⟨5, [4], [(75, 75, 5), (107, 107, 5)]⟩,
  ⟨6, [5], [(9, 13, 5), (32, 32, 5), (40, 40, 6)]⟩,
  ⟨7, [6], [(0, 40, 7), (41, 41, 8), (42, 255, 7)]⟩,
  ⟨8, [6], [(0, 40, 7), (41, 41, 8), (42, 255, 7)]⟩,
  ⟨56, [6, 7], [(0, 8, 7), (9, 13, 9), (14, 31, 7), (32, 32, 9), (33, 40, 7), (41, 41, 8), (42, 255, 7)]⟩,
  ⟨57, [6, 8, 9, 10, 11], [(0, 8, 7), (9, 13, 9), (14, 31, 7), (32, 32, 9), (33, 40, 7), (41, 41, 8), (42, 67, 7), (68, 68, 10), (69, 72, 7), (73, 73, 11), (74, 77, 7), (78, 78, 12), (79, 99, 7), (100, 100, 10), (101, 104, 7), (105, 105, 11), (106, 109, 7), (110, 110, 12), (111, 255, 7)]⟩,
  ⟨9, [6, 13], [(0, 40, 7), (41, 41, 8), (42, 68, 7), (69, 69, 13), (70, 100, 7), (101, 101, 13), (102, 255, 7)]⟩,
  ⟨19, [6, 14], [(0, 40, 7), (41, 41, 8), (42, 77, 7), (78, 78, 14), (79, 109, 7), (110, 110, 14), (111, 255, 7)]⟩,
  ⟨44, [6, 12], [(0, 40, 7), (41, 41, 8), (42, 78, 7), (79, 79, 15), (80, 110, 7), (111, 111, 15), (112, 255, 7)]⟩,
  ⟨10, [6, 16], [(0, 40, 7), (41, 41, 8), (42, 69, 7), (70, 70, 16), (71, 101, 7), (102, 102, 16), (103, 255, 7)]⟩,
  ⟨20, [6, 17], [(0, 40, 7), (41, 41, 8), (42, 72, 7), (73, 73, 17), (74, 104, 7), (105, 105, 17), (106, 255, 7)]⟩,
  ⟨45, [6, 15], [(0, 40, 7), (41, 41, 8), (42, 83, 7), (84, 84, 18), (85, 115, 7), (116, 116, 18), (117, 255, 7)]⟩,
  ⟨11, [6, 19], [(0, 40, 7), (41, 41, 8), (42, 68, 7), (69, 69, 19), (70, 100, 7), (101, 101, 19), (102, 255, 7)]⟩,
  ⟨21, [6, 20], [(0, 40, 7), (41, 41, 8), (42, 83, 7), (84, 84, 20), (85, 115, 7), (116, 116, 20), (117, 255, 7)]⟩,
  ⟨46, [6, 18], [(0, 8, 7), (9, 13, 21), (14, 31, 7), (32, 32, 21), (33, 40, 7), (41, 41, 8), (42, 255, 7)]⟩,
  ⟨12, [6, 22], [(0, 40, 7), (41, 41, 8), (42, 81, 7), (82, 82, 22), (83, 113, 7), (114, 114, 22), (115, 255, 7)]⟩,
  ⟨22, [6, 23], [(0, 40, 7), (41, 41, 8), (42, 72, 7), (73, 73, 23), (74, 104, 7), (105, 105, 23), (106, 255, 7)]⟩,
  ⟨47, [6, 21], [(0, 8, 7), (9, 13, 21), (14, 31, 7), (32, 32, 21), (33, 40, 7), (41, 41, 8), (42, 67, 7), (68, 68, 24), (69, 99, 7), (100, 100, 24), (101, 255, 7)]⟩,
  ⟨13, [6, 25], [(0, 40, 7), (41, 41, 8), (42, 81, 7), (82, 82, 25), (83, 113, 7), (114, 114, 25), (115, 255, 7)]⟩,
  ⟨23, [6, 26], [(0, 40, 7), (41, 41, 8), (42, 64, 7), (65, 65, 26), (66, 96, 7), (97, 97, 26), (98, 255, 7)]⟩,
  ⟨48, [6, 24], [(0, 40, 7), (41, 41, 8), (42, 68, 7), (69, 69, 27), (70, 100, 7), (101, 101, 27), (102, 255, 7)]⟩,
  ⟨14, [6, 28], [(0, 40, 7), (41, 41, 8), (42, 64, 7), (65, 65, 28), (66, 96, 7), (97, 97, 28), (98, 255, 7)]⟩,
  ⟨24, [6, 29], [(0, 40, 7), (41, 41, 8), (42, 75, 7), (76, 76, 29), (77, 107, 7), (108, 108, 29), (109, 255, 7)]⟩,
  ⟨49, [6, 27], [(0, 40, 7), (41, 41, 8), (42, 69, 7), (70, 70, 30), (71, 101, 7), (102, 102, 30), (103, 255, 7)]⟩,
  ⟨15, [6, 31], [(0, 40, 7), (41, 41, 8), (42, 65, 7), (66, 66, 31), (67, 97, 7), (98, 98, 31), (99, 255, 7)]⟩,
  ⟨25, [6, 32], [(0, 40, 7), (41, 41, 8), (42, 75, 7), (76, 76, 32), (77, 107, 7), (108, 108, 32), (109, 255, 7)]⟩,
  ⟨50, [6, 30], [(0, 40, 7), (41, 41, 8), (42, 68, 7), (69, 69, 33), (70, 100, 7), (101, 101, 33), (102, 255, 7)]⟩,
  ⟨16, [6, 34], [(0, 40, 7), (41, 41, 8), (42, 75, 7), (76, 76, 34), (77, 107, 7), (108, 108, 34), (109, 255, 7)]⟩,
  ⟨26, [6, 35], [(0, 40, 7), (41, 41, 8), (42, 88, 7), (89, 89, 35), (90, 120, 7), (121, 121, 35), (122, 255, 7)]⟩,
  ⟨51, [6, 33], [(0, 40, 7), (41, 41, 8), (42, 81, 7), (82, 82, 36), (83, 113, 7), (114, 114, 36), (115, 255, 7)]⟩,
  ⟨17, [6, 37], [(0, 40, 7), (41, 41, 8), (42, 68, 7), (69, 69, 37), (70, 100, 7), (101, 101, 37), (102, 255, 7)]⟩,
  ⟨27, [6, 38], [(0, 8, 7), (9, 13, 38), (14, 31, 7), (32, 32, 38), (33, 40, 7), (41, 41, 8), (42, 255, 7)]⟩,
  ⟨52, [6, 36], [(0, 40, 7), (41, 41, 8), (42, 81, 7), (82, 82, 39), (83, 113, 7), (114, 114, 39), (115, 255, 7)]⟩,
  ⟨18, [6, 40], [(0, 8, 7), (9, 13, 40), (14, 31, 7), (32, 32, 40), (33, 40, 7), (41, 41, 8), (42, 255, 7)]⟩,
  ⟨28, [6, 41], [(0, 8, 7), (9, 13, 38), (14, 31, 7), (32, 32, 38), (33, 40, 7), (41, 41, 8), (42, 67, 7), (68, 68, 41), (69, 72, 7), (73, 73, 42), (74, 99, 7), (100, 100, 41), (101, 104, 7), (105, 105, 42), (106, 255, 7)]⟩,
  ⟨53, [6, 39], [(0, 40, 7), (41, 41, 8), (42, 64, 7), (65, 65, 43), (66, 96, 7), (97, 97, 43), (98, 255, 7)]⟩,
  ⟨58, [6, 43], [(0, 8, 7), (9, 13, 40), (14, 31, 7), (32, 32, 40), (33, 40, 7), (41, 41, 8), (42, 72, 7), (73, 73, 11), (74, 104, 7), (105, 105, 11), (106, 255, 7)]⟩,
  ⟨29, [6, 45], [(0, 40, 7), (41, 41, 8), (42, 68, 7), (69, 69, 44), (70, 100, 7), (101, 101, 44), (102, 255, 7)]⟩,
  ⟨36, [6, 44], [(0, 40, 7), (41, 41, 8), (42, 76, 7), (77, 77, 45), (78, 108, 7), (109, 109, 45), (110, 255, 7)]⟩,
  ⟨54, [6, 42], [(0, 40, 7), (41, 41, 8), (42, 65, 7), (66, 66, 46), (67, 97, 7), (98, 98, 46), (99, 255, 7)]⟩,
  ⟨30, [6, 48], [(0, 40, 7), (41, 41, 8), (42, 69, 7), (70, 70, 47), (71, 101, 7), (102, 102, 47), (103, 255, 7)]⟩,
  ⟨37, [6, 47], [(0, 40, 7), (41, 41, 8), (42, 76, 7), (77, 77, 48), (78, 108, 7), (109, 109, 48), (110, 255, 7)]⟩,
  ⟨55, [6, 46], [(0, 40, 7), (41, 41, 8), (42, 75, 7), (76, 76, 49), (77, 107, 7), (108, 108, 49), (109, 255, 7)]⟩,
  ⟨31, [6, 51], [(0, 40, 7), (41, 41, 8), (42, 68, 7), (69, 69, 50), (70, 100, 7), (101, 101, 50), (102, 255, 7)]⟩,
  ⟨38, [6, 50], [(0, 40, 7), (41, 41, 8), (42, 68, 7), (69, 69, 51), (70, 100, 7), (101, 101, 51), (102, 255, 7)]⟩,
  ⟨43, [6, 49], [(0, 40, 7), (41, 41, 8), (42, 68, 7), (69, 69, 52), (70, 100, 7), (101, 101, 52), (102, 255, 7)]⟩,
  ⟨32, [6, 53], [(0, 40, 7), (41, 41, 8), (42, 81, 7), (82, 82, 53), (83, 113, 7), (114, 114, 53), (115, 255, 7)]⟩,
  ⟨39, [6, 52], [(0, 40, 7), (41, 41, 8), (42, 67, 7), (68, 68, 54), (69, 99, 7), (100, 100, 54), (101, 255, 7)]⟩,
  ⟨59, [6, 8], [(0, 8, 7), (9, 13, 52), (14, 31, 7), (32, 32, 52), (33, 40, 7), (41, 41, 8), (42, 255, 7)]⟩,
  ⟨33, [6, 55], [(0, 40, 7), (41, 41, 8), (42, 81, 7), (82, 82, 55), (83, 113, 7), (114, 114, 55), (115, 255, 7)]⟩,
  ⟨40, [6, 54], [(0, 40, 7), (41, 41, 8), (42, 72, 7), (73, 73, 56), (74, 104, 7), (105, 105, 56), (106, 255, 7)]⟩,
  ⟨34, [6, 57], [(0, 40, 7), (41, 41, 8), (42, 68, 7), (69, 69, 57), (70, 100, 7), (101, 101, 57), (102, 255, 7)]⟩,
  ⟨41, [6, 56], [(0, 40, 7), (41, 41, 8), (42, 64, 7), (65, 65, 58), (66, 96, 7), (97, 97, 58), (98, 255, 7)]⟩,
  ⟨35, [6, 59], [(0, 40, 7), (41, 41, 8), (42, 67, 7), (68, 68, 52), (69, 99, 7), (100, 100, 52), (101, 255, 7)]⟩,
  ⟨42, [6, 58], [(0, 40, 7), (41, 41, 8), (42, 83, 7), (84, 84, 49), (85, 115, 7), (116, 116, 49), (117, 255, 7)]⟩]

set_option maxRecDepth 100000 in
theorem nfa_ok : NfaOk conts lins nulls := ⟨rfl, rfl, rfl⟩

theorem items_ok : itemsOk entries 60 = true := by decide +kernel

theorem entries_ok : entries.all (checkEntry checkMachine.erase lins nulls entries) = true := by
  decide +kernel

/-- The machine's successful runs are the derivations of the grammar. -/
theorem trace_iff (s : Str) (es : List (Ev CheckAct)) :
    checkMachine.erase.trace checkMachine.erase.start s = some es ↔ DerivesS t0 s es := by
  have h := check_sound nfa_ok (n := 60) rfl items_ok entries_ok s (e := entries.head (by simp [entries]))
    (List.head_mem _) es
  have h0 : (entries.head (by simp [entries])).items = [0] := rfl
  have h1 : stackAt conts 0 = t0 := rfl
  rw [h0] at h
  simp only [List.mem_singleton, exists_eq_left, h1] at h
  exact h

end Verif.Ddl.CheckG.Lang
