import Verif.Ragel.Bisim
import Verif.Ddl.Grammars
import Verif.Ragel.Track

/-!
# Certificate that `(checkMachine.track .matchDeferrable)` implements its grammar

Generated by tools/GenCert.txt; do not edit. Checked by the kernel below.
-/

namespace Verif.Ddl.CheckG.Deferrable
open Verif Verif.Ragel Verif.Ddl CheckG

/-- The sequences that can remain to be matched. -/
def conts : List (List (Gram CheckAct)) := [
  d0,
  (.seq (.cls [(72, 72), (104, 104)] []) (.seq (.cls [(69, 69), (101, 101)] []) (.seq (.cls [(67, 67), (99, 99)] []) (.cls [(75, 75), (107, 107)] [])))) :: sp :: (.cls [(40, 40)] []) :: anys :: (.cls [(41, 41)] []) :: ws :: (.seq (.cls [(68, 68), (100, 100)] []) (.seq (.cls [(69, 69), (101, 101)] []) (.seq (.cls [(70, 70), (102, 102)] []) (.seq (.cls [(69, 69), (101, 101)] []) (.seq (.cls [(82, 82), (114, 114)] []) (.seq (.cls [(82, 82), (114, 114)] []) (.seq (.cls [(65, 65), (97, 97)] []) (.seq (.cls [(66, 66), (98, 98)] []) (.seq (.cls [(76, 76), (108, 108)] []) (.cls [(69, 69), (101, 101)] [])))))))))) :: sp1 :: dRest :: [],
  (.seq (.cls [(69, 69), (101, 101)] []) (.seq (.cls [(67, 67), (99, 99)] []) (.cls [(75, 75), (107, 107)] []))) :: sp :: (.cls [(40, 40)] []) :: anys :: (.cls [(41, 41)] []) :: ws :: (.seq (.cls [(68, 68), (100, 100)] []) (.seq (.cls [(69, 69), (101, 101)] []) (.seq (.cls [(70, 70), (102, 102)] []) (.seq (.cls [(69, 69), (101, 101)] []) (.seq (.cls [(82, 82), (114, 114)] []) (.seq (.cls [(82, 82), (114, 114)] []) (.seq (.cls [(65, 65), (97, 97)] []) (.seq (.cls [(66, 66), (98, 98)] []) (.seq (.cls [(76, 76), (108, 108)] []) (.cls [(69, 69), (101, 101)] [])))))))))) :: sp1 :: dRest :: [],
  (.seq (.cls [(67, 67), (99, 99)] []) (.cls [(75, 75), (107, 107)] [])) :: sp :: (.cls [(40, 40)] []) :: anys :: (.cls [(41, 41)] []) :: ws :: (.seq (.cls [(68, 68), (100, 100)] []) (.seq (.cls [(69, 69), (101, 101)] []) (.seq (.cls [(70, 70), (102, 102)] []) (.seq (.cls [(69, 69), (101, 101)] []) (.seq (.cls [(82, 82), (114, 114)] []) (.seq (.cls [(82, 82), (114, 114)] []) (.seq (.cls [(65, 65), (97, 97)] []) (.seq (.cls [(66, 66), (98, 98)] []) (.seq (.cls [(76, 76), (108, 108)] []) (.cls [(69, 69), (101, 101)] [])))))))))) :: sp1 :: dRest :: [],
  (.cls [(75, 75), (107, 107)] []) :: sp :: (.cls [(40, 40)] []) :: anys :: (.cls [(41, 41)] []) :: ws :: (.seq (.cls [(68, 68), (100, 100)] []) (.seq (.cls [(69, 69), (101, 101)] []) (.seq (.cls [(70, 70), (102, 102)] []) (.seq (.cls [(69, 69), (101, 101)] []) (.seq (.cls [(82, 82), (114, 114)] []) (.seq (.cls [(82, 82), (114, 114)] []) (.seq (.cls [(65, 65), (97, 97)] []) (.seq (.cls [(66, 66), (98, 98)] []) (.seq (.cls [(76, 76), (108, 108)] []) (.cls [(69, 69), (101, 101)] [])))))))))) :: sp1 :: dRest :: [],
  sp :: (.cls [(40, 40)] []) :: anys :: (.cls [(41, 41)] []) :: ws :: (.seq (.cls [(68, 68), (100, 100)] []) (.seq (.cls [(69, 69), (101, 101)] []) (.seq (.cls [(70, 70), (102, 102)] []) (.seq (.cls [(69, 69), (101, 101)] []) (.seq (.cls [(82, 82), (114, 114)] []) (.seq (.cls [(82, 82), (114, 114)] []) (.seq (.cls [(65, 65), (97, 97)] []) (.seq (.cls [(66, 66), (98, 98)] []) (.seq (.cls [(76, 76), (108, 108)] []) (.cls [(69, 69), (101, 101)] [])))))))))) :: sp1 :: dRest :: [],
  anys :: (.cls [(41, 41)] []) :: ws :: (.seq (.cls [(68, 68), (100, 100)] []) (.seq (.cls [(69, 69), (101, 101)] []) (.seq (.cls [(70, 70), (102, 102)] []) (.seq (.cls [(69, 69), (101, 101)] []) (.seq (.cls [(82, 82), (114, 114)] []) (.seq (.cls [(82, 82), (114, 114)] []) (.seq (.cls [(65, 65), (97, 97)] []) (.seq (.cls [(66, 66), (98, 98)] []) (.seq (.cls [(76, 76), (108, 108)] []) (.cls [(69, 69), (101, 101)] [])))))))))) :: sp1 :: dRest :: [],
  ws :: (.seq (.cls [(68, 68), (100, 100)] []) (.seq (.cls [(69, 69), (101, 101)] []) (.seq (.cls [(70, 70), (102, 102)] []) (.seq (.cls [(69, 69), (101, 101)] []) (.seq (.cls [(82, 82), (114, 114)] []) (.seq (.cls [(82, 82), (114, 114)] []) (.seq (.cls [(65, 65), (97, 97)] []) (.seq (.cls [(66, 66), (98, 98)] []) (.seq (.cls [(76, 76), (108, 108)] []) (.cls [(69, 69), (101, 101)] [])))))))))) :: sp1 :: dRest :: [],
  sp :: (.seq (.cls [(68, 68), (100, 100)] []) (.seq (.cls [(69, 69), (101, 101)] []) (.seq (.cls [(70, 70), (102, 102)] []) (.seq (.cls [(69, 69), (101, 101)] []) (.seq (.cls [(82, 82), (114, 114)] []) (.seq (.cls [(82, 82), (114, 114)] []) (.seq (.cls [(65, 65), (97, 97)] []) (.seq (.cls [(66, 66), (98, 98)] []) (.seq (.cls [(76, 76), (108, 108)] []) (.cls [(69, 69), (101, 101)] [])))))))))) :: sp1 :: dRest :: [],
  (.seq (.cls [(69, 69), (101, 101)] []) (.seq (.cls [(70, 70), (102, 102)] []) (.seq (.cls [(69, 69), (101, 101)] []) (.seq (.cls [(82, 82), (114, 114)] []) (.seq (.cls [(82, 82), (114, 114)] []) (.seq (.cls [(65, 65), (97, 97)] []) (.seq (.cls [(66, 66), (98, 98)] []) (.seq (.cls [(76, 76), (108, 108)] []) (.cls [(69, 69), (101, 101)] []))))))))) :: sp1 :: dRest :: [],
  (.seq (.cls [(70, 70), (102, 102)] []) (.seq (.cls [(69, 69), (101, 101)] []) (.seq (.cls [(82, 82), (114, 114)] []) (.seq (.cls [(82, 82), (114, 114)] []) (.seq (.cls [(65, 65), (97, 97)] []) (.seq (.cls [(66, 66), (98, 98)] []) (.seq (.cls [(76, 76), (108, 108)] []) (.cls [(69, 69), (101, 101)] [])))))))) :: sp1 :: dRest :: [],
  (.seq (.cls [(69, 69), (101, 101)] []) (.seq (.cls [(82, 82), (114, 114)] []) (.seq (.cls [(82, 82), (114, 114)] []) (.seq (.cls [(65, 65), (97, 97)] []) (.seq (.cls [(66, 66), (98, 98)] []) (.seq (.cls [(76, 76), (108, 108)] []) (.cls [(69, 69), (101, 101)] []))))))) :: sp1 :: dRest :: [],
  (.seq (.cls [(82, 82), (114, 114)] []) (.seq (.cls [(82, 82), (114, 114)] []) (.seq (.cls [(65, 65), (97, 97)] []) (.seq (.cls [(66, 66), (98, 98)] []) (.seq (.cls [(76, 76), (108, 108)] []) (.cls [(69, 69), (101, 101)] [])))))) :: sp1 :: dRest :: [],
  (.seq (.cls [(82, 82), (114, 114)] []) (.seq (.cls [(65, 65), (97, 97)] []) (.seq (.cls [(66, 66), (98, 98)] []) (.seq (.cls [(76, 76), (108, 108)] []) (.cls [(69, 69), (101, 101)] []))))) :: sp1 :: dRest :: [],
  (.seq (.cls [(65, 65), (97, 97)] []) (.seq (.cls [(66, 66), (98, 98)] []) (.seq (.cls [(76, 76), (108, 108)] []) (.cls [(69, 69), (101, 101)] [])))) :: sp1 :: dRest :: [],
  (.seq (.cls [(66, 66), (98, 98)] []) (.seq (.cls [(76, 76), (108, 108)] []) (.cls [(69, 69), (101, 101)] []))) :: sp1 :: dRest :: [],
  (.seq (.cls [(76, 76), (108, 108)] []) (.cls [(69, 69), (101, 101)] [])) :: sp1 :: dRest :: [],
  (.cls [(69, 69), (101, 101)] []) :: sp1 :: dRest :: [],
  sp1 :: dRest :: [],
  dRest :: [],
  anys :: (.seq (.cls [(41, 41)] []) deferral) :: [],
  deferral :: [],
  sp :: (.alt (.seq initially sp) .eps) :: [],
  (.seq (.cls [(78, 78), (110, 110)] []) (.seq (.cls [(73, 73), (105, 105)] []) (.seq (.cls [(84, 84), (116, 116)] []) (.seq (.cls [(73, 73), (105, 105)] []) (.seq (.cls [(65, 65), (97, 97)] []) (.seq (.cls [(76, 76), (108, 108)] []) (.seq (.cls [(76, 76), (108, 108)] []) (.cls [(89, 89), (121, 121)] [])))))))) :: (.seq ws (.alt (.seq (.cls [(73, 73), (105, 105)] []) (.seq (.cls [(77, 77), (109, 109)] []) (.seq (.cls [(77, 77), (109, 109)] []) (.seq (.cls [(69, 69), (101, 101)] []) (.seq (.cls [(68, 68), (100, 100)] []) (.seq (.cls [(73, 73), (105, 105)] []) (.seq (.cls [(65, 65), (97, 97)] []) (.seq (.cls [(84, 84), (116, 116)] []) (.cls [(69, 69), (101, 101)] []))))))))) (.seq (.cls [(68, 68), (100, 100)] []) (.seq (.cls [(69, 69), (101, 101)] []) (.seq (.cls [(70, 70), (102, 102)] []) (.seq (.cls [(69, 69), (101, 101)] []) (.seq (.cls [(82, 82), (114, 114)] []) (.seq (.cls [(82, 82), (114, 114)] []) (.seq (.cls [(69, 69), (101, 101)] []) (.cls [(68, 68), (100, 100)] [])))))))))) :: sp :: [],
  sp :: [],
  sp :: (.seq (.seq (.cls [(78, 78), (110, 110)] []) (.seq (.cls [(79, 79), (111, 111)] []) (.cls [(84, 84), (116, 116)] []))) (.seq ws (.seq (.seq (.cls [(68, 68), (100, 100)] []) (.seq (.cls [(69, 69), (101, 101)] []) (.seq (.cls [(70, 70), (102, 102)] []) (.seq (.cls [(69, 69), (101, 101)] []) (.seq (.cls [(82, 82), (114, 114)] []) (.seq (.cls [(82, 82), (114, 114)] []) (.seq (.cls [(65, 65), (97, 97)] []) (.seq (.cls [(66, 66), (98, 98)] []) (.seq (.cls [(76, 76), (108, 108)] []) (.cls [(69, 69), (101, 101)] [])))))))))) sp))) :: [],
  sp :: (.seq (.seq (.cls [(68, 68), (100, 100)] []) (.seq (.cls [(69, 69), (101, 101)] []) (.seq (.cls [(70, 70), (102, 102)] []) (.seq (.cls [(69, 69), (101, 101)] []) (.seq (.cls [(82, 82), (114, 114)] []) (.seq (.cls [(82, 82), (114, 114)] []) (.seq (.cls [(65, 65), (97, 97)] []) (.seq (.cls [(66, 66), (98, 98)] []) (.seq (.cls [(76, 76), (108, 108)] []) (.cls [(69, 69), (101, 101)] [])))))))))) (.seq ws (.alt (.seq initially sp) .eps))) :: [],
  sp :: (.seq initially sp) :: [],
  (.seq (.cls [(73, 73), (105, 105)] []) (.seq (.cls [(84, 84), (116, 116)] []) (.seq (.cls [(73, 73), (105, 105)] []) (.seq (.cls [(65, 65), (97, 97)] []) (.seq (.cls [(76, 76), (108, 108)] []) (.seq (.cls [(76, 76), (108, 108)] []) (.cls [(89, 89), (121, 121)] []))))))) :: (.seq ws (.alt (.seq (.cls [(73, 73), (105, 105)] []) (.seq (.cls [(77, 77), (109, 109)] []) (.seq (.cls [(77, 77), (109, 109)] []) (.seq (.cls [(69, 69), (101, 101)] []) (.seq (.cls [(68, 68), (100, 100)] []) (.seq (.cls [(73, 73), (105, 105)] []) (.seq (.cls [(65, 65), (97, 97)] []) (.seq (.cls [(84, 84), (116, 116)] []) (.cls [(69, 69), (101, 101)] []))))))))) (.seq (.cls [(68, 68), (100, 100)] []) (.seq (.cls [(69, 69), (101, 101)] []) (.seq (.cls [(70, 70), (102, 102)] []) (.seq (.cls [(69, 69), (101, 101)] []) (.seq (.cls [(82, 82), (114, 114)] []) (.seq (.cls [(82, 82), (114, 114)] []) (.seq (.cls [(69, 69), (101, 101)] []) (.cls [(68, 68), (100, 100)] [])))))))))) :: sp :: [],
  (.seq (.cls [(79, 79), (111, 111)] []) (.cls [(84, 84), (116, 116)] [])) :: (.seq ws (.seq (.seq (.cls [(68, 68), (100, 100)] []) (.seq (.cls [(69, 69), (101, 101)] []) (.seq (.cls [(70, 70), (102, 102)] []) (.seq (.cls [(69, 69), (101, 101)] []) (.seq (.cls [(82, 82), (114, 114)] []) (.seq (.cls [(82, 82), (114, 114)] []) (.seq (.cls [(65, 65), (97, 97)] []) (.seq (.cls [(66, 66), (98, 98)] []) (.seq (.cls [(76, 76), (108, 108)] []) (.cls [(69, 69), (101, 101)] [])))))))))) sp)) :: [],
  (.seq (.cls [(69, 69), (101, 101)] []) (.seq (.cls [(70, 70), (102, 102)] []) (.seq (.cls [(69, 69), (101, 101)] []) (.seq (.cls [(82, 82), (114, 114)] []) (.seq (.cls [(82, 82), (114, 114)] []) (.seq (.cls [(65, 65), (97, 97)] []) (.seq (.cls [(66, 66), (98, 98)] []) (.seq (.cls [(76, 76), (108, 108)] []) (.cls [(69, 69), (101, 101)] []))))))))) :: (.seq ws (.alt (.seq initially sp) .eps)) :: [],
  (.seq (.cls [(84, 84), (116, 116)] []) (.seq (.cls [(73, 73), (105, 105)] []) (.seq (.cls [(65, 65), (97, 97)] []) (.seq (.cls [(76, 76), (108, 108)] []) (.seq (.cls [(76, 76), (108, 108)] []) (.cls [(89, 89), (121, 121)] [])))))) :: (.seq ws (.alt (.seq (.cls [(73, 73), (105, 105)] []) (.seq (.cls [(77, 77), (109, 109)] []) (.seq (.cls [(77, 77), (109, 109)] []) (.seq (.cls [(69, 69), (101, 101)] []) (.seq (.cls [(68, 68), (100, 100)] []) (.seq (.cls [(73, 73), (105, 105)] []) (.seq (.cls [(65, 65), (97, 97)] []) (.seq (.cls [(84, 84), (116, 116)] []) (.cls [(69, 69), (101, 101)] []))))))))) (.seq (.cls [(68, 68), (100, 100)] []) (.seq (.cls [(69, 69), (101, 101)] []) (.seq (.cls [(70, 70), (102, 102)] []) (.seq (.cls [(69, 69), (101, 101)] []) (.seq (.cls [(82, 82), (114, 114)] []) (.seq (.cls [(82, 82), (114, 114)] []) (.seq (.cls [(69, 69), (101, 101)] []) (.cls [(68, 68), (100, 100)] [])))))))))) :: sp :: [],
  (.cls [(84, 84), (116, 116)] []) :: (.seq ws (.seq (.seq (.cls [(68, 68), (100, 100)] []) (.seq (.cls [(69, 69), (101, 101)] []) (.seq (.cls [(70, 70), (102, 102)] []) (.seq (.cls [(69, 69), (101, 101)] []) (.seq (.cls [(82, 82), (114, 114)] []) (.seq (.cls [(82, 82), (114, 114)] []) (.seq (.cls [(65, 65), (97, 97)] []) (.seq (.cls [(66, 66), (98, 98)] []) (.seq (.cls [(76, 76), (108, 108)] []) (.cls [(69, 69), (101, 101)] [])))))))))) sp)) :: [],
  (.seq (.cls [(70, 70), (102, 102)] []) (.seq (.cls [(69, 69), (101, 101)] []) (.seq (.cls [(82, 82), (114, 114)] []) (.seq (.cls [(82, 82), (114, 114)] []) (.seq (.cls [(65, 65), (97, 97)] []) (.seq (.cls [(66, 66), (98, 98)] []) (.seq (.cls [(76, 76), (108, 108)] []) (.cls [(69, 69), (101, 101)] [])))))))) :: (.seq ws (.alt (.seq initially sp) .eps)) :: [],
  (.seq (.cls [(73, 73), (105, 105)] []) (.seq (.cls [(65, 65), (97, 97)] []) (.seq (.cls [(76, 76), (108, 108)] []) (.seq (.cls [(76, 76), (108, 108)] []) (.cls [(89, 89), (121, 121)] []))))) :: (.seq ws (.alt (.seq (.cls [(73, 73), (105, 105)] []) (.seq (.cls [(77, 77), (109, 109)] []) (.seq (.cls [(77, 77), (109, 109)] []) (.seq (.cls [(69, 69), (101, 101)] []) (.seq (.cls [(68, 68), (100, 100)] []) (.seq (.cls [(73, 73), (105, 105)] []) (.seq (.cls [(65, 65), (97, 97)] []) (.seq (.cls [(84, 84), (116, 116)] []) (.cls [(69, 69), (101, 101)] []))))))))) (.seq (.cls [(68, 68), (100, 100)] []) (.seq (.cls [(69, 69), (101, 101)] []) (.seq (.cls [(70, 70), (102, 102)] []) (.seq (.cls [(69, 69), (101, 101)] []) (.seq (.cls [(82, 82), (114, 114)] []) (.seq (.cls [(82, 82), (114, 114)] []) (.seq (.cls [(69, 69), (101, 101)] []) (.cls [(68, 68), (100, 100)] [])))))))))) :: sp :: [],
  (.seq ws (.seq (.seq (.cls [(68, 68), (100, 100)] []) (.seq (.cls [(69, 69), (101, 101)] []) (.seq (.cls [(70, 70), (102, 102)] []) (.seq (.cls [(69, 69), (101, 101)] []) (.seq (.cls [(82, 82), (114, 114)] []) (.seq (.cls [(82, 82), (114, 114)] []) (.seq (.cls [(65, 65), (97, 97)] []) (.seq (.cls [(66, 66), (98, 98)] []) (.seq (.cls [(76, 76), (108, 108)] []) (.cls [(69, 69), (101, 101)] [])))))))))) sp)) :: [],
  (.seq (.cls [(69, 69), (101, 101)] []) (.seq (.cls [(82, 82), (114, 114)] []) (.seq (.cls [(82, 82), (114, 114)] []) (.seq (.cls [(65, 65), (97, 97)] []) (.seq (.cls [(66, 66), (98, 98)] []) (.seq (.cls [(76, 76), (108, 108)] []) (.cls [(69, 69), (101, 101)] []))))))) :: (.seq ws (.alt (.seq initially sp) .eps)) :: [],
  (.seq (.cls [(65, 65), (97, 97)] []) (.seq (.cls [(76, 76), (108, 108)] []) (.seq (.cls [(76, 76), (108, 108)] []) (.cls [(89, 89), (121, 121)] [])))) :: (.seq ws (.alt (.seq (.cls [(73, 73), (105, 105)] []) (.seq (.cls [(77, 77), (109, 109)] []) (.seq (.cls [(77, 77), (109, 109)] []) (.seq (.cls [(69, 69), (101, 101)] []) (.seq (.cls [(68, 68), (100, 100)] []) (.seq (.cls [(73, 73), (105, 105)] []) (.seq (.cls [(65, 65), (97, 97)] []) (.seq (.cls [(84, 84), (116, 116)] []) (.cls [(69, 69), (101, 101)] []))))))))) (.seq (.cls [(68, 68), (100, 100)] []) (.seq (.cls [(69, 69), (101, 101)] []) (.seq (.cls [(70, 70), (102, 102)] []) (.seq (.cls [(69, 69), (101, 101)] []) (.seq (.cls [(82, 82), (114, 114)] []) (.seq (.cls [(82, 82), (114, 114)] []) (.seq (.cls [(69, 69), (101, 101)] []) (.cls [(68, 68), (100, 100)] [])))))))))) :: sp :: [],
  sp :: (.seq (.seq (.cls [(68, 68), (100, 100)] []) (.seq (.cls [(69, 69), (101, 101)] []) (.seq (.cls [(70, 70), (102, 102)] []) (.seq (.cls [(69, 69), (101, 101)] []) (.seq (.cls [(82, 82), (114, 114)] []) (.seq (.cls [(82, 82), (114, 114)] []) (.seq (.cls [(65, 65), (97, 97)] []) (.seq (.cls [(66, 66), (98, 98)] []) (.seq (.cls [(76, 76), (108, 108)] []) (.cls [(69, 69), (101, 101)] [])))))))))) sp) :: [],
  (.seq (.cls [(82, 82), (114, 114)] []) (.seq (.cls [(82, 82), (114, 114)] []) (.seq (.cls [(65, 65), (97, 97)] []) (.seq (.cls [(66, 66), (98, 98)] []) (.seq (.cls [(76, 76), (108, 108)] []) (.cls [(69, 69), (101, 101)] [])))))) :: (.seq ws (.alt (.seq initially sp) .eps)) :: [],
  (.seq (.cls [(76, 76), (108, 108)] []) (.seq (.cls [(76, 76), (108, 108)] []) (.cls [(89, 89), (121, 121)] []))) :: (.seq ws (.alt (.seq (.cls [(73, 73), (105, 105)] []) (.seq (.cls [(77, 77), (109, 109)] []) (.seq (.cls [(77, 77), (109, 109)] []) (.seq (.cls [(69, 69), (101, 101)] []) (.seq (.cls [(68, 68), (100, 100)] []) (.seq (.cls [(73, 73), (105, 105)] []) (.seq (.cls [(65, 65), (97, 97)] []) (.seq (.cls [(84, 84), (116, 116)] []) (.cls [(69, 69), (101, 101)] []))))))))) (.seq (.cls [(68, 68), (100, 100)] []) (.seq (.cls [(69, 69), (101, 101)] []) (.seq (.cls [(70, 70), (102, 102)] []) (.seq (.cls [(69, 69), (101, 101)] []) (.seq (.cls [(82, 82), (114, 114)] []) (.seq (.cls [(82, 82), (114, 114)] []) (.seq (.cls [(69, 69), (101, 101)] []) (.cls [(68, 68), (100, 100)] [])))))))))) :: sp :: [],
  (.seq (.cls [(69, 69), (101, 101)] []) (.seq (.cls [(70, 70), (102, 102)] []) (.seq (.cls [(69, 69), (101, 101)] []) (.seq (.cls [(82, 82), (114, 114)] []) (.seq (.cls [(82, 82), (114, 114)] []) (.seq (.cls [(65, 65), (97, 97)] []) (.seq (.cls [(66, 66), (98, 98)] []) (.seq (.cls [(76, 76), (108, 108)] []) (.cls [(69, 69), (101, 101)] []))))))))) :: sp :: [],
  (.seq (.cls [(82, 82), (114, 114)] []) (.seq (.cls [(65, 65), (97, 97)] []) (.seq (.cls [(66, 66), (98, 98)] []) (.seq (.cls [(76, 76), (108, 108)] []) (.cls [(69, 69), (101, 101)] []))))) :: (.seq ws (.alt (.seq initially sp) .eps)) :: [],
  (.seq (.cls [(76, 76), (108, 108)] []) (.cls [(89, 89), (121, 121)] [])) :: (.seq ws (.alt (.seq (.cls [(73, 73), (105, 105)] []) (.seq (.cls [(77, 77), (109, 109)] []) (.seq (.cls [(77, 77), (109, 109)] []) (.seq (.cls [(69, 69), (101, 101)] []) (.seq (.cls [(68, 68), (100, 100)] []) (.seq (.cls [(73, 73), (105, 105)] []) (.seq (.cls [(65, 65), (97, 97)] []) (.seq (.cls [(84, 84), (116, 116)] []) (.cls [(69, 69), (101, 101)] []))))))))) (.seq (.cls [(68, 68), (100, 100)] []) (.seq (.cls [(69, 69), (101, 101)] []) (.seq (.cls [(70, 70), (102, 102)] []) (.seq (.cls [(69, 69), (101, 101)] []) (.seq (.cls [(82, 82), (114, 114)] []) (.seq (.cls [(82, 82), (114, 114)] []) (.seq (.cls [(69, 69), (101, 101)] []) (.cls [(68, 68), (100, 100)] [])))))))))) :: sp :: [],
  (.seq (.cls [(70, 70), (102, 102)] []) (.seq (.cls [(69, 69), (101, 101)] []) (.seq (.cls [(82, 82), (114, 114)] []) (.seq (.cls [(82, 82), (114, 114)] []) (.seq (.cls [(65, 65), (97, 97)] []) (.seq (.cls [(66, 66), (98, 98)] []) (.seq (.cls [(76, 76), (108, 108)] []) (.cls [(69, 69), (101, 101)] [])))))))) :: sp :: [],
  (.seq (.cls [(65, 65), (97, 97)] []) (.seq (.cls [(66, 66), (98, 98)] []) (.seq (.cls [(76, 76), (108, 108)] []) (.cls [(69, 69), (101, 101)] [])))) :: (.seq ws (.alt (.seq initially sp) .eps)) :: [],
  (.cls [(89, 89), (121, 121)] []) :: (.seq ws (.alt (.seq (.cls [(73, 73), (105, 105)] []) (.seq (.cls [(77, 77), (109, 109)] []) (.seq (.cls [(77, 77), (109, 109)] []) (.seq (.cls [(69, 69), (101, 101)] []) (.seq (.cls [(68, 68), (100, 100)] []) (.seq (.cls [(73, 73), (105, 105)] []) (.seq (.cls [(65, 65), (97, 97)] []) (.seq (.cls [(84, 84), (116, 116)] []) (.cls [(69, 69), (101, 101)] []))))))))) (.seq (.cls [(68, 68), (100, 100)] []) (.seq (.cls [(69, 69), (101, 101)] []) (.seq (.cls [(70, 70), (102, 102)] []) (.seq (.cls [(69, 69), (101, 101)] []) (.seq (.cls [(82, 82), (114, 114)] []) (.seq (.cls [(82, 82), (114, 114)] []) (.seq (.cls [(69, 69), (101, 101)] []) (.cls [(68, 68), (100, 100)] [])))))))))) :: sp :: [],
  (.seq (.cls [(69, 69), (101, 101)] []) (.seq (.cls [(82, 82), (114, 114)] []) (.seq (.cls [(82, 82), (114, 114)] []) (.seq (.cls [(65, 65), (97, 97)] []) (.seq (.cls [(66, 66), (98, 98)] []) (.seq (.cls [(76, 76), (108, 108)] []) (.cls [(69, 69), (101, 101)] []))))))) :: sp :: [],
  (.seq (.cls [(66, 66), (98, 98)] []) (.seq (.cls [(76, 76), (108, 108)] []) (.cls [(69, 69), (101, 101)] []))) :: (.seq ws (.alt (.seq initially sp) .eps)) :: [],
  (.seq ws (.alt (.seq (.cls [(73, 73), (105, 105)] []) (.seq (.cls [(77, 77), (109, 109)] []) (.seq (.cls [(77, 77), (109, 109)] []) (.seq (.cls [(69, 69), (101, 101)] []) (.seq (.cls [(68, 68), (100, 100)] []) (.seq (.cls [(73, 73), (105, 105)] []) (.seq (.cls [(65, 65), (97, 97)] []) (.seq (.cls [(84, 84), (116, 116)] []) (.cls [(69, 69), (101, 101)] []))))))))) (.seq (.cls [(68, 68), (100, 100)] []) (.seq (.cls [(69, 69), (101, 101)] []) (.seq (.cls [(70, 70), (102, 102)] []) (.seq (.cls [(69, 69), (101, 101)] []) (.seq (.cls [(82, 82), (114, 114)] []) (.seq (.cls [(82, 82), (114, 114)] []) (.seq (.cls [(69, 69), (101, 101)] []) (.cls [(68, 68), (100, 100)] [])))))))))) :: sp :: [],
  (.seq (.cls [(82, 82), (114, 114)] []) (.seq (.cls [(82, 82), (114, 114)] []) (.seq (.cls [(65, 65), (97, 97)] []) (.seq (.cls [(66, 66), (98, 98)] []) (.seq (.cls [(76, 76), (108, 108)] []) (.cls [(69, 69), (101, 101)] [])))))) :: sp :: [],
  (.seq (.cls [(76, 76), (108, 108)] []) (.cls [(69, 69), (101, 101)] [])) :: (.seq ws (.alt (.seq initially sp) .eps)) :: [],
  sp :: (.alt (.seq (.cls [(73, 73), (105, 105)] []) (.seq (.cls [(77, 77), (109, 109)] []) (.seq (.cls [(77, 77), (109, 109)] []) (.seq (.cls [(69, 69), (101, 101)] []) (.seq (.cls [(68, 68), (100, 100)] []) (.seq (.cls [(73, 73), (105, 105)] []) (.seq (.cls [(65, 65), (97, 97)] []) (.seq (.cls [(84, 84), (116, 116)] []) (.cls [(69, 69), (101, 101)] []))))))))) (.seq (.cls [(68, 68), (100, 100)] []) (.seq (.cls [(69, 69), (101, 101)] []) (.seq (.cls [(70, 70), (102, 102)] []) (.seq (.cls [(69, 69), (101, 101)] []) (.seq (.cls [(82, 82), (114, 114)] []) (.seq (.cls [(82, 82), (114, 114)] []) (.seq (.cls [(69, 69), (101, 101)] []) (.cls [(68, 68), (100, 100)] []))))))))) :: sp :: [],
  (.seq (.cls [(82, 82), (114, 114)] []) (.seq (.cls [(65, 65), (97, 97)] []) (.seq (.cls [(66, 66), (98, 98)] []) (.seq (.cls [(76, 76), (108, 108)] []) (.cls [(69, 69), (101, 101)] []))))) :: sp :: [],
  (.cls [(69, 69), (101, 101)] []) :: (.seq ws (.alt (.seq initially sp) .eps)) :: [],
  (.seq (.cls [(77, 77), (109, 109)] []) (.seq (.cls [(77, 77), (109, 109)] []) (.seq (.cls [(69, 69), (101, 101)] []) (.seq (.cls [(68, 68), (100, 100)] []) (.seq (.cls [(73, 73), (105, 105)] []) (.seq (.cls [(65, 65), (97, 97)] []) (.seq (.cls [(84, 84), (116, 116)] []) (.cls [(69, 69), (101, 101)] [])))))))) :: sp :: [],
  (.seq (.cls [(69, 69), (101, 101)] []) (.seq (.cls [(70, 70), (102, 102)] []) (.seq (.cls [(69, 69), (101, 101)] []) (.seq (.cls [(82, 82), (114, 114)] []) (.seq (.cls [(82, 82), (114, 114)] []) (.seq (.cls [(69, 69), (101, 101)] []) (.cls [(68, 68), (100, 100)] []))))))) :: sp :: [],
  (.seq (.cls [(65, 65), (97, 97)] []) (.seq (.cls [(66, 66), (98, 98)] []) (.seq (.cls [(76, 76), (108, 108)] []) (.cls [(69, 69), (101, 101)] [])))) :: sp :: [],
  (.seq ws (.alt (.seq initially sp) .eps)) :: [],
  (.seq (.cls [(77, 77), (109, 109)] []) (.seq (.cls [(69, 69), (101, 101)] []) (.seq (.cls [(68, 68), (100, 100)] []) (.seq (.cls [(73, 73), (105, 105)] []) (.seq (.cls [(65, 65), (97, 97)] []) (.seq (.cls [(84, 84), (116, 116)] []) (.cls [(69, 69), (101, 101)] []))))))) :: sp :: [],
  (.seq (.cls [(70, 70), (102, 102)] []) (.seq (.cls [(69, 69), (101, 101)] []) (.seq (.cls [(82, 82), (114, 114)] []) (.seq (.cls [(82, 82), (114, 114)] []) (.seq (.cls [(69, 69), (101, 101)] []) (.cls [(68, 68), (100, 100)] [])))))) :: sp :: [],
  (.seq (.cls [(66, 66), (98, 98)] []) (.seq (.cls [(76, 76), (108, 108)] []) (.cls [(69, 69), (101, 101)] []))) :: sp :: [],
  (.seq (.cls [(69, 69), (101, 101)] []) (.seq (.cls [(68, 68), (100, 100)] []) (.seq (.cls [(73, 73), (105, 105)] []) (.seq (.cls [(65, 65), (97, 97)] []) (.seq (.cls [(84, 84), (116, 116)] []) (.cls [(69, 69), (101, 101)] [])))))) :: sp :: [],
  (.seq (.cls [(69, 69), (101, 101)] []) (.seq (.cls [(82, 82), (114, 114)] []) (.seq (.cls [(82, 82), (114, 114)] []) (.seq (.cls [(69, 69), (101, 101)] []) (.cls [(68, 68), (100, 100)] []))))) :: sp :: [],
  (.seq (.cls [(76, 76), (108, 108)] []) (.cls [(69, 69), (101, 101)] [])) :: sp :: [],
  (.seq (.cls [(68, 68), (100, 100)] []) (.seq (.cls [(73, 73), (105, 105)] []) (.seq (.cls [(65, 65), (97, 97)] []) (.seq (.cls [(84, 84), (116, 116)] []) (.cls [(69, 69), (101, 101)] []))))) :: sp :: [],
  (.seq (.cls [(82, 82), (114, 114)] []) (.seq (.cls [(82, 82), (114, 114)] []) (.seq (.cls [(69, 69), (101, 101)] []) (.cls [(68, 68), (100, 100)] [])))) :: sp :: [],
  (.cls [(69, 69), (101, 101)] []) :: sp :: [],
  (.seq (.cls [(73, 73), (105, 105)] []) (.seq (.cls [(65, 65), (97, 97)] []) (.seq (.cls [(84, 84), (116, 116)] []) (.cls [(69, 69), (101, 101)] [])))) :: sp :: [],
  (.seq (.cls [(82, 82), (114, 114)] []) (.seq (.cls [(69, 69), (101, 101)] []) (.cls [(68, 68), (100, 100)] []))) :: sp :: [],
  (.seq (.cls [(65, 65), (97, 97)] []) (.seq (.cls [(84, 84), (116, 116)] []) (.cls [(69, 69), (101, 101)] []))) :: sp :: [],
  (.seq (.cls [(69, 69), (101, 101)] []) (.cls [(68, 68), (100, 100)] [])) :: sp :: [],
  (.seq (.cls [(84, 84), (116, 116)] []) (.cls [(69, 69), (101, 101)] [])) :: sp :: [],
  (.cls [(68, 68), (100, 100)] []) :: sp :: []]

/-- Their linear forms. -/
def lins : List (List (NLin CheckAct)) := [
  [⟨[(9, 13), (32, 32)], [], 0⟩, ⟨[(67, 67), (99, 99)], [], 1⟩],
  [⟨[(72, 72), (104, 104)], [], 2⟩],
  [⟨[(69, 69), (101, 101)], [], 3⟩],
  [⟨[(67, 67), (99, 99)], [], 4⟩],
  [⟨[(75, 75), (107, 107)], [], 5⟩],
  [⟨[(9, 13), (32, 32)], [], 5⟩, ⟨[(40, 40)], [], 6⟩],
  [⟨[(0, 255)], [], 6⟩, ⟨[(41, 41)], [], 7⟩],
  [⟨[(9, 13), (32, 32)], [], 8⟩],
  [⟨[(9, 13), (32, 32)], [], 8⟩, ⟨[(68, 68), (100, 100)], [], 9⟩],
  [⟨[(69, 69), (101, 101)], [], 10⟩],
  [⟨[(70, 70), (102, 102)], [], 11⟩],
  [⟨[(69, 69), (101, 101)], [], 12⟩],
  [⟨[(82, 82), (114, 114)], [], 13⟩],
  [⟨[(82, 82), (114, 114)], [], 14⟩],
  [⟨[(65, 65), (97, 97)], [], 15⟩],
  [⟨[(66, 66), (98, 98)], [], 16⟩],
  [⟨[(76, 76), (108, 108)], [], 17⟩],
  [⟨[(69, 69), (101, 101)], [], 18⟩],
  [⟨[(9, 13), (32, 32)], [], 19⟩],
  [⟨[(0, 255)], [], 20⟩, ⟨[(41, 41)], [], 21⟩, ⟨[(9, 13), (32, 32)], [], 22⟩, ⟨[(73, 73), (105, 105)], [], 23⟩],
  [⟨[(0, 255)], [], 20⟩, ⟨[(41, 41)], [], 21⟩],
  [⟨[(9, 13), (32, 32)], [], 24⟩, ⟨[(9, 13), (32, 32)], [], 25⟩, ⟨[(9, 13), (32, 32)], [], 26⟩, ⟨[(9, 13), (32, 32)], [], 27⟩],
  [⟨[(9, 13), (32, 32)], [], 22⟩, ⟨[(73, 73), (105, 105)], [], 23⟩],
  [⟨[(78, 78), (110, 110)], [], 28⟩],
  [⟨[(9, 13), (32, 32)], [], 24⟩],
  [⟨[(9, 13), (32, 32)], [], 25⟩, ⟨[(78, 78), (110, 110)], [], 29⟩],
  [⟨[(9, 13), (32, 32)], [], 26⟩, ⟨[(68, 68), (100, 100)], [], 30⟩],
  [⟨[(9, 13), (32, 32)], [], 27⟩, ⟨[(73, 73), (105, 105)], [], 23⟩],
  [⟨[(73, 73), (105, 105)], [], 31⟩],
  [⟨[(79, 79), (111, 111)], [], 32⟩],
  [⟨[(69, 69), (101, 101)], [], 33⟩],
  [⟨[(84, 84), (116, 116)], [], 34⟩],
  [⟨[(84, 84), (116, 116)], [], 35⟩],
  [⟨[(70, 70), (102, 102)], [], 36⟩],
  [⟨[(73, 73), (105, 105)], [], 37⟩],
  [⟨[(9, 13), (32, 32)], [], 38⟩],
  [⟨[(69, 69), (101, 101)], [], 39⟩],
  [⟨[(65, 65), (97, 97)], [], 40⟩],
  [⟨[(9, 13), (32, 32)], [], 38⟩, ⟨[(68, 68), (100, 100)], [], 41⟩],
  [⟨[(82, 82), (114, 114)], [], 42⟩],
  [⟨[(76, 76), (108, 108)], [], 43⟩],
  [⟨[(69, 69), (101, 101)], [], 44⟩],
  [⟨[(82, 82), (114, 114)], [], 45⟩],
  [⟨[(76, 76), (108, 108)], [], 46⟩],
  [⟨[(70, 70), (102, 102)], [], 47⟩],
  [⟨[(65, 65), (97, 97)], [], 48⟩],
  [⟨[(89, 89), (121, 121)], [], 49⟩],
  [⟨[(69, 69), (101, 101)], [], 50⟩],
  [⟨[(66, 66), (98, 98)], [], 51⟩],
  [⟨[(9, 13), (32, 32)], [], 52⟩],
  [⟨[(82, 82), (114, 114)], [], 53⟩],
  [⟨[(76, 76), (108, 108)], [], 54⟩],
  [⟨[(9, 13), (32, 32)], [], 52⟩, ⟨[(73, 73), (105, 105)], [], 55⟩, ⟨[(68, 68), (100, 100)], [], 56⟩],
  [⟨[(82, 82), (114, 114)], [], 57⟩],
  [⟨[(69, 69), (101, 101)], [], 58⟩],
  [⟨[(77, 77), (109, 109)], [], 59⟩],
  [⟨[(69, 69), (101, 101)], [], 60⟩],
  [⟨[(65, 65), (97, 97)], [], 61⟩],
  [⟨[(9, 13), (32, 32)], [], 22⟩],
  [⟨[(77, 77), (109, 109)], [], 62⟩],
  [⟨[(70, 70), (102, 102)], [], 63⟩],
  [⟨[(66, 66), (98, 98)], [], 64⟩],
  [⟨[(69, 69), (101, 101)], [], 65⟩],
  [⟨[(69, 69), (101, 101)], [], 66⟩],
  [⟨[(76, 76), (108, 108)], [], 67⟩],
  [⟨[(68, 68), (100, 100)], [], 68⟩],
  [⟨[(82, 82), (114, 114)], [], 69⟩],
  [⟨[(69, 69), (101, 101)], [], 24⟩],
  [⟨[(73, 73), (105, 105)], [], 70⟩],
  [⟨[(82, 82), (114, 114)], [], 71⟩],
  [⟨[(65, 65), (97, 97)], [], 72⟩],
  [⟨[(69, 69), (101, 101)], [], 73⟩],
  [⟨[(84, 84), (116, 116)], [], 67⟩],
  [⟨[(68, 68), (100, 100)], [], 24⟩]]

/-- The ways they match the empty string. -/
def nulls : List (List (List CheckAct)) := [
  [],
  [],
  [],
  [],
  [],
  [],
  [],
  [],
  [],
  [],
  [],
  [],
  [],
  [],
  [],
  [],
  [],
  [],
  [],
  [[]],
  [],
  [[]],
  [[]],
  [],
  [[]],
  [],
  [],
  [],
  [],
  [],
  [],
  [],
  [],
  [],
  [],
  [],
  [],
  [],
  [],
  [],
  [],
  [],
  [],
  [],
  [],
  [],
  [],
  [],
  [],
  [],
  [],
  [],
  [],
  [],
  [],
  [],
  [],
  [],
  [],
  [],
  [],
  [],
  [],
  [],
  [],
  [],
  [],
  [],
  [],
  [],
  [],
  [],
  [],
  []]

/-- Machine states with the stacks that can remain there. -/
def entries : List Entry := [
  ⟨1, [0], [(9, 13, 0), (32, 32, 0), (67, 67, 1), (99, 99, 1)]⟩,
  ⟨2, [1], [(72, 72, 2), (104, 104, 2)]⟩,
  ⟨3, [2], [(69, 69, 3), (101, 101, 3)]⟩,
  ⟨4, [3], [(67, 67, 4), (99, 99, 4)]⟩,
  ⟨5, [4], [(75, 75, 5), (107, 107, 5)]⟩,
  ⟨6, [5], [(9, 13, 5), (32, 32, 5), (40, 40, 6)]⟩,
  ⟨7, [6], [(0, 40, 7), (41, 41, 8), (42, 255, 7)]⟩,
  ⟨8, [6], [(0, 40, 7), (41, 41, 8), (42, 255, 7)]⟩,
  ⟨56, [6, 7], [(0, 8, 7), (9, 13, 9), (14, 31, 7), (32, 32, 9), (33, 40, 7), (41, 41, 8), (42, 255, 7)]⟩,
  ⟨57, [6, 8], [(0, 8, 7), (9, 13, 9), (14, 31, 7), (32, 32, 9), (33, 40, 7), (41, 41, 8), (42, 67, 7), (68, 68, 10), (69, 72, 7), (73, 73, 11), (74, 77, 7), (78, 78, 12), (79, 99, 7), (100, 100, 10), (101, 104, 7), (105, 105, 11), (106, 109, 7), (110, 110, 12), (111, 255, 7)]⟩,
  ⟨9, [6, 9], [(0, 40, 7), (41, 41, 8), (42, 68, 7), (69, 69, 13), (70, 100, 7), (101, 101, 13), (102, 255, 7)]⟩,
  ⟨19, [6], [(0, 40, 7), (41, 41, 8), (42, 77, 7), (78, 78, 14), (79, 109, 7), (110, 110, 14), (111, 255, 7)]⟩,
  ⟨44, [6], [(0, 40, 7), (41, 41, 8), (42, 78, 7), (79, 79, 15), (80, 110, 7), (111, 111, 15), (112, 255, 7)]⟩,
  ⟨10, [6, 10], [(0, 40, 7), (41, 41, 8), (42, 69, 7), (70, 70, 16), (71, 101, 7), (102, 102, 16), (103, 255, 7)]⟩,
  ⟨20, [6], [(0, 40, 7), (41, 41, 8), (42, 72, 7), (73, 73, 17), (74, 104, 7), (105, 105, 17), (106, 255, 7)]⟩,
  ⟨45, [6], [(0, 40, 7), (41, 41, 8), (42, 83, 7), (84, 84, 18), (85, 115, 7), (116, 116, 18), (117, 255, 7)]⟩,
  ⟨11, [6, 11], [(0, 40, 7), (41, 41, 8), (42, 68, 7), (69, 69, 19), (70, 100, 7), (101, 101, 19), (102, 255, 7)]⟩,
  ⟨21, [6], [(0, 40, 7), (41, 41, 8), (42, 83, 7), (84, 84, 20), (85, 115, 7), (116, 116, 20), (117, 255, 7)]⟩,
  ⟨46, [6], [(0, 8, 7), (9, 13, 21), (14, 31, 7), (32, 32, 21), (33, 40, 7), (41, 41, 8), (42, 255, 7)]⟩,
  ⟨12, [6, 12], [(0, 40, 7), (41, 41, 8), (42, 81, 7), (82, 82, 22), (83, 113, 7), (114, 114, 22), (115, 255, 7)]⟩,
  ⟨22, [6], [(0, 40, 7), (41, 41, 8), (42, 72, 7), (73, 73, 23), (74, 104, 7), (105, 105, 23), (106, 255, 7)]⟩,
  ⟨47, [6], [(0, 8, 7), (9, 13, 21), (14, 31, 7), (32, 32, 21), (33, 40, 7), (41, 41, 8), (42, 67, 7), (68, 68, 24), (69, 99, 7), (100, 100, 24), (101, 255, 7)]⟩,
  ⟨13, [6, 13], [(0, 40, 7), (41, 41, 8), (42, 81, 7), (82, 82, 25), (83, 113, 7), (114, 114, 25), (115, 255, 7)]⟩,
  ⟨23, [6], [(0, 40, 7), (41, 41, 8), (42, 64, 7), (65, 65, 26), (66, 96, 7), (97, 97, 26), (98, 255, 7)]⟩,
  ⟨48, [6], [(0, 40, 7), (41, 41, 8), (42, 68, 7), (69, 69, 27), (70, 100, 7), (101, 101, 27), (102, 255, 7)]⟩,
  ⟨14, [6, 14], [(0, 40, 7), (41, 41, 8), (42, 64, 7), (65, 65, 28), (66, 96, 7), (97, 97, 28), (98, 255, 7)]⟩,
  ⟨24, [6], [(0, 40, 7), (41, 41, 8), (42, 75, 7), (76, 76, 29), (77, 107, 7), (108, 108, 29), (109, 255, 7)]⟩,
  ⟨49, [6], [(0, 40, 7), (41, 41, 8), (42, 69, 7), (70, 70, 30), (71, 101, 7), (102, 102, 30), (103, 255, 7)]⟩,
  ⟨15, [6, 15], [(0, 40, 7), (41, 41, 8), (42, 65, 7), (66, 66, 31), (67, 97, 7), (98, 98, 31), (99, 255, 7)]⟩,
  ⟨25, [6], [(0, 40, 7), (41, 41, 8), (42, 75, 7), (76, 76, 32), (77, 107, 7), (108, 108, 32), (109, 255, 7)]⟩,
  ⟨50, [6], [(0, 40, 7), (41, 41, 8), (42, 68, 7), (69, 69, 33), (70, 100, 7), (101, 101, 33), (102, 255, 7)]⟩,
  ⟨16, [6, 16], [(0, 40, 7), (41, 41, 8), (42, 75, 7), (76, 76, 34), (77, 107, 7), (108, 108, 34), (109, 255, 7)]⟩,
  ⟨26, [6], [(0, 40, 7), (41, 41, 8), (42, 88, 7), (89, 89, 35), (90, 120, 7), (121, 121, 35), (122, 255, 7)]⟩,
  ⟨51, [6], [(0, 40, 7), (41, 41, 8), (42, 81, 7), (82, 82, 36), (83, 113, 7), (114, 114, 36), (115, 255, 7)]⟩,
  ⟨17, [6, 17], [(0, 40, 7), (41, 41, 8), (42, 68, 7), (69, 69, 37), (70, 100, 7), (101, 101, 37), (102, 255, 7)]⟩,
  ⟨27, [6], [(0, 8, 7), (9, 13, 38), (14, 31, 7), (32, 32, 38), (33, 40, 7), (41, 41, 8), (42, 255, 7)]⟩,
  ⟨52, [6], [(0, 40, 7), (41, 41, 8), (42, 81, 7), (82, 82, 39), (83, 113, 7), (114, 114, 39), (115, 255, 7)]⟩,
  ⟨18, [6, 18], [(0, 8, 7), (9, 13, 40), (14, 31, 7), (32, 32, 40), (33, 40, 7), (41, 41, 8), (42, 255, 7)]⟩,
  ⟨28, [6], [(0, 8, 7), (9, 13, 38), (14, 31, 7), (32, 32, 38), (33, 40, 7), (41, 41, 8), (42, 67, 7), (68, 68, 41), (69, 72, 7), (73, 73, 42), (74, 99, 7), (100, 100, 41), (101, 104, 7), (105, 105, 42), (106, 255, 7)]⟩,
  ⟨53, [6], [(0, 40, 7), (41, 41, 8), (42, 64, 7), (65, 65, 43), (66, 96, 7), (97, 97, 43), (98, 255, 7)]⟩,
  ⟨118, [6, 19], [(0, 8, 44), (9, 13, 45), (14, 31, 44), (32, 32, 45), (33, 40, 44), (41, 41, 46), (42, 72, 44), (73, 73, 47), (74, 104, 44), (105, 105, 47), (106, 255, 44)]⟩,
  ⟨29, [6], [(0, 40, 7), (41, 41, 8), (42, 68, 7), (69, 69, 48), (70, 100, 7), (101, 101, 48), (102, 255, 7)]⟩,
  ⟨36, [6], [(0, 40, 7), (41, 41, 8), (42, 76, 7), (77, 77, 49), (78, 108, 7), (109, 109, 49), (110, 255, 7)]⟩,
  ⟨54, [6], [(0, 40, 7), (41, 41, 8), (42, 65, 7), (66, 66, 50), (67, 97, 7), (98, 98, 50), (99, 255, 7)]⟩,
  ⟨68, [6, 20], [(0, 40, 44), (41, 41, 46), (42, 255, 44)]⟩,
  ⟨118, [6, 20, 22], [(0, 8, 44), (9, 13, 45), (14, 31, 44), (32, 32, 45), (33, 40, 44), (41, 41, 46), (42, 72, 44), (73, 73, 47), (74, 104, 44), (105, 105, 47), (106, 255, 44)]⟩,
  ⟨116, [6, 7, 20, 21], [(0, 8, 44), (9, 13, 51), (14, 31, 44), (32, 32, 51), (33, 40, 44), (41, 41, 46), (42, 255, 44)]⟩,
  ⟨79, [6, 20, 23], [(0, 40, 44), (41, 41, 46), (42, 77, 44), (78, 78, 52), (79, 109, 44), (110, 110, 52), (111, 255, 44)]⟩,
  ⟨30, [6], [(0, 40, 7), (41, 41, 8), (42, 69, 7), (70, 70, 53), (71, 101, 7), (102, 102, 53), (103, 255, 7)]⟩,
  ⟨37, [6], [(0, 40, 7), (41, 41, 8), (42, 76, 7), (77, 77, 54), (78, 108, 7), (109, 109, 54), (110, 255, 7)]⟩,
  ⟨55, [6], [(0, 40, 7), (41, 41, 8), (42, 75, 7), (76, 76, 55), (77, 107, 7), (108, 108, 55), (109, 255, 7)]⟩,
  ⟨117, [6, 8, 20, 24, 25, 26, 27], [(0, 8, 44), (9, 13, 51), (14, 31, 44), (32, 32, 51), (33, 40, 44), (41, 41, 46), (42, 67, 44), (68, 68, 56), (69, 72, 44), (73, 73, 47), (74, 77, 44), (78, 78, 57), (79, 99, 44), (100, 100, 56), (101, 104, 44), (105, 105, 47), (106, 109, 44), (110, 110, 57), (111, 255, 44)]⟩,
  ⟨80, [6, 20, 28], [(0, 40, 44), (41, 41, 46), (42, 72, 44), (73, 73, 58), (74, 104, 44), (105, 105, 58), (106, 255, 44)]⟩,
  ⟨31, [6], [(0, 40, 7), (41, 41, 8), (42, 68, 7), (69, 69, 59), (70, 100, 7), (101, 101, 59), (102, 255, 7)]⟩,
  ⟨38, [6], [(0, 40, 7), (41, 41, 8), (42, 68, 7), (69, 69, 60), (70, 100, 7), (101, 101, 60), (102, 255, 7)]⟩,
  ⟨43, [6], [(0, 40, 7), (41, 41, 8), (42, 68, 7), (69, 69, 61), (70, 100, 7), (101, 101, 61), (102, 255, 7)]⟩,
  ⟨69, [6, 9, 20, 30], [(0, 40, 44), (41, 41, 46), (42, 68, 44), (69, 69, 62), (70, 100, 44), (101, 101, 62), (102, 255, 44)]⟩,
  ⟨104, [6, 20, 29], [(0, 40, 44), (41, 41, 46), (42, 78, 44), (79, 79, 63), (80, 110, 44), (111, 111, 63), (112, 255, 44)]⟩,
  ⟨81, [6, 20, 31], [(0, 40, 44), (41, 41, 46), (42, 83, 44), (84, 84, 64), (85, 115, 44), (116, 116, 64), (117, 255, 44)]⟩,
  ⟨32, [6], [(0, 40, 7), (41, 41, 8), (42, 81, 7), (82, 82, 65), (83, 113, 7), (114, 114, 65), (115, 255, 7)]⟩,
  ⟨39, [6], [(0, 40, 7), (41, 41, 8), (42, 67, 7), (68, 68, 66), (69, 99, 7), (100, 100, 66), (101, 255, 7)]⟩,
  ⟨59, [6], [(0, 8, 7), (9, 13, 61), (14, 31, 7), (32, 32, 61), (33, 40, 7), (41, 41, 8), (42, 255, 7)]⟩,
  ⟨70, [6, 10, 20, 33], [(0, 40, 44), (41, 41, 46), (42, 69, 44), (70, 70, 67), (71, 101, 44), (102, 102, 67), (103, 255, 44)]⟩,
  ⟨105, [6, 20, 32], [(0, 40, 44), (41, 41, 46), (42, 83, 44), (84, 84, 68), (85, 115, 44), (116, 116, 68), (117, 255, 44)]⟩,
  ⟨82, [6, 20, 34], [(0, 40, 44), (41, 41, 46), (42, 72, 44), (73, 73, 69), (74, 104, 44), (105, 105, 69), (106, 255, 44)]⟩,
  ⟨33, [6], [(0, 40, 7), (41, 41, 8), (42, 81, 7), (82, 82, 70), (83, 113, 7), (114, 114, 70), (115, 255, 7)]⟩,
  ⟨40, [6], [(0, 40, 7), (41, 41, 8), (42, 72, 7), (73, 73, 71), (74, 104, 7), (105, 105, 71), (106, 255, 7)]⟩,
  ⟨71, [6, 11, 20, 36], [(0, 40, 44), (41, 41, 46), (42, 68, 44), (69, 69, 72), (70, 100, 44), (101, 101, 72), (102, 255, 44)]⟩,
  ⟨106, [6, 20, 35], [(0, 8, 44), (9, 13, 73), (14, 31, 44), (32, 32, 73), (33, 40, 44), (41, 41, 46), (42, 255, 44)]⟩,
  ⟨83, [6, 20, 37], [(0, 40, 44), (41, 41, 46), (42, 64, 44), (65, 65, 74), (66, 96, 44), (97, 97, 74), (98, 255, 44)]⟩,
  ⟨34, [6], [(0, 40, 7), (41, 41, 8), (42, 68, 7), (69, 69, 75), (70, 100, 7), (101, 101, 75), (102, 255, 7)]⟩,
  ⟨41, [6], [(0, 40, 7), (41, 41, 8), (42, 64, 7), (65, 65, 76), (66, 96, 7), (97, 97, 76), (98, 255, 7)]⟩,
  ⟨72, [6, 12, 20, 39], [(0, 40, 44), (41, 41, 46), (42, 81, 44), (82, 82, 77), (83, 113, 44), (114, 114, 77), (115, 255, 44)]⟩,
  ⟨107, [6, 20, 38], [(0, 8, 44), (9, 13, 73), (14, 31, 44), (32, 32, 73), (33, 40, 44), (41, 41, 46), (42, 67, 44), (68, 68, 78), (69, 99, 44), (100, 100, 78), (101, 255, 44)]⟩,
  ⟨84, [6, 20, 40], [(0, 40, 44), (41, 41, 46), (42, 75, 44), (76, 76, 79), (77, 107, 44), (108, 108, 79), (109, 255, 44)]⟩,
  ⟨35, [6], [(0, 40, 7), (41, 41, 8), (42, 67, 7), (68, 68, 61), (69, 99, 7), (100, 100, 61), (101, 255, 7)]⟩,
  ⟨42, [6], [(0, 40, 7), (41, 41, 8), (42, 83, 7), (84, 84, 55), (85, 115, 7), (116, 116, 55), (117, 255, 7)]⟩,
  ⟨73, [6, 13, 20, 42], [(0, 40, 44), (41, 41, 46), (42, 81, 44), (82, 82, 80), (83, 113, 44), (114, 114, 80), (115, 255, 44)]⟩,
  ⟨108, [6, 20, 41], [(0, 40, 44), (41, 41, 46), (42, 68, 44), (69, 69, 81), (70, 100, 44), (101, 101, 81), (102, 255, 44)]⟩,
  ⟨85, [6, 20, 43], [(0, 40, 44), (41, 41, 46), (42, 75, 44), (76, 76, 82), (77, 107, 44), (108, 108, 82), (109, 255, 44)]⟩,
  ⟨74, [6, 14, 20, 45], [(0, 40, 44), (41, 41, 46), (42, 64, 44), (65, 65, 83), (66, 96, 44), (97, 97, 83), (98, 255, 44)]⟩,
  ⟨109, [6, 20, 44], [(0, 40, 44), (41, 41, 46), (42, 69, 44), (70, 70, 84), (71, 101, 44), (102, 102, 84), (103, 255, 44)]⟩,
  ⟨86, [6, 20, 46], [(0, 40, 44), (41, 41, 46), (42, 88, 44), (89, 89, 85), (90, 120, 44), (121, 121, 85), (122, 255, 44)]⟩,
  ⟨75, [6, 15, 20, 48], [(0, 40, 44), (41, 41, 46), (42, 65, 44), (66, 66, 86), (67, 97, 44), (98, 98, 86), (99, 255, 44)]⟩,
  ⟨110, [6, 20, 47], [(0, 40, 44), (41, 41, 46), (42, 68, 44), (69, 69, 87), (70, 100, 44), (101, 101, 87), (102, 255, 44)]⟩,
  ⟨87, [6, 20, 49], [(0, 8, 44), (9, 13, 88), (14, 31, 44), (32, 32, 88), (33, 40, 44), (41, 41, 46), (42, 255, 44)]⟩,
  ⟨76, [6, 16, 20, 51], [(0, 40, 44), (41, 41, 46), (42, 75, 44), (76, 76, 89), (77, 107, 44), (108, 108, 89), (109, 255, 44)]⟩,
  ⟨111, [6, 20, 50], [(0, 40, 44), (41, 41, 46), (42, 81, 44), (82, 82, 90), (83, 113, 44), (114, 114, 90), (115, 255, 44)]⟩,
  ⟨88, [6, 20, 52], [(0, 8, 44), (9, 13, 88), (14, 31, 44), (32, 32, 88), (33, 40, 44), (41, 41, 46), (42, 67, 44), (68, 68, 91), (69, 72, 44), (73, 73, 92), (74, 99, 44), (100, 100, 91), (101, 104, 44), (105, 105, 92), (106, 255, 44)]⟩,
  ⟨77, [6, 17, 20, 54], [(0, 40, 44), (41, 41, 46), (42, 68, 44), (69, 69, 93), (70, 100, 44), (101, 101, 93), (102, 255, 44)]⟩,
  ⟨112, [6, 20, 53], [(0, 40, 44), (41, 41, 46), (42, 81, 44), (82, 82, 94), (83, 113, 44), (114, 114, 94), (115, 255, 44)]⟩,
  ⟨89, [6, 20, 56], [(0, 40, 44), (41, 41, 46), (42, 68, 44), (69, 69, 95), (70, 100, 44), (101, 101, 95), (102, 255, 44)]⟩,
  ⟨96, [6, 20, 55], [(0, 40, 44), (41, 41, 46), (42, 76, 44), (77, 77, 96), (78, 108, 44), (109, 109, 96), (110, 255, 44)]⟩,
  ⟨78, [6, 18, 20, 58], [(0, 8, 44), (9, 13, 97), (14, 31, 44), (32, 32, 97), (33, 40, 44), (41, 41, 46), (42, 255, 44)]⟩,
  ⟨113, [6, 20, 57], [(0, 40, 44), (41, 41, 46), (42, 64, 44), (65, 65, 98), (66, 96, 44), (97, 97, 98), (98, 255, 44)]⟩,
  ⟨90, [6, 20, 60], [(0, 40, 44), (41, 41, 46), (42, 69, 44), (70, 70, 99), (71, 101, 44), (102, 102, 99), (103, 255, 44)]⟩,
  ⟨97, [6, 20, 59], [(0, 40, 44), (41, 41, 46), (42, 76, 44), (77, 77, 100), (78, 108, 44), (109, 109, 100), (110, 255, 44)]⟩,
  ⟨118, [6, 19, 20, 22], [(0, 8, 44), (9, 13, 45), (14, 31, 44), (32, 32, 45), (33, 40, 44), (41, 41, 46), (42, 72, 44), (73, 73, 47), (74, 104, 44), (105, 105, 47), (106, 255, 44)]⟩,
  ⟨114, [6, 20, 61], [(0, 40, 44), (41, 41, 46), (42, 65, 44), (66, 66, 101), (67, 97, 44), (98, 98, 101), (99, 255, 44)]⟩,
  ⟨91, [6, 20, 63], [(0, 40, 44), (41, 41, 46), (42, 68, 44), (69, 69, 102), (70, 100, 44), (101, 101, 102), (102, 255, 44)]⟩,
  ⟨98, [6, 20, 62], [(0, 40, 44), (41, 41, 46), (42, 68, 44), (69, 69, 103), (70, 100, 44), (101, 101, 103), (102, 255, 44)]⟩,
  ⟨115, [6, 20, 64], [(0, 40, 44), (41, 41, 46), (42, 75, 44), (76, 76, 104), (77, 107, 44), (108, 108, 104), (109, 255, 44)]⟩,
  ⟨92, [6, 20, 66], [(0, 40, 44), (41, 41, 46), (42, 81, 44), (82, 82, 105), (83, 113, 44), (114, 114, 105), (115, 255, 44)]⟩,
  ⟨99, [6, 20, 65], [(0, 40, 44), (41, 41, 46), (42, 67, 44), (68, 68, 106), (69, 99, 44), (100, 100, 106), (101, 255, 44)]⟩,
  ⟨103, [6, 20, 67], [(0, 40, 44), (41, 41, 46), (42, 68, 44), (69, 69, 107), (70, 100, 44), (101, 101, 107), (102, 255, 44)]⟩,
  ⟨93, [6, 20, 69], [(0, 40, 44), (41, 41, 46), (42, 81, 44), (82, 82, 108), (83, 113, 44), (114, 114, 108), (115, 255, 44)]⟩,
  ⟨100, [6, 20, 68], [(0, 40, 44), (41, 41, 46), (42, 72, 44), (73, 73, 109), (74, 104, 44), (105, 105, 109), (106, 255, 44)]⟩,
  ⟨119, [6, 20, 24], [(0, 8, 44), (9, 13, 107), (14, 31, 44), (32, 32, 107), (33, 40, 44), (41, 41, 46), (42, 255, 44)]⟩,
  ⟨94, [6, 20, 71], [(0, 40, 44), (41, 41, 46), (42, 68, 44), (69, 69, 110), (70, 100, 44), (101, 101, 110), (102, 255, 44)]⟩,
  ⟨101, [6, 20, 70], [(0, 40, 44), (41, 41, 46), (42, 64, 44), (65, 65, 111), (66, 96, 44), (97, 97, 111), (98, 255, 44)]⟩,
  ⟨95, [6, 20, 73], [(0, 40, 44), (41, 41, 46), (42, 67, 44), (68, 68, 107), (69, 99, 44), (100, 100, 107), (101, 255, 44)]⟩,
  ⟨102, [6, 20, 72], [(0, 40, 44), (41, 41, 46), (42, 83, 44), (84, 84, 104), (85, 115, 44), (116, 116, 104), (117, 255, 44)]⟩]

set_option maxRecDepth 100000 in
theorem nfa_ok : NfaOk conts lins nulls := ⟨rfl, rfl, rfl⟩

theorem items_ok : itemsOk entries 74 = true := by decide +kernel

theorem entries_ok : entries.all (checkEntry (checkMachine.track .matchDeferrable) lins nulls entries) = true := by
  decide +kernel

/-- The machine's successful runs are the derivations of the grammar. -/
theorem trace_iff (s : Str) (es : List (Ev CheckAct)) :
    (checkMachine.track .matchDeferrable).trace (checkMachine.track .matchDeferrable).start s = some es ↔ DerivesS d0 s es := by
  have h := check_sound nfa_ok (n := 74) rfl items_ok entries_ok s (e := entries.head (by simp [entries]))
    (List.head_mem _) es
  have h0 : (entries.head (by simp [entries])).items = [0] := rfl
  have h1 : stackAt conts 0 = d0 := rfl
  rw [h0] at h
  simp only [List.mem_singleton, exists_eq_left, h1] at h
  exact h

end Verif.Ddl.CheckG.Deferrable
