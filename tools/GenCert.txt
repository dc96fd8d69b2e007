import Verif.Ragel.Bisim
import Verif.Ddl.Grammars
import Verif.Ragel.Track

/-!
Writes the certificates `lean/Verif/Ddl/Certs/*.lean` (run with
`cd /verif/lean && lake env lean --run ../tools/GenCert.txt`). Nothing here is trusted: the
certificates are checked by the kernel through `Verif.Ragel.check_sound`.
-/

open Verif Verif.Ragel Verif.Ddl

structure Names (A : Type) where
  tails : List (String × List (Gram A))
  grams : List (String × Gram A)

def ppAct {A : Type} [Repr A] (a : A) : String :=
  "." ++ (((toString (repr a)).splitOn ".").getLast!)

def ppOp {A : Type} [Repr A] : Op A → String
  | .push => ".push"
  | .act a => ".act " ++ ppAct a

def ppList (l : List String) : String := "[" ++ ", ".intercalate l ++ "]"

def ppCls (S : Cls) : String := ppList (S.map (fun i => s!"({i.1}, {i.2})"))

partial def ppGram {A : Type} [Repr A] [DecidableEq A] (N : Names A) (g : Gram A) : String :=
  match N.grams.find? (fun p => p.2 = g) with
  | some p => p.1
  | none =>
    match g with
    | .eps => ".eps"
    | .act a => s!"(.act {ppAct a})"
    | .cls S ops => s!"(.cls {ppCls S} {ppList (ops.map ppOp)})"
    | .seq g h => s!"(.seq {ppGram N g} {ppGram N h})"
    | .alt g h => s!"(.alt {ppGram N g} {ppGram N h})"
    | .star g => s!"(.star {ppGram N g})"

partial def ppStack {A : Type} [Repr A] [DecidableEq A] (N : Names A) (gs : List (Gram A)) : String :=
  match N.tails.find? (fun p => p.2 = gs) with
  | some p => p.1
  | none =>
    match gs with
    | [] => "[]"
    | g :: gs => ppGram N g ++ " :: " ++ ppStack N gs

def indexIn {X : Type} [DecidableEq X] (a : Array X) (x : X) : Option Nat := a.findIdx? (fun y => decide (y = x))

partial def exploreN {A : Type} [DecidableEq A] (T : Array (List (Gram A))) (i : Nat)
    (lins : Array (List (NLin A))) : Array (List (Gram A)) × Array (List (NLin A)) := Id.run do
  if i ≥ T.size then return (T, lins)
  let mut T := T
  let mut out : List (NLin A) := []
  for l in lfS T[i]! do
    match indexIn T l.cont with
    | some j => out := out ++ [⟨l.set, l.ops, j⟩]
    | none =>
      out := out ++ [⟨l.set, l.ops, T.size⟩]
      T := T.push l.cont
  return exploreN T (i + 1) (lins.push out)

def points {A : Type} (row : Row A) (ls : List (NLin A)) : List Nat :=
  let a := row.rules.flatMap (fun r => [r.lo, r.hi + 1]) ++
    ls.flatMap (fun l => l.set.flatMap (fun i => [i.1, i.2 + 1]))
  (a.mergeSort (· ≤ ·)).eraseDups

partial def exploreE {A : Type} [DecidableEq A] [Repr A] (M : Machine A) (lins : Array (List (NLin A)))
    (E : Array (Nat × List Nat)) (i : Nat) (out : Array Entry) (errs : Array String) :
    Array Entry × Array String := Id.run do
  if i ≥ E.size then return (out, errs)
  let mut E := E
  let mut errs := errs
  let (q, items) := E[i]!
  let row := (M.rows[q]?).getD ⟨0, [], []⟩
  let ls := items.flatMap (fun i => lins[i]!)
  let pts := points row ls
  let mut segs : List (Nat × Nat × Nat) := []
  for (lo, hi1) in pts.zip (pts.drop 1) do
    let hi := hi1 - 1
    let r := row.rules.find? (fun r => r.lo ≤ lo && hi ≤ r.hi)
    let ms := ls.filter (fun l => l.set.contains lo hi)
    let ks := ((ms.map (·.next)).mergeSort (· ≤ ·)).eraseDups
    match r with
    | none => if ks ≠ [] then errs := errs.push s!"state {q} bytes {lo}-{hi}: machine fails, grammar goes on"
    | some r =>
      if ks = [] then errs := errs.push s!"state {q} bytes {lo}-{hi}: machine goes on, grammar fails"
      for l in ms do
        if l.ops ≠ r.ops then
          errs := errs.push s!"state {q} bytes {lo}-{hi}: machine {repr r.ops}, grammar {repr l.ops}"
      if ks ≠ [] then
        match indexIn E (r.target, ks) with
        | some j => segs := segs ++ [(lo, hi, j)]
        | none =>
          segs := segs ++ [(lo, hi, E.size)]
          E := E.push (r.target, ks)
  if errs.size > 20 then return (out, errs)
  return exploreE M lins E (i + 1) (out.push ⟨q, items, segs⟩) errs

def gen {A : Type} [DecidableEq A] [Repr A] (file ns act machine nfile : String) (M : Machine A)
    (start : List (Gram A)) (N : Names A) (opens : String := "") : IO Unit := do
  let (T, lins) := exploreN #[start] 0 #[]
  let (E, errs) := exploreE M lins #[(M.start, [0])] 0 #[] #[]
  for e in errs do IO.println s!"{machine}: {e}"
  IO.println s!"{machine}: {T.size} stacks, {E.size} entries, {errs.size} errors"
  let mut o := s!"import Verif.Ragel.Bisim\nimport {nfile}\nimport Verif.Ragel.Track\n\n/-!\n# Certificate that `{machine}` implements its grammar\n\nGenerated by tools/GenCert.txt; do not edit. Checked by the kernel below.\n-/\n\nnamespace {ns}\nopen Verif Verif.Ragel Verif.Ddl{opens}\n\n"
  o := o ++ s!"/-- The sequences that can remain to be matched. -/\ndef conts : List (List (Gram {act})) := [\n"
  o := o ++ ",\n".intercalate (T.toList.map (fun s => "  " ++ ppStack N s)) ++ "]\n\n"
  o := o ++ s!"/-- Their linear forms. -/\ndef lins : List (List (NLin {act})) := [\n"
  o := o ++ ",\n".intercalate (lins.toList.map (fun ls => "  " ++ ppList (ls.map (fun l => s!"⟨{ppCls l.set}, {ppList (l.ops.map ppOp)}, {l.next}⟩")))) ++ "]\n\n"
  o := o ++ s!"/-- The ways they match the empty string. -/\ndef nulls : List (List (List {act})) := [\n"
  o := o ++ ",\n".intercalate (T.toList.map (fun s => "  " ++ ppList ((nullS s).map (fun as => ppList (as.map ppAct))))) ++ "]\n\n"
  o := o ++ "/-- Machine states with the stacks that can remain there. -/\ndef entries : List Entry := [\n"
  o := o ++ ",\n".intercalate (E.toList.map (fun e => s!"  ⟨{e.state}, {ppList (e.items.map toString)}, {ppList (e.segs.map (fun s => s!"({s.1}, {s.2.1}, {s.2.2})"))}⟩")) ++ "]\n\n"
  o := o ++ "set_option maxRecDepth 100000 in\ntheorem nfa_ok : NfaOk conts lins nulls := ⟨rfl, rfl, rfl⟩\n\n"
  o := o ++ s!"theorem items_ok : itemsOk entries {T.size} = true := by decide +kernel\n\n"
  o := o ++ s!"theorem entries_ok : entries.all (checkEntry {machine} lins nulls entries) = true := by\n  decide +kernel\n\n"
  let sname := ppStack N start
  o := o ++ s!"/-- The machine's successful runs are the derivations of the grammar. -/\ntheorem trace_iff (s : Str) (es : List (Ev {act})) :\n    {machine}.trace {machine}.start s = some es ↔ DerivesS {sname} s es := by\n  have h := check_sound nfa_ok (n := {T.size}) rfl items_ok entries_ok s (e := entries.head (by simp [entries]))\n    (List.head_mem _) es\n  have h0 : (entries.head (by simp [entries])).items = [0] := rfl\n  have h1 : stackAt conts 0 = {sname} := rfl\n  rw [h0] at h\n  simp only [List.mem_singleton, exists_eq_left, h1] at h\n  exact h\n\nend {ns}\n"
  IO.FS.writeFile file o

def common {A : Type} : List (String × Gram A) :=
  [("sp1", sp1), ("sp", sp), ("ws", ws), ("sp1P", sp1P), ("spP", spP), ("wsP", wsP), ("identR", identR), ("ident", ident)]

def main : IO Unit := do
  gen "Verif/Ddl/Certs/Index.lean" "Verif.Ddl.IndexG" "IndexAct" "indexMachine" "Verif.Ddl.Grammars" indexMachine IndexG.t0
    { tails := [("t0", IndexG.t0), ("t1", IndexG.t1), ("t2", IndexG.t2), ("t3", IndexG.t3), ("t4", IndexG.t4), ("t5", IndexG.t5), ("t6", IndexG.t6), ("t7", IndexG.t7), ("t8", IndexG.t8), ("t9", IndexG.t9), ("t10", IndexG.t10), ("t11", IndexG.t11), ("t12", IndexG.t12), ("t13", IndexG.t13), ("t14", IndexG.t14), ("t15", IndexG.t15), ("t16", IndexG.t16), ("t17", IndexG.t17)],
      grams := common ++ [("opclass", IndexG.opclass), ("more", IndexG.more)] }
  gen "Verif/Ddl/Certs/ForeignKey.lean" "Verif.Ddl.FkG" "FkAct" "foreignKeyMachine" "Verif.Ddl.Grammars" foreignKeyMachine FkG.t0
    { tails := [("t0", FkG.t0), ("t1", FkG.t1), ("t2", FkG.t2), ("t3", FkG.t3), ("t4", FkG.t4), ("t5", FkG.t5), ("t6", FkG.t6), ("t7", FkG.t7), ("t8", FkG.t8), ("t9", FkG.t9), ("t10", FkG.t10), ("t11", FkG.t11), ("t12", FkG.t12), ("t13", FkG.t13), ("t14", FkG.t14), ("t15", FkG.t15), ("t16", FkG.t16), ("t17", FkG.t17), ("t18", FkG.t18), ("t19", FkG.t19)],
      grams := common ++ [("onaction", FkG.onaction), ("match_", FkG.match_), ("initially", FkG.initially), ("spF", FkG.spF), ("(more .addColumn)", FkG.more .addColumn), ("(more .addReferenced)", FkG.more .addReferenced)] }
  gen "Verif/Ddl/Certs/Trigger.lean" "Verif.Ddl.TriggerG" "TriggerAct" "triggerMachine" "Verif.Ddl.Grammars" triggerMachine TriggerG.t0
    { tails := [("t0", TriggerG.t0), ("t1", TriggerG.t1), ("t2", TriggerG.t2), ("t3", TriggerG.t3), ("t4", TriggerG.t4), ("t5", TriggerG.t5), ("t6", TriggerG.t6), ("t7", TriggerG.t7), ("t8", TriggerG.t8), ("t9", TriggerG.t9), ("t10", TriggerG.t10), ("t11", TriggerG.t11), ("t12", TriggerG.t12), ("t13", TriggerG.t13), ("t14", TriggerG.t14), ("t15", TriggerG.t15), ("t16", TriggerG.t16), ("t17", TriggerG.t17), ("t18", TriggerG.t18), ("t19", TriggerG.t19)],
      grams := common ++ [("event", TriggerG.event), ("more", TriggerG.more), ("initially", TriggerG.initially), ("spF", TriggerG.spF)] }
  let cg : List (String × Gram CheckAct) := common ++ [("anys", CheckG.anys), ("initially", CheckG.initially), ("deferral", CheckG.deferral), ("dRest", CheckG.dRest), ("iRest", CheckG.iRest)]
  let ct := [("t0", CheckG.t0), ("d0", CheckG.d0), ("i0", CheckG.i0)]
  gen "Verif/Ddl/Certs/Check.lean" "Verif.Ddl.CheckG.Lang" "CheckAct" "checkMachine.erase" "Verif.Ddl.Grammars" checkMachine.erase CheckG.t0 { tails := ct, grams := cg } " CheckG"
  gen "Verif/Ddl/Certs/CheckDeferrable.lean" "Verif.Ddl.CheckG.Deferrable" "CheckAct" "(checkMachine.track .matchDeferrable)" "Verif.Ddl.Grammars" (checkMachine.track .matchDeferrable) CheckG.d0 { tails := ct, grams := cg } " CheckG"
  gen "Verif/Ddl/Certs/CheckDeferred.lean" "Verif.Ddl.CheckG.Deferred" "CheckAct" "(checkMachine.track .matchInitiallyDeferred)" "Verif.Ddl.Grammars" (checkMachine.track .matchInitiallyDeferred) CheckG.i0 { tails := ct, grams := cg } " CheckG"
