import Mathlib.Logic.Function.Basic
import Verif.Main.CrashProps

/-!
# C153: commands that run at the same time

Several programs run at the same time and share the files; each has its own standard output.
-/

namespace Verif.Main
open Verif Cmd Spec

/-! ## Model -/

/-- A program that has been started: main.go with a command. -/
structure Proc (F N : Type) where
  env : Env F N
  message : Str
  cmd : Command

/-- The files, what each program has printed, how far it is, and where in its output it is. -/
structure Sys (ι : Type) where
  files : Str → Option Str
  out : ι → Str
  pc : ι → Pc
  off : ι → Nat

/-- The operating system writes a byte at a place of a file, which is filled up to there if it has become shorter. -/
def putAt (s : Str) (k : Nat) (b : UInt8) : Str :=
  s.take k ++ List.replicate (k - s.length) 0 ++ b :: s.drop (k + 1)

/-- One of the programs makes a step. Files are opened without `O_APPEND` (runbook_dot.go:31, runbook_eval.go:28,
inspect.go:52), so a program goes on writing where it has stopped, whatever others have done to the file. -/
inductive Move {ι F N : Type} [DecidableEq ι] (p : ι → Proc F N) : Sys ι → Sys ι → Prop where
  /-- any step but one that writes to a file -/
  | step (s : Sys ι) (i : ι) (w : World) (pc : Pc)
      (h : Step (p i).env (p i).message (p i).cmd (⟨s.files, s.out i⟩, s.pc i) (w, pc))
      (hf : ∀ o rest strict, s.pc i = .writing (.file o) rest strict → w.files = s.files) :
      Move p s ⟨w.files, Function.update s.out i w.stdout, Function.update s.pc i pc, s.off⟩
  /-- one more byte is written to a file -/
  | byte (s : Sys ι) (i : ι) (o : Str) (b : UInt8) (rest : Str) (strict : Bool)
      (h : s.pc i = .writing (.file o) (b :: rest) strict) :
      Move p s ⟨setFile s.files o (putAt (contents s.files o) (s.off i) b), s.out,
        Function.update s.pc i (.writing (.file o) rest strict), Function.update s.off i (s.off i + 1)⟩

/-- What there may be while the programs run. -/
def Reach {ι F N : Type} [DecidableEq ι] (p : ι → Proc F N) (files : Str → Option Str) (s : Sys ι) : Prop :=
  Relation.ReflTransGen (Move p) ⟨files, fun _ => [], fun _ => .start, fun _ => 0⟩ s

/-! ## Specification -/

/-- The runbook a command is about. -/
def Command.book : Command → Option Str
  | .list file => some file
  | .dot c => some c.file
  | .eval c => some c.file
  | _ => none

/-- A command reads these files only: its runbook, and what that imports. -/
def Reads (L : Libs) (c : Command) (R : Str → Prop) : Prop :=
  ∀ f f' : Str → Option Str, (∀ n, R n → f n = f' n) → ∀ file, c.book = some file →
    L.parse f file = L.parse f' file ∧ ∀ color, L.eval f file color = L.eval f' file color

/-- The file other programs write to. -/
def Foreign {ι F N : Type} (p : ι → Proc F N) (i : ι) (n : Str) : Prop := ∃ j, j ≠ i ∧ (p j).cmd.target = some n

/-! ## Lemmas -/

section
variable {F N : Type} {env : Env F N} {message : Str} {c : Command}

/-- A program writes to its output only. -/
def Own (c : Command) (pc : Pc) : Prop :=
  (∀ o, pc = .opened (.file o) → c.target = some o) ∧ ∀ o rest strict, pc = .writing (.file o) rest strict → c.target = some o

theorem opening_own {output : Str} {w : World} {go : Writer → Pc} (ht : output ≠ b!"-" → c.target = some output)
    (hg : ∀ dest o, dest = .file o → c.target = some o → Own c (go dest)) (hs : Own c (go .stdout)) :
    Own c (opening env output w go).2 ∧ ∀ n, c.target ≠ some n → (opening env output w go).1.files n = w.files n := by
  unfold opening
  cases h : openOutput env.os output w with
  | none => exact ⟨⟨fun _ h => (nomatch h), fun _ _ _ h => nomatch h⟩, fun _ _ => rfl⟩
  | some x =>
    obtain ⟨dest, w1⟩ := x
    rcases openOutput_file h with ⟨_, rfl, rfl⟩ | ⟨hn, _, rfl, rfl⟩
    · exact ⟨hs, fun _ _ => rfl⟩
    · refine ⟨hg _ _ rfl (ht hn), fun n hne => ?_⟩
      have : n ≠ output := fun e => hne (by rw [ht hn, e])
      simp [setFile, this]

theorem own_writing {dest : Writer} {rest : Str} {strict : Bool} (h : ∀ o, dest = .file o → c.target = some o) :
    Own c (.writing dest rest strict) :=
  ⟨fun _ h => (nomatch h), fun o _ _ e => by cases e; exact h o rfl⟩

theorem own_other {pc : Pc} (h : ∀ d, pc ≠ .opened d) (h' : ∀ d r s, pc ≠ .writing d r s) : Own c pc :=
  ⟨fun _ e => absurd e (h _), fun _ _ _ e => absurd e (h' _ _ _)⟩

theorem target_of_out (c : Command) (h : outName c ≠ b!"-") : c.target = some (outName c) := by
  rw [target_eq, if_neg h]

theorem step_own {x y : World × Pc} (hs : Step env message c x y) (h : Own c x.2) :
    Own c y.2 ∧ ∀ n, c.target ≠ some n → y.1.files n = x.1.files n := by
  have fail : Own c .failing := own_other (fun _ h => nomatch h) (fun _ _ _ h => nomatch h)
  have out : ∀ t b, Own c (.writing .stdout t b) := fun t b => own_writing (fun _ h => nomatch h)
  cases hs with
  | @begin w =>
    cases c with
    | ping s =>
      simp only [begin]
      cases (Pg.new env.libpq env.accepts s.options).2 with
      | err => exact ⟨fail, fun _ _ => rfl⟩
      | nilConn => exact ⟨own_other (fun _ h => nomatch h) (fun _ _ _ h => nomatch h), fun _ _ => rfl⟩
      | conn i =>
        simp only
        cases env.version i with
        | error => exact ⟨fail, fun _ _ => rfl⟩
        | ok => exact ⟨out _ _, fun _ _ => rfl⟩
    | inspect ic =>
      simp only [begin]
      cases (Pg.new env.libpq env.accepts ic.server.options).2 with
      | err => exact ⟨fail, fun _ _ => rfl⟩
      | nilConn => exact ⟨own_other (fun _ h => nomatch h) (fun _ _ _ h => nomatch h), fun _ _ => rfl⟩
      | conn i =>
        simp only
        cases Pg.inspect env.parseFloat env.sort (env.serve i) ic.sort with
        | error => exact ⟨fail, fun _ _ => rfl⟩
        | ok d => exact ⟨own_other (fun _ h => nomatch h) (fun _ _ _ h => nomatch h), fun _ _ => rfl⟩
    | list file =>
      simp only [begin]
      cases env.libs.parse w.files file with
      | error => exact ⟨fail, fun _ _ => rfl⟩
      | ok => exact ⟨out _ _, fun _ _ => rfl⟩
    | dot dc =>
      exact opening_own (fun hn => target_of_out (.dot dc) hn) (fun dest o e ho => ⟨fun o' e' => by cases e; cases e'; exact ho,
        fun _ _ _ e => nomatch e⟩) ⟨fun _ e => (nomatch e), fun _ _ _ e => nomatch e⟩
    | eval ec =>
      exact opening_own (fun hn => target_of_out (.eval ec) hn) (fun dest o e ho => ⟨fun o' e' => by cases e; cases e'; exact ho,
        fun _ _ _ e => nomatch e⟩) ⟨fun _ e => (nomatch e), fun _ _ _ e => nomatch e⟩
    | version build long => exact ⟨out _ _, fun _ _ => rfl⟩
  | @store w text =>
    cases c with
    | inspect ic =>
      exact opening_own (fun hn => target_of_out (.inspect ic) hn)
        (fun dest o e ho => own_writing fun o' e' => by rw [e] at e'; cases e'; exact ho) (out _ _)
    | _ => exact ⟨fail, fun _ _ => rfl⟩
  | @load w dest =>
    refine ⟨?_, fun _ _ => rfl⟩
    cases c with
    | dot dc =>
      simp only [load]
      cases env.libs.parse w.files dc.file with
      | error => exact fail
      | ok => exact own_writing fun o e => h.1 o (by rw [e])
    | eval ec =>
      simp only [load]
      cases env.libs.eval w.files ec.file (ec.useColor env.terminal dest) with
      | error => exact fail
      | ok => exact own_writing fun o e => h.1 o (by rw [e])
    | _ => exact fail
  | @byte w dest b rest strict =>
    have hd : ∀ o, dest = .file o → c.target = some o := fun o e => h.2 o _ _ (by rw [e])
    refine ⟨own_writing hd, fun n hn => ?_⟩
    cases dest with
    | stdout => rfl
    | file o =>
      have : n ≠ o := fun e => hn (by rw [hd o rfl, e])
      simp [put, setFile, this]
  | written => exact ⟨own_other (fun _ h => nomatch h) (fun _ _ _ h => nomatch h), fun _ _ => rfl⟩
  | @broken w dest rest strict =>
    refine ⟨?_, fun _ _ => rfl⟩
    cases strict <;> exact own_other (fun _ h => nomatch h) (fun _ _ _ h => nomatch h)
  | report => exact ⟨own_other (fun _ h => nomatch h) (fun _ _ _ h => nomatch h), fun _ _ => rfl⟩
  | char => exact ⟨own_other (fun _ h => nomatch h) (fun _ _ _ h => nomatch h), fun _ _ => rfl⟩
  | exit => exact ⟨own_other (fun _ h => nomatch h) (fun _ _ _ h => nomatch h), fun _ _ => rfl⟩

/-- Two worlds that are the same as far as a program can see. -/
def Same (P : Str → Prop) (w v : World) : Prop := v.stdout = w.stdout ∧ ∀ n, P n → v.files n = w.files n

theorem opening_same {P : Str → Prop} {w v : World} (h : Same P w v) (output : Str) (go : Writer → Pc) :
    (opening env output v go).2 = (opening env output w go).2 ∧
    Same P (opening env output w go).1 (opening env output v go).1 := by
  unfold opening openOutput openTrunc
  by_cases h1 : output = b!"-"
  · simp only [h1, ne_eq, not_true_eq_false, if_false]
    exact ⟨trivial, h⟩
  · simp only [ne_eq, h1, not_false_eq_true, if_true]
    cases env.os.openFails output with
    | true => exact ⟨rfl, h⟩
    | false =>
      refine ⟨rfl, h.1, fun n hn => ?_⟩
      have := h.2 n hn
      simp only [Bool.false_eq_true, if_false, setFile]
      split
      · rfl
      · exact this

/-- A program does the same in worlds that are the same as far as it can see. -/
theorem step_same {P : Str → Prop} (hr : Reads env.libs c P) (ht : ∀ o, c.target = some o → P o) {x y : World × Pc}
    (hs : Step env message c x y) (h : Own c x.2) {v : World} (hv : Same P x.1 v) :
    ∃ v', Step env message c (v, x.2) (v', y.2) ∧ Same P y.1 v' := by
  cases hs with
  | @begin w =>
    have key : (begin env v c).2 = (begin env w c).2 ∧ Same P (begin env w c).1 (begin env v c).1 := by
      cases c with
      | ping s =>
        simp only [begin]
        cases (Pg.new env.libpq env.accepts s.options).2 with
        | err => exact ⟨rfl, hv⟩
        | nilConn => exact ⟨rfl, hv⟩
        | conn i =>
          simp only
          cases env.version i <;> exact ⟨rfl, hv⟩
      | inspect ic =>
        simp only [begin]
        cases (Pg.new env.libpq env.accepts ic.server.options).2 with
        | err => exact ⟨rfl, hv⟩
        | nilConn => exact ⟨rfl, hv⟩
        | conn i =>
          simp only
          cases Pg.inspect env.parseFloat env.sort (env.serve i) ic.sort <;> exact ⟨rfl, hv⟩
      | list file =>
        simp only [begin]
        rw [(hr v.files w.files hv.2 file rfl).1]
        cases env.libs.parse w.files file <;> exact ⟨rfl, hv⟩
      | dot dc => exact opening_same hv _ _
      | eval ec => exact opening_same hv _ _
      | version build long => exact ⟨rfl, hv⟩
    refine ⟨(begin env v c).1, ?_, key.2⟩
    rw [← key.1]
    exact .begin
  | @store w text =>
    have key : (store env text v c).2 = (store env text w c).2 ∧ Same P (store env text w c).1 (store env text v c).1 := by
      cases c with
      | inspect ic => exact opening_same hv _ _
      | _ => exact ⟨rfl, hv⟩
    refine ⟨(store env text v c).1, ?_, key.2⟩
    rw [← key.1]
    exact .store
  | @load w dest =>
    have key : load env dest v c = load env dest w c := by
      cases c with
      | dot dc => simp only [load]; rw [(hr v.files w.files hv.2 _ rfl).1]
      | eval ec => simp only [load]; rw [(hr v.files w.files hv.2 _ rfl).2]
      | _ => rfl
    refine ⟨v, ?_, hv⟩
    rw [← key]
    exact .load
  | @byte w dest b rest strict =>
    refine ⟨put dest [b] v, .byte, ?_⟩
    cases dest with
    | stdout => exact ⟨by simp [put, hv.1], hv.2⟩
    | file o =>
      have ho := hv.2 o (ht o (h.2 o _ _ rfl))
      refine ⟨hv.1, fun n hn => ?_⟩
      simp only [put, setFile, contents, ho]
      split
      · rfl
      · exact hv.2 n hn
  | written => exact ⟨v, .written, hv⟩
  | broken => exact ⟨v, .broken, hv⟩
  | report => exact ⟨v, .report, hv⟩
  | @char w b rest => exact ⟨put .stdout [b] v, .char, by simp [put, hv.1], hv.2⟩
  | exit => exact ⟨v, .exit, hv⟩

theorem putAt_end (s : Str) (b : UInt8) : putAt s s.length b = s ++ [b] := by
  simp [putAt]

/-- Where a program writes: at the end of what it has written. -/
def Place (off : Nat) (w : World) (pc : Pc) : Prop :=
  match pc with
  | .start => off = 0
  | .inspected _ => off = 0
  | .opened (.file o) => off = 0 ∧ contents w.files o = []
  | .writing (.file o) _ _ => off = (contents w.files o).length
  | _ => True

theorem opening_place {output : Str} {w : World} {go : Writer → Pc}
    (hg : ∀ o v, contents v.files o = [] → Place 0 v (go (.file o))) (hs : Place 0 w (go .stdout)) :
    Place 0 (opening env output w go).1 (opening env output w go).2 := by
  unfold opening
  cases h : openOutput env.os output w with
  | none => trivial
  | some x =>
    obtain ⟨dest, w1⟩ := x
    rcases openOutput_file h with ⟨_, rfl, rfl⟩ | ⟨hn, _, rfl, rfl⟩
    · exact hs
    · exact hg _ _ (by simp [contents, setFile])

/-- All steps but one: writing a byte to a file. -/
theorem step_place {off : Nat} {x y : World × Pc} (hs : Step env message c x y) (h : Place off x.1 x.2)
    (hf : ∀ o rest strict, x.2 = .writing (.file o) rest strict → y.1.files = x.1.files) : Place off y.1 y.2 := by
  cases hs with
  | @begin w =>
    have h : off = 0 := h
    subst h
    cases c with
    | ping s =>
      simp only [begin]
      cases (Pg.new env.libpq env.accepts s.options).2 with
      | err => trivial
      | nilConn => trivial
      | conn i =>
        simp only
        cases env.version i <;> trivial
    | inspect ic =>
      simp only [begin]
      cases (Pg.new env.libpq env.accepts ic.server.options).2 with
      | err => trivial
      | nilConn => trivial
      | conn i =>
        simp only
        cases Pg.inspect env.parseFloat env.sort (env.serve i) ic.sort with
        | error => trivial
        | ok => rfl
    | list file =>
      simp only [begin]
      cases env.libs.parse w.files file <;> trivial
    | dot dc => exact opening_place (fun o v h => ⟨rfl, h⟩) trivial
    | eval ec => exact opening_place (fun o v h => ⟨rfl, h⟩) trivial
    | version build long => trivial
  | @store w text =>
    have h : off = 0 := h
    subst h
    cases c with
    | inspect ic => exact opening_place (fun o v h => by simp [Place, h]) trivial
    | _ => trivial
  | @load w dest =>
    have hw : ∀ t s, Place off w (.writing dest t s) := by
      intro t s
      cases dest with
      | stdout => trivial
      | file o =>
        obtain ⟨h1, h2⟩ := h
        simp [Place, h1, h2]
    cases c with
    | dot dc =>
      simp only [load]
      cases env.libs.parse w.files dc.file with
      | error => trivial
      | ok => exact hw _ _
    | eval ec =>
      simp only [load]
      cases env.libs.eval w.files ec.file (ec.useColor env.terminal dest) with
      | error => trivial
      | ok => exact hw _ _
    | _ => trivial
  | @byte w dest b rest strict =>
    cases dest with
    | stdout => trivial
    | file o =>
      have := congrArg (fun f => (contents f o).length) (hf o _ _ rfl)
      simp [put, setFile, contents] at this
  | written => trivial
  | @broken w dest rest strict => cases strict <;> trivial
  | report => trivial
  | char => trivial
  | exit => trivial

end

section
variable {ι F N : Type} [DecidableEq ι] {p : ι → Proc F N} {files : Str → Option Str} {s s' : Sys ι}

theorem place_same {c : Command} {P : Str → Prop} (ht : ∀ o, c.target = some o → P o) {w v : World} (hv : Same P w v) {off : Nat} {pc : Pc}
    (ho : Own c pc) (h : Place off w pc) : Place off v pc := by
  have hc : ∀ o, c.target = some o → contents v.files o = contents w.files o := fun o e => by
    simp only [contents, hv.2 o (ht o e)]
  cases pc with
  | opened dest =>
    cases dest with
    | stdout => trivial
    | file o => exact ⟨h.1, (hc o (ho.1 o rfl)).trans h.2⟩
  | writing dest rest strict =>
    cases dest with
    | stdout => trivial
    | file o =>
      have h : off = (contents w.files o).length := h
      show off = (contents v.files o).length
      rw [h, hc o (ho.2 o _ _ rfl)]
  | start => exact h
  | inspected => exact h
  | failing => trivial
  | printing => trivial
  | ended => trivial

/-- Every program is where it could be alone. -/
def Alone (p : ι → Proc F N) (files : Str → Option Str) (s : Sys ι) (i : ι) : Prop :=
  Own (p i).cmd (s.pc i) ∧ Place (s.off i) ⟨s.files, s.out i⟩ (s.pc i) ∧
  ∃ w, Relation.ReflTransGen (Step (p i).env (p i).message (p i).cmd) (⟨files, []⟩, .start) (w, s.pc i) ∧
    Same (fun n => ¬ Foreign p i n) ⟨s.files, s.out i⟩ w

/-- What another program does is not seen. -/
theorem alone_other {i j : ι} (hij : j ≠ i) (ht : ∀ o, (p i).cmd.target = some o → ¬ Foreign p i o) (h : Alone p files s i)
    (h1 : s'.out i = s.out i) (h2 : s'.pc i = s.pc i) (h3 : s'.off i = s.off i)
    (hf : ∀ n, (p j).cmd.target ≠ some n → s'.files n = s.files n) : Alone p files s' i := by
  obtain ⟨ho, hp, w, hw, hs⟩ := h
  have hsame : Same (fun n => ¬ Foreign p i n) ⟨s.files, s.out i⟩ ⟨s'.files, s'.out i⟩ :=
    ⟨h1, fun n hn => hf n fun e => hn ⟨j, hij, e⟩⟩
  refine ⟨h2 ▸ ho, ?_, w, h2 ▸ hw, ?_⟩
  · rw [h2, h3]
    exact place_same ht hsame ho hp
  · exact ⟨hs.1.trans hsame.1.symm, fun n hn => (hs.2 n hn).trans (hsame.2 n hn).symm⟩

theorem move_alone (hr : ∀ i, Reads (p i).env.libs (p i).cmd (fun n => ¬ Foreign p i n))
    (ht : ∀ i o, (p i).cmd.target = some o → ¬ Foreign p i o) (hm : Move p s s') (h : ∀ i, Alone p files s i) :
    ∀ i, Alone p files s' i := by
  intro i
  cases hm with
  | step j w pc hs hf =>
    obtain ⟨ho, hp, w0, hw, hsame⟩ := h j
    obtain ⟨g1, g2⟩ := step_own hs ho
    by_cases hij : j = i
    · subst hij
      obtain ⟨v', g3, g4⟩ := step_same (hr j) (ht j) hs ho hsame
      refine ⟨?_, ?_, v', ?_, ?_⟩
      · simpa using g1
      · have := step_place hs hp hf
        simpa using this
      · simpa using hw.tail g3
      · simpa using g4
    · have hji : i ≠ j := fun e => hij e.symm
      exact alone_other hij (ht i) (h i) (by simp [hji]) (by simp [hji]) rfl g2
  | byte j o b rest strict hpc =>
    obtain ⟨ho, hp, w0, hw, hsame⟩ := h j
    have htj : (p j).cmd.target = some o := ho.2 o _ _ hpc
    by_cases hij : j = i
    · subst hij
      rw [hpc] at hp hw
      have hp : s.off j = (contents s.files o).length := hp
      have hc : contents w0.files o = contents s.files o := by simp only [contents, hsame.2 o (ht j o htj)]
      refine ⟨?_, ?_, put (.file o) [b] w0, ?_, ?_⟩
      · simpa using own_writing (rest := rest) (strict := strict) (fun o' e => by cases e; exact htj)
      · simp [Place, hp, putAt_end, setFile, contents]
      · simpa using hw.tail .byte
      · refine ⟨hsame.1, fun n hn => ?_⟩
        simp only [put, setFile, hc, hp, putAt_end]
        split
        · rfl
        · exact hsame.2 n hn
    · have hji : i ≠ j := fun e => hij e.symm
      refine alone_other hij (ht i) (h i) rfl (by simp [hji]) (by simp [hji]) fun n hn => ?_
      have : n ≠ o := fun e => hn (by rw [htj, e])
      simp [setFile, this]

/-! ## The property -/

/-- **C153 (partial).** Any number of programs run at the same time, with any commands but `runbook run`, and none writes
to a file another writes to or reads. At every moment each of them has printed, is where, and has made of all files that
are no other's output, what it could have alone.
Missing: programs with the same output (`C153_refuted`). -/
theorem C153_together_partial (hr : ∀ i, Reads (p i).env.libs (p i).cmd (fun n => ¬ Foreign p i n))
    (ht : ∀ i o, (p i).cmd.target = some o → ¬ Foreign p i o) (h : Reach p files s) (i : ι) :
    ∃ w, Relation.ReflTransGen (Step (p i).env (p i).message (p i).cmd) (⟨files, []⟩, .start) (w, s.pc i) ∧
      w.stdout = s.out i ∧ ∀ n, ¬ Foreign p i n → w.files n = s.files n := by
  have key : ∀ i, Alone p files s i := by
    induction h with
    | refl =>
      exact fun i => ⟨own_other (fun _ h => nomatch h) (fun _ _ _ h => nomatch h), rfl, _, .refl, rfl, fun _ _ => rfl⟩
    | tail _ hm ih => exact move_alone hr ht hm ih
  obtain ⟨_, _, w, h1, h2⟩ := key i
  exact ⟨w, h1, h2⟩

/-- **C153, the files (partial).** At every moment the files that are no program's output are as they were, and the output of a program
is as it was or a beginning of what the program alone would leave. -/
theorem C153_files_partial [Nonempty ι] (hr : ∀ i, Reads (p i).env.libs (p i).cmd (fun n => ¬ Foreign p i n))
    (ht : ∀ i o, (p i).cmd.target = some o → ¬ Foreign p i o) (h : Reach p files s) :
    (∀ n, (∀ i, (p i).cmd.target ≠ some n) → s.files n = files n) ∧
    ∀ i o, (p i).cmd.target = some o → s.files o = files o ∨
      ∃ q full, s.files o = some q ∧ (complete (p i).env (p i).message (p i).cmd ⟨files, []⟩).files o = some full ∧ q <+: full := by
  constructor
  · intro n hn
    obtain ⟨i⟩ := ‹Nonempty ι›
    obtain ⟨w, h1, -, h2⟩ := C153_together_partial hr ht h i
    rw [← h2 n fun ⟨j, _, e⟩ => hn j e]
    exact (C137_killed_partial _ _ _ _ _ ⟨_, h1⟩).1 n (hn i)
  · intro i o ho
    obtain ⟨w, h1, -, h2⟩ := C153_together_partial hr ht h i
    rw [← h2 o (ht i o ho)]
    exact (C137_killed_partial _ _ _ _ _ ⟨_, h1⟩).2.1 o ho

end

/-! ## Programs with the same output -/

/-- An evaluation gives the name of the runbook. -/
def namesEnv : Env Int Int :=
  { shopEnv with
    libs :=
      { parse := fun _ _ => .ok { targets := [], tasks := [] }
        eval := fun _ name _ => .ok name
        graph := fun _ _ => [] } }

/-- `pgutil runbook eval -o out abcd` and `pgutil runbook eval -o out e` -/
def twoEvals (i : Bool) : Proc Int Int :=
  ⟨namesEnv, [], .eval { file := if i then b!"abcd" else b!"e", output := b!"out" }⟩

theorem move_to {ι F N : Type} [DecidableEq ι] {p : ι → Proc F N} {s0 s : Sys ι} (h : Relation.ReflTransGen (Move p) s0 s) (i : ι)
    {y : World × Pc} (hs : Step (p i).env (p i).message (p i).cmd (⟨s.files, s.out i⟩, s.pc i) y)
    (hf : ∀ o rest strict, s.pc i = .writing (.file o) rest strict → y.1.files = s.files) :
    Relation.ReflTransGen (Move p) s0
      ⟨y.1.files, Function.update s.out i y.1.stdout, Function.update s.pc i y.2, s.off⟩ :=
  h.tail (.step s i y.1 y.2 hs hf)

/-- **C153 refuted**: two commands write the same file at the same time. Both succeed; in the file there is neither what
the one nor what the other would have written. -/
theorem C153_refuted : ¬ ∀ (p : Bool → Proc Int Int) (files : Str → Option Str) (s : Sys Bool) (o : Str),
    Reach p files s → (∀ i, (p i).cmd.target = some o) → (∀ i, s.pc i = .ended 0) →
    ∃ i, s.files o = (complete (p i).env (p i).message (p i).cmd ⟨files, []⟩).files o := by
  intro h
  have h1 : Reach twoEvals (fun _ => none) _ := .refl
  have h2 := move_to h1 true .begin (fun _ _ _ e => nomatch e)
  have h3 := move_to h2 false .begin (fun _ _ _ e => nomatch e)
  have h4 := move_to h3 true (.load (dest := .file b!"out")) (fun _ _ _ _ => rfl)
  have h5 := move_to h4 false (.load (dest := .file b!"out")) (fun _ _ _ _ => rfl)
  have h6 := h5.tail (.byte _ true b!"out" 97 b!"bcd" true rfl)
  have h7 := h6.tail (.byte _ true b!"out" 98 b!"cd" true rfl)
  have h8 := h7.tail (.byte _ true b!"out" 99 b!"d" true rfl)
  have h9 := h8.tail (.byte _ true b!"out" 100 b!"" true rfl)
  have h10 := h9.tail (.byte _ false b!"out" 101 b!"" true rfl)
  have h11 := move_to h10 true (.written (dest := .file b!"out") (strict := true)) (fun _ _ _ _ => rfl)
  have h12 := move_to h11 false (.written (dest := .file b!"out") (strict := true)) (fun _ _ _ _ => rfl)
  obtain ⟨i, hi⟩ := h _ _ _ b!"out" h12 (by decide) (by intro i; cases i <;> rfl)
  revert hi
  cases i <;> decide +kernel

/-! ## Cases -/

/-- `pgutil runbook dot -O book` and `pgutil runbook list book` -/
def twoCommands (i : Bool) : Proc Int Int :=
  ⟨bracesEnv, [], if i then .dot { file := b!"book", autoOut := true } else .list b!"book"⟩

example : (∀ i, Reads (twoCommands i).env.libs (twoCommands i).cmd (fun n => ¬ Foreign twoCommands i n)) ∧
    ∀ i o, (twoCommands i).cmd.target = some o → ¬ Foreign twoCommands i o := by
  have hn : ∀ i, ¬ Foreign twoCommands i b!"book" := by
    rintro i ⟨j, _, h⟩
    cases j
    · cases h
    · exact absurd h (by decide)
  constructor
  · intro i f f' h file hf
    have hb : file = b!"book" := by cases i <;> cases hf <;> rfl
    subst hb
    exact ⟨by show (if f b!"book" = _ then _ else _) = _; rw [h _ (hn i)]; rfl, fun _ => rfl⟩
  · rintro i o ho ⟨j, hj, h⟩
    cases i <;> cases j <;> first | exact hj rfl | (cases h; done) | (cases ho; done)

end Verif.Main
