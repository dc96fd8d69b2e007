import Verif.Cli.Spec

/-!
# Helpers for C100: how a command line is read
-/

namespace Verif.Cli
open Verif Main Spec

/-- A context between two words. -/
def at_ (fl : List (Flag Vars)) (as : List (Arg Vars)) (es : List (Element Vars)) (ws : List Str) :
    Ctx Vars :=
  { args := ws, flags := fl, arguments := as, elements := es }

/-- `f` is the flag for the option `o`. -/
structure IsFlag (fl : List (Flag Vars)) (o : Opt) (f : Flag Vars) : Prop where
  long : ∀ n, o.name = some n → findLong fl n = some f
  short : ∀ x, o.letter = some x → findShort fl x = some f
  bool : f.var.isBool = o.value.isNone

/-- What is recorded for an option with flag `f`. -/
def flagElement (f : Flag Vars) (o : Opt) : Element Vars := .flag f (o.value.getD b!"true")

theorem name_ne {o : Opt} {n : Str} (h : o.name = some n) : n ≠ [] ∧ ∀ c ∈ n, c ≠ 61 := by
  cases o <;> simp only [Opt.name, Option.some.injEq, reduceCtorEq] at h <;> subst h <;> decide

theorem letter_ne {o : Opt} {x : UInt8} (h : o.letter = some x) : x ≠ 45 := by
  cases o <;> simp only [Opt.letter, Option.some.injEq, reduceCtorEq] at h <;> subst h <;> decide

theorem takeWhile_name {n : Str} (h : ∀ c ∈ n, c ≠ 61) (v : Str) :
    (n ++ 61 :: v).takeWhile (· ≠ 61) = n ∧ (n ++ 61 :: v).dropWhile (· ≠ 61) = 61 :: v := by
  induction n with
  | nil => simp
  | cons a n ih =>
    have ha : a ≠ 61 := h a (by simp)
    have := ih fun c hc => h c (by simp [hc])
    simp only [List.cons_append, List.takeWhile_cons, List.dropWhile_cons, ha, ne_eq, not_false_eq_true,
      decide_true, if_true]
    exact ⟨congrArg (a :: ·) this.1, this.2⟩

theorem takeWhile_all {n : Str} (h : ∀ c ∈ n, c ≠ 61) :
    n.takeWhile (· ≠ 61) = n ∧ n.dropWhile (· ≠ 61) = [] := by
  induction n with
  | nil => simp
  | cons a n ih =>
    have ha : a ≠ 61 := h a (by simp)
    have := ih fun c hc => h c (by simp [hc])
    simp only [List.takeWhile_cons, List.dropWhile_cons, ha, ne_eq, not_false_eq_true,
      decide_true, if_true]
    exact ⟨congrArg (a :: ·) this.1, this.2⟩

variable {fl : List (Flag Vars)} {as : List (Arg Vars)} {es : List (Element Vars)}

theorem next_plain {v : Str} (hv : Plain v) (ws : List Str) :
    (at_ fl as es (v :: ws)).next = (.arg v, at_ fl as es ws) := by
  simp only [Ctx.next, at_, Bool.false_eq_true, if_false]
  match v, hv with
  | [], _ => rfl
  | c :: rest, hv =>
    have h1 : c ≠ 45 := fun h => (hv rest).1 (by rw [h])
    have h2 : c ≠ 64 := fun h => (hv rest).2 (by rw [h])
    rw [if_neg (by simp [h1])]
    unfold nextOf
    split <;> simp_all

theorem look_plain {v : Str} (hv : Plain v) (ws : List Str) :
    (at_ fl as es (v :: ws)).look = (.arg v, { at_ fl as es ws with peek := [.arg v] }) := by
  have := next_plain (fl := fl) (as := as) (es := es) hv ws
  simp only [at_] at this
  simp only [Ctx.look, at_, this, Ctx.push]

theorem look_long {n : Str} (hn : n ≠ []) (h : ∀ c ∈ n, c ≠ 61) (ws : List Str) :
    (at_ fl as es ((b!"--" ++ n) :: ws)).look =
      (.long n, { at_ fl as es ws with peek := [.long n] }) := by
  obtain ⟨h1, h2⟩ := takeWhile_all h
  have : ¬ (45 :: 45 :: n) = b!"--" := by simpa using hn
  simp only [Ctx.look, Ctx.next, at_, Bool.false_eq_true, if_false, List.cons_append, List.nil_append,
    this, nextOf, h1, h2, Ctx.push]

theorem look_longEq {n : Str} (h : ∀ c ∈ n, c ≠ 61) (v : Str) (ws : List Str) :
    (at_ fl as es ((b!"--" ++ n ++ b!"=" ++ v) :: ws)).look =
      (.long n, { at_ fl as es ws with peek := [.long n, .arg v] }) := by
  obtain ⟨h1, h2⟩ := takeWhile_name h v
  have : ¬ (45 :: 45 :: (n ++ 61 :: v)) = b!"--" := by simp
  simp only [Ctx.look, Ctx.next, at_, Bool.false_eq_true, if_false, List.cons_append, List.nil_append,
    List.append_assoc, this, nextOf, h1, h2, Ctx.push]

theorem look_short {x : UInt8} (hx : x ≠ 45) (ws : List Str) :
    (at_ fl as es ([45, x] :: ws)).look =
      (.short (some x), { at_ fl as es ws with peek := [.short (some x)] }) := by
  have : ¬ [45, x] = b!"--" := by simpa using hx
  simp only [Ctx.look, Ctx.next, at_, Bool.false_eq_true, if_false, this]
  unfold nextOf
  split <;> simp_all [Ctx.push]

theorem look_joined {x : UInt8} {f : Flag Vars} (hx : x ≠ 45) (hf : findShort fl x = some f)
    (hb : f.var.isBool = false) {v : Str} (hv : v ≠ []) (ws : List Str) :
    (at_ fl as es ((45 :: x :: v) :: ws)).look =
      (.short (some x), { at_ fl as es ws with peek := [.short (some x), .arg v] }) := by
  have : ¬ 45 :: x :: v = b!"--" := by simp [hv]
  simp only [Ctx.look, Ctx.next, at_, Bool.false_eq_true, if_false, this]
  unfold nextOf
  split <;> simp_all [Ctx.push]

theorem look_together {x : UInt8} {f : Flag Vars} (hx : x ≠ 45) (hf : findShort fl x = some f)
    (hb : f.var.isBool = true) {v : Str} (hv : v ≠ []) (ws : List Str) :
    (at_ fl as es ((45 :: x :: v) :: ws)).look =
      (.short (some x), { at_ fl as es ((45 :: v) :: ws) with peek := [.short (some x)] }) := by
  have : ¬ 45 :: x :: v = b!"--" := by simp [hv]
  simp only [Ctx.look, Ctx.next, at_, Bool.false_eq_true, if_false, this]
  unfold nextOf
  split <;> simp_all [Ctx.push]

/-- A round of the loop takes an option off. -/
theorem loop_flag {o : Opt} {f : Flag Vars} (hf : IsFlag fl o f) {w : List Str} (hw : Written o w)
    (hfile : ∀ v, o ≠ .file v) (cmds : List (Cli.Cmd Vars)) (n : Nat) (ws : List Str) :
    parseLoop (n + 1) cmds (at_ fl as es (w ++ ws)) =
      parseLoop n cmds (at_ fl as (es ++ [flagElement f o]) ws) := by
  cases hw with
  | @long o name v hn hv hp =>
    obtain ⟨h1, h2⟩ := name_ne hn
    have hb : f.var.isBool = false := by rw [hf.bool, hv]; rfl
    simp only [List.cons_append, List.nil_append]
    rw [parseLoop, show (45 :: 45 :: name) = b!"--" ++ name from rfl, look_long h1 h2]
    simp only [parseFlag, Ctx.look]
    simp only [at_, hf.long _ hn, parseFlagValue, Ctx.next, hb]
    have := look_plain (fl := fl) (as := as) (es := es) hp ws
    simp only [at_] at this
    simp only [Bool.false_eq_true, if_false, this]
    simp only [flagElement, hv, Option.getD_some]
  | @longEq o name v hn hv =>
    obtain ⟨h1, h2⟩ := name_ne hn
    have hb : f.var.isBool = false := by rw [hf.bool, hv]; rfl
    simp only [List.singleton_append]
    rw [parseLoop, look_longEq h2]
    simp only [parseFlag, Ctx.look]
    simp only [at_, hf.long _ hn, parseFlagValue, Ctx.next, hb, Ctx.look, Bool.false_eq_true, if_false,
      flagElement, hv, Option.getD_some]
  | @short o x v hx hv hp =>
    have hb : f.var.isBool = false := by rw [hf.bool, hv]; rfl
    simp only [List.cons_append, List.nil_append]
    rw [parseLoop, look_short (letter_ne hx)]
    simp only [parseFlag, Ctx.look]
    simp only [at_, hf.short _ hx, parseFlagValue, Ctx.next, hb]
    have := look_plain (fl := fl) (as := as) (es := es) hp ws
    simp only [at_] at this
    simp only [Bool.false_eq_true, if_false, this]
    simp only [flagElement, hv, Option.getD_some]
  | @joined o x v hx hv hne =>
    have hb : f.var.isBool = false := by rw [hf.bool, hv]; rfl
    simp only [List.singleton_append]
    rw [parseLoop, look_joined (letter_ne hx) (hf.short _ hx) hb hne]
    simp only [parseFlag, Ctx.look]
    simp only [at_, hf.short _ hx, parseFlagValue, Ctx.next, hb, Ctx.look, Bool.false_eq_true, if_false,
      flagElement, hv, Option.getD_some]
  | @switch o name hn hv =>
    obtain ⟨h1, h2⟩ := name_ne hn
    have hb : f.var.isBool = true := by rw [hf.bool, hv]; rfl
    simp only [List.singleton_append]
    rw [parseLoop, look_long h1 h2]
    simp only [parseFlag, Ctx.look]
    simp only [at_, hf.long _ hn, parseFlagValue, Ctx.next, hb, if_true, flagElement, hv,
      Option.getD_none, Bool.false_eq_true, if_false]
  | @letter o x hx hv =>
    have hb : f.var.isBool = true := by rw [hf.bool, hv]; rfl
    simp only [List.singleton_append]
    rw [parseLoop, look_short (letter_ne hx)]
    simp only [parseFlag, Ctx.look]
    simp only [at_, hf.short _ hx, parseFlagValue, Ctx.next, hb, if_true, flagElement, hv,
      Option.getD_none, Bool.false_eq_true, if_false]
  | file hp => exact absurd rfl (hfile _)

theorem loop_together {o : Opt} {f : Flag Vars} (hf : IsFlag fl o f) {x : UInt8} (hx : o.letter = some x)
    (hv : o.value = none) {v : Str} (hne : v ≠ []) (cmds : List (Cli.Cmd Vars)) (n : Nat)
    (ws : List Str) :
    parseLoop (n + 1) cmds (at_ fl as es ((45 :: x :: v) :: ws)) =
      parseLoop n cmds (at_ fl as (es ++ [flagElement f o]) ((45 :: v) :: ws)) := by
  have hb : f.var.isBool = true := by rw [hf.bool, hv]; rfl
  rw [parseLoop, look_together (letter_ne hx) (hf.short _ hx) hb hne]
  simp only [parseFlag, Ctx.look]
  simp only [at_, hf.short _ hx, parseFlagValue, Ctx.next, hb, if_true, flagElement, hv,
    Option.getD_none, Bool.false_eq_true, if_false]

/-- The flag of each option is `flag`. -/
def Flags (fl : List (Flag Vars)) (flag : Opt → Flag Vars) (os : List Opt) : Prop :=
  ∀ o ∈ os, IsFlag fl o (flag o) ∧ ∀ v, o ≠ .file v

/-- Options without a file. -/
theorem loop_flags {flag : Opt → Flag Vars} {os : List Opt} {ws : List Str} (hw : Words os ws)
    (hf : Flags fl flag os) (cmds : List (Cli.Cmd Vars)) (n : Nat) (tail : List Str)
    (es : List (Element Vars)) :
    parseLoop (n + os.length) cmds (at_ fl as es (ws ++ tail)) =
      parseLoop n cmds (at_ fl as (es ++ os.map fun o => flagElement (flag o) o) tail) := by
  induction hw generalizing es with
  | nil => simp
  | @cons o os w rest hw _ ih =>
    obtain ⟨h1, h2⟩ := hf o (by simp)
    rw [List.append_assoc, List.length_cons, ← Nat.add_assoc, loop_flag h1 hw h2,
      ih fun o ho => hf o (by simp [ho])]
    simp
  | @together o os x y w rest hx hv hy _ ih =>
    obtain ⟨h1, h2⟩ := hf o (by simp)
    have := ih (fun o ho => hf o (by simp [ho])) (es ++ [flagElement (flag o) o])
    rw [List.length_cons, ← Nat.add_assoc]
    simp only [List.cons_append] at this ⊢
    rw [loop_together h1 hx hv (by simp), this]
    simp

theorem words_length {os : List Opt} {ws : List Str} (hw : Words os ws) :
    os.length ≤ (ws.map fun a => a.length + 1).sum := by
  induction hw with
  | nil => simp
  | @cons o os w rest hw _ ih =>
    have : 1 ≤ (w.map fun a => a.length + 1).sum := by
      cases hw <;> simp only [List.map_cons, List.map_nil, List.sum_cons, List.sum_nil] <;> omega
    rw [List.map_append, List.sum_append, List.length_cons]
    omega
  | together _ _ _ _ ih =>
    simp only [List.map_cons, List.sum_cons, List.length_cons] at ih ⊢
    omega

/-! ## The commands -/

/-- The command of a name. -/
def cmdOf : Name → Cli.Cmd Vars
  | .ping => pingCmd
  | .inspect => inspectCmd
  | .list => listCmd
  | .dot => dotCmd
  | .eval => evalCmd
  | .run => runCmd
  | .version => versionCmd

def isFile : Opt → Bool
  | .file _ => true
  | _ => false

def flagsOf (c : Name) : List (Flag Vars) := globalFlags ++ (cmdOf c).flags

/-- The name a flag is stored under. -/
def key (o : Opt) : Str := o.name.getD b!""

def flagOf (c : Name) (o : Opt) : Flag Vars :=
  (findLong (flagsOf c) (key o)).getD { name := b!"", var := .counter id }

def argOf (c : Name) : Arg Vars := (cmdOf c).args.head?.getD { name := b!"", var := .counter id }

/-- What is recorded for an option of a command. -/
def element (c : Name) (o : Opt) : Element Vars :=
  match o with
  | .file v => .arg (argOf c) v
  | o => flagElement (flagOf c o) o

theorem element_flag {c : Name} {o : Opt} (h : isFile o = false) :
    element c o = flagElement (flagOf c o) o := by
  cases o <;> first | rfl | exact Bool.noConfusion h

theorem isFlag {c : Name} {o : Opt} (h : Takes c o) (hf : isFile o = false) :
    IsFlag (flagsOf c) o (flagOf c o) := by
  cases c <;> cases o <;> first
    | exact absurd h id
    | exact Bool.noConfusion hf
    | exact ⟨fun n e => by cases e <;> rfl, fun x e => by cases e <;> rfl, rfl⟩

theorem isFlag_global (c : Name) {o : Opt} (h : Global o) : IsFlag globalFlags o (flagOf c o) := by
  cases c <;> cases o <;> first
    | exact absurd h id
    | exact ⟨fun n e => by cases e; rfl, fun x e => by cases e <;> rfl, rfl⟩

theorem global_isFile {o : Opt} (h : Global o) : isFile o = false := by
  cases o <;> first | rfl | exact absurd h id

theorem isFile_ne {o : Opt} (h : isFile o = false) (v : Str) : o ≠ .file v := fun e => by
  rw [e] at h; cases h

theorem isFile_of_letter {o : Opt} {x : UInt8} (h : o.letter = some x) : isFile o = false := by
  cases o <;> first | rfl | simp [Opt.letter] at h

/-- The loop and what follows it. -/
def rounds (n : Nat) (cmds : List (Cli.Cmd Vars)) (ctx : Ctx Vars) : Res (Ctx Vars) :=
  match parseLoop n cmds ctx with
  | .error => .error
  | .help => .help
  | .file => .file
  | .ok (cmds, ctx) => parseEnd cmds ctx

theorem rounds_congr {n m : Nat} {cmds cmds' : List (Cli.Cmd Vars)} {x y : Ctx Vars}
    (h : parseLoop n cmds x = parseLoop m cmds' y) : rounds n cmds x = rounds m cmds' y := by
  simp only [rounds, h]

/-- The end of the words. -/
def done (fl : List (Flag Vars)) (as : List (Arg Vars)) (es : List (Element Vars)) : Ctx Vars :=
  { at_ fl as es [] with peek := [.eol] }

theorem rounds_end (n : Nat) : rounds (n + 1) [] (at_ fl as es []) = .ok (done fl as es) := rfl

theorem loop_cmd {cmds : List (Cli.Cmd Vars)} {s : Str} {cmd : Cli.Cmd Vars} (hs : Plain s)
    (hc : cmds ≠ []) (hf : (cmds.find? fun cmd => s ∈ cmd.names) = some cmd) (n : Nat) (ws : List Str) :
    parseLoop (n + 1) cmds (at_ fl as es (s :: ws)) =
      parseLoop n cmd.subs (at_ (fl ++ cmd.flags) (as ++ cmd.args) (es ++ [.cmd cmd]) ws) := by
  rw [parseLoop, look_plain hs]
  simp only [hc, ne_eq, not_false_eq_true, if_true, hf, at_, Ctx.matchedCmd, Ctx.next]

theorem written_file {v : Str} {w : List Str} (h : Written (.file v) w) : w = [v] ∧ Plain v := by
  cases h with
  | file hp => exact ⟨rfl, hp⟩
  | long h | longEq h | short h | joined h | switch h | letter h => cases h

/-- The options after the name of a command without subcommands. -/
theorem rounds_post {c : Name} {os : List Opt} {ws : List Str} (hw : Words os ws)
    (ht : ∀ o ∈ os, Takes c o) (has : ∀ x ∈ as, x = argOf c) (n : Nat) (es : List (Element Vars)) :
    rounds (n + os.length + 1) [] (at_ (flagsOf c) as es ws) =
      if os.countP isFile ≤ as.length then
        .ok (done (flagsOf c) (as.drop (os.countP isFile)) (es ++ os.map (element c)))
      else .error := by
  induction hw generalizing es as with
  | nil => simp [rounds_end]
  | @cons o os w rest hw _ ih =>
    have ht' : ∀ o ∈ os, Takes c o := fun o ho => ht o (by simp [ho])
    have hn : n + (o :: os).length + 1 = (n + os.length + 1) + 1 := by simp; omega
    rw [hn]
    by_cases hf : isFile o = true
    · cases o <;> simp only [isFile, Bool.false_eq_true] at hf
      rename_i v
      obtain ⟨rfl, hp⟩ := written_file hw
      have hr : parseLoop (n + os.length + 1 + 1) [] (at_ (flagsOf c) as es ([v] ++ rest)) =
          match as with
          | [] => .ok ([], { at_ (flagsOf c) [] es rest with peek := [.arg v] })
          | a :: as => parseLoop (n + os.length + 1) [] (at_ (flagsOf c) as (es ++ [.arg a v]) rest) := by
        rw [List.singleton_append, parseLoop, look_plain hp]
        simp only [ne_eq, not_true_eq_false, if_false]
        cases as <;> rfl
      cases as with
      | nil =>
        rw [if_neg (by simp [List.countP_cons, isFile])]
        simp only [rounds, hr]
        rfl
      | cons a as =>
        have ha : a = argOf c := has a (by simp)
        rw [rounds_congr hr, ih ht' fun x hx => has x (by simp [hx])]
        simp [List.countP_cons, isFile, element, ha]
    · have hf : isFile o = false := by simpa using hf
      rw [rounds_congr (loop_flag (isFlag (ht o (by simp)) hf) hw (isFile_ne hf) [] _ rest), ih ht' has]
      simp [hf, element_flag hf]
  | @together o os x y w rest hx hv hy _ ih =>
    have hf : isFile o = false := isFile_of_letter hx
    have hn : n + (o :: os).length + 1 = (n + os.length + 1) + 1 := by simp; omega
    rw [hn, rounds_congr (loop_together (isFlag (ht o (by simp)) hf) hx hv (by simp) [] _ rest),
      ih (fun o ho => ht o (by simp [ho])) has]
    simp [hf, element_flag hf]

theorem sub_none {v : Str} (hnot : ∀ c, (c, v) ∉ subWords) :
    (runbookCmd.subs.find? fun cmd => v ∈ cmd.names) = none := by
  simp only [List.find?_eq_none, decide_eq_true_eq]
  intro cmd hc hv
  simp only [runbookCmd, Cmd.subs, List.mem_cons, List.not_mem_nil, or_false] at hc
  rcases hc with rfl | rfl | rfl | rfl <;>
    simp only [listCmd, dotCmd, evalCmd, runCmd, addCommand, Cmd.names, List.mem_cons,
      List.not_mem_nil, or_false] at hv
  · rcases hv with rfl | rfl
    · exact hnot .list (by decide +kernel)
    · exact hnot .list (by decide +kernel)
  · subst hv; exact hnot .dot (by decide +kernel)
  · subst hv; exact hnot .eval (by decide +kernel)
  · subst hv; exact hnot .run (by decide +kernel)

/-- The options after `runbook` when there is no subcommand. -/
theorem rounds_default {os : List Opt} {ws : List Str} (hw : Words os ws)
    (ht : ∀ o ∈ os, Takes .run o) (hs : ∀ v, .file v ∈ os → ∀ c, (c, v) ∉ subWords) (n : Nat)
    (es : List (Element Vars)) (hes : (lastCmd es).isNone = false) :
    ∃ a b, os = a ++ b ∧
    rounds (n + os.length + 2) runbookCmd.subs (at_ globalFlags [] es ws) =
      if os.countP isFile ≤ 1 then
        .ok (done (flagsOf .run) ([argOf .run].drop (os.countP isFile))
          (es ++ a.map (element .run) ++ [.cmd runCmd] ++ b.map (element .run)))
      else .error := by
  induction hw generalizing es with
  | nil =>
    refine ⟨[], [], rfl, ?_⟩
    simp only [rounds, List.length_nil, Nat.add_zero, List.countP_nil, Nat.zero_le, if_true, List.drop_zero,
      List.map_nil, List.append_nil]
    rfl
  | @cons o os w rest hw hw' ih =>
    have ht' : ∀ o ∈ os, Takes .run o := fun o ho => ht o (by simp [ho])
    have hs' : ∀ v, .file v ∈ os → ∀ c, (c, v) ∉ subWords := fun v hv => hs v (by simp [hv])
    have hn : n + (o :: os).length + 2 = (n + os.length + 2) + 1 := by simp; omega
    rw [hn]
    by_cases hf : isFile o = true
    · cases o <;> simp only [isFile, Bool.false_eq_true] at hf
      rename_i v
      obtain ⟨rfl, hp⟩ := written_file hw
      have hfind := sub_none (hs v (by simp))
      have hr : parseLoop (n + os.length + 2 + 1) runbookCmd.subs (at_ globalFlags [] es ([v] ++ rest)) =
          parseLoop (n + os.length + 1) []
            (at_ (flagsOf .run) [] (es ++ [.cmd runCmd] ++ [.arg (argOf .run) v]) rest) := by
        rw [List.singleton_append, parseLoop, look_plain hp]
        simp only [hfind]
        rw [if_pos (by simp [runbookCmd, Cmd.subs]), if_neg (by simp [at_, hes])]
        rfl
      refine ⟨[], _, rfl, ?_⟩
      rw [rounds_congr hr, rounds_post hw' ht' (by simp)]
      simp [List.countP_cons, isFile, element]
    · have hf : isFile o = false := by simpa using hf
      have hg : Global o := by
        have := ht o (by simp)
        cases o <;> trivial
      obtain ⟨a, b, rfl, h⟩ := ih ht' hs' (es ++ [flagElement (flagOf .run o) o])
        (by simp [lastCmd, flagElement, Element.command] at hes ⊢; exact hes)
      refine ⟨o :: a, b, rfl, ?_⟩
      rw [rounds_congr (loop_flag (isFlag_global .run hg) hw (isFile_ne hf) _ _ rest), h]
      simp [hf, element_flag hf]
  | @together o os x y w rest hx hv hy hw' ih =>
    have ht' : ∀ o ∈ os, Takes .run o := fun o ho => ht o (by simp [ho])
    have hs' : ∀ v, .file v ∈ os → ∀ c, (c, v) ∉ subWords := fun v hv => hs v (by simp [hv])
    have hn : n + (o :: os).length + 2 = (n + os.length + 2) + 1 := by simp; omega
    have hf : isFile o = false := isFile_of_letter hx
    have hg : Global o := by
      have := ht o (by simp)
      cases o <;> trivial
    obtain ⟨a, b, rfl, h⟩ := ih ht' hs' (es ++ [flagElement (flagOf .run o) o])
      (by simp [lastCmd, flagElement, Element.command] at hes ⊢; exact hes)
    refine ⟨o :: a, b, rfl, ?_⟩
    rw [hn, rounds_congr (loop_together (isFlag_global .run hg) hx hv (by simp) _ _ rest), h]
    simp [hf, element_flag hf]

/-! ## The line -/

def notCmd : Element Vars → Bool
  | .cmd _ => false
  | _ => true

/-- The commands selected on the way. -/
def path : Name → List (Cli.Cmd Vars)
  | .ping => [pingCmd]
  | .inspect => [inspectCmd]
  | .version => [versionCmd]
  | .list => [runbookCmd, listCmd]
  | .dot => [runbookCmd, dotCmd]
  | .eval => [runbookCmd, evalCmd]
  | .run => [runbookCmd, runCmd]

theorem notCmd_element (c : Name) (o : Opt) : notCmd (element c o) = true := by cases o <;> rfl

theorem command_element (c : Name) (o : Opt) : Element.command (element c o) = none := by cases o <;> rfl

theorem filter_elements (c : Name) (os : List Opt) :
    (os.map (element c)).filter notCmd = os.map (element c) :=
  List.filter_eq_self.2 fun x hx => by
    obtain ⟨o, -, rfl⟩ := List.mem_map.1 hx
    exact notCmd_element c o

theorem filterMap_elements (c : Name) (os : List Opt) : (os.map (element c)).filterMap Element.command = [] :=
  List.filterMap_eq_nil_iff.2 fun x hx => by
    obtain ⟨o, -, rfl⟩ := List.mem_map.1 hx
    exact command_element c o

theorem plain_word {s : Str} (h : (s.head?.all fun c => c ≠ 45 && c ≠ 64) = true) : Plain s := by
  intro rest
  constructor <;> rintro rfl <;> simp at h

theorem map_flags {c : Name} {os : List Opt} (h : ∀ o ∈ os, Global o) :
    (os.map fun o => flagElement (flagOf c o) o) = os.map (element c) :=
  List.map_congr_left fun o ho => (element_flag (global_isFile (h o ho))).symm

theorem countP_global {os : List Opt} (h : ∀ o ∈ os, Global o) : os.countP isFile = 0 :=
  List.countP_eq_zero.2 fun o ho => by simp [global_isFile (h o ho)]

theorem flags_global {os : List Opt} (c : Name) (h : ∀ o ∈ os, Global o) :
    Flags globalFlags (flagOf c) os :=
  fun o ho => ⟨isFlag_global c (h o ho), isFile_ne (global_isFile (h o ho))⟩

theorem args_of (c : Name) : ∀ x ∈ (cmdOf c).args, x = argOf c := by
  cases c <;> simp [cmdOf, argOf, pingCmd, inspectCmd, listCmd, dotCmd, evalCmd, runCmd, versionCmd,
    addCommand, Cmd.args]

theorem top_find {c : Name} {word : Str} (h : (c, word) ∈ topWords) :
    Plain word ∧ (app.cmds.find? fun cmd => word ∈ cmd.names) = some (cmdOf c) ∧
      (cmdOf c).subs = [] ∧ path c = [cmdOf c] := by
  simp only [topWords, List.mem_cons, List.not_mem_nil, or_false, Prod.mk.injEq] at h
  rcases h with ⟨rfl, rfl⟩ | ⟨rfl, rfl⟩ | ⟨rfl, rfl⟩ <;> exact ⟨plain_word (by decide), rfl, rfl, rfl⟩

theorem sub_find {c : Name} {word : Str} (h : (c, word) ∈ subWords) :
    Plain word ∧ (runbookCmd.subs.find? fun cmd => word ∈ cmd.names) = some (cmdOf c) ∧
      (cmdOf c).subs = [] ∧ path c = [runbookCmd, cmdOf c] := by
  simp only [subWords, List.mem_cons, List.not_mem_nil, or_false, Prod.mk.injEq] at h
  rcases h with ⟨rfl, rfl⟩ | ⟨rfl, rfl⟩ | ⟨rfl, rfl⟩ | ⟨rfl, rfl⟩ | ⟨rfl, rfl⟩ <;>
    exact ⟨plain_word (by decide), rfl, rfl, rfl⟩

/-- What the rounds come to. -/
theorem line_rounds {c : Name} {os : List Opt} {args : List Str} (h : Line c os args) :
    (∀ o ∈ os, Takes c o) ∧
    ∃ es, es.filter notCmd = os.map (element c) ∧ es.filterMap Element.command = path c ∧
    rounds (fuelFor args) app.cmds (at_ globalFlags [] [] args) =
      if os.countP isFile ≤ (cmdOf c).args.length then
        .ok (done (flagsOf c) ((cmdOf c).args.drop (os.countP isFile)) es)
      else .error := by
  have hg : ∀ {o : Opt}, Global o → Takes c o := fun {o} ho => by
    cases o <;> first | exact absurd ho id | (cases c <;> trivial)
  cases h with
  | @top c word pre post a b hc hpre hpost ha hb =>
    obtain ⟨hp, hfind, hsubs, hpath⟩ := top_find hc
    refine ⟨fun o ho => (List.mem_append.1 ho).elim (fun h => hg (hpre o h)) (hpost o),
      pre.map (element c) ++ [.cmd (cmdOf c)] ++ post.map (element c), ?_, ?_, ?_⟩
    · simp only [List.filter_append, filter_elements, List.map_append]
      simp [notCmd]
    · simp only [List.filterMap_append, filterMap_elements, hpath]
      simp [Element.command]
    · have h1 := words_length ha
      have h2 := words_length hb
      obtain ⟨n, hn⟩ : ∃ n, fuelFor (a ++ [word] ++ b) = n + post.length + 1 + 1 + pre.length :=
        ⟨fuelFor (a ++ [word] ++ b) - (post.length + 1 + 1 + pre.length), by
          simp only [fuelFor, List.map_append, List.sum_append]; omega⟩
      rw [hn, List.append_assoc, List.singleton_append,
        rounds_congr (loop_flags ha (flags_global c hpre) app.cmds _ (word :: b) []),
        rounds_congr (loop_cmd hp (by simp [app]) hfind _ b), hsubs]
      have := rounds_post (as := (cmdOf c).args) hb hpost (args_of c) n
        (pre.map (element c) ++ [.cmd (cmdOf c)])
      simp only [flagsOf] at this
      simp only [List.nil_append, map_flags hpre, this, List.countP_append, countP_global hpre,
        Nat.zero_add, flagsOf]
  | @sub c word pre mid post a b d hc hpre hmid hpost ha hb hd =>
    obtain ⟨hp, hfind, hsubs, hpath⟩ := sub_find hc
    refine ⟨fun o ho => ?_, pre.map (element c) ++ [.cmd runbookCmd] ++ mid.map (element c) ++
      [.cmd (cmdOf c)] ++ post.map (element c), ?_, ?_, ?_⟩
    · rcases List.mem_append.1 ho with ho | ho
      · exact (List.mem_append.1 ho).elim (fun h => hg (hpre o h)) fun h => hg (hmid o h)
      · exact hpost o ho
    · simp only [List.filter_append, filter_elements, List.map_append]
      simp [notCmd]
    · simp only [List.filterMap_append, filterMap_elements, hpath]
      simp [Element.command]
    · have h1 := words_length ha
      have h2 := words_length hb
      have h3 := words_length hd
      obtain ⟨n, hn⟩ : ∃ n, fuelFor (a ++ [b!"runbook"] ++ b ++ [word] ++ d) =
          n + post.length + 1 + 1 + mid.length + 1 + pre.length :=
        ⟨fuelFor (a ++ [b!"runbook"] ++ b ++ [word] ++ d) -
          (post.length + 1 + 1 + mid.length + 1 + pre.length), by
          simp only [fuelFor, List.map_append, List.sum_append, List.map_cons, List.sum_cons]; omega⟩
      rw [hn]
      simp only [List.append_assoc, List.cons_append, List.nil_append]
      rw [rounds_congr (loop_flags ha (flags_global c hpre) app.cmds _ _ []),
        rounds_congr (loop_cmd (cmd := runbookCmd) (plain_word (by decide)) (by simp [app]) rfl _ _)]
      have hgl : globalFlags ++ runbookCmd.flags = globalFlags := by simp [runbookCmd, Cmd.flags]
      rw [hgl, rounds_congr (loop_flags hb (flags_global c hmid) runbookCmd.subs _ _ _),
        rounds_congr (loop_cmd hp (by simp [runbookCmd, Cmd.subs]) hfind _ d), hsubs]
      have := rounds_post (as := (cmdOf c).args) hd hpost (args_of c) n
        (pre.map (element c) ++ [.cmd runbookCmd] ++ mid.map (element c) ++ [.cmd (cmdOf c)])
      simp only [flagsOf] at this
      have hargs : [] ++ runbookCmd.args ++ (cmdOf c).args = (cmdOf c).args := by
        simp [runbookCmd, Cmd.args]
      simp only [List.nil_append] at hargs
      simp only [List.nil_append, map_flags hpre, map_flags hmid, hargs, List.countP_append,
        countP_global hpre, countP_global hmid, Nat.zero_add, flagsOf]
      simpa only [List.append_assoc, List.cons_append, List.nil_append] using this
  | @run pre post a b hpre hpost hnot ha hb =>
    have h1 := words_length ha
    have h2 := words_length hb
    obtain ⟨n, hn⟩ : ∃ n, fuelFor (a ++ [b!"runbook"] ++ b) = n + post.length + 2 + 1 + pre.length :=
      ⟨fuelFor (a ++ [b!"runbook"] ++ b) - (post.length + 2 + 1 + pre.length), by
        simp only [fuelFor, List.map_append, List.sum_append]; omega⟩
    obtain ⟨x, y, hxy, this⟩ := rounds_default hb hpost hnot n
      (pre.map (element .run) ++ [.cmd runbookCmd]) (by simp [lastCmd, Element.command])
    refine ⟨fun o ho => (List.mem_append.1 ho).elim (fun h => hg (hpre o h)) (hpost o),
      pre.map (element .run) ++ [.cmd runbookCmd] ++ x.map (element .run) ++ [.cmd runCmd] ++
        y.map (element .run), ?_, ?_, ?_⟩
    · simp only [List.filter_append, filter_elements, List.map_append, hxy]
      simp [notCmd]
    · simp only [List.filterMap_append, filterMap_elements]
      simp [Element.command, path]
    · rw [hn]
      simp only [List.append_assoc, List.singleton_append]
      rw [rounds_congr (loop_flags ha (flags_global .run hpre) app.cmds _ _ []),
        rounds_congr (loop_cmd (cmd := runbookCmd) (plain_word (by decide)) (by simp [app]) rfl _ _)]
      have hgl : globalFlags ++ runbookCmd.flags = globalFlags := by simp [runbookCmd, Cmd.flags]
      have hargs : ([] : List (Arg Vars)) ++ runbookCmd.args = [] := by simp [runbookCmd, Cmd.args]
      rw [hgl, hargs]
      have hr : (cmdOf .run).args = [argOf .run] := rfl
      simp only [List.nil_append, map_flags hpre, List.countP_append, countP_global hpre, Nat.zero_add,
        hr, List.length_singleton]
      simpa only [List.append_assoc, List.cons_append, List.nil_append] using this

/-! ## The values -/

theorem setValues_filter (k : Checks) (es : List (Element Vars)) (seen : List Str) (a : Vars) :
    setValues k es seen a = setValues k (es.filter notCmd) seen a := by
  induction es generalizing seen a with
  | nil => rfl
  | cons e es ih =>
    cases e with
    | flag f v =>
      simp only [List.filter_cons, notCmd, if_true, setValues]
      split
      · rfl
      · exact congrArg _ (funext fun b => ih _ b)
    | arg x v =>
      simp only [List.filter_cons, notCmd, if_true, setValues]
      exact congrArg _ (funext fun b => ih _ b)
    | cmd c => simpa only [List.filter_cons, notCmd, Bool.false_eq_true, if_false, setValues] using ih _ _

theorem setDefaults_filter (k : Checks) (es : List (Element Vars)) (fl : List (Flag Vars)) (a : Vars) :
    setDefaults k es fl a = setDefaults k (es.filter notCmd) fl a := by
  have : ∀ n : Str, es.any (Element.isFlag n) =
      (es.filter notCmd).any (Element.isFlag n) := fun n => by
    induction es with
    | nil => rfl
    | cons e es ih => cases e <;> simp [List.filter_cons, notCmd, ih, Element.isFlag]
  induction fl generalizing a with
  | nil => rfl
  | cons f fl ih =>
    simp only [setDefaults, this, ih]

theorem lastCmd_eq (es : List (Element Vars)) : lastCmd es = (es.filterMap Element.command).getLast? := rfl

theorem runActions_eq (es : List (Element Vars)) (a : Vars) :
    runActions es a = (es.filterMap Element.command).foldl (fun a c => c.action a) a := by
  induction es generalizing a with
  | nil => rfl
  | cons e es ih => cases e <;> simp [runActions, Element.command, ih, List.filterMap_cons]

/-- Setting the value of an option. -/
def setOne (k : Checks) (c : Name) (o : Opt) (a : Vars) : Option Vars :=
  match o with
  | .file v => (argOf c).var.set k v a
  | o => (flagOf c o).var.set k (o.value.getD b!"true") a

def upd (k : Checks) (c : Name) (a : Vars) (o : Opt) : Vars := (setOne k c o a).getD a

theorem ite_some {p : Prop} {_ : Decidable p} (x : Vars) :
    (p → (if p then some x else none).isSome = true) ∧ (¬ p → (if p then some x else none) = none) :=
  ⟨fun h => by rw [if_pos h]; rfl, fun h => by rw [if_neg h]⟩

theorem map_some {β : Type} (x : Option β) (f : β → Vars) :
    ((∃ n, x = some n) → (x.map f).isSome = true) ∧ ((¬ ∃ n, x = some n) → x.map f = none) := by
  cases x <;> simp

theorem setOne_some {k : Checks} {c : Name} {o : Opt} (h : Takes c o) (a : Vars) :
    (Acceptable k o → setOne k c o a = some (upd k c a o)) ∧ (¬ Acceptable k o → setOne k c o a = none) := by
  have key : (Acceptable k o → (setOne k c o a).isSome = true) ∧
      (¬ Acceptable k o → setOne k c o a = none) := by
    cases c <;> cases o <;> first
      | exact absurd h id
      | exact ⟨fun _ => rfl, fun h => absurd trivial h⟩
      | exact map_some _ _
      | exact ite_some _
  refine ⟨fun ha => ?_, key.2⟩
  obtain ⟨b, hb⟩ := Option.isSome_iff_exists.1 (key.1 ha)
  rw [upd, hb]; rfl

theorem flagOf_name {c : Name} {o : Opt} (h : Takes c o) (hf : isFile o = false) :
    (flagOf c o).name = key o := by
  cases c <;> cases o <;> first
    | exact absurd h id
    | exact Bool.noConfusion hf
    | rfl

def counts : Opt → Bool
  | .quiet | .verbose => true
  | _ => false

theorem flagOf_cumulative {c : Name} {o : Opt} (h : Takes c o) (hf : isFile o = false) :
    (flagOf c o).var.isCumulative = counts o := by
  cases c <;> cases o <;> first
    | exact absurd h id
    | exact Bool.noConfusion hf
    | rfl

theorem same_iff {d o : Opt} (hd : isFile d = false) (ho : isFile o = false) :
    (key o = key d ∧ counts o = false) ↔ SameThing d o := by
  cases d <;> first | exact Bool.noConfusion hd | skip
  all_goals cases o <;> first | exact Bool.noConfusion ho | simp [SameThing, key, counts, Opt.name]

theorem not_same_file {d : Opt} (hd : isFile d = false) (v : Str) : ¬ SameThing d (.file v) := by
  cases d <;> exact Bool.noConfusion hd

/-- The options can be set after `past`. -/
structure Settable (k : Checks) (past os : List Opt) : Prop where
  values : ∀ o ∈ os, Acceptable k o
  once : os.Pairwise fun a b => ¬ SameThing a b ∨ isFile b = true
  fresh : ∀ d ∈ past, ∀ o ∈ os, ¬ SameThing d o

theorem setValues_map {k : Checks} {c : Name} {os : List Opt} (ht : ∀ o ∈ os, Takes c o)
    {past : List Opt} (hp : ∀ d ∈ past, isFile d = false) (a : Vars) :
    (Settable k past os → setValues k (os.map (element c)) (past.map key) a =
      some (os.foldl (upd k c) a)) ∧
    (¬ Settable k past os → setValues k (os.map (element c)) (past.map key) a = none) := by
  induction os generalizing past a with
  | nil => exact ⟨fun _ => rfl, fun h => absurd ⟨by simp, by simp, by simp⟩ h⟩
  | cons o os ih =>
    have ho := ht o (by simp)
    have ht' : ∀ o ∈ os, Takes c o := fun o h => ht o (by simp [h])
    obtain ⟨hs, hn⟩ := setOne_some (k := k) ho a
    by_cases hf : isFile o = true
    · cases o <;> simp only [isFile, Bool.false_eq_true] at hf
      rename_i v
      obtain ⟨i1, i2⟩ := ih ht' hp (upd k c a (.file v))
      have hset : setValues k (List.map (element c) (Opt.file v :: os)) (past.map key) a =
          (setOne k c (.file v) a).bind (setValues k (os.map (element c)) (past.map key)) := rfl
      rw [hset]
      constructor
      · intro h
        rw [hs (h.values _ (by simp))]
        exact i1 ⟨fun o h' => h.values o (by simp [h']), (List.pairwise_cons.1 h.once).2,
          fun d hd o h' => h.fresh d hd o (by simp [h'])⟩
      · intro h
        by_cases ha : Acceptable k (.file v)
        · rw [hs ha]
          refine i2 fun h' => h ⟨?_, ?_, ?_⟩
          · simpa [ha] using h'.values
          · refine List.pairwise_cons.2 ⟨fun o' _ => ?_, h'.once⟩
            cases o' <;> simp [SameThing, isFile]
          · intro d hd o' ho'
            rcases List.mem_cons.1 ho' with rfl | ho'
            · exact not_same_file (hp d hd) v
            · exact h'.fresh d hd o' ho'
        · rw [hn ha]; rfl
    · have hf : isFile o = false := by simpa using hf
      have hset : setValues k (List.map (element c) (o :: os)) (past.map key) a =
          if key o ∈ past.map key ∧ counts o = false then none
          else (setOne k c o a).bind (setValues k (os.map (element c)) ((o :: past).map key)) := by
        rw [List.map_cons, element_flag hf]
        simp only [flagElement, setValues, flagOf_name ho hf, flagOf_cumulative ho hf, List.map_cons]
        have : setOne k c o a = (flagOf c o).var.set k (o.value.getD b!"true") a := by
          cases o <;> first | exact Bool.noConfusion hf | rfl
        rw [this]
      have hclash : (key o ∈ past.map key ∧ counts o = false) ↔ ∃ d ∈ past, SameThing d o := by
        constructor
        · rintro ⟨h1, h2⟩
          obtain ⟨d, hd, e⟩ := List.mem_map.1 h1
          exact ⟨d, hd, (same_iff (hp d hd) hf).1 ⟨e.symm, h2⟩⟩
        · rintro ⟨d, hd, h⟩
          obtain ⟨h1, h2⟩ := (same_iff (hp d hd) hf).2 h
          exact ⟨List.mem_map.2 ⟨d, hd, h1.symm⟩, h2⟩
      have hp' : ∀ d ∈ o :: past, isFile d = false := fun d hd => by
        rcases List.mem_cons.1 hd with rfl | hd
        · exact hf
        · exact hp d hd
      obtain ⟨i1, i2⟩ := ih ht' hp' (upd k c a o)
      rw [hset]
      constructor
      · intro h
        rw [if_neg (fun hc => by
          obtain ⟨d, hd, hsame⟩ := hclash.1 hc
          exact h.fresh d hd o (by simp) hsame), hs (h.values o (by simp))]
        refine i1 ⟨fun o h' => h.values o (by simp [h']), (List.pairwise_cons.1 h.once).2, ?_⟩
        intro d hd o' ho'
        rcases List.mem_cons.1 hd with rfl | hd
        · rcases (List.pairwise_cons.1 h.once).1 o' ho' with h | h
          · exact h
          · cases o' <;> simp only [isFile, Bool.false_eq_true] at h
            exact not_same_file hf _
        · exact h.fresh d hd o' (by simp [ho'])
      · intro h
        split
        · rfl
        · rename_i hc
          by_cases ha : Acceptable k o
          · rw [hs ha]
            refine i2 fun h' => h ⟨?_, ?_, ?_⟩
            · simpa [ha] using h'.values
            · exact List.pairwise_cons.2 ⟨fun o' ho' => .inl (h'.fresh o (by simp) o' ho'), h'.once⟩
            · intro d hd o' ho'
              rcases List.mem_cons.1 ho' with rfl | ho'
              · exact fun hs => hc (hclash.2 ⟨d, hd, hs⟩)
              · exact h'.fresh d (by simp [hd]) o' ho'
          · rw [hn ha]; rfl

theorem once_iff (os : List Opt) : (os.Pairwise fun a b => ¬ SameThing a b) ↔
    (os.Pairwise fun a b => ¬ SameThing a b ∨ isFile b = true) ∧ os.countP isFile ≤ 1 := by
  induction os with
  | nil => simp
  | cons o os ih =>
    rw [List.pairwise_cons, List.pairwise_cons, ih]
    by_cases hf : isFile o = true
    · cases o <;> simp only [isFile, Bool.false_eq_true] at hf
      rename_i v
      have : (∀ b ∈ os, ¬ SameThing (.file v) b) ↔ os.countP isFile = 0 := by
        rw [List.countP_eq_zero]
        refine forall₂_congr fun b _ => ?_
        cases b <;> simp [SameThing, isFile]
      rw [this, List.countP_cons_of_pos (by rfl)]
      constructor
      · rintro ⟨h, h1, h2⟩
        refine ⟨⟨fun b _ => ?_, h1⟩, by omega⟩
        cases b <;> simp [SameThing, isFile]
      · rintro ⟨⟨-, h1⟩, h2⟩
        exact ⟨by omega, h1, by omega⟩
    · have hf : isFile o = false := by simpa using hf
      rw [List.countP_cons_of_neg (by simp [hf])]
      constructor
      · rintro ⟨h, h1, h2⟩
        exact ⟨⟨fun b hb => .inl (h b hb), h1⟩, h2⟩
      · rintro ⟨⟨h, h1⟩, h2⟩
        refine ⟨fun b hb => ?_, h1, h2⟩
        rcases h b hb with h | h
        · exact h
        · cases b <;> simp only [isFile, Bool.false_eq_true] at h
          exact not_same_file hf _

theorem takes_file (c : Name) :
    (Takes c (.file []) ∧ (cmdOf c).args.length = 1) ∨ ((∀ v, ¬ Takes c (.file v)) ∧ (cmdOf c).args = []) := by
  cases c <;> first | exact .inl ⟨trivial, rfl⟩ | exact .inr ⟨fun _ => id, rfl⟩

theorem countP_file (os : List Opt) : 0 < os.countP isFile ↔ ∃ v, .file v ∈ os := by
  rw [List.countP_pos_iff]
  constructor
  · rintro ⟨o, ho, hf⟩
    cases o <;> simp only [isFile, Bool.false_eq_true] at hf
    exact ⟨_, ho⟩
  · rintro ⟨v, hv⟩
    exact ⟨_, hv, rfl⟩

theorem sensible_iff {k : Checks} {c : Name} {os : List Opt} (ht : ∀ o ∈ os, Takes c o) :
    Sensible k c os ↔ Settable k [] os ∧ os.countP isFile = (cmdOf c).args.length := by
  have hnil : ∀ d ∈ ([] : List Opt), ∀ o ∈ os, ¬ SameThing d o := by simp
  rcases takes_file c with ⟨h1, h2⟩ | ⟨h1, h2⟩
  · rw [h2]
    constructor
    · intro h
      have := (once_iff os).1 h.once
      have := (countP_file os).2 (h.file h1)
      exact ⟨⟨h.values, ((once_iff os).1 h.once).1, hnil⟩, by omega⟩
    · rintro ⟨h, hc⟩
      exact ⟨h.values, (once_iff os).2 ⟨h.once, by omega⟩, fun _ => (countP_file os).1 (by omega)⟩
  · have h0 : os.countP isFile = 0 := by
      rcases Nat.eq_zero_or_pos (os.countP isFile) with h | h
      · exact h
      · obtain ⟨v, hv⟩ := (countP_file os).1 h
        exact absurd (ht _ hv) (h1 v)
    rw [h2, h0]
    constructor
    · exact fun h => ⟨⟨h.values, ((once_iff os).1 h.once).1, hnil⟩, rfl⟩
    · rintro ⟨h, -⟩
      exact ⟨h.values, (once_iff os).2 ⟨h.once, by omega⟩, fun h => absurd h (h1 [])⟩

/-- What the flags are before any is set. -/
def init (c : Name) (os : List Opt) : Vars :=
  if c = .eval ∧ os.any (fun | .color _ => true | _ => false) = false then
    { eval := { file := [], color := b!"auto" } }
  else {}

theorem setDefaults_init {k : Checks} {c : Name} {os : List Opt} (ht : ∀ o ∈ os, Takes c o) :
    setDefaults k (os.map (element c)) (flagsOf c) {} = some (init c os) := by
  have hcol : c = .eval → (os.map (element c)).any (Element.isFlag b!"color") =
      os.any (fun | .color _ => true | _ => false) := by
    rintro rfl
    induction os with
    | nil => rfl
    | cons o os ih =>
      rw [List.map_cons, List.any_cons, List.any_cons, ih fun o h => ht o (by simp [h])]
      congr 1
      have := ht o (by simp)
      cases o <;> first | exact absurd this id | rfl
  cases c with
  | eval =>
    rw [init]
    have : setDefaults k (os.map (element .eval)) (flagsOf .eval) {} =
        if (os.map (element .eval)).any (Element.isFlag b!"color") then some {}
        else some { eval := { file := [], color := b!"auto" } } := rfl
    rw [this, hcol rfl]
    cases os.any _ <;> rfl
  | ping | inspect | list | dot | run | version => rfl

theorem path_cmd (c : Name) (a : Vars) :
    ((path c).getLast? = some (cmdOf c) ∧ (cmdOf c).subs = []) ∧
    (path c).foldl (fun a x => x.action a) a = { a with cmd := some c } := by
  cases c <;> exact ⟨⟨rfl, rfl⟩, rfl⟩

theorem app_parse_rounds (k : Checks) (args : List Str) (a : Vars) : app.parse k args a =
      match rounds (fuelFor args) app.cmds (at_ globalFlags [] [] args) with
      | .error => .error
      | .help => .help
      | .file => .file
      | .ok ctx => finish k ctx a := by
  simp only [App.parse, rounds, at_, show app.flags = globalFlags from rfl]
  cases parseLoop (fuelFor args) app.cmds { args := args, flags := globalFlags } with
  | ok b =>
    dsimp only
    cases parseEnd b.1 b.2 <;> rfl
  | error | help | file => rfl

/-- What is stored. -/
theorem parse_line {k : Checks} {c : Name} {os : List Opt} {args : List Str} (h : Line c os args) :
    (Sensible k c os →
      app.parse k args {} = .ok { os.foldl (upd k c) (init c os) with cmd := some c }) ∧
    (¬ Sensible k c os → app.parse k args {} = .error) := by
  obtain ⟨ht, es, h1, h2, hr⟩ := line_rounds h
  have hv := setValues_map (k := k) ht (past := []) (by simp) (init c os)
  obtain ⟨⟨p1, p2⟩, p3⟩ := path_cmd c (os.foldl (upd k c) (init c os))
  rw [app_parse_rounds, hr, sensible_iff ht]
  have hset : (setDefaults k es (flagsOf c) {}).bind (setValues k es []) =
      setValues k (os.map (element c)) (List.map key []) (init c os) := by
    rw [setDefaults_filter, h1, setDefaults_init ht, Option.bind_some, setValues_filter, h1]; rfl
  constructor
  · rintro ⟨hs, hc⟩
    rw [if_pos (by omega)]
    simp only [finish, done, at_, hset, hv.1 hs, lastCmd_eq, h2, p1, p2, runActions_eq, p3, hc]
    simp
  · intro hn
    by_cases hle : os.countP isFile ≤ (cmdOf c).args.length
    · rw [if_pos hle]
      simp only [finish, done, at_, hset]
      by_cases hs : Settable k [] os
      · have : os.countP isFile < (cmdOf c).args.length := by
          have : os.countP isFile ≠ (cmdOf c).args.length := fun e => hn ⟨hs, e⟩
          omega
        simp only [hv.1 hs, lastCmd_eq, h2, p1, p2]
        simp [this]
      · simp only [hv.2 hs]
    · rw [if_neg hle]

/-! ## What has been asked for -/

section fields
variable {k : Checks} {c : Name}

theorem fold_asked {β : Type} (field : Vars → Option β) (get : Opt → Option β) {os : List Opt}
    (h : ∀ o ∈ os, ∀ a, field (upd k c a o) = (get o).or (field a)) (a : Vars) :
    field (os.foldl (upd k c) a) = (asked get os).or (field a) := by
  induction os generalizing a with
  | nil => rfl
  | cons o os ih =>
    rw [List.foldl_cons, ih fun o' ho => h o' (by simp [ho]), h o (by simp), asked, asked,
      List.filterMap_cons]
    cases get o with
    | none => rfl
    | some b =>
      simp only [Option.some_or]
      rw [List.getLast?_cons]
      cases (os.filterMap get).getLast? <;> rfl

theorem fold_value {β : Type} (field : Vars → β) (get : Opt → Option β) {os : List Opt}
    (h : ∀ o ∈ os, ∀ a, field (upd k c a o) = (get o).getD (field a)) (a : Vars) :
    field (os.foldl (upd k c) a) = (asked get os).getD (field a) := by
  have := fold_asked (k := k) (c := c) (fun a => some (field a)) get (os := os) (fun o ho a => by
    rw [h o ho a]; cases get o <;> rfl) a
  cases hq : asked get os with
  | none => rw [hq] at this; exact Option.some.inj this
  | some b => rw [hq] at this; exact Option.some.inj this

theorem fold_mem (field : Vars → Bool) (x : Opt) {os : List Opt}
    (h : ∀ o ∈ os, ∀ a, field (upd k c a o) = (decide (x = o) || field a)) (a : Vars) :
    field (os.foldl (upd k c) a) = (decide (x ∈ os) || field a) := by
  induction os generalizing a with
  | nil => simp
  | cons o os ih =>
    rw [List.foldl_cons, ih fun o' ho => h o' (by simp [ho]), h o (by simp)]
    by_cases hx : x = o <;> by_cases hm : x ∈ os <;> simp [hx, hm]

theorem fold_count (field : Vars → Nat) (x : Opt) {os : List Opt}
    (h : ∀ o ∈ os, ∀ a, field (upd k c a o) = field a + if o = x then 1 else 0) (a : Vars) :
    field (os.foldl (upd k c) a) = field a + os.count x := by
  induction os generalizing a with
  | nil => simp
  | cons o os ih =>
    rw [List.foldl_cons, ih fun o' ho => h o' (by simp [ho]), h o (by simp), List.count_cons]
    by_cases hx : o = x
    · simp [hx]; omega
    · simp [hx]

end fields


section steps
variable {k : Checks} {c : Name} {o : Opt}

theorem upd_map {β : Type} {x : Option UInt16} {f : UInt16 → Vars} {a : Vars} (hx : ∃ n, x = some n)
    {field : Vars → β} {v : β} (h : ∀ n, x = some n → field (f n) = v) :
    field ((x.map f).getD a) = v := by
  obtain ⟨n, hn⟩ := hx
  rw [hn]; exact h n hn

theorem upd_ite {β : Type} {p : Prop} {_ : Decidable p} {x a : Vars} (hp : p) {field : Vars → β} {v : β}
    (h : field x = v) : field ((if p then some x else none).getD a) = v := by
  rw [if_pos hp]; exact h

theorem port_eq {x : Option UInt16} {n d : UInt16} (h : x = some n) : n = x.getD d := by rw [h]; rfl

/-- What one option does to a field. -/
macro "step " field:term : tactic => `(tactic| (
  intro o a h1 h2
  cases o <;> first
    | exact absurd h1 id
    | rfl
    | exact upd_ite (field := $field) h2 rfl
    | exact upd_map (field := $field) h2 (fun _ _ => rfl)
    | exact upd_map (field := $field) h2 (fun _ e => port_eq e)))

theorem step_debug : ∀ o a, Takes c o → Acceptable k o →
    (upd k c a o).debug = Option.or o.debug? a.debug := by
  cases c <;> step Vars.debug

theorem step_quiet : ∀ o a, Takes c o → Acceptable k o →
    (upd k c a o).brevity = a.brevity + if o = .quiet then 1 else 0 := by
  cases c <;> step Vars.brevity

theorem step_verbose : ∀ o a, Takes c o → Acceptable k o →
    (upd k c a o).verbosity = a.verbosity + if o = .verbose then 1 else 0 := by
  cases c <;> step Vars.verbosity

end steps

theorem stored {k : Checks} {c : Name} {os : List Opt} (ht : ∀ o ∈ os, Takes c o) (hs : Sensible k c os)
    {β : Type} (field : Vars → β) (get : Opt → Option β) (d : β) (hi : field (init c os) = d)
    (h : ∀ o a, Takes c o → Acceptable k o → field (upd k c a o) = (get o).getD (field a)) :
    field (os.foldl (upd k c) (init c os)) = (asked get os).getD d := by
  rw [← hi]
  exact fold_value field get (fun o ho a => h o a (ht o ho) (hs.values o ho)) _

theorem switched {k : Checks} {c : Name} {os : List Opt} (ht : ∀ o ∈ os, Takes c o) (hs : Sensible k c os)
    (field : Vars → Bool) (x : Opt) (hi : field (init c os) = false)
    (h : ∀ o a, Takes c o → Acceptable k o → field (upd k c a o) = (decide (x = o) || field a)) :
    field (os.foldl (upd k c) (init c os)) = decide (x ∈ os) := by
  rw [fold_mem field x (fun o ho a => h o a (ht o ho) (hs.values o ho)), hi, Bool.or_false]

theorem init_of {c : Name} (h : c ≠ .eval) (os : List Opt) : init c os = {} := by
  rw [init, if_neg (by simp [h])]

theorem stored_server {k : Checks} {c : Name} {os : List Opt} (ht : ∀ o ∈ os, Takes c o)
    (hs : Sensible k c os) (f : Vars → Server) (hi : f (init c os) = {})
    (h1 : ∀ o a, Takes c o → Acceptable k o → (f (upd k c a o)).host =
      Option.getD o.host? (f a).host)
    (h2 : ∀ o a, Takes c o → Acceptable k o → (f (upd k c a o)).port =
      Option.getD (o.port? k) (f a).port)
    (h3 : ∀ o a, Takes c o → Acceptable k o → (f (upd k c a o)).dbName =
      Option.getD o.dbname? (f a).dbName)
    (h4 : ∀ o a, Takes c o → Acceptable k o → (f (upd k c a o)).username =
      Option.getD o.username? (f a).username)
    (h5 : ∀ o a, Takes c o → Acceptable k o → (f (upd k c a o)).sslMode =
      Option.getD o.sslmode? (f a).sslMode) :
    f (os.foldl (upd k c) (init c os)) = server k os := by
  have e1 := stored ht hs (fun v => (f v).host) _ [] (by rw [hi]) h1
  have e2 := stored ht hs (fun v => (f v).port) _ 0 (by rw [hi]) h2
  have e3 := stored ht hs (fun v => (f v).dbName) _ [] (by rw [hi]) h3
  have e4 := stored ht hs (fun v => (f v).username) _ [] (by rw [hi]) h4
  have e5 := stored ht hs (fun v => (f v).sslMode) _ [] (by rw [hi]) h5
  generalize os.foldl (upd k c) (init c os) = V at *
  simp only [server, ← e1, ← e2, ← e3, ← e4, ← e5]

theorem stored_request {k : Checks} {c : Name} {os : List Opt} (ht : ∀ o ∈ os, Takes c o)
    (hs : Sensible k c os) (build : Str) :
    (match c with
      | .ping => .command (.ping (os.foldl (upd k c) (init c os)).ping)
      | .inspect => .command (.inspect (os.foldl (upd k c) (init c os)).inspect)
      | .list => .command (.list (os.foldl (upd k c) (init c os)).list)
      | .dot => .command (.dot (os.foldl (upd k c) (init c os)).dot)
      | .eval => .command (.eval (os.foldl (upd k c) (init c os)).eval)
      | .run => .run (os.foldl (upd k c) (init c os)).run
      | .version => .command (.version build (os.foldl (upd k c) (init c os)).long) : Request) =
      request k build os c := by
  cases c with
  | ping =>
    have := stored_server ht hs Vars.ping (by rw [init_of (by decide)])
      (by step (fun v => v.ping.host)) (by step (fun v => v.ping.port)) (by step (fun v => v.ping.dbName))
      (by step (fun v => v.ping.username)) (by step (fun v => v.ping.sslMode))
    simp only [this, request]
  | inspect =>
    have e1 := stored_server ht hs (fun v => v.inspect.server) (by rw [init_of (by decide)])
      (by step (fun v => v.inspect.server.host)) (by step (fun v => v.inspect.server.port))
      (by step (fun v => v.inspect.server.dbName)) (by step (fun v => v.inspect.server.username))
      (by step (fun v => v.inspect.server.sslMode))
    have e2 := stored ht hs (fun v => v.inspect.output) Opt.output? []
      (by rw [init_of (by decide)]) (by step (fun v => v.inspect.output))
    have e3 := switched ht hs (fun v => v.inspect.sort.sortColumns) .sortColumns
      (by rw [init_of (by decide)]) (by step (fun v => v.inspect.sort.sortColumns))
    have e4 := switched ht hs (fun v => v.inspect.sort.sortChecks) .sortChecks
      (by rw [init_of (by decide)]) (by step (fun v => v.inspect.sort.sortChecks))
    have e5 := switched ht hs (fun v => v.inspect.sort.sortIndexes) .sortIndexes
      (by rw [init_of (by decide)]) (by step (fun v => v.inspect.sort.sortIndexes))
    generalize os.foldl (upd k .inspect) (init .inspect os) = V at *
    simp only [request, outputOf, ← e1, ← e2, ← e3, ← e4, ← e5]
  | list =>
    have e1 := stored ht hs Vars.list Opt.file? []
      (by rw [init_of (by decide)]) (by step Vars.list)
    simp only [e1, request, fileOf]
  | run =>
    have e1 := stored ht hs Vars.run Opt.file? []
      (by rw [init_of (by decide)]) (by step Vars.run)
    simp only [e1, request, fileOf]
  | version =>
    have e1 := switched ht hs Vars.long .long (by rw [init_of (by decide)]) (by step Vars.long)
    simp only [e1, request]
  | dot =>
    have e1 := stored ht hs (fun v => v.dot.file) Opt.file? []
      (by rw [init_of (by decide)]) (by step (fun v => v.dot.file))
    have e2 := stored ht hs (fun v => v.dot.output) Opt.output? []
      (by rw [init_of (by decide)]) (by step (fun v => v.dot.output))
    have e3 := switched ht hs (fun v => v.dot.autoOut) .autoOut
      (by rw [init_of (by decide)]) (by step (fun v => v.dot.autoOut))
    have e4 := stored ht hs (fun v => v.dot.splines) Opt.splines? []
      (by rw [init_of (by decide)]) (by step (fun v => v.dot.splines))
    generalize os.foldl (upd k .dot) (init .dot os) = V at *
    simp only [request, outputOf, fileOf, ← e1, ← e2, ← e3, ← e4]
  | eval =>
    have hi : ∃ col, init .eval os = { eval := { file := [], color := col } } ∧
        ((asked Opt.color? os).isNone → col = b!"auto") := by
      by_cases hc : os.any (fun | .color _ => true | _ => false) = false
      · exact ⟨b!"auto", by rw [init, if_pos ⟨rfl, hc⟩], fun _ => rfl⟩
      · refine ⟨[], by rw [init, if_neg (fun h => hc h.2)], fun h => absurd ?_ hc⟩
        rw [asked, Option.isNone_iff_eq_none, List.getLast?_eq_none_iff, List.filterMap_eq_nil_iff] at h
        rw [List.any_eq_false]
        intro o ho
        have := h o ho
        cases o <;> simp [Opt.color?] at this ⊢
    obtain ⟨col, hi, hcol⟩ := hi
    have e1 := stored ht hs (fun v => v.eval.file) Opt.file? []
      (by rw [hi]) (by step (fun v => v.eval.file))
    have e2 := stored ht hs (fun v => v.eval.output) Opt.output? []
      (by rw [hi]) (by step (fun v => v.eval.output))
    have e3 := stored ht hs (fun v => v.eval.color) Opt.color? col
      (by rw [hi]) (by step (fun v => v.eval.color))
    have e3' : (asked Opt.color? os).getD col =
        (asked Opt.color? os).getD b!"auto" := by
      cases h : asked Opt.color? os with
      | none => rw [hcol (by rw [h]; rfl)]
      | some _ => rfl
    rw [e3'] at e3
    generalize os.foldl (upd k .eval) (init .eval os) = V at *
    simp only [request, outputOf, fileOf, ← e1, ← e2, ← e3]

theorem init_debug (c : Name) (os : List Opt) :
    (init c os).debug = none ∧ (init c os).brevity = 0 ∧ (init c os).verbosity = 0 := by
  rw [init]; split <;> exact ⟨rfl, rfl, rfl⟩

end Verif.Cli
