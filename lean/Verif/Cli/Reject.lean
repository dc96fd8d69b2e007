import Verif.Cli.Lemmas

/-!
# Helpers for C100: command lines that go wrong
-/

namespace Verif.Cli
open Verif Main Spec

variable {as : List (Arg Vars)} {es : List (Element Vars)}

/-- Options followed by something that is an error. -/
theorem reject_post {c : Name} {os : List Opt} {ws tail : List Str} (hw : Words os ws)
    (ht : ∀ o ∈ os, Takes c o) {P : List (Arg Vars) → Prop} (hP : ∀ a as, P (a :: as) → P as)
    (hbad : ∀ n as es, P as → rounds (n + 1) [] (at_ (flagsOf c) as es tail) = .error)
    (has : P as) (n : Nat) (es : List (Element Vars)) :
    rounds (n + os.length + 1) [] (at_ (flagsOf c) as es (ws ++ tail)) = .error := by
  induction hw generalizing es as with
  | nil => exact hbad _ _ _ has
  | @cons o os w rest hw _ ih =>
    have ht' : ∀ o ∈ os, Takes c o := fun o ho => ht o (by simp [ho])
    have hn : n + (o :: os).length + 1 = (n + os.length + 1) + 1 := by simp; omega
    rw [hn, List.append_assoc]
    by_cases hf : isFile o = true
    · cases o <;> simp only [isFile, Bool.false_eq_true] at hf
      rename_i v
      obtain ⟨rfl, hp⟩ := written_file hw
      have hr : parseLoop (n + os.length + 1 + 1) [] (at_ (flagsOf c) as es ([v] ++ (rest ++ tail))) =
          match as with
          | [] => .ok ([], { at_ (flagsOf c) [] es (rest ++ tail) with peek := [.arg v] })
          | a :: as =>
            parseLoop (n + os.length + 1) [] (at_ (flagsOf c) as (es ++ [.arg a v]) (rest ++ tail)) := by
        rw [List.singleton_append, parseLoop, look_plain hp]
        simp only [ne_eq, not_true_eq_false, if_false]
        cases as <;> rfl
      cases as with
      | nil =>
        simp only [rounds, hr]
        rfl
      | cons a as => rw [rounds_congr hr, ih ht' (hP _ _ has)]
    · have hf : isFile o = false := by simpa using hf
      rw [rounds_congr (loop_flag (isFlag (ht o (by simp)) hf) hw (isFile_ne hf) [] _ _), ih ht' has]
  | @together o os x y w rest hx hv hy _ ih =>
    have hf : isFile o = false := isFile_of_letter hx
    have hn : n + (o :: os).length + 1 = (n + os.length + 1) + 1 := by simp; omega
    rw [List.cons_append, hn,
      rounds_congr (loop_together (isFlag (ht o (by simp)) hf) hx hv (by simp) [] _ _)]
    exact ih (fun o ho => ht o (by simp [ho])) has _

/-- The same after `runbook` when there is no subcommand. -/
theorem reject_default {os : List Opt} {ws tail : List Str} (hw : Words os ws)
    (ht : ∀ o ∈ os, Takes .run o) (hs : ∀ v, .file v ∈ os → ∀ c, (c, v) ∉ subWords)
    (hbad : ∀ n es, rounds (n + 1) [] (at_ (flagsOf .run) [] es tail) = .error)
    (hbad' : ∀ n es, rounds (n + 2) runbookCmd.subs (at_ globalFlags [] es tail) = .error) (n : Nat)
    (es : List (Element Vars)) (hes : (lastCmd es).isNone = false) :
    rounds (n + os.length + 2) runbookCmd.subs (at_ globalFlags [] es (ws ++ tail)) = .error := by
  induction hw generalizing es with
  | nil => exact hbad' _ _
  | @cons o os w rest hw hw' ih =>
    have ht' : ∀ o ∈ os, Takes .run o := fun o ho => ht o (by simp [ho])
    have hs' : ∀ v, .file v ∈ os → ∀ c, (c, v) ∉ subWords := fun v hv => hs v (by simp [hv])
    have hn : n + (o :: os).length + 2 = (n + os.length + 2) + 1 := by simp; omega
    rw [hn, List.append_assoc]
    by_cases hf : isFile o = true
    · cases o <;> simp only [isFile, Bool.false_eq_true] at hf
      rename_i v
      obtain ⟨rfl, hp⟩ := written_file hw
      have hfind := sub_none (hs v (by simp))
      have hr : parseLoop (n + os.length + 2 + 1) runbookCmd.subs
            (at_ globalFlags [] es ([v] ++ (rest ++ tail))) =
          parseLoop (n + os.length + 1) []
            (at_ (flagsOf .run) [] (es ++ [.cmd runCmd] ++ [.arg (argOf .run) v]) (rest ++ tail)) := by
        rw [List.singleton_append, parseLoop, look_plain hp]
        simp only [hfind]
        rw [if_pos (by simp [runbookCmd, Cmd.subs]), if_neg (by simp [at_, hes])]
        rfl
      rw [rounds_congr hr]
      exact reject_post (P := fun as => as = []) hw' ht' (fun _ _ h => nomatch h)
        (fun n as es h => h ▸ hbad n es) rfl _ _
    · have hf : isFile o = false := by simpa using hf
      have hg : Global o := by
        have := ht o (by simp)
        cases o <;> trivial
      rw [rounds_congr (loop_flag (isFlag_global .run hg) hw (isFile_ne hf) _ _ _)]
      exact ih ht' hs' _ (by simp [lastCmd, flagElement, Element.command] at hes ⊢; exact hes)
  | @together o os x y w rest hx hv hy hw' ih =>
    have ht' : ∀ o ∈ os, Takes .run o := fun o ho => ht o (by simp [ho])
    have hs' : ∀ v, .file v ∈ os → ∀ c, (c, v) ∉ subWords := fun v hv => hs v (by simp [hv])
    have hn : n + (o :: os).length + 2 = (n + os.length + 2) + 1 := by simp; omega
    have hg : Global o := by
      have := ht o (by simp)
      have hf : isFile o = false := isFile_of_letter hx
      cases o <;> trivial
    rw [hn, List.cons_append, rounds_congr (loop_together (isFlag_global .run hg) hx hv (by simp) _ _ _)]
    exact ih ht' hs' _ (by simp [lastCmd, flagElement, Element.command] at hes ⊢; exact hes)

/-- A line followed by something that is an error. -/
theorem reject_line {c : Name} {os : List Opt} {args tail : List Str} (h : Line c os args)
    (hbad : ∀ n as es, (as = [] ∨ as = (cmdOf c).args) →
      rounds (n + 1) [] (at_ (flagsOf c) as es tail) = .error)
    (hbad' : c = .run → ∀ n es, rounds (n + 2) runbookCmd.subs (at_ globalFlags [] es tail) = .error) :
    rounds (fuelFor (args ++ tail)) app.cmds (at_ globalFlags [] [] (args ++ tail)) = .error := by
  have hsuf : ∀ (a : Arg Vars) (as : List (Arg Vars)), (a :: as = [] ∨ a :: as = (cmdOf c).args) →
      (as = [] ∨ as = (cmdOf c).args) := by
    intro a as h
    rcases h with h | h
    · cases h
    · left
      cases c <;> simp [cmdOf, pingCmd, inspectCmd, listCmd, dotCmd, evalCmd, runCmd, versionCmd,
        addCommand, Cmd.args] at h <;> simp [h]
  have hargs : (cmdOf c).args = [] ∨ (cmdOf c).args = (cmdOf c).args := .inr rfl
  cases h with
  | @top c word pre post a b hc hpre hpost ha hb =>
    obtain ⟨hp, hfind, hsubs, -⟩ := top_find hc
    have h1 := words_length ha
    have h2 := words_length hb
    obtain ⟨n, hn⟩ : ∃ n, fuelFor (a ++ [word] ++ b ++ tail) = n + post.length + 1 + 1 + pre.length :=
      ⟨fuelFor (a ++ [word] ++ b ++ tail) - (post.length + 1 + 1 + pre.length), by
        simp only [fuelFor, List.map_append, List.sum_append]; omega⟩
    rw [hn]
    simp only [List.append_assoc, List.cons_append, List.nil_append]
    rw [rounds_congr (loop_flags ha (flags_global c hpre) app.cmds _ (word :: (b ++ tail)) []),
      rounds_congr (loop_cmd hp (by simp [app]) hfind _ _), hsubs]
    exact reject_post hb hpost hsuf hbad hargs _ _
  | @sub c word pre mid post a b d hc hpre hmid hpost ha hb hd =>
    obtain ⟨hp, hfind, hsubs, -⟩ := sub_find hc
    have h1 := words_length ha
    have h2 := words_length hb
    have h3 := words_length hd
    obtain ⟨n, hn⟩ : ∃ n, fuelFor (a ++ [b!"runbook"] ++ b ++ [word] ++ d ++ tail) =
        n + post.length + 1 + 1 + mid.length + 1 + pre.length :=
      ⟨fuelFor (a ++ [b!"runbook"] ++ b ++ [word] ++ d ++ tail) -
        (post.length + 1 + 1 + mid.length + 1 + pre.length), by
        simp only [fuelFor, List.map_append, List.sum_append, List.map_cons, List.sum_cons]; omega⟩
    rw [hn]
    simp only [List.append_assoc, List.cons_append, List.nil_append]
    rw [rounds_congr (loop_flags ha (flags_global c hpre) app.cmds _ _ []),
      rounds_congr (loop_cmd (cmd := runbookCmd) (plain_word (by decide)) (by simp [app]) rfl _ _)]
    have hgl : globalFlags ++ runbookCmd.flags = globalFlags := by simp [runbookCmd, Cmd.flags]
    rw [hgl, rounds_congr (loop_flags hb (flags_global c hmid) runbookCmd.subs _ _ _),
      rounds_congr (loop_cmd hp (by simp [runbookCmd, Cmd.subs]) hfind _ _), hsubs]
    exact reject_post hd hpost hsuf hbad hargs _ _
  | @run pre post a b hpre hpost hnot ha hb =>
    have h1 := words_length ha
    have h2 := words_length hb
    obtain ⟨n, hn⟩ : ∃ n, fuelFor (a ++ [b!"runbook"] ++ b ++ tail) = n + post.length + 2 + 1 + pre.length :=
      ⟨fuelFor (a ++ [b!"runbook"] ++ b ++ tail) - (post.length + 2 + 1 + pre.length), by
        simp only [fuelFor, List.map_append, List.sum_append]; omega⟩
    rw [hn]
    simp only [List.append_assoc, List.cons_append, List.nil_append]
    rw [rounds_congr (loop_flags ha (flags_global .run hpre) app.cmds _ _ []),
      rounds_congr (loop_cmd (cmd := runbookCmd) (plain_word (by decide)) (by simp [app]) rfl _ _)]
    have hgl : globalFlags ++ runbookCmd.flags = globalFlags := by simp [runbookCmd, Cmd.flags]
    have hargs : ([] : List (Arg Vars)) ++ runbookCmd.args = [] := by simp [runbookCmd, Cmd.args]
    rw [hgl, hargs]
    exact reject_default hb hpost hnot (fun n es => hbad n [] es (.inl rfl)) (hbad' rfl) n _
      (by simp [lastCmd, Element.command])

/-! ## Words that are not understood -/

/-- The flags are among the options. -/
def Covers (options : Opt → Prop) (fl : List (Flag Vars)) : Prop :=
  ∀ f ∈ fl, (f.name ≠ [] → ∃ o, options o ∧ o.name = some f.name) ∧
    ∀ x, f.short = some x → ∃ o, options o ∧ o.letter = some x

theorem covers_global : Covers Global globalFlags := by
  intro f hf
  simp only [globalFlags, List.mem_cons, List.not_mem_nil, or_false] at hf
  rcases hf with rfl | rfl | rfl
  · exact ⟨fun _ => ⟨.debug [], trivial, rfl⟩, fun x hx => nomatch hx⟩
  · exact ⟨fun _ => ⟨.quiet, trivial, rfl⟩, fun x hx => ⟨.quiet, trivial, hx⟩⟩
  · exact ⟨fun _ => ⟨.verbose, trivial, rfl⟩, fun x hx => ⟨.verbose, trivial, hx⟩⟩

/-- The option of a flag of a command. -/
def optOf (f : Flag Vars) : Opt :=
  if f.name = b!"debug" then .debug [] else if f.name = b!"quiet" then .quiet
  else if f.name = b!"verbose" then .verbose else if f.name = b!"host" then .host []
  else if f.name = b!"port" then .port [] else if f.name = b!"dbname" then .dbname []
  else if f.name = b!"username" then .username [] else if f.name = b!"sslmode" then .sslmode []
  else if f.name = b!"output" then .output [] else if f.name = b!"sort-columns" then .sortColumns
  else if f.name = b!"sort-check-constraints" then .sortChecks
  else if f.name = b!"sort-indexes" then .sortIndexes
  else if f.name = b!"" then .autoOut else if f.name = b!"splines" then .splines []
  else if f.name = b!"color" then .color [] else .long

theorem covers (c : Name) : Covers (Takes c) (flagsOf c) := by
  have key : ∀ f ∈ flagsOf c, Takes c (optOf f) ∧ (f.name ≠ [] → (optOf f).name = some f.name) ∧
      (optOf f).letter = f.short := by
    intro f hf
    cases c <;>
      simp only [flagsOf, cmdOf, globalFlags, pingCmd, inspectCmd, listCmd, dotCmd, evalCmd, runCmd,
        versionCmd, serverFlags, addCommand, Cmd.flags, List.cons_append, List.nil_append,
        List.append_nil, List.mem_cons, List.not_mem_nil, or_false] at hf <;>
      (repeat' rcases hf with hf | hf) <;>
      first
        | exact ⟨trivial, fun _ => rfl, rfl⟩
        | exact ⟨trivial, fun h => absurd rfl h, rfl⟩
  intro f hf
  obtain ⟨h1, h2, h3⟩ := key f hf
  exact ⟨fun hn => ⟨_, h1, h2 hn⟩, fun x hx => ⟨_, h1, h3.trans hx⟩⟩

/-- A token that is an option not among those. -/
def BadToken (options : Opt → Prop) : Token → Prop
  | .short none => True
  | .short (some x) => ∀ o, options o → o.letter ≠ some x
  | .long n => n ≠ [] ∧ (∀ o, options o → o.name ≠ some n) ∧ n ∉ helpFlags ∧ ∀ m, n ≠ b!"no-" ++ m
  | _ => False

theorem bad_find {options : Opt → Prop} {fl : List (Flag Vars)} (hc : Covers options fl) :
    (∀ x, (∀ o, options o → o.letter ≠ some x) → findShort fl x = none) ∧
    ∀ n, n ≠ [] → (∀ o, options o → o.name ≠ some n) → findLong fl n = none := by
  constructor
  · intro x hx
    simp only [findShort, List.find?_eq_none, List.mem_reverse, decide_eq_true_eq]
    intro f hf e
    obtain ⟨o, h1, h2⟩ := (hc f hf).2 x e
    exact hx o h1 h2
  · intro n hn hx
    simp only [findLong, List.find?_eq_none, List.mem_reverse, decide_eq_true_eq]
    intro f hf e
    obtain ⟨o, h1, h2⟩ := (hc f hf).1 (by rw [e]; exact hn)
    exact hx o h1 (h2.trans (by rw [e]))

theorem bad_loop {options : Opt → Prop} {ctx : Ctx Vars} (hc : Covers options ctx.flags) {t : Token}
    {p : List Token} (ht : BadToken options t) (hp : ctx.peek = t :: p) (cmds : List (Cli.Cmd Vars))
    (n : Nat) :
    parseLoop (n + 1) cmds ctx = match defaultCmd cmds with
      | some cmd => parseLoop n cmd.subs (ctx.matchedCmd cmd)
      | none => .error := by
  obtain ⟨b1, b2⟩ := bad_find hc
  have hl : ctx.look = (t, ctx) := by simp only [Ctx.look, hp]
  have hf : parseFlag ctx = .error := by
    rw [parseFlag, hl]
    match t, ht with
    | .short none, _ => rfl
    | .short (some x), ht => simp only [b1 x ht]
    | .long n, ⟨h1, h2, h3, h4⟩ =>
      simp only [b2 n h1 h2, if_neg h3]
      split
      · exact absurd rfl (h4 _)
      · rfl
  rw [parseLoop, hl]
  match t, ht with
  | .short _, _ => simp only [hf]; cases defaultCmd cmds <;> rfl
  | .long _, _ => simp only [hf]; cases defaultCmd cmds <;> rfl

theorem look_unknown {options : Opt → Prop} {fl : List (Flag Vars)} (hc : Covers options fl) {w : Str}
    (hu : Unknown options w) (rest : List Str) :
    ∃ t p ws, (at_ fl as es (w :: rest)).look = (t, { at_ fl as es ws with peek := t :: p }) ∧
      BadToken options t := by
  obtain ⟨b1, b2⟩ := bad_find hc
  cases hu with
  | dash => exact ⟨.short none, [], rest, rfl, trivial⟩
  | @letter x r hx ho =>
    have hne : ¬ 45 :: x :: r = b!"--" := by simp [hx]
    by_cases hr : r = []
    · subst hr
      exact ⟨_, _, _, look_short hx rest, ho⟩
    · refine ⟨.short (some x), [], (45 :: r) :: rest, ?_, ho⟩
      have := b1 x ho
      simp only [Ctx.look, Ctx.next, at_, Bool.false_eq_true, if_false, hne]
      unfold nextOf
      split <;> simp_all [Ctx.push]
  | @long n h1 h2 h3 h4 h5 =>
    exact ⟨_, _, _, look_long h1 (fun c hc e => h2 (e ▸ hc)) rest, h1, h3, h4, h5⟩
  | @longEq n v h1 h2 h3 h4 h5 =>
    exact ⟨_, _, _, look_longEq (fun c hc e => h2 (e ▸ hc)) v rest, h1, h3, h4, h5⟩

/-- The first look of a round does no harm. -/
theorem loop_look {ctx ctx' : Ctx Vars} {t : Token} {p : List Token} (h : ctx.look = (t, ctx'))
    (hp : ctx'.peek = t :: p) (cmds : List (Cli.Cmd Vars)) (n : Nat) :
    parseLoop (n + 1) cmds ctx = parseLoop (n + 1) cmds ctx' := by
  have h' : ctx'.look = (t, ctx') := by simp only [Ctx.look, hp]
  rw [parseLoop, parseLoop, h, h']

theorem unknown_loop {options : Opt → Prop} {fl : List (Flag Vars)} (hc : Covers options fl) {w : Str}
    (hu : Unknown options w) {cmds : List (Cli.Cmd Vars)} (hd : defaultCmd cmds = none) (n : Nat)
    (rest : List Str) :
    parseLoop (n + 1) cmds (at_ fl as es (w :: rest)) = .error := by
  obtain ⟨t, p, ws, h1, h2⟩ := look_unknown (as := as) (es := es) hc hu rest
  rw [loop_look h1 rfl, bad_loop (options := options) hc h2 rfl, hd]

theorem unknown_default {w : Str} (hu : Unknown (Takes .run) w) (n : Nat) (rest : List Str) :
    parseLoop (n + 2) runbookCmd.subs (at_ globalFlags [] es (w :: rest)) = .error := by
  have hc : Covers (Takes .run) globalFlags := covers .run
  obtain ⟨t, p, ws, h1, h2⟩ := look_unknown (as := []) (es := es) hc hu rest
  rw [loop_look h1 rfl, bad_loop (options := Takes .run) hc h2 rfl]
  have : defaultCmd runbookCmd.subs = some runCmd := rfl
  simp only [this]
  rw [show runCmd.subs = [] from rfl, bad_loop (options := Takes .run) (t := t) (p := p) (covers .run) h2 rfl]
  rfl

theorem rounds_error {n : Nat} {cmds : List (Cli.Cmd Vars)} {ctx : Ctx Vars}
    (h : parseLoop n cmds ctx = .error) : rounds n cmds ctx = .error := by rw [rounds, h]

theorem fuel_words {pre : List Opt} {a : List Str} (ha : Words pre a) (tail : List Str) :
    ∃ n, fuelFor (a ++ tail) = n + 1 + pre.length :=
  ⟨fuelFor (a ++ tail) - (1 + pre.length), by
    have := words_length ha
    simp only [fuelFor, List.map_append, List.sum_append]; omega⟩

/-- Command lines that go wrong are not understood. -/
theorem reject_wrong (k : Checks) {args : List Str} (h : Wrong args) (a : Vars) :
    app.parse k args a = .error := by
  rw [app_parse_rounds]
  cases h with
  | @nothing pre args hg hw =>
    obtain ⟨n, hn⟩ := fuel_words hw []
    have hr := rounds_congr (loop_flags (as := []) hw (flags_global .ping hg) app.cmds (n + 1) [] [])
    rw [← hn, List.append_nil] at hr
    have hl : rounds (n + 1) app.cmds (at_ globalFlags []
        ([] ++ pre.map fun o => flagElement (flagOf .ping o) o) []) =
        .ok (done globalFlags [] (pre.map fun o => flagElement (flagOf .ping o) o)) := rfl
    rw [hr, hl]
    simp only [finish, done, at_, map_flags hg, lastCmd_eq, filterMap_elements]
    cases (setDefaults k _ globalFlags a).bind (setValues k _ []) <;> rfl
  | @command pre args word rest hg hw hp hc hh =>
    obtain ⟨n, hn⟩ := fuel_words hw (word :: rest)
    rw [hn, rounds_error]
    rw [loop_flags hw (flags_global .ping hg), parseLoop, look_plain hp]
    have : (app.cmds.find? fun cmd => word ∈ cmd.names) = none := by
      simp only [List.find?_eq_none, decide_eq_true_eq]
      intro cmd hcmd hv
      apply hc
      simp only [app, List.mem_cons, List.not_mem_nil, or_false] at hcmd
      rcases hcmd with rfl | rfl | rfl | rfl <;>
        simp only [pingCmd, inspectCmd, runbookCmd, versionCmd, addCommand, Cmd.names, List.mem_cons,
          List.not_mem_nil, or_false] at hv <;> subst hv <;> decide +kernel
    simp only [this, hh, false_and, if_false]
    rfl
  | @early pre args word rest hg hw hu =>
    obtain ⟨n, hn⟩ := fuel_words hw (word :: rest)
    rw [hn, rounds_error]
    rw [loop_flags hw (flags_global .ping hg)]
    exact unknown_loop covers_global hu rfl n rest
  | @option c os args word rest hl hu =>
    rw [reject_line hl]
    · intro n as es _
      exact rounds_error (unknown_loop (covers c) hu rfl n rest)
    · rintro rfl n es
      exact rounds_error (unknown_default hu n rest)
  | @surplus c os args word rest hl hf hp =>
    rw [reject_line hl]
    · rintro n as es has
      have : as = [] := by
        rcases has with h | h
        · exact h
        · subst h; cases c <;> first | rfl | exact absurd trivial hf
      subst this
      simp only [rounds, parseLoop, look_plain hp]
      rfl
    · rintro rfl
      exact absurd trivial hf

end Verif.Cli
