import Verif.Main.Crash
import Verif.Main.DebugProps

/-!
# C137: what a command that is killed leaves behind
-/

namespace Verif.Main
open Verif Cmd Spec

variable {F N : Type}

/-- The same surroundings, with an operating system that writes everything. -/
def Env.whole (env : Env F N) : Env F N := { env with os := { env.os with write := fun t => (t, false) } }

/-- The world in the end, if every byte is written. -/
def complete (env : Env F N) (message : Str) (c : Command) (w : World) : World :=
  (main env.whole message (some c) w).1

/-- The command comes to opening its output: `inspect` opens it when the database has been read. -/
def Comes (env : Env F N) : Command → Prop
  | .inspect c => ∃ i d, (Pg.new env.libpq env.accepts c.server.options).2 = .conn i ∧
    Pg.inspect env.parseFloat env.sort (env.serve i) c.sort = .ok d
  | _ => True

/-- A write writes a beginning of the text, and all of it if there is no error. -/
def Partly (os : Os) : Prop := ∀ t, (os.write t).1 <+: t ∧ ((os.write t).2 = false → (os.write t).1 = t)

section lemmas

variable {env : Env F N} {message : Str} {c : Command} {w w' : World} {pc : Pc}

theorem openOutput_file {os : Os} {name : Str} {w w1 : World} {dest : Writer}
    (h : openOutput os name w = some (dest, w1)) :
    (name = b!"-" ∧ dest = .stdout ∧ w1 = w) ∨
    (name ≠ b!"-" ∧ os.openFails name = false ∧ dest = .file name ∧
      w1 = { w with files := setFile w.files name [] }) := by
  unfold openOutput openTrunc at h
  by_cases hn : name = b!"-"
  · rw [if_neg (by simpa using hn)] at h
    cases h
    exact .inl ⟨hn, rfl, rfl⟩
  · rw [if_pos hn] at h
    cases hf : os.openFails name with
    | true => rw [hf] at h; cases h
    | false =>
      rw [hf] at h
      cases h
      exact .inr ⟨hn, rfl, rfl, rfl⟩

/-- The name a command gives to its output. -/
def outName : Command → Str
  | .inspect c => if c.output = [] then b!"-" else c.output
  | .eval c => if c.output ≠ [] then c.output else b!"-"
  | .dot c => c.target
  | _ => b!"-"

theorem target_eq (c : Command) : c.target = if outName c = b!"-" then none else some (outName c) := by
  cases c with
  | inspect c =>
    simp only [Command.target, outName]
    by_cases h : c.output = [] <;> simp [h]
  | eval c =>
    simp only [Command.target, outName]
    by_cases h : c.output = [] <;> simp [h]
  | dot c => rfl
  | _ => rfl

/-- How far the program may be, and what there is then. -/
def Inv (env : Env F N) (message : Str) (c : Command) (w w' : World) (pc : Pc) : Prop :=
  w.stdout <+: w'.stdout ∧ (∀ name, c.target ≠ some name → w'.files name = w.files name) ∧
  (∀ o, c.target = some o → w'.files o = w.files o ∨ (env.os.openFails o = false ∧ Comes env c ∧
    ∃ p full, w'.files o = some p ∧ (complete env message c w).files o = some full ∧ p <+: full)) ∧
  match pc with
  | .start => w' = w
  | .inspected text => w' = w ∧ ∃ ic i d, c = .inspect ic ∧
    (Pg.new env.libpq env.accepts ic.server.options).2 = .conn i ∧
    Pg.inspect env.parseFloat env.sort (env.serve i) ic.sort = .ok d ∧
    text = env.print (Hcl.write env.hcl (Hcl.ofInspect d))
  | .opened dest => openOutput env.os (outName c) w = some (dest, w') ∧ ((∃ dc, c = .dot dc) ∨ ∃ ec, c = .eval ec)
  | .writing (.file o) rest _ => c.target = some o ∧ env.os.openFails o = false ∧ Comes env c ∧
    ∃ p, w'.files o = some p ∧ (complete env message c w).files o = some (p ++ rest)
  | _ => True

theorem finish_files (os : Os) (message : Str) (r : End) (w : World) : (finish os message r w).1.files = w.files := by
  cases r <;> rfl

theorem complete_inspect {ic : InspectCmd} {i : Nat} {d : Pg.Database F} {o : Str} {w1 : World}
    (h1 : (Pg.new env.libpq env.accepts ic.server.options).2 = .conn i)
    (h2 : Pg.inspect env.parseFloat env.sort (env.serve i) ic.sort = .ok d)
    (h3 : openOutput env.os (outName (.inspect ic)) w = some (.file o, w1)) :
    (complete env message (.inspect ic) w).files o =
      some (env.print (Hcl.write env.hcl (Hcl.ofInspect d))) := by
  rcases openOutput_file h3 with ⟨_, h, _⟩ | ⟨hn, hf, h, hw⟩
  · cases h
  cases h
  simp only [complete, main, finish_files, Command.run, InspectCmd.run, withConn, Env.whole, h1, h2, runInspect]
  simp only [outName] at hn hf ⊢
  simp [openOutput, openTrunc, hn, hf, write, setFile, contents, Env.print]

theorem complete_dot {dc : DotCmd} {o : Str} {w1 : World}
    (h3 : openOutput env.os (outName (.dot dc)) w = some (.file o, w1)) :
    (complete env message (.dot dc) w).files o =
      match env.libs.parse w1.files dc.file with
      | .error _ => some []
      | .ok book => some (env.libs.graph book dc.splines) := by
  rcases openOutput_file h3 with ⟨_, h, _⟩ | ⟨hn, hf, h, hw⟩
  · cases h
  cases h
  simp only [outName] at hn hf
  have h4 : openOutput env.whole.os dc.target w = some (.file dc.target, w1) := by
    simp [openOutput, openTrunc, hn, hf, hw, outName, Env.whole]
  simp only [complete, main, finish_files, Command.run, DotCmd.run, h4]
  have e : env.whole.libs = env.libs := rfl
  rw [e]
  cases env.libs.parse w1.files dc.file with
  | error => simp [hw, setFile, outName]
  | ok book => simp [hw, setFile, outName, write, contents, Env.whole]

theorem complete_eval {ec : EvalCmd} {o : Str} {w1 : World}
    (h3 : openOutput env.os (outName (.eval ec)) w = some (.file o, w1)) :
    (complete env message (.eval ec) w).files o =
      match env.libs.eval w1.files ec.file (ec.useColor env.terminal (.file o)) with
      | .error _ => some []
      | .ok text => some text := by
  rcases openOutput_file h3 with ⟨_, h, _⟩ | ⟨hn, hf, h, hw⟩
  · cases h
  cases h
  have h4 : openOutput env.whole.os (if ec.output ≠ [] then ec.output else b!"-") w =
      some (.file (outName (.eval ec)), w1) := by
    have e : (if ec.output ≠ [] then ec.output else b!"-") = outName (.eval ec) := rfl
    rw [e, hw, openOutput, if_pos hn, openTrunc]
    have e2 : env.whole.os.openFails (outName (.eval ec)) = false := hf
    rw [e2]
    rfl
  simp only [complete, main, finish_files, Command.run, EvalCmd.run, h4]
  have e : env.whole.libs = env.libs := rfl
  have e2 : env.whole.terminal = env.terminal := rfl
  rw [e, e2]
  cases env.libs.eval w1.files ec.file (ec.useColor env.terminal (.file (outName (.eval ec)))) with
  | error => simp [hw, setFile]
  | ok text => simp [hw, setFile, write, contents, Env.whole]

/-- The output has been opened; nothing has been written. -/
theorem opened_inv {dest : Writer} {w1 : World} {full : Str} (ho : openOutput env.os (outName c) w = some (dest, w1))
    (hc : Comes env c) (hf : ∀ o, dest = .file o → (complete env message c w).files o = some full) :
    w.stdout <+: w1.stdout ∧ (∀ name, c.target ≠ some name → w1.files name = w.files name) ∧
    (∀ o, c.target = some o → w1.files o = w.files o ∨ (env.os.openFails o = false ∧ Comes env c ∧
      ∃ p full, w1.files o = some p ∧ (complete env message c w).files o = some full ∧ p <+: full)) ∧
    ∀ o, dest = .file o → c.target = some o ∧ env.os.openFails o = false ∧ w1.files o = some [] := by
  rcases openOutput_file ho with ⟨hn, hd, rfl⟩ | ⟨hn, h1, rfl, rfl⟩
  · subst hd
    exact ⟨List.prefix_rfl, fun _ _ => rfl, fun _ _ => .inl rfl, fun o h => nomatch h⟩
  · have ht : c.target = some (outName c) := by rw [target_eq, if_neg hn]
    refine ⟨List.prefix_rfl, ?_, ?_, ?_⟩
    · intro name h
      have : name ≠ outName c := fun e => h (by rw [ht, e])
      simp [setFile, this]
    · intro o h
      rw [ht] at h
      cases h
      exact .inr ⟨h1, hc, [], full, by simp [setFile], hf _ rfl, List.nil_prefix⟩
    · intro o h
      cases h
      exact ⟨ht, h1, by simp [setFile]⟩

theorem inv_same {pc pc' : Pc} (h : Inv env message c w w' pc)
    (h' : pc' = .failing ∨ (∃ rest, pc' = .printing rest) ∨ (∃ n, pc' = .ended n) ∨
      ∃ rest strict, pc' = .writing .stdout rest strict) : Inv env message c w w' pc' := by
  refine ⟨h.1, h.2.1, h.2.2.1, ?_⟩
  rcases h' with rfl | ⟨_, rfl⟩ | ⟨_, rfl⟩ | ⟨_, _, rfl⟩ <;> trivial

theorem inv_put_stdout {pc pc' : Pc} {text : Str} (h : Inv env message c w w' pc)
    (h' : (∃ rest, pc' = .printing rest) ∨ ∃ rest strict, pc' = .writing .stdout rest strict) :
    Inv env message c w (put .stdout text w') pc' := by
  refine ⟨h.1.trans (List.prefix_append _ _), h.2.1, h.2.2.1, ?_⟩
  rcases h' with ⟨_, rfl⟩ | ⟨_, _, rfl⟩ <;> trivial

theorem inv_step {x y : World × Pc} (hs : Step env message c x y) (h : Inv env message c w x.1 x.2) :
    Inv env message c w y.1 y.2 := by
  cases hs with
  | begin =>
    obtain ⟨h1, h2, h3, h4⟩ := h
    simp only at h4
    subst h4
    have h : Inv env message c _ _ .start := ⟨h1, h2, h3, rfl⟩
    cases c with
    | ping s =>
      simp only [begin]
      cases (Pg.new env.libpq env.accepts s.options).2 with
      | err => exact inv_same h (.inl rfl)
      | nilConn => exact inv_same h (.inr (.inr (.inl ⟨_, rfl⟩)))
      | conn i =>
        simp only
        cases env.version i with
        | error => exact inv_same h (.inl rfl)
        | ok => exact inv_same h (.inr (.inr (.inr ⟨_, _, rfl⟩)))
    | inspect ic =>
      simp only [begin]
      cases hn : (Pg.new env.libpq env.accepts ic.server.options).2 with
      | err => exact inv_same h (.inl rfl)
      | nilConn => exact inv_same h (.inr (.inr (.inl ⟨_, rfl⟩)))
      | conn i =>
        simp only
        cases hi : Pg.inspect env.parseFloat env.sort (env.serve i) ic.sort with
        | error => exact inv_same h (.inl rfl)
        | ok d => exact ⟨h.1, h.2.1, h.2.2.1, rfl, ic, i, d, rfl, hn, hi, rfl⟩
    | list file =>
      simp only [begin]
      cases env.libs.parse _ file with
      | error => exact inv_same h (.inl rfl)
      | ok => exact inv_same h (.inr (.inr (.inr ⟨_, _, rfl⟩)))
    | dot dc =>
      simp only [begin, opening]
      cases ho : openOutput env.os dc.target _ with
      | none => exact inv_same h (.inl rfl)
      | some p =>
        obtain ⟨dest, w1⟩ := p
        have ho' : openOutput env.os (outName (.dot dc)) _ = some (dest, w1) := ho
        have hx := opened_inv (message := message) (c := .dot dc)
          (full := match env.libs.parse w1.files dc.file with
            | .error _ => []
            | .ok book => env.libs.graph book dc.splines) ho' trivial (by
          rintro o rfl
          rw [complete_dot ho']
          cases env.libs.parse w1.files dc.file <;> rfl)
        exact ⟨hx.1, hx.2.1, hx.2.2.1, ho, .inl ⟨_, rfl⟩⟩
    | eval ec =>
      simp only [begin, opening]
      cases ho : openOutput env.os (if ec.output ≠ [] then ec.output else b!"-") _ with
      | none => exact inv_same h (.inl rfl)
      | some p =>
        obtain ⟨dest, w1⟩ := p
        have ho' : openOutput env.os (outName (.eval ec)) _ = some (dest, w1) := ho
        have hx := opened_inv (message := message) (c := .eval ec)
          (full := match env.libs.eval w1.files ec.file (ec.useColor env.terminal dest) with
            | .error _ => []
            | .ok text => text) ho' trivial (by
          rintro o rfl
          rw [complete_eval ho']
          cases env.libs.eval w1.files ec.file (ec.useColor env.terminal (.file o)) <;> rfl)
        exact ⟨hx.1, hx.2.1, hx.2.2.1, ho, .inr ⟨_, rfl⟩⟩
    | version build long => exact inv_same h (.inr (.inr (.inr ⟨_, _, rfl⟩)))
  | @store w2 text =>
    obtain ⟨h1, h2, h3, e, ic, i, d, rfl, hn, hi, rfl⟩ := h
    simp only at e
    subst e
    simp only [store, opening]
    cases ho : openOutput env.os (if ic.output = [] then b!"-" else ic.output) w2 with
    | none => exact ⟨h1, h2, h3, trivial⟩
    | some p =>
      obtain ⟨dest, w1⟩ := p
      have ho' : openOutput env.os (outName (.inspect ic)) w2 = some (dest, w1) := ho
      have hx := opened_inv (message := message) (c := .inspect ic)
        (full := env.print (Hcl.write env.hcl (Hcl.ofInspect d))) ho' ⟨i, d, hn, hi⟩ (by
        rintro o rfl
        exact complete_inspect hn hi ho')
      refine ⟨hx.1, hx.2.1, hx.2.2.1, ?_⟩
      cases dest with
      | stdout => trivial
      | file o =>
        obtain ⟨g1, g2, g3⟩ := hx.2.2.2 o rfl
        exact ⟨g1, g2, ⟨i, d, hn, hi⟩, [], g3, complete_inspect hn hi ho'⟩
  | @load w2 dest =>
    obtain ⟨h1, h2, h3, ho, hc⟩ := h
    refine ⟨h1, h2, h3, ?_⟩
    rcases hc with ⟨dc, rfl⟩ | ⟨ec, rfl⟩
    · simp only [load]
      cases hp : env.libs.parse w2.files dc.file with
      | error => trivial
      | ok book =>
        cases dest with
        | stdout => trivial
        | file o =>
          have e := complete_dot (message := message) ho
          simp only [hp] at e
          obtain ⟨_, _, _, hx⟩ := opened_inv (message := message) ho trivial (by rintro o' h; cases h; exact e)
          obtain ⟨g1, g2, g3⟩ := hx o rfl
          exact ⟨g1, g2, trivial, [], g3, e⟩
    · simp only [load]
      cases hp : env.libs.eval w2.files ec.file (ec.useColor env.terminal dest) with
      | error => trivial
      | ok text =>
        cases dest with
        | stdout => trivial
        | file o =>
          have e := complete_eval (message := message) ho
          simp only [hp] at e
          obtain ⟨_, _, _, hx⟩ := opened_inv (message := message) ho trivial (by rintro o' h; cases h; exact e)
          obtain ⟨g1, g2, g3⟩ := hx o rfl
          exact ⟨g1, g2, trivial, [], g3, e⟩
  | @byte w2 dest b rest strict =>
    cases dest with
    | stdout => exact inv_put_stdout h (.inr ⟨_, _, rfl⟩)
    | file o =>
      obtain ⟨h1, h2, h3, h4, h5, h6, p, h7, h8⟩ := h
      have e : (put (.file o) [b] w2).files o = some (p ++ [b]) := by
        simp only at h7
        simp [put, setFile, contents, h7]
      have e2 : (complete env message c w).files o = some (p ++ [b] ++ rest) := by rw [h8]; simp
      refine ⟨h1, ?_, ?_, h4, h5, h6, p ++ [b], e, e2⟩
      · intro name hn
        have : name ≠ o := fun x => hn (by rw [h4, x])
        simpa [put, setFile, this] using h2 name hn
      · intro o' ho'
        rw [h4] at ho'
        cases ho'
        exact .inr ⟨h5, h6, p ++ [b], _, e, e2, List.prefix_append _ _⟩
  | written => exact inv_same h (.inr (.inr (.inl ⟨_, rfl⟩)))
  | @broken w2 dest rest strict =>
    cases strict
    · exact inv_same h (.inr (.inr (.inl ⟨_, rfl⟩)))
    · exact inv_same h (.inl rfl)
  | report => exact inv_same h (.inr (.inl ⟨_, rfl⟩))
  | char => exact inv_put_stdout h (.inl ⟨_, rfl⟩)
  | exit => exact inv_same h (.inr (.inr (.inl ⟨_, rfl⟩)))

theorem inv_steps {x y : World × Pc} (hs : Relation.ReflTransGen (Step env message c) x y)
    (h : Inv env message c w x.1 x.2) : Inv env message c w y.1 y.2 := by
  induction hs with
  | refl => exact h
  | tail _ hs ih => exact inv_step hs ih

theorem inv_start : Inv env message c w w .start :=
  ⟨List.prefix_rfl, fun _ _ => rfl, fun _ _ => .inl rfl, rfl⟩

theorem put_put (dest : Writer) (a b : Str) (w : World) : put dest b (put dest a w) = put dest (a ++ b) w := by
  cases dest with
  | stdout => simp [put]
  | file o =>
    simp only [put, contents, setFile]
    congr 1
    funext n
    by_cases h : n = o <;> simp [setFile, h]

/-- The file is there. -/
def There (dest : Writer) (w : World) : Prop := ∀ o, dest = .file o → ∃ x, w.files o = some x

theorem put_nil {dest : Writer} (h : There dest w) : put dest [] w = w := by
  cases dest with
  | stdout => simp [put]
  | file o =>
    obtain ⟨x, hx⟩ := h o rfl
    obtain ⟨files, stdout⟩ := w
    simp only at hx
    simp only [put, contents, hx, List.append_nil]
    congr 1
    funext n
    by_cases h : n = o <;> simp [setFile, h, hx]

/-- Some of the text is written. -/
theorem some_bytes (dest : Writer) (strict : Bool) (p rest : Str) (h : There dest w) :
    Relation.ReflTransGen (Step env message c) (w, .writing dest (p ++ rest) strict)
      (put dest p w, .writing dest rest strict) := by
  induction p generalizing w with
  | nil => rw [put_nil h]; exact .refl
  | cons b p ih =>
    refine .head .byte ?_
    have h' : There dest (put dest [b] w) := by
      rintro o rfl
      exact ⟨contents w.files o ++ [b], by simp [put, setFile]⟩
    have := ih h'
    rw [put_put] at this
    exact this

theorem some_chars (p rest : Str) :
    Relation.ReflTransGen (Step env message c) (w, .printing (p ++ rest)) (put .stdout p w, .printing rest) := by
  induction p generalizing w with
  | nil => rw [put_nil (show There .stdout w from fun o h => nomatch h)]; exact .refl
  | cons b p ih =>
    refine .head .char ?_
    have := ih (w := put .stdout [b] w)
    rw [put_put] at this
    exact this

theorem write_put (os : Os) (dest : Writer) (text : Str) (w : World) :
    write os dest text w = (put dest (os.write text).1 w, (os.write text).2) := by
  cases dest <;> rfl

/-- `w.Write`, as the operating system has it. -/
theorem write_steps {os : Os} (hp : Partly os) {dest : Writer} (text : Str) (strict : Bool) (h : There dest w) :
    Relation.ReflTransGen (Step env message c) (w, .writing dest text strict)
      ((write os dest text w).1, if (write os dest text w).2 && strict then .failing else .ended 0) := by
  obtain ⟨⟨rest, h1⟩, h2⟩ := hp text
  rw [write_put]
  simp only
  have hb := some_bytes (env := env) (message := message) (c := c) dest strict (os.write text).1 rest h
  rw [h1] at hb
  refine hb.trans ?_
  cases he : (os.write text).2 with
  | false =>
    have h2 := h2 he
    have : rest = [] := by
      rw [h2] at h1
      simpa using h1
    subst this
    simp only [Bool.false_and, Bool.false_eq_true, if_false]
    exact .single .written
  | true =>
    have hx := Relation.ReflTransGen.single
      (Step.broken (env := env) (message := message) (c := c) (w := put dest (os.write text).1 w) (dest := dest)
        (rest := rest) (strict := strict))
    simpa using hx

theorem finish_steps (hp : Partly env.os) :
    Relation.ReflTransGen (Step env message c) (w, .failing)
      ((finish env.os message .failed w).1, .ended (finish env.os message .failed w).2) := by
  refine .head .report ?_
  simp only [finish, write_put]
  obtain ⟨⟨rest, h1⟩, _⟩ := hp (message ++ b!"\n")
  have := some_chars (env := env) (message := message) (c := c) (w := w) (env.os.write (message ++ b!"\n")).1 rest
  rw [h1] at this
  exact this.trans (.single .exit)

/-- What comes after the command. -/
def after : End → Pc
  | .ok => .ended 0
  | .failed => .failing
  | .panics => .ended 2

theorem after_steps (hp : Partly env.os) (r : End) :
    Relation.ReflTransGen (Step env message c) (w, after r)
      ((finish env.os message r w).1, .ended (finish env.os message r w).2) := by
  cases r with
  | ok => exact .refl
  | failed => exact finish_steps hp
  | panics => exact .refl

theorem there_opened {name : Str} {dest : Writer} {w w1 : World} (h : openOutput env.os name w = some (dest, w1)) :
    There dest w1 := by
  rintro o rfl
  rcases openOutput_file h with ⟨_, h', _⟩ | ⟨_, _, h', rfl⟩
  · cases h'
  · cases h'
    exact ⟨[], by simp [setFile]⟩

theorem strict_after (b : Bool) :
    (if b && true then Pc.failing else .ended 0) = after (End.ofExit (if b then .failure else .success)) := by
  cases b <;> rfl

theorem run_steps (hp : Partly env.os) :
    Relation.ReflTransGen (Step env message c) (w, .start) ((c.run env w).world, after (c.run env w).result) := by
  have out : There .stdout w := fun o h => nomatch h
  have lax : ∀ {dest : Writer} {w' : World} (text : Str), There dest w' →
      Relation.ReflTransGen (Step env message c) (w', .writing dest text false)
        ((write env.os dest text w').1, .ended 0) := by
    intro dest w' text h
    simpa using write_steps (env := env) (message := message) (c := c) hp text false h
  refine .head .begin ?_
  cases c with
  | ping s =>
    simp only [begin, Command.run, ping, withConn]
    cases (Pg.new env.libpq env.accepts s.options).2 with
    | err => exact .refl
    | nilConn => exact .refl
    | conn i =>
      simp only
      cases env.version i with
      | error => exact .refl
      | ok v => exact lax _ out
  | inspect ic =>
    simp only [begin, Command.run, InspectCmd.run, withConn]
    cases (Pg.new env.libpq env.accepts ic.server.options).2 with
    | err => exact .refl
    | nilConn => exact .refl
    | conn i =>
      simp only
      cases Pg.inspect env.parseFloat env.sort (env.serve i) ic.sort with
      | error => exact .refl
      | ok d =>
        refine .head .store ?_
        simp only [store, opening, runInspect]
        cases ho : openOutput env.os (if ic.output = [] then b!"-" else ic.output) w with
        | none => exact .refl
        | some p =>
          obtain ⟨dest, w1⟩ := p
          simp only [← strict_after]
          exact write_steps hp _ true (there_opened ho)
  | list file =>
    simp only [begin, Command.run, runbookList]
    cases env.libs.parse w.files file with
    | error => exact .refl
    | ok book => exact lax _ out
  | dot dc =>
    simp only [begin, opening, Command.run, DotCmd.run]
    cases ho : openOutput env.os dc.target w with
    | none => exact .refl
    | some p =>
      obtain ⟨dest, w1⟩ := p
      refine .head .load ?_
      simp only [load]
      cases env.libs.parse w1.files dc.file with
      | error => exact .refl
      | ok book => exact lax _ (there_opened ho)
  | eval ec =>
    simp only [begin, opening, Command.run, EvalCmd.run]
    cases ho : openOutput env.os (if ec.output ≠ [] then ec.output else b!"-") w with
    | none => exact .refl
    | some p =>
      obtain ⟨dest, w1⟩ := p
      refine .head .load ?_
      simp only [load]
      cases env.libs.eval w1.files ec.file (ec.useColor env.terminal dest) with
      | error => exact .refl
      | ok text =>
        simp only [← strict_after]
        exact write_steps hp _ true (there_opened ho)
  | version build long => exact lax _ out

end lemmas

/-- **C137: the runs.** The steps are those of the program: what `main` does in the end, a run by steps comes to. -/
theorem C137_runs (env : Env F N) (hp : Partly env.os) (message : Str) (c : Command) (w : World) :
    Relation.ReflTransGen (Step env message c) (w, .start)
      ((main env message (some c) w).1, .ended (main env message (some c) w).2) :=
  (run_steps hp).trans (after_steps hp _)

/-- **C137 (partial).** Whenever `pgutil` is killed (with any command but `runbook run`): no file has changed but the
one the output goes to; this one is as it was, or it holds a beginning of what it would hold in the end; what had been
printed is still there.
Missing: that it is as it was or complete (`C137_refuted`). -/
theorem C137_killed_partial (env : Env F N) (message : Str) (c : Command) (w w' : World)
    (h : Found env message c w w') :
    (∀ name, c.target ≠ some name → w'.files name = w.files name) ∧
    (∀ o, c.target = some o → w'.files o = w.files o ∨
      ∃ p full, w'.files o = some p ∧ (complete env message c w).files o = some full ∧ p <+: full) ∧
    w.stdout <+: w'.stdout := by
  obtain ⟨pc, h⟩ := h
  obtain ⟨h1, h2, h3, _⟩ := inv_steps h inv_start
  refine ⟨h2, fun o ho => ?_, h1⟩
  rcases h3 o ho with h | ⟨_, _, h⟩
  · exact .inl h
  · exact .inr h

/-- **C137, exactly.** What may be found in the output file when the program is killed: what was there, or any
beginning of the new contents, the empty one among them, if the file can be opened (and, for `inspect`, the database
has been read). -/
theorem C137_exact (env : Env F N) (message : Str) (c : Command) (w : World) (o : Str) (ho : c.target = some o)
    (x : Option Str) :
    (∃ w', Found env message c w w' ∧ w'.files o = x) ↔
    x = w.files o ∨ (env.os.openFails o = false ∧ Comes env c ∧
      ∃ p full, x = some p ∧ (complete env message c w).files o = some full ∧ p <+: full) := by
  constructor
  · rintro ⟨w', ⟨pc, h⟩, rfl⟩
    exact (inv_steps h inv_start).2.2.1 o ho
  · rintro (rfl | ⟨hf, hc, p, full, rfl, hfull, rest, rfl⟩)
    · exact ⟨w, ⟨_, .refl⟩, rfl⟩
    · have hn : outName c ≠ b!"-" ∧ outName c = o := by
        rw [target_eq] at ho
        split at ho
        · cases ho
        · cases ho; exact ⟨by assumption, rfl⟩
      obtain ⟨hn, rfl⟩ := hn
      let w1 : World := { w with files := setFile w.files (outName c) [] }
      have hop : openOutput env.os (outName c) w = some (.file (outName c), w1) := by
        simp [openOutput, openTrunc, hn, hf, w1]
      have hput : (put (.file (outName c)) p w1).files (outName c) = some p := by
        simp [put, setFile, contents, w1]
      have fin : ∀ strict, Relation.ReflTransGen (Step env message c) (w, .start)
          (w1, .writing (.file (outName c)) (p ++ rest) strict) →
          ∃ w', Found env message c w w' ∧ w'.files (outName c) = some p := fun strict h =>
        ⟨_, ⟨_, h.trans (some_bytes _ strict p rest (there_opened hop))⟩, hput⟩
      have fin0 : ∀ pc, Relation.ReflTransGen (Step env message c) (w, .start) (w1, pc) → p ++ rest = [] →
          ∃ w', Found env message c w w' ∧ w'.files (outName c) = some p := by
        intro pc h e
        obtain ⟨rfl, rfl⟩ := List.append_eq_nil_iff.mp e
        exact ⟨w1, ⟨_, h⟩, by simp [w1, setFile]⟩
      cases c with
      | inspect ic =>
        obtain ⟨i, d, h1, h2⟩ := hc
        rw [complete_inspect h1 h2 hop] at hfull
        refine fin true ?_
        refine .head .begin ?_
        simp only [begin, h1, h2]
        refine .head .store ?_
        have e : openOutput env.os (if ic.output = [] then b!"-" else ic.output) w = _ := hop
        simp only [store, opening, e]
        rw [Option.some.inj hfull]
      | dot dc =>
        rw [complete_dot hop] at hfull
        have e : openOutput env.os dc.target w = _ := hop
        have first : Relation.ReflTransGen (Step env message (.dot dc)) (w, .start)
            (w1, load env (.file (outName (.dot dc))) w1 (.dot dc)) := by
          refine .head .begin ?_
          simp only [begin, opening, e]
          exact .single .load
        simp only [load] at first
        cases hx : env.libs.parse w1.files dc.file with
        | error =>
          rw [hx] at hfull first
          exact fin0 _ first (Option.some.inj hfull).symm
        | ok book =>
          rw [hx] at hfull first
          refine fin false ?_
          rw [← Option.some.inj hfull]
          exact first
      | eval ec =>
        rw [complete_eval hop] at hfull
        have e : openOutput env.os (if ec.output ≠ [] then ec.output else b!"-") w = _ := hop
        have first : Relation.ReflTransGen (Step env message (.eval ec)) (w, .start)
            (w1, load env (.file (outName (.eval ec))) w1 (.eval ec)) := by
          refine .head .begin ?_
          simp only [begin, opening, e]
          exact .single .load
        simp only [load] at first
        cases hx : env.libs.eval w1.files ec.file (ec.useColor env.terminal (.file (outName (.eval ec)))) with
        | error =>
          rw [hx] at hfull first
          exact fin0 _ first (Option.some.inj hfull).symm
        | ok text =>
          rw [hx] at hfull first
          refine fin true ?_
          rw [← Option.some.inj hfull]
          exact first
      | ping => exact absurd rfl hn
      | list => exact absurd rfl hn
      | version => exact absurd rfl hn

/-- **C137 refuted**: `shop` is inspected once more into its file; if the program is killed at the wrong moment the
old description is gone and the new one is not there, although nothing has failed. -/
theorem C137_refuted : ¬ ∀ (env : Env Int Int) (message : Str) (c : Command) (w w' : World) (o : Str),
    Found env message c w w' → c.target = some o →
    w'.files o = w.files o ∨ w'.files o = (complete env message c w).files o := by
  intro h
  obtain ⟨d, hd⟩ := shop_inspects
  have hn : (Pg.new shopEnv.libpq shopEnv.accepts shopCmd.server.options).2 = .conn 0 := by decide +kernel
  let w : World := { files := fun _ => some b!"old" }
  have hop : openOutput shopEnv.os (outName (.inspect shopCmd)) w =
      some (.file b!"shop.hcl", { w with files := setFile w.files b!"shop.hcl" [] }) := rfl
  have hfull := complete_inspect (env := shopEnv) (message := b!"") (ic := shopCmd) hn hd hop
  obtain ⟨w', h1, h2⟩ := (C137_exact shopEnv b!"" (.inspect shopCmd) w b!"shop.hcl" rfl (some [])).mpr
    (.inr ⟨rfl, ⟨0, d, hn, hd⟩, [], _, rfl, hfull, List.nil_prefix⟩)
  have hne : (complete shopEnv b!"" (.inspect shopCmd) w).files b!"shop.hcl" ≠ some [] := by decide +kernel
  rcases h shopEnv b!"" (.inspect shopCmd) w w' b!"shop.hcl" h1 rfl with g | g
  · rw [h2] at g; cases g
  · rw [h2] at g; exact hne g.symm

/-- A runbook in the file `book`. -/
def bookFiles : Str → Option Str := fun n => if n = b!"book" then some b!"{}" else none

/-- A run that is killed in the middle of the word `digraph`. -/
example : Found { bracesEnv with libs := { bracesEnv.libs with graph := fun _ _ => b!"digraph {}\n" } } b!"no"
    (.dot { file := b!"book", autoOut := true }) { files := bookFiles, stdout := b!"$ " }
    (put (.file b!"book.dot") b!"dig" { files := setFile bookFiles b!"book.dot" [], stdout := b!"$ " }) := by
  refine ⟨.writing (.file b!"book.dot") b!"raph {}\n" false, .head .begin (.head .load ?_)⟩
  exact some_bytes (.file b!"book.dot") false b!"dig" b!"raph {}\n" (fun o h => by cases h; exact ⟨[], by decide⟩)

example : Partly shopEnv.os ∧ Partly { openFails := fun _ => false, write := fun t => (t.take 3, 3 < t.length) } :=
  ⟨fun _ => ⟨List.prefix_rfl, fun _ => rfl⟩, fun t => ⟨List.take_prefix _ _, fun h => by
    exact List.take_of_length_le (by simpa using h)⟩⟩

end Verif.Main
