import Verif.Run.Secret
import Verif.Cmd.List
import Verif.Dot.Model
import Verif.Main.Model
import Verif.Eval.Model

/-!
# C129: a password shows nowhere but in `runbook eval`
-/

namespace Verif.Run
open Verif Book Json.Secret

/-- **C129, `runbook run`.** Of two files that differ in passwords only, both or none is refused, with the
same error; and whatever a run of the one comes to, a run of the other can come to something that looks
the same to one who sees everything but passwords. -/
theorem C129_run (tx : Json.Text) (basedir : Str) (proc : Proc) (doc doc' : Json.Value)
    (h : Files doc doc') :
    (∃ e, Json.decodeFile tx doc = .error e ∧ Json.decodeFile tx doc' = .error e) ∨
    ∃ src src', Json.decodeFile tx doc = .ok src ∧ Json.decodeFile tx doc' = .ok src' ∧
      ∀ p, Reach (Json.decoder tx) basedir proc src p →
        ∃ p', Reach (Json.decoder tx) basedir proc src' p' ∧ Looks p p' := by
  rcases file_both tx h with he | ⟨src, src', h1, h2, hs⟩
  · exact .inl he
  · exact .inr ⟨src, src', h1, h2, fun p hp => reach_same (book_both tx basedir hs) hp⟩

theorem draw_same (esc : Str → Str) {book book' : Runbook} (h : SameBook book book') (splines : Str) :
    Dot.draw esc book' splines = Dot.draw esc book splines := by
  have := h.1.keys
  simp only [GoMap.keys] at this
  rw [Dot.draw, Dot.draw, this, h.2]

/-- **C129, `runbook list` and `runbook dot`** print the same for files that differ in passwords only, or
refuse both for the same reason. -/
theorem C129_shown (tx : Json.Text) (basedir : Str) (doc doc' : Json.Value) (h : Files doc doc') :
    match Json.parse tx basedir doc, Json.parse tx basedir doc' with
    | .ok book, .ok book' => Cmd.runList book' = Cmd.runList book ∧
        ∀ esc splines, Dot.draw esc book' splines = Dot.draw esc book splines
    | .error e, .error e' => e' = e
    | .panic, .panic => True
    | _, _ => False := by
  have := parse_both tx basedir h
  revert this
  generalize Json.parse tx basedir doc = x
  generalize Json.parse tx basedir doc' = x'
  intro hx
  cases hx with
  | error e => exact rfl
  | panic => trivial
  | ok hb =>
    refine ⟨?_, fun esc splines => draw_same esc hb splines⟩
    simp only [Cmd.runList, Cmd.list, hb.2]

/-- What is left of what a command sent if one does not look at passwords. -/
def hideSent : Main.Net → Main.Net
  | .event e => .event e.hide
  | .close => .close

/-- **C129, `PGPASSWORD`.** What `ping`, `inspect` and the other commands print, write and return does not
depend on the password in the environment, if the server treats both alike, nor does what they send
but for the password. -/
theorem C129_environment {F N : Type} (env : Main.Env F N) (cfg cfg' : Pg.ConnConfig)
    (hc : env.libpq = .ok cfg) (h : Pg.SameCfg cfg cfg') (c : Main.Command) (w : Cmd.World) :
    (c.run { env with libpq := .ok cfg' } w).world = (c.run env w).world ∧
    (c.run { env with libpq := .ok cfg' } w).result = (c.run env w).result ∧
    (c.run { env with libpq := .ok cfg' } w).net.map hideSent = (c.run env w).net.map hideSent := by
  have key : ∀ (s : Main.Server) (use : Nat → Cmd.World × Main.End),
      (Main.withConn { env with libpq := .ok cfg' } s w use).world = (Main.withConn env s w use).world ∧
      (Main.withConn { env with libpq := .ok cfg' } s w use).result = (Main.withConn env s w use).result ∧
      (Main.withConn { env with libpq := .ok cfg' } s w use).net.map hideSent =
        (Main.withConn env s w use).net.map hideSent := by
    intro s use
    obtain ⟨h1, h2⟩ := Pg.new_hide env.accepts (o := s.options) (o' := s.options) h rfl Iff.rfl
    have hnet : (Pg.new (.ok cfg') env.accepts s.options).1.map (hideSent ∘ Main.Net.event) =
        (Pg.new (.ok cfg) env.accepts s.options).1.map (hideSent ∘ Main.Net.event) := by
      have e : (hideSent ∘ Main.Net.event) = Main.Net.event ∘ Pg.Event.hide := rfl
      rw [e, ← List.map_map, ← List.map_map, h1]
    simp only [Main.withConn, hc, h2]
    cases (Pg.new (.ok cfg) env.accepts s.options).2 with
    | err e => exact ⟨rfl, rfl, by simpa using hnet⟩
    | nilConn => exact ⟨rfl, rfl, by simpa using hnet⟩
    | conn i => exact ⟨rfl, rfl, by simpa using hnet⟩
  cases c with
  | ping s => exact key _ _
  | inspect c => exact key _ _
  | list file => exact ⟨rfl, rfl, rfl⟩
  | dot c => exact ⟨rfl, rfl, rfl⟩
  | eval c => exact ⟨rfl, rfl, rfl⟩
  | version build long => exact ⟨rfl, rfl, rfl⟩

/-- A file with a password. -/
def secretDoc (password : Str) : Json.Value :=
  .obj [(b!"targets", .obj [(b!"db", .obj [(b!"class", .str b!"pg"),
    (b!"config", .obj [(b!"password", .str password)])])]), (b!"tasks", .obj [])]

theorem secretDoc_files (s s' : Str) (h : s ≠ []) (h' : s' ≠ []) : Files (secretDoc s) (secretDoc s') := by
  have sp : ∀ {n k : Str}, Json.Ascii n → Json.equalFold n k = true → Json.Spec.Spells n k :=
    fun hn h => (Json.equalFold_iff hn).1 h
  have h1 : Json.Spec.Spells b!"Targets" b!"targets" := sp (by decide) (by decide)
  have h2 : Json.Spec.Spells b!"Config" b!"config" := sp (by decide) (by decide)
  have h3 : Json.Spec.Spells b!"Password" b!"password" := sp (by decide) (by decide)
  exact ⟨_, _, rfl, rfl, .cons ⟨rfl, .inr ⟨h1, _, _, rfl, rfl, .cons ⟨rfl, .inr
    ⟨_, _, rfl, rfl, .cons ⟨rfl, .inl rfl⟩ (.cons ⟨rfl, .inr ⟨h2, _, _, rfl, rfl,
      .cons ⟨rfl, .inr ⟨h3, s, s', rfl, rfl, h, h'⟩⟩ .nil⟩⟩ .nil)⟩⟩ .nil⟩⟩
    (.cons ⟨rfl, .inl rfl⟩ .nil)⟩

/-- Such files are read, and the password is in the target. -/
example (tx : Json.Text) : Files (secretDoc b!"hunter2") (secretDoc b!"letmein") ∧
    ∃ book, Json.parse tx b!"/" (secretDoc b!"hunter2") = .ok book ∧
      book.targets = [(b!"db", .pg { password := b!"hunter2" })] := by
  refine ⟨secretDoc_files _ _ (by decide) (by decide), ?_⟩
  have hp : ∀ v, (tx.raw v).length > 0 := fun v => List.length_pos_of_ne_nil (tx.raw_ne v)
  have h : Json.decodeFile tx (secretDoc b!"hunter2") = .ok ⟨[(b!"db", some ⟨b!"pg",
      tx.raw (.obj [(b!"password", .str b!"hunter2")])⟩)], []⟩ := rfl
  refine ⟨⟨[(b!"db", .pg { password := b!"hunter2" })], []⟩, ?_, rfl⟩
  simp only [Json.parse, h, Book.parse, loadTargets, loadTarget, newTarget, if_pos (hp _), Json.decoder,
    tx.read_raw]
  rfl

theorem infix_cons {a b : Str} {x : UInt8} (h : a <:+: b) : a <:+: x :: b := by
  obtain ⟨u, v, rfl⟩ := h
  exact ⟨x :: u, v, rfl⟩

theorem infix_right {a b c : Str} (h : a <:+: b) : a <:+: c ++ b := by
  obtain ⟨u, v, rfl⟩ := h
  exact ⟨c ++ u, v, by simp⟩

theorem infix_paint (on : Bool) (code q rest : Str) : q <:+: Eval.paint on code q ++ rest := by
  unfold Eval.paint
  cases on with
  | false => exact ⟨[], rest, rfl⟩
  | true => exact ⟨b!"\x1b[" ++ code ++ b!"m", b!"\x1b[0m" ++ rest, by simp⟩

/-- **C129, `runbook eval`** shows the file, with the password. -/
theorem C129_eval {F : Type} (fl : Eval.Floats F) (noColor color : Bool) (password : Str) :
    ∃ text, Eval.eval fl noColor color (secretDoc password) = some text ∧
      Eval.quote password <:+: text := by
  refine ⟨_, rfl, ?_⟩
  have e : sortStrs [b!"targets", b!"tasks"] = [b!"targets", b!"tasks"] := by decide
  have e1 : sortStrs [b!"class", b!"config"] = [b!"class", b!"config"] := by decide
  have e2 : sortStrs [b!"db"] = [b!"db"] := by decide
  have e3 : sortStrs [b!"password"] = [b!"password"] := by decide
  simp [Eval.decodeMembers, Eval.decode, GoMap.set, Eval.pretty, Eval.prettyRows, e, e1, e2, e3, GoMap.get?,
    Eval.joinRows]
  repeat' first | exact infix_paint _ _ _ _ | refine infix_cons ?_ | refine infix_right ?_

end Verif.Run
