import Verif.Json.Docs
import Verif.Run.Runs

/-!
# Concrete runbook files: non-vacuity of C93 and C94, refutation of C93
-/

namespace Verif.Json
open Verif Book Book.Spec Spec

/-! ## There is a text -/

namespace Code

/-- A byte string with its length. -/
def str (s : Str) : Str := List.replicate s.length 1 ++ 0 :: s

theorem str_inj {s t a b : Str} (h : str s ++ a = str t ++ b) : s = t ∧ a = b := by
  have key : ∀ (n m : Nat) (x y : Str), List.replicate n (1 : UInt8) ++ 0 :: x = List.replicate m 1 ++ 0 :: y →
      n = m ∧ x = y := by
    intro n
    induction n with
    | zero =>
      intro m x y h
      cases m with
      | zero => simp at h; exact ⟨rfl, h⟩
      | succ m => simp [List.replicate_succ] at h
    | succ n ih =>
      intro m x y h
      cases m with
      | zero => simp [List.replicate_succ] at h
      | succ m =>
        simp only [List.replicate_succ, List.cons_append, List.cons.injEq, true_and] at h
        obtain ⟨rfl, e⟩ := ih m x y h
        exact ⟨rfl, e⟩
  simp only [str, List.append_assoc, List.cons_append] at h
  obtain ⟨h1, h2⟩ := key _ _ _ _ h
  exact List.append_inj h2 h1

mutual
/-- A prefix code of values. -/
def val : Value → Str
  | .null => [0]
  | .bool b => [1, if b then 1 else 0]
  | .num s => 2 :: str s
  | .str s => 3 :: str s
  | .arr l => 4 :: list l
  | .obj l => 5 :: mems l
def list : List Value → Str
  | [] => [0]
  | v :: vs => 1 :: (val v ++ list vs)
def mems : List (Str × Value) → Str
  | [] => [0]
  | (k, v) :: vs => 1 :: (str k ++ (val v ++ mems vs))
end

mutual
theorem val_inj : ∀ (v w : Value) (a b : Str), val v ++ a = val w ++ b → v = w ∧ a = b
  | .null, w, a, b, h => by cases w <;> simp_all [val]
  | .bool x, w, a, b, h => by
    cases w with
    | bool y => cases x <;> cases y <;> simp_all [val]
    | _ => simp_all [val]
  | .num s, w, a, b, h => by
    cases w with
    | num t =>
      simp only [val, List.cons_append, List.cons.injEq, true_and] at h
      obtain ⟨rfl, rfl⟩ := str_inj h
      exact ⟨rfl, rfl⟩
    | _ => simp_all [val]
  | .str s, w, a, b, h => by
    cases w with
    | str t =>
      simp only [val, List.cons_append, List.cons.injEq, true_and] at h
      obtain ⟨rfl, rfl⟩ := str_inj h
      exact ⟨rfl, rfl⟩
    | _ => simp_all [val]
  | .arr l, w, a, b, h => by
    cases w with
    | arr m =>
      simp only [val, List.cons_append, List.cons.injEq, true_and] at h
      obtain ⟨rfl, rfl⟩ := list_inj l m a b h
      exact ⟨rfl, rfl⟩
    | _ => simp_all [val]
  | .obj l, w, a, b, h => by
    cases w with
    | obj m =>
      simp only [val, List.cons_append, List.cons.injEq, true_and] at h
      obtain ⟨rfl, rfl⟩ := mems_inj l m a b h
      exact ⟨rfl, rfl⟩
    | _ => simp_all [val]
theorem list_inj : ∀ (l m : List Value) (a b : Str), list l ++ a = list m ++ b → l = m ∧ a = b
  | [], m, a, b, h => by cases m <;> simp_all [list]
  | v :: l, m, a, b, h => by
    cases m with
    | nil => simp_all [list]
    | cons w m =>
      simp only [list, List.cons_append, List.append_assoc, List.cons.injEq, true_and] at h
      obtain ⟨rfl, h'⟩ := val_inj v w _ _ h
      obtain ⟨rfl, rfl⟩ := list_inj l m a b h'
      exact ⟨rfl, rfl⟩
theorem mems_inj : ∀ (l m : List (Str × Value)) (a b : Str), mems l ++ a = mems m ++ b → l = m ∧ a = b
  | [], m, a, b, h => by cases m <;> simp_all [mems]
  | (k, v) :: l, m, a, b, h => by
    cases m with
    | nil => simp_all [mems]
    | cons p m =>
      obtain ⟨k', w⟩ := p
      simp only [mems, List.cons_append, List.append_assoc, List.cons.injEq, true_and] at h
      obtain ⟨rfl, h1⟩ := str_inj h
      obtain ⟨rfl, h2⟩ := val_inj v w _ _ h1
      obtain ⟨rfl, rfl⟩ := mems_inj l m a b h2
      exact ⟨rfl, rfl⟩
end

end Code

/-- There is a way to write values as texts that can be read. -/
theorem text_exists : Nonempty Text := by
  classical
  refine ⟨⟨Code.val, fun s => if h : ∃ v, Code.val v = s then some h.choose else none, ?_, ?_⟩⟩
  · intro v
    have h : ∃ u, Code.val u = Code.val v := ⟨v, rfl⟩
    rw [dif_pos h]
    have := h.choose_spec
    congr 1
    exact (Code.val_inj _ _ [] [] (by simpa using this)).1
  · intro v h
    cases v <;> simp [Code.val] at h

/-! ## Checking that nothing is written twice -/

def values (ms : List (Str × Value)) (n : Str) : List Value :=
  (ms.filter fun p => equalFold n p.1).map Prod.snd

theorem has_iff {ms : List (Str × Value)} {n : Str} (hn : Ascii n) {v : Value} :
    Has ms n v ↔ v ∈ values ms n := by
  simp only [values, List.mem_map, List.mem_filter, equalFold_iff hn, Has]
  constructor
  · rintro ⟨k, h1, h2⟩; exact ⟨_, ⟨h2, h1⟩, rfl⟩
  · rintro ⟨⟨k, v⟩, ⟨h2, h1⟩, rfl⟩; exact ⟨k, h1, h2⟩

def onceB (names : List Str) (ms : List (Str × Value)) : Bool :=
  decide (ms.Pairwise fun a b => ∀ n ∈ names, ¬ (equalFold n a.1 = true ∧ equalFold n b.1 = true))

theorem once_of {names : List Str} {ms : List (Str × Value)} (hn : ∀ n ∈ names, Ascii n)
    (h : onceB names ms = true) : Once names ms := by
  have h := of_decide_eq_true h
  refine h.imp ?_
  intro a b hab n hin
  rw [← equalFold_iff (hn n hin), ← equalFold_iff (hn n hin)]
  exact hab n hin

def plainEnvB : Value → Bool
  | .obj ms => onceB envNames ms && (values ms b!"Set").all fun
    | .obj kvs => decide (kvs.map Prod.fst).Nodup
    | _ => true
  | _ => true

theorem plainEnv_of {v : Value} (h : plainEnvB v = true) : PlainEnv v := by
  rintro ms rfl
  simp only [plainEnvB, Bool.and_eq_true, List.all_eq_true] at h
  refine ⟨once_of (by simp only [envNames, List.forall_mem_cons]; decide) h.1, ?_⟩
  intro kvs hk
  exact of_decide_eq_true (h.2 _ ((has_iff (by decide)).mp hk))

def configNames : List Str := pgNames ++ shNames ++ demoNames ++ sqlNames ++ execNames ++ sleepNames

def plainConfigB : Value → Bool
  | .obj ms => onceB configNames ms && (values ms b!"Env").all plainEnvB
  | _ => true

theorem plainConfig_of {v : Value} (h : plainConfigB v = true) : PlainConfig v := by
  rintro ms rfl
  simp only [plainConfigB, Bool.and_eq_true, List.all_eq_true] at h
  refine ⟨once_of (names := configNames) ?_ h.1, fun e he => plainEnv_of (h.2 _ ((has_iff (by decide)).mp he))⟩
  have : ∀ n ∈ configNames, ∀ c ∈ n, c.toNat < 128 := by decide +kernel
  exact this

def plainEntryB (names : List Str) : Value → Bool
  | .obj ms => onceB names ms && (values ms b!"Config").all plainConfigB
  | _ => true

theorem plainEntry_of {names : List Str} (hn : ∀ n ∈ names, Ascii n) {v : Value}
    (h : plainEntryB names v = true) : PlainEntry names v := by
  rintro ms rfl
  simp only [plainEntryB, Bool.and_eq_true, List.all_eq_true] at h
  exact ⟨once_of hn h.1, fun c hc => plainConfig_of (h.2 _ ((has_iff (by decide)).mp hc))⟩

def plainSectionB (names : List Str) : Value → Bool
  | .obj kvs => decide (kvs.map Prod.fst).Nodup && kvs.all fun p => plainEntryB names p.2
  | _ => true

def plainB : Value → Bool
  | .obj ms => onceB fileNames ms && (values ms b!"Targets").all (plainSectionB targetNames) &&
      (values ms b!"Tasks").all (plainSectionB taskNames)
  | _ => true

theorem plain_of {doc : Value} (h : plainB doc = true) : Plain doc := by
  rintro ms rfl
  simp only [plainB, Bool.and_eq_true, List.all_eq_true] at h
  obtain ⟨⟨h1, h2⟩, h3⟩ := h
  have a1 : ∀ n ∈ targetNames, Ascii n := by
    have : ∀ n ∈ targetNames, ∀ c ∈ n, c.toNat < 128 := by decide +kernel
    exact this
  have a2 : ∀ n ∈ taskNames, Ascii n := by
    have : ∀ n ∈ taskNames, ∀ c ∈ n, c.toNat < 128 := by decide +kernel
    exact this
  refine ⟨once_of (by
    have : ∀ n ∈ fileNames, ∀ c ∈ n, c.toNat < 128 := by decide +kernel
    exact this) h1, ?_, ?_⟩
  · intro kvs hk
    have := h2 _ ((has_iff (by decide)).mp hk)
    simp only [plainSectionB, Bool.and_eq_true, List.all_eq_true, decide_eq_true_eq] at this
    exact ⟨this.1, fun id v hv => plainEntry_of a1 (this.2 _ hv)⟩
  · intro kvs hk
    have := h3 _ ((has_iff (by decide)).mp hk)
    simp only [plainSectionB, Bool.and_eq_true, List.all_eq_true, decide_eq_true_eq] at this
    exact ⟨this.1, fun id v hv => plainEntry_of a2 (this.2 _ hv)⟩

/-! ## A file -/

theorem loadTarget_raw {tx : Text} {basedir cls : Str} {v : Value} :
    loadTarget (decoder tx) basedir (some ⟨cls, tx.raw v⟩) =
      match newTarget basedir cls with
      | none => .error .invalidTargetClass
      | some t0 =>
        match decodeTarget v t0 with
        | .error m => .error (.json m)
        | .ok t =>
          match t.analyze with
          | some e => .error e
          | none => .ok t := by
  have := List.length_pos_of_ne_nil (tx.raw_ne v)
  simp [loadTarget, this, decoder, tx.read_raw]
  rfl

theorem loadTask_raw {tx : Text} {targets : GoMap Str Target} {after : List Str} {tgt msg : Str}
    {v : Value} :
    loadTask (decoder tx) targets (some ⟨after, tgt, msg, tx.raw v⟩) =
      match targets.get? (splitTarget tgt).1 with
      | none => .error .invalidTarget
      | some t =>
        match t.newTaskConfig (splitTarget tgt).2 with
        | .error e => .error e
        | .ok c0 =>
          match decodeConfig v c0 with
          | .error m => .error (.json m)
          | .ok c1 =>
            match c1.check with
            | .error e => .error e
            | .ok c => .ok ⟨(splitTarget tgt).1, after, msg, c⟩ := by
  have := List.length_pos_of_ne_nil (tx.raw_ne v)
  simp [loadTask, this, decoder, tx.read_raw]
  rfl

/-- examples/scripts.jsonnet, and a second task -/
def scripts : Value := .obj [
  (b!"targets", .obj [(b!"sh", .obj [(b!"class", .str b!"sh"),
    (b!"config", .obj [(b!"env", .obj [(b!"set", .obj [(b!"FOO", .str b!"42")])])])])]),
  (b!"tasks", .obj [
    (b!"debug-env", .obj [(b!"config", .obj [(b!"args", .arr [.str b!"./scripts/demo-script"]),
      (b!"env", .obj [(b!"set", .obj [(b!"BAR", .str b!"baz")])])]), (b!"target", .str b!"sh")]),
    (b!"list", .obj [(b!"after", .arr [.str b!"debug-env"]), (b!"config", .obj [(b!"args", .arr [.str b!"ls"])]),
      (b!"target", .str b!"sh")])])]

def scriptsBook : Runbook where
  targets := [(b!"sh", .sh ⟨b!"/", [], 1, ⟨[], [], [(b!"FOO", b!"42")]⟩⟩)]
  tasks := [(b!"debug-env", ⟨b!"sh", [], [], .shExec ⟨[b!"./scripts/demo-script"], ⟨[], [], [(b!"BAR", b!"baz")]⟩⟩⟩),
    (b!"list", ⟨b!"sh", [b!"debug-env"], [], .shExec ⟨[b!"ls"], ⟨[], [], []⟩⟩⟩)]

theorem scripts_plain : Plain scripts := plain_of (by decide +kernel)

def scriptsSrc (tx : Text) : Src where
  targets := [(b!"sh", some ⟨b!"sh",
    tx.raw (.obj [(b!"env", .obj [(b!"set", .obj [(b!"FOO", .str b!"42")])])])⟩)]
  tasks := [(b!"debug-env", some ⟨[], b!"sh", [],
      tx.raw (.obj [(b!"args", .arr [.str b!"./scripts/demo-script"]),
        (b!"env", .obj [(b!"set", .obj [(b!"BAR", .str b!"baz")])])])⟩),
    (b!"list", some ⟨[b!"debug-env"], b!"sh", [], tx.raw (.obj [(b!"args", .arr [.str b!"ls"])])⟩)]

theorem scripts_decode (tx : Text) : decodeFile tx scripts = .ok (scriptsSrc tx) := rfl

theorem scripts_book (tx : Text) : Book.parse (decoder tx) b!"/" (scriptsSrc tx) = .ok scriptsBook := by
  simp only [Book.parse, scriptsSrc, loadTargets, loadTarget_raw]
  have e : newTarget b!"/" b!"sh" = some (.sh { basedir := b!"/" }) := rfl
  simp only [e]
  have e2 : decodeTarget (.obj [(b!"env", .obj [(b!"set", .obj [(b!"FOO", .str b!"42")])])])
    (.sh { basedir := b!"/" }) = .ok (.sh ⟨b!"/", [], 1, ⟨[], [], [(b!"FOO", b!"42")]⟩⟩) := rfl
  simp only [e2, loadTasks, loadTask_raw]
  rfl

/-- The file meets the hypotheses of C93. -/
theorem scripts_parse (tx : Text) : parse tx b!"/" scripts = .ok scriptsBook := by
  rw [parse, scripts_decode]
  exact scripts_book tx

/-- The file meets the hypotheses of C93, and is valid. -/
example : Valid b!"/" scripts ∧ Describes b!"/" scripts scriptsBook := by
  obtain ⟨tx⟩ := text_exists
  exact ⟨(C93_accepts_iff_partial tx _ _ scripts_plain).mp ⟨_, scripts_parse tx⟩,
    (C93_reads_partial tx _ _ scripts_plain _ (scripts_parse tx)).1⟩

/-- internal/runbook/parser/testdata/invalid-target-field.jsonnet -/
def invalidField : Value := .obj [
  (b!"targets", .obj [(b!"sh", .obj [(b!"class", .str b!"sh"), (b!"config", .obj [(b!"shell", .str b!"bash")])])]),
  (b!"tasks", .obj [(b!"timestamp", .obj [(b!"config", .obj [(b!"args", .arr [.str b!"ddate"])]),
    (b!"target", .str b!"sh")])])]

/-- A file that is not valid. -/
example (tx : Text) : (¬ Valid b!"/" invalidField) ∧ ∀ book, parse tx b!"/" invalidField ≠ .ok book := by
  have hp : Plain invalidField := plain_of (by decide +kernel)
  have hn : ∀ book, parse tx b!"/" invalidField ≠ .ok book := by
    intro book h
    have e : decodeFile tx invalidField = .ok ⟨[(b!"sh", some ⟨b!"sh", tx.raw (.obj [(b!"shell", .str b!"bash")])⟩)],
      [(b!"timestamp", some ⟨[], b!"sh", [], tx.raw (.obj [(b!"args", .arr [.str b!"ddate"])])⟩)]⟩ := rfl
    rw [parse, e] at h
    simp only [Book.parse, loadTargets, loadTarget_raw] at h
    cases h
  refine ⟨fun h => ?_, hn⟩
  obtain ⟨book, h⟩ := (C93_accepts_iff_partial tx _ _ hp).mpr h
  exact hn book h

/-! ## C93 refuted -/

/-- A file with a target that has two configs, spelled differently; jsonnet evaluates to members in
this order. -/
def twoConfigs : Value := .obj [
  (b!"targets", .obj [(b!"x", .obj [
    (b!"Config", .obj [(b!"host", .str b!"production")]),
    (b!"class", .str b!"demo"),
    (b!"config", .obj [(b!"string", .str b!"hi")])])]),
  (b!"tasks", .obj [(b!"a", .obj [(b!"target", .str b!"x/echo")])])]

/-- **C93 refuted.** Not every file with an unknown setting is rejected: a config that is followed by
another, spelled differently, is not read at all. -/
theorem C93_refuted (tx : Text) (basedir : Str) :
    (∃ book, parse tx basedir twoConfigs = .ok book) ∧
    ∃ ms cms, Lists twoConfigs b!"Targets" b!"x" (.obj ms) ∧ Has ms b!"Class" (.str b!"demo") ∧
      Has ms b!"Config" (.obj cms) ∧ ¬ Known demoNames cms := by
  constructor
  · have e : decodeFile tx twoConfigs = .ok ⟨[(b!"x", some ⟨b!"demo", tx.raw (.obj [(b!"string", .str b!"hi")])⟩)],
      [(b!"a", some ⟨[], b!"x/echo", [], []⟩)]⟩ := rfl
    rw [parse, e]
    simp only [Book.parse, loadTargets, loadTarget_raw]
    exact ⟨⟨[(b!"x", .demo { string := b!"hi" })], [(b!"a", ⟨b!"x", [], [], .echo⟩)]⟩, rfl⟩
  · refine ⟨_, [(b!"host", .str b!"production")], ⟨_, _, rfl, ⟨b!"targets", ?_, List.mem_cons_self⟩,
      List.mem_cons_self⟩, ⟨b!"class", ?_, ?_⟩, ⟨b!"Config", ?_, List.mem_cons_self⟩, ?_⟩
    · exact (equalFold_iff (by decide)).mp (by decide)
    · exact (equalFold_iff (by decide)).mp (by decide)
    · exact List.mem_cons_of_mem _ List.mem_cons_self
    · exact (equalFold_iff (by decide)).mp (by decide)
    · intro h
      obtain ⟨n, hn, hs⟩ := h b!"host" _ List.mem_cons_self
      simp only [demoNames, List.mem_singleton] at hn
      subst hn
      have := (equalFold_iff (by decide)).mpr hs
      exact absurd this (by decide)

/-! ## A run of the file -/

open Run in
local macro "other" t:term : term => `(Act.other $t (by simp) (by simp) (by simp) (by simp))

theorem scripts_ordered (tx : Text) : Run.Spec.Ordered (scriptsSrc tx) := by
  refine Run.ordered_of [b!"debug-env", b!"list"] ?_
  simp [scriptsSrc, GoMap.keys]

theorem scripts_ordered' : Ordered scripts := by
  obtain ⟨tx⟩ := text_exists
  have e : Run.Spec.DependsOn (scriptsSrc tx) = Needs scripts := funext fun t => funext fun m =>
    propext (dependsOn_iff scripts_plain (scripts_decode tx) (scripts_book tx) t m)
  obtain ⟨h1, h2⟩ := scripts_ordered tx
  rw [e] at h1 h2
  exact ⟨fun t m h => (listed_iff scripts_plain (scripts_decode tx) m).mp (h1 t m h), h2⟩

open Run in
/-- A run of the file that succeeds. -/
theorem scripts_run (tx : Text) : ∃ st w,
    Runs tx b!"/" { proc0 with environ := [b!"HOME=/root"] } scripts (.running scriptsBook st w) ∧
    st.main = .returned none ∧
    w.calls = [
      (b!"debug-env", .command ⟨b!"./scripts/demo-script", [], b!"/", [b!"HOME=/root", b!"FOO=42", b!"BAR=baz"]⟩, true),
      (b!"list", .command ⟨b!"ls", [], b!"/", [b!"HOME=/root", b!"FOO=42"]⟩, true)] := by
  have r0 : Reach (decoder tx) b!"/" { proc0 with environ := [b!"HOME=/root"] } (scriptsSrc tx)
      (.running scriptsBook _ _) :=
    Reach.start (scripts_book tx) (by decide) [b!"sh"] (List.Perm.refl _)
  have r1 := Reach.act r0 (Act.started b!"sh" [] _ _ _ _ (fun _ => true) rfl rfl rfl)
  have r2 := Reach.act r1 (other (Runner.Step.targetsStarted _ rfl))
  have r3 := Reach.act r2 (other (Runner.Step.schedNew _ _ _ _ rfl rfl (List.Perm.refl _)))
  have r4 := Reach.act r3 (other (Runner.Step.schedSend _ _ (b!"sh", b!"debug-env") [] rfl (by decide)))
  have r5 := Reach.act r4 (other (Runner.Step.routerRecv _ b!"sh" b!"debug-env" [] rfl rfl))
  have r6 := Reach.act r5 (other (Runner.Step.routerSend _ b!"sh" b!"debug-env" rfl rfl))
  have r7 := Reach.act r6 (Act.handled b!"sh" b!"debug-env" _ _ _ _ _ _ (true, b!"made\n") rfl rfl rfl rfl)
  have r8 := Reach.act r7 (other (Runner.Step.report _ b!"sh" b!"debug-env" true rfl (by decide)))
  have r9 := Reach.act r8 (other (Runner.Step.mainOk _ b!"debug-env" [] rfl rfl))
  have r10 := Reach.act r9 (other (Runner.Step.mainSend _ b!"debug-env" rfl (by decide)))
  have r11 := Reach.act r10 (other (Runner.Step.schedNext _ _ _ b!"debug-env" [] _ _ rfl rfl rfl (List.Perm.refl _)))
  have r12 := Reach.act r11 (other (Runner.Step.schedSend _ _ (b!"sh", b!"list") [] rfl (by decide)))
  have r13 := Reach.act r12 (other (Runner.Step.routerRecv _ b!"sh" b!"list" [] rfl rfl))
  have r14 := Reach.act r13 (other (Runner.Step.routerSend _ b!"sh" b!"list" rfl rfl))
  have r15 := Reach.act r14 (Act.handled b!"sh" b!"list" _ _ _ _ _ _ (true, b!"ls") rfl rfl rfl rfl)
  have r16 := Reach.act r15 (other (Runner.Step.report _ b!"sh" b!"list" true rfl (by decide)))
  have r17 := Reach.act r16 (other (Runner.Step.mainOk _ b!"list" [] rfl rfl))
  have r18 := Reach.act r17 (other (Runner.Step.mainSend _ b!"list" rfl (by decide)))
  have r19 := Reach.act r18 (other (Runner.Step.schedRefused _ _ _ b!"list" [] rfl rfl rfl))
  have r20 := Reach.act r19 (other (Runner.Step.routerClosed _ rfl rfl rfl))
  have r21 := Reach.act r20 (other (Runner.Step.targetClosed _ b!"sh" rfl (Or.inl rfl)))
  have r22 := Reach.act r21 (Act.stopped b!"sh" _ _ rfl rfl rfl)
  have r23 := Reach.act r22 (other (Runner.Step.routerDone _ rfl (by
    intro q
    by_cases e : q = b!"sh"
    · subst e; exact Or.inr rfl
    · simp [Function.update_of_ne e, Runner.init])))
  have r24 := Reach.act r23 (other (Runner.Step.mainEnd1 _ rfl rfl rfl))
  have r25 := Reach.act r24 (other (Runner.Step.mainReturn _ none rfl rfl rfl))
  exact ⟨_, _, .decoded (scripts_decode tx) r25, rfl, rfl⟩

/-- The run meets the hypotheses of C94. -/
example : Plain scripts ∧ Ordered scripts ∧ (∀ v, ¬ Lists scripts b!"Tasks" [] v) ∧
    (∃ v, Lists scripts b!"Tasks" b!"list" v) ∧ Needs scripts b!"list" b!"debug-env" := by
  obtain ⟨tx⟩ := text_exists
  refine ⟨scripts_plain, scripts_ordered', fun v hv => ?_,
    (listed_iff scripts_plain (scripts_decode tx) _).mp ⟨_, List.mem_cons_of_mem _ List.mem_cons_self⟩,
    (dependsOn_iff scripts_plain (scripts_decode tx) (scripts_book tx) _ _).mp (Run.depends_iff.mp rfl)⟩
  obtain ⟨o, h⟩ := (listed_iff scripts_plain (scripts_decode tx) []).mpr ⟨v, hv⟩
  simp [scriptsSrc] at h

end Verif.Json
