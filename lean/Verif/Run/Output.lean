import Verif.Run.Props
import Mathlib.Tactic.IntervalCases

/-!
# C89: the output of a runbook of demo tasks does not depend on the schedule
-/

namespace Verif.Run
open Verif Book Spec

variable {dec : Decoder} {basedir : Str} {proc : Proc} {environ : List Str} {src : Src} {book : Runbook}
  {st st' : Runner.St} {w w' : World}

/-! ## The strings of the targets -/

theorem utf8_eq (cs : List Char) : utf8 cs = Utf8.encode (cs.map Char.toNat) := by
  unfold utf8 Utf8.encode
  rw [List.flatMap_map]
  simp only [Utf8.encode1_char]

theorem rot13_lo (i : Nat) (h : i < 26) : rot13 (Char.ofNat (97 + i)) = Char.ofNat (97 + (i + 13) % 26) := by
  interval_cases i <;> decide

theorem rot13_up (i : Nat) (h : i < 26) : rot13 (Char.ofNat (65 + i)) = Char.ofNat (65 + (i + 13) % 26) := by
  interval_cases i <;> decide

theorem rot13_id (c : Char) (h1 : ¬ (97 ≤ c.toNat ∧ c.toNat < 123)) (h2 : ¬ (65 ≤ c.toNat ∧ c.toNat < 91)) :
    rot13 c = c := by
  unfold rot13
  rw [if_neg, if_neg]
  · rintro ⟨h, h'⟩
    have a : 'A'.val.toNat ≤ c.val.toNat := h
    have b : c.val.toNat ≤ 'Z'.val.toNat := h'
    exact h2 ⟨a, Nat.lt_succ_of_le b⟩
  · rintro ⟨h, h'⟩
    have a : 'a'.val.toNat ≤ c.val.toNat := h
    have b : c.val.toNat ≤ 'z'.val.toNat := h'
    exact h1 ⟨a, Nat.lt_succ_of_le b⟩

theorem op_rot13 (cs : List Char) : op .rot13 (utf8 cs) = utf8 (cs.map rot13) := by
  have := congrArg Demo.Target.string (Demo.C32_rot13_is_rot13 cs [] rot13 rot13_lo rot13_up rot13_id)
  exact this

theorem op_rev (cs : List Char) : op .rev (utf8 cs) = utf8 cs.reverse := by
  have := Demo.C32_rev_reverses cs []
  rw [Demo.rev_eq] at this
  exact congrArg Demo.Target.string (Option.some.inj this)

theorem rot13_rot13 (c : Char) : rot13 (rot13 c) = c := by
  have hmod : ∀ i, i < 26 → ((i + 13) % 26 + 13) % 26 = i := by omega
  by_cases h1 : 97 ≤ c.toNat ∧ c.toNat < 123
  · obtain ⟨i, hi, rfl⟩ : ∃ i, i < 26 ∧ c = Char.ofNat (97 + i) :=
      ⟨c.toNat - 97, by omega, by
        rw [show 97 + (c.toNat - 97) = c.toNat by omega]; exact (Char.ofNat_toNat c).symm⟩
    rw [rot13_lo i hi, rot13_lo _ (Nat.mod_lt _ (by omega)), hmod i hi]
  · by_cases h2 : 65 ≤ c.toNat ∧ c.toNat < 91
    · obtain ⟨i, hi, rfl⟩ : ∃ i, i < 26 ∧ c = Char.ofNat (65 + i) :=
        ⟨c.toNat - 65, by omega, by
          rw [show 65 + (c.toNat - 65) = c.toNat by omega]; exact (Char.ofNat_toNat c).symm⟩
      rw [rot13_up i hi, rot13_up _ (Nat.mod_lt _ (by omega)), hmod i hi]
    · rw [rot13_id c h1 h2, rot13_id c h1 h2]

theorem mangle_rev (a b : Nat) (cs : List Char) : (mangle a b cs).reverse = mangle (a + 1) b cs := by
  simp only [mangle]
  generalize (if b % 2 = 1 then cs.map rot13 else cs) = l
  by_cases h : a % 2 = 1
  · rw [if_pos h, if_neg (by omega)]; simp
  · rw [if_neg h, if_pos (by omega)]

theorem mangle_rot (a b : Nat) (cs : List Char) : (mangle a b cs).map rot13 = mangle a (b + 1) cs := by
  have hid : rot13 ∘ rot13 = id := funext rot13_rot13
  simp only [mangle]
  by_cases h : a % 2 = 1 <;> by_cases h' : b % 2 = 1
  · rw [if_pos h, if_pos h', if_pos h, if_neg (by omega)]; simp [hid]
  · rw [if_pos h, if_neg h', if_pos h, if_pos (by omega)]; simp
  · rw [if_neg h, if_pos h', if_neg h, if_neg (by omega)]; simp [hid]
  · rw [if_neg h, if_neg h', if_neg h, if_pos (by omega)]

/-- What the tasks `l` make of a text, in this order. -/
theorem foldl_op (l : List Str) (cs : List Char) :
    l.foldl (fun s id => op (configOf book id) s) (utf8 cs) =
      utf8 (mangle (l.countP fun id => configOf book id = .rev)
        (l.countP fun id => configOf book id = .rot13) cs) := by
  induction l using List.reverseRecOn with
  | nil => simp [mangle]
  | append_singleton l x ih =>
    rw [List.foldl_append, ih, List.countP_append, List.countP_append]
    simp only [List.foldl_cons, List.foldl_nil, List.countP_cons, List.countP_nil, Nat.zero_add]
    cases e : configOf book x <;>
      simp [op_rev, op_rot13, mangle_rev, mangle_rot] <;> simp [op]

/-! ## What is printed -/

/-- The text of a demo target in the runbook. -/
def textOf (book : Runbook) (q : Str) : Str :=
  match book.targets.get? q with
  | some (.demo d) => d.string
  | _ => []

/-- The text of target `q` after the events. -/
def textAt (book : Runbook) (tr : List Runner.Event) (q : Str) : Str :=
  (endedOn q tr).foldl (fun s id => op (configOf book id) s) (textOf book q)

/-- What an event prints after the events `pre`. -/
def lineAt (book : Runbook) (pre : List Runner.Event) : Runner.Event → Str
  | .handleEnd q t _ => if configOf book t = .echo then textAt book pre q ++ [10] else []
  | _ => []

/-- What the events `tr` print after the events `pre`. -/
def printed (book : Runbook) : List Runner.Event → List Runner.Event → Str
  | _, [] => []
  | pre, e :: tr => lineAt book pre e ++ printed book (pre ++ [e]) tr

theorem printed_append (pre tr : List Runner.Event) (e : Runner.Event) :
    printed book pre (tr ++ [e]) = printed book pre tr ++ lineAt book (pre ++ tr) e := by
  induction tr generalizing pre with
  | nil => simp [printed]
  | cons x tr ih => simp [printed, ih]

theorem Reach.printed (hj : Json dec) (hw1 : src.targets.WF) (hw2 : src.tasks.WF)
    (hdemo : ∀ q t, (q, t) ∈ book.targets → ∃ d, t = .demo d)
    (h : Reach dec basedir proc src (.running book st w)) :
    w.stdout = Run.printed book [] st.trace := by
  generalize hp : Prog.running book st w = p at h
  induction h generalizing st w with
  | rejected h => cases hp
  | parsePanic h => cases hp
  | makePanic h => cases hp
  | start h hm order ho => cases hp; rfl
  | @act book st0 st1 w0 w1 h ha ih =>
    cases hp
    have hpar := parsed hj hw1 hw2 h.parse
    have hi := h.inv hj hw1 hw2
    have ih := ih rfl
    cases ha with
    | started q rest tgt tgt' conn net ok hm hq hs => simp [ih, printed_append, lineAt]
    | startFailed q rest tgt net ok hm hq hs => simp [ih, printed_append, lineAt]
    | stopped q tgt closes hr hq hs => simp [ih, printed_append, lineAt]
    | handled q t task tgt tgt' ok out calls ext hr ht hq hh =>
      obtain ⟨task', ht', hown⟩ := running_own hpar h.runner hr
      rw [ht] at ht'
      cases ht'
      obtain ⟨h2, t0, h3, h4, h5, h6, h7⟩ :=
        handle_own hpar hi ht hown hq (by rw [hr]; simp) hh
      obtain ⟨d0, rfl⟩ := hdemo q t0 (GoMap.mem_of_get? h3)
      obtain ⟨d, d', rfl, rfl, h8, h9⟩ := h7 d0 rfl
      obtain ⟨t1, h10, h11⟩ := hi.get hq
      rw [h3] at h10
      cases h10
      obtain ⟨d1, e1, h12⟩ := h11
      cases e1
      have hcfg : configOf book t = task.config := by simp [configOf, ht]
      have htext : textAt book st0.trace q = d.string := by
        rw [h12, textAt, textOf, h3]
      rw [h9, printed_append, ← ih]
      simp only [lineAt, hcfg, List.nil_append, htext]
      split
      · rw [List.append_assoc]
      · simp
    | other hs h1 h2 h3 h4 =>
      rcases Runner.step_trace hs with e | ⟨ev, e⟩
      · rw [e]; exact ih
      · rw [e, printed_append, ← ih]
        cases ev with
        | handleEnd q t ok => exact absurd e (h3 q t ok)
        | _ => simp [lineAt]
  | panic => cases hp

/-- The echo tasks that ended, in order. -/
def echoed (book : Runbook) (tr : List Runner.Event) : List Str :=
  tr.filterMap fun e => match e with
    | .handleEnd _ t _ => if configOf book t = .echo then some t else none
    | _ => none

theorem echoed_append (a b : List Runner.Event) :
    echoed book (a ++ b) = echoed book a ++ echoed book b := by
  simp [echoed]

theorem mem_echoed {tr : List Runner.Event} {t : Str} : t ∈ echoed book tr ↔
    configOf book t = .echo ∧ ∃ q ok, .handleEnd q t ok ∈ tr := by
  unfold echoed
  rw [List.mem_filterMap]
  constructor
  · rintro ⟨e, he, h⟩
    cases e with
    | handleEnd q t' ok =>
      simp only at h
      split at h
      · cases h; exact ⟨by assumption, q, ok, he⟩
      · cases h
    | _ => cases h
  · rintro ⟨h, q, ok, he⟩
    exact ⟨_, he, by simp [h]⟩

/-- What the echo tasks print, if it is known what each of them prints. -/
theorem printed_eq (f : Str → Str) (pre tr : List Runner.Event)
    (h : ∀ p q t ok s, tr = p ++ .handleEnd q t ok :: s → configOf book t = .echo →
      textAt book (pre ++ p) q ++ [10] = f t) :
    printed book pre tr = (echoed book tr).flatMap f := by
  induction tr generalizing pre with
  | nil => rfl
  | cons e tr ih =>
    rw [printed, ih (pre ++ [e])]
    · cases e with
      | handleEnd q t ok =>
        by_cases hc : configOf book t = .echo
        · have := h [] q t ok tr rfl hc
          rw [List.append_nil] at this
          simp [lineAt, echoed, hc, this]
        · simp [lineAt, echoed, hc]
      | _ => simp [lineAt, echoed]
    · intro p q t ok s e' hc
      have := h (e :: p) q t ok s (by rw [e']; rfl) hc
      simpa using this

/-! ## Order -/

/-- A sorted list that contains, with an element, all smaller ones of another sorted list is a prefix
of it. -/
theorem prefix_of_sorted {α : Type} {R : α → α → Prop} (irr : ∀ a, ¬ R a a)
    (tr : ∀ a b c, R a b → R b c → R a c) : ∀ (es l : List α), es.Pairwise R → l.Pairwise R →
    (∀ x ∈ l, x ∈ es) → (∀ x ∈ l, ∀ y ∈ es, R y x → y ∈ l) → l <+: es := by
  intro es
  induction es with
  | nil =>
    intro l _ _ h _
    cases l with
    | nil => exact List.prefix_refl _
    | cons x l => exact absurd (h x (by simp)) (by simp)
  | cons a es ih =>
    intro l he hl hsub hcl
    cases l with
    | nil => exact List.nil_prefix
    | cons x l =>
      rw [List.pairwise_cons] at he hl
      have hxa : x = a := by
        by_contra hne
        have hx : x ∈ es := by
          rcases List.mem_cons.mp (hsub x (by simp)) with h | h
          · exact absurd h hne
          · exact h
        have ha : a ∈ x :: l := hcl x (by simp) a (by simp) (he.1 x hx)
        rcases List.mem_cons.mp ha with h | h
        · exact hne h.symm
        · exact irr a (tr _ _ _ (he.1 x hx) (hl.1 a h))
      subst hxa
      rw [List.prefix_cons_inj]
      refine ih l he.2 hl.2 ?_ ?_
      · intro y hy
        rcases List.mem_cons.mp (hsub y (by simp [hy])) with h | h
        · subst h; exact absurd (hl.1 y hy) (irr y)
        · exact h
      · intro y hy z hz hR
        rcases List.mem_cons.mp (hcl y (by simp [hy]) z (by simp [hz]) hR) with h | h
        · subst h; exact absurd (he.1 z hz) (irr z)
        · exact h

/-- No task ends twice. -/
theorem end_once (hp : Parsed basedir book) (h : Runner.Reach (limits book) (jobs book) st)
    {p s : List Runner.Event} {q t : Str} {ok : Bool}
    (e : st.trace = p ++ .handleEnd q t ok :: s) : ∀ q' ok', .handleEnd q' t ok' ∉ p ++ s := by
  intro q' ok' hin
  have hle := (h.inv hp.wf1 hp.wf2).2.nends t
  have hle' := (h.inv hp.wf1 hp.wf2).2.le_one hp.wf2 t
  have hends : Runner.ends st.trace t ≤ 1 := by omega
  have h1 : 1 ≤ (p ++ s).countP (Runner.Event.isEnd t) := by
    rw [Nat.one_le_iff_ne_zero, ← Nat.pos_iff_ne_zero, List.countP_pos_iff]
    exact ⟨_, hin, by simp [Runner.Event.isEnd]⟩
  rw [e] at hends
  simp only [Runner.ends, List.countP_append, List.countP_cons, Runner.Event.isEnd, decide_true,
    if_pos] at hends h1
  omega

/-- Whatever a task that ended follows had ended before, with success. -/
theorem follows_end (hj : Json dec) (hw1 : src.targets.WF) (hw2 : src.tasks.WF)
    (hne : ∀ o, ([], o) ∉ src.tasks) (h : Reach dec basedir proc src (.running book st w))
    {t m : Str} (hf : Follows src t m) : ∀ {p s : List Runner.Event} {q : Str} {ok : Bool},
    st.trace = p ++ .handleEnd q t ok :: s → ∃ q', .handleEnd q' m true ∈ p := by
  have hp := parsed hj hw1 hw2 h.parse
  have hne' : b!"" ∉ (jobs book).keys := by
    rw [keys_jobs, (C35_parse_result dec basedir src book hw1 hw2 h.parse).2.1]
    intro hin
    obtain ⟨⟨k, o⟩, hp', rfl⟩ := List.mem_map.mp hin
    exact hne o hp'
  have single : ∀ {t m : Str}, DependsOn src t m → ∀ {p s : List Runner.Event} {q : Str} {ok : Bool},
      st.trace = p ++ .handleEnd q t ok :: s → ∃ q', .handleEnd q' m true ∈ p := by
    intro t m hd p s q ok e
    obtain ⟨st0, st1, h0, hs, e0, e1⟩ := h.runner.split e
    have hstart := ((Runner.Reach.step h0 hs).inv hp.wf1 hp.wf2).2.endTr q t ok (by rw [e1]; simp)
    rw [e1] at hstart
    have hin : .handleStart q t ∈ p := by simpa using hstart
    obtain ⟨p1, p2, e2⟩ := List.append_of_mem hin
    have hafter := (after_iff hw1 hw2 h.parse t m).mpr hd
    have hm0 : m ≠ [] := by
      rintro rfl
      exact hne' (h0.known hp.wf1 hp.wf2 (e0 ▸ hin) hafter)
    obtain ⟨q', _, _, _, hend⟩ := Runner.C18_run_dependency_order_partial hp.wf1 hp.wf2 h0
      (e0.trans e2) hafter hm0
    exact ⟨q', by rw [e2]; simp [hend]⟩
  induction hf using Relation.TransGen.head_induction_on with
  | single hd => exact single hd
  | @head t x hd _ ih =>
    intro p s q ok e
    obtain ⟨q', hx⟩ := single hd e
    obtain ⟨p1, p2, e2⟩ := List.append_of_mem hx
    obtain ⟨q2, hm⟩ := ih (p := p1) (s := p2 ++ .handleEnd q t ok :: s) (q := q') (ok := true)
      (by rw [e, e2]; simp)
    exact ⟨q2, by rw [e2]; simp [hm]⟩

/-- A task that follows a `fail` task does not end. -/
theorem doomed_not_ended (hj : Json dec) (hw1 : src.targets.WF) (hw2 : src.tasks.WF)
    (hne : ∀ o, ([], o) ∉ src.tasks) (h : Reach dec basedir proc src (.running book st w))
    {t q : Str} {ok : Bool} (hd : Doomed src book t) : .handleEnd q t ok ∉ st.trace := by
  intro hin
  have hp := parsed hj hw1 hw2 h.parse
  obtain ⟨qf, f, ⟨task, hk, ht, hc⟩, hf⟩ := hd
  obtain ⟨p, s, e⟩ := List.append_of_mem hin
  obtain ⟨q', hm⟩ := follows_end hj hw1 hw2 hne h hf e
  obtain ⟨task', t0, d, h1, h2, h3, h4⟩ := h.outcome hj hw1 hw2 (q := q') (t := f) (ok := true)
    (by rw [e]; simp [hm])
  rw [GoMap.get?_of_mem hp.wfK hk] at h1
  cases h1
  obtain ⟨tgt, h5, h6⟩ := hp.task f task (GoMap.get?_of_mem hp.wfK hk)
  rw [h2, h3] at h5
  cases h5
  rw [hc] at h4 h6
  cases t0 with
  | pg t => obtain ⟨_, e⟩ := h6; cases e
  | sh t => obtain ⟨_, _, _, e⟩ := h6; cases e
  | demo t => cases h4; rename_i hn; exact hn rfl

theorem isTask_config (hp : Parsed basedir book) {q t : Str} {c : Config} (h : IsTask book q c t) :
    configOf book t = c := by
  obtain ⟨task, hk, _, hc⟩ := h
  simp [configOf, GoMap.get?_of_mem hp.wfK hk, hc]

theorem isTask_target (hp : Parsed basedir book) {q q' t : Str} {c c' : Config}
    (h : IsTask book q c t) (h' : IsTask book q' c' t) : q = q' := by
  obtain ⟨task, hk, ht, _⟩ := h
  obtain ⟨task', hk', ht', _⟩ := h'
  have := GoMap.get?_of_mem hp.wfK hk
  rw [GoMap.get?_of_mem hp.wfK hk'] at this
  cases this
  rw [← ht, ht']

theorem ended_isTask (hj : Json dec) (hw1 : src.targets.WF) (hw2 : src.tasks.WF)
    (h : Reach dec basedir proc src (.running book st w)) {q t : Str} {ok : Bool}
    (he : Runner.Event.handleEnd q t ok ∈ st.trace) : IsTask book q (configOf book t) t := by
  obtain ⟨task, t0, d, h1, h2, _⟩ := h.outcome hj hw1 hw2 he
  exact ⟨task, GoMap.mem_of_get? h1, h2, by simp [configOf, h1]⟩

theorem mem_endedOn {q t : Str} {tr : List Runner.Event} :
    t ∈ endedOn q tr ↔ ∃ ok, .handleEnd q t ok ∈ tr := by
  unfold endedOn
  rw [List.mem_filterMap]
  constructor
  · rintro ⟨e, he, h⟩
    cases e with
    | handleEnd q' t' ok =>
      simp only at h
      split at h
      · rename_i e; cases h; subst e; exact ⟨ok, he⟩
      · cases h
    | _ => cases h
  · rintro ⟨ok, he⟩
    exact ⟨_, he, by simp⟩

/-- No task ends twice. -/
theorem ended_nodup (hp : Parsed basedir book) (h : Runner.Reach (limits book) (jobs book) st)
    (f : Runner.Event → Option Str) (hf : ∀ e t, f e = some t → ∃ q ok, e = .handleEnd q t ok) :
    (st.trace.filterMap f).Nodup := by
  unfold List.Nodup
  rw [List.pairwise_filterMap]
  have : ∀ tr s, st.trace = s ++ tr → tr.Pairwise (fun a a' => ∀ b, f a = some b → ∀ b', f a' = some b' → b ≠ b') := by
    intro tr
    induction tr with
    | nil => intros; exact List.Pairwise.nil
    | cons e tr ih =>
      intro s he
      rw [List.pairwise_cons]
      refine ⟨?_, ih (s ++ [e]) (by rw [he]; simp)⟩
      rintro e' hin t ht t' ht' rfl
      obtain ⟨q, ok, rfl⟩ := hf _ _ ht
      obtain ⟨q', ok', rfl⟩ := hf _ _ ht'
      exact end_once hp h he q' ok' (by simp [hin])
  exact this _ [] rfl

theorem endedOn_nodup (hp : Parsed basedir book) (h : Runner.Reach (limits book) (jobs book) st)
    (q : Str) : (endedOn q st.trace).Nodup := by
  refine ended_nodup hp h _ ?_
  intro e t he
  cases e with
  | handleEnd q' t' ok =>
    simp only at he
    split at he
    · cases he; exact ⟨_, _, rfl⟩
    · cases he
  | _ => cases he

theorem echoed_nodup (hp : Parsed basedir book) (h : Runner.Reach (limits book) (jobs book) st) :
    (echoed book st.trace).Nodup := by
  refine ended_nodup hp h _ ?_
  intro e t he
  cases e with
  | handleEnd q' t' ok =>
    simp only at he
    split at he
    · cases he; exact ⟨_, _, rfl⟩
    · cases he
  | _ => cases he

theorem countP_ncard {α : Type} (l : List α) (h : l.Nodup) (P : α → Bool) :
    l.countP P = {x | x ∈ l ∧ P x = true}.ncard := by
  classical
  have : {x | x ∈ l ∧ P x = true} = ((l.filter P).toFinset : Set α) := by
    ext x; simp
  rw [this, Set.ncard_coe_finset, List.toFinset_card_of_nodup (h.filter _), List.countP_eq_length_filter]

/-- The text an echo task sees. -/
theorem text_seen (hj : Json dec) (hw1 : src.targets.WF) (hw2 : src.tasks.WF)
    (hne : ∀ o, ([], o) ∉ src.tasks) {es : List Str} (hs : Determined src book es)
    (h : Reach dec basedir proc src (.running book st w))
    {p s : List Runner.Event} {q t : Str} {ok : Bool}
    (e : st.trace = p ++ .handleEnd q t ok :: s) (hc : configOf book t = .echo) {cs : List Char}
    (hcs : textOf book q = utf8 cs) :
    textAt book p q = utf8 (mangle {x | IsTask book q .rev x ∧ Follows src t x}.ncard
      {x | IsTask book q .rot13 x ∧ Follows src t x}.ncard cs) := by
  have hp := parsed hj hw1 hw2 h.parse
  obtain ⟨st0, st1, h0, _, e0, _⟩ := h.runner.split e
  have hnd : (endedOn q p).Nodup := by rw [← e0]; exact endedOn_nodup hp h0 q
  have htask : IsTask book q .echo t := by
    rw [← hc]; exact ended_isTask hj hw1 hw2 h (ok := ok) (by rw [e]; simp)
  have hte : t ∈ es := by
    rw [hs.echoes]
    exact ⟨⟨q, htask⟩, fun hd => doomed_not_ended hj hw1 hw2 hne h (q := q) (ok := ok) hd (by rw [e]; simp)⟩
  have key : ∀ c, c = Config.rev ∨ c = Config.rot13 →
      {x | x ∈ endedOn q p ∧ decide (configOf book x = c) = true} =
        {x | IsTask book q c x ∧ Follows src t x} := by
    intro c hcc
    ext x
    simp only [Set.mem_setOf_eq, decide_eq_true_eq]
    constructor
    · rintro ⟨hx, hxc⟩
      obtain ⟨ok', hx⟩ := mem_endedOn.mp hx
      have hxin : .handleEnd q x ok' ∈ st.trace := by rw [e]; simp [hx]
      have hxt : IsTask book q c x := by
        rw [← hxc]; exact ended_isTask hj hw1 hw2 h hxin
      refine ⟨hxt, ?_⟩
      have hch : IsTask book q .rev x ∨ IsTask book q .rot13 x := by
        rcases hcc with rfl | rfl
        · exact Or.inl hxt
        · exact Or.inr hxt
      rcases hs.changes t hte q htask x hch with h1 | h1 | h1
      · exact h1
      · exfalso
        obtain ⟨p1, p2, e2⟩ := List.append_of_mem hx
        obtain ⟨q', hm⟩ := follows_end hj hw1 hw2 hne h h1 (p := p1)
          (s := p2 ++ .handleEnd q t ok :: s) (q := q) (ok := ok') (by rw [e, e2]; simp)
        exact end_once hp h.runner e q' true (by rw [e2]; simp [hm])
      · exact absurd hxin (doomed_not_ended hj hw1 hw2 hne h h1)
    · rintro ⟨hxt, hxf⟩
      obtain ⟨q', hm⟩ := follows_end hj hw1 hw2 hne h hxf e
      have hq' := isTask_target hp (ended_isTask hj hw1 hw2 h (q := q') (ok := true) (by rw [e]; simp [hm])) hxt
      subst hq'
      exact ⟨mem_endedOn.mpr ⟨true, hm⟩, isTask_config hp hxt⟩
  rw [textAt, hcs, foldl_op, countP_ncard _ hnd, countP_ncard _ hnd, key .rev (Or.inl rfl),
    key .rot13 (Or.inr rfl)]

theorem Spec.Scripted.determined {es : List Str} (hs : Scripted src book es) (ho : Ordered src) :
    Determined src book es :=
  ⟨by
    refine List.Pairwise.imp ?_ hs.order
    rintro a b hab rfl
    exact ho.acyclic a hab, hs.echoes, hs.changes⟩

/-- **C89, any order.** A runbook of demo tasks in which every change of a text comes before or after each `echo` of it:
in every state of every run, what was printed are the lines of the `echo` tasks that have ended, each of them once, a
task that comes after another one after that; and if `Run` returned nil, the lines of all of them. What each of them
prints does not depend on the run. -/
theorem C89_any_order (hj : Json dec) (hw1 : src.targets.WF) (hw2 : src.tasks.WF) (ho : Ordered src)
    (hne : ∀ o, ([], o) ∉ src.tasks)
    (h : Reach dec basedir proc src (.running book st w))
    (hdemo : ∀ q t, (q, t) ∈ book.targets → ∃ d cs, t = .demo d ∧ d.string = utf8 cs)
    {es : List Str} (hs : Determined src book es) {line : Str → Str}
    (hl : ∀ e ∈ es, Prints src book e (line e)) :
    ∃ done : List Str, done.Nodup ∧ (∀ e ∈ done, e ∈ es) ∧ (∀ e ∈ es, e ∈ done ↔ ∃ q ok, .handleEnd q e ok ∈ st.trace) ∧
      (done.Pairwise fun a b => ¬ Follows src a b) ∧ (∀ e ∈ done, ∀ m ∈ es, Follows src e m → m ∈ done) ∧
      w.stdout = done.flatMap line ∧ (st.main = .returned none → done.Perm es) := by
  have hp := parsed hj hw1 hw2 h.parse
  have hmem : ∀ t, t ∈ echoed book st.trace → t ∈ es := by
    intro t ht
    obtain ⟨hc, q, ok, hin⟩ := mem_echoed.mp ht
    rw [hs.echoes]
    exact ⟨⟨q, hc ▸ ended_isTask hj hw1 hw2 h hin⟩, fun hd => doomed_not_ended hj hw1 hw2 hne h hd hin⟩
  have hend : ∀ e ∈ es, e ∈ echoed book st.trace ↔ ∃ q ok, .handleEnd q e ok ∈ st.trace := by
    intro e he
    rw [mem_echoed]
    obtain ⟨⟨q, hq⟩, _⟩ := (hs.echoes e).mp he
    exact ⟨fun h => h.2, fun h => ⟨isTask_config hp hq, h⟩⟩
  have hord : (echoed book st.trace).Pairwise fun a b => ¬ Follows src a b := by
    have : ∀ tr s, st.trace = s ++ tr → (echoed book tr).Pairwise (fun a b => ¬ Follows src a b) := by
      intro tr
      induction tr with
      | nil => intros; exact List.Pairwise.nil
      | cons ev tr ih =>
        intro s he
        have ih := ih (s ++ [ev]) (by rw [he]; simp)
        have hsplit : echoed book (ev :: tr) = echoed book [ev] ++ echoed book tr :=
          echoed_append [ev] tr
        rw [hsplit, List.pairwise_append]
        refine ⟨?_, ih, ?_⟩
        · cases ev with
          | handleEnd q t ok =>
            by_cases hc : configOf book t = .echo <;> simp [echoed, hc]
          | _ => simp [echoed]
        · intro a ha b hb h1
          obtain ⟨hca, qa, oka, hina⟩ := mem_echoed.mp ha
          obtain ⟨hcb, qb, okb, hinb⟩ := mem_echoed.mp hb
          simp only [List.mem_singleton] at hina
          subst hina
          obtain ⟨q', hm⟩ := follows_end hj hw1 hw2 hne h h1 he
          obtain ⟨s1, s2, e2⟩ := List.append_of_mem hinb
          exact end_once hp h.runner (p := s ++ .handleEnd qa a oka :: s1) (s := s2) (q := qb) (ok := okb)
            (t := b) (by rw [he, e2]; simp) q' true (by simp [hm])
    exact this _ [] rfl
  refine ⟨echoed book st.trace, echoed_nodup hp h.runner, hmem, hend, hord, ?_, ?_, ?_⟩
  · intro x hx y hy hR
    obtain ⟨_, q, ok, hin⟩ := mem_echoed.mp hx
    obtain ⟨p, s, e⟩ := List.append_of_mem hin
    obtain ⟨q', hm⟩ := follows_end hj hw1 hw2 hne h hR e
    exact (hend y hy).mpr ⟨q', true, by rw [e]; simp [hm]⟩
  · rw [h.printed hj hw1 hw2 (fun q t hq => by obtain ⟨d, _, e, _⟩ := hdemo q t hq; exact ⟨d, e⟩)]
    refine printed_eq line [] st.trace ?_
    intro p q t ok s e hc
    have hte : t ∈ es := hmem t (mem_echoed.mpr ⟨hc, q, ok, by rw [e]; simp⟩)
    obtain ⟨q', d, cs, h1, h2, h3, h4⟩ := hl t hte
    have hq' := isTask_target hp (ended_isTask hj hw1 hw2 h (q := q) (t := t) (ok := ok) (by rw [e]; simp)) h1
    subst hq'
    rw [h4, List.nil_append, text_seen hj hw1 hw2 hne hs h e hc (cs := cs)
      (by rw [textOf, GoMap.get?_of_mem hp.wfT h2]; exact h3)]
  · intro hret
    refine (List.perm_ext_iff_of_nodup (echoed_nodup hp h.runner) hs.nodup).2 fun e => ⟨hmem e, fun he => ?_⟩
    rw [hend e he]
    obtain ⟨⟨q, task, hk, _⟩, _⟩ := (hs.echoes e).mp he
    have hin : e ∈ (jobs book).keys := by rw [keys_jobs]; exact GoMap.mem_keys_of_mem hk
    obtain ⟨_, q, hq⟩ := Runner.C20_nil_means_all_succeeded_partial hp.wf1 hp.wf2
      (validDeps hw1 hw2 h.parse ho) h.runner hret e hin
    exact ⟨q, true, hq⟩

/-- **C89.** A runbook of demo tasks whose dependencies put the `echo` tasks in the order `es`, and
every change of a text before or after each `echo` of it: in every state of every run, what was
printed are the lines of the first few of `es`, namely of those that have ended; and if `Run` returned
nil, of all of them. -/
theorem C89_output (hj : Json dec) (hw1 : src.targets.WF) (hw2 : src.tasks.WF) (ho : Ordered src)
    (hne : ∀ o, ([], o) ∉ src.tasks)
    (h : Reach dec basedir proc src (.running book st w))
    (hdemo : ∀ q t, (q, t) ∈ book.targets → ∃ d cs, t = .demo d ∧ d.string = utf8 cs)
    {es : List Str} (hs : Scripted src book es) {line : Str → Str}
    (hl : ∀ e ∈ es, Prints src book e (line e)) :
    ∃ done, done <+: es ∧ (∀ e ∈ es, e ∈ done ↔ ∃ q ok, .handleEnd q e ok ∈ st.trace) ∧
      w.stdout = done.flatMap line ∧ (st.main = .returned none → done = es) := by
  obtain ⟨done, hnd, hmem, hend, hord, hdown, hout, hall⟩ :=
    C89_any_order hj hw1 hw2 ho hne h hdemo (hs.determined ho) hl
  have hpre : done <+: es := by
    refine prefix_of_sorted (R := fun a b => Follows src b a) (fun a h => ho.acyclic a h)
      (fun a b c h1 h2 => Relation.TransGen.trans h2 h1) es _ hs.order ?_ hmem hdown
    refine (hord.and hnd).imp_of_mem ?_
    intro a b ha hb ⟨hab, hne'⟩
    obtain ⟨l1, l2, el⟩ := List.append_of_mem (hmem a ha)
    have hbe := hmem b hb
    have ho' := hs.order
    rw [el, List.pairwise_append, List.pairwise_cons] at ho'
    rw [el] at hbe
    rcases List.mem_append.mp hbe with hb' | hb'
    · exact absurd (ho'.2.2 b hb' a (by simp)) hab
    · rcases List.mem_cons.mp hb' with hb' | hb'
      · exact absurd hb'.symm hne'
      · exact ho'.2.1.1 b hb'
  exact ⟨done, hpre, hend, hout, fun hret => hpre.eq_of_length (hall hret).length_eq⟩

/-- **C87, `fail`.** A file with a `fail` task never runs successfully. -/
theorem C87_fail_never_succeeds_partial (hj : Json dec) (hw1 : src.targets.WF) (hw2 : src.tasks.WF)
    (ho : Ordered src) (h : Reach dec basedir proc src (.running book st w)) {q f : Str}
    (hf : IsTask book q .fail f) : st.main ≠ .returned none := by
  intro hret
  have hp := parsed hj hw1 hw2 h.parse
  obtain ⟨task, hk, ht, hc⟩ := hf
  have hin : f ∈ (jobs book).keys := by rw [keys_jobs]; exact GoMap.mem_keys_of_mem hk
  obtain ⟨_, q, hq⟩ := Runner.C20_nil_means_all_succeeded_partial hp.wf1 hp.wf2
    (validDeps hw1 hw2 h.parse ho) h.runner hret f hin
  obtain ⟨task', t0, d, h1, h2, h3, h4⟩ := h.outcome hj hw1 hw2 hq
  rw [GoMap.get?_of_mem hp.wfK hk] at h1
  cases h1
  obtain ⟨tgt, h5, h6⟩ := hp.task f task (GoMap.get?_of_mem hp.wfK hk)
  rw [h2, h3] at h5
  cases h5
  rw [hc] at h4 h6
  cases t0 with
  | pg t => obtain ⟨_, e⟩ := h6; cases e
  | sh t => obtain ⟨_, _, _, e⟩ := h6; cases e
  | demo t => cases h4; rename_i hn; exact hn rfl

/-- **C90.** Every run of a runbook of demo tasks (at least one) ends with `Run` returning; nil if there
is no `fail` task, and otherwise the error of one. -/
theorem C90_demo_runs (hj : Json dec) (hw1 : src.targets.WF) (hw2 : src.tasks.WF) (ho : Ordered src)
    (hne : src.tasks ≠ []) (h : Reach dec basedir proc src (.running book st w))
    (hdemo : ∀ q t, (q, t) ∈ book.targets → ∃ d, t = .demo d)
    (hend : ∀ s', ¬ Act proc book (st, w) s') :
    (st.main = .returned none ∧ ∀ q f, ¬ IsTask book q .fail f) ∨
    (∃ q f, st.main = .returned (some (.task f)) ∧ IsTask book q .fail f) := by
  obtain ⟨r, hr⟩ := C88_run_returns_partial hj hw1 hw2 hne h (by
    intro q id he
    obtain ⟨task, t0, d, h1, h2, h3, h4⟩ := h.outcome hj hw1 hw2 he
    obtain ⟨d, rfl⟩ := hdemo _ _ (GoMap.mem_of_get? h3)
    exact ⟨_, GoMap.mem_of_get? h3, rfl⟩) hend
    (h.noPanics hj hw1 hw2 (by
      intro q t ht
      obtain ⟨_, e⟩ := hdemo _ _ (GoMap.mem_of_get? ht)
      cases e))
  cases r with
  | none =>
    exact Or.inl ⟨hr, fun q f hf => C87_fail_never_succeeds_partial hj hw1 hw2 ho h hf hr⟩
  | some e =>
    rcases C87_failure_has_a_cause hj hw1 hw2 h hr with ⟨q, t, _, hq, _⟩ | ⟨id, task, rfl, hk, hc⟩
    · obtain ⟨_, e⟩ := hdemo _ _ hq
      cases e
    · rcases hc with hc | ⟨c, hc⟩
      · exact Or.inr ⟨_, id, hr, task, hk, rfl, hc⟩
      · exfalso
        rw [h.calls hj hw1 hw2] at hc
        obtain ⟨e, _, he⟩ := List.mem_flatMap.mp hc
        cases e with
        | handleEnd q t ok =>
          have : callsOf proc.environ book q t = [] := by
            unfold callsOf
            cases e : book.targets.get? q with
            | none => rfl
            | some u =>
              obtain ⟨d, rfl⟩ := hdemo q u (GoMap.mem_of_get? e)
              rfl
          simp [callsAt, this] at he
        | _ => cases he

end Verif.Run
