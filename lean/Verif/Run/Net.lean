import Verif.Run.Lemmas

/-!
# Lemmas: what goes over the network in a run
-/

namespace Verif.Run
open Verif Book Spec

variable {dec : Decoder} {basedir : Str} {proc : Proc} {src : Src} {book : Runbook}
  {st st' : Runner.St} {w w' : World}

/-- A loop that ends with an error ends with a failed attempt. -/
theorem loop_err (ok : Nat → Bool) (cfg : Pg.ConnConfig) (R : Int) (retries delay : Nat)
    (conn : Option Nat) {e : Pg.ConnErr} (h : (Pg.connectLoop ok cfg R retries delay conn).2 = .err e) :
    ∃ pre, (Pg.connectLoop ok cfg R retries delay conn).1 = pre ++ [.connect cfg false] := by
  fun_induction Pg.connectLoop ok cfg R retries delay conn with
  | case1 retries delay conn _ hok r ih =>
    obtain ⟨pre, hp⟩ := ih h
    exact ⟨_ :: pre, by simp only [hp, r]; rfl⟩
  | case2 retries delay conn _ hok h2 r ih =>
    obtain ⟨pre, hp⟩ := ih h
    exact ⟨_ :: _ :: pre, by simp only [hp, r]; rfl⟩
  | case3 => exact ⟨[], rfl⟩
  | case4 retries delay conn hn =>
    revert h
    cases conn <;> simp

/-- A loop that ends with a connection ends with a successful attempt. -/
theorem loop_conn (ok : Nat → Bool) (cfg : Pg.ConnConfig) (R : Int) (retries delay : Nat)
    (conn : Option Nat) {i : Nat} (h : (Pg.connectLoop ok cfg R retries delay conn).2 = .conn i) :
    (∃ pre, (Pg.connectLoop ok cfg R retries delay conn).1 = pre ++ [.connect cfg true]) ∨
    ((Pg.connectLoop ok cfg R retries delay conn).1 = [] ∧ conn = some i) := by
  fun_induction Pg.connectLoop ok cfg R retries delay conn with
  | case1 retries delay conn _ hok r ih =>
    rcases ih h with ⟨pre, hp⟩ | ⟨hp, _⟩
    · exact Or.inl ⟨_ :: pre, by simp only [hp, r]; rfl⟩
    · exact Or.inl ⟨[], by simp only [hp, r]; rfl⟩
  | case2 retries delay conn _ hok h2 r ih =>
    rcases ih h with ⟨pre, hp⟩ | ⟨_, hc⟩
    · exact Or.inl ⟨_ :: _ :: pre, by simp only [hp, r]; rfl⟩
    · cases hc
  | case3 => cases h
  | case4 retries delay conn hn =>
    refine Or.inr ⟨rfl, ?_⟩
    revert h
    cases conn <;> simp

theorem new_err {libpq : Except Unit Pg.ConnConfig} {ok : Nat → Bool} {t : PgTarget} {e : Pg.ConnErr}
    (h : (Pg.new libpq ok (options t)).2 = .err e) (hl : proc.libpq = libpq) :
    ConnectFails proc t (Pg.new libpq ok (options t)).1 := by
  cases libpq with
  | error u => exact .environ hl
  | ok env =>
    simp only [Pg.new] at h ⊢
    cases hc : Pg.configure env (options t) with
    | ok cfg =>
      rw [hc] at h
      obtain ⟨pre, hp⟩ := loop_err _ _ _ _ _ _ h
      simp only [hp]
      exact .refused
    | error e' =>
      have hm : t.sslmode ≠ [] ∧ t.sslmode ∉ Pg.sslModes := by
        unfold Pg.configure at hc
        simp only [options] at hc
        by_cases h0 : t.sslmode = []
        · exfalso
          by_cases hp : Pg.firstOfString t.password env.password = []
          · simp [h0, hp] at hc
          · simp [h0, hp, Pg.applySSLMode] at hc
        · refine ⟨h0, ?_⟩
          intro hmem
          simp only [Pg.sslModes, List.mem_cons, List.not_mem_nil, or_false] at hmem
          rcases hmem with hm | hm | hm | hm | hm <;> simp [hm, Pg.applySSLMode] at hc
      exact .sslmode hm.1 hm.2

theorem new_conn {libpq : Except Unit Pg.ConnConfig} {ok : Nat → Bool} {o : Pg.Options} {i : Nat}
    (h : (Pg.new libpq ok o).2 = .conn i) :
    ∃ pre cfg, (Pg.new libpq ok o).1 = pre ++ [.connect cfg true] := by
  cases libpq with
  | error u => cases h
  | ok env =>
    simp only [Pg.new] at h ⊢
    cases hc : Pg.configure env o with
    | error e' => rw [hc] at h; cases h
    | ok cfg =>
      rw [hc] at h
      rcases loop_conn _ _ _ _ _ _ h with ⟨pre, hp⟩ | ⟨_, h0⟩
      · exact ⟨pre, cfg, by simp only [hp]⟩
      · cases h0

theorem netOf_append (l : List (Str × Pg.Event)) (net : List Pg.Event) (q q' : Str) :
    netOf (l ++ net.map fun e => (q', e)) q = netOf l q ++ if q' = q then net else [] := by
  unfold netOf
  rw [List.filter_append, List.map_append]
  congr 1
  by_cases e : q' = q
  · simp [e, List.filter_map, Function.comp_def]
  · simp [e, List.filter_map, Function.comp_def]

/-- The invariant of the network. -/
structure NInv (proc : Proc) (book : Runbook) (st : Runner.St) (w : World) : Prop where
  before : ∀ q, st.tgt q = .notStarted → .startFailed q ∉ st.trace → netOf w.net q = []
  started : ∀ q t, book.targets.get? q = some (.pg t) → st.tgt q ≠ .notStarted →
    ∃ ok, netOf w.net q = (Pg.new proc.libpq ok (options t)).1 ∧
      ((∃ i, (Pg.new proc.libpq ok (options t)).2 = .conn i) ∧ w.conns.get? q = some true ∨
        (Pg.new proc.libpq ok (options t)).2 = .nilConn ∧ w.conns.get? q = some false)
  failed : ∀ q, .startFailed q ∈ st.trace → ∃ t ok e, book.targets.get? q = some (.pg t) ∧
    st.tgt q = .notStarted ∧ netOf w.net q = (Pg.new proc.libpq ok (options t)).1 ∧
      (Pg.new proc.libpq ok (options t)).2 = .err e
  other : ∀ q, (∀ t, book.targets.get? q ≠ some (.pg t)) → netOf w.net q = []
  closed : ∀ q, (st.tgt q = .stopped ∧ (∃ t, book.targets.get? q = some (.pg t)) → w.closed.count q = 1) ∧
    (¬ (st.tgt q = .stopped ∧ ∃ t, book.targets.get? q = some (.pg t)) → w.closed.count q = 0)

/-- Nothing changes for the network. -/
theorem NInv.keep (hi : NInv proc book st w) (h1 : w'.net = w.net) (h2 : w'.conns = w.conns)
    (h3 : w'.closed = w.closed) (h4 : ∀ q, st'.tgt q = .notStarted ↔ st.tgt q = .notStarted)
    (h5 : ∀ q, st'.tgt q = .stopped ↔ st.tgt q = .stopped)
    (h6 : ∀ q, .startFailed q ∈ st'.trace ↔ .startFailed q ∈ st.trace) : NInv proc book st' w' := by
  constructor
  · intro q ha hb
    rw [h1]; exact hi.before q ((h4 q).mp ha) (fun x => hb ((h6 q).mpr x))
  · intro q t ht hn
    rw [h1, h2]; exact hi.started q t ht (fun x => hn ((h4 q).mpr x))
  · intro q hq
    rw [h1]
    obtain ⟨t, ok, e, a, b, c⟩ := hi.failed q ((h6 q).mp hq)
    exact ⟨t, ok, e, a, (h4 q).mpr b, c⟩
  · rw [h1]; exact hi.other
  · intro q
    rw [h3, h5 q]; exact hi.closed q

theorem ninv_act (hp : Parsed basedir book) (h : Runner.Reach (limits book) (jobs book) st)
    (hw : WInv proc book st w) (hi : NInv proc book st w) (ha : Act proc book (st, w) (st', w')) :
    NInv proc book st' w' := by
  have wf1 : (limits book).WF := by unfold GoMap.WF; rw [keys_limits]; exact hp.wfT
  have wf2 : (jobs book).WF := by unfold GoMap.WF; rw [keys_jobs]; exact hp.wfK
  have hctl := (h.inv wf1 wf2).1
  have nofail : ∀ q rest, st.main = .starting (q :: rest) → ∀ q', .startFailed q' ∉ st.trace := by
    intro q rest hm q' hq'
    rcases (hctl.startErr q').mp hq' with e | e <;> rw [hm] at e <;> cases e
  cases ha with
  | started q rest tgt tgt' conn net ok hm hq hs =>
    have hn := hctl.next_notStarted q rest hm
    obtain ⟨t, ht, hnow⟩ := hw.get hq
    have hb := hi.before q hn (nofail q rest hm q)
    have key : ∀ q', q' ≠ q → netOf (w.net ++ net.map fun e => (q, e)) q' = netOf w.net q' := by
      intro q' e; rw [netOf_append, if_neg (Ne.symm e), List.append_nil]
    have key2 : netOf (w.net ++ net.map fun e => (q, e)) q = net := by
      rw [netOf_append, if_pos rfl, hb]; rfl
    constructor
    · intro q' h1 h2
      by_cases e : q' = q
      · subst e; simp at h1
      · rw [key q' e]
        exact hi.before q' (by simpa [Function.update_of_ne e] using h1) (nofail q rest hm q')
    · intro q' t' ht' hn'
      by_cases e : q' = q
      · subst e
        rw [ht] at ht'
        cases ht'
        have hu : tgt = .pg t' := hnow
        subst hu
        simp only [start, Prod.mk.injEq] at hs
        obtain ⟨rfl, hs⟩ := hs
        refine ⟨ok, key2, ?_⟩
        split at hs
        · rename_i i e
          cases hs
          exact Or.inl ⟨⟨i, e⟩, by simp [World.connect, GoMap.get?_set]⟩
        · rename_i e
          cases hs
          exact Or.inr ⟨e, by simp [World.connect, GoMap.get?_set]⟩
        · cases hs
      · obtain ⟨ok', a, b⟩ := hi.started q' t' ht' (by simpa [Function.update_of_ne e] using hn')
        refine ⟨ok', (key q' e).trans a, ?_⟩
        cases conn with
        | none => exact b
        | some c => simpa [World.connect, GoMap.get?_set, Ne.symm e] using b
    · intro q' hq'
      exact absurd (by simpa using hq') (nofail q rest hm q')
    · intro q' hno
      by_cases e : q' = q
      · subst e
        simp only
        rw [key2]
        cases t with
        | pg t => exact absurd ht (hno t)
        | sh s =>
          have hu : tgt = .sh (if st.tgt q' = .notStarted then s else s.start proc.environ) := hnow
          subst hu
          exact (congrArg Prod.fst hs).symm
        | demo d =>
          obtain ⟨d', rfl, _⟩ := hnow
          exact (congrArg Prod.fst hs).symm
      · exact (key q' e).trans (hi.other q' hno)
    · intro q'
      have : Function.update st.tgt q .idle q' = .stopped ↔ st.tgt q' = .stopped := by
        by_cases e : q' = q
        · subst e; simp [hn]
        · simp [Function.update_of_ne e]
      simp only
      rw [this]
      exact hi.closed q'
  | startFailed q rest tgt net ok hm hq hs =>
    have hn := hctl.next_notStarted q rest hm
    obtain ⟨t, ht, hnow⟩ := hw.get hq
    have hb := hi.before q hn (nofail q rest hm q)
    have key : ∀ q', q' ≠ q → netOf (w.net ++ net.map fun e => (q, e)) q' = netOf w.net q' := by
      intro q' e; rw [netOf_append, if_neg (Ne.symm e), List.append_nil]
    have key2 : netOf (w.net ++ net.map fun e => (q, e)) q = net := by
      rw [netOf_append, if_pos rfl, hb]; rfl
    have hpg : ∃ p, t = .pg p ∧ net = (Pg.new proc.libpq ok (options p)).1 ∧
        ∃ e, (Pg.new proc.libpq ok (options p)).2 = .err e := by
      cases t with
      | pg p =>
        have hu : tgt = .pg p := hnow
        subst hu
        simp only [start, Prod.mk.injEq] at hs
        obtain ⟨rfl, hs⟩ := hs
        refine ⟨p, rfl, rfl, ?_⟩
        split at hs
        · cases hs
        · cases hs
        · rename_i e he; exact ⟨e, he⟩
      | sh s =>
        have hu : tgt = .sh (if st.tgt q = .notStarted then s else s.start proc.environ) := hnow
        subst hu
        simp [start] at hs
      | demo d =>
        obtain ⟨d', rfl, _⟩ := hnow
        simp [start] at hs
    obtain ⟨p, rfl, hnet, e, he⟩ := hpg
    constructor
    · intro q' h1 h2
      have e' : q' ≠ q := by rintro rfl; simp at h2
      exact (key q' e').trans (hi.before q' h1 (nofail q rest hm q'))
    · intro q' t' ht' hn'
      have e' : q' ≠ q := by rintro rfl; exact hn' hn
      obtain ⟨ok', a, b⟩ := hi.started q' t' ht' hn'
      exact ⟨ok', (key q' e').trans a, b⟩
    · intro q' hq'
      have e' : q' = q := by
        rcases List.mem_append.mp hq' with h' | h'
        · exact absurd h' (nofail q rest hm q')
        · simpa using h'
      subst e'
      exact ⟨p, ok, e, ht, hn, by rw [key2, hnet], he⟩
    · intro q' hno
      have e' : q' ≠ q := by rintro rfl; exact hno p ht
      exact (key q' e').trans (hi.other q' hno)
    · exact hi.closed
  | stopped q tgt closes hr hq hs =>
    obtain ⟨t, ht, hnow⟩ := hw.get hq
    have hcl : closes = true ↔ ∃ p, t = .pg p := by
      cases t with
      | pg p =>
        have hu : tgt = .pg p := hnow
        subst hu
        simp only [stop] at hs
        split at hs <;> cases hs
        simp
      | sh s =>
        have hu : tgt = .sh (if st.tgt q = .notStarted then s else s.start proc.environ) := hnow
        subst hu
        cases hs; simp
      | demo d =>
        obtain ⟨d', rfl, _⟩ := hnow
        cases hs; simp
    have k : ∀ q', Function.update st.tgt q .stopped q' = .notStarted ↔ st.tgt q' = .notStarted := by
      intro q'
      by_cases e : q' = q
      · subst e; simp [hr]
      · simp [Function.update_of_ne e]
    constructor
    · intro q' h1 h2; exact hi.before q' ((k q').mp h1) (by simpa using h2)
    · intro q' t' ht' hn'; exact hi.started q' t' ht' (fun x => hn' ((k q').mpr x))
    · intro q' hq'
      obtain ⟨t', ok, e, a, b, c⟩ := hi.failed q' (by simpa using hq')
      exact ⟨t', ok, e, a, (k q').mpr b, c⟩
    · exact hi.other
    · intro q'
      simp only
      rw [List.count_append]
      by_cases e : q' = q
      · subst e
        have h0 := (hi.closed q').2 (by rw [hr]; simp)
        rw [h0]
        by_cases hp' : ∃ p, t = .pg p
        · obtain ⟨p, rfl⟩ := hp'
          simp [ht, hcl.mpr ⟨p, rfl⟩]
        · have hc : closes = false := by
            cases closes
            · rfl
            · exact absurd (hcl.mp rfl) hp'
          have : ∀ t', book.targets.get? q' ≠ some (.pg t') := by
            intro t' h'; rw [ht] at h'; cases h'; exact hp' ⟨_, rfl⟩
          simp [hc, this]
      · have : (if closes = true then [q] else []).count q' = 0 := by
          cases closes <;> simp [Ne.symm e]
        rw [Function.update_of_ne e, this]
        exact hi.closed q'
  | handled q t task tgt tgt' ok out calls ext hr ht hq hh =>
    refine hi.keep rfl rfl rfl (fun q' => ?_) (fun q' => ?_) (fun q' => by simp)
    · by_cases e : q' = q
      · subst e; simp [hr]
      · simp [Function.update_of_ne e]
    · by_cases e : q' = q
      · subst e; simp [hr]
      · simp [Function.update_of_ne e]
  | other hs h1 h2 h3 h4 =>
    refine hi.keep rfl rfl rfl (fun q => ?_) (fun q => ?_) (fun q => ?_)
    · cases hs with
      | targetStart q' rest hm => exact absurd rfl (h1 q')
      | _ => simp [Function.update_apply] <;> grind
    · cases hs with
      | targetStart q' rest hm => exact absurd rfl (h1 q')
      | targetStop q' hm => exact absurd rfl (h4 q')
      | _ => simp [Function.update_apply] <;> grind
    · rcases Runner.step_trace hs with e | ⟨ev, e⟩
      · rw [e]
      · rw [e]
        cases ev with
        | startFailed q' => exact absurd e (h2 q')
        | _ => simp

theorem Reach.ninv (hj : Json dec) (hw1 : src.targets.WF) (hw2 : src.tasks.WF)
    (h : Reach dec basedir proc src (.running book st w)) : NInv proc book st w := by
  generalize hp : Prog.running book st w = p at h
  induction h generalizing st w with
  | rejected h => cases hp
  | parsePanic h => cases hp
  | makePanic h => cases hp
  | start h hm order ho =>
    cases hp
    constructor <;> simp [Runner.init, netOf]
  | @act book st0 st1 w0 w1 h ha ih =>
    cases hp
    exact ninv_act (parsed hj hw1 hw2 h.parse) h.runner (h.inv hj hw1 hw2) (ih rfl) ha
  | panic => cases hp

end Verif.Run
