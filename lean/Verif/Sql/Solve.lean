import Verif.Sql.Spec
import Verif.Pg.ListProps

/-!
# Lemmas: the solutions of a query as tuples of catalog entries
-/

namespace Verif.Sql
open Verif Verif.Pg

/-- `sols` are the environments of the tuples with property `Q`, each exactly once. -/
def Solved {X : Type} (sols : List Env) (f : X → Env) (Q : X → Prop) : Prop :=
  ∃ L : List X, L.Nodup ∧ (∀ x, x ∈ L ↔ Q x) ∧ sols = L.map f

theorem Solved.from_ {T : Type} (ts : List T) (row : T → Row) (al : Alias) (h : ts.Nodup) :
    Solved ((ts.map row).map (Env.empty.set al)) (fun t => Env.empty.set al (row t)) (· ∈ ts) :=
  ⟨ts, h, fun _ => Iff.rfl, by simp⟩

theorem filter_rows {T : Type} (ts : List T) (row : T → Row) (al : Alias) (e : Env) (w : Env → Bool)
    (p : T → Bool) (hp : ∀ t, w (e.set al (row t)) = p t) :
    ((ts.map row).map (e.set al)).filter w = (ts.filter p).map (fun t => e.set al (row t)) := by
  have : p = w ∘ (fun t => e.set al (row t)) := by funext t; simp [hp]
  rw [List.map_map, List.filter_map, this]
  rfl

theorem nodup_pairs {X T : Type} {L : List X} {g : X → List T} (hL : L.Nodup) (hg : ∀ x, (g x).Nodup) :
    (L.flatMap fun x => (g x).map (Prod.mk x)).Nodup := by
  rw [List.nodup_flatMap]
  refine ⟨fun x _ => (hg x).map (fun a b h => (Prod.mk.injEq _ _ _ _ ▸ h).2), ?_⟩
  refine hL.imp ?_
  intro a b hab
  simp only [Function.onFun, List.disjoint_left, List.mem_map]
  rintro _ ⟨t, _, rfl⟩ ⟨t', _, h⟩
  exact hab (Prod.mk.inj h).1.symm

theorem Solved.inner {X T : Type} {sols : List Env} {f : X → Env} {Q : X → Prop}
    (h : Solved sols f Q) (db : Db) (ps : List Str) (j : Join) (ts : List T) (row : T → Row)
    (R : X → T → Prop) (hj : j.left = false) (hts : ts.Nodup) (hr : db.rows j.tab = ts.map row)
    (hR : ∀ x t, j.on.holds db ps ((f x).set j.al (row t)) = true ↔ R x t) :
    Solved (sols.flatMap (j.apply db ps)) (fun x : X × T => (f x.1).set j.al (row x.2))
      (fun x => Q x.1 ∧ x.2 ∈ ts ∧ R x.1 x.2) := by
  classical
  obtain ⟨L, hL, hmem, rfl⟩ := h
  refine ⟨L.flatMap (fun x => (ts.filter (fun t => decide (R x t))).map (Prod.mk x)),
    nodup_pairs hL (fun _ => hts.filter _), ?_, ?_⟩
  · rintro ⟨x, t⟩
    simp only [List.mem_flatMap, List.mem_map, List.mem_filter, decide_eq_true_eq, Prod.mk.injEq]
    constructor
    · rintro ⟨x, hx, t, ⟨ht, hR⟩, rfl, rfl⟩; exact ⟨(hmem _).1 hx, ht, hR⟩
    · rintro ⟨hx, ht, hR⟩; exact ⟨x, (hmem _).2 hx, t, ⟨ht, hR⟩, rfl, rfl⟩
  · rw [List.flatMap_map, List.map_flatMap]
    refine List.flatMap_congr fun x _ => ?_
    simp only [Join.apply, hj, Bool.false_and, Bool.false_eq_true, if_false, hr]
    rw [filter_rows ts row j.al (f x) _ (fun t => decide (R x t))]
    · simp [List.map_map, Function.comp_def]
    · intro t
      rw [Bool.eq_iff_iff, hR, decide_eq_true_iff]

/-- The row of an alias of a left join. -/
def optRow {T : Type} (row : T → Row) : Option T → Row
  | none => nullRow
  | some t => row t

theorem Solved.left {X T : Type} {sols : List Env} {f : X → Env} {Q : X → Prop}
    (h : Solved sols f Q) (db : Db) (ps : List Str) (j : Join) (ts : List T) (row : T → Row)
    (R : X → T → Prop) (hj : j.left = true) (hts : ts.Nodup) (hr : db.rows j.tab = ts.map row)
    (hR : ∀ x t, j.on.holds db ps ((f x).set j.al (row t)) = true ↔ R x t) :
    Solved (sols.flatMap (j.apply db ps)) (fun x : X × Option T => (f x.1).set j.al (optRow row x.2))
      (fun x => Q x.1 ∧ match x.2 with
        | some t => t ∈ ts ∧ R x.1 t
        | none => ∀ t ∈ ts, ¬ R x.1 t) := by
  classical
  obtain ⟨L, hL, hmem, rfl⟩ := h
  let g : X → List (Option T) := fun x =>
    let m := ts.filter (fun t => decide (R x t))
    if m = [] then [none] else m.map some
  refine ⟨L.flatMap (fun x => (g x).map (Prod.mk x)), nodup_pairs hL ?_, ?_, ?_⟩
  · intro x
    simp only [g]
    split
    · simp
    · exact (hts.filter _).map (Option.some_injective _)
  · rintro ⟨x, o⟩
    simp only [List.mem_flatMap, List.mem_map, Prod.mk.injEq]
    have hg : o ∈ g x ↔ match o with
        | some t => t ∈ ts ∧ R x t
        | none => ∀ t ∈ ts, ¬ R x t := by
      simp only [g]
      split
      · rename_i hm
        simp only [List.filter_eq_nil_iff, decide_eq_true_eq] at hm
        cases o with
        | none => simpa using hm
        | some t => simp only [List.mem_singleton, reduceCtorEq, false_iff, not_and]; exact hm t
      · rename_i hm
        cases o with
        | none =>
          simp only [List.mem_map, reduceCtorEq, and_false, exists_false, false_iff]
          intro h'
          exact hm (by simpa [List.filter_eq_nil_iff] using h')
        | some t => simp
    constructor
    · rintro ⟨x', hx, o', ho, rfl, rfl⟩; exact ⟨(hmem _).1 hx, hg.1 ho⟩
    · rintro ⟨hx, ho⟩; exact ⟨x, (hmem _).2 hx, o, hg.2 ho, rfl, rfl⟩
  · rw [List.flatMap_map, List.map_flatMap]
    refine List.flatMap_congr fun x _ => ?_
    simp only [Join.apply, hj, Bool.true_and, hr]
    rw [filter_rows ts row j.al (f x) _ (fun t => decide (R x t))]
    · simp only [g]
      by_cases hm : ts.filter (fun t => decide (R x t)) = []
      · simp [hm, optRow]
      · simp [hm, optRow, List.map_map, Function.comp_def, List.isEmpty_iff]
    · intro t
      rw [Bool.eq_iff_iff, hR, decide_eq_true_iff]

theorem Solved.where_ {X : Type} {sols : List Env} {f : X → Env} {Q : X → Prop}
    (h : Solved sols f Q) (w : Env → Bool) (W : X → Prop) (hW : ∀ x, w (f x) = true ↔ W x) :
    Solved (sols.filter w) f (fun x => Q x ∧ W x) := by
  classical
  obtain ⟨L, hL, hmem, rfl⟩ := h
  refine ⟨L.filter (fun x => decide (W x)), hL.filter _, fun x => by simp [hmem], ?_⟩
  rw [List.filter_map]
  congr 1
  refine List.filter_congr fun x _ => ?_
  simp only [Function.comp]
  rw [Bool.eq_iff_iff, hW, decide_eq_true_iff]

theorem Solved.congr {X : Type} {sols : List Env} {f : X → Env} {Q Q' : X → Prop}
    (h : Solved sols f Q) (hQ : ∀ x, Q x ↔ Q' x) : Solved sols f Q' := by
  obtain ⟨L, hL, hmem, he⟩ := h
  exact ⟨L, hL, fun x => (hmem x).trans (hQ x), he⟩

theorem perm_map_inv {X E : Type} {f : X → E} {es : List E} {L : List X} (h : es.Perm (L.map f)) :
    ∃ L' : List X, L'.Perm L ∧ L'.map f = es := by
  generalize hm : L.map f = m at h
  induction h generalizing L with
  | nil => exact ⟨[], by simp_all⟩
  | cons a h ih =>
    cases L with
    | nil => simp at hm
    | cons x L =>
      obtain ⟨rfl, hm'⟩ := List.cons.inj hm
      obtain ⟨L', h1, h2⟩ := ih hm'
      exact ⟨x :: L', h1.cons x, by simp [h2]⟩
  | swap a b l =>
    match L, hm with
    | x :: y :: L, hm =>
      simp only [List.map_cons, List.cons.injEq] at hm
      obtain ⟨rfl, rfl, rfl⟩ := hm
      exact ⟨y :: x :: L, List.Perm.swap _ _ _, rfl⟩
  | trans _ _ ih1 ih2 =>
    obtain ⟨L', h1, rfl⟩ := ih2 hm
    obtain ⟨L'', h3, h4⟩ := ih1 rfl
    exact ⟨L'', h3.trans h1, h4⟩

theorem mapM_some {α β : Type} {l : List α} {f : α → Option β} {g : α → β} (h : ∀ a ∈ l, f a = some (g a)) :
    l.mapM f = some (l.map g) := by
  induction l with
  | nil => rfl
  | cons a l ih =>
    rw [List.mapM_cons, h a (by simp), ih (fun b hb => h b (by simp [hb]))]
    rfl

/-- An answer is one row for each tuple, in an order ORDER BY allows. -/
theorem Solved.answer {X : Type} {s : Select} {db : Db} {ps : List Str} {f : X → Env} {Q : X → Prop}
    (h : Solved (s.solutions db ps) f Q) {vals : X → List Val}
    (hv : ∀ x, Q x → s.items.mapM (Item.eval db ps (f x)) = some (vals x)) (res : List (List Val)) :
    s.Answer db ps res ↔ ∃ L : List X, L.Nodup ∧ (∀ x, x ∈ L ↔ Q x) ∧ res = L.map vals ∧
      L.Pairwise (fun x y => before s.items db ps s.order (f x) (f y) = true) := by
  obtain ⟨L, hL, hmem, he⟩ := h
  have key : ∀ M : List X, (∀ x, x ∈ M ↔ Q x) →
      (M.map f).mapM (fun env => s.items.mapM (Item.eval db ps env)) = some (M.map vals) := by
    intro M hM
    rw [List.mapM_map]
    exact mapM_some fun x hx => hv x ((hM x).1 hx)
  constructor
  · rintro ⟨envs, hp, hs, hm⟩
    rw [he] at hp
    obtain ⟨L', hp', rfl⟩ := perm_map_inv hp
    have hM : ∀ x, x ∈ L' ↔ Q x := fun x => (hp'.mem_iff).trans (hmem x)
    rw [key L' hM] at hm
    refine ⟨L', hp'.nodup_iff.2 hL, hM, (Option.some.inj hm).symm, ?_⟩
    exact List.pairwise_map.1 hs
  · rintro ⟨M, hM, hMQ, rfl, hs⟩
    refine ⟨M.map f, ?_, List.pairwise_map.2 hs, key M hMQ⟩
    rw [he]
    refine List.Perm.map f ?_
    rw [List.perm_ext_iff_of_nodup hM hL]
    intro x
    rw [hMQ, hmem]

/-- What `conn.Query` gives when the connection does not fail. -/
theorem gives_rows {X ρ : Type} {s : Select} {db : Db} {ps : List Str} {f : X → Env} {Q : X → Prop}
    (h : Solved (s.solutions db ps) f Q) {vals : X → List Val}
    (hv : ∀ x, Q x → s.items.mapM (Item.eval db ps (f x)) = some (vals x))
    {read : List Val → Option ρ} {row : X → ρ} (hr : ∀ x, Q x → read (vals x) = some (row x))
    {q : Query ρ} (hg : Gives db s ps read q) (hu : Unbroken q) :
    (∃ n, q = .error (.query n)) ∨ ∃ L : List X, L.Nodup ∧ (∀ x, x ∈ L ↔ Q x) ∧
      (∃ st, q = .ok st ∧ st.rows = L.map row) ∧
      L.Pairwise (fun x y => before s.items db ps s.order (f x) (f y) = true) := by
  cases q with
  | error e => obtain ⟨n, rfl⟩ := hg; exact .inl ⟨n, rfl⟩
  | ok st =>
    obtain ⟨res, rows, ha, hm, hc⟩ := hg
    obtain ⟨L, hL, hmem, rfl, hs⟩ := (h.answer hv res).1 ha
    refine .inr ⟨L, hL, hmem, ⟨st, rfl, ?_⟩, hs⟩
    rw [hc.2 (hu st rfl)]
    rw [List.mapM_map, mapM_some (f := read ∘ vals) (fun x hx => hr x ((hmem x).1 hx))] at hm
    exact (Option.some.inj hm).symm

/-- What `conn.QueryRow` gives. -/
theorem gives_row {X ρ : Type} {s : Select} {db : Db} {ps : List Str} {f : X → Env} {Q : X → Prop}
    (h : Solved (s.solutions db ps) f Q) {vals : X → List Val}
    (hv : ∀ x, Q x → s.items.mapM (Item.eval db ps (f x)) = some (vals x))
    {read : List Val → Option ρ} {row : X → ρ} (hr : ∀ x, Q x → read (vals x) = some (row x))
    {q : QueryRow ρ} (hg : GivesRow db s ps read q) :
    (∃ n, q = .error (.query n)) ∨ (q = .ok none ∧ ∀ x, ¬ Q x) ∨
      ∃ x, Q x ∧ q = .ok (some (row x)) := by
  cases q with
  | error e => obtain ⟨n, rfl⟩ := hg; exact .inl ⟨n, rfl⟩
  | ok o =>
    obtain ⟨res, rows, ha, hm, rfl⟩ := hg
    obtain ⟨L, hL, hmem, rfl, hs⟩ := (h.answer hv res).1 ha
    rw [List.mapM_map, mapM_some (f := read ∘ vals) (fun x hx => hr x ((hmem x).1 hx))] at hm
    obtain rfl := Option.some.inj hm
    cases L with
    | nil => exact .inr (.inl ⟨rfl, fun x hx => by simpa using (hmem x).2 hx⟩)
    | cons x L => exact .inr (.inr ⟨x, (hmem x).1 (by simp), rfl⟩)

/-! ## Keys of the catalogs -/

theorem nodup_of_map {α β : Type} {l : List α} (f : α → β) (h : (l.map f).Nodup) : l.Nodup :=
  List.Nodup.of_map f h

theorem inj_of_nodup {α β : Type} {l : List α} {f : α → β} (h : (l.map f).Nodup) {a b : α} (ha : a ∈ l)
    (hb : b ∈ l) (he : f a = f b) : a = b :=
  List.inj_on_of_nodup_map h ha hb he

theorem find?_eq_of_unique {α : Type} {l : List α} {p : α → Bool} {a : α} (ha : a ∈ l) (hp : p a = true)
    (hu : ∀ b ∈ l, p b = true → b = a) : l.find? p = some a := by
  cases h : l.find? p with
  | none => exact absurd hp (by simpa using List.find?_eq_none.1 h a ha)
  | some b => rw [hu b (List.mem_of_find?_eq_some h) (List.find?_some h)]

theorem relVisibleIn_iff (db : Db) (c : Class) (path : List Nat) :
    db.relVisibleIn c path = true ↔ ∃ pre suf, path = pre ++ c.relnamespace :: suf ∧
      ∀ c' ∈ db.classes, c'.relname = c.relname → c'.relnamespace ∉ pre := by
  induction path with
  | nil => simp [Db.relVisibleIn]
  | cons ns rest ih =>
    rw [Db.relVisibleIn]
    by_cases h : ns = c.relnamespace
    · simp only [h, if_true, true_iff]
      exact ⟨[], rest, rfl, by simp⟩
    · simp only [h, if_false]
      split
      · rename_i ha
        simp only [List.any_eq_true, decide_eq_true_eq] at ha
        obtain ⟨c', hc', hn, hs⟩ := ha
        simp only [Bool.false_eq_true, false_iff]
        rintro ⟨pre, suf, he, hno⟩
        cases pre with
        | nil => exact h (List.cons.inj he).1
        | cons p pre =>
          obtain ⟨rfl, -⟩ := List.cons.inj he
          exact hno c' hc' hn (by simp [hs])
      · rename_i ha
        simp only [List.any_eq_true, decide_eq_true_eq, not_exists, not_and] at ha
        rw [ih]
        constructor
        · rintro ⟨pre, suf, rfl, hno⟩
          refine ⟨ns :: pre, suf, rfl, fun c' hc' hn => ?_⟩
          simp only [List.mem_cons, not_or]
          exact ⟨fun e => ha c' hc' hn e, hno c' hc' hn⟩
        · rintro ⟨pre, suf, he, hno⟩
          cases pre with
          | nil => exact absurd (List.cons.inj he).1 h
          | cons p pre =>
            obtain ⟨rfl, he'⟩ := List.cons.inj he
            exact ⟨pre, suf, he', fun c' hc' hn hm => hno c' hc' hn (by simp [hm])⟩

theorem procVisibleIn_iff (db : Db) (p : Proc) (path : List Nat) :
    db.procVisibleIn p path = true ↔ ∃ pre suf, path = pre ++ p.pronamespace :: suf ∧
      ∀ p' ∈ db.procs, p'.proname = p.proname → p'.proargtypes = p.proargtypes →
        p'.pronamespace ∉ pre := by
  induction path with
  | nil => simp [Db.procVisibleIn]
  | cons ns rest ih =>
    rw [Db.procVisibleIn]
    by_cases h : ns = p.pronamespace
    · simp only [h, if_true, true_iff]
      exact ⟨[], rest, rfl, by simp⟩
    · simp only [h, if_false]
      split
      · rename_i ha
        simp only [List.any_eq_true, decide_eq_true_eq] at ha
        obtain ⟨c', hc', hn, hn', hs⟩ := ha
        simp only [Bool.false_eq_true, false_iff]
        rintro ⟨pre, suf, he, hno⟩
        cases pre with
        | nil => exact h (List.cons.inj he).1
        | cons p pre =>
          obtain ⟨rfl, -⟩ := List.cons.inj he
          exact hno c' hc' hn hn' (by simp [hs])
      · rename_i ha
        simp only [List.any_eq_true, decide_eq_true_eq, not_exists, not_and] at ha
        rw [ih]
        constructor
        · rintro ⟨pre, suf, rfl, hno⟩
          refine ⟨ns :: pre, suf, rfl, fun c' hc' hn hn' => ?_⟩
          simp only [List.mem_cons, not_or]
          exact ⟨fun e => ha c' hc' hn hn' e, hno c' hc' hn hn'⟩
        · rintro ⟨pre, suf, he, hno⟩
          cases pre with
          | nil => exact absurd (List.cons.inj he).1 h
          | cons p pre =>
            obtain ⟨rfl, he'⟩ := List.cons.inj he
            exact ⟨pre, suf, he', fun c' hc' hn hn' hm => hno c' hc' hn hn' (by simp [hm])⟩

theorem tableIsVisible_iff {db : Db} (hw : db.WF) {c : Class} (hc : c ∈ db.classes) :
    db.tableIsVisible c.oid = some true ↔ Visible db c := by
  have : db.classes.find? (fun c' => decide ((c'.oid : Int) = c.oid)) = some c := by
    refine find?_eq_of_unique hc (by simp) fun b hb h => ?_
    exact inj_of_nodup hw.classes hb hc (by have := of_decide_eq_true h; omega)
  rw [Db.tableIsVisible, this, Option.map_some, Option.some.injEq, relVisibleIn_iff]
  rfl

theorem functionIsVisible_iff {db : Db} (hw : db.WF) {p : Proc} (hp : p ∈ db.procs) :
    db.functionIsVisible p.oid = some true ↔ FnVisible db p := by
  have : db.procs.find? (fun p' => decide ((p'.oid : Int) = p.oid)) = some p := by
    refine find?_eq_of_unique hp (by simp) fun b hb h => ?_
    exact inj_of_nodup hw.procs hb hp (by have := of_decide_eq_true h; omega)
  rw [Db.functionIsVisible, this, Option.map_some, Option.some.injEq, procVisibleIn_iff]
  rfl

theorem commentIs (db : Db) (classoid objoid : Nat) (sub : Int) :
    CommentIs db classoid objoid sub (string (db.comment classoid objoid sub)) := by
  unfold Db.comment
  cases h : db.descriptions.find? (fun d => decide (d.objoid = objoid ∧ d.classoid = classoid ∧
    d.objsubid = sub)) with
  | none =>
    refine .inr ⟨?_, rfl⟩
    rintro ⟨d, hd, h1, h2, h3⟩
    have := List.find?_eq_none.1 h d hd
    simp_all
  | some d =>
    refine .inl ⟨d, List.mem_of_find?_eq_some h, ?_⟩
    have := List.find?_some h
    simp_all [string]

theorem commentIs_iff {db : Db} (hw : db.WF) {classoid objoid : Nat} {sub : Int} {s : Str} :
    CommentIs db classoid objoid sub s ↔ s = string (db.comment classoid objoid sub) := by
  constructor
  · have h1 := commentIs db classoid objoid sub
    intro h
    rcases h with ⟨d, hd, a, b, c, rfl⟩ | ⟨hn, rfl⟩
    · rcases h1 with ⟨d', hd', a', b', c', h'⟩ | ⟨hn, _⟩
      · rw [← h', inj_of_nodup hw.descriptions hd hd' (by simp [a, b, c, a', b', c'])]
      · exact absurd ⟨d, hd, a, b, c⟩ hn
    · rcases h1 with ⟨d', hd', a', b', c', h'⟩ | ⟨_, h⟩
      · exact absurd ⟨d', hd', a', b', c'⟩ hn
      · exact h.symm
  · rintro rfl; exact commentIs db _ _ _

end Verif.Sql
