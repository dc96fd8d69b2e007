import Verif.Sql.InspectProps
import Verif.Pg.MomentProps

/-!
# C127: an inspection describes the database as it was at one moment
-/

namespace Verif.Sql
open Verif Verif.Pg

/-- `shop` after `DROP TABLE users`. -/
def dropped : Db :=
  { shop with
    classes := [⟨2224, b!"pg_sequence", 11, 10, b!"r", none⟩, ⟨103, b!"tickets", 2200, 20, b!"S", none⟩,
      ⟨200, b!"log", 3000, 20, b!"r", none⟩, ⟨201, b!"accounts", 2200, 20, b!"r", none⟩]
    attributes := [⟨200, b!"line", 25, -1, 1, false, false, false⟩]
    attrdefs := []
    triggers := []
    constraints := []
    indexes := []
    sequences := [⟨103, 20, 5, 1, 1000, 1, 1, false⟩]
    depends := []
    descriptions := [⟨2200, 2615, 0, b!"standard"⟩] }

theorem dropped_wf : dropped.WF where
  namespaces := by decide
  nspname := by decide
  classes := by decide
  relname := by decide
  relnamespace := by decide
  attributes := by decide
  attrelid := by decide
  reloptions := by
    intro c hc l hl
    simp only [dropped, List.mem_cons, List.not_mem_nil, or_false] at hc
    rcases hc with rfl | rfl | rfl | rfl <;> cases hl
  attrdefs := by decide
  procs := by decide
  proname := by decide
  pronamespace := by decide
  languages := by decide
  prolang := by decide
  triggers := by decide
  tgname := by decide
  constraints := by decide
  confrelid := by decide
  indexes := by decide
  indexrelid := by decide
  sequences := by decide
  seqrelid := by decide
  depends := by decide
  owner := by
    intro c _ _ d hd
    simp [dropped] at hd
  descriptions := by decide

/-- The first seven statements of an inspection meet `shop`; the table is dropped before the eighth. -/
def dropping (n : Nat) : Catalog := if n < 7 then serve shop else serve dropped

set_option synthInstance.maxSize 1000 in
set_option synthInstance.maxHeartbeats 200000 in
theorem inspect_dropping : ∃ d, ((Session.inspect (F := Unit) (fun _ => ((), none))
      (fun _ less l => insertionSort less l) {}).run (Session.during dropping) 0).2.2 = .ok d ∧
    d.tables.map (fun x => (x.table.name, x.table.columns.map (·.name))) =
      [(b!"accounts", []), (b!"users", [])] := by
  have h : ((Session.inspect (F := Unit) (fun _ => ((), none))
      (fun _ less l => insertionSort less l) {}).run (Session.during dropping) 0).2.2.toOption.map
        (fun d => d.tables.map (fun x => (x.table.name, x.table.columns.map (·.name)))) =
      some [(b!"accounts", []), (b!"users", [])] := by decide +kernel
  cases hi : ((Session.inspect (F := Unit) (fun _ => ((), none))
      (fun _ less l => insertionSort less l) {}).run (Session.during dropping) 0).2.2 with
  | error e => rw [hi] at h; cases h
  | ok d =>
    rw [hi] at h
    exact ⟨d, rfl, Option.some.inj h⟩

/-- C127 is false: a table may be dropped while `InspectDatabase` runs. It then yields a description of
the table without its columns, which is right neither before nor after. -/
theorem C127_refuted : ∃ (before after : Db) (moments : Nat → Catalog) (d : Database Unit),
    before.WF ∧ after.WF ∧ (∃ k, ∀ n, moments n = if n < k then serve before else serve after) ∧
    ((Session.inspect (fun _ => ((), none)) (fun _ less l => insertionSort less l) {}).run
      (Session.during moments) 0).2.2 = .ok d ∧
    ¬ DatabaseInspected (fun _ => ((), none)) before {} d ∧
    ¬ DatabaseInspected (fun _ => ((), none)) after {} d := by
  obtain ⟨d, h, hd⟩ := inspect_dropping
  have hx : ∃ x ∈ d.tables, x.table.name = b!"users" ∧ x.table.columns = [] := by
    have : (b!"users", []) ∈ d.tables.map (fun x => (x.table.name, x.table.columns.map (·.name))) := by
      rw [hd]; simp
    obtain ⟨x, hx, he⟩ := List.mem_map.1 this
    simp only [Prod.mk.injEq, List.map_eq_nil_iff] at he
    exact ⟨x, hx, he⟩
  obtain ⟨x, hx, hn, hc⟩ := hx
  refine ⟨shop, dropped, dropping, d, shop_wf, dropped_wf, ⟨7, fun _ => rfl⟩, h, fun hs => ?_,
    fun hs => ?_⟩
  · obtain ⟨l, -, l2, -, l4⟩ := hs.tables
    obtain ⟨t, ht, hi⟩ := forall₂_mem_right l4 hx
    have htc : t ∈ shop.classes := ((l2 t).1 ht).1.1
    have hu : t = ⟨100, b!"users", 2200, 20, b!"r", some [b!"fillfactor=70"]⟩ := by
      have : ∀ c ∈ shop.classes, c.relname = b!"users" →
          c = ⟨100, b!"users", 2200, 20, b!"r", some [b!"fillfactor=70"]⟩ := by decide
      exact this t htc (hi.name.symm.trans hn)
    obtain ⟨m, -, m2, -, m4⟩ := hi.columns
    rw [hc] at m4
    cases m4
    have : (⟨100, b!"id", 23, -1, 1, true, true, false⟩ : Attribute) ∈ ([] : List Attribute) := by
      rw [m2]
      refine ⟨by decide, by decide, rfl, t, ?_, by rw [hu]⟩
      exact ⟨htc, rfl, hi.schema⟩
    cases this
  · obtain ⟨l, -, l2, -, l4⟩ := hs.tables
    obtain ⟨t, ht, hi⟩ := forall₂_mem_right l4 hx
    have htc : t ∈ dropped.classes := ((l2 t).1 ht).1.1
    have : ∀ c ∈ dropped.classes, c.relname ≠ b!"users" := by decide
    exact this t htc (hi.name.symm.trans hn)

/-- The hypotheses of `C127_parts_partial` and the conclusion of `C126_asked` in this case. -/
example : (Session.statements ((Session.inspect (F := Unit) (fun _ => ((), none))
      (fun _ less l => insertionSort less l) {}).run (Session.during dropping) 0).1) =
    [.searchPath, .timezone, .schemas, .functions, .hasView, .sequences, .tables,
     .columns b!"public" b!"accounts", .checks b!"public" b!"accounts",
     .foreignKeys b!"public" b!"accounts", .storage b!"public" b!"accounts",
     .indexes b!"public" b!"accounts", .triggers b!"public" b!"accounts",
     .columns b!"public" b!"users", .checks b!"public" b!"users",
     .foreignKeys b!"public" b!"users", .storage b!"public" b!"users",
     .indexes b!"public" b!"users", .triggers b!"public" b!"users"] := by decide +kernel

end Verif.Sql
