import Verif.Main.Inspect

/-!
# Non-vacuity of C95: an inspection of the database `shop`
-/

namespace Verif.Main
open Verif Cmd Spec Sql

/-- A server with the database `shop`, which takes the first connection. -/
def shopEnv : Env Int Int where
  libpq := .ok { user := b!"shop" }
  accepts _ := true
  serve _ := serve shop
  version _ := .ok b!"PostgreSQL 11.4"
  parseFloat _ := (0, none)
  sort _ less l := Pg.insertionSort less l
  hcl := Hcl.plain id
  isPrint := Hcl.asciiPrint
  showN := Hcl.showInt
  os := { openFails := fun _ => false, write := fun t => (t, false) }
  libs := { parse := fun _ _ => .error (), eval := fun _ _ _ => .error (), graph := fun _ _ => [] }
  terminal _ := false
  deps := none

theorem shop_inspects : ∃ d, Pg.inspect shopEnv.parseFloat shopEnv.sort (shopEnv.serve 0)
    { sortColumns := true } = .ok d := by
  have h : (Pg.inspect shopEnv.parseFloat shopEnv.sort (shopEnv.serve 0)
    { sortColumns := true }).toOption.isSome = true := by decide +kernel
  cases hi : Pg.inspect shopEnv.parseFloat shopEnv.sort (shopEnv.serve 0) { sortColumns := true } with
  | error e => rw [hi] at h; cases h
  | ok d => exact ⟨d, rfl⟩

theorem shop_exits (w : World) (message : Str) :
    (main shopEnv message (some (.inspect
      { server := { host := b!"db", sslMode := b!"require" }, output := b!"shop.hcl",
        sort := { sortColumns := true } })) w).2 = 0 := by
  obtain ⟨d, hd⟩ := shop_inspects
  have hn : Pg.new shopEnv.libpq shopEnv.accepts
      (Server.options { host := b!"db", sslMode := b!"require" }) =
      ([.connect { user := b!"shop", host := b!"db", tls := some { insecureSkipVerify := true } } true],
        .conn 0) := by decide +kernel
  simp only [main, Command.run, InspectCmd.run, withConn, hn, hd, finish, runInspect, openOutput, openTrunc]
  simp [shopEnv, write, End.ofExit]

/-- The hypotheses of C95 are met. -/
example : Pg.SortSlice shopEnv.sort ∧ shopEnv.hcl.Sound ∧
    (∀ s, Utf8.Valid s → Utf8.Valid (shopEnv.hcl.nfc s)) ∧ shopEnv.isPrint 0x7B = true ∧
    Hcl.Read.Numerals shopEnv.showN Hcl.readInt ∧
    Honest shopEnv.os ∧ shop.WF ∧ Bigints shop ∧ (∀ i, Serves shop (shopEnv.serve i)) ∧
    (∀ i, Steady (shopEnv.serve i)) :=
  ⟨Pg.insertionSort_contract, Hcl.plain_sound id, fun _ h => h, rfl, Hcl.int_numerals, fun _ _ => rfl, shop_wf,
    by unfold Bigints Hcl.Int64; decide, fun _ => serve_serves shop, fun _ => serve_steady shop⟩

section
variable {p : Str → Prop} [DecidablePred p]
open Hcl

instance (a : Pg.Parameters) : Decidable (parametersTexts p a) := by unfold parametersTexts; infer_instance
instance (a : Pg.Schema) : Decidable (schemaTexts p a) := by unfold schemaTexts; infer_instance
instance (a : Ddl.Function) : Decidable (functionTexts p a) := by unfold functionTexts; infer_instance
instance (a : Pg.SequenceOwner) : Decidable (sequenceOwnerTexts p a) := by unfold sequenceOwnerTexts; infer_instance
instance (a : Pg.Sequence) : Decidable (sequenceTexts p a) := by unfold sequenceTexts; infer_instance
instance (a : Ddl.Column) : Decidable (columnTexts p a) := by unfold columnTexts; infer_instance
instance (a : Ddl.Check) : Decidable (checkTexts p a) := by unfold checkTexts; infer_instance
instance (a : Ddl.ForeignKey) : Decidable (foreignKeyTexts p a) := by unfold foreignKeyTexts; infer_instance
instance (a : Hcl.Table Int) : Decidable (tableTexts p a) := by unfold tableTexts; infer_instance
instance (a : Ddl.IndexKey) : Decidable (indexKeyTexts p a) := by unfold indexKeyTexts; infer_instance
instance (a : Ddl.Index) : Decidable (indexTexts p a) := by unfold indexTexts; infer_instance
instance (a : Ddl.Trigger) : Decidable (triggerTexts p a) := by unfold triggerTexts; infer_instance
instance (a : Hcl.Database Int) : Decidable (databaseTexts p a) := by unfold databaseTexts; infer_instance
end

/-- The texts of the database are UTF-8. -/
example : ∃ d, Pg.inspect shopEnv.parseFloat shopEnv.sort (shopEnv.serve 0) { sortColumns := true } = .ok d ∧
    Hcl.databaseTexts Utf8.Valid (Hcl.ofInspect d) := by
  have h : (Pg.inspect shopEnv.parseFloat shopEnv.sort (shopEnv.serve 0) { sortColumns := true }).toOption.all
      (fun d => decide (Hcl.databaseTexts (fun s => Utf8.encode (Utf8.decode s) = s) (Hcl.ofInspect d))) = true := by
    decide +kernel
  obtain ⟨d, hd⟩ := shop_inspects
  rw [hd] at h
  exact ⟨d, hd, Hcl.texts_imp (fun _ => Utf8.valid_iff.2) (of_decide_eq_true h)⟩

/-- The hypotheses of the part of C95 about failures are met: a file that cannot be opened. -/
example : (main { shopEnv with os := { openFails := fun _ => true, write := fun t => (t, false) } } b!"no"
    (some (.inspect { output := b!"/shop.hcl" })) { files := fun _ => none }).2 ≠ 0 := by
  simp only [main, Command.run, InspectCmd.run, withConn]
  decide +kernel

end Verif.Main
