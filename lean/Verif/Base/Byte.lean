import Verif.Base.Str

/-!
# Deciding statements about all bytes

`∀ b : UInt8, p b` is decidable: it is a conjunction of 256 instances.
-/

namespace Verif

theorem forall_byte_iff {p : UInt8 → Prop} : (∀ b, p b) ↔ ∀ n : Fin 256, p (UInt8.ofNat n.val) := by
  constructor
  · exact fun h n => h _
  · intro h b
    have := h ⟨b.toNat, b.toNat_lt⟩
    simpa using this

instance decidableForallByte {p : UInt8 → Prop} [DecidablePred p] : Decidable (∀ b, p b) :=
  decidable_of_iff _ forall_byte_iff.symm

end Verif
