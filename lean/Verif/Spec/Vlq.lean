/-
Specification of MIDI variable-length quantities and of big-endian integers, independent of the model.
-/
import Mathlib.Data.List.Basic

set_option autoImplicit false

namespace Melodia

/-- The number a sequence of bytes denotes in base 128, taking the low seven bits of each byte. -/
def vlqValue (bs : List UInt8) : Nat := bs.foldl (fun acc b => acc * 128 + b.toNat % 128) 0

/-- `bs` is the standard variable-length quantity for `n`: most significant septet first, the
continuation bit set on every byte but the last, no superfluous leading zero septet. -/
structure IsVlq (n : Nat) (bs : List UInt8) : Prop where
  shape : ∃ init last, bs = init ++ [last] ∧ (∀ b ∈ init, 128 ≤ b.toNat) ∧ last.toNat < 128
  value : vlqValue bs = n
  minimal : ∀ b, bs.head? = some b → b.toNat ≠ 128

/-- `bs` is the `k`-byte big-endian representation of `n`. -/
def IsBigEndian (k n : Nat) (bs : List UInt8) : Prop :=
  bs.length = k ∧ bs.foldl (fun acc b => acc * 256 + b.toNat) 0 = n

end Melodia
