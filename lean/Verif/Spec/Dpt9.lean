import Verif.Model.F32

/-!
# Specification: KNX two-byte float (DPT 9)

`MEEEEMMM MMMMMMMM`: value = 0.01 * M * 2^E with M a 12-bit two's complement number and E
between 0 and 15.
-/

namespace Knx.Spec

/-- The mantissa of a byte pair: sign bit (bit 7 of the first byte) and 11 further bits. -/
def dptM (a b : U8) : ℤ := (a.toNat % 8 * 256 + b.toNat : ℕ) - 2048 * (a.toNat / 128 : ℕ)

/-- The exponent of a byte pair. -/
def dptE (a : U8) : ℕ := a.toNat / 8 % 16

/-- The number denoted by a byte pair. -/
def dpt9 (a b : U8) : ℚ := dptM a b * 2 ^ dptE a / 100

/-- `w` needs exponent `e`: the least `e` such that `|w|` is at most `2048 * 2^e`. -/
def NeedsExp (w : ℚ) (e : ℕ) : Prop := |w| ≤ 2048 * 2 ^ e ∧ (e = 0 ∨ 2048 * 2 ^ (e - 1) < |w|)

end Knx.Spec
