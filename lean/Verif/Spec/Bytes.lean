import Verif.Model.Prim

/-! # Specification vocabulary: big-endian numbers as bytes -/

namespace Knx.Spec

/-- The byte with value `n` (used for `n < 256`). -/
def byte (n : Nat) : U8 := BitVec.ofNat 8 n

/-- A 16-bit number, most significant byte first. -/
def word (n : Nat) : Bytes := [byte (n / 256), byte (n % 256)]

/-- The number denoted by a byte string, most significant byte first. -/
def value (b : Bytes) : Nat := b.foldl (fun acc x => acc * 256 + x.toNat) 0

/-- Bit `i` of a byte is set. -/
def bit (b : U8) (i : Nat) : Bool := decide (b.toNat / 2 ^ i % 2 = 1)

end Knx.Spec
