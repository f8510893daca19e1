import Mathlib.Data.Int.Log
import Mathlib.Data.Rat.Floor
import Verif.Model.Prim

/-!
# Model of IEEE 754 binary32 (`f32`)

A value is NaN, an infinity or a finite number, represented by the rational number it denotes.
Every arithmetic operation rounds the exact result to nearest, ties to even, with 24 bits of
precision, smallest exponent -149 and overflow to infinity from 2^128 on.

Simplifications: the sign of zero and NaN payloads are not modelled (no comparison or conversion
in the crate distinguishes them); a finite value may be any rational, a superset of the `f32`
values, so statements quantified over all `F32` in particular hold for all `f32`.
-/

namespace Knx

/-- An `f32` value. -/
inductive F32 where
  | nan
  | inf (neg : Bool)
  | fin (q : ℚ)
  deriving DecidableEq

/-- Nearest integer, ties to even. -/
def rne (x : ℚ) : ℤ :=
  if x - ⌊x⌋ < 1 / 2 then ⌊x⌋
  else if 1 / 2 < x - ⌊x⌋ then ⌊x⌋ + 1
  else if ⌊x⌋ % 2 = 0 then ⌊x⌋
  else ⌊x⌋ + 1

/-- Exponent of the unit in the last place of the binade of `q` (24 bits of precision). -/
def ulpExp (q : ℚ) : ℤ := max (Int.log 2 |q| - 23) (-149)

/-- `q` rounded to 24 bits. -/
def roundQ (q : ℚ) : ℚ := (rne (q / 2 ^ ulpExp q) : ℚ) * 2 ^ ulpExp q

/-- IEEE 754 rounding of an exact result. -/
def roundF32 (q : ℚ) : F32 := if |roundQ q| < 2 ^ 128 then .fin (roundQ q) else .inf (decide (q < 0))

namespace F32

/-- `a * b`. -/
def mul : F32 → F32 → F32
  | .fin a, .fin b => roundF32 (a * b)
  | .inf s, .fin b => if b = 0 then .nan else .inf (s != decide (b < 0))
  | .fin a, .inf s => if a = 0 then .nan else .inf (s != decide (a < 0))
  | .inf s, .inf t => .inf (s != t)
  | .nan, _ => .nan
  | _, .nan => .nan

/-- `a + b`. -/
def add : F32 → F32 → F32
  | .fin a, .fin b => roundF32 (a + b)
  | .inf s, .fin _ => .inf s
  | .fin _, .inf s => .inf s
  | .inf s, .inf t => if s = t then .inf s else .nan
  | .nan, _ => .nan
  | _, .nan => .nan

/-- `a / b` for a finite non-zero divisor (the only kind the crate uses). -/
def divFin : F32 → ℚ → F32
  | .fin a, b => roundF32 (a / b)
  | .inf s, b => .inf (s != decide (b < 0))
  | .nan, _ => .nan

/-- `a < b`. -/
def lt : F32 → F32 → Bool
  | .fin a, .fin b => decide (a < b)
  | .inf s, .fin _ => s
  | .fin _, .inf s => !s
  | .inf s, .inf t => s && !t
  | .nan, _ => false
  | _, .nan => false

/-- Nearest integer, ties away from zero. -/
def awayInt (q : ℚ) : ℤ := if 0 ≤ q then ⌊q + 1 / 2⌋ else -⌊-q + 1 / 2⌋

/-- `f32::round`. -/
def round : F32 → F32
  | .fin q => .fin (awayInt q)
  | x => x

/-- The integer part towards zero. -/
def truncInt (q : ℚ) : ℤ := if 0 ≤ q then ⌊q⌋ else -⌊-q⌋

/-- Saturating `as` conversion to an integer type with range `[lo, hi]`; NaN becomes 0. -/
def toIntSat (lo hi : ℤ) : F32 → ℤ
  | .nan => 0
  | .inf s => if s then lo else hi
  | .fin q => max lo (min hi (truncInt q))

/-- `as i16`. -/
def toI16 (x : F32) : BitVec 16 := BitVec.ofInt 16 (x.toIntSat (-32768) 32767)

/-- `as u8`. -/
def toU8 (x : F32) : U8 := BitVec.ofInt 8 (x.toIntSat 0 255)

/-- The literal `0.01_f32` = 10737418 * 2^-30. -/
def c001 : F32 := .fin (10737418 / 2 ^ 30)
/-- The literal `2.54_f32` = 10653532 * 2^-22. -/
def c254 : ℚ := 10653532 / 2 ^ 22

end F32

end Knx
