import Verif.Model.DpTypes

/-!
# Model of `_float_to_bytes` (dp_types.rs:179-223)

The crate contains a second encoder for two-byte floats, which is never called.
-/

namespace Knx

namespace F32
/-- `f32::abs`. -/
def abs : F32 → F32
  | .fin q => .fin |q|
  | .inf _ => .inf false
  | .nan => .nan

/-- `f32::floor`. -/
def floor : F32 → F32
  | .fin q => .fin ⌊q⌋
  | x => x

/-- `a - b`. -/
def sub (a : F32) : F32 → F32
  | .fin b => a.add (.fin (-b))
  | .inf s => a.add (.inf !s)
  | .nan => .nan

/-- `a >= b`. -/
def ge (a b : F32) : Bool := F32.lt b a || (match a, b with
  | .fin x, .fin y => decide (x = y)
  | .inf s, .inf t => s == t
  | _, _ => false)

/-- `as u32`. -/
def toU32 (x : F32) : U32 := BitVec.ofInt 32 (x.toIntSat 0 4294967295)
end F32

/-- `a - b` for `i16`: overflow panics in debug builds and wraps in release builds. -/
def subS16 (m : Mode) (a b : I16) : Res I16 :=
  if -32768 ≤ a.toInt - b.toInt ∧ a.toInt - b.toInt < 32768 then .ok (a - b)
  else match m with
    | .debug => .panic
    | .release => .ok (a - b)

/-- `a << n` for `u32` and an `i16` amount: an amount outside 0..31 panics in debug builds and is masked in release builds. -/
def shl32 (m : Mode) (a : U32) (n : I16) : Res U32 :=
  if 0 ≤ n.toInt ∧ n.toInt < 32 then .ok (a <<< n.toNat)
  else match m with
    | .debug => .panic
    | .release => .ok (a <<< (n &&& 31#16).toNat)

/-- dp_types.rs:189-195: one turn of the loop (`f`, `bits`). -/
def fracStep (x : F32 × U16) (i : Nat) : F32 × U16 :=
  let f := x.1.mul (.fin 2)
  if f.ge (.fin 1) then (f.sub (.fin 1), x.2 ||| (1#16 <<< (15 - i))) else (f, x.2)

/-- dp_types.rs:187-195: the first eleven binary places of `f`. -/
def fracBits (f : F32) : U16 := ((List.range 11).foldl fracStep (f, 0)).2

/-- dp_types.rs:202-208: the highest bit set among bits 30 to 0, or 0. -/
def firstBit (mantissa : U32) : I16 :=
  match (List.range 31).reverse.find? (fun i => decide (mantissa &&& (1#32 <<< i) > 0)) with
  | some i => BitVec.ofNat 16 i
  | none => 0

/-- dp_types.rs:215-222: the bytes, from the sign, the exponent and the shifted mantissa. -/
def joinFloat (sign : Bool) (exp : I16) (mantissa : U32) : Bytes :=
  let f16 : U16 := if sign then 0x8000#16 else 0#16
  let f16 := f16 ||| ((exp <<< 11) &&& 0b0111100000000000#16)
  let f16 := f16 ||| ((mantissa.setWidth 16 &&& 0b1111111111100000#16) >>> 5)
  be16 f16

/-- dp_types.rs:179-223 `_float_to_bytes`. -/
def unusedFloatToBytes (m : Mode) (value : F32) : Res Bytes :=
  let sign := value.lt (.fin 0)
  let v := value.abs.mul (.fin 100)
  let fl := v.floor
  let bits := fracBits (v.sub fl)
  let n := fl.toU32
  let mantissa := (n <<< 16) ||| bits.setWidth 32
  let first := firstBit mantissa
  match subS16 m first 16 with
  | .ok e =>
    match subS16 m e 10 with
    | .ok exp =>
      match subS16 m 31 first with
      | .ok k =>
        match shl32 m n k with
        | .ok mant => .ok (joinFloat sign exp mant)
        | .err => .err
        | .panic => .panic
      | .err => .err
      | .panic => .panic
    | .err => .err
    | .panic => .panic
  | .err => .err
  | .panic => .panic

end Knx
