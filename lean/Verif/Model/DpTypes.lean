import Verif.Model.F32

/-!
# Model of `src/dp_types.rs`

Every type implements `Pdt<T>` (dp_types.rs:6-14): `general`, `get_value`, `from_bytes`,
`get_bytes`, `is_small`. The unused function `_float_to_bytes` (dp_types.rs:179-223) is in `Verif/Model/DpUnused.lean`.
-/

namespace Knx

/-- Rust `a + b` on `iN` (signed overflow check). -/
def addS {n : Nat} (m : Mode) (a b : BitVec n) : Res (BitVec n) :=
  if -(2 ^ (n - 1) : Int) ≤ a.toInt + b.toInt ∧ a.toInt + b.toInt < 2 ^ (n - 1) then .ok (a + b)
  else match m with
    | .debug => .panic
    | .release => .ok (a + b)

/-! ## Scaled value (dp_types.rs:16-67) -/

/-- dp_types.rs:16-20 `struct PdtKnxScaledValue`. -/
structure PdtScaled where
  code : String
  unit : String
  value : U8
  deriving DecidableEq, Repr

namespace PdtScaled
/-- dp_types.rs:23-29. -/
def general (v : U8) : PdtScaled := ⟨"5.x", "", v⟩
/-- dp_types.rs:31-33: the trait's `get_value`. -/
def getRaw (p : PdtScaled) : U8 := p.value
/-- dp_types.rs:35-42. -/
def fromBytes : Bytes → Res PdtScaled
  | [] => .err
  | v :: _ => .ok ⟨"5.001", "%", v⟩
/-- dp_types.rs:44-46. -/
def getBytes (p : PdtScaled) : Bytes := [p.value]
/-- dp_types.rs:48-50. -/
def isSmall (_ : PdtScaled) : Res Bool := .ok false
/-- dp_types.rs:54-60 `scaling`: `(percent * 2.54 + 1.0).round() as u8`. -/
def scaling (percent : F32) : PdtScaled :=
  ⟨"5.001", "%", (((percent.mul (.fin F32.c254)).add (.fin 1)).round).toU8⟩
/-- dp_types.rs:62-67: the inherent `get_value` (`(self.value - 1) as f32 / 2.54`; the
subtraction cannot overflow because 0 is handled before). -/
def getValue (p : PdtScaled) : F32 :=
  if p.value = 0 then .fin 0 else F32.divFin (.fin ((p.value - 1).toNat : ℚ)) F32.c254
end PdtScaled

/-! ## Signed 16-bit value (dp_types.rs:70-125) -/

/-- dp_types.rs:70-74 `struct PdtKnxInt`. -/
structure PdtInt where
  code : String
  unit : String
  value : I16
  deriving DecidableEq, Repr

namespace PdtInt
/-- dp_types.rs:77-83. -/
def general (v : I16) : PdtInt := ⟨"8.x", "", v⟩
/-- dp_types.rs:84-86. -/
def getValue (p : PdtInt) : I16 := p.value
/-- dp_types.rs:88-99 (`read_i16::<BigEndian>`). -/
def fromBytes (b : Bytes) : Res PdtInt :=
  match Rd.u16 b with
  | .ok (v, _) => .ok ⟨"8.x", "", v⟩
  | .err => .err
  | .panic => .panic
/-- dp_types.rs:101-103 (`to_be_bytes`). -/
def getBytes (p : PdtInt) : Bytes := be16 p.value
/-- dp_types.rs:105-107. -/
def isSmall (_ : PdtInt) : Res Bool := .ok false
/-- dp_types.rs:111-117 `value_2_count`. -/
def value2Count (v : I16) : PdtInt := ⟨"8.001", "pulses", v⟩
/-- dp_types.rs:119-125 `percent_v16`: `value * 100` with overflow check. -/
def percentV16 (m : Mode) (v : I16) : Res PdtInt :=
  match mulS m v 100 with
  | .ok x => .ok ⟨"8.010", "%", x⟩
  | .err => .err
  | .panic => .panic
end PdtInt

/-! ## Two-byte float (dp_types.rs:128-268) -/

/-- dp_types.rs:231-238: the two `while` loops. One unit of fuel per iteration; `none` = still
running. `exp` is an `i16` (it is or-ed with the `i16` `m` at 241). -/
def halveWhile (m : Mode) (c : F32 → Bool) : Nat → F32 → I16 → Option (Res (F32 × I16))
  | 0, v, e => if c v then none else some (.ok (v, e))
  | fuel + 1, v, e =>
    if c v then
      match addS m e 1 with
      | .ok e' => halveWhile m c fuel (v.divFin 2) e'
      | .err => some .err
      | .panic => some .panic
    else some (.ok (v, e))

/-- dp_types.rs:240-246: the bytes for the scaled value `v` and exponent `e`. -/
def floatBytes (v : F32) (e : I16) : Bytes :=
  let mant : I16 := v.round.toI16 &&& 0x7ff#16
  let msb : U8 := ((e <<< 3) ||| (mant.sshiftRight 8)).setWidth 8
  let msb := if v.lt (.fin 0) then msb ||| 0x80#8 else msb
  let lsb : U8 := (mant &&& 0xff#16).setWidth 8
  [msb, lsb]

/-- dp_types.rs:228-247 `calimero_float_to_bytes`, with fuel for each loop. -/
def floatToBytes (m : Mode) (fuel : Nat) (v : F32) : Option (Res Bytes) :=
  let v := v.mul (.fin 100)
  match halveWhile m (fun x => x.lt (.fin (-2048))) fuel v 0 with
  | none => none
  | some (.ok (v, e)) =>
    match halveWhile m (fun x => F32.lt (.fin 2048) x) fuel v e with
    | none => none
    | some (.ok (v, e)) => some (.ok (floatBytes v e))
    | some .err => some .err
    | some .panic => some .panic
  | some .err => some .err
  | some .panic => some .panic

/-- dp_types.rs:255-260: the exponent of `bytes_to_float` (an `i16` between 0 and 15, no overflow). -/
def floatExp (value : U16) : I16 :=
  let exp : I16 := (value &&& 0b0111100000000000#16) >>> 11
  if exp &&& 8#16 = 0 then exp else ((exp - 1) ^^^ 0xf#16) + (-1)

/-- dp_types.rs:261-265: the mantissa of `bytes_to_float` before conversion (`u16`). -/
def floatMant (m : Mode) (value : U16) : Res U16 :=
  let mant := value &&& 0x07ff#16
  if value &&& 0x8000#16 ≠ 0 then
    match subU m mant 1 with
    | .ok x => .ok (x ^^^ 0x7ff#16)
    | .err => .err
    | .panic => .panic
  else .ok mant

/-- dp_types.rs:249-268 `bytes_to_float`; needs exactly two bytes. -/
def bytesToFloat (m : Mode) : Bytes → Res F32
  | [a, b] =>
    let value := ofBe16 a b
    let sign : F32 := if value &&& 0x8000#16 ≠ 0 then .fin (-1) else .fin 1
    match floatMant m value with
    | .ok mant =>
      let mantissa := F32.mul (.fin (mant.toNat : ℚ)) sign
      -- `(1 << exp) as f32` with `1 : i32` and 0 <= exp <= 7
      .ok ((F32.c001.mul mantissa).mul (.fin (2 ^ (floatExp value).toNat)))
    | .err => .err
    | .panic => .panic
  | _ => .err

/-- dp_types.rs:128-132 `struct PdtKnxFloat`. -/
structure PdtFloat where
  code : String
  unit : String
  value : F32
  deriving DecidableEq

namespace PdtFloat
/-- dp_types.rs:135-141. -/
def general (v : F32) : PdtFloat := ⟨"9.x", "", v⟩
/-- dp_types.rs:142-144. -/
def getValue (p : PdtFloat) : F32 := p.value
/-- dp_types.rs:146-153. -/
def fromBytes (m : Mode) (b : Bytes) : Res PdtFloat :=
  match bytesToFloat m b with
  | .ok v => .ok ⟨"9.x", "", v⟩
  | .err => .err
  | .panic => .panic
/-- dp_types.rs:155-157. -/
def getBytes (m : Mode) (fuel : Nat) (p : PdtFloat) : Option (Res Bytes) := floatToBytes m fuel p.value
/-- dp_types.rs:159-161. -/
def isSmall (_ : PdtFloat) : Res Bool := .ok false
/-- dp_types.rs:165-171 `temp`. -/
def temp (v : F32) : PdtFloat := ⟨"9.001", "°C", v⟩
/-- dp_types.rs:173-176 `temp_from_bytes`. -/
def tempFromBytes (m : Mode) (b : Bytes) : Res PdtFloat :=
  match bytesToFloat m b with
  | .ok v => .ok (temp v)
  | .err => .err
  | .panic => .panic
end PdtFloat

/-! ## Unsigned 8, 16, 32 bit values (dp_types.rs:270-381) -/

/-- dp_types.rs:270-273 `struct PdtKnxByte`. -/
structure PdtByte where
  code : String
  value : U8
  deriving DecidableEq, Repr

namespace PdtByte
/-- dp_types.rs:276-281. -/
def general (v : U8) : PdtByte := ⟨"20.x", v⟩
/-- dp_types.rs:283-285. -/
def getValue (p : PdtByte) : U8 := p.value
/-- dp_types.rs:287-289. -/
def getBytes (p : PdtByte) : Bytes := [p.value]
/-- dp_types.rs:291-300. -/
def fromBytes : Bytes → Res PdtByte
  | [] => .err
  | v :: _ => .ok ⟨"20.x", v⟩
/-- dp_types.rs:302-304: `todo!()`. -/
def isSmall (_ : PdtByte) : Res Bool := .panic
end PdtByte

/-- dp_types.rs:307-310 `struct PdtKnxWord`. -/
structure PdtWord where
  code : String
  value : U16
  deriving DecidableEq, Repr

namespace PdtWord
/-- dp_types.rs:313-318. -/
def general (v : U16) : PdtWord := ⟨"7.x", v⟩
/-- dp_types.rs:320-322. -/
def getValue (p : PdtWord) : U16 := p.value
/-- dp_types.rs:324-326. -/
def getBytes (p : PdtWord) : Bytes := be16 p.value
/-- dp_types.rs:328-338. -/
def fromBytes (b : Bytes) : Res PdtWord :=
  match Rd.u16 b with
  | .ok (v, _) => .ok ⟨"7.x", v⟩
  | .err => .err
  | .panic => .panic
/-- dp_types.rs:340-342. -/
def isSmall (_ : PdtWord) : Res Bool := .ok false
end PdtWord

/-- dp_types.rs:345-348 `struct PdtKnxULong`. -/
structure PdtULong where
  code : String
  value : U32
  deriving DecidableEq, Repr

namespace PdtULong
/-- dp_types.rs:351-356. -/
def general (v : U32) : PdtULong := ⟨"12.x", v⟩
/-- dp_types.rs:358-360. -/
def getValue (p : PdtULong) : U32 := p.value
/-- dp_types.rs:362-364. -/
def getBytes (p : PdtULong) : Bytes := be32 p.value
/-- dp_types.rs:366-376. -/
def fromBytes (b : Bytes) : Res PdtULong :=
  match Rd.u32 b with
  | .ok (v, _) => .ok ⟨"8.x", v⟩
  | .err => .err
  | .panic => .panic
/-- dp_types.rs:378-380. -/
def isSmall (_ : PdtULong) : Res Bool := .ok false
end PdtULong

/-! ## One bit and 1+3 bits (dp_types.rs:383-483) -/

/-- dp_types.rs:383-386 `struct PdtKnxBit`. -/
structure PdtBit where
  code : String
  value : Bool
  deriving DecidableEq, Repr

namespace PdtBit
/-- dp_types.rs:389-394. -/
def general (v : Bool) : PdtBit := ⟨"1.x", v⟩
/-- dp_types.rs:396-398. -/
def getValue (p : PdtBit) : Bool := p.value
/-- dp_types.rs:400-406. -/
def fromBytes : Bytes → Res PdtBit
  | [] => .err
  | v :: _ => .ok ⟨"1.x", decide (v > 0)⟩
/-- dp_types.rs:407-409. -/
def getBytes (p : PdtBit) : Bytes := [if p.value then 1 else 0]
/-- dp_types.rs:411-413. -/
def isSmall (_ : PdtBit) : Res Bool := .ok true
/-- dp_types.rs:417-422 `switch`. -/
def switch (v : Bool) : PdtBit := ⟨"1.001", v⟩
end PdtBit

/-- dp_types.rs:425-429 `struct PdtKnxB1U3`. -/
structure PdtB1U3 where
  code : String
  bit : Bool
  step : U8
  deriving DecidableEq, Repr

namespace PdtB1U3
/-- dp_types.rs:432-436. -/
def getValue (p : PdtB1U3) : U8 := (if p.bit then 8#8 else 0#8) ||| p.step
/-- dp_types.rs:438-440. -/
def getBytes (p : PdtB1U3) : Bytes := [p.getValue]
/-- dp_types.rs:442-448. -/
def general (v : U8) : PdtB1U3 := ⟨"3.x", decide (v &&& 8#8 > 0), v &&& 0b111#8⟩
/-- dp_types.rs:450-460. -/
def fromBytes : Bytes → Res PdtB1U3
  | [] => .err
  | v :: _ => .ok ⟨"0.x", decide (v &&& 8#8 > 0), v &&& 0b111#8⟩
/-- dp_types.rs:462-464. -/
def isSmall (_ : PdtB1U3) : Res Bool := .ok true
/-- dp_types.rs:468-474 `dimming`. -/
def dimming (increase : Bool) (step : U8) : PdtB1U3 := ⟨"3.007", increase, step &&& 0b111#8⟩
/-- dp_types.rs:476-482 `blinds`. -/
def blinds (up : Bool) (step : U8) : PdtB1U3 := ⟨"3.008", up, step &&& 0b111#8⟩
end PdtB1U3

end Knx
