import Verif.Model.Texts

/-!
# Model of the texts of errors: data points (dp_types.rs)

`with_whatever_context(|e| "… {e}")` does not format: the closure returns the text as it is written, with the braces.
-/

namespace Knx

/-- The text of the error. -/
def TRes.error? {α : Type} : TRes α → Option Text
  | .err t => some t
  | _ => none

/-- dp_types.rs:35-42. -/
def PdtScaled.fromBytesT : Bytes → TRes PdtScaled
  | [] => .err "At least one byte is needed".toList
  | v :: _ => .ok ⟨"5.001", "%", v⟩

/-- dp_types.rs:88-99. -/
def PdtInt.fromBytesT (b : Bytes) : TRes PdtInt :=
  match Rd.u16 b with
  | .ok (v, _) => .ok ⟨"8.x", "", v⟩
  | .err => .err "Unable to get first byte {e}".toList
  | .panic => .panic

/-- dp_types.rs:248-269 `bytes_to_float`: the only error is that of `try_into`, shown with `{:?}`. -/
def bytesToFloatT (m : Mode) (b : Bytes) : TRes F32 :=
  match bytesToFloat m b with
  | .ok v => .ok v
  | .err => .err "Wrong bytes count, TryFromSliceError(())".toList
  | .panic => .panic

/-- dp_types.rs:146-153. -/
def PdtFloat.fromBytesT (m : Mode) (b : Bytes) : TRes PdtFloat :=
  match bytesToFloatT m b with
  | .ok v => .ok ⟨"9.x", "", v⟩
  | .err t => .err t
  | .panic => .panic

/-- dp_types.rs:173-176 `temp_from_bytes`. -/
def PdtFloat.tempFromBytesT (m : Mode) (b : Bytes) : TRes PdtFloat :=
  match bytesToFloatT m b with
  | .ok v => .ok (PdtFloat.temp v)
  | .err t => .err t
  | .panic => .panic

/-- dp_types.rs:291-300. -/
def PdtByte.fromBytesT : Bytes → TRes PdtByte
  | [] => .err "One byte is needes".toList
  | v :: _ => .ok ⟨"20.x", v⟩

/-- dp_types.rs:328-338. -/
def PdtWord.fromBytesT (b : Bytes) : TRes PdtWord :=
  match Rd.u16 b with
  | .ok (v, _) => .ok ⟨"7.x", v⟩
  | .err => .err "Unable to get 2 bytes {e}".toList
  | .panic => .panic

/-- dp_types.rs:366-376. -/
def PdtULong.fromBytesT (b : Bytes) : TRes PdtULong :=
  match Rd.u32 b with
  | .ok (v, _) => .ok ⟨"8.x", v⟩
  | .err => .err "Unable to get 4 bytes {e}".toList
  | .panic => .panic

/-- dp_types.rs:400-406. -/
def PdtBit.fromBytesT : Bytes → TRes PdtBit
  | [] => .err "Should have at least one byte".toList
  | v :: _ => .ok ⟨"1.x", decide (v > 0)⟩

/-- dp_types.rs:450-460. -/
def PdtB1U3.fromBytesT : Bytes → TRes PdtB1U3
  | [] => .err "Should have at least one byte".toList
  | v :: _ => .ok ⟨"0.x", decide (v &&& 8#8 > 0), v &&& 0b111#8⟩

end Knx
