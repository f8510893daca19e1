import Verif.Spec.Exec

/-!
# Specification vocabulary: whole frames

A datagram that follows the standard (03.08.02 section 2.3.1) is one frame: header with its own size, body, and nothing else.
-/

namespace Knx.Spec

/-- `f` is exactly one frame, and it denotes `x`. -/
inductive Whole : Bytes → Response → Prop
  | tunnelingRequest (channel seq pad : U8) (cemi : Bytes) : cemi.length ≤ 65525 →
      Whole (frame TUNNELING_REQUEST ([4, channel, seq, pad] ++ cemi)) (.tunnelingRequest ⟨channel, seq, cemi⟩)
  | tunnelingAck (channel seq status : U8) : Whole (frame TUNNELING_ACK [4, channel, seq, status]) (.tunnelingAck ⟨channel, seq, status⟩)
  | featureResponse (channel seq res status value : U8) (f : KnxIpFeature) :
      Whole (frame TUNNELING_FEATURE_RESPONSE [4, channel, seq, res, byte (featureCode f), status, value])
        (.featureResponse ⟨f, value, status, channel, seq⟩)
  | connectionstateResponse (channel status : U8) :
      Whole (frame CONNECTIONSTATE_RESPONSE [channel, status]) (.connectionstateResponse ⟨channel, status⟩)
  | disconnectResponse (channel status : U8) :
      Whole (frame DISCONNECT_RESPONSE [channel, status]) (.disconnectResponse ⟨channel, status⟩)

/-- `d` starts with `f`, or it is `f` without some zeros at its end. -/
def Stands (d f : Bytes) : Prop := (∃ rest, d = f ++ rest) ∨ ∃ n, 0 < n ∧ f = d ++ List.replicate n 0

/-- The length field of a datagram. -/
def lengthField (d : Bytes) : Option Nat :=
  match d with
  | _ :: _ :: _ :: _ :: a :: b :: _ => some (a.toNat * 256 + b.toNat)
  | _ => none

end Knx.Spec
