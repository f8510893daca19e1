import Verif.Model.DpTexts

/-!
# Specification: messages about rejected data (C114)
-/

namespace Knx.Spec

/-- The functions that make a data point of bytes. -/
inductive Decoder where
  | scaled | int | float | temperature | byte | word | ulong | bit | b1u3
  deriving DecidableEq, Repr

/-- How many bytes a data point of the type has. -/
def Decoder.size : Decoder → Nat
  | .scaled | .byte | .bit | .b1u3 => 1
  | .int | .float | .temperature | .word => 2
  | .ulong => 4

/-- The message with which the function rejects the bytes, if it does. -/
def Decoder.message (m : Mode) (b : Bytes) : Decoder → Option Text
  | .scaled => (PdtScaled.fromBytesT b).error?
  | .int => (PdtInt.fromBytesT b).error?
  | .float => (PdtFloat.fromBytesT m b).error?
  | .temperature => (PdtFloat.tempFromBytesT m b).error?
  | .byte => (PdtByte.fromBytesT b).error?
  | .word => (PdtWord.fromBytesT b).error?
  | .ulong => (PdtULong.fromBytesT b).error?
  | .bit => (PdtBit.fromBytesT b).error?
  | .b1u3 => (PdtB1U3.fromBytesT b).error?

/-- What is said of the number of bytes. -/
inductive Claim where
  /-- The first byte is missing. -/
  | noFirst
  /-- There are fewer than `n`. -/
  | fewer (n : Nat)
  /-- The number is wrong. -/
  | wrong
  deriving DecidableEq, Repr

/-- Phrases and what they mean. -/
def phrases : List (String × Claim) :=
  [("At least one byte is needed", .fewer 1), ("Should have at least one byte", .fewer 1), ("One byte is needes", .fewer 1),
   ("Unable to get first byte", .noFirst), ("Unable to get 2 bytes", .fewer 2), ("Unable to get 4 bytes", .fewer 4),
   ("Wrong bytes count", .wrong)]

/-- `Says t c`: the message begins with a phrase that means `c`. -/
def Says (t : Text) (c : Claim) : Prop := ∃ p ∈ phrases, p.2 = c ∧ p.1.toList <+: t

/-- Whether the claim about the bytes is true, for data points of `size` bytes. -/
def Claim.true (size : Nat) (b : Bytes) : Claim → Prop
  | .noFirst => b = []
  | .fewer n => b.length < n ∧ n = size
  | .wrong => b.length ≠ size

end Knx.Spec
