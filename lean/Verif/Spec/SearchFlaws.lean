import Verif.Spec.Bytes
import Verif.Model.Prim

/-!
# What can be wrong with a search response

The first thing that is wrong with the 100 octets in which a search response is looked for.
-/

namespace Knx.Spec

/-- The `i`-th octet, as a number. -/
def octetAt (b : Bytes) (i : Nat) : Nat := (b.getD i 0).toNat

/-- How many octets a description block of a length and type has after its first two. A length that is too small for what is
subtracted from it counts as so much larger (255 octets are then expected, or nearly as many). -/
def blockNeeds (len type : Nat) : Nat :=
  if type = 1 then 52
  else if type = 2 then (len + 254) % 256 / 2 * 2
  else if type = 3 then 14
  else if type = 4 then 18
  else if type = 5 then 4 + (len + 252) % 256 / 2 * 4
  else 2 + len

/-- What can be wrong with a description block. -/
inductive BlockFlaw where
  /-- There is no such type. -/
  | type (n : Nat)
  /-- There is no such medium. -/
  | medium (n : Nat)
  /-- A block of this type does not end within the octets there are. -/
  | cut (type : Nat)
  deriving DecidableEq, Repr

/-- The first thing wrong with a description block. -/
def blockFlaw (b : Bytes) : Option BlockFlaw :=
  if octetAt b 1 ∉ [1, 2, 3, 4, 5, 254] then some (.type (octetAt b 1))
  else if octetAt b 1 = 1 ∧ octetAt b 2 ∉ [2, 3, 16, 32] then some (.medium (octetAt b 2))
  else if b.length < 2 + blockNeeds (octetAt b 0) (octetAt b 1) then some (.cut (octetAt b 1))
  else none

/-- The length of the block is too small for what is subtracted from it, in a program that checks subtractions. -/
def blockOverflows (m : Mode) (b : Bytes) : Prop :=
  m = .debug ∧ (octetAt b 1 = 2 ∧ octetAt b 0 < 2 ∨ octetAt b 1 = 5 ∧ octetAt b 0 < 4)

instance (m : Mode) (b : Bytes) : Decidable (blockOverflows m b) := by unfold blockOverflows; exact inferInstance

/-- What can be wrong with a search response. -/
inductive SearchFlaw where
  | size (n : Nat)
  | version (n : Nat)
  | service (n : Nat)
  | endpoint (n : Nat)
  /-- One of the two blocks has a flaw. -/
  | block (f : BlockFlaw)
  /-- The first block is not a description of a device. -/
  | notDevice (b : Bytes)
  /-- The second block is not a list of service families. -/
  | notFamilies (b : Bytes)
  deriving DecidableEq, Repr

/-- The first thing wrong with the two blocks of a search response. -/
def blocksFlaw (m : Mode) (b : Bytes) : Option SearchFlaw :=
  if blockOverflows m b then none
  else match blockFlaw b with
    | some f => some (.block f)
    | none =>
      if octetAt b 1 ≠ 1 then some (.notDevice b)
      else if blockOverflows m (b.drop 54) then none
      else match blockFlaw (b.drop 54) with
        | some f => some (.block f)
        | none => if octetAt (b.drop 54) 1 ≠ 2 then some (.notFamilies (b.drop 54)) else none

/-- The first thing wrong with a search response. -/
def searchFlaw (m : Mode) (b : Bytes) : Option SearchFlaw :=
  if octetAt b 0 ≠ 6 then some (.size (octetAt b 0))
  else if octetAt b 1 ≠ 16 then some (.version (octetAt b 1))
  else if 256 * octetAt b 2 + octetAt b 3 ≠ 0x0202 then some (.service (256 * octetAt b 2 + octetAt b 3))
  else if octetAt b 6 ≠ 8 then some (.endpoint (octetAt b 6))
  else blocksFlaw m (b.drop 14)

/-- Both flaws are wrong versions. -/
def SearchFlaw.versions : SearchFlaw → SearchFlaw → Prop
  | .version _, .version _ => True
  | _, _ => False

/-- The flaw is a block of the wrong type. -/
def SearchFlaw.other : SearchFlaw → Prop
  | .notDevice _ => True
  | .notFamilies _ => True
  | _ => False

end Knx.Spec
