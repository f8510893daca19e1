import Verif.Model.Addresses

/-!
# Specification: KNX addresses

Written from the KNX standard and the English properties C01-C06, not from the code: field
ranges, code numbers and the textual syntax. Only the data types come from the model.
-/

namespace Knx.Spec

/-- The fields fit in their KNX bit widths. -/
def InRange : KnxAddress → Prop
  | .individual a => a.area.toNat < 16 ∧ a.line.toNat < 16
  | .group3 a => a.main.toNat < 32 ∧ a.middle.toNat < 8
  | .group2 a => a.main.toNat < 32
  | .group1 _ => True

/-- The code number the KNX standard assigns to an address. -/
def knxCode : KnxAddress → Nat
  | .individual a => a.area.toNat * 2 ^ 12 + a.line.toNat * 2 ^ 8 + a.address.toNat
  | .group3 a => a.main.toNat * 2 ^ 11 + a.middle.toNat * 2 ^ 8 + a.sub.toNat
  | .group2 a => a.main.toNat * 2 ^ 11 + a.sub.toNat
  | .group1 a => a.main.toNat

/-- Two addresses are of the same kind. -/
def SameKind : KnxAddress → KnxAddress → Prop
  | .individual _, .individual _ => True
  | .group3 _, .group3 _ => True
  | .group2 _, .group2 _ => True
  | .group1 _, .group1 _ => True
  | _, _ => False

/-- `DigitsVal ds n`: the character string `ds` consists of decimal digits only and denotes `n`. -/
inductive DigitsVal : List Char → Nat → Prop
  | nil : DigitsVal [] 0
  | snoc (ds : List Char) (n d : Nat) (c : Char) : DigitsVal ds n → d < 10 → c = Char.ofNat (48 + d) →
      DigitsVal (ds ++ [c]) (10 * n + d)

/-- `Numeral s n`: `s` is an optional `+` followed by one or more decimal digits denoting `n`. -/
def Numeral (s : List Char) (n : Nat) : Prop :=
  ∃ ds, ds ≠ [] ∧ DigitsVal ds n ∧ (s = ds ∨ s = '+' :: ds)

/-- The textual address syntax: `n.n.n`, `n/n/n`, `n/n`, `n`. That a component fits its type
is expressed by the component being the value of a `u8` (`u16` for the single-level form). -/
inductive AddrText : List Char → KnxAddress → Prop
  | individual (s0 s1 s2 : List Char) (x : IndAddr) :
      Numeral s0 x.area.toNat → Numeral s1 x.line.toNat → Numeral s2 x.address.toNat →
      AddrText (s0 ++ ['.'] ++ s1 ++ ['.'] ++ s2) (.individual x)
  | group3 (s0 s1 s2 : List Char) (x : Group3) :
      Numeral s0 x.main.toNat → Numeral s1 x.middle.toNat → Numeral s2 x.sub.toNat →
      AddrText (s0 ++ ['/'] ++ s1 ++ ['/'] ++ s2) (.group3 x)
  | group2 (s0 s1 : List Char) (x : Group2) :
      Numeral s0 x.main.toNat → Numeral s1 x.sub.toNat →
      AddrText (s0 ++ ['/'] ++ s1) (.group2 x)
  | group1 (s0 : List Char) (x : Group1) :
      Numeral s0 x.main.toNat → AddrText s0 (.group1 x)

end Knx.Spec
