import Verif.Model.Prim

/-!
# Model of `src/packets/addresses.rs`

Strings are lists of characters. `Debug` output is modelled as a list of characters too.
-/

namespace Knx

/-- addresses.rs:98-103 `struct IndividualAddress`. -/
structure IndAddr where
  area : U8
  line : U8
  address : U8
  deriving DecidableEq, Repr

/-- addresses.rs:106-113 `IndividualAddress::to_u16`. -/
def IndAddr.toU16 (a : IndAddr) : U16 :=
  let addr : U16 := 0
  let addr := addr ||| (a.area.setWidth 16 <<< 12)
  let addr := addr ||| (a.line.setWidth 16 <<< 8)
  let addr := addr ||| a.address.setWidth 16
  addr

/-- addresses.rs:115-125 `IndividualAddress::from_u16`. -/
def IndAddr.ofU16 (addr : U16) : IndAddr :=
  let area := (0xf000#16 &&& addr) >>> 12
  let line := (0x0f00#16 &&& addr) >>> 8
  let address := 0x00ff#16 &&& addr
  ⟨area.setWidth 8, line.setWidth 8, address.setWidth 8⟩

/-- addresses.rs:157-161 `struct Group3LevelAddress`. -/
structure Group3 where
  main : U8
  middle : U8
  sub : U8
  deriving DecidableEq, Repr

/-- addresses.rs:187-196 `Group3LevelAddress::from_u16`
(Rust precedence: `v & 0b11111 << 11` is `v & (0b11111 << 11)`). -/
def Group3.ofU16 (v : U16) : Group3 :=
  let main := (v &&& (0b11111#16 <<< 11)) >>> 11
  let middle := (v &&& (0b111#16 <<< 8)) >>> 8
  let sub := v &&& 0b11111111#16
  ⟨main.setWidth 8, middle.setWidth 8, sub.setWidth 8⟩

/-- addresses.rs:198-205 `Group3LevelAddress::to_u16`. -/
def Group3.toU16 (a : Group3) : U16 :=
  let addr : U16 := 0
  let addr := addr ||| (a.main.setWidth 16 <<< 11)
  let addr := addr ||| (a.middle.setWidth 16 <<< 8)
  let addr := addr ||| a.sub.setWidth 16
  addr

/-- addresses.rs:208-211 `struct Group2LevelAddress`. -/
structure Group2 where
  main : U8
  sub : U8
  deriving DecidableEq, Repr

/-- addresses.rs:220-226 `Group2LevelAddress::to_u16` (the shift is 8, not 11). -/
def Group2.toU16 (a : Group2) : U16 :=
  let addr : U16 := 0
  let addr := addr ||| (a.main.setWidth 16 <<< 8)
  let addr := addr ||| a.sub.setWidth 16
  addr

/-- addresses.rs:229-231 `struct Group1LevelAddress`. -/
structure Group1 where
  main : U16
  deriving DecidableEq, Repr

/-- addresses.rs:240-242 `Group1LevelAddress::to_u16`. -/
def Group1.toU16 (a : Group1) : U16 := a.main

/-- addresses.rs:8-13 `enum KnxAddress` (built by the constructors at 16-30). -/
inductive KnxAddress where
  | individual (a : IndAddr)
  | group3 (a : Group3)
  | group2 (a : Group2)
  | group1 (a : Group1)
  deriving DecidableEq, Repr

/-- addresses.rs:32-39 `KnxAddress::to_u16`. -/
def KnxAddress.toU16 : KnxAddress → U16
  | .individual a => a.toU16
  | .group3 a => a.toU16
  | .group2 a => a.toU16
  | .group1 a => a.toU16

/-- std `str::split(c)` (used at addresses.rs:51, 131, 173): always at least one part. -/
def splitOn (c : Char) : List Char → List (List Char)
  | [] => [[]]
  | x :: xs =>
    if x = c then [] :: splitOn c xs
    else match splitOn c xs with
      | [] => [[x]]
      | p :: ps => (x :: p) :: ps

/-- Decimal digit value, as `char::to_digit(10)`. -/
def digitVal (c : Char) : Option Nat :=
  if '0' ≤ c ∧ c ≤ '9' then some (c.toNat - '0'.toNat) else none

/-- The digit loop of `core::num::from_str_radix` for an unsigned type with maximum `max`:
`checked_mul(10)` then `checked_add(digit)`, an error as soon as one overflows. -/
def parseDigits (max : Nat) : Nat → List Char → Option Nat
  | acc, [] => some acc
  | acc, c :: cs =>
    if acc * 10 ≤ max then
      match digitVal c with
      | some d => if acc * 10 + d ≤ max then parseDigits max (acc * 10 + d) cs else none
      | none => none
    else none

/-- std `str::parse::<uN>()` with `max = uN::MAX`: empty is an error, one leading `+` is
allowed if something follows, a lone sign and a leading `-` are errors (`-` is not a digit). -/
def parseUInt (max : Nat) : List Char → Option Nat
  | [] => none
  | ['+'] => none
  | '+' :: cs => parseDigits max 0 cs
  | cs => parseDigits max 0 cs

/-- `parse::<u8>()`. -/
def parseU8 (s : List Char) : Option U8 := (parseUInt 255 s).map (BitVec.ofNat 8)

/-- `parse::<u16>()`. -/
def parseU16 (s : List Char) : Option U16 := (parseUInt 65535 s).map (BitVec.ofNat 16)

/-- addresses.rs:128-149 `IndividualAddress::try_from(&str)`. -/
def IndAddr.parse (s : List Char) : Res IndAddr :=
  match splitOn '.' s with
  | [p0, p1, p2] =>
    match parseU8 p0 with
    | none => .err
    | some area =>
      match parseU8 p1 with
      | none => .err
      | some line =>
        match parseU8 p2 with
        | none => .err
        | some address => .ok ⟨area, line, address⟩
  | _ => .err

/-- addresses.rs:169-184 `Group3LevelAddress::try_from(&str)`. -/
def Group3.parse (s : List Char) : Res Group3 :=
  match splitOn '/' s with
  | [p0, p1, p2] =>
    match parseU8 p0, parseU8 p1, parseU8 p2 with
    | some main, some middle, some sub => .ok ⟨main, middle, sub⟩
    | _, _, _ => .err
  | _ => .err

/-- addresses.rs:42-96 `KnxAddress::try_from(&str)`. -/
def KnxAddress.parse (s : List Char) : Res KnxAddress :=
  if s.contains '.' then
    match IndAddr.parse s with
    | .ok a => .ok (.individual a)
    | .err => .err
    | .panic => .panic
  else
    match splitOn '/' s with
    | [p0] =>
      match parseU16 p0 with
      | some main => .ok (.group1 ⟨main⟩)
      | none => .err
    | [p0, p1] =>
      match parseU8 p0 with
      | none => .err
      | some main =>
        match parseU8 p1 with
        | none => .err
        | some sub => .ok (.group2 ⟨main, sub⟩)
    | [p0, p1, p2] =>
      match parseU8 p0 with
      | none => .err
      | some main =>
        match parseU8 p1 with
        | none => .err
        | some middle =>
          match parseU8 p2 with
          | none => .err
          | some sub => .ok (.group3 ⟨main, middle, sub⟩)
    | _ => .err

/-- `{}` formatting of an unsigned integer: decimal digits without leading zeros. -/
def showNat (n : Nat) : List Char := Nat.toDigits 10 n

/-- `{}` formatting of a `uN`. -/
def showU {n : Nat} (x : BitVec n) : List Char := showNat x.toNat

/-- addresses.rs:151-155, 163-167, 213-217, 233-237: the textual form `area.line.address`,
`main/middle/sub`, `main/sub`, `main` written by the `Debug` impls of the four address structs.
(The derived `Debug` of the enum `KnxAddress` itself adds a variant name around it, which is
not part of the address syntax; this is the inner text.) -/
def KnxAddress.text : KnxAddress → List Char
  | .individual a => showU a.area ++ '.' :: (showU a.line ++ '.' :: showU a.address)
  | .group3 a => showU a.main ++ '/' :: (showU a.middle ++ '/' :: showU a.sub)
  | .group2 a => showU a.main ++ '/' :: showU a.sub
  | .group1 a => showU a.main

end Knx
