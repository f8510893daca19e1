import Verif.Spec.Addresses

/-!
# Specification: what is wrong with the text of an address (C113)
-/

namespace Knx.Spec

/-- Where in an individual address. -/
inductive Place where
  | area | line | device
  deriving DecidableEq, Repr

/-- Where in a group address. -/
inductive GPlace where
  | main | middle | sub
  deriving DecidableEq, Repr

/-- Why a part of an address is no number. -/
inductive Reason where
  /-- There is nothing. -/
  | nothing
  /-- Something is not a digit. -/
  | character
  /-- It is too large. -/
  | large
  deriving DecidableEq, Repr

/-- What is wrong with the text of an address. -/
inductive Flaw where
  /-- There are not as many parts as there should be. -/
  | shape (text : List Char)
  /-- A part of an individual address is no number, or too large. -/
  | individual (p : Place) (part : List Char)
  /-- The only part of a group address is no number, or too large. -/
  | only (part : List Char)
  /-- A part of a group address of two or three parts is no number, or too large. -/
  | group (p : GPlace) (part : List Char)
  deriving DecidableEq, Repr

/-- A number of at most `max`. -/
def Fits (max : Nat) (s : List Char) : Prop := ∃ n, Numeral s n ∧ n ≤ max

/-- The number that a sequence of digits denotes. -/
def digitsNum (ds : List Char) : Nat := ds.foldl (fun a c => 10 * a + (c.toNat - 48)) 0

/-- Why a text is not a number of at most `max`: without a sign, it is empty; or the digits it begins with denote a number that is too large;
or there is something after them. -/
def reason (max : Nat) (s : List Char) : Reason :=
  if s = [] then .nothing
  else
    let t := if s.head? = some '+' then s.tail else s
    if max < digitsNum (t.takeWhile Char.isDigit) then .large else .character

/-- `Flawed s f`: the first thing that is wrong with the text `s` of an address is `f`. -/
inductive Flawed : List Char → Flaw → Prop
  | dots (s : List Char) : '.' ∈ s → s.count '.' ≠ 2 → Flawed s (.shape s)
  | area (a b c : List Char) : '.' ∉ a → '.' ∉ b → '.' ∉ c → ¬ Fits 255 a → Flawed (a ++ ['.'] ++ b ++ ['.'] ++ c) (.individual .area a)
  | line (a b c : List Char) : '.' ∉ b → '.' ∉ c → Fits 255 a → ¬ Fits 255 b →
      Flawed (a ++ ['.'] ++ b ++ ['.'] ++ c) (.individual .line b)
  | device (a b c : List Char) : '.' ∉ c → Fits 255 a → Fits 255 b → ¬ Fits 255 c →
      Flawed (a ++ ['.'] ++ b ++ ['.'] ++ c) (.individual .device c)
  | slashes (s : List Char) : '.' ∉ s → 2 < s.count '/' → Flawed s (.shape s)
  | only (a : List Char) : '.' ∉ a → '/' ∉ a → ¬ Fits 65535 a → Flawed a (.only a)
  | main2 (a b : List Char) : '.' ∉ a → '/' ∉ a → '.' ∉ b → '/' ∉ b → ¬ Fits 255 a → Flawed (a ++ ['/'] ++ b) (.group .main a)
  | sub2 (a b : List Char) : '.' ∉ b → '/' ∉ b → Fits 255 a → ¬ Fits 255 b → Flawed (a ++ ['/'] ++ b) (.group .sub b)
  | main3 (a b c : List Char) : '.' ∉ a → '/' ∉ a → '.' ∉ b → '/' ∉ b → '.' ∉ c → '/' ∉ c → ¬ Fits 255 a →
      Flawed (a ++ ['/'] ++ b ++ ['/'] ++ c) (.group .main a)
  | middle3 (a b c : List Char) : '.' ∉ b → '/' ∉ b → '.' ∉ c → '/' ∉ c → Fits 255 a → ¬ Fits 255 b →
      Flawed (a ++ ['/'] ++ b ++ ['/'] ++ c) (.group .middle b)
  | sub3 (a b c : List Char) : '.' ∉ c → '/' ∉ c → Fits 255 a → Fits 255 b → ¬ Fits 255 c →
      Flawed (a ++ ['/'] ++ b ++ ['/'] ++ c) (.group .sub c)

/-- The flaws are the same, or at the same place of group addresses, for the same reason. -/
def Flaw.alike : Flaw → Flaw → Prop
  | .group p a, .group q b => p = q ∧ reason 255 a = reason 255 b
  | f, g => f = g

/-- What a message about the flaw should quote; `quoted` is how the standard library shows a text. -/
def Flaw.quoted (quoted : List Char → List Char) : Flaw → List Char
  | .shape s => quoted s
  | .individual _ a => quoted a
  | .only a => a
  | .group _ a => a

end Knx.Spec
