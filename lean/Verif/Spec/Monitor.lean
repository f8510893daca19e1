import Verif.Spec.Telegrams

/-!
# Specification vocabulary: what the monitor does
-/

namespace Knx.Spec

/-- The telegram is an indication: L_Data.ind or L_Busmon.ind. -/
def isIndication (c : Cemi) : Bool := c.msgCode == L_DATA_IND || c.msgCode == L_BUSMON_IND

/-- The results of `next_msg`, whoever the caller, in order. -/
def nexts (tr : List Obs) : List Ret := tr.filterMap fun
  | .nret _ r => some r
  | _ => none

/-- The telegrams taken out by caller `i` of `next_msg`, in order. -/
def takenBy (i : Nat) (tr : List Obs) : List Cemi := tr.filterMap fun
  | .taken j c => if j = i then some c else none
  | _ => none

/-- Caller `i` calls `next_msg`. -/
def isNcall (i : Nat) : Obs → Bool
  | .ncall j => j == i
  | _ => false

/-- `r` shows the indication `c` to the caller: the telegram itself, source and destination address, and the value (a length
of 0 or 1 means that it is in the low six bits of the APCI); an error if the telegram is shorter than nine bytes. -/
def Shown (c : Cemi) (r : Ret) : Prop :=
  (c.serviceInfo.length < 9 ∧ r = .err) ∨
  ∃ i c1 c2 s1 s2 d1 d2 l a b rest, r = .ind i ∧ c.serviceInfo = [c1, c2, s1, s2, d1, d2, l, a, b] ++ rest ∧
    i.cemi = c ∧ word i.lData.src.toNat = [s1, s2] ∧ word i.lData.dest.toNat = [d1, d2] ∧
    i.value = if 2 ≤ l.toNat then padded (l.toNat - 1) rest else [byte (b.toNat % 64)]

/-- The subscribers registered, in order. -/
def subscribedIds (tr : List Obs) : List Nat := tr.filterMap fun
  | .subscribed i => some i
  | _ => none

/-- The subscribers to be notified of the next connection: those notified of the last one and those registered since. -/
def registered (tr : List Obs) : List Nat := notifiedIds (since isUp tr) ++ subscribedIds (since isUp tr)

/-- A datagram is received in answer to a connect request. -/
def isAnswer : Obs → Bool
  | .rxConn _ => true
  | _ => false

end Knx.Spec
