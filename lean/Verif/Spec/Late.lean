import Verif.Spec.Exec
import Verif.Spec.Telegrams

/-!
# Specification vocabulary: reads of one group and their answers (C122), writes and their confirmations (C123)
-/

namespace Knx.Spec

/-- The values that reads have returned, in order. -/
def values (tr : List Obs) : List Bytes := tr.filterMap fun
  | .ret (.value v) => some v
  | _ => none

open Classical in
/-- The telegrams that are an indication for the group. -/
noncomputable def forGroup (g : U16) (l : List Cemi) : List Cemi := l.filter fun c => decide (∃ v, IndicationFor g c v)

/-- All calls are reads of the group. -/
def ReadsOnly (g : U16) (tr : List Obs) : Prop := ∀ c ∈ calls tr, ∃ a, c = .read a ∧ a.toU16 = g

/-- What an observer of calls and answers sees. -/
inductive Happening where
  /-- A call. -/
  | asks (c : Call)
  /-- The request of the call is sent. -/
  | sends
  /-- A datagram of the server arrives. -/
  | arrives (d : Bytes)
  /-- The call returns. -/
  | gets (r : Ret)

def happened (tr : List Obs) : List Happening := tr.filterMap fun
  | .call c => some (.asks c)
  | .tx .api _ => some .sends
  | .rx d => some (.arrives d)
  | .ret r => some (.gets r)
  | _ => none

/-- An answer of the server: the datagram, the telegram in it and the value. -/
structure Ans where
  datagram : Bytes
  telegram : Cemi
  value : Bytes

/-- One read after the other, each of which is answered, and gets the value of the answer to the one before, at first `v`. -/
def behind (a : KnxAddress) : Bytes → List Ans → List Happening
  | _, [] => []
  | v, x :: l => [.asks (.read a), .sends, .gets (.value v), .arrives x.datagram] ++ behind a x.value l

/-- All calls are writes. -/
def WritesOnly (tr : List Obs) : Prop := ∀ c ∈ calls tr, ∃ a v small, c = .write a v small

/-- The calls that have returned without an error. -/
def okWrites (tr : List Obs) : Nat := ((returned tr).filter (· = .unit)).length

/-- The telegrams that are a confirmation. -/
def confirmations (l : List Cemi) : List Cemi := l.filter (·.msgCode = L_DATA_CON)

/-- A write and its confirmation: what is written, the datagram of the server and the telegram in it. -/
structure Confirmed where
  addr : KnxAddress
  value : Bytes
  small : Bool
  datagram : Bytes
  telegram : Cemi

/-- One write after the other, each of which has succeeded before it is confirmed. -/
def ahead (l : List Confirmed) : List Happening :=
  l.flatMap fun x => [.asks (.write x.addr x.value x.small), .sends, .gets .unit, .arrives x.datagram]

end Knx.Spec
