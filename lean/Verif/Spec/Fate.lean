import Verif.Spec.Trace

/-!
# What becomes of the telegrams that have been acknowledged (C44)
-/

namespace Knx.Spec

/-- What became of the telegram of an acknowledged datagram: nothing (yet), put into the message channel, or lost. -/
inductive Fate
  | none
  | delivered (c : Cemi)
  | lost

/-- The datagram acknowledged last gets its fate, unless it has one. -/
def settle (f : Fate) : List (Bytes × Fate) → List (Bytes × Fate)
  | [] => []
  | [(d, .none)] => [(d, f)]
  | x :: l => x :: settle f l

/-- What is observed decides the fates: a telegram put into the channel belongs to the datagram acknowledged last; an
interrupt or a closed channel ends the handling of the datagram received last, after its acknowledgement or before. -/
def fateStep (st : Option Bytes × List (Bytes × Fate)) : Obs → Option Bytes × List (Bytes × Fate)
  | .rx d => (some d, st.2)
  | .tx _ p => if serviceIs TUNNELING_ACK p then (none, st.2 ++ st.1.toList.map (·, .none)) else st
  | .queued c => (st.1, settle (.delivered c) st.2)
  | .interrupt => if st.1.isNone then (st.1, settle .lost st.2) else st
  | .closed => if st.1.isNone then (st.1, settle .lost st.2) else st
  | _ => st

/-- The acknowledged datagrams in order, each with the fate of its telegram. -/
def fates (tr : List Obs) : List (Bytes × Fate) := (tr.foldl fateStep (none, [])).2

/-- The telegrams delivered. -/
def deliveredOf (l : List (Bytes × Fate)) : List Cemi := l.filterMap fun
  | (_, .delivered c) => some c
  | _ => none

/-- The datagrams whose telegram was lost. -/
def lostOf (l : List (Bytes × Fate)) : List Bytes := l.filterMap fun
  | (d, .lost) => some d
  | _ => none

/-- The fate fits the datagram: exactly those that carry a telegram have one, and what is delivered is what they carry. -/
def FateFits (m : Mode) : Bytes × Fate → Prop
  | (d, .none) => ∀ c, ¬ Carries m d c
  | (d, .delivered c) => Carries m d c
  | (d, .lost) => ∃ c, Carries m d c

end Knx.Spec
