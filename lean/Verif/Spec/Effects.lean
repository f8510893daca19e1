import Verif.Spec.Wire

/-!
# What a datagram does to a connection
-/

namespace Knx.Spec
open Knx

/-- What a datagram that arrives while there is a connection does. -/
inductive Effect where
  /-- Nothing. -/
  | ignored
  /-- The connection is given up. -/
  | lost
  /-- The library ends. -/
  | over
  /-- It ends with a panic. -/
  | died
  /-- The datagram is acknowledged; -/
  | acked (channel seq : U8)
  /-- it is acknowledged and a telegram is passed on; -/
  | delivered (channel seq : U8) (c : Cemi)
  /-- it is acknowledged and the library panics. -/
  | ackedDied (channel seq : U8)

/-- The effect of each datagram. -/
inductive Does (m : Mode) : Bytes → Effect → Prop
  | empty : Does m [] .ignored
  | ack (d a) : Decodes (seen d) (.tunnelingAck a) → Does m d .ignored
  | fine (d ch) : Decodes (seen d) (.connectionstateResponse ⟨ch, 0⟩) → Does m d .ignored
  | broken (d ch st) : Decodes (seen d) (.connectionstateResponse ⟨ch, st⟩) → st ≠ 0 → Does m d .lost
  | garbage (d) : d ≠ [] → (∀ y, ¬ Decodes (seen d) y) → ¬ TooShort d → Does m d .lost
  | bye (d y) : Decodes (seen d) (.disconnectResponse y) → Does m d .over
  | short (d) : TooShort d → Does m d .died
  | feature (d f v st ch sq) : Decodes (seen d) (.featureResponse ⟨f, v, st, ch, sq⟩) → Does m d (.acked ch sq)
  | unreadable (d ch sq cemi) : Decodes (seen d) (.tunnelingRequest ⟨ch, sq, cemi⟩) → ¬ Explosive m cemi → (∀ c, ¬ Carries m d c) → Does m d (.acked ch sq)
  | telegram (d ch sq cemi c) : Decodes (seen d) (.tunnelingRequest ⟨ch, sq, cemi⟩) → Carries m d c → Does m d (.delivered ch sq c)
  | explosive (d ch sq cemi) : Decodes (seen d) (.tunnelingRequest ⟨ch, sq, cemi⟩) → Explosive m cemi → Does m d (.ackedDied ch sq)

/-- How the effect shows: what is seen next, if nothing else happens. -/
def shows : Effect → List Obs
  | .ignored => [.rx []]
  | .lost => [.down]
  | .over => [.exit]
  | .died => [.crash]
  | .acked ch sq => [.tx .task (frame TUNNELING_ACK [4, ch, sq, 0]), .rx []]
  | .delivered ch sq c => [.tx .task (frame TUNNELING_ACK [4, ch, sq, 0]), .queued c]
  | .ackedDied ch sq => [.tx .task (frame TUNNELING_ACK [4, ch, sq, 0]), .crash]

end Knx.Spec
