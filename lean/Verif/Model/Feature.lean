import Verif.Model.Monitor

/-!
# Model of `set_feature` (udp.rs:250-260, udp_monitor.rs:202-212)

The method of `UdpTransport` and of `UdpMonitorTransport` that sends a feature request. Both are written alike. No code calls them and
the types are private, so they do not belong to the calls of `Model/Client.lean` and `Model/Monitor.lean`; here a call of them is put
next to the background task. Logging is left out.
-/

namespace Knx

/-- Where a call of `set_feature` waits. -/
inductive Feat where
  | idle
  /-- About to draw a sequence number (udp.rs:251, udp_monitor.rs:203). -/
  | seqNr (f : KnxIpFeature) (v : U8)
  /-- About to look up the channel (udp.rs:252, udp_monitor.rs:204). -/
  | chanId (f : KnxIpFeature) (v : U8) (seq : U8)
  /-- Sending (udp.rs:256, udp_monitor.rs:208). -/
  | send (packet : Bytes)
  deriving DecidableEq, Repr

inductive FeatEv where
  | call (f : KnxIpFeature) (v : U8)
  /-- The lock of the connection data is got. -/
  | run
  | sendOk
  | sendFail
  /-- The caller drops the future of the call. -/
  | cancel
  deriving DecidableEq, Repr

/-- One step of the call. -/
def featStep (k : Kind) (s : Bg) (a : Feat) (e : FeatEv) : Option (Bg × Feat × List Obs) :=
  match a, e with
  | .idle, .call f v => some (s, .seqNr f v, [])
  | .idle, _ => none
  | _, .cancel => some (s, .idle, [.cancelled])
  -- udp.rs:196-205, udp_monitor.rs:187-196
  | .seqNr f v, .run =>
    if connLocked k s then none
    else match s.conn with
      | none => some (s, .idle, [.ret .err])
      | some d => some ({ s with conn := some { d with seq := d.seq + 1 } }, .chanId f v d.seq, [.drew d.seq])
  -- udp.rs:207-212, udp_monitor.rs:173-178
  | .chanId f v n, .run =>
    if connLocked k s then none
    else match s.conn with
      | none => some (s, .idle, [.ret .err])
      | some d => some (s, .send (FeatureSet.mk f v d.channel n).packet, [])
  | .send p, .sendOk => some (s, .idle, [.tx .api p, .ret .unit])
  | .send p, .sendFail => some (s, .idle, [.txFail .api p, .ret .err])
  | _, _ => none

/-- A run of the task and of one call. -/
inductive FRun (k : Kind) (m : Mode) : Bg → Feat → List Obs → Bg → Feat → Prop
  | nil (s : Bg) (a : Feat) : FRun k m s a [] s a
  | task {s s' s'' : Bg} {a a'' : Feat} {o tr : List Obs} (e : BgEv) : bgStep k m s e = some (s', o) → FRun k m s' a tr s'' a'' →
      FRun k m s a (o ++ tr) s'' a''
  | call {s s' s'' : Bg} {a a' a'' : Feat} {o tr : List Obs} (e : FeatEv) : a ≠ .idle → featStep k s a e = some (s', a', o) →
      FRun k m s' a' tr s'' a'' →
      FRun k m s a (o ++ tr) s'' a''
  | delay {s s'' : Bg} {a a'' : Feat} {tr : List Obs} (d : Nat) : FRun k m { s with now := s.now + d } a tr s'' a'' → FRun k m s a tr s'' a''

end Knx
