import Verif.Spec.Search

/-!
# Specification vocabulary: the report printed by the program `discover`
-/

namespace Knx.Spec

/-- Four numbers with dots between them. -/
def ipText (a : Ipv4) : String := s!"{a.a.toNat}.{a.b.toNat}.{a.c.toNat}.{a.d.toNat}"

/-- Six numbers in brackets. -/
def sixText (b : Vector U8 6) : String :=
  s!"[{b[0].toNat}, {b[1].toNat}, {b[2].toNat}, {b[3].toNat}, {b[4].toNat}, {b[5].toNat}]"

/-- The name of a medium. -/
def mediumText : KnxMedium → String
  | .tp1 => "TP1"
  | .pl110 => "PL110"
  | .rf => "RF"
  | .ip => "IP"

/-- The thirty characters of the field for the name, in Latin 1. -/
def nameText (d : DeviceInfo) : String := String.ofList (d.friendlyName.toList.map fun b => Char.ofNat b.toNat)

/-- The lines of the service families. -/
def familiesText (fs : List ServiceFamily) : String :=
  String.join (fs.map fun f => s!"⏵⏵ Service Family: {f.family.toNat} Version: {f.version.toNat}\n")

/-- The report on a gateway with control endpoint `ep`, device information `d` and service families `fs`. -/
def report (ep : SockAddr) (d : DeviceInfo) (fs : List ServiceFamily) : String :=
  s!"⊙ {ipText ep.ip}:{ep.port.toNat}\n" ++
  s!"⏵ Name: {nameText d}\n" ++
  s!"⏵ Medium: {mediumText d.medium}\n" ++
  s!"⏵ Individual Addr: {d.address.area.toNat}.{d.address.line.toNat}.{d.address.address.toNat}\n" ++
  s!"⏵ Programming Mode: {if d.status.bits.toNat = 1 then "yes" else "no"}\n" ++
  s!"⏵ Project Installation ID: {d.projectId.toNat}\n" ++
  s!"⏵ Serial: {sixText d.serial}\n" ++
  s!"⏵ Multicast Addr: {ipText d.multicast}\n" ++
  s!"⏵ MAC Addr: {sixText d.mac}\n" ++
  familiesText fs ++ "\n"

/-- The reports on several gateways, one after the other. -/
def reports (xs : List (Hpai × DeviceInfo × List ServiceFamily)) : String :=
  String.join (xs.map fun x => report x.1.address x.2.1 x.2.2)

end Knx.Spec
