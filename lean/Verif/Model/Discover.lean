import Verif.Model.Search

/-!
# Model of the example program `examples/discover.rs`

Text is a list of characters. `env_logger::init` and the logging (line 34, 37) are left out; writing to standard output is
assumed to succeed.
-/

namespace Knx

/-- `Display` of `Ipv4Addr` (discover.rs:60). -/
def showIp (a : Ipv4) : List Char :=
  showNat a.a.toNat ++ '.' :: showNat a.b.toNat ++ '.' :: showNat a.c.toNat ++ '.' :: showNat a.d.toNat

/-- `Display` of `SocketAddrV4` (discover.rs:52). -/
def showSock (s : SockAddr) : List Char := showIp s.ip ++ ':' :: showNat s.port.toNat

/-- The elements of a list in `Debug` output, separated by a comma and a blank. -/
def showItems : Bytes → List Char
  | [] => []
  | [b] => showNat b.toNat
  | b :: bs => showNat b.toNat ++ ',' :: ' ' :: showItems bs

/-- `Debug` of `[u8; 6]` (discover.rs:59, 61). -/
def showBytes (b : Bytes) : List Char := '[' :: showItems b ++ [']']

/-- Derived `Debug` of `KnxMedium` (core.rs:897-904). -/
def KnxMedium.debug : KnxMedium → List Char
  | .tp1 => "TP1".toList
  | .pl110 => "PL110".toList
  | .rf => "RF".toList
  | .ip => "IP".toList

/-- `println!`: the text and a line feed. -/
def line (t : List Char) : List Char := t ++ ['\n']

/-- discover.rs:63-65: the lines of the service families. -/
def showFamilies (fs : List ServiceFamily) : List Char :=
  fs.flatMap fun f =>
    line ("⏵⏵ Service Family: ".toList ++ showNat f.family.toNat ++ " Version: ".toList ++ showNat f.version.toNat)

/-- discover.rs:46-50: `DeviceStatus::PROGRAMMING_MODE` is the value 1. -/
def programmingStatus (d : DeviceInfo) : List Char := if d.status = ⟨1⟩ then "yes".toList else "no".toList

/-- discover.rs:52: the first line for a response. -/
def showEndpoint (r : SearchResponse) : List Char := line ("⊙ ".toList ++ showSock r.controlEndpoint.address)

/-- discover.rs:53-67: the other lines, given the name. -/
def showDetails (r : SearchResponse) (name : List Char) : List Char :=
  line ("⏵ Name: ".toList ++ name)
    ++ line ("⏵ Medium: ".toList ++ r.deviceHardware.medium.debug)
    ++ line ("⏵ Individual Addr: ".toList ++ (KnxAddress.individual r.deviceHardware.address).text)
    ++ line ("⏵ Programming Mode: ".toList ++ programmingStatus r.deviceHardware)
    ++ line ("⏵ Project Installation ID: ".toList ++ showNat r.deviceHardware.projectId.toNat)
    ++ line ("⏵ Serial: ".toList ++ showBytes r.deviceHardware.serial.toList)
    ++ line ("⏵ Multicast Addr: ".toList ++ showIp r.deviceHardware.multicast)
    ++ line ("⏵ MAC Addr: ".toList ++ showBytes r.deviceHardware.mac.toList)
    ++ showFamilies r.serviceFamilies.families ++ line []

/-- discover.rs:39-68: what is printed for one response, and whether the loop goes on (`?` in line 53). -/
def showResponse (r : SearchResponse) : List Char × Res Unit :=
  match r.deviceHardware.friendlyNameStr with
  | .ok name => (showEndpoint r ++ showDetails r name, .ok ())
  | .err => (showEndpoint r, .err)
  | .panic => (showEndpoint r, .panic)

/-- discover.rs:39-71: the loop over the responses. -/
def showResponses : List SearchResponse → List Char × Res Unit
  | [] => ([], .ok ())
  | r :: rs =>
    match showResponse r with
    | (t, .ok ()) => (t ++ (showResponses rs).1, (showResponses rs).2)
    | x => x

/-- discover.rs:32-72: the text printed and the result of the program, given the result of the search (line 36). -/
def discover : Res (List SearchResponse) → List Char × Res Unit
  | .ok rs => showResponses rs
  | .err => ([], .err)
  | .panic => ([], .panic)

/-- discover.rs:30-72: the text printed and the result of the program, whose search has the timeout of 100 ms (line 34), once the
search is over; while it goes on nothing is printed. -/
def discoverRun (m : Mode) (evs : List (Nat × SearchEv)) : Option (List Char × Option (Res Unit)) :=
  match searchRun m 100 0 .start evs with
  | some (.finished r) => some ((discover r).1, some (discover r).2)
  | some _ => some ([], none)
  | none => none

end Knx
