import Verif.Spec.Messages
import Verif.Spec.Dib

/-!
# What the decoders say

A message is a sequence of entries. A decoder complains of the first entry that is missing, or that does not have a value it may have.
-/

namespace Knx.Spec
open Knx

/-- A number in hexadecimal with capital letters and at least two digits. -/
def hexTwo (n : Nat) : List Char := (if n < 16 then ['0'] else []) ++ (Nat.toDigits 16 n).map Char.toUpper

/-- A number in hexadecimal with small letters. -/
def hexSmall (n : Nat) : List Char := Nat.toDigits 16 n

/-- An entry of a message: how many octets it has, what is said if they are not there, and what is said of a value it may not have. -/
structure Entry where
  width : Nat
  gone : List Char
  wrong : Nat → Option (List Char)

/-- An entry with any value. -/
def anyEntry (width : Nat) (gone : List Char) : Entry := ⟨width, gone, fun _ => none⟩

/-- An entry whose values are restricted. -/
def limited (width : Nat) (gone : List Char) (may : Nat → Bool) (wrong : Nat → List Char) : Entry :=
  ⟨width, gone, fun n => if may n then none else some (wrong n)⟩

/-- What is said of a message, or the octets behind the last entry. -/
def inspect : List Entry → Bytes → Except (List Char) Bytes
  | [], d => .ok d
  | e :: es, d =>
    if d.length < e.width then .error e.gone
    else match e.wrong (value (d.take e.width)) with
      | some t => .error t
      | none => inspect es (d.drop e.width)

/-- What is said of a fault. -/
def saying (es : List Entry) : Nat × Option Nat → Option (List Char)
  | (i, none) => es[i]?.map (·.gone)
  | (i, some n) => es[i]?.bind (·.wrong n)

/-- The place of the fault: which entry, and its value unless it is missing. -/
def fault : List Entry → Bytes → Option (Nat × Option Nat)
  | [], _ => none
  | e :: es, d =>
    if d.length < e.width then some (0, none)
    else match e.wrong (value (d.take e.width)) with
      | some _ => some (0, some (value (d.take e.width)))
      | none => (fault es (d.drop e.width)).map fun p => (p.1 + 1, p.2)

/-- Two faults of which the same is said: two missing entries with the same text, or two values of an entry whose value is not told. -/
def Confused (twins : List (Nat × Nat)) (blind : List Nat) (f f' : Nat × Option Nat) : Prop :=
  (f.2 = none ∧ f'.2 = none ∧ ((f.1, f'.1) ∈ twins ∨ (f'.1, f.1) ∈ twins)) ∨
  (f.1 = f'.1 ∧ f.1 ∈ blind ∧ f.2 ≠ none ∧ f'.2 ≠ none)

/-- The types of additional information. -/
def infoTypes : List Nat := [1, 2, 3, 4, 5, 6, 7, 8, 9, 10, 254]

/-- Additional information is read: from a position and octets to a position and octets. The position is an octet; in a debug build it
may not overflow. -/
inductive InfoWalk (m : Mode) (total : Nat) : Nat → Bytes → Nat → Bytes → Prop where
  | stay (p : Nat) (r : Bytes) : InfoWalk m total p r p r
  | step (p : Nat) (t s : U8) (r : Bytes) (q : Nat) (r' : Bytes) : p < total → t.toNat ∈ infoTypes →
      (m = .release ∨ p + s.toNat + 2 < 256) → InfoWalk m total ((p + s.toNat + 2) % 256) (r.drop s.toNat) q r' →
      InfoWalk m total p (t :: s :: r) q r'

/-! ## The messages; `eof` is what the standard library says of a read beyond the end -/

def hpaiEntries (eof : List Char) : List Entry :=
  [limited 1 ("Unable to read HPAI size ".toList ++ eof) (· = 8) (fun n => "HPAI size must be 8 instead of ".toList ++ decimal n),
   anyEntry 1 ("Unable to read HPAI host protocol code ".toList ++ eof),
   anyEntry 1 ("Unable to read HPAI IP part 1 ".toList ++ eof),
   anyEntry 1 ("Unable to read HPAI IP part 2 ".toList ++ eof),
   anyEntry 1 ("Unable to read HPAI IP part 3 ".toList ++ eof),
   anyEntry 1 ("Unable to read HPAI IP part 4 ".toList ++ eof),
   anyEntry 2 ("Unable to read HPAI IP Port ".toList ++ eof)]

def crdEntries (eof : List Char) : List Entry :=
  [limited 1 ("Unable to read CRD packet size ".toList ++ eof) (· = 4)
     (fun n => "Connection Response Data Block should have length 4 instead of ".toList ++ decimal n),
   limited 1 ("Unable to read CRD tunnel connection ".toList ++ eof) (· = 4)
     (fun n => "Connection Response Data Block should have connection type 4 (TUNNELING) instead of ".toList ++ decimal n),
   anyEntry 2 ("Unable to read CRD KNX individual address ".toList ++ eof)]

/-- What is said of a wrong version, whatever it is. -/
def wrongVersion (six : List Char) : Nat → List Char := fun _ => "KNXIP version should be 0x10 instead of ".toList ++ six

def startEntries (eof six : List Char) : List Entry :=
  [limited 1 ("Unable to read header size ".toList ++ eof) (· = 6) (fun n => "Header size should be 6 instead of ".toList ++ decimal n),
   limited 1 ("Unable to read KNXIP version ".toList ++ eof) (· = 16) (wrongVersion six)]

def connectResponseEntries (eof : List Char) : List Entry :=
  startEntries eof ['0', '6'] ++
  [limited 2 ("Unable to read Connect Response ".toList ++ eof) (· = 0x206)
     (fun n => "Connect response should be 0x0206 instead of ".toList ++ hexTwo n),
   limited 2 ("Unable to read packet size ".toList ++ eof) (8 ≤ ·)
     (fun n => "Packet size should greather than 8, received size ".toList ++ decimal n),
   anyEntry 1 ("Unable to read Communication Channel Id ".toList ++ eof),
   ⟨1, "Unable to read status ".toList ++ eof, fun n =>
     if n = 0x22 then some "Target KNX/IP device does not support requested connection type".toList
     else if n = 0x23 then some "Target KNX/IP device does not support one or more requested connection options".toList
     else if n = 0x24 then some "No more connections available on target KNX/IP device".toList
     else if n = 0x29 then some "Target KNX/IP device does not support requested tunneling layer".toList
     else none⟩] ++ hpaiEntries eof ++ crdEntries eof

def stateRequestEntries (eof : List Char) : List Entry :=
  startEntries eof [' ', '6'] ++
  [limited 2 ("Unable to read Connectstate request code ".toList ++ eof) (· = 0x207)
     (fun n => "Connect request should be 0x0207 instead of ".toList ++ hexadecimal n),
   anyEntry 2 ("Unable to read packet size ".toList ++ eof),
   anyEntry 1 ("Unable to read communication channel id ".toList ++ eof),
   anyEntry 1 ("Unable to read padding data ".toList ++ eof)] ++ hpaiEntries eof

def stateResponseEntries (eof : List Char) : List Entry :=
  startEntries eof [' ', '6'] ++
  [limited 2 ("Unable to read Connectstate Response ".toList ++ eof) (· = 0x208)
     (fun n => "Connect response should be 0x0208 instead of ".toList ++ hexadecimal n),
   limited 2 ("Unable to read packet size ".toList ++ eof) (· = 8) (fun n => "Packet size should be 8, received size ".toList ++ decimal n),
   anyEntry 1 ("Unable to read Communication Channel Id ".toList ++ eof),
   anyEntry 1 ("Unable to read status ".toList ++ eof)]

def disconnectRequestEntries (eof : List Char) : List Entry :=
  [limited 1 ("Unable to read header size ".toList ++ eof) (8 ≤ ·) (fun n => "Header size should be at least 8 instead of ".toList ++ decimal n),
   anyEntry 1 ("Unable to read communication channel id ".toList ++ eof),
   anyEntry 1 ("Unable to read reserved data ".toList ++ eof)] ++ hpaiEntries eof

def disconnectResponseEntries (eof : List Char) : List Entry :=
  startEntries eof [' ', '6'] ++
  [limited 2 ("Unable to read Disconnect Response ".toList ++ eof) (· = 0x20a)
     (fun n => "Disconnect response should be 0x020A instead of ".toList ++ hexadecimal n),
   limited 2 ("Unable to read packet size ".toList ++ eof) (· = 8) (fun n => "Packet size should be 8, received size ".toList ++ decimal n),
   anyEntry 1 ("Unable to read Communication Channel Id ".toList ++ eof),
   anyEntry 1 ("Unable to read status ".toList ++ eof)]

def headerEntries (eof : List Char) : List Entry :=
  [limited 1 ("Unable to read header length ".toList ++ eof) (· = 6) (fun n => "Header length should be 6 instead of ".toList ++ decimal n),
   limited 1 ("Unable to read KNXIP version ".toList ++ eof) (· = 16) (fun _ => "KNXIP protocol version should be 0x10 instead of 10".toList),
   anyEntry 2 "Unable to read service type identifier".toList,
   anyEntry 2 "Unable to read total length".toList]

/-- What is said of a search request: the service is looked at behind the header. -/
def inspectSearch (eof : List Char) (d : Bytes) : Except (List Char) Bytes :=
  match inspect (headerEntries eof) d with
  | .error t => .error t
  | .ok r =>
    if value ((d.drop 2).take 2) = 0x201 then inspect (hpaiEntries eof) r
    else .error ("Search request should be 0x0201 instead of ".toList ++ hexadecimal (value ((d.drop 2).take 2)))

def tunnelStart : List Entry :=
  [limited 1 "Unable to read header size".toList (· = 6) (fun n => "Header size should be 6 instead of ".toList ++ decimal n),
   limited 1 "Unable to read header version".toList (· = 16) (fun n => "Version should be 0x10 instead of ".toList ++ hexSmall n)]

def tunnelRequestEntries (eof : List Char) : List Entry :=
  tunnelStart ++
  [limited 2 ("Unable to read code ".toList ++ eof) (· = 0x420) (fun n => "Code should be 0x0420 instead of ".toList ++ hexSmall n),
   anyEntry 2 ("Unable to read packet size ".toList ++ eof),
   limited 1 ("Unable to read message code ".toList ++ eof) (· = 4) (fun n => "Size should be 0x04 instead of ".toList ++ decimal n),
   anyEntry 1 ("Unable to read communication channel id ".toList ++ eof),
   anyEntry 1 ("Unable to read sequence number ".toList ++ eof),
   anyEntry 1 ("Unable to read padding ".toList ++ eof)]

def ackStart (code size : Nat) (codeText sizeText : List Char) (eof : List Char) : List Entry :=
  tunnelStart ++
  [limited 2 ("Unable to read response code ".toList ++ eof) (· = code)
     (fun n => "Response code should be ".toList ++ codeText ++ " instead of ".toList ++ hexSmall n),
   limited 2 ("Unable to read packet size ".toList ++ eof) (· = size)
     (fun n => "Packet size should be ".toList ++ sizeText ++ " instead of ".toList ++ hexSmall n),
   limited 1 ("Unable to read struct size ".toList ++ eof) (· = 4) (fun n => "Structure size should be 0x04 instead of ".toList ++ hexSmall n),
   anyEntry 1 ("Unable to read communication channel id ".toList ++ eof),
   anyEntry 1 ("Unable to read communication channel id ".toList ++ eof)]

def ackEntries (eof : List Char) : List Entry :=
  ackStart 0x421 10 "0x0421".toList "0x0a".toList eof ++ [anyEntry 1 ("Unable to read status ".toList ++ eof)]

def featureEntries (eof : List Char) : List Entry :=
  ackStart 0x423 13 "0x0423".toList "0x0d".toList eof ++
  [anyEntry 1 ("Unable to read reserved field ".toList ++ eof),
   limited 1 ("Unable to read status ".toList ++ eof) (fun n => n = 2 || n = 6 || n = 7 || n = 8)
     (fun n => "Unknown KNXIP feature ".toList ++ decimal n),
   anyEntry 1 ("Unable to read status ".toList ++ eof),
   anyEntry 1 ("Unable to read value ".toList ++ eof)]

/-- What is said of a cEMI frame; of an unknown type of additional information the type is not told. -/
def CemiSaid (m : Mode) (eof : List Char) (t : List Char) : Bytes → Prop
  | [] => t = "Unable to read message code ".toList ++ eof
  | [_] => t = "Unable to read addition infos size ".toList ++ eof
  | _ :: total :: r => ∃ q r', InfoWalk m total.toNat 0 r q r' ∧ q < total.toNat ∧
      ((r' = [] ∧ t = "Unable to read addition info type ".toList ++ eof) ∨
       (∃ a s, r' = a :: s ∧ a.toNat ∉ infoTypes ∧ t = "Unknown additional info type ()".toList) ∨
       (∃ a, r' = [a] ∧ a.toNat ∈ infoTypes ∧ t = "Unable to read addition info size ".toList ++ eof))

/-- The messages and parts of messages that are a sequence of entries. -/
inductive Layout where
  | hpai
  | crd
  | header
  | connectResponse
  | stateRequest
  | stateResponse
  | disconnectRequest
  | disconnectResponse
  | tunnelRequest
  | ack
  | feature
  deriving DecidableEq, Repr

/-- Their entries. -/
def Layout.entries (eof : List Char) : Layout → List Entry
  | .hpai => hpaiEntries eof
  | .crd => crdEntries eof
  | .header => headerEntries eof
  | .connectResponse => connectResponseEntries eof
  | .stateRequest => stateRequestEntries eof
  | .stateResponse => stateResponseEntries eof
  | .disconnectRequest => disconnectRequestEntries eof
  | .disconnectResponse => disconnectResponseEntries eof
  | .tunnelRequest => tunnelRequestEntries eof
  | .ack => ackEntries eof
  | .feature => featureEntries eof

/-- The entries whose absence is told with the same words: the channel and the number of an acknowledgement; of a feature response these,
and the feature and the status. -/
def Layout.twins : Layout → List (Nat × Nat)
  | .ack => [(5, 6)]
  | .feature => [(5, 6), (8, 9)]
  | _ => []

/-- The entries whose value is not told: the version. -/
def Layout.blind : Layout → List Nat
  | .header | .connectResponse | .stateRequest | .stateResponse | .disconnectResponse => [1]
  | _ => []

end Knx.Spec
