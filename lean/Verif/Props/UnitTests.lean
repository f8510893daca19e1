import Verif.Props.Timing
import Verif.Props.DpFloat
import Verif.Props.Search

/-!
# The project's own unit tests, run in the model

Every `#[test]` of the crate with its input and its assertions. These are no theorems about the code; they check the model against
what the authors of the code observed.
-/

namespace Knx
open Spec

/-- dp_types.rs:489-498 `conversion`; the four decimal numbers are written as the `f32` values they denote. -/
example : ∀ v ∈ [(0 : ℚ), -11324621 / 2 ^ 20, -5368709 / 2 ^ 29, 6191841 / 2 ^ 15],
    ∃ b, floatToBytes .debug 20 (.fin v) = some (.ok b) ∧ bytesToFloat .debug b = .ok (.fin v) := by
  intro v hv
  simp only [List.mem_cons, List.not_mem_nil, or_false] at hv
  rcases hv with rfl | rfl | rfl | rfl
  · exact ⟨[0, 0], by decide +kernel, by decide +kernel⟩
  · exact ⟨[0x83, 0xc8], by decide +kernel, by decide +kernel⟩
  · exact ⟨[0x87, 0xff], by decide +kernel, by decide +kernel⟩
  · exact ⟨[0x24, 0x9d], by decide +kernel, by decide +kernel⟩

/-- emi.rs:328-339 `bit_update`. -/
example (m : Mode) : ∃ c i, runRd (Cemi.fromPacket m) id [0x29, 0x00, 0xbc, 0xe0, 0x11, 0x0b, 0x0a, 0x01, 0x01, 0x00, 0x81] = .ok c ∧
    c.msgCode = 0x29 ∧ c.infos.length = 0 ∧ LDataInd.fromCemi c = .ok i ∧ i.value.length = 1 :=
  ⟨⟨0x29, [], [0xbc, 0xe0, 0x11, 0x0b, 0x0a, 0x01, 0x01, 0x00, 0x81]⟩,
    ⟨⟨0x29, [], [0xbc, 0xe0, 0x11, 0x0b, 0x0a, 0x01, 0x01, 0x00, 0x81]⟩, LData.ofControl 0x110b 0x0a01 0xbc, [1]⟩,
    by cases m <;> decide +kernel, rfl, rfl, by decide +kernel, rfl⟩

/-- core.rs:1299-1312 `parse_search_request`. -/
example : (runRd SearchRequest.fromPacket (·.discoveryEndpoint.address)
    [0x06, 0x10, 0x02, 0x01, 0x00, 0x0E, 0x08, 0x01, 192, 168, 200, 12, 0x0E, 0x57]) = .ok ⟨⟨192, 168, 200, 12⟩, 3671⟩ := by
  decide +kernel

/-- The packet of core.rs:1317-1345. -/
def searchResponseTest : Bytes := [0x06, 0x10, 0x02, 0x02, 0x00, 0x4E] ++ [0x08, 0x01] ++ [192, 168, 200, 12]
  ++ [0xC3, 0xB4, 0x36, 0x01, 0x02, 0x01, 0x11, 0x00, 0x00, 0x11] ++ [0x00, 0x01, 0x11, 0x11, 0x11, 0x11] ++ [224, 0, 23, 12]
  ++ [0x45, 0x49, 0x42, 0x6E, 0x65, 0x74] ++ [77, 89, 72, 79, 77, 69, 10] ++ List.replicate 23 0x00
  ++ [0x0A, 0x02, 0x02, 0x01, 0x03, 0x01, 0x04, 0x01, 0x05, 0x01]

/-- core.rs:1314-1367 `parse_search_response`. -/
example (m : Mode) : ∃ r, runRd (SearchResponse.fromPacket m) id searchResponseTest = .ok r ∧
    r.deviceHardware.medium = .tp1 ∧ r.deviceHardware.status = ⟨1⟩ ∧
    KnxAddress.parse "1.1.0".toList = .ok (.individual r.deviceHardware.address) ∧ r.deviceHardware.projectId = 0x0011 ∧
    r.deviceHardware.serial.toList = [0x00, 0x01, 0x11, 0x11, 0x11, 0x11] ∧ r.deviceHardware.multicast = ⟨224, 0, 23, 12⟩ ∧
    r.deviceHardware.mac.toList = [0x45, 0x49, 0x42, 0x6E, 0x65, 0x74] ∧
    isoEncode "MYHOME\n".toList = some (r.deviceHardware.friendlyName.toList.take 7) ∧
    r.deviceHardware.friendlyName.toList.drop 7 = List.replicate 23 0 ∧
    r.serviceFamilies.families.length = 4 ∧ r.serviceFamilies.families[0]? = some ⟨2, 1⟩ := by
  have h : ∃ r, runRd (SearchResponse.fromPacket m) id searchResponseTest = .ok r := by
    cases hr : runRd (SearchResponse.fromPacket m) id searchResponseTest with
    | ok r => exact ⟨r, rfl⟩
    | err => exact absurd hr (by cases m <;> decide +kernel)
    | panic => exact absurd hr (by cases m <;> decide +kernel)
  obtain ⟨r, hr⟩ := h
  refine ⟨r, hr, ?_⟩
  have : Res.ok r = runRd (SearchResponse.fromPacket m) id searchResponseTest := hr.symm
  have h2 : ∀ (P : SearchResponse → Bool), (match runRd (SearchResponse.fromPacket m) id searchResponseTest with
      | .ok r => P r | _ => false) = true → P r = true := by
    intro P hP; rw [hr] at hP; exact hP
  have h3 := h2 (fun r => decide (r.deviceHardware.medium = .tp1 ∧ r.deviceHardware.status = ⟨1⟩ ∧
    KnxAddress.parse "1.1.0".toList = .ok (.individual r.deviceHardware.address) ∧ r.deviceHardware.projectId = 0x0011 ∧
    r.deviceHardware.serial.toList = [0x00, 0x01, 0x11, 0x11, 0x11, 0x11] ∧ r.deviceHardware.multicast = ⟨224, 0, 23, 12⟩ ∧
    r.deviceHardware.mac.toList = [0x45, 0x49, 0x42, 0x6E, 0x65, 0x74] ∧
    isoEncode "MYHOME\n".toList = some (r.deviceHardware.friendlyName.toList.take 7) ∧
    r.deviceHardware.friendlyName.toList.drop 7 = List.replicate 23 0 ∧
    r.serviceFamilies.families.length = 4 ∧ r.serviceFamilies.families[0]? = some ⟨2, 1⟩)) (by cases m <;> decide +kernel)
  exact of_decide_eq_true h3

/-- apdu.rs:98-103 `test_group_read`. -/
example : Apci.groupValueRead.packet = (0x00, 0x00) := by decide

/-- addresses.rs:249-268 `parse_individual_address`. -/
example : KnxAddress.parse "1.2.3".toList = .ok (.individual ⟨1, 2, 3⟩) ∧ KnxAddress.parse "1.2.3.4".toList = .err ∧
    KnxAddress.parse "1.2".toList = .err ∧ KnxAddress.parse "1.2.256".toList = .err := by decide +kernel

/-- addresses.rs:270-302 `parse_group_address`. -/
example : KnxAddress.parse "1".toList = .ok (.group1 ⟨1⟩) ∧ KnxAddress.parse "1/2".toList = .ok (.group2 ⟨1, 2⟩) ∧
    KnxAddress.parse "1/2/3".toList = .ok (.group3 ⟨1, 2, 3⟩) ∧ KnxAddress.parse "1/2/3/4".toList = .err := by decide +kernel

/-- addresses.rs:304-321 `parse_group_address_from_u8`. -/
example : ∀ a ∈ [(⟨1, 1, 1⟩ : Group3), ⟨0b10000, 0b100, 0b10000000⟩], Group3.ofU16 a.toU16 = a := by decide

/-- The answer of the mock server of both tests of udp.rs (582-588, 619-625). -/
def mockGrant : Bytes := [0x06, 0x10, 0x02, 0x06, 0x00, 0x14, 0x08, 0x00, 0x08, 0x01, 0x00, 0x00, 0x00, 0x00, 0x00, 0x00, 0x04, 0x04, 0xff, 0xf0]
  ++ List.replicate 80 0

/-- udp.rs:575-607 `test_connect`. -/
example (m : Mode) : ∃ s tr c, Exec m s tr ∧ s.bg.conn = some c ∧ c.channel = 8 ∧ s.bg.now = 0 := by
  obtain ⟨s, tr, h1, h2⟩ := exec_of_evs (m := m) (evs := [.bg .run, .bg .sendOk, .bg (.dgram mockGrant), .bg .run])
    (f := fun x => (x.1.bg.conn.map (·.channel), x.1.bg.now)) (y := (some 8, 0)) (by cases m <;> decide +kernel)
  simp only [Prod.mk.injEq, Option.map_eq_some_iff] at h2
  obtain ⟨⟨c, h3, h4⟩, h5⟩ := h2
  exact ⟨s, tr, c, h1, h3, h4, h5⟩

/-- udp.rs:609-671 `test_get_connectionstate`: the mock server answers one connection state request. The test gets the state if its
call reads the answer. -/
example (m : Mode) : ∃ s tr, Exec m s tr ∧ calls tr = [.status] ∧ returned tr = [.state ⟨8, 0⟩] ∧ s.bg.conn.map (·.channel) = some 8 := by
  obtain ⟨s, tr, h1, h2⟩ := exec_of_evs (m := m) (evs := [.bg .run, .bg .sendOk, .bg (.dgram mockGrant), .bg .run, .delay 10,
      .api (.call .status), .api .run, .api .run, .api .sendOk, .api (.dgram (ConnectionstateResponse.mk 8 0).packet)])
    (f := fun x => (calls x.2, returned x.2, x.1.bg.conn.map (·.channel))) (y := ([.status], [.state ⟨8, 0⟩], some 8))
    (by cases m <;> decide +kernel)
  simp only [Prod.mk.injEq] at h2
  exact ⟨s, tr, h1, h2.1, h2.2.1, h2.2.2⟩

set_option synthInstance.maxSize 1000 in
/-- With timers on time, though, the one request the mock server answers is the heart beat that is sent as soon as the connection is up,
and the background task reads the answer: the call of the test waits for an answer nobody sends (see C84). -/
example (m : Mode) : ∃ s tr s' tr' q, Exec m s tr ∧ PromptRun m s tr' s' ∧ calls tr' = [.status] ∧ returned tr' = [] ∧
    taskSent tr' = [q] ∧ received tr' = [(ConnectionstateResponse.mk 8 0).packet] ∧ apiSent tr' = [q] ∧ s'.api = .stRecv := by
  obtain ⟨s, tr, s', tr', h1, h2, h3⟩ := prompt_of_evs (m := m) (evs := [.bg .run, .bg .sendOk, .bg (.dgram mockGrant), .bg .run])
    (evs' := [.bg .tick, .bg .sendOk, .bg (.dgram (ConnectionstateResponse.mk 8 0).packet), .delay 10,
      .api (.call .status), .api .run, .api .run, .api .sendOk, .delay 1000])
    (f := fun _ y => (calls y.2, returned y.2, taskSent y.2, received y.2, apiSent y.2, y.1.api))
    (y := ([.status], [], [[6, 16, 2, 7, 0, 16, 8, 0, 8, 1, 0, 0, 0, 0, 0, 0]], [(ConnectionstateResponse.mk 8 0).packet],
      [[6, 16, 2, 7, 0, 16, 8, 0, 8, 1, 0, 0, 0, 0, 0, 0]], .stRecv)) (by cases m <;> decide +kernel)
  simp only [Prod.mk.injEq] at h3
  exact ⟨s, tr, s', tr', _, h1, h2, h3.1, h3.2.1, h3.2.2.1, h3.2.2.2.1, h3.2.2.2.2.1, h3.2.2.2.2.2⟩

end Knx
