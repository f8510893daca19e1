import Verif.Model.Discover
import Verif.Spec.Report
import Verif.Props.Search
import Verif.Lemmas.Addresses

/-!
# Properties of the program `discover` (C85)
-/

namespace Knx
open Spec

/-! ## The text is the report -/

theorem toString_nat (n : Nat) : (toString n).toList = showNat n := by
  simp [showNat, toString, Nat.repr]

theorem toString_str (s : String) : toString s = s := rfl

theorem toList_dot : ".".toList = ['.'] := rfl
theorem toList_colon : ":".toList = [':'] := rfl
theorem toList_nl : "\n".toList = ['\n'] := rfl
theorem toList_open : "[".toList = ['['] := rfl
theorem toList_close : "]".toList = [']'] := rfl
theorem toList_comma : ", ".toList = [',', ' '] := rfl

theorem ipText_toList (a : Ipv4) : (ipText a).toList = showIp a := by
  simp only [ipText, showIp, String.toList_append, toString_str, toString_nat, toList_dot, List.append_assoc, List.cons_append,
    List.nil_append]

theorem six (b : Vector U8 6) : b.toList = [b[0], b[1], b[2], b[3], b[4], b[5]] := by
  apply List.ext_getElem (by simp)
  intro i h1 h2
  have : i < 6 := by simpa using h1
  have hc : i = 0 ∨ i = 1 ∨ i = 2 ∨ i = 3 ∨ i = 4 ∨ i = 5 := by omega
  rcases hc with h | h | h | h | h | h <;> subst h <;> simp

theorem sixText_toList (b : Vector U8 6) : (sixText b).toList = showBytes b.toList := by
  rw [six]
  simp only [sixText, showBytes, showItems, String.toList_append, toString_str, toString_nat, toList_open, toList_close,
    toList_comma, List.append_assoc, List.cons_append, List.nil_append]

theorem familiesText_toList (fs : List ServiceFamily) : (familiesText fs).toList = showFamilies fs := by
  simp only [familiesText, showFamilies, line, String.toList_join, List.flatMap_map, String.toList_append, toString_str,
    toString_nat, toList_nl, List.append_assoc]

theorem mediumText_toList (k : KnxMedium) : (mediumText k).toList = k.debug := by cases k <;> rfl

theorem status_toList (d : DeviceInfo) : (if d.status.bits.toNat = 1 then "yes" else "no").toList = programmingStatus d := by
  have : d.status = ⟨1⟩ ↔ d.status.bits.toNat = 1 := by
    generalize d.status = s
    obtain ⟨b⟩ := s
    simp only [DeviceStatus.mk.injEq]
    constructor
    · rintro rfl; rfl
    · intro h; exact BitVec.eq_of_toNat_eq h
  unfold programmingStatus
  by_cases h : d.status = ⟨1⟩
  · rw [if_pos h, if_pos (this.1 h)]
  · rw [if_neg h, if_neg (fun e => h (this.2 e))]

theorem showResponse_eq (r : SearchResponse) :
    showResponse r = ((report r.controlEndpoint.address r.deviceHardware r.serviceFamilies.families).toList, .ok ()) := by
  have h : showResponse r = (showEndpoint r
      ++ showDetails r (r.deviceHardware.friendlyName.toList.map fun b => Char.ofNat b.toNat), .ok ()) := rfl
  rw [h]
  unfold report showEndpoint showDetails
  simp only [String.toList_append, toString_str, toString_nat, toList_nl, ipText_toList, sixText_toList, familiesText_toList,
    mediumText_toList, status_toList, toList_dot, toList_colon, nameText, String.toList_ofList, line, showSock, KnxAddress.text,
    showU, List.append_assoc, List.cons_append, List.nil_append]

/-- The endpoints, device information and service families of the responses. -/
def contents (rs : List SearchResponse) : List (Hpai × DeviceInfo × List ServiceFamily) :=
  rs.map fun r => (r.controlEndpoint, r.deviceHardware, r.serviceFamilies.families)

theorem showResponses_eq (rs : List SearchResponse) : showResponses rs = ((reports (contents rs)).toList, .ok ()) := by
  induction rs with
  | nil => rfl
  | cons r rs ih =>
    have h : showResponses (r :: rs) = ((report r.controlEndpoint.address r.deviceHardware r.serviceFamilies.families).toList
        ++ (showResponses rs).1, (showResponses rs).2) := by
      rw [showResponses, showResponse_eq]
    rw [h, ih]
    simp only [reports, contents, List.map_cons, String.toList_join, List.flatMap_cons]

/-! ## The report says it all -/

theorem showNat_inj {n n' : Nat} (h : showNat n = showNat n') : n = n' := by
  have h1 := showNat_numeral n
  have h2 := showNat_numeral n'
  rw [h] at h1
  have p1 := (parseUInt_iff (max := n + n')).2 ⟨h1, by omega⟩
  have p2 := (parseUInt_iff (max := n + n')).2 ⟨h2, by omega⟩
  rw [p1] at p2
  simpa using p2

theorem showNat_digit {n : Nat} : ∀ c ∈ showNat n, c.isDigit = true := by
  intro c hc
  exact Nat.isDigit_of_mem_toDigits (by decide) (by decide) hc

/-- A number followed by something that is no digit can be told apart from what follows. -/
theorem num {n n' : Nat} {c c' : Char} {x x' : List Char} (h : showNat n ++ c :: x = showNat n' ++ c' :: x')
    (hc : c.isDigit = false) (hc' : c'.isDigit = false) : n = n' ∧ c = c' ∧ x = x' := by
  have e : ∀ (n : Nat) (c : Char) (x : List Char), c.isDigit = false →
      (showNat n ++ c :: x).takeWhile Char.isDigit = showNat n := by
    intro n c x hc
    rw [List.takeWhile_append_of_pos showNat_digit, List.takeWhile_cons_of_neg (by simp [hc]), List.append_nil]
  have h1 := congrArg (List.takeWhile Char.isDigit) h
  rw [e n c x hc, e n' c' x' hc'] at h1
  have h2 := showNat_inj h1
  subst h2
  have := List.append_cancel_left h
  simp at this
  exact ⟨rfl, this⟩

theorem num8 {n n' : U8} {c c' : Char} {x x' : List Char} (h : showNat n.toNat ++ c :: x = showNat n'.toNat ++ c' :: x')
    (hc : c.isDigit = false) (hc' : c'.isDigit = false) : n = n' ∧ x = x' :=
  ⟨BitVec.eq_of_toNat_eq (num h hc hc').1, (num h hc hc').2.2⟩

theorem ip_inj {a a' : Ipv4} {c c' : Char} {x x' : List Char} (h : showIp a ++ c :: x = showIp a' ++ c' :: x')
    (hc : c.isDigit = false) (hc' : c'.isDigit = false) : a = a' ∧ x = x' := by
  obtain ⟨a1, a2, a3, a4⟩ := a
  obtain ⟨b1, b2, b3, b4⟩ := a'
  simp only [showIp, List.append_assoc, List.cons_append] at h
  obtain ⟨h1, h⟩ := num8 h rfl rfl
  obtain ⟨h2, h⟩ := num8 h rfl rfl
  obtain ⟨h3, h⟩ := num8 h rfl rfl
  obtain ⟨h4, h⟩ := num8 h hc hc'
  exact ⟨by rw [h1, h2, h3, h4], h⟩

theorem six_inj {a a' : Vector U8 6} {x x' : List Char} (h : showBytes a.toList ++ x = showBytes a'.toList ++ x') :
    a = a' ∧ x = x' := by
  have e : a.toList = a'.toList ∧ x = x' := by
    rw [six, six a'] at *
    simp only [showBytes, showItems, List.append_assoc, List.cons_append, List.nil_append, List.cons.injEq, true_and] at h
    obtain ⟨h1, h⟩ := num8 h rfl rfl
    obtain ⟨h2, h⟩ := num8 (List.cons.inj h).2 rfl rfl
    obtain ⟨h3, h⟩ := num8 (List.cons.inj h).2 rfl rfl
    obtain ⟨h4, h⟩ := num8 (List.cons.inj h).2 rfl rfl
    obtain ⟨h5, h⟩ := num8 (List.cons.inj h).2 rfl rfl
    obtain ⟨h6, h⟩ := num8 (List.cons.inj h).2 rfl rfl
    exact ⟨by rw [h1, h2, h3, h4, h5, h6], h⟩
  exact ⟨Vector.toList_inj.1 e.1, e.2⟩

theorem medium_inj {k k' : KnxMedium} {x x' : List Char} (h : k.debug ++ '\n' :: x = k'.debug ++ '\n' :: x') : k = k' ∧ x = x' := by
  cases k <;> cases k' <;> simp_all [KnxMedium.debug]

theorem status_inj {d d' : DeviceInfo} {x x' : List Char}
    (h : programmingStatus d ++ '\n' :: x = programmingStatus d' ++ '\n' :: x') (hd : d.status.bits.toNat < 2)
    (hd' : d'.status.bits.toNat < 2) : d.status = d'.status ∧ x = x' := by
  rw [← status_toList, ← status_toList] at h
  have e : d.status.bits.toNat = d'.status.bits.toNat ∧ x = x' := by
    by_cases h1 : d.status.bits.toNat = 1 <;> by_cases h2 : d'.status.bits.toNat = 1 <;> simp [h1, h2] at h
    · exact ⟨by omega, h⟩
    · exact ⟨by omega, h⟩
  refine ⟨?_, e.2⟩
  have := BitVec.eq_of_toNat_eq e.1
  revert this
  generalize d.status = s
  generalize d'.status = s'
  cases s; cases s'; intro h; simp at h; rw [h]

theorem families_inj {fs fs' : List ServiceFamily} {x x' : List Char}
    (h : showFamilies fs ++ '\n' :: x = showFamilies fs' ++ '\n' :: x') : fs = fs' ∧ x = x' := by
  have he : ∀ (f : ServiceFamily) fs, showFamilies (f :: fs) = "⏵⏵ Service Family: ".toList ++ (showNat f.family.toNat
      ++ (" Version: ".toList ++ (showNat f.version.toNat ++ '\n' :: showFamilies fs))) := by
    intro f fs
    simp only [showFamilies, List.flatMap_cons, line, List.append_assoc, List.cons_append, List.nil_append]
  have hs : "⏵⏵ Service Family: ".toList = '⏵' :: "⏵ Service Family: ".toList := rfl
  have hv : " Version: ".toList = ' ' :: "Version: ".toList := rfl
  induction fs generalizing fs' with
  | nil =>
    cases fs' with
    | nil => simpa [showFamilies] using h
    | cons f' fs' =>
      rw [he, hs] at h
      simp [showFamilies] at h
  | cons f fs ih =>
    cases fs' with
    | nil =>
      rw [he, hs] at h
      simp [showFamilies] at h
    | cons f' fs' =>
      rw [he, he] at h
      simp only [List.append_assoc] at h
      replace h := List.append_cancel_left h
      rw [hv] at h
      simp only [List.cons_append] at h
      obtain ⟨h1, h⟩ := num8 h rfl rfl
      replace h := List.append_cancel_left h
      obtain ⟨h2, h⟩ := num8 h rfl rfl
      obtain ⟨h3, h4⟩ := ih h
      refine ⟨?_, h4⟩
      cases f; cases f'
      simp at h1 h2
      rw [h1, h2, h3]

/-- The thirty characters of a name tell its thirty bytes. -/
theorem latin_inj {a a' : Vector U8 30} {x x' : List Char}
    (h : a.toList.map (fun b : U8 => Char.ofNat b.toNat) ++ x = a'.toList.map (fun b : U8 => Char.ofNat b.toNat) ++ x') :
    a = a' ∧ x = x' := by
  obtain ⟨h1, h2⟩ := List.append_inj h (by simp)
  refine ⟨Vector.toList_inj.1 ?_, h2⟩
  have e : ∀ b : U8, BitVec.ofNat 8 (Char.ofNat b.toNat).toNat = b := by decide +kernel
  have := congrArg (List.map fun c => BitVec.ofNat 8 c.toNat) h1
  simpa [List.map_map, Function.comp_def, e] using this

/-- What a report tells of a gateway: everything but the protocol of the endpoint and the lengths of the blocks. -/
def told (x : Hpai × DeviceInfo × List ServiceFamily) :=
  (x.1.address, x.2.1.friendlyName, x.2.1.medium, x.2.1.address, x.2.1.status, x.2.1.projectId, x.2.1.serial, x.2.1.multicast,
    x.2.1.mac, x.2.2)

theorem report_inj {x x' : Hpai × DeviceInfo × List ServiceFamily} {r r' : List Char}
    (h : (report x.1.address x.2.1 x.2.2).toList ++ r = (report x'.1.address x'.2.1 x'.2.2).toList ++ r')
    (hx : x.2.1.status.bits.toNat < 2) (hx' : x'.2.1.status.bits.toNat < 2) : told x = told x' ∧ r = r' := by
  unfold report at h
  simp only [String.toList_append, toString_str, toString_nat, toList_nl, ipText_toList, sixText_toList, familiesText_toList,
    mediumText_toList, status_toList, toList_dot, toList_colon, nameText, String.toList_ofList, 
    List.append_assoc, List.cons_append, List.nil_append] at h
  replace h := List.append_cancel_left h
  obtain ⟨h1, h⟩ := ip_inj h rfl rfl
  obtain ⟨h2, _, h⟩ := num h rfl rfl
  replace h := List.append_cancel_left h
  obtain ⟨h3, h⟩ := latin_inj h
  replace h := List.append_cancel_left (List.cons.inj h).2
  obtain ⟨h4, h⟩ := medium_inj h
  replace h := List.append_cancel_left h
  obtain ⟨h5, h⟩ := num8 h rfl rfl
  obtain ⟨h6, h⟩ := num8 h rfl rfl
  obtain ⟨h7, h⟩ := num8 h rfl rfl
  replace h := List.append_cancel_left h
  obtain ⟨h8, h⟩ := status_inj h hx hx'
  replace h := List.append_cancel_left h
  obtain ⟨h9, _, h⟩ := num h rfl rfl
  replace h := List.append_cancel_left h
  obtain ⟨h10, h⟩ := six_inj h
  replace h := List.append_cancel_left (List.cons.inj h).2
  obtain ⟨h11, h⟩ := ip_inj h rfl rfl
  replace h := List.append_cancel_left h
  obtain ⟨h12, h⟩ := six_inj h
  obtain ⟨h13, h⟩ := families_inj (List.cons.inj h).2
  refine ⟨?_, h⟩
  have e1 : x.1.address = x'.1.address := by
    have := BitVec.eq_of_toNat_eq h2
    revert h1 this
    generalize x.1.address = s
    generalize x'.1.address = s'
    cases s; cases s'; intro h h'; simp at h h'; rw [h, h']
  have e2 : x.2.1.address = x'.2.1.address := by
    revert h5 h6 h7
    generalize x.2.1.address = s
    generalize x'.2.1.address = s'
    cases s; cases s'; intro h h' h''; simp at h h' h''; rw [h, h', h'']
  simp only [told, e1, h3, h4, e2, h8, BitVec.eq_of_toNat_eq h9, h10, h11, h12, h13]

theorem report_ne_nil (ep d fs) : ∃ t, (report ep d fs).toList = '⊙' :: t := by
  unfold report
  have : "⊙ ".toList = '⊙' :: [' '] := rfl
  simp only [String.toList_append, toString_str, this, List.cons_append]
  exact ⟨_, rfl⟩

/-- C85, nothing is lost: two outputs are the same text only if they are about the same gateways, in the same order, with the
same endpoint, name, medium, address, programming mode, project, serial number, multicast address, MAC address and service
families; the names may hold any characters, line feeds among them. -/
theorem C85_injective {xs xs' : List (Hpai × DeviceInfo × List ServiceFamily)} (h : reports xs = reports xs')
    (hx : ∀ x ∈ xs, x.2.1.status.bits.toNat < 2) (hx' : ∀ x ∈ xs', x.2.1.status.bits.toNat < 2) :
    xs.map told = xs'.map told := by
  replace h := congrArg String.toList h
  simp only [reports, String.toList_join, List.flatMap_map] at h
  induction xs generalizing xs' with
  | nil =>
    cases xs' with
    | nil => rfl
    | cons x' xs' =>
      obtain ⟨t, ht⟩ := report_ne_nil x'.1.address x'.2.1 x'.2.2
      simp [ht] at h
  | cons x xs ih =>
    cases xs' with
    | nil =>
      obtain ⟨t, ht⟩ := report_ne_nil x.1.address x.2.1 x.2.2
      simp [ht] at h
    | cons x' xs' =>
      rw [List.flatMap_cons, List.flatMap_cons] at h
      obtain ⟨h1, h2⟩ := report_inj h (hx _ List.mem_cons_self) (hx' _ List.mem_cons_self)
      rw [List.map_cons, List.map_cons, h1,
        ih (fun y hy => hx y (List.mem_cons_of_mem _ hy)) (fun y hy => hx' y (List.mem_cons_of_mem _ hy)) h2]

example : reports (exampleAnswers.map (·.2)) ≠ reports (exampleAnswers.reverse.map (·.2)) := by
  intro h
  have := C85_injective h
    (by intro x hx; obtain ⟨y, hy, rfl⟩ := List.mem_map.1 hx; exact (exampleAnswers_good y hy).1.2.1)
    (by intro x hx; obtain ⟨y, hy, rfl⟩ := List.mem_map.1 hx; exact (exampleAnswers_good y (List.mem_reverse.1 hy)).1.2.1)
  replace this := congrArg (List.map fun t => t.1) this
  revert this
  decide +kernel

/-! ## The program -/

/-- C85, exact behaviour: the program ends well only after its request was sent and then nothing came for 100 ms; it has printed one
report per datagram received, in that order, each the report on what the receive buffer denoted at that time. If it ends in another
way, it has printed nothing. -/
theorem C85_exact {m : Mode} {evs : List (Nat × SearchEv)} {t : List Char} {r : Res Unit}
    (h : discoverRun m evs = some (t, some r)) :
    (r = .ok () ∧ ∃ t0 ds t' rs, evs = (t0, .sendOk) :: arrivals ds ++ [(t', .timer)] ∧ Answers m (ds.map (·.2)) rs ∧
      (match ds.getLast? with | some x => x.1 | none => t0) + 100 ≤ t' ∧ String.ofList t = reports (contents rs)) ∨
    (r ≠ .ok () ∧ t = []) := by
  unfold discoverRun at h
  split at h
  · rename_i x hx
    cases x with
    | ok rs =>
      left
      obtain ⟨t0, ds, t', h1, h2, h3⟩ := C60_exact hx
      simp only [discover, showResponses_eq, Option.some.injEq, Prod.mk.injEq] at h
      exact ⟨h.2.symm, t0, ds, t', rs, h1, h2, h3, by rw [← h.1, String.ofList_toList]⟩
    | err => simp only [discover, Option.some.injEq, Prod.mk.injEq] at h; right; exact ⟨by rw [← h.2]; simp, h.1.symm⟩
    | panic => simp only [discover, Option.some.injEq, Prod.mk.injEq] at h; right; exact ⟨by rw [← h.2]; simp, h.1.symm⟩
  · simp at h
  · cases h

/-- C85 where it holds: if the datagrams are search responses with at most 15 service families, the program prints the reports on
all of them in the order of their arrival. -/
theorem C85_partial (m : Mode) (xs : List (Nat × Hpai × DeviceInfo × List ServiceFamily)) (t t' : Nat)
    (hx : ∀ x ∈ xs, GoodAnswer x.2) (hp : (t :: xs.map (·.1)).Pairwise (· ≤ ·)) (ht : lastTime t xs + 100 ≤ t') :
    discoverRun m ((t, .sendOk) :: answering xs ++ [(t', .timer)]) = some ((reports (xs.map (·.2))).toList, some (.ok ())) := by
  have := C60_all_partial m 100 xs 0 t t' hx (List.pairwise_cons.2 ⟨fun _ _ => Nat.zero_le _, hp⟩) ht
  unfold discoverRun
  rw [this]
  simp only [discover, showResponses_eq, contents, List.map_map]
  rfl

example : discoverRun .debug ((5, .sendOk) :: answering exampleAnswers ++ [(190, .timer)])
    = some ((reports (exampleAnswers.map (·.2))).toList, some (.ok ())) :=
  C85_partial .debug exampleAnswers 5 190 exampleAnswers_good (by decide) (by decide)

/-- C85 refuted: whatever gateways have answered, one datagram that does not start with the length of a header makes the program end
with an error and print nothing. -/
theorem C85_violated_discards (m : Mode) (xs : List (Nat × Hpai × DeviceInfo × List ServiceFamily)) (t t' : Nat)
    (hx : ∀ x ∈ xs, GoodAnswer x.2) (hp : (t :: xs.map (·.1)).Pairwise (· ≤ ·)) (ht : lastTime t xs ≤ t')
    (b : U8) (rest : Bytes) (hb : b ≠ 6) :
    discoverRun m ((t, .sendOk) :: answering xs ++ [(t', .dgram (b :: rest))]) = some ([], some .err) := by
  have := C60_violated_discards m 100 xs 0 t t' hx (List.pairwise_cons.2 ⟨fun _ _ => Nat.zero_le _, hp⟩) ht b rest hb
  unfold discoverRun
  rw [this]
  rfl

/-- The output given in the documentation of the program (discover.rs:8-22). -/
def documented : String :=
  "⊙ 192.168.0.203:3671
⏵ Name: MDT KNX TP IP
⏵ Medium: TP1
⏵ Individual Addr: 15.15.0
⏵ Programming Mode: no
⏵ Project Installation ID: 0
⏵ Serial: [0, 1, 2, 3, 4, 5]
⏵ Multicast Addr: 224.0.23.12
⏵ MAC Addr: [0, 1, 2, 3, 4, 5]
⏵⏵ Service Family: 2 Version: 2
⏵⏵ Service Family: 3 Version: 2
⏵⏵ Service Family: 4 Version: 2
⏵⏵ Service Family: 5 Version: 2
⏵⏵ Service Family: 7 Version: 2

"

/-- C85 refuted: whatever is received, the output is never the documented one, for the name is always printed with thirty
characters. -/
theorem C85_violated_name (m : Mode) (evs : List (Nat × SearchEv)) (r : Option (Res Unit)) :
    discoverRun m evs ≠ some (documented.toList, r) := by
  have hn : documented.toList ≠ [] := by decide +kernel
  have hd : documented.toList = "⊙ ".toList ++ (showIp ⟨192, 168, 0, 203⟩ ++ ':' :: (showNat 3671 ++ '\n' :: ("⏵ Name: ".toList
      ++ ("MDT KNX TP IP\n⏵".toList ++ documented.toList.drop 44)))) := by decide +kernel
  intro h
  unfold discoverRun at h
  split at h
  · rename_i x hx
    cases x with
    | ok rs =>
      simp only [discover, showResponses_eq, Option.some.injEq, Prod.mk.injEq] at h
      replace h := h.1
      cases rs with
      | nil => exact hn h.symm
      | cons s rs =>
        simp only [reports, contents, List.map_cons, String.toList_join, List.flatMap_cons] at h
        rw [hd] at h
        unfold report at h
        simp only [String.toList_append, toString_str, toString_nat, toList_nl, ipText_toList, toList_colon, nameText,
          String.toList_ofList, List.append_assoc, List.cons_append, List.nil_append] at h
        replace h := List.append_cancel_left h
        obtain ⟨-, h⟩ := ip_inj h rfl rfl
        obtain ⟨-, -, h⟩ := num h rfl rfl
        replace h := List.append_cancel_left h
        have hl := congrArg (fun l => l[14]?) h
        rw [List.getElem?_append_left (by simp), List.getElem?_append_left (by decide)] at hl
        have e : ∀ b : U8, Char.ofNat b.toNat ≠ '⏵' := by decide +kernel
        rw [List.getElem?_map, List.getElem?_eq_getElem (by simp)] at hl
        have e' : "MDT KNX TP IP\n⏵".toList[14]? = some '⏵' := rfl
        rw [e'] at hl
        exact e _ (Option.some.inj hl)
    | err => simp only [discover, Option.some.injEq, Prod.mk.injEq] at h; exact hn h.1.symm
    | panic => simp only [discover, Option.some.injEq, Prod.mk.injEq] at h; exact hn h.1.symm
  · simp only [Option.some.injEq, Prod.mk.injEq] at h; exact hn h.1.symm
  · cases h

end Knx
