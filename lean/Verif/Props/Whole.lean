import Verif.Spec.Whole
import Verif.Props.Transport

/-!
# C106: datagrams that are not exactly one frame
-/

namespace Knx
open Spec

theorem stands_iff (d f : Bytes) : Stands d f ↔ f = padded f.length d := by
  rw [← fill_eq_padded]
  constructor
  · rintro (⟨rest, rfl⟩ | ⟨n, hn, h⟩)
    · simp
    · rw [h]; simp [List.take_of_length_le]
  · intro h
    by_cases hl : f.length ≤ d.length
    · left
      refine ⟨d.drop f.length, ?_⟩
      rw [Nat.sub_eq_zero_of_le hl] at h
      simp only [List.replicate_zero, List.append_nil] at h
      have := List.take_append_drop f.length d
      rw [← h] at this
      exact this.symm
    · right
      refine ⟨f.length - d.length, by omega, ?_⟩
      rw [List.take_of_length_le (by omega)] at h
      exact h

theorem padded_zeros (n k : Nat) (b : Bytes) : padded n (b ++ List.replicate k 0) = padded n b := by
  rw [← fill_eq_padded, ← fill_eq_padded, List.take_append, List.take_replicate, List.append_assoc, List.replicate_append_replicate]
  congr 2
  simp only [List.length_append, List.length_replicate]
  omega

theorem seen_eq (d : Bytes) : seen d = d.take 100 ++ List.replicate (100 - d.length) 0 := (fill_eq_padded 100 d).symm

theorem padded_seen (n : Nat) (d : Bytes) : padded n (seen d) = padded n (d.take 100) := by
  rw [seen_eq, padded_zeros]

theorem padded_left (h r : Bytes) (n : Nat) : padded (h.length + n) (h ++ r) = h ++ padded n r := by
  rw [← fill_eq_padded, ← fill_eq_padded, List.take_length_add_append, List.append_assoc]
  congr 3
  simp only [List.length_append]
  omega

theorem stands_seen (d f : Bytes) : Stands (seen d) f ↔ Stands (d.take 100) f := by
  rw [stands_iff, stands_iff, padded_seen]

theorem stands_short {d f : Bytes} (h : f.length ≤ 100) : Stands (d.take 100) f ↔ ∃ rest, seen d = f ++ rest := by
  rw [← stands_seen]
  constructor
  · rintro (h | ⟨n, hn, h'⟩)
    · exact h
    · have := congrArg List.length h'
      simp [seen_length] at this
      omega
  · exact Or.inl

theorem frame_length (s : Nat) (b : Bytes) : (frame s b).length = 6 + b.length := by
  simp [frame, word]; omega

theorem decodes_whole {d : Bytes} {x : Response} : Decodes (seen d) x ↔ ∃ f, Whole f x ∧ Stands (d.take 100) f := by
  constructor
  · intro h
    generalize hr : seen d = r at h
    cases h with
    | tunnelingRequest channel seq pad len rest h1 h2 =>
      refine ⟨_, .tunnelingRequest channel seq pad (padded (len - 10) rest) (by rw [padded_length]; omega), ?_⟩
      rw [← stands_seen, hr, stands_iff, frame_length]
      have e : frame TUNNELING_REQUEST ([4, channel, seq, pad] ++ padded (len - 10) rest) =
          (header TUNNELING_REQUEST len ++ [4, channel, seq, pad]) ++ padded (len - 10) rest := by
        simp only [frame, header, List.length_append, padded_length, List.append_assoc]
        have : 6 + ([4, channel, seq, pad].length + (len - 10)) = len := by simp; omega
        rw [this]
      have hh : (header TUNNELING_REQUEST len ++ [4, channel, seq, pad]).length = 10 := by simp [header, word]
      rw [e]
      have hl : 6 + ([4, channel, seq, pad] ++ padded (len - 10) rest).length = 10 + (len - 10) := by
        simp [padded_length]; omega
      rw [hl]
      conv => rhs; rw [← hh, padded_left, hh]
    | tunnelingAck channel seq status rest => exact ⟨_, .tunnelingAck channel seq status, (stands_short (by simp [frame, word])).2 ⟨rest, hr⟩⟩
    | featureResponse channel seq res status value f rest =>
      exact ⟨_, .featureResponse channel seq res status value f, (stands_short (by simp [frame, word])).2 ⟨rest, hr⟩⟩
    | connectionstateResponse channel status rest =>
      exact ⟨_, .connectionstateResponse channel status, (stands_short (by simp [frame, word])).2 ⟨rest, hr⟩⟩
    | disconnectResponse channel status rest =>
      exact ⟨_, .disconnectResponse channel status, (stands_short (by simp [frame, word])).2 ⟨rest, hr⟩⟩
  · rintro ⟨f, hf, hs⟩
    cases hf with
    | tunnelingRequest channel seq pad cemi hc =>
      rw [← stands_seen, stands_iff] at hs
      have hl := frame_length TUNNELING_REQUEST ([4, channel, seq, pad] ++ cemi)
      have e : frame TUNNELING_REQUEST ([4, channel, seq, pad] ++ cemi) =
          (header TUNNELING_REQUEST (10 + cemi.length) ++ [4, channel, seq, pad]) ++ cemi := by
        simp only [frame, header, List.length_append, List.append_assoc]
        have : 6 + ([4, channel, seq, pad].length + cemi.length) = 10 + cemi.length := by simp; omega
        rw [this]
      have hh : (header TUNNELING_REQUEST (10 + cemi.length) ++ [4, channel, seq, pad]).length = 10 := by simp [header, word]
      rw [hl, e] at hs
      have hn : 6 + ([4, channel, seq, pad] ++ cemi).length = 10 + cemi.length := by simp; omega
      rw [hn] at hs
      have h10 := congrArg (List.take 10) hs
      rw [List.take_left' hh] at h10
      unfold padded at h10
      rw [List.take_take, Nat.min_eq_left (by omega), List.take_append_of_le_length (by rw [seen_length]; omega)] at h10
      have e2 : seen d = (header TUNNELING_REQUEST (10 + cemi.length) ++ [4, channel, seq, pad]) ++ (seen d).drop 10 := by
        rw [h10, List.take_append_drop]
      have hd := congrArg (List.drop 10) hs
      rw [List.drop_left' hh] at hd
      have e3 : padded cemi.length ((seen d).drop 10) = cemi := by
        conv => rhs; rw [hd]
        unfold padded
        rw [List.drop_take, show 10 + cemi.length - 10 = cemi.length from by omega,
          List.drop_append_of_le_length (by rw [seen_length]; omega), List.take_append, List.take_append, List.take_replicate,
          List.take_replicate]
        congr 2
        omega
      rw [e2]
      have := Decodes.tunnelingRequest channel seq pad (10 + cemi.length) ((seen d).drop 10) (by omega) (by omega)
      rw [show 10 + cemi.length - 10 = cemi.length from by omega, e3] at this
      exact this
    | tunnelingAck channel seq status =>
      obtain ⟨rest, h⟩ := (stands_short (by simp [frame, word])).1 hs; rw [h]; exact .tunnelingAck ..
    | featureResponse channel seq res status value f =>
      obtain ⟨rest, h⟩ := (stands_short (by simp [frame, word])).1 hs; rw [h]; exact .featureResponse ..
    | connectionstateResponse channel status =>
      obtain ⟨rest, h⟩ := (stands_short (by simp [frame, word])).1 hs; rw [h]; exact .connectionstateResponse ..
    | disconnectResponse channel status =>
      obtain ⟨rest, h⟩ := (stands_short (by simp [frame, word])).1 hs; rw [h]; exact .disconnectResponse ..

/-- C106: what the task makes of a datagram, exactly: it is taken for message `x` if and only if its first 100 bytes are a frame
denoting `x` followed by anything, or such a frame without some zeros at its end. -/
theorem C106_exact (d : Bytes) (x : Response) : parseResponse (buffer d) = .ok x ↔ ∃ f, Whole f x ∧ Stands (d.take 100) f := by
  rw [buffer_eq_seen, C21_dispatch_exact, decodes_whole]

theorem whole_length {f : Bytes} {x : Response} (h : Whole f x) : lengthField f = some f.length ∧ 8 ≤ f.length := by
  cases h with
  | tunnelingRequest channel seq pad cemi h =>
    refine ⟨?_, by simp [frame_length]; omega⟩
    rw [frame_length]
    simp only [frame, word, lengthField, List.cons_append, List.nil_append, byte, List.length_cons]
    simp
    omega
  | _ => exact ⟨by simp [frame, word, lengthField, byte], by simp [frame_length]⟩

/-- C106: a datagram of at most 100 bytes that is exactly one frame is taken for what it denotes; and a datagram that is
taken for a message and whose length field is its size is exactly one frame denoting this message. -/
theorem C106_whole_partial (d : Bytes) (x : Response) (h : d.length ≤ 100) (hl : lengthField d = some d.length) :
    parseResponse (buffer d) = .ok x ↔ Whole d x := by
  rw [C106_exact, List.take_of_length_le h]
  constructor
  · rintro ⟨f, hf, ⟨rest, rfl⟩ | ⟨n, hn, rfl⟩⟩
    · obtain ⟨h1, h2⟩ := whole_length hf
      have : lengthField (f ++ rest) = lengthField f := by
        match f, h2 with
        | _ :: _ :: _ :: _ :: _ :: _ :: _, _ => rfl
      rw [this, h1] at hl
      simp at hl
      subst hl
      simpa using hf
    · obtain ⟨h1, h2⟩ := whole_length hf
      exfalso
      have : lengthField (d ++ List.replicate n 0) = lengthField d := by
        match d, hl with
        | _ :: _ :: _ :: _ :: _ :: _ :: _, _ => rfl
      rw [this, hl] at h1
      simp at h1
      omega
  · intro hf
    exact ⟨d, hf, Or.inl ⟨[], by simp⟩⟩

theorem onDatagram_of {d : Bytes} {x : Response} (h : parseResponse (buffer d) = .ok x) : d ≠ [] := by
  rintro rfl
  rw [buffer_eq_seen, C21_dispatch_exact] at h
  exact decodes_nil h

/-- C106: what follows the frame, another frame for example, has no effect at all, and a frame whose last bytes are zeros has the
same effect without them: two datagrams that are taken for the same message are followed by the same observations and the same state. -/
theorem C106_same {k : Kind} {m : Mode} {s : Bg} {d d' f : Bytes} {x : Response} (hpc : s.pc = .recv) (hf : Whole f x)
    (h : Stands (d.take 100) f) (h' : Stands (d'.take 100) f) :
    ∃ s' o, bgStep k m s (.dgram d) = some (s', .rx d :: o) ∧ bgStep k m s (.dgram d') = some (s', .rx d' :: o) := by
  have h1 := (C106_exact d x).2 ⟨f, hf, h⟩
  have h2 := (C106_exact d' x).2 ⟨f, hf, h'⟩
  have e : onDatagram d = onDatagram d' := by
    have n1 := onDatagram_of h1
    have n2 := onDatagram_of h2
    unfold onDatagram
    rw [if_neg (by simpa using n1), if_neg (by simpa using n2), h1, h2]
  exact ⟨_, _, by simp [bgStep, hpc]; exact ⟨rfl, rfl⟩, by simp [bgStep, hpc, e]⟩

/-- The frame `06 10 02 0a 00 08`: header of a disconnect response without its body. -/
def stub : Bytes := header DISCONNECT_RESPONSE 8

/-- C106 is violated: in every state in which the task receives, six bytes that are not a frame end the task. -/
theorem C106_violated_short (k : Kind) (m : Mode) (s : Bg) (hpc : s.pc = .recv) :
    (∀ x, ¬ Whole stub x) ∧ bgStep k m s (.dgram stub) = some ({ s with pc := .done }, [.rx stub, .exit]) := by
  refine ⟨fun x hx => ?_, ?_⟩
  · have := (whole_length hx).2
    exact absurd this (by decide)
  · have h1 : parseResponse (buffer stub) = .ok (.disconnectResponse ⟨0, 0⟩) :=
      (C106_exact _ _).2 ⟨_, .disconnectResponse 0 0, Or.inr ⟨2, by omega, by decide⟩⟩
    have : onDatagram stub = .done := by
      unfold onDatagram
      rw [if_neg (by decide), h1]
    simp [bgStep, hpc, this, endObs]

/-- C106 is violated: of two telegrams in one datagram the second is lost, with the acknowledgement of the first one only. -/
theorem C106_violated_long (k : Kind) (m : Mode) (s : Bg) (hpc : s.pc = .recv) :
    (∀ x, ¬ Whole (req7 ++ req7) x) ∧
    ∃ s' o, bgStep k m s (.dgram (req7 ++ req7)) = some (s', .rx (req7 ++ req7) :: o) ∧
      bgStep k m s (.dgram req7) = some (s', .rx req7 :: o) := by
  refine ⟨fun x hx => ?_, ?_⟩
  · have := (whole_length hx).1
    exact absurd this (by decide)
  · have hw : Whole req7 (.tunnelingRequest ⟨7, 0, [0x29, 0, 0xbc, 0xe0, 0x11, 2, 8, 1, 1, 0, 0x81]⟩) := by
      rw [req7_eq]; exact .tunnelingRequest _ _ _ _ (by simp)
    exact C106_same hpc hw (Or.inl ⟨req7, by decide⟩) (Or.inl ⟨[], by decide⟩)

/-- C106 is violated for connect responses too: their length field need not be their size, it only must not be less than 8. -/
theorem C106_violated_connect (r : ConnectionResponse) (len : Nat) (d : Bytes) (hs : r.status = 0) (hi : IndInRange r.crd.address)
    (h8 : 8 ≤ len) (hl : len < 65536) (h : Stands (d.take 100) (connectResponse len r)) : tryConnect (buffer d) = .ok r := by
  rw [tryConnect_iff]
  obtain ⟨rest, h⟩ := (stands_short (by simp [connectResponse, header, hpai, word])).1 h
  exact ⟨hs, len, rest, h8, hl, hi, h⟩

/-- C106: and this is exactly what is taken for a granted connection. -/
theorem C106_connect_exact (d : Bytes) (r : ConnectionResponse) : tryConnect (buffer d) = .ok r ↔
    r.status = 0 ∧ IndInRange r.crd.address ∧ ∃ len, 8 ≤ len ∧ len < 65536 ∧ Stands (d.take 100) (connectResponse len r) := by
  constructor
  · intro h
    obtain ⟨h1, len, rest, h2, h3, h4, h5⟩ := (tryConnect_iff d r).1 h
    exact ⟨h1, h4, len, h2, h3, (stands_short (by simp [connectResponse, header, hpai, word])).2 ⟨rest, h5⟩⟩
  · rintro ⟨h1, h2, len, h3, h4, h5⟩
    exact C106_violated_connect r len d h1 h2 h3 h4 h5

/-- The case of C106: a reachable state that receives; the six bytes, and two frames in one datagram. -/
example (m : Mode) (k : Kind) : ∃ s tr, Reaches m k s tr ∧ s.pc = .recv ∧ s.conn.isSome ∧ stub.length = 6 ∧ (req7 ++ req7).length ≤ 100 := by
  refine ⟨_, _, reaches_link m k grants7, rfl, rfl, rfl, by decide⟩

/-- A datagram that grants a connection although its length field says 99 and its last byte is missing. -/
example : ∃ r d, tryConnect (buffer d) = .ok r ∧ lengthField d = some 99 ∧ d.length = 19 := by
  refine ⟨⟨7, 0, ⟨1, ⟨⟨192, 168, 1, 2⟩, 3671⟩⟩, ⟨⟨1, 1, 0⟩⟩⟩,
    [6, 0x10, 2, 6, 0, 99, 7, 0, 8, 1, 192, 168, 1, 2, 0x0e, 0x57, 4, 4, 0x11], ?_, rfl, rfl⟩
  exact (C106_connect_exact _ _).2 ⟨rfl, by unfold IndInRange; decide, 99, by omega, by omega, Or.inr ⟨1, by omega, by decide⟩⟩

/-- A whole frame with the right length. -/
example : lengthField req7 = some req7.length ∧ req7.length ≤ 100 ∧
    Whole req7 (.tunnelingRequest ⟨7, 0, [0x29, 0, 0xbc, 0xe0, 0x11, 2, 8, 1, 1, 0, 0x81]⟩) := by
  refine ⟨by decide, by decide, ?_⟩
  rw [req7_eq]; exact .tunnelingRequest _ _ _ _ (by simp)

end Knx
