import Verif.Spec.Cuts
import Verif.Props.Layouts

/-!
# Packets that are cut short, or followed by something (C132)
-/

namespace Knx

open Spec

/-! ## Readers do not look at what they do not read -/

/-- What a reader returns does not depend on what it leaves. -/
def Local {α : Type} (p : TRd α) : Prop := ∀ d a r, p d = .ok (a, r) → ∀ e, p (d ++ e) = .ok (a, r ++ e)

theorem local_pure {α : Type} (a : α) : Local (pure a : TRd α) := by
  intro d b r h e
  have h : TRes.ok (a, d) = TRes.ok (b, r) := h
  cases h
  rfl

theorem local_u8 (t : Text) : Local (TRd.u8 t) := by
  intro d b r h e
  cases d with
  | nil => cases h
  | cons a d =>
    cases h
    rfl

theorem local_u16 (t : Text) : Local (TRd.u16 t) := by
  intro d b r h e
  match d with
  | [] => cases h
  | [_] => cases h
  | a :: c :: d =>
    cases h
    rfl

theorem local_ensure (c : Bool) (t : Text) : Local (TRd.ensure c t) := by
  intro d b r h e
  cases c <;> cases h
  rfl

theorem local_lift {α : Type} (v : Res α) (t : Text) : Local (TRd.lift v t) := by
  intro d b r h e
  cases v <;> cases h
  rfl

theorem local_bind {α β : Type} {p : TRd α} {f : α → TRd β} (hp : Local p) (hf : ∀ a, Local (f a)) : Local (p >>= f) := by
  intro d b r h e
  have hb : ∀ d, (p >>= f) d = match p d with
      | .ok (a, r') => f a r'
      | .err t => .err t
      | .panic => .panic := fun _ => rfl
  rw [hb] at h ⊢
  cases hd : p d with
  | ok ar =>
    obtain ⟨a, r'⟩ := ar
    rw [hd] at h
    rw [hp d a r' hd e]
    exact hf a r' b r h e
  | err t =>
    rw [hd] at h
    cases h
  | panic =>
    rw [hd] at h
    cases h

/-- Readers made of these. -/
macro "local_reader" : tactic => `(tactic|
  repeat' first
    | exact local_pure _
    | exact local_u8 _
    | exact local_u16 _
    | exact local_ensure _ _
    | exact local_lift _ _
    | assumption
    | refine local_bind ?_ fun _ => ?_)

theorem hpai_local (x : StdText) : Local (Hpai.read x) := by
  unfold Hpai.read
  local_reader

theorem crd_local (x : StdText) : Local (Crd.read x) := by
  unfold Crd.read
  local_reader

theorem header_local (x : StdText) : Local (Header.read x) := by
  unfold Header.read
  local_reader

theorem verify_local : Local verifyHeaderT := by
  unfold verifyHeaderT
  local_reader

theorem connectResponse_local (x : StdText) : Local (ConnectionResponse.read x) := by
  have := hpai_local x
  have := crd_local x
  unfold ConnectionResponse.read
  local_reader

theorem stateRequest_local (x : StdText) : Local (ConnectionstateRequest.read x) := by
  have := hpai_local x
  unfold ConnectionstateRequest.read
  local_reader

theorem stateResponse_local (x : StdText) : Local (ConnectionstateResponse.read x) := by
  unfold ConnectionstateResponse.read
  local_reader

theorem disconnectRequest_local (x : StdText) : Local (DisconnectRequest.read x) := by
  have := hpai_local x
  unfold DisconnectRequest.read
  local_reader

theorem disconnectResponse_local (x : StdText) : Local (DisconnectResponse.read x) := by
  unfold DisconnectResponse.read
  local_reader

theorem ack_local (x : StdText) : Local (TunnelingAck.read x) := by
  have := verify_local
  unfold TunnelingAck.read
  local_reader

theorem feature_local (x : StdText) : Local (FeatureResp.read x) := by
  have := verify_local
  unfold FeatureResp.read
  local_reader

theorem searchRequest_local (x : StdText) : Local (SearchRequest.read x) := by
  have := header_local x
  have := hpai_local x
  unfold SearchRequest.read
  local_reader

theorem Local.run {α : Type} {p : TRd α} (h : Local p) {d : Bytes} {a : α} (hd : runTRd p d = .ok a) (e : Bytes) :
    runTRd p (d ++ e) = .ok a := by
  unfold runTRd at hd ⊢
  cases hp : p d with
  | ok ar =>
    obtain ⟨b, r⟩ := ar
    rw [hp] at hd
    rw [h d b r hp e]
    exact hd
  | err t => rw [hp] at hd; cases hd
  | panic => rw [hp] at hd; cases hd

/-! ## The result of a decoder -/

/-- What a decoder yields. -/
def Spec.Layout.Result : Layout → Type
  | .hpai => Hpai
  | .crd => Crd
  | .header => Header
  | .connectResponse => ConnectionResponse
  | .stateRequest => ConnectionstateRequest
  | .stateResponse => ConnectionstateResponse
  | .disconnectRequest => DisconnectRequest
  | .disconnectResponse => DisconnectResponse
  | .tunnelRequest => TunnelingRequest
  | .ack => TunnelingAck
  | .feature => FeatureResp

/-- The decoders of the library. -/
def decoder (x : StdText) : (k : Layout) → TRd k.Result
  | .hpai => Hpai.read x
  | .crd => Crd.read x
  | .header => Header.read x
  | .connectResponse => ConnectionResponse.read x
  | .stateRequest => ConnectionstateRequest.read x
  | .stateResponse => ConnectionstateResponse.read x
  | .disconnectRequest => DisconnectRequest.read x
  | .disconnectResponse => DisconnectResponse.read x
  | .tunnelRequest => TunnelingRequest.read x
  | .ack => TunnelingAck.read x
  | .feature => FeatureResp.read x

theorem complaint_decoder (x : StdText) (k : Layout) (d : Bytes) : complaint x d k = (runTRd (decoder x k) d).text := by
  cases k <;> rfl

theorem decoder_follows (x : StdText) {k : Layout} (hk : k ≠ .tunnelRequest) : Follows Leaves (decoder x k) (k.entries x.eof) := by
  cases k
  · exact hpai_follows x
  · exact crd_follows x
  · exact header_follows x
  · exact connectResponse_follows x
  · exact stateRequest_follows x
  · exact stateResponse_follows x
  · exact disconnectRequest_follows x
  · exact disconnectResponse_follows x
  · exact (hk rfl).elim
  · exact ack_follows x
  · exact feature_follows x

theorem decoder_local (x : StdText) {k : Layout} (hk : k ≠ .tunnelRequest) : Local (decoder x k) := by
  cases k
  · exact hpai_local x
  · exact crd_local x
  · exact header_local x
  · exact connectResponse_local x
  · exact stateRequest_local x
  · exact stateResponse_local x
  · exact disconnectRequest_local x
  · exact disconnectResponse_local x
  · exact (hk rfl).elim
  · exact ack_local x
  · exact feature_local x

/-! ## Cut messages -/

theorem inspect_cut {es : List Entry} {d r : Bytes} (h : inspect es d = .ok r) {n : Nat} (hn : n < extent es) :
    ∃ e, severed es n = some e ∧ inspect es (d.take n) = .error e.gone := by
  induction es generalizing d n with
  | nil => simp [extent] at hn
  | cons e es ih =>
    simp only [inspect] at h
    by_cases hl : d.length < e.width
    · simp [hl] at h
    · simp only [hl, if_false] at h
      cases hw : e.wrong (value (d.take e.width)) with
      | some t => rw [hw] at h; cases h
      | none =>
        rw [hw] at h
        by_cases hc : n < e.width
        · refine ⟨e, by simp [severed, hc], ?_⟩
          have : (d.take n).length < e.width := by rw [List.length_take]; omega
          simp only [inspect, this, if_true]
        · obtain ⟨f, h1, h2⟩ := ih h (n := n - e.width) (by simp only [extent] at hn; omega)
          refine ⟨f, by simp only [severed, hc, if_false, h1], ?_⟩
          have hl' : ¬ (d.take n).length < e.width := by rw [List.length_take]; omega
          have ht : (d.take n).take e.width = d.take e.width := by rw [List.take_take]; congr 1; omega
          have hd : (d.take n).drop e.width = (d.drop e.width).take (n - e.width) := by rw [List.drop_take]
          simp only [inspect, hl', if_false, ht, hw, hd, h2]

theorem inspect_extent {es : List Entry} {d r : Bytes} (h : inspect es d = .ok r) : extent es ≤ d.length ∧ r = d.drop (extent es) := by
  induction es generalizing d with
  | nil =>
    cases h
    simp [extent]
  | cons e es ih =>
    simp only [inspect] at h
    by_cases hl : d.length < e.width
    · simp [hl] at h
    · simp only [hl, if_false] at h
      cases hw : e.wrong (value (d.take e.width)) with
      | some t => rw [hw] at h; cases h
      | none =>
        rw [hw] at h
        obtain ⟨h1, h2⟩ := ih h
        rw [List.length_drop] at h1
        refine ⟨by simp only [extent]; omega, ?_⟩
        rw [h2, List.drop_drop]
        rfl

theorem inspect_enough {es : List Entry} {d r : Bytes} (h : inspect es d = .ok r) {n : Nat} (hn : extent es ≤ n) :
    inspect es (d.take n) = .ok ((d.take n).drop (extent es)) := by
  induction es generalizing d n with
  | nil => simp [extent, inspect]
  | cons e es ih =>
    simp only [inspect] at h
    simp only [extent] at hn
    by_cases hl : d.length < e.width
    · simp [hl] at h
    · simp only [hl, if_false] at h
      cases hw : e.wrong (value (d.take e.width)) with
      | some t => rw [hw] at h; cases h
      | none =>
        rw [hw] at h
        have hl' : ¬ (d.take n).length < e.width := by rw [List.length_take]; omega
        have ht : (d.take n).take e.width = d.take e.width := by rw [List.take_take]; congr 1; omega
        have hd : (d.take n).drop e.width = (d.drop e.width).take (n - e.width) := by rw [List.drop_take]
        have := ih h (n := n - e.width) (by omega)
        simp only [inspect, hl', if_false, ht, hw, extent]
        rw [← List.drop_drop, hd, this]

theorem accepted_inspect {x : StdText} {k : Layout} (hk : k ≠ .tunnelRequest) {d : Bytes} {a : k.Result} (h : runTRd (decoder x k) d = .ok a) :
    ∃ r, inspect (k.entries x.eof) d = .ok r := by
  have hd := decoder_follows x hk d
  cases hi : inspect (k.entries x.eof) d with
  | ok r => exact ⟨r, rfl⟩
  | error t =>
    rw [hi] at hd
    have hd : decoder x k d = .err t := hd
    simp [runTRd, hd] at h

/-- C132: octets behind a packet do not change what it is decoded to. -/
theorem C132_followed_partial (x : StdText) {k : Layout} (hk : k ≠ .tunnelRequest) {d : Bytes} {a : k.Result}
    (h : runTRd (decoder x k) d = .ok a) (e : Bytes) : runTRd (decoder x k) (d ++ e) = .ok a :=
  (decoder_local x hk).run h e

/-- C132: a packet that is cut short anywhere is rejected, and the message is that of the first field that is not there completely. -/
theorem C132_cut_partial (x : StdText) {k : Layout} (hk : k ≠ .tunnelRequest) {d : Bytes} {a : k.Result} (h : runTRd (decoder x k) d = .ok a)
    {n : Nat} (hn : n < extent (k.entries x.eof)) :
    ∃ e, severed (k.entries x.eof) n = some e ∧ runTRd (decoder x k) (d.take n) = .err e.gone := by
  obtain ⟨r, hr⟩ := accepted_inspect hk h
  obtain ⟨e, h1, h2⟩ := inspect_cut hr hn
  refine ⟨e, h1, ?_⟩
  have hd := decoder_follows x hk (d.take n)
  rw [h2] at hd
  have hd : decoder x k (d.take n) = .err e.gone := hd
  simp only [runTRd, hd]

/-- C132: and a packet that is not cut short of that many octets is decoded to the same. -/
theorem C132_enough (x : StdText) {k : Layout} (hk : k ≠ .tunnelRequest) {d : Bytes} {a : k.Result} (h : runTRd (decoder x k) d = .ok a)
    {n : Nat} (hn : extent (k.entries x.eof) ≤ n) : runTRd (decoder x k) (d.take n) = .ok a := by
  obtain ⟨r, hr⟩ := accepted_inspect hk h
  have hd := decoder_follows x hk (d.take n)
  rw [inspect_enough hr hn] at hd
  obtain ⟨b, hb⟩ := hd
  have hl := decoder_local x hk _ _ _ hb (d.drop n)
  rw [List.take_append_drop] at hl
  simp only [runTRd, hl] at h
  simp only [runTRd, hb]
  exact h

/-! ## Tunneling requests -/

theorem tbind_assoc {α β γ : Type} (p : TRd α) (f : α → TRd β) (g : β → TRd γ) : (p >>= f) >>= g = p >>= fun a => f a >>= g := by
  funext d
  show (match (match p d with
      | .ok (a, r) => f a r
      | .err t => .err t
      | .panic => .panic) with
    | .ok (b, r) => g b r
    | .err t => .err t
    | .panic => .panic) = (match p d with
      | .ok (a, r) => (match f a r with
        | .ok (b, r) => g b r
        | .err t => .err t
        | .panic => .panic)
      | .err t => .err t
      | .panic => .panic)
  cases p d <;> rfl

/-- A tunneling request up to its cEMI: the announced size, the channel and the number. -/
def tunnelHead (x : StdText) : TRd (U16 × U8 × U8) := do
  verifyHeaderT
  let code ← TRd.u16 ("Unable to read code ".toList ++ x.eof)
  TRd.ensure (code == 0x0420) ("Code should be 0x0420 instead of ".toList ++ hexLow code.toNat)
  let size ← TRd.u16 ("Unable to read packet size ".toList ++ x.eof)
  let structSize ← TRd.u8 ("Unable to read message code ".toList ++ x.eof)
  TRd.ensure (structSize == 0x04) ("Size should be 0x04 instead of ".toList ++ showU structSize)
  let channel ← TRd.u8 ("Unable to read communication channel id ".toList ++ x.eof)
  let seq ← TRd.u8 ("Unable to read sequence number ".toList ++ x.eof)
  let _padding ← TRd.u8 ("Unable to read padding ".toList ++ x.eof)
  return (size, channel, seq)

theorem tunnelHead_local (x : StdText) : Local (tunnelHead x) := by
  have := verify_local
  unfold tunnelHead
  local_reader

theorem tunnelHead_follows (x : StdText) : Follows Leaves (tunnelHead x) (tunnelRequestEntries x.eof) := by
  refine follows_bind verify_follows fun _ => ?_
  refine follows_wrong2 (fun a => ite_swap (eq_lit16 0x420 (by decide) a) _ _ (by rfl)) fun _ _ => ?_
  refine follows_any2 fun size => ?_
  refine follows_wrong1 (fun a => ite_swap (eq_lit8 4 (by decide) a) _ _ (by rw [showU_decimal])) fun _ _ => ?_
  exact follows_any1 fun _ => follows_any1 fun _ => follows_any1 fun _ => follows_pure _

theorem tunnel_head (x : StdText) : TunnelingRequest.read x = tunnelHead x >>= fun y =>
    if y.1.toNat < 10 then TRd.lift .panic []
    else TRd.fill (y.1.toNat - 10) >>= fun cemi => pure ⟨y.2.1, y.2.2, cemi⟩ := by
  unfold tunnelHead TunnelingRequest.read
  simp only [tbind_assoc]
  rfl

theorem tunnel_ok {x : StdText} {d : Bytes} {a : TunnelingRequest} : runTRd (TunnelingRequest.read x) d = .ok a ↔
    ∃ s : U16, tunnelHead x d = .ok ((s, a.channel, a.seq), d.drop 10) ∧ 10 ≤ s.toNat ∧
      a.cemi = (d.drop 10).take (s.toNat - 10) ++ List.replicate (s.toNat - 10 - (d.drop 10).length) 0 := by
  have hf := tunnelHead_follows x d
  rw [tunnel_head]
  cases hi : inspect (tunnelRequestEntries x.eof) d with
  | error t =>
    rw [hi] at hf
    have hf : tunnelHead x d = .err t := hf
    simp [runTRd, bind, hf]
  | ok r =>
    rw [hi] at hf
    obtain ⟨⟨s, c, q⟩, hf⟩ := hf
    obtain ⟨_, h2⟩ := inspect_extent hi
    obtain rfl : r = d.drop 10 := h2
    have e : ∀ f : U16 × U8 × U8 → TRd TunnelingRequest, runTRd (tunnelHead x >>= f) d = runTRd (f (s, c, q)) (d.drop 10) := by
      intro f
      simp only [runTRd, bind, hf]
    rw [e]
    by_cases hs : s.toNat < 10
    · rw [if_pos hs]
      constructor
      · intro h; cases h
      · rintro ⟨s', h1, h2, _⟩
        rw [hf] at h1
        cases h1
        omega
    · rw [if_neg hs]
      constructor
      · intro h
        have h : TRes.ok (⟨c, q, (d.drop 10).take (s.toNat - 10) ++ List.replicate (s.toNat - 10 - (d.drop 10).length) 0⟩ : TunnelingRequest) =
          TRes.ok a := h
        cases h
        exact ⟨s, hf, by omega, rfl⟩
      · rintro ⟨s', h1, h2, h3⟩
        rw [hf] at h1
        cases h1
        show TRes.ok (⟨a.channel, a.seq, (d.drop 10).take (s.toNat - 10) ++ List.replicate (s.toNat - 10 - (d.drop 10).length) 0⟩ :
          TunnelingRequest) = TRes.ok a
        rw [← h3]

theorem tunnel_long {x : StdText} {d : Bytes} {y : U16 × U8 × U8} {r : Bytes} (h : tunnelHead x d = .ok (y, r)) :
    10 ≤ d.length ∧ ∀ n, 10 ≤ n → tunnelHead x (d.take n) = .ok (y, (d.take n).drop 10) := by
  have hf := tunnelHead_follows x d
  cases hi : inspect (tunnelRequestEntries x.eof) d with
  | error t =>
    rw [hi] at hf
    have hf : tunnelHead x d = .err t := hf
    rw [hf] at h
    cases h
  | ok r' =>
    have he := inspect_extent hi
    refine ⟨he.1, fun n hn => ?_⟩
    have hg := tunnelHead_follows x (d.take n)
    rw [inspect_enough hi hn] at hg
    obtain ⟨b, hb⟩ := hg
    have hl := tunnelHead_local x _ _ _ hb (d.drop n)
    rw [List.take_append_drop, h] at hl
    cases hl
    exact hb

/-- C132 for tunneling requests: cut short within the first ten octets they are rejected, as the others. -/
theorem C132_tunnel_cut (x : StdText) {d : Bytes} {a : TunnelingRequest} (h : runTRd (TunnelingRequest.read x) d = .ok a)
    {n : Nat} (hn : n < 10) :
    ∃ e, severed (tunnelRequestEntries x.eof) n = some e ∧ runTRd (TunnelingRequest.read x) (d.take n) = .err e.gone := by
  obtain ⟨s, hs, _, _⟩ := tunnel_ok.mp h
  have hf := tunnelHead_follows x d
  cases hi : inspect (tunnelRequestEntries x.eof) d with
  | error t =>
    rw [hi] at hf
    have hf : tunnelHead x d = .err t := hf
    rw [hf] at hs
    cases hs
  | ok r =>
    obtain ⟨e, h1, h2⟩ := inspect_cut hi hn
    refine ⟨e, h1, ?_⟩
    have hd := tunnelRequest_follows x (d.take n)
    rw [h2] at hd
    have hd : TunnelingRequest.read x (d.take n) = .err e.gone := hd
    simp only [runTRd, hd]

/-- C132 does not hold for tunneling requests: cut short behind the first ten octets they are accepted, with zeros for what is missing. -/
theorem C132_violated_cut (x : StdText) {d : Bytes} {a : TunnelingRequest} (h : runTRd (TunnelingRequest.read x) d = .ok a)
    {n : Nat} (hn : 10 ≤ n) : runTRd (TunnelingRequest.read x) (d.take n) =
      .ok { a with cemi := a.cemi.take (n - 10) ++ List.replicate (a.cemi.length - (n - 10)) 0 } := by
  obtain ⟨s, hs, h10, hc⟩ := tunnel_ok.mp h
  refine tunnel_ok.mpr ⟨s, (tunnel_long hs).2 n hn, h10, ?_⟩
  show a.cemi.take (n - 10) ++ List.replicate (a.cemi.length - (n - 10)) 0 = _
  rw [List.drop_take]
  generalize d.drop 10 = b at hc
  generalize s.toNat - 10 = k at hc
  generalize n - 10 = l
  rw [hc]
  simp only [List.length_append, List.length_take, List.length_replicate, List.take_append, List.take_take, List.take_replicate]
  rw [List.append_assoc, List.replicate_append_replicate, Nat.min_comm l k]
  congr 2
  omega

/-- C132, exactly, for tunneling requests: what follows does not change what they are decoded to if and only if they are as long as they
announce, or what is missing happens to be followed by zeros. -/
theorem C132_followed_exact (x : StdText) {d : Bytes} {a : TunnelingRequest} (h : runTRd (TunnelingRequest.read x) d = .ok a) (e : Bytes) :
    runTRd (TunnelingRequest.read x) (d ++ e) = .ok a ↔ ∀ b ∈ e.take (10 + a.cemi.length - d.length), b = 0 := by
  obtain ⟨s, hs, h10, hc⟩ := tunnel_ok.mp h
  obtain ⟨hl, _⟩ := tunnel_long hs
  have hle := tunnelHead_local x _ _ _ hs e
  have hd : d.drop 10 ++ e = (d ++ e).drop 10 := by rw [List.drop_append_of_le_length hl]
  rw [hd] at hle
  have hlen : a.cemi.length = s.toNat - 10 := by
    rw [hc]
    simp only [List.length_append, List.length_take, List.length_replicate]
    omega
  have hlast : (d ++ e).drop 10 = d.drop 10 ++ e := hd.symm
  have hk : 10 + a.cemi.length - d.length = s.toNat - 10 - (d.drop 10).length := by rw [hlen, List.length_drop]; omega
  rw [tunnel_ok, hk]
  have key : (∃ s' : U16, tunnelHead x (d ++ e) = .ok ((s', a.channel, a.seq), (d ++ e).drop 10) ∧ 10 ≤ s'.toNat ∧
      a.cemi = ((d ++ e).drop 10).take (s'.toNat - 10) ++ List.replicate (s'.toNat - 10 - ((d ++ e).drop 10).length) 0) ↔
      a.cemi = (d.drop 10 ++ e).take (s.toNat - 10) ++ List.replicate (s.toNat - 10 - (d.drop 10 ++ e).length) 0 := by
    rw [hlast]
    constructor
    · rintro ⟨s', h1, _, h3⟩
      rw [hle, hlast] at h1
      cases h1
      exact h3
    · intro h3
      exact ⟨s, by rw [hle, hlast], h10, h3⟩
  rw [key, hc]
  generalize d.drop 10 = b
  generalize s.toNat - 10 = k
  rw [List.take_append, List.append_assoc, List.append_cancel_left_eq, List.length_append]
  have hz : List.replicate (k - b.length) (0 : U8) =
      List.replicate (e.take (k - b.length)).length 0 ++ List.replicate (k - (b.length + e.length)) 0 := by
    rw [List.replicate_append_replicate, List.length_take]
    congr 1
    omega
  rw [hz, List.append_cancel_right_eq, eq_comm, List.eq_replicate_iff]
  simp

/-- C132 does not hold for tunneling requests: something else that follows a request that is not complete is taken for a part of it. -/
theorem C132_violated_followed (x : StdText) {d : Bytes} {a : TunnelingRequest} (h : runTRd (TunnelingRequest.read x) d = .ok a)
    (hl : d.length < 10 + a.cemi.length) {b : U8} (hb : b ≠ 0) (e : Bytes) : runTRd (TunnelingRequest.read x) (d ++ b :: e) ≠ .ok a := by
  intro he
  refine hb ((C132_followed_exact x h (b :: e)).mp he b ?_)
  obtain ⟨m, hm⟩ : ∃ m, 10 + a.cemi.length - d.length = m + 1 := ⟨10 + a.cemi.length - d.length - 1, by omega⟩
  rw [hm, List.take_succ_cons]
  exact List.mem_cons_self

/-! ## Search requests -/

theorem severed_left {es fs : List Entry} {n : Nat} {e : Entry} (h : severed es n = some e) : severed (es ++ fs) n = some e := by
  induction es generalizing n with
  | nil => cases h
  | cons f es ih =>
    simp only [severed, List.cons_append] at h ⊢
    by_cases hn : n < f.width
    · simpa only [hn, if_true] using h
    · simp only [hn, if_false] at h ⊢
      exact ih h

theorem severed_right {es fs : List Entry} {n : Nat} (h : extent es ≤ n) : severed (es ++ fs) n = severed fs (n - extent es) := by
  induction es generalizing n with
  | nil => rfl
  | cons f es ih =>
    simp only [extent] at h
    have hn : ¬ n < f.width := by omega
    simp only [severed, List.cons_append, hn, if_false, extent]
    rw [ih (by omega)]
    congr 1
    omega

/-- C132 for search requests: what follows does not matter. -/
theorem C132_search_followed (x : StdText) {d : Bytes} {a : SearchRequest} (h : runTRd (SearchRequest.read x) d = .ok a) (e : Bytes) :
    runTRd (SearchRequest.read x) (d ++ e) = .ok a :=
  (searchRequest_local x).run h e

/-- C132 for search requests: cut short anywhere they are rejected, with the message of the first field that is not there completely. -/
theorem C132_search_cut (x : StdText) {d : Bytes} {a : SearchRequest} (h : runTRd (SearchRequest.read x) d = .ok a) {n : Nat} (hn : n < 14) :
    ∃ e, severed (headerEntries x.eof ++ hpaiEntries x.eof) n = some e ∧ runTRd (SearchRequest.read x) (d.take n) = .err e.gone := by
  have hd := header_follows x d
  cases hi : inspect (headerEntries x.eof) d with
  | error t =>
    rw [hi] at hd
    have hd : Header.read x d = .err t := hd
    simp [runTRd, SearchRequest.read, bind, hd] at h
  | ok r =>
    rw [hi] at hd
    obtain ⟨hdr, hh⟩ := hd
    obtain ⟨h1, h2⟩ := inspect_extent hi
    obtain rfl : r = d.drop 6 := h2
    by_cases h6 : n < 6
    · obtain ⟨e, he, hc⟩ := inspect_cut hi (n := n) h6
      refine ⟨e, severed_left he, ?_⟩
      · have hd := header_follows x (d.take n)
        rw [hc] at hd
        have hd : Header.read x (d.take n) = .err e.gone := hd
        simp [runTRd, SearchRequest.read, bind, hd]
    · have hd := header_follows x (d.take n)
      rw [inspect_enough hi (n := n) (by show 6 ≤ n; omega)] at hd
      obtain ⟨hdr', hb⟩ := hd
      have hl := header_local x _ _ _ hb (d.drop n)
      rw [List.take_append_drop, hh] at hl
      obtain rfl : hdr = hdr' := by
        injection hl with hl
        exact congrArg Prod.fst hl
      have hb : Header.read x (d.take n) = .ok (hdr, (d.take n).drop 6) := hb
      by_cases hs : hdr.serviceType = 0x0201
      · have hp := hpai_follows x (d.drop 6)
        cases hj : inspect (hpaiEntries x.eof) (d.drop 6) with
        | error t =>
          rw [hj] at hp
          have hp : Hpai.read x (d.drop 6) = .err t := hp
          simp [runTRd, SearchRequest.read, bind, hh, hs, TRd.ensure, hp] at h
        | ok r2 =>
          obtain ⟨e, he, hc⟩ := inspect_cut hj (n := n - 6) (by show n - 6 < 8; omega)
          refine ⟨e, (severed_right (by show 6 ≤ n; omega)).trans he, ?_⟩
          · have hq := hpai_follows x ((d.take n).drop 6)
            rw [List.drop_take, hc] at hq
            have hq : Hpai.read x ((d.drop 6).take (n - 6)) = .err e.gone := hq
            simp [runTRd, SearchRequest.read, bind, hb, hs, TRd.ensure, List.drop_take, hq]
      · have hs : (hdr.serviceType == 0x0201) = false := by simpa using hs
        simp only [runTRd, SearchRequest.read, bind, hh, hs, TRd.ensure, Bool.false_eq_true, if_false, reduceCtorEq] at h

/-! ## cEMI frames -/

theorem one_info (x : StdText) (m : Mode) {total t s : U8} {ty : InfoType} (ht : InfoType.ofU8 t = some ty)
    (hs : total.toNat = s.toNat + 2) (r : Bytes) : cemiInfosT x m total 0 (t :: s :: r) =
      .ok ([⟨ty, r.take s.toNat ++ List.replicate (s.toNat - r.length) 0⟩], r.drop s.toNat) := by
  have hlt := total.isLt
  have h0 : (0 : U8) < total := by
    rw [BitVec.lt_def, hs]
    simp
  have e : s + 2 = total := by
    apply BitVec.eq_of_toNat_eq
    rw [BitVec.toNat_add, hs]
    simp
    omega
  have a1 : addU m s 2 = .ok total := by
    have : s.toNat + (2 : U8).toNat < 2 ^ 8 := by
      show s.toNat + 2 < 256
      omega
    simp only [addU, this, if_true, e]
  have a2 : addU m 0 total = .ok total := by
    have : (0 : U8).toNat + total.toNat < 2 ^ 8 := by simpa using hlt
    simp only [addU, this, if_true]
    exact congrArg _ (BitVec.zero_add total)
  have hn : ¬ total < total := by simp
  have hend : ∀ r', cemiInfosT x m total total r' = .ok ([], r') := by
    intro r'
    rw [cemiInfosT.eq_def, if_neg hn]
  rw [cemiInfosT.eq_def, if_pos h0]
  simp only [ht, a1, a2, hend]

/-- C132 does not hold for cEMI frames: a frame that ends within its additional information is accepted, with zeros for what is missing. -/
theorem C132_violated_cemi (x : StdText) (m : Mode) (c : U8) {total t s : U8} {ty : InfoType} (ht : InfoType.ofU8 t = some ty)
    (hs : total.toNat = s.toNat + 2) {r : Bytes} (hr : r.length ≤ s.toNat) : runTRd (Cemi.read x m) (c :: total :: t :: s :: r) =
      .ok ⟨c, [⟨ty, r ++ List.replicate (s.toNat - r.length) 0⟩], []⟩ := by
  have h := one_info x m ht hs r
  rw [List.take_of_length_le hr, List.drop_eq_nil_of_le hr] at h
  have e : Cemi.read x m (c :: total :: t :: s :: r) = (match cemiInfosT x m total 0 (t :: s :: r) with
    | .ok (a, r') => .ok (⟨c, a, r'⟩, [])
    | .err t => .err t
    | .panic => .panic) := by
    simp only [Cemi.read, bind, TRd.u8, TRd.of, TRd.toEnd, pure]
    cases cemiInfosT x m total 0 (t :: s :: r) <;> rfl
  rw [runTRd, e, h]

example (x : StdText) : runTRd (Cemi.read x .debug) [0x29, 4, 3, 2, 7, 8] = .ok ⟨0x29, [⟨.busmonitorStatus, [7, 8]⟩], []⟩ ∧
    runTRd (Cemi.read x .debug) [0x29, 4, 3, 2, 7] = .ok ⟨0x29, [⟨.busmonitorStatus, [7, 0]⟩], []⟩ :=
  ⟨C132_violated_cemi x .debug 0x29 (ty := .busmonitorStatus) rfl rfl (by decide),
   C132_violated_cemi x .debug 0x29 (ty := .busmonitorStatus) rfl rfl (by decide)⟩

/-- An acknowledgement has ten octets; without its last one it is rejected for want of the status. -/
example (x : StdText) : extent (Layout.ack.entries x.eof) = 10 := rfl

example (x : StdText) : runTRd (decoder x .ack) [6, 0x10, 4, 0x21, 0, 10, 4, 7, 3, 0] = .ok ⟨7, 3, 0⟩ := rfl

example (x : StdText) : (severed (Layout.ack.entries x.eof) 9).map Entry.gone = some ("Unable to read status ".toList ++ x.eof) := rfl

/-- A tunneling request that lost the last two octets of its cEMI. -/
example (x : StdText) : runTRd (TunnelingRequest.read x) [6, 0x10, 4, 0x20, 0, 14, 4, 7, 3, 0, 0x29, 0, 5, 6] = .ok ⟨7, 3, [0x29, 0, 5, 6]⟩ ∧
    runTRd (TunnelingRequest.read x) [6, 0x10, 4, 0x20, 0, 14, 4, 7, 3, 0, 0x29, 0] = .ok ⟨7, 3, [0x29, 0, 0, 0]⟩ := ⟨rfl, rfl⟩

/-- A search request. -/
example (x : StdText) : runTRd (SearchRequest.read x) [6, 16, 2, 1, 0, 14, 8, 1, 192, 168, 1, 2, 14, 87] = .ok ⟨⟨1, ⟨⟨192, 168, 1, 2⟩, 3671⟩⟩⟩ := rfl

end Knx
