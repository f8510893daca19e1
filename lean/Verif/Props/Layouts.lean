import Verif.Model.PacketTexts
import Verif.Spec.Layouts
import Verif.Lemmas.Texts
import Verif.Props.Messages

/-!
# What the decoders say of a message that they reject (C131)
-/

namespace Knx

open Spec

/-! ## Without the texts -/

theorem Crd.read_erase (x : StdText) : (Crd.read x).erase = Crd.fromPacket := by
  simp [Crd.read, Crd.fromPacket]

theorem ConnectionResponse.read_erase (x : StdText) : (ConnectionResponse.read x).erase = ConnectionResponse.fromPacket := by
  simp [ConnectionResponse.read, ConnectionResponse.fromPacket, Hpai.read_erase, Crd.read_erase]

theorem ConnectionstateRequest.read_erase (x : StdText) : (ConnectionstateRequest.read x).erase = ConnectionstateRequest.fromPacket := by
  simp [ConnectionstateRequest.read, ConnectionstateRequest.fromPacket, Hpai.read_erase]

theorem DisconnectRequest.read_erase (x : StdText) : (DisconnectRequest.read x).erase = DisconnectRequest.fromPacket := by
  simp [DisconnectRequest.read, DisconnectRequest.fromPacket, Hpai.read_erase]

theorem SearchRequest.read_erase (x : StdText) : (SearchRequest.read x).erase = SearchRequest.fromPacket := by
  simp [SearchRequest.read, SearchRequest.fromPacket, Hpai.read_erase, Header.read_erase]

theorem verifyHeaderT_erase : verifyHeaderT.erase = verifyHeader := by
  simp [verifyHeaderT, verifyHeader]

theorem TunnelingRequest.read_erase (x : StdText) : (TunnelingRequest.read x).erase = TunnelingRequest.fromPacket := by
  simp only [TunnelingRequest.read, TunnelingRequest.fromPacket, TRd.erase_bind, TRd.erase_u8, TRd.erase_u16, TRd.erase_ensure,
    verifyHeaderT_erase]
  congr 1; funext _
  congr 1; funext _
  congr 1; funext _
  congr 1; funext size
  congr 1; funext _
  congr 1; funext _
  congr 1; funext _
  congr 1; funext _
  congr 1; funext _
  by_cases h : size.toNat < 10 <;> simp [h]

theorem TunnelingAck.read_erase (x : StdText) : (TunnelingAck.read x).erase = TunnelingAck.fromPacket := by
  simp [TunnelingAck.read, TunnelingAck.fromPacket, verifyHeaderT_erase]

theorem FeatureResp.read_erase (x : StdText) : (FeatureResp.read x).erase = FeatureResp.fromPacket := by
  simp [FeatureResp.read, FeatureResp.fromPacket, verifyHeaderT_erase]

theorem cemiInfosT_erase (x : StdText) (m : Mode) (total position : U8) (r : Bytes) :
    (cemiInfosT x m total position r).erase = cemiInfos m total position r := by
  fun_induction cemiInfosT x m total position r <;> rw [cemiInfos.eq_def] <;> simp_all [TRes.erase]
  all_goals
    rename_i ih
    rw [← ih]
    try rfl

theorem Cemi.read_erase (x : StdText) (m : Mode) : (Cemi.read x m).erase = Cemi.fromPacket m := by
  have h : ∀ total, (TRd.of (cemiInfosT x m total 0)).erase = Rd.of (cemiInfos m total 0) := by
    intro total
    funext r
    exact cemiInfosT_erase x m total 0 r
  have h' : TRd.toEnd.erase = Rd.toEnd := rfl
  simp only [Cemi.read, Cemi.fromPacket, TRd.erase_bind, TRd.erase_u8, TRd.erase_pure, h, h']

/-! ## Texts of layouts -/

/-- A reader follows a layout: it fails with what is said of the first fault, and otherwise does what `T` says of the rest. -/
def Follows {α : Type} (T : Bytes → TRes (α × Bytes) → Prop) (p : TRd α) (es : List Entry) : Prop :=
  ∀ d, match inspect es d with
    | .error t => p d = .err t
    | .ok r => T r (p d)

/-- The rest is left. -/
def Leaves {α : Type} (r : Bytes) (y : TRes (α × Bytes)) : Prop := ∃ a, y = .ok (a, r)

/-- There is nothing to complain of. -/
def Silent {α : Type} (_ : Bytes) (y : TRes (α × Bytes)) : Prop := ∀ t, y ≠ .err t

theorem Follows.silent {α : Type} {p : TRd α} {es : List Entry} (h : Follows Leaves p es) : Follows Silent p es := by
  intro d
  have hd := h d
  cases hi : inspect es d with
  | error t => rw [hi] at hd; exact hd
  | ok r =>
    rw [hi] at hd
    obtain ⟨a, ha⟩ := hd
    intro t ht
    rw [ha] at ht
    cases ht

theorem value_one (a : U8) : value [a] = a.toNat := by simp [value]

theorem value_two (a b : U8) : value [a, b] = (ofBe16 a b).toNat := by
  simp [value, ofBe16_toNat, Nat.mul_comm]

theorem follows_any1 {α : Type} {T : Bytes → TRes (α × Bytes) → Prop} {g : Text} {f : U8 → TRd α} {es : List Entry}
    (h : ∀ a, Follows T (f a) es) : Follows T (TRd.u8 g >>= f) (anyEntry 1 g :: es) := by
  intro d
  cases d with
  | nil => rfl
  | cons a d =>
    have hi : inspect (anyEntry 1 g :: es) (a :: d) = inspect es d := by simp [inspect, anyEntry]
    rw [hi]
    exact h a d

theorem follows_any2 {α : Type} {T : Bytes → TRes (α × Bytes) → Prop} {g : Text} {f : U16 → TRd α} {es : List Entry}
    (h : ∀ a, Follows T (f a) es) : Follows T (TRd.u16 g >>= f) (anyEntry 2 g :: es) := by
  intro d
  match d with
  | [] => rfl
  | [_] => rfl
  | a :: b :: d =>
    have hl : ¬ (a :: b :: d).length < 2 := by simp
    have hi : inspect (anyEntry 2 g :: es) (a :: b :: d) = inspect es d := by
      simp only [inspect, anyEntry, hl, if_false, List.drop_succ_cons, List.drop_zero]
    rw [hi]
    exact h (ofBe16 a b) d

theorem follows_wrong1 {α : Type} {T : Bytes → TRes (α × Bytes) → Prop} {g : Text} {w : Nat → Option Text} {c : U8 → Bool} {t : U8 → Text}
    {f : U8 → TRd α} {es : List Entry} (hc : ∀ a, w a.toNat = if c a then none else some (t a)) (h : ∀ a, c a = true → Follows T (f a) es) :
    Follows T (TRd.u8 g >>= fun a => TRd.ensure (c a) (t a) >>= fun _ => f a) (⟨1, g, w⟩ :: es) := by
  intro d
  cases d with
  | nil => rfl
  | cons a d =>
    have hi : inspect (⟨1, g, w⟩ :: es) (a :: d) = if c a then inspect es d else .error (t a) := by
      have := hc a
      simp only [inspect, List.length_cons, List.take_succ_cons, List.take_zero, value_one, List.drop_succ_cons, List.drop_zero, this]
      cases c a <;> simp
    rw [hi]
    cases hca : c a with
    | true =>
      have := h a hca d
      simpa [bind, TRd.u8, TRd.ensure, hca] using this
    | false => simp [bind, TRd.u8, TRd.ensure, hca]

theorem follows_last1 {g : Text} {w : Nat → Option Text} {c : U8 → Bool} {t : U8 → Text}
    (hc : ∀ a, w a.toNat = if c a then none else some (t a)) :
    Follows Leaves (TRd.u8 g >>= fun a => TRd.ensure (c a) (t a)) [⟨1, g, w⟩] := by
  intro d
  have h := follows_wrong1 (T := Leaves) (g := g) (f := fun _ => (pure () : TRd Unit)) (es := []) hc (fun _ _ _ => ⟨(), rfl⟩) d
  have hp : (TRd.u8 g >>= fun a => TRd.ensure (c a) (t a) >>= fun _ => (pure () : TRd Unit)) d =
      (TRd.u8 g >>= fun a => TRd.ensure (c a) (t a)) d := by
    cases d with
    | nil => rfl
    | cons a d => cases hca : c a <;> simp [bind, TRd.u8, TRd.ensure, hca, pure]
  rw [hp] at h
  exact h

theorem follows_lift1 {α β : Type} {T : Bytes → TRes (α × Bytes) → Prop} {g : Text} {w : Nat → Option Text} {c : U8 → Res β}
    {t : U8 → Text} {f : β → TRd α} {es : List Entry}
    (hc : ∀ a, (∃ v, c a = .ok v ∧ w a.toNat = none) ∨ (c a = .err ∧ w a.toNat = some (t a))) (h : ∀ v, Follows T (f v) es) :
    Follows T (TRd.u8 g >>= fun a => TRd.lift (c a) (t a) >>= f) (⟨1, g, w⟩ :: es) := by
  intro d
  cases d with
  | nil => rfl
  | cons a d =>
    rcases hc a with ⟨v, h1, h2⟩ | ⟨h1, h2⟩
    · have hi : inspect (⟨1, g, w⟩ :: es) (a :: d) = inspect es d := by simp [inspect, value_one, h2]
      rw [hi]
      have := h v d
      have hb : (TRd.u8 g >>= fun a => TRd.lift (c a) (t a) >>= f) (a :: d) = f v d := by
        simp [bind, TRd.u8, TRd.lift, h1]
      rw [hb]
      exact this
    · have hi : inspect (⟨1, g, w⟩ :: es) (a :: d) = .error (t a) := by simp [inspect, value_one, h2]
      rw [hi]
      show _ = _
      simp [bind, TRd.u8, TRd.lift, h1]

theorem follows_wrong2 {α : Type} {T : Bytes → TRes (α × Bytes) → Prop} {g : Text} {w : Nat → Option Text} {c : U16 → Bool}
    {t : U16 → Text} {f : U16 → TRd α} {es : List Entry} (hc : ∀ a, w a.toNat = if c a then none else some (t a))
    (h : ∀ a, c a = true → Follows T (f a) es) :
    Follows T (TRd.u16 g >>= fun a => TRd.ensure (c a) (t a) >>= fun _ => f a) (⟨2, g, w⟩ :: es) := by
  intro d
  match d with
  | [] => rfl
  | [_] => rfl
  | a :: b :: d =>
    have hi : inspect (⟨2, g, w⟩ :: es) (a :: b :: d) = if c (ofBe16 a b) then inspect es d else .error (t (ofBe16 a b)) := by
      have := hc (ofBe16 a b)
      have hl : ¬ (a :: b :: d).length < 2 := by simp
      simp only [inspect, hl, List.take_succ_cons, List.take_zero, value_two, List.drop_succ_cons, List.drop_zero, this]
      cases c (ofBe16 a b) <;> simp
    rw [hi]
    cases hca : c (ofBe16 a b) with
    | true =>
      have := h _ hca d
      simpa [bind, TRd.u16, TRd.ensure, hca] using this
    | false => simp [bind, TRd.u16, TRd.ensure, hca]

theorem inspect_append (es fs : List Entry) (d : Bytes) :
    inspect (es ++ fs) d = match inspect es d with
      | .error t => .error t
      | .ok r => inspect fs r := by
  induction es generalizing d with
  | nil => rfl
  | cons e es ih =>
    simp only [List.cons_append, inspect]
    by_cases h : d.length < e.width
    · simp [h]
    · simp only [h, if_false]
      cases e.wrong (value (d.take e.width)) with
      | some t => rfl
      | none => exact ih _

theorem follows_bind {α β : Type} {T : Bytes → TRes (β × Bytes) → Prop} {p : TRd α} {f : α → TRd β} {es fs : List Entry}
    (h : Follows Leaves p es) (h' : ∀ a, Follows T (f a) fs) : Follows T (p >>= f) (es ++ fs) := by
  intro d
  rw [inspect_append]
  have hd := h d
  cases hi : inspect es d with
  | error t =>
    rw [hi] at hd
    show (p >>= f) d = _
    simp only [bind, hd]
  | ok r =>
    rw [hi] at hd
    obtain ⟨a, ha⟩ := hd
    have := h' a r
    have hb : (p >>= f) d = f a r := by simp only [bind, ha]
    rw [hb]
    exact this

theorem follows_pure {α : Type} (a : α) : Follows Leaves (pure a : TRd α) [] := fun _ => ⟨a, rfl⟩

/-! ## The layouts of the decoders -/

theorem eq_lit8 (n : Nat) (h : n < 256) (a : U8) : (a == BitVec.ofNat 8 n) = decide (a.toNat = n) := by
  rw [Bool.eq_iff_iff]
  simp only [beq_iff_eq, decide_eq_true_eq]
  constructor
  · rintro rfl; simp; omega
  · intro h; exact BitVec.eq_of_toNat_eq (by simp; omega)

theorem eq_lit16 (n : Nat) (h : n < 65536) (a : U16) : (a == BitVec.ofNat 16 n) = decide (a.toNat = n) := by
  rw [Bool.eq_iff_iff]
  simp only [beq_iff_eq, decide_eq_true_eq]
  constructor
  · rintro rfl; simp; omega
  · intro h; exact BitVec.eq_of_toNat_eq (by simp; omega)

theorem ite_swap {α : Type} {c c' : Bool} (h : c = c') (t t' : α) (ht : t' = t) :
    (if c' = true then none else some t') = if c = true then none else some t := by
  subst h; subst ht; rfl

theorem hex02_hexTwo (n : Nat) : hex02 n = hexTwo n := by
  unfold hex02 hexTwo
  split <;> simp

theorem hpai_follows (x : StdText) : Follows Leaves (Hpai.read x) (hpaiEntries x.eof) :=
  follows_wrong1 (fun a => ite_swap (eq_lit8 8 (by decide) a) _ _ (by rw [showU_decimal])) fun _ _ => follows_any1 fun _ =>
    follows_any1 fun _ => follows_any1 fun _ => follows_any1 fun _ => follows_any1 fun _ => follows_any2 fun _ => follows_pure _

theorem crd_follows (x : StdText) : Follows Leaves (Crd.read x) (crdEntries x.eof) :=
  follows_wrong1 (fun a => ite_swap (eq_lit8 4 (by decide) a) _ _ (by rw [showU_decimal])) fun _ _ =>
    follows_wrong1 (fun a => ite_swap (eq_lit8 4 (by decide) a) _ _ (by rw [showU_decimal])) fun _ _ => follows_any2 fun _ => follows_pure _

theorem header_version : "KNXIP protocol version should be 0x10 instead of 10".toList =
    "KNXIP protocol version should be 0x10 instead of ".toList ++ hex2 0x10 := by decide +kernel

theorem header_follows (x : StdText) : Follows Leaves (Header.read x) (headerEntries x.eof) :=
  follows_wrong1 (fun a => ite_swap (eq_lit8 6 (by decide) a) _ _ (by rw [showU_decimal])) fun _ _ =>
    follows_wrong1 (fun a => ite_swap (eq_lit8 16 (by decide) a) _ _ header_version) fun _ _ => follows_any2 fun _ =>
      follows_any2 fun _ => follows_pure _

theorem verify_follows : Follows Leaves verifyHeaderT tunnelStart := by
  refine follows_wrong1 (fun a => ite_swap (eq_lit8 6 (by decide) a) _ _ (by rw [showU_decimal])) fun _ _ => ?_
  exact follows_last1 (fun a => ite_swap (eq_lit8 16 (by decide) a) _ _ (by rfl))

theorem six_text {a : U8} (h : (a == 6) = true) : a = 6 := by simpa using h

theorem connectResponse_follows (x : StdText) : Follows Leaves (ConnectionResponse.read x) (connectResponseEntries x.eof) := by
  refine follows_wrong1 (fun a => ite_swap (eq_lit8 6 (by decide) a) _ _ (by rw [showU_decimal])) fun a ha => ?_
  obtain rfl := six_text ha
  refine follows_wrong1 (fun a => ite_swap (eq_lit8 16 (by decide) a) _ _ (by rfl)) fun _ _ => ?_
  refine follows_wrong2 (fun a => ite_swap (eq_lit16 0x206 (by decide) a) _ _ (by rw [hex02_hexTwo])) fun _ _ => ?_
  refine follows_wrong2 (fun a => ite_swap rfl _ _ (by rw [showU_decimal])) fun _ _ => ?_
  refine follows_any1 fun _ => ?_
  refine follows_wrong1 (fun a => ?_) fun _ _ => ?_
  · by_cases h1 : a.toNat = 0x22
    · obtain rfl : a = 0x22 := BitVec.eq_of_toNat_eq h1
      rfl
    by_cases h2 : a.toNat = 0x23
    · obtain rfl : a = 0x23 := BitVec.eq_of_toNat_eq h2
      rfl
    by_cases h3 : a.toNat = 0x24
    · obtain rfl : a = 0x24 := BitVec.eq_of_toNat_eq h3
      rfl
    by_cases h4 : a.toNat = 0x29
    · obtain rfl : a = 0x29 := BitVec.eq_of_toNat_eq h4
      rfl
    have e1 : (a == 0x22) = false := (eq_lit8 0x22 (by decide) a).trans (by simp [h1])
    have e2 : (a == 0x23) = false := (eq_lit8 0x23 (by decide) a).trans (by simp [h2])
    have e3 : (a == 0x24) = false := (eq_lit8 0x24 (by decide) a).trans (by simp [h3])
    have e4 : (a == 0x29) = false := (eq_lit8 0x29 (by decide) a).trans (by simp [h4])
    simp only [h1, h2, h3, h4, if_false]
    rw [e1, e2, e3, e4]
    rfl
  · exact follows_bind (hpai_follows x) fun _ => follows_bind (es := crdEntries x.eof) (fs := []) (crd_follows x) fun _ => follows_pure _

theorem stateRequest_follows (x : StdText) : Follows Leaves (ConnectionstateRequest.read x) (stateRequestEntries x.eof) := by
  refine follows_wrong1 (fun a => ite_swap (eq_lit8 6 (by decide) a) _ _ (by rw [showU_decimal])) fun a ha => ?_
  obtain rfl := six_text ha
  refine follows_wrong1 (fun a => ite_swap (eq_lit8 16 (by decide) a) _ _ (by rfl)) fun _ _ => ?_
  refine follows_wrong2 (fun a => ite_swap (eq_lit16 0x207 (by decide) a) _ _ (by rw [hex2_hexadecimal])) fun _ _ => ?_
  refine follows_any2 fun _ => follows_any1 fun _ => follows_any1 fun _ => ?_
  exact follows_bind (es := hpaiEntries x.eof) (fs := []) (hpai_follows x) fun _ => follows_pure _

theorem stateResponse_follows (x : StdText) : Follows Leaves (ConnectionstateResponse.read x) (stateResponseEntries x.eof) := by
  refine follows_wrong1 (fun a => ite_swap (eq_lit8 6 (by decide) a) _ _ (by rw [showU_decimal])) fun a ha => ?_
  obtain rfl := six_text ha
  refine follows_wrong1 (fun a => ite_swap (eq_lit8 16 (by decide) a) _ _ (by rfl)) fun _ _ => ?_
  refine follows_wrong2 (fun a => ite_swap (eq_lit16 0x208 (by decide) a) _ _ (by rw [hex2_hexadecimal])) fun _ _ => ?_
  refine follows_wrong2 (fun a => ite_swap (eq_lit16 8 (by decide) a) _ _ (by rw [showU_decimal])) fun _ _ => ?_
  exact follows_any1 fun _ => follows_any1 fun _ => follows_pure _

theorem disconnectResponse_follows (x : StdText) : Follows Leaves (DisconnectResponse.read x) (disconnectResponseEntries x.eof) := by
  refine follows_wrong1 (fun a => ite_swap (eq_lit8 6 (by decide) a) _ _ (by rw [showU_decimal])) fun a ha => ?_
  obtain rfl := six_text ha
  refine follows_wrong1 (fun a => ite_swap (eq_lit8 16 (by decide) a) _ _ (by rfl)) fun _ _ => ?_
  refine follows_wrong2 (fun a => ite_swap (eq_lit16 0x20a (by decide) a) _ _ (by rw [hex2_hexadecimal])) fun _ _ => ?_
  refine follows_wrong2 (fun a => ite_swap (eq_lit16 8 (by decide) a) _ _ (by rw [showU_decimal])) fun _ _ => ?_
  exact follows_any1 fun _ => follows_any1 fun _ => follows_pure _

theorem disconnectRequest_follows (x : StdText) : Follows Leaves (DisconnectRequest.read x) (disconnectRequestEntries x.eof) := by
  refine follows_wrong1 (fun a => ite_swap rfl _ _ (by rw [showU_decimal])) fun a ha => ?_
  refine follows_any1 fun _ => follows_any1 fun _ => ?_
  exact follows_bind (es := hpaiEntries x.eof) (fs := []) (hpai_follows x) fun _ => follows_pure _

theorem tunnelRequest_follows (x : StdText) : Follows Silent (TunnelingRequest.read x) (tunnelRequestEntries x.eof) := by
  refine follows_bind verify_follows fun _ => ?_
  refine follows_wrong2 (fun a => ite_swap (eq_lit16 0x420 (by decide) a) _ _ (by rfl)) fun _ _ => ?_
  refine follows_any2 fun size => ?_
  refine follows_wrong1 (fun a => ite_swap (eq_lit8 4 (by decide) a) _ _ (by rw [showU_decimal])) fun _ _ => ?_
  refine follows_any1 fun _ => follows_any1 fun _ => follows_any1 fun _ => ?_
  intro d t
  by_cases h : size.toNat < 10
  · simp [h, TRd.lift]
  · simp [h, bind, TRd.fill, Rd.fill, pure]

theorem ack_follows (x : StdText) : Follows Leaves (TunnelingAck.read x) (ackEntries x.eof) := by
  rw [ackEntries, ackStart, List.append_assoc]
  refine follows_bind verify_follows fun _ => ?_
  refine follows_wrong2 (fun a => ite_swap (eq_lit16 0x421 (by decide) a) _ _ ?_) fun _ _ => ?_
  · rfl
  refine follows_wrong2 (fun a => ite_swap (eq_lit16 0xa (by decide) a) _ _ ?_) fun _ _ => ?_
  · rfl
  refine follows_wrong1 (fun a => ite_swap (eq_lit8 4 (by decide) a) _ _ (by rfl)) fun _ _ => ?_
  exact follows_any1 fun _ => follows_any1 fun _ => follows_any1 fun _ => follows_pure _

theorem feature_follows (x : StdText) : Follows Leaves (FeatureResp.read x) (featureEntries x.eof) := by
  rw [featureEntries, ackStart, List.append_assoc]
  refine follows_bind verify_follows fun _ => ?_
  refine follows_wrong2 (fun a => ite_swap (eq_lit16 0x423 (by decide) a) _ _ ?_) fun _ _ => ?_
  · rfl
  refine follows_wrong2 (fun a => ite_swap (eq_lit16 0xd (by decide) a) _ _ ?_) fun _ _ => ?_
  · rfl
  refine follows_wrong1 (fun a => ite_swap (eq_lit8 4 (by decide) a) _ _ (by rfl)) fun _ _ => ?_
  refine follows_any1 fun _ => follows_any1 fun _ => follows_any1 fun _ => ?_
  refine follows_lift1 (fun a => ?_) fun _ => follows_any1 fun _ => follows_any1 fun _ => follows_pure _
  by_cases h1 : a.toNat = 2
  · obtain rfl : a = 2 := BitVec.eq_of_toNat_eq h1
    exact .inl ⟨_, rfl, rfl⟩
  by_cases h2 : a.toNat = 6
  · obtain rfl : a = 6 := BitVec.eq_of_toNat_eq h2
    exact .inl ⟨_, rfl, rfl⟩
  by_cases h3 : a.toNat = 7
  · obtain rfl : a = 7 := BitVec.eq_of_toNat_eq h3
    exact .inl ⟨_, rfl, rfl⟩
  by_cases h4 : a.toNat = 8
  · obtain rfl : a = 8 := BitVec.eq_of_toNat_eq h4
    exact .inl ⟨_, rfl, rfl⟩
  have n1 : a ≠ 2 := fun h => h1 (by rw [h]; rfl)
  have n2 : a ≠ 6 := fun h => h2 (by rw [h]; rfl)
  have n3 : a ≠ 7 := fun h => h3 (by rw [h]; rfl)
  have n4 : a ≠ 8 := fun h => h4 (by rw [h]; rfl)
  refine .inr ⟨?_, ?_⟩
  · unfold KnxIpFeature.ofU8
    rw [if_neg (show a ≠ KnxIpFeature.maskVersion.code from n1), if_neg (show a ≠ KnxIpFeature.individualAddress.code from n2), if_neg (show a ≠ KnxIpFeature.maxApduLength.code from n3), if_neg (show a ≠ KnxIpFeature.infoServiceEnable.code from n4)]
  simp only [h1, h2, h3, h4, decide_false, Bool.or_false, Bool.false_eq_true, if_false, showU_decimal]

/-! ## Faults and what is said of them -/

theorem inspect_fault {es : List Entry} {d : Bytes} {t : Text} :
    inspect es d = .error t ↔ ∃ f, fault es d = some f ∧ saying es f = some t := by
  induction es generalizing d with
  | nil => simp [inspect, fault]
  | cons e es ih =>
    simp only [inspect, fault]
    by_cases h : d.length < e.width
    · simp [h, saying]
    · simp only [h, if_false]
      cases hw : e.wrong (value (d.take e.width)) with
      | some u => simp [saying, hw]
      | none =>
        rw [ih]
        constructor
        · rintro ⟨⟨i, v⟩, hf, hs⟩
          refine ⟨(i + 1, v), by simp [hf], ?_⟩
          cases v <;> simpa [saying] using hs
        · rintro ⟨f, hf, hs⟩
          obtain ⟨⟨i, v⟩, hg, rfl⟩ := Option.map_eq_some_iff.mp hf
          refine ⟨(i, v), hg, ?_⟩
          cases v <;> simpa [saying] using hs

/-- Neither text begins with the other. -/
def diverge (a b : Text) : Bool := !a.isPrefixOf b && !b.isPrefixOf a

theorem diverge_ne {a b t : Text} (h : diverge a b = true) (ha : a <+: t) (hb : b <+: t) : False := by
  simp only [diverge, Bool.and_eq_true, Bool.not_eq_true', ← Bool.not_eq_true, List.isPrefixOf_iff_prefix] at h
  rcases List.prefix_or_prefix_of_prefix ha hb with h' | h'
  · exact h.1 h'
  · exact h.2 h'

/-- How the texts of an entry begin, and whether its value is not told. -/
structure Openings where
  gone : Text
  wrong : List Text
  blind : Bool

/-- The texts of an entry are of that kind. -/
structure Phrased (e : Entry) (l : Openings) : Prop where
  gone : l.gone <+: e.gone
  wrong : ∀ n t, e.wrong n = some t → ∃ w ∈ l.wrong, w <+: t
  told : l.blind = false → ∀ n n' t, e.wrong n = some t → e.wrong n' = some t → n = n'
  same : l.blind = true → ∀ n n' t t', e.wrong n = some t → e.wrong n' = some t' → t = t'

/-- Texts of different entries, other than those of twins that are missing, do not begin alike; nor do those of one entry. -/
def tidy (twins : List (Nat × Nat)) (blind : List Nat) (ls : List Openings) : Bool :=
  (List.range ls.length).all fun i => (List.range ls.length).all fun j =>
    match ls[i]?, ls[j]? with
    | some a, some b =>
      (i == j || twins.contains (i, j) || twins.contains (j, i) || diverge a.gone b.gone) &&
      (b.wrong.all (fun w => diverge a.gone w) && ((i == j || a.wrong.all fun v => b.wrong.all fun w => diverge v w) &&
      (a.blind == blind.contains i)))
    | _, _ => true

theorem tidy_at {twins : List (Nat × Nat)} {blind : List Nat} {ls : List Openings} (h : tidy twins blind ls = true) {i j : Nat} {a b : Openings}
    (hi : ls[i]? = some a) (hj : ls[j]? = some b) :
    (i = j ∨ (i, j) ∈ twins ∨ (j, i) ∈ twins ∨ diverge a.gone b.gone = true) ∧ (∀ w ∈ b.wrong, diverge a.gone w = true) ∧
    (i = j ∨ ∀ v ∈ a.wrong, ∀ w ∈ b.wrong, diverge v w = true) ∧ (a.blind = true ↔ i ∈ blind) := by
  have li : i < ls.length := (List.getElem?_eq_some_iff.mp hi).1
  have lj : j < ls.length := (List.getElem?_eq_some_iff.mp hj).1
  have h1 := List.all_eq_true.mp (List.all_eq_true.mp h i (List.mem_range.mpr li)) j (List.mem_range.mpr lj)
  simp only [hi, hj] at h1
  simp only [Bool.and_eq_true, Bool.or_eq_true, beq_iff_eq, List.all_eq_true, List.contains_iff_mem] at h1
  obtain ⟨p, q, r, s⟩ := h1
  refine ⟨?_, q, r, ?_⟩
  · rcases p with ((p | p) | p) | p
    · exact .inl p
    · exact .inr (.inl p)
    · exact .inr (.inr (.inl p))
    · exact .inr (.inr (.inr p))
  · rw [s, List.contains_iff_mem]

theorem forall₂_at {α β : Type} {R : α → β → Prop} {l : List α} {l' : List β} (h : List.Forall₂ R l l') {i : Nat} {a : α}
    (ha : l[i]? = some a) : ∃ b, l'[i]? = some b ∧ R a b := by
  induction h generalizing i with
  | nil => simp at ha
  | cons hr _ ih =>
    cases i with
    | zero =>
      simp only [List.getElem?_cons_zero, Option.some.injEq] at ha
      subst ha
      exact ⟨_, rfl, hr⟩
    | succ i => exact ih (by simpa using ha)

theorem saying_iff {es : List Entry} {ls : List Openings} {twins : List (Nat × Nat)} {blind : List Nat} (hb : List.Forall₂ Phrased es ls)
    (ht : tidy twins blind ls = true)
    (htwins : ∀ p ∈ twins, es[p.1]?.map (·.gone) = es[p.2]?.map (·.gone))
    {f f' : Nat × Option Nat} {t t' : Text} (h : saying es f = some t) (h' : saying es f' = some t') :
    t = t' ↔ f = f' ∨ Confused twins blind f f' := by
  obtain ⟨i, v⟩ := f
  obtain ⟨j, v'⟩ := f'
  have he : ∃ e, es[i]? = some e := by
    cases v <;> cases hi : es[i]? <;> simp_all [saying]
  have he' : ∃ e, es[j]? = some e := by
    cases v' <;> cases hj : es[j]? <;> simp_all [saying]
  obtain ⟨e, he⟩ := he
  obtain ⟨e', he'⟩ := he'
  obtain ⟨l, hl, fl⟩ := forall₂_at hb he
  obtain ⟨l', hl', fl'⟩ := forall₂_at hb he'
  obtain ⟨a1, a2, a3, a4⟩ := tidy_at ht hl hl'
  obtain ⟨b1, b2, b3, b4⟩ := tidy_at ht hl' hl
  constructor
  · rintro rfl
    cases v with
    | none =>
      cases v' with
      | none =>
        simp only [saying, he, he', Option.map_some, Option.some.injEq] at h h'
        rcases a1 with rfl | h1 | h1 | h1
        · exact .inl rfl
        · exact .inr (.inl ⟨rfl, rfl, .inl h1⟩)
        · exact .inr (.inl ⟨rfl, rfl, .inr h1⟩)
        · exact (diverge_ne h1 (h ▸ fl.gone) (h' ▸ fl'.gone)).elim
      | some n =>
        simp only [saying, he, he', Option.map_some, Option.some.injEq, Option.bind_some] at h h'
        obtain ⟨w, hw, hp⟩ := fl'.wrong n t h'
        exact (diverge_ne (a2 w hw) (h ▸ fl.gone) hp).elim
    | some n =>
      cases v' with
      | none =>
        simp only [saying, he, he', Option.map_some, Option.some.injEq, Option.bind_some] at h h'
        obtain ⟨w, hw, hp⟩ := fl.wrong n t h
        exact (diverge_ne (b2 w hw) (h' ▸ fl'.gone) hp).elim
      | some n' =>
        simp only [saying, he, he', Option.bind_some] at h h'
        obtain ⟨w, hw, hp⟩ := fl.wrong n t h
        obtain ⟨w', hw', hp'⟩ := fl'.wrong n' t h'
        rcases a3 with rfl | h3
        · rw [he] at he'
          cases he'
          cases hbl : l.blind with
          | true => exact .inr (.inr ⟨rfl, a4.mp hbl, by simp, by simp⟩)
          | false => rw [fl.told hbl n n' t h h']; exact .inl rfl
        · exact (diverge_ne (h3 w hw w' hw') hp hp').elim
  · rintro (h1 | ⟨h1, h2, h3⟩ | ⟨h1, h2, h3, h4⟩)
    · rw [h1, h'] at h
      exact (Option.some.inj h).symm
    · simp only at h1 h2 h3
      subst h1; subst h2
      simp only [saying] at h h'
      rcases h3 with h3 | h3
      · have := htwins _ h3
        simp only [h, h'] at this
        exact Option.some.inj this
      · have := htwins _ h3
        simp only [h, h'] at this
        exact (Option.some.inj this).symm
    · simp only at h1 h2 h3 h4
      subst h1
      obtain ⟨n, rfl⟩ := Option.ne_none_iff_exists'.mp h3
      obtain ⟨n', rfl⟩ := Option.ne_none_iff_exists'.mp h4
      rw [he] at he'
      cases he'
      simp only [saying, he, Option.bind_some] at h h'
      exact fl.same (a4.mpr h2) n n' t t' h h'

/-! ## The kinds of entries -/

theorem hexSmall_inj {n n' : Nat} (h : hexSmall n = hexSmall n') : n = n' := by
  rw [← hexVal_digits n, ← hexVal_digits n', show Nat.toDigits 16 n = Nat.toDigits 16 n' from h]

theorem hexTwo_inj {n n' : Nat} (h : hexTwo n = hexTwo n') : n = n' := by
  have key : ∀ n, (hexTwo n).foldl (fun a c => 16 * a + hexVal c) 0 = n := by
    intro n
    unfold hexTwo
    rw [List.foldl_append]
    split
    · exact hexVal_digits n
    · exact hexVal_digits n
  rw [← key n, h, key n']

theorem fits_any {k : Nat} {g gone : Text} (h : g <+: gone) : Phrased (anyEntry k gone) ⟨g, [], false⟩ :=
  ⟨h, (fun _ _ h => nomatch h), (fun _ _ _ _ h => nomatch h), (fun h => nomatch h)⟩

theorem fits_told {k : Nat} {g gone w : Text} {may : Nat → Bool} {num : Nat → Text} (h : g <+: gone)
    (hn : ∀ {n n'}, num n = num n' → n = n') : Phrased (limited k gone may fun n => w ++ num n) ⟨g, [w], false⟩ := by
  refine ⟨h, ?_, ?_, fun h => nomatch h⟩
  · intro n t ht
    simp only [limited] at ht
    split at ht
    · cases ht
    · cases ht
      exact ⟨w, by simp, List.prefix_append _ _⟩
  · intro _ n n' t ht ht'
    simp only [limited] at ht ht'
    split at ht
    · cases ht
    · split at ht'
      · cases ht'
      · cases ht
        exact hn (List.append_cancel_left (Option.some.inj ht')).symm

theorem fits_blind {k : Nat} {g gone w : Text} {may : Nat → Bool} (h : g <+: gone) :
    Phrased (limited k gone may fun _ => w) ⟨g, [w], true⟩ := by
  refine ⟨h, ?_, (fun h => nomatch h), ?_⟩
  · intro n t ht
    simp only [limited] at ht
    split at ht
    · cases ht
    · cases ht
      exact ⟨w, by simp, List.prefix_rfl⟩
  · intro _ n n' t t' ht ht'
    simp only [limited] at ht ht'
    split at ht
    · cases ht
    · split at ht'
      · cases ht'
      · cases ht; cases ht'; rfl

/-- What is said of the statuses that refuse a connection. -/
def refusals : List Text :=
  ["Target KNX/IP device does not support requested connection type".toList,
   "Target KNX/IP device does not support one or more requested connection options".toList,
   "No more connections available on target KNX/IP device".toList,
   "Target KNX/IP device does not support requested tunneling layer".toList]

theorem fits_status (eof : Text) : Phrased ⟨1, "Unable to read status ".toList ++ eof, fun n =>
     if n = 0x22 then some "Target KNX/IP device does not support requested connection type".toList
     else if n = 0x23 then some "Target KNX/IP device does not support one or more requested connection options".toList
     else if n = 0x24 then some "No more connections available on target KNX/IP device".toList
     else if n = 0x29 then some "Target KNX/IP device does not support requested tunneling layer".toList
     else none⟩ ⟨"Unable to read status ".toList, refusals, false⟩ := by
  have d12 : "Target KNX/IP device does not support requested connection type".toList ≠
    "Target KNX/IP device does not support one or more requested connection options".toList := by decide +kernel
  have d13 : "Target KNX/IP device does not support requested connection type".toList ≠
    "No more connections available on target KNX/IP device".toList := by decide +kernel
  have d14 : "Target KNX/IP device does not support requested connection type".toList ≠
    "Target KNX/IP device does not support requested tunneling layer".toList := by decide +kernel
  have d23 : "Target KNX/IP device does not support one or more requested connection options".toList ≠
    "No more connections available on target KNX/IP device".toList := by decide +kernel
  have d24 : "Target KNX/IP device does not support one or more requested connection options".toList ≠
    "Target KNX/IP device does not support requested tunneling layer".toList := by decide +kernel
  have d34 : "No more connections available on target KNX/IP device".toList ≠
    "Target KNX/IP device does not support requested tunneling layer".toList := by decide +kernel
  unfold refusals
  generalize "Target KNX/IP device does not support requested connection type".toList = a at *
  generalize "Target KNX/IP device does not support one or more requested connection options".toList = b at *
  generalize "No more connections available on target KNX/IP device".toList = c at *
  generalize "Target KNX/IP device does not support requested tunneling layer".toList = d at *
  refine ⟨List.prefix_append _ _, ?_, ?_, fun h => nomatch h⟩
  · intro n t ht
    refine ⟨t, ?_, List.prefix_rfl⟩
    dsimp only at ht
    split at ht
    · cases ht; simp
    · split at ht
      · cases ht; simp
      · split at ht
        · cases ht; simp
        · split at ht
          · cases ht; simp
          · cases ht
  · intro _ n n' t ht ht'
    dsimp only at ht ht'
    have key : ∀ {n : Nat}, (if n = 0x22 then some a else if n = 0x23 then some b else if n = 0x24 then some c
        else if n = 0x29 then some d else none) = some t →
        (n = 0x22 ∧ a = t) ∨ (n = 0x23 ∧ b = t) ∨ (n = 0x24 ∧ c = t) ∨ (n = 0x29 ∧ d = t) := by
      intro n h
      split at h
      · exact .inl ⟨by assumption, Option.some.inj h⟩
      · split at h
        · exact .inr (.inl ⟨by assumption, Option.some.inj h⟩)
        · split at h
          · exact .inr (.inr (.inl ⟨by assumption, Option.some.inj h⟩))
          · split at h
            · exact .inr (.inr (.inr ⟨by assumption, Option.some.inj h⟩))
            · cases h
    rcases key ht with ⟨h1, h2⟩ | ⟨h1, h2⟩ | ⟨h1, h2⟩ | ⟨h1, h2⟩ <;>
      rcases key ht' with ⟨k1, k2⟩ | ⟨k1, k2⟩ | ⟨k1, k2⟩ | ⟨k1, k2⟩ <;>
      first | exact h1.trans k1.symm | exact absurd (h2.trans k2.symm) (by assumption) |
        exact absurd (k2.trans h2.symm) (by assumption)

def hpaiLeads : List Openings :=
  [⟨"Unable to read HPAI size ".toList, ["HPAI size must be 8 instead of ".toList], false⟩,
   ⟨"Unable to read HPAI host protocol code ".toList, [], false⟩,
   ⟨"Unable to read HPAI IP part 1 ".toList, [], false⟩,
   ⟨"Unable to read HPAI IP part 2 ".toList, [], false⟩,
   ⟨"Unable to read HPAI IP part 3 ".toList, [], false⟩,
   ⟨"Unable to read HPAI IP part 4 ".toList, [], false⟩,
   ⟨"Unable to read HPAI IP Port ".toList, [], false⟩]

theorem hpai_fits (eof : Text) : List.Forall₂ Phrased (hpaiEntries eof) hpaiLeads :=
  .cons (fits_told (List.prefix_append _ _) decimal_inj) <|
    .cons (fits_any (List.prefix_append _ _)) <|
    .cons (fits_any (List.prefix_append _ _)) <|
    .cons (fits_any (List.prefix_append _ _)) <|
    .cons (fits_any (List.prefix_append _ _)) <|
    .cons (fits_any (List.prefix_append _ _)) <|
    .cons (fits_any (List.prefix_append _ _)) <|
    .nil

def crdLeads : List Openings :=
  [⟨"Unable to read CRD packet size ".toList, ["Connection Response Data Block should have length 4 instead of ".toList], false⟩,
   ⟨"Unable to read CRD tunnel connection ".toList, ["Connection Response Data Block should have connection type 4 (TUNNELING) instead of ".toList], false⟩,
   ⟨"Unable to read CRD KNX individual address ".toList, [], false⟩]

theorem crd_fits (eof : Text) : List.Forall₂ Phrased (crdEntries eof) crdLeads :=
  .cons (fits_told (List.prefix_append _ _) decimal_inj) <|
    .cons (fits_told (List.prefix_append _ _) decimal_inj) <|
    .cons (fits_any (List.prefix_append _ _)) <|
    .nil

def headerLeads : List Openings :=
  [⟨"Unable to read header length ".toList, ["Header length should be 6 instead of ".toList], false⟩,
   ⟨"Unable to read KNXIP version ".toList, ["KNXIP protocol version should be 0x10 instead of 10".toList], true⟩,
   ⟨"Unable to read service type identifier".toList, [], false⟩,
   ⟨"Unable to read total length".toList, [], false⟩]

theorem header_fits (eof : Text) : List.Forall₂ Phrased (headerEntries eof) headerLeads :=
  .cons (fits_told (List.prefix_append _ _) decimal_inj) <|
    .cons (fits_blind (List.prefix_append _ _)) <|
    .cons (fits_any List.prefix_rfl) <|
    .cons (fits_any List.prefix_rfl) <|
    .nil

def connectResponseLeads : List Openings :=
  [⟨"Unable to read header size ".toList, ["Header size should be 6 instead of ".toList], false⟩,
   ⟨"Unable to read KNXIP version ".toList, ["KNXIP version should be 0x10 instead of ".toList ++ ['0', '6']], true⟩,
   ⟨"Unable to read Connect Response ".toList, ["Connect response should be 0x0206 instead of ".toList], false⟩,
   ⟨"Unable to read packet size ".toList, ["Packet size should greather than 8, received size ".toList], false⟩,
   ⟨"Unable to read Communication Channel Id ".toList, [], false⟩,
   ⟨"Unable to read status ".toList, refusals, false⟩,
   ⟨"Unable to read HPAI size ".toList, ["HPAI size must be 8 instead of ".toList], false⟩,
   ⟨"Unable to read HPAI host protocol code ".toList, [], false⟩,
   ⟨"Unable to read HPAI IP part 1 ".toList, [], false⟩,
   ⟨"Unable to read HPAI IP part 2 ".toList, [], false⟩,
   ⟨"Unable to read HPAI IP part 3 ".toList, [], false⟩,
   ⟨"Unable to read HPAI IP part 4 ".toList, [], false⟩,
   ⟨"Unable to read HPAI IP Port ".toList, [], false⟩,
   ⟨"Unable to read CRD packet size ".toList, ["Connection Response Data Block should have length 4 instead of ".toList], false⟩,
   ⟨"Unable to read CRD tunnel connection ".toList, ["Connection Response Data Block should have connection type 4 (TUNNELING) instead of ".toList], false⟩,
   ⟨"Unable to read CRD KNX individual address ".toList, [], false⟩]

theorem connectResponse_fits (eof : Text) : List.Forall₂ Phrased (connectResponseEntries eof) connectResponseLeads :=
  .cons (fits_told (List.prefix_append _ _) decimal_inj) <|
    .cons (fits_blind (List.prefix_append _ _)) <|
    .cons (fits_told (List.prefix_append _ _) hexTwo_inj) <|
    .cons (fits_told (List.prefix_append _ _) decimal_inj) <|
    .cons (fits_any (List.prefix_append _ _)) <|
    .cons (fits_status eof) <|
    .cons (fits_told (List.prefix_append _ _) decimal_inj) <|
    .cons (fits_any (List.prefix_append _ _)) <|
    .cons (fits_any (List.prefix_append _ _)) <|
    .cons (fits_any (List.prefix_append _ _)) <|
    .cons (fits_any (List.prefix_append _ _)) <|
    .cons (fits_any (List.prefix_append _ _)) <|
    .cons (fits_any (List.prefix_append _ _)) <|
    .cons (fits_told (List.prefix_append _ _) decimal_inj) <|
    .cons (fits_told (List.prefix_append _ _) decimal_inj) <|
    .cons (fits_any (List.prefix_append _ _)) <|
    .nil

def stateRequestLeads : List Openings :=
  [⟨"Unable to read header size ".toList, ["Header size should be 6 instead of ".toList], false⟩,
   ⟨"Unable to read KNXIP version ".toList, ["KNXIP version should be 0x10 instead of ".toList ++ [' ', '6']], true⟩,
   ⟨"Unable to read Connectstate request code ".toList, ["Connect request should be 0x0207 instead of ".toList], false⟩,
   ⟨"Unable to read packet size ".toList, [], false⟩,
   ⟨"Unable to read communication channel id ".toList, [], false⟩,
   ⟨"Unable to read padding data ".toList, [], false⟩,
   ⟨"Unable to read HPAI size ".toList, ["HPAI size must be 8 instead of ".toList], false⟩,
   ⟨"Unable to read HPAI host protocol code ".toList, [], false⟩,
   ⟨"Unable to read HPAI IP part 1 ".toList, [], false⟩,
   ⟨"Unable to read HPAI IP part 2 ".toList, [], false⟩,
   ⟨"Unable to read HPAI IP part 3 ".toList, [], false⟩,
   ⟨"Unable to read HPAI IP part 4 ".toList, [], false⟩,
   ⟨"Unable to read HPAI IP Port ".toList, [], false⟩]

theorem stateRequest_fits (eof : Text) : List.Forall₂ Phrased (stateRequestEntries eof) stateRequestLeads :=
  .cons (fits_told (List.prefix_append _ _) decimal_inj) <|
    .cons (fits_blind (List.prefix_append _ _)) <|
    .cons (fits_told (List.prefix_append _ _) hexadecimal_inj) <|
    .cons (fits_any (List.prefix_append _ _)) <|
    .cons (fits_any (List.prefix_append _ _)) <|
    .cons (fits_any (List.prefix_append _ _)) <|
    .cons (fits_told (List.prefix_append _ _) decimal_inj) <|
    .cons (fits_any (List.prefix_append _ _)) <|
    .cons (fits_any (List.prefix_append _ _)) <|
    .cons (fits_any (List.prefix_append _ _)) <|
    .cons (fits_any (List.prefix_append _ _)) <|
    .cons (fits_any (List.prefix_append _ _)) <|
    .cons (fits_any (List.prefix_append _ _)) <|
    .nil

def stateResponseLeads : List Openings :=
  [⟨"Unable to read header size ".toList, ["Header size should be 6 instead of ".toList], false⟩,
   ⟨"Unable to read KNXIP version ".toList, ["KNXIP version should be 0x10 instead of ".toList ++ [' ', '6']], true⟩,
   ⟨"Unable to read Connectstate Response ".toList, ["Connect response should be 0x0208 instead of ".toList], false⟩,
   ⟨"Unable to read packet size ".toList, ["Packet size should be 8, received size ".toList], false⟩,
   ⟨"Unable to read Communication Channel Id ".toList, [], false⟩,
   ⟨"Unable to read status ".toList, [], false⟩]

theorem stateResponse_fits (eof : Text) : List.Forall₂ Phrased (stateResponseEntries eof) stateResponseLeads :=
  .cons (fits_told (List.prefix_append _ _) decimal_inj) <|
    .cons (fits_blind (List.prefix_append _ _)) <|
    .cons (fits_told (List.prefix_append _ _) hexadecimal_inj) <|
    .cons (fits_told (List.prefix_append _ _) decimal_inj) <|
    .cons (fits_any (List.prefix_append _ _)) <|
    .cons (fits_any (List.prefix_append _ _)) <|
    .nil

def disconnectRequestLeads : List Openings :=
  [⟨"Unable to read header size ".toList, ["Header size should be at least 8 instead of ".toList], false⟩,
   ⟨"Unable to read communication channel id ".toList, [], false⟩,
   ⟨"Unable to read reserved data ".toList, [], false⟩,
   ⟨"Unable to read HPAI size ".toList, ["HPAI size must be 8 instead of ".toList], false⟩,
   ⟨"Unable to read HPAI host protocol code ".toList, [], false⟩,
   ⟨"Unable to read HPAI IP part 1 ".toList, [], false⟩,
   ⟨"Unable to read HPAI IP part 2 ".toList, [], false⟩,
   ⟨"Unable to read HPAI IP part 3 ".toList, [], false⟩,
   ⟨"Unable to read HPAI IP part 4 ".toList, [], false⟩,
   ⟨"Unable to read HPAI IP Port ".toList, [], false⟩]

theorem disconnectRequest_fits (eof : Text) : List.Forall₂ Phrased (disconnectRequestEntries eof) disconnectRequestLeads :=
  .cons (fits_told (List.prefix_append _ _) decimal_inj) <|
    .cons (fits_any (List.prefix_append _ _)) <|
    .cons (fits_any (List.prefix_append _ _)) <|
    .cons (fits_told (List.prefix_append _ _) decimal_inj) <|
    .cons (fits_any (List.prefix_append _ _)) <|
    .cons (fits_any (List.prefix_append _ _)) <|
    .cons (fits_any (List.prefix_append _ _)) <|
    .cons (fits_any (List.prefix_append _ _)) <|
    .cons (fits_any (List.prefix_append _ _)) <|
    .cons (fits_any (List.prefix_append _ _)) <|
    .nil

def disconnectResponseLeads : List Openings :=
  [⟨"Unable to read header size ".toList, ["Header size should be 6 instead of ".toList], false⟩,
   ⟨"Unable to read KNXIP version ".toList, ["KNXIP version should be 0x10 instead of ".toList ++ [' ', '6']], true⟩,
   ⟨"Unable to read Disconnect Response ".toList, ["Disconnect response should be 0x020A instead of ".toList], false⟩,
   ⟨"Unable to read packet size ".toList, ["Packet size should be 8, received size ".toList], false⟩,
   ⟨"Unable to read Communication Channel Id ".toList, [], false⟩,
   ⟨"Unable to read status ".toList, [], false⟩]

theorem disconnectResponse_fits (eof : Text) : List.Forall₂ Phrased (disconnectResponseEntries eof) disconnectResponseLeads :=
  .cons (fits_told (List.prefix_append _ _) decimal_inj) <|
    .cons (fits_blind (List.prefix_append _ _)) <|
    .cons (fits_told (List.prefix_append _ _) hexadecimal_inj) <|
    .cons (fits_told (List.prefix_append _ _) decimal_inj) <|
    .cons (fits_any (List.prefix_append _ _)) <|
    .cons (fits_any (List.prefix_append _ _)) <|
    .nil

def tunnelRequestLeads : List Openings :=
  [⟨"Unable to read header size".toList, ["Header size should be 6 instead of ".toList], false⟩,
   ⟨"Unable to read header version".toList, ["Version should be 0x10 instead of ".toList], false⟩,
   ⟨"Unable to read code ".toList, ["Code should be 0x0420 instead of ".toList], false⟩,
   ⟨"Unable to read packet size ".toList, [], false⟩,
   ⟨"Unable to read message code ".toList, ["Size should be 0x04 instead of ".toList], false⟩,
   ⟨"Unable to read communication channel id ".toList, [], false⟩,
   ⟨"Unable to read sequence number ".toList, [], false⟩,
   ⟨"Unable to read padding ".toList, [], false⟩]

theorem tunnelRequest_fits (eof : Text) : List.Forall₂ Phrased (tunnelRequestEntries eof) tunnelRequestLeads :=
  .cons (fits_told List.prefix_rfl decimal_inj) <|
    .cons (fits_told List.prefix_rfl hexSmall_inj) <|
    .cons (fits_told (List.prefix_append _ _) hexSmall_inj) <|
    .cons (fits_any (List.prefix_append _ _)) <|
    .cons (fits_told (List.prefix_append _ _) decimal_inj) <|
    .cons (fits_any (List.prefix_append _ _)) <|
    .cons (fits_any (List.prefix_append _ _)) <|
    .cons (fits_any (List.prefix_append _ _)) <|
    .nil

def ackLeads : List Openings :=
  [⟨"Unable to read header size".toList, ["Header size should be 6 instead of ".toList], false⟩,
   ⟨"Unable to read header version".toList, ["Version should be 0x10 instead of ".toList], false⟩,
   ⟨"Unable to read response code ".toList, ["Response code should be ".toList ++ "0x0421".toList ++ " instead of ".toList], false⟩,
   ⟨"Unable to read packet size ".toList, ["Packet size should be ".toList ++ "0x0a".toList ++ " instead of ".toList], false⟩,
   ⟨"Unable to read struct size ".toList, ["Structure size should be 0x04 instead of ".toList], false⟩,
   ⟨"Unable to read communication channel id ".toList, [], false⟩,
   ⟨"Unable to read communication channel id ".toList, [], false⟩,
   ⟨"Unable to read status ".toList, [], false⟩]

theorem ack_fits (eof : Text) : List.Forall₂ Phrased (ackEntries eof) ackLeads :=
  .cons (fits_told List.prefix_rfl decimal_inj) <|
    .cons (fits_told List.prefix_rfl hexSmall_inj) <|
    .cons (fits_told (List.prefix_append _ _) hexSmall_inj) <|
    .cons (fits_told (List.prefix_append _ _) hexSmall_inj) <|
    .cons (fits_told (List.prefix_append _ _) hexSmall_inj) <|
    .cons (fits_any (List.prefix_append _ _)) <|
    .cons (fits_any (List.prefix_append _ _)) <|
    .cons (fits_any (List.prefix_append _ _)) <|
    .nil

def featureLeads : List Openings :=
  [⟨"Unable to read header size".toList, ["Header size should be 6 instead of ".toList], false⟩,
   ⟨"Unable to read header version".toList, ["Version should be 0x10 instead of ".toList], false⟩,
   ⟨"Unable to read response code ".toList, ["Response code should be ".toList ++ "0x0423".toList ++ " instead of ".toList], false⟩,
   ⟨"Unable to read packet size ".toList, ["Packet size should be ".toList ++ "0x0d".toList ++ " instead of ".toList], false⟩,
   ⟨"Unable to read struct size ".toList, ["Structure size should be 0x04 instead of ".toList], false⟩,
   ⟨"Unable to read communication channel id ".toList, [], false⟩,
   ⟨"Unable to read communication channel id ".toList, [], false⟩,
   ⟨"Unable to read reserved field ".toList, [], false⟩,
   ⟨"Unable to read status ".toList, ["Unknown KNXIP feature ".toList], false⟩,
   ⟨"Unable to read status ".toList, [], false⟩,
   ⟨"Unable to read value ".toList, [], false⟩]

theorem feature_fits (eof : Text) : List.Forall₂ Phrased (featureEntries eof) featureLeads :=
  .cons (fits_told List.prefix_rfl decimal_inj) <|
    .cons (fits_told List.prefix_rfl hexSmall_inj) <|
    .cons (fits_told (List.prefix_append _ _) hexSmall_inj) <|
    .cons (fits_told (List.prefix_append _ _) hexSmall_inj) <|
    .cons (fits_told (List.prefix_append _ _) hexSmall_inj) <|
    .cons (fits_any (List.prefix_append _ _)) <|
    .cons (fits_any (List.prefix_append _ _)) <|
    .cons (fits_any (List.prefix_append _ _)) <|
    .cons (fits_told (List.prefix_append _ _) decimal_inj) <|
    .cons (fits_any (List.prefix_append _ _)) <|
    .cons (fits_any (List.prefix_append _ _)) <|
    .nil

/-- How the texts of a layout begin. -/
def Spec.Layout.leads : Layout → List Openings
  | .hpai => hpaiLeads
  | .crd => crdLeads
  | .header => headerLeads
  | .connectResponse => connectResponseLeads
  | .stateRequest => stateRequestLeads
  | .stateResponse => stateResponseLeads
  | .disconnectRequest => disconnectRequestLeads
  | .disconnectResponse => disconnectResponseLeads
  | .tunnelRequest => tunnelRequestLeads
  | .ack => ackLeads
  | .feature => featureLeads

theorem layout_fits (eof : Text) (k : Layout) : List.Forall₂ Phrased (k.entries eof) k.leads := by
  cases k
  · exact hpai_fits eof
  · exact crd_fits eof
  · exact header_fits eof
  · exact connectResponse_fits eof
  · exact stateRequest_fits eof
  · exact stateResponse_fits eof
  · exact disconnectRequest_fits eof
  · exact disconnectResponse_fits eof
  · exact tunnelRequest_fits eof
  · exact ack_fits eof
  · exact feature_fits eof

theorem layout_tidy (k : Layout) : tidy k.twins k.blind k.leads = true := by
  cases k <;> decide +kernel

theorem layout_twins (eof : Text) (k : Layout) : ∀ p ∈ k.twins, (k.entries eof)[p.1]?.map (·.gone) = (k.entries eof)[p.2]?.map (·.gone) := by
  cases k <;> simp only [Layout.twins, List.not_mem_nil, IsEmpty.forall_iff, implies_true, List.mem_cons, or_false, forall_eq_or_imp, forall_eq]
  · rfl
  · exact ⟨rfl, rfl⟩

/-- The text of an error. -/
def TRes.text {α : Type} : TRes α → Option Text
  | .err t => some t
  | _ => none

/-- What a decoder of the library says of octets. -/
def complaint (x : StdText) (d : Bytes) : Layout → Option Text
  | .hpai => (runTRd (Hpai.read x) d).text
  | .crd => (runTRd (Crd.read x) d).text
  | .header => (runTRd (Header.read x) d).text
  | .connectResponse => (runTRd (ConnectionResponse.read x) d).text
  | .stateRequest => (runTRd (ConnectionstateRequest.read x) d).text
  | .stateResponse => (runTRd (ConnectionstateResponse.read x) d).text
  | .disconnectRequest => (runTRd (DisconnectRequest.read x) d).text
  | .disconnectResponse => (runTRd (DisconnectResponse.read x) d).text
  | .tunnelRequest => (runTRd (TunnelingRequest.read x) d).text
  | .ack => (runTRd (TunnelingAck.read x) d).text
  | .feature => (runTRd (FeatureResp.read x) d).text

theorem Follows.text {α : Type} {p : TRd α} {es : List Entry} (h : Follows Silent p es) (d : Bytes) (t : Text) :
    (runTRd p d).text = some t ↔ inspect es d = .error t := by
  have hd := h d
  cases hi : inspect es d with
  | error u =>
    rw [hi] at hd
    have hd : p d = .err u := hd
    simp [runTRd, hd, TRes.text]
  | ok r =>
    rw [hi] at hd
    have hd : ∀ u, p d ≠ .err u := hd
    cases hp : p d with
    | err u => exact (hd u hp).elim
    | ok a => simp [runTRd, hp, TRes.text]
    | panic => simp [runTRd, hp, TRes.text]

/-- C131: what a decoder says of octets that it rejects is what is said of the first entry that is missing or has a value it may not
have. -/
theorem C131_exact (x : StdText) (k : Layout) (d : Bytes) (t : Text) :
    complaint x d k = some t ↔ inspect (k.entries x.eof) d = .error t := by
  cases k
  · exact (hpai_follows x).silent.text d t
  · exact (crd_follows x).silent.text d t
  · exact (header_follows x).silent.text d t
  · exact (connectResponse_follows x).silent.text d t
  · exact (stateRequest_follows x).silent.text d t
  · exact (stateResponse_follows x).silent.text d t
  · exact (disconnectRequest_follows x).silent.text d t
  · exact (disconnectResponse_follows x).silent.text d t
  · exact (tunnelRequest_follows x).text d t
  · exact (ack_follows x).silent.text d t
  · exact (feature_follows x).silent.text d t

theorem complaint_fault {x : StdText} {k : Layout} {d : Bytes} {t : Text} (h : complaint x d k = some t) :
    ∃ f, fault (k.entries x.eof) d = some f ∧ saying (k.entries x.eof) f = some t :=
  inspect_fault.mp ((C131_exact x k d t).mp h)

/-- C131, exactly: the same is said of two byte strings if and only if their faults are the same, or are two of which the same is said. -/
theorem C131_iff (x : StdText) (k : Layout) {d d' : Bytes} {t t' : Text} {f f' : Nat × Option Nat} (h : complaint x d k = some t)
    (h' : complaint x d' k = some t') (hf : fault (k.entries x.eof) d = some f) (hf' : fault (k.entries x.eof) d' = some f') :
    t = t' ↔ f = f' ∨ Confused k.twins k.blind f f' := by
  obtain ⟨g, hg, hs⟩ := complaint_fault h
  obtain ⟨g', hg', hs'⟩ := complaint_fault h'
  rw [hf] at hg
  rw [hf'] at hg'
  cases hg
  cases hg'
  exact saying_iff (layout_fits x.eof k) (layout_tidy k) (layout_twins x.eof k) hs hs'

/-- C131, in part: what is said names the fault, unless it is an entry of which the same is said as of another, or whose value is not
told. -/
theorem C131_partial (x : StdText) (k : Layout) {d d' : Bytes} {t : Text} {f : Nat × Option Nat} (h : complaint x d k = some t)
    (h' : complaint x d' k = some t) (hf : fault (k.entries x.eof) d = some f) (htw : ∀ p ∈ k.twins, p.1 ≠ f.1 ∧ p.2 ≠ f.1)
    (hbl : f.1 ∉ k.blind) : fault (k.entries x.eof) d' = some f := by
  obtain ⟨f', hf', _⟩ := complaint_fault h'
  rcases (C131_iff x k h h' hf hf').mp rfl with h1 | ⟨_, _, h1⟩ | ⟨_, h1, _⟩
  · rw [h1, hf']
  · rcases h1 with h1 | h1
    · exact ((htw _ h1).1 rfl).elim
    · exact ((htw _ h1).2 rfl).elim
  · exact (hbl h1).elim

/-! ## Search requests -/

theorem header_generic {t1 t3 t5 t6 : Text} {t2 t4 : U8 → Text} {d r : Bytes} {h : Header}
    (hh : (TRd.u8 t1 >>= fun a => TRd.ensure (a == 6) (t2 a) >>= fun _ => TRd.u8 t3 >>= fun b => TRd.ensure (b == 0x10) (t4 b) >>= fun _ =>
      TRd.u16 t5 >>= fun s => TRd.u16 t6 >>= fun l => (pure ⟨s, l⟩ : TRd Header)) d = .ok (h, r)) :
    h.serviceType.toNat = value ((d.drop 2).take 2) := by
  match d with
  | [] => simp [bind, TRd.u8] at hh
  | a :: d =>
    by_cases ha : a = 6
    · subst ha
      match d with
      | [] => simp [bind, TRd.u8, TRd.ensure] at hh
      | b :: d =>
        by_cases hb : b = 16
        · subst hb
          match d with
          | [] => simp [bind, TRd.u8, TRd.u16, TRd.ensure] at hh
          | [_] => simp [bind, TRd.u8, TRd.u16, TRd.ensure] at hh
          | [_, _] => simp [bind, TRd.u8, TRd.u16, TRd.ensure] at hh
          | [_, _, _] => simp [bind, TRd.u8, TRd.u16, TRd.ensure] at hh
          | c :: e :: f :: g :: d =>
            simp only [bind, TRd.u8, TRd.u16, TRd.ensure, BEq.rfl, if_true, pure, TRes.ok.injEq, Prod.mk.injEq] at hh
            rw [← hh.1]
            exact (value_two c e).symm
        · have hb : (b == 16) = false := by simpa using hb
          simp only [bind, TRd.u8, TRd.ensure, BEq.rfl, if_true, hb, Bool.false_eq_true, if_false, reduceCtorEq] at hh
    · have ha : (a == 6) = false := by simpa using ha
      simp only [bind, TRd.u8, TRd.ensure, ha, Bool.false_eq_true, if_false, reduceCtorEq] at hh

theorem header_service {x : StdText} {d r : Bytes} {h : Header} (hh : Header.read x d = .ok (h, r)) :
    h.serviceType.toNat = value ((d.drop 2).take 2) := header_generic hh

/-- C131 for search requests. -/
theorem C131_search (x : StdText) (d : Bytes) (t : Text) :
    (runTRd (SearchRequest.read x) d).text = some t ↔ inspectSearch x.eof d = .error t := by
  have hd := header_follows x d
  unfold inspectSearch
  cases hi : inspect (headerEntries x.eof) d with
  | error u =>
    rw [hi] at hd
    have hd : Header.read x d = .err u := hd
    simp [runTRd, SearchRequest.read, bind, hd, TRes.text]
  | ok r =>
    rw [hi] at hd
    obtain ⟨h, hh⟩ := hd
    have hs := header_service hh
    have hb : (SearchRequest.read x) d = (TRd.ensure (h.serviceType == 0x0201)
        ("Search request should be 0x0201 instead of ".toList ++ hex2 h.serviceType.toNat) >>= fun _ =>
          Hpai.read x >>= fun e => (pure ⟨e⟩ : TRd SearchRequest)) r := by
      simp only [SearchRequest.read, bind, hh]
    have hc := eq_lit16 0x201 (by decide) h.serviceType
    rw [hs] at hc hb
    by_cases hv : value ((d.drop 2).take 2) = 0x201
    · have hc : (h.serviceType == 0x201) = true := hc.trans (by simp [hv])
      have hf : Follows Leaves (Hpai.read x >>= fun e => (pure ⟨e⟩ : TRd SearchRequest)) (hpaiEntries x.eof) := by
        have := follows_bind (fs := []) (hpai_follows x) fun e => follows_pure (⟨e⟩ : SearchRequest)
        rwa [List.append_nil] at this
      have := hf.silent.text r t
      simp only [runTRd, hb, hc, hv, if_true]
      exact this
    · have hc : (h.serviceType == 0x201) = false := hc.trans (by simp [hv])
      simp only [runTRd, hb, hc, hv, if_false, bind, TRd.ensure, Bool.false_eq_true, TRes.text, hex2_hexadecimal, Option.some.injEq,
        Except.error.injEq]

/-! ## cEMI frames -/

theorem ofU8_none {t : U8} : InfoType.ofU8 t = none ↔ t.toNat ∉ infoTypes := by
  revert t
  decide +kernel

theorem addU_addU (m : Mode) (p s : U8) :
    ((m = .release ∨ p.toNat + s.toNat + 2 < 256) ∧
      ∃ a b, addU m s 2 = .ok a ∧ addU m p a = .ok b ∧ b.toNat = (p.toNat + s.toNat + 2) % 256) ∨
    (¬ (m = .release ∨ p.toNat + s.toNat + 2 < 256) ∧
      (addU m s 2 = .panic ∨ ∃ a, addU m s 2 = .ok a ∧ addU m p a = .panic)) := by
  have hs : s.toNat < 256 := s.isLt
  have hp : p.toNat < 256 := p.isLt
  have h2 : (2 : U8).toNat = 2 := rfl
  cases m with
  | release =>
    refine .inl ⟨.inl rfl, _, _, addU_release _ _, addU_release _ _, ?_⟩
    rw [BitVec.toNat_add, BitVec.toNat_add, h2]
    omega
  | debug =>
    by_cases h1 : s.toNat + 2 < 256
    · have e1 : (s + 2).toNat = s.toNat + 2 := by rw [BitVec.toNat_add, h2]; omega
      by_cases h3 : p.toNat + s.toNat + 2 < 256
      · refine .inl ⟨.inr h3, _, _, addU_of_lt _ _ _ (by rw [h2]; omega), addU_of_lt _ _ _ (by rw [e1]; omega), ?_⟩
        rw [BitVec.toNat_add, e1]
        omega
      · refine .inr ⟨by simp [h3], .inr ⟨_, addU_of_lt _ _ _ (by rw [h2]; omega), ?_⟩⟩
        exact (addU_panic_iff _ _ _).mpr ⟨rfl, by rw [e1]; omega⟩
    · refine .inr ⟨?_, .inl ((addU_panic_iff _ _ _).mpr ⟨rfl, by rw [h2]; omega⟩)⟩
      rintro (h | h)
      · cases h
      · omega

theorem walk_iff {m : Mode} {total p : Nat} {r : Bytes} {q : Nat} {r' : Bytes} : InfoWalk m total p r q r' ↔
    (q = p ∧ r' = r) ∨ ∃ t s u, r = t :: s :: u ∧ p < total ∧ t.toNat ∈ infoTypes ∧ (m = .release ∨ p + s.toNat + 2 < 256) ∧
      InfoWalk m total ((p + s.toNat + 2) % 256) (u.drop s.toNat) q r' := by
  constructor
  · intro h
    cases h with
    | stay => exact .inl ⟨rfl, rfl⟩
    | step _ t s u _ _ h1 h2 h3 h4 => exact .inr ⟨t, s, u, rfl, h1, h2, h3, h4⟩
  · rintro (⟨rfl, rfl⟩ | ⟨t, s, u, rfl, h1, h2, h3, h4⟩)
    · exact .stay _ _
    · exact .step _ _ _ _ _ _ h1 h2 h3 h4

/-- What is said at the end of a walk. -/
def WalkSaid (m : Mode) (x : StdText) (total p : Nat) (r : Bytes) (t : Text) : Prop :=
  ∃ q r', InfoWalk m total p r q r' ∧ q < total ∧
    ((r' = [] ∧ t = "Unable to read addition info type ".toList ++ x.eof) ∨
     (∃ a s, r' = a :: s ∧ a.toNat ∉ infoTypes ∧ t = "Unknown additional info type ()".toList) ∨
     (∃ a, r' = [a] ∧ a.toNat ∈ infoTypes ∧ t = "Unable to read addition info size ".toList ++ x.eof))

theorem cemiInfosT_text (x : StdText) (m : Mode) (total : U8) (t : Text) (p : U8) (r : Bytes) :
    (cemiInfosT x m total p r = .err t ↔ WalkSaid m x total.toNat p.toNat r t) := by
  induction hn : r.length using Nat.strongRecOn generalizing p r with
  | ind n ih =>
    subst hn
    rw [cemiInfosT.eq_def]
    by_cases hp : p < total
    · have hp' : p.toNat < total.toNat := hp
      rw [if_pos hp]
      match r with
      | [] =>
        unfold WalkSaid
        generalize "Unable to read addition info type ".toList ++ x.eof = ta
        constructor
        · intro h
          cases h
          exact ⟨_, _, .stay _ _, hp', .inl ⟨rfl, rfl⟩⟩
        · rintro ⟨q, r', hw, hq, h⟩
          rcases walk_iff.mp hw with ⟨rfl, rfl⟩ | ⟨_, _, _, h1, _⟩
          · rcases h with ⟨_, rfl⟩ | ⟨a, s, h1, _⟩ | ⟨a, h1, _⟩
            · rfl
            · cases h1
            · cases h1
          · cases h1
      | [a] =>
        unfold WalkSaid
        generalize "Unable to read addition info type ".toList ++ x.eof = ta
        generalize "Unable to read addition info size ".toList ++ x.eof = tb
        generalize "Unknown additional info type ()".toList = tc
        have hstay : ∀ {q r'}, InfoWalk m total.toNat p.toNat [a] q r' → q = p.toNat ∧ r' = [a] := by
          intro q r' hw
          rcases walk_iff.mp hw with h | ⟨_, _, _, h1, _⟩
          · exact h
          · cases h1
        cases ht : InfoType.ofU8 a with
        | none =>
          have hn := ofU8_none.mp ht
          constructor
          · intro h
            simp only [ht] at h
            cases h
            exact ⟨_, _, .stay _ _, hp', .inr (.inl ⟨_, _, rfl, hn, rfl⟩)⟩
          · rintro ⟨q, r', hw, hq, h⟩
            obtain ⟨rfl, rfl⟩ := hstay hw
            rcases h with ⟨h1, _⟩ | ⟨_, _, _, _, rfl⟩ | ⟨b, h1, h2, _⟩
            · cases h1
            · simp only [ht]
            · cases h1
              exact (hn h2).elim
        | some ty =>
          have hk : a.toNat ∈ infoTypes := by
            by_contra h
            rw [ofU8_none.mpr h] at ht
            cases ht
          constructor
          · intro h
            simp only [ht] at h
            cases h
            exact ⟨_, _, .stay _ _, hp', .inr (.inr ⟨_, rfl, hk, rfl⟩)⟩
          · rintro ⟨q, r', hw, hq, h⟩
            obtain ⟨rfl, rfl⟩ := hstay hw
            rcases h with ⟨h1, _⟩ | ⟨b, _, h1, h2, _⟩ | ⟨b, h1, h2, rfl⟩
            · cases h1
            · cases h1
              exact (h2 hk).elim
            · simp only [ht]
      | a :: s :: u =>
        cases ht : InfoType.ofU8 a with
        | none =>
          have hn := ofU8_none.mp ht
          unfold WalkSaid
          generalize "Unable to read addition info type ".toList ++ x.eof = ta
          generalize "Unable to read addition info size ".toList ++ x.eof = tb
          generalize "Unknown additional info type ()".toList = tc
          constructor
          · intro h
            simp only [ht] at h
            cases h
            exact ⟨_, _, .stay _ _, hp', .inr (.inl ⟨_, _, rfl, hn, rfl⟩)⟩
          · rintro ⟨q, r', hw, hq, h⟩
            rcases walk_iff.mp hw with ⟨rfl, rfl⟩ | ⟨_, _, _, h1, _, h2, _⟩
            · rcases h with ⟨h1, _⟩ | ⟨_, _, _, _, rfl⟩ | ⟨b, h1, _⟩
              · cases h1
              · simp only [ht]
              · cases h1
            · cases h1
              exact (hn h2).elim
        | some ty =>
          have hk : a.toNat ∈ infoTypes := by
            by_contra h
            rw [ofU8_none.mpr h] at ht
            cases ht
          have hws : WalkSaid m x total.toNat p.toNat (a :: s :: u) t ↔ (m = .release ∨ p.toNat + s.toNat + 2 < 256) ∧
              WalkSaid m x total.toNat ((p.toNat + s.toNat + 2) % 256) (u.drop s.toNat) t := by
            unfold WalkSaid
            generalize "Unable to read addition info type ".toList ++ x.eof = ta
            generalize "Unable to read addition info size ".toList ++ x.eof = tb
            generalize "Unknown additional info type ()".toList = tc
            constructor
            · rintro ⟨q, r', hw, hq, h⟩
              rcases walk_iff.mp hw with ⟨rfl, rfl⟩ | ⟨_, _, _, h1, _, h2, h3, h4⟩
              · rcases h with ⟨h1, _⟩ | ⟨_, _, h1, h2, rfl⟩ | ⟨b, h1, _⟩
                · cases h1
                · cases h1
                  exact (h2 hk).elim
                · cases h1
              · cases h1
                exact ⟨h3, q, r', h4, hq, h⟩
            · rintro ⟨h3, q, r', h4, hq, h⟩
              exact ⟨q, r', .step _ _ _ _ _ _ hp' hk h3 h4, hq, h⟩
          rw [hws]
          rcases addU_addU m p s with ⟨h1, b, c, h2, h3, h4⟩ | ⟨h1, h2⟩
          · have := ih (u.drop s.toNat).length (by simp [List.length_drop]; omega) c (u.drop s.toNat) rfl
            rw [h4] at this
            rw [and_iff_right h1, ← this]
            simp only [ht, h2, h3]
            cases cemiInfosT x m total c (u.drop s.toNat) <;> simp
          · have : ¬ ((m = .release ∨ p.toNat + s.toNat + 2 < 256) ∧
                WalkSaid m x total.toNat ((p.toNat + s.toNat + 2) % 256) (u.drop s.toNat) t) := fun h => h1 h.1
            refine iff_of_false ?_ this
            rcases h2 with h2 | ⟨b, h2, h3⟩
            · simp only [ht, h2]
              exact fun h => nomatch h
            · simp only [ht, h2, h3]
              exact fun h => nomatch h
    · have hp' : ¬ p.toNat < total.toNat := hp
      rw [if_neg hp]
      refine iff_of_false (fun h => nomatch h) ?_
      rintro ⟨q, r', hw, hq, _⟩
      rcases walk_iff.mp hw with ⟨rfl, rfl⟩ | ⟨_, _, _, _, h1, _⟩
      · exact hp' hq
      · exact hp' h1

/-- C131 for cEMI frames. -/
theorem C131_cemi (x : StdText) (m : Mode) (d : Bytes) (t : Text) :
    (runTRd (Cemi.read x m) d).text = some t ↔ CemiSaid m x.eof t d := by
  match d with
  | [] => simp [runTRd, Cemi.read, bind, TRd.u8, TRes.text, CemiSaid, eq_comm]
  | [_] => simp [runTRd, Cemi.read, bind, TRd.u8, TRes.text, CemiSaid, eq_comm]
  | c :: total :: r =>
    have h := cemiInfosT_text x m total t 0 r
    have hs : CemiSaid m x.eof t (c :: total :: r) ↔ WalkSaid m x total.toNat (0 : U8).toNat r t := Iff.rfl
    rw [hs, ← h]
    have e : Cemi.read x m (c :: total :: r) = (match cemiInfosT x m total 0 r with
      | .ok (a, r') => .ok (⟨c, a, r'⟩, [])
      | .err t => .err t
      | .panic => .panic) := by
      simp only [Cemi.read, bind, TRd.u8, TRd.of, TRd.toEnd, pure]
      cases cemiInfosT x m total 0 r <;> rfl
    rw [runTRd, e]
    cases hc : cemiInfosT x m total 0 r with
    | ok a => simp [TRes.text]
    | err u => simp [TRes.text]
    | panic => simp [TRes.text]

/-! ## What is not told -/

theorem inspect_good {g : Text} {w : Nat → Option Text} {es : List Entry} {a : U8} {d : Bytes} (h : w a.toNat = none) :
    inspect (⟨1, g, w⟩ :: es) (a :: d) = inspect es d := by
  simp [inspect, value_one, h]

theorem inspect_bad {g : Text} {w : Nat → Option Text} {es : List Entry} {a : U8} {d : Bytes} {t : Text} (h : w a.toNat = some t) :
    inspect (⟨1, g, w⟩ :: es) (a :: d) = .error t := by
  simp [inspect, value_one, h]

/-- C131 does not hold: of any two wrong versions the same is said. -/
theorem C131_violated_version (x : StdText) {v w : U8} (hv : v ≠ 16) (hw : w ≠ 16) (d d' : Bytes) :
    complaint x (6 :: v :: d) .connectResponse = complaint x (6 :: w :: d') .connectResponse ∧
    complaint x (6 :: v :: d) .connectResponse ≠ none := by
  have key : ∀ (v : U8) (d : Bytes), v ≠ 16 → complaint x (6 :: v :: d) .connectResponse =
      some ("KNXIP version should be 0x10 instead of ".toList ++ ['0', '6']) := by
    intro v d h
    have hv : v.toNat ≠ 16 := fun e => h (BitVec.eq_of_toNat_eq e)
    exact (C131_exact x .connectResponse _ _).mpr ((inspect_good rfl).trans (inspect_bad (if_neg (by simpa using hv))))
  rw [key v d hv, key w d' hw]
  exact ⟨rfl, by simp⟩

/-- C131 does not hold: an acknowledgement that ends before the channel and one that ends before the number are rejected with the same
words. -/
theorem C131_violated_ack (x : StdText) (c : U8) :
    complaint x [6, 0x10, 4, 0x21, 0, 10, 4] .ack = complaint x [6, 0x10, 4, 0x21, 0, 10, 4, c] .ack ∧
    fault (Layout.ack.entries x.eof) [6, 0x10, 4, 0x21, 0, 10, 4] = some (5, none) ∧
    fault (Layout.ack.entries x.eof) [6, 0x10, 4, 0x21, 0, 10, 4, c] = some (6, none) :=
  ⟨rfl, rfl, rfl⟩

/-- C131 does not hold: a feature response that ends before the feature and one that ends before the status are rejected with the same
words. -/
theorem C131_violated_feature (x : StdText) (c n r : U8) :
    complaint x [6, 0x10, 4, 0x23, 0, 13, 4, c, n, r] .feature = complaint x [6, 0x10, 4, 0x23, 0, 13, 4, c, n, r, 2] .feature ∧
    fault (Layout.feature.entries x.eof) [6, 0x10, 4, 0x23, 0, 13, 4, c, n, r] = some (8, none) ∧
    fault (Layout.feature.entries x.eof) [6, 0x10, 4, 0x23, 0, 13, 4, c, n, r, 2] = some (9, none) :=
  ⟨rfl, rfl, rfl⟩

/-- C131 does not hold: of unknown types of additional information the same is said whatever they are, and whatever stood before. -/
theorem C131_violated_cemi (x : StdText) (m : Mode) {c total t : U8} {r s : Bytes} {q : Nat} (hw : InfoWalk m total.toNat 0 r q (t :: s))
    (hq : q < total.toNat) (ht : t.toNat ∉ infoTypes) :
    (runTRd (Cemi.read x m) (c :: total :: r)).text = some "Unknown additional info type ()".toList :=
  (C131_cemi x m _ _).mpr ⟨q, t :: s, hw, hq, .inr (.inl ⟨t, s, rfl, ht, rfl⟩)⟩

/-- C131 does not hold: of a description block without its type it is said that its length is missing. -/
theorem C131_violated_dib (m : Mode) (n : U8) :
    (runTRd (Dib.read m) []).text = some "Unable to read structure length".toList ∧
    (runTRd (Dib.read m) [n]).text = some "Unable to read structure length".toList :=
  ⟨rfl, rfl⟩

/-- A connection is refused for want of channels; the words are those of that status alone. -/
example (x : StdText) : complaint x [6, 16, 2, 6, 0, 8, 0, 0x24] .connectResponse =
    some "No more connections available on target KNX/IP device".toList := rfl

example (x : StdText) : fault (Layout.connectResponse.entries x.eof) [6, 16, 2, 6, 0, 8, 0, 0x24] = some (5, some 0x24) := rfl

/-- The third octet of the address of an endpoint is missing. -/
example (x : StdText) : complaint x [8, 1, 192, 168] .hpai = some ("Unable to read HPAI IP part 3 ".toList ++ x.eof) := rfl

example (x : StdText) : fault (Layout.hpai.entries x.eof) [8, 1, 192, 168] = some (4, none) := rfl

/-- A search request that ends before the service. -/
example (x : StdText) : inspectSearch x.eof [6, 16, 2] = .error "Unable to read service type identifier".toList := rfl

/-- One additional information of a known type, then one of an unknown type. -/
example (m : Mode) : InfoWalk m 5 0 [3, 1, 0xff, 0x0b, 0] 3 [0x0b, 0] :=
  .step _ _ _ _ _ _ (by decide) (by decide) (.inr (by decide)) (.stay _ _)

example : (0x0b : U8).toNat ∉ infoTypes := by decide

end Knx
