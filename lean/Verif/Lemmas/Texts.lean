import Verif.Model.Texts

/-!
# Without their texts the functions of `Model/Texts.lean` are the functions modelled before
-/

namespace Knx

namespace TRd

@[simp] theorem erase_pure {α : Type} (a : α) : erase (pure a) = pure a := rfl

@[simp] theorem erase_bind {α β : Type} (p : TRd α) (f : α → TRd β) : erase (p >>= f) = erase p >>= fun a => erase (f a) := by
  funext r
  simp only [erase, bind]
  cases h : p r <;> simp [TRes.erase]

@[simp] theorem erase_u8 (t : Text) : erase (u8 t) = Rd.u8 := by
  funext r
  cases r <;> rfl

@[simp] theorem erase_u16 (t : Text) : erase (u16 t) = Rd.u16 := by
  funext r
  match r with
  | [] => rfl
  | [_] => rfl
  | _ :: _ :: _ => rfl

@[simp] theorem erase_exact (n : Nat) (t : Text) : erase (exact n t) = Rd.exact n := by
  funext r
  simp only [erase, exact]
  cases Rd.exact n r <;> rfl

@[simp] theorem erase_exactVec (n : Nat) (t : Text) : erase (exactVec n t) = Rd.exactVec n := by
  funext r
  simp only [erase, exactVec]
  cases Rd.exactVec n r <;> rfl

@[simp] theorem erase_ensure (c : Bool) (t : Text) : erase (ensure c t) = Rd.ensure c := by
  funext r
  cases c <;> rfl

@[simp] theorem erase_fail {α : Type} (t : Text) : erase (fail t : TRd α) = Rd.fail := rfl

@[simp] theorem erase_lift {α : Type} (x : Res α) (t : Text) : erase (lift x t) = Rd.lift x := by
  funext r
  cases x <;> rfl

@[simp] theorem erase_fill (n : Nat) : erase (fill n) = Rd.fill n := by
  funext r
  simp only [erase, fill]
  cases Rd.fill n r <;> rfl

end TRd

theorem runTRd_erase {α : Type} (p : TRd α) (r : Bytes) : (runTRd p r).erase = runRd p.erase id r := by
  simp only [runTRd, runRd, TRd.erase]
  cases p r <;> rfl

theorem erase_err {α : Type} {x : TRes α} : x.erase = .err ↔ ∃ t, x = .err t := by
  cases x <;> simp [TRes.erase]

theorem ConnectionstateResponse.read_erase (x : StdText) : (ConnectionstateResponse.read x).erase = ConnectionstateResponse.fromPacket := by
  simp [ConnectionstateResponse.read, ConnectionstateResponse.fromPacket]

theorem DisconnectResponse.read_erase (x : StdText) : (DisconnectResponse.read x).erase = DisconnectResponse.fromPacket := by
  simp [DisconnectResponse.read, DisconnectResponse.fromPacket]

theorem Header.read_erase (x : StdText) : (Header.read x).erase = Header.fromPacket := by
  simp [Header.read, Header.fromPacket]

theorem Hpai.read_erase (x : StdText) : (Hpai.read x).erase = Hpai.fromPacket := by
  simp [Hpai.read, Hpai.fromPacket]

theorem DeviceInfo.read_erase (n : U8) : (DeviceInfo.read n).erase = DeviceInfo.fromPacket n := by
  simp [DeviceInfo.read, DeviceInfo.fromPacket]

theorem readFamiliesT_erase (n : Nat) : (readFamiliesT n).erase = readFamilies n := by
  induction n with
  | zero => rfl
  | succ n ih => simp [readFamiliesT, readFamilies, ih]

theorem ServiceFamilies.read_erase (m : Mode) (n : U8) : (ServiceFamilies.read m n).erase = ServiceFamilies.fromPacket m n := by
  simp [ServiceFamilies.read, ServiceFamilies.fromPacket, readFamiliesT_erase]

theorem IpConfig.read_erase (n : U8) : (IpConfig.read n).erase = IpConfig.fromPacket n := by
  simp [IpConfig.read, IpConfig.fromPacket]

theorem IpCurrentConfig.read_erase (n : U8) : (IpCurrentConfig.read n).erase = IpCurrentConfig.fromPacket n := by
  simp [IpCurrentConfig.read, IpCurrentConfig.fromPacket]

theorem readIpsT_erase (n : Nat) : (readIpsT n).erase = readIps n := by
  induction n with
  | zero => rfl
  | succ n ih => simp [readIpsT, readIps, ih]

theorem KnxAddresses.read_erase (m : Mode) (n : U8) : (KnxAddresses.read m n).erase = KnxAddresses.fromPacket m n := by
  simp [KnxAddresses.read, KnxAddresses.fromPacket, readIpsT_erase]

theorem ManufacturerData.read_erase (n : U8) : (ManufacturerData.read n).erase = ManufacturerData.fromPacket n := by
  simp [ManufacturerData.read, ManufacturerData.fromPacket]

theorem Dib.read_erase (m : Mode) : (Dib.read m).erase = Dib.fromPacket m := by
  simp only [Dib.read, Dib.fromPacket, TRd.erase_bind, TRd.erase_u8, TRd.erase_lift]
  congr 1; funext a
  congr 1; funext b
  congr 1; funext c
  cases c <;> simp [DeviceInfo.read_erase, ServiceFamilies.read_erase, IpConfig.read_erase, IpCurrentConfig.read_erase,
    KnxAddresses.read_erase, ManufacturerData.read_erase]

theorem SearchResponse.read_erase (x : StdText) (m : Mode) : (SearchResponse.read x m).erase = SearchResponse.fromPacket m := by
  simp only [SearchResponse.read, SearchResponse.fromPacket, TRd.erase_bind, Header.read_erase, TRd.erase_ensure, Hpai.read_erase,
    Dib.read_erase]
  congr 1; funext a
  congr 1; funext b
  congr 1; funext c
  congr 1; funext d
  cases d
  case deviceInformation d =>
    simp only [TRd.erase_bind, TRd.erase_pure, Dib.read_erase]
    congr 1; funext _
    congr 1; funext e
    cases e <;> rfl
  all_goals rfl

theorem LDataInd.read_erase (x : StdText) (c : Cemi) : (LDataInd.read x c).erase = LDataInd.fromCemi c := by
  unfold LDataInd.read LDataInd.fromCemi
  rw [runTRd_erase]
  simp only [TRd.erase_bind, TRd.erase_u8, TRd.erase_u16]
  have he : ∀ {α : Type} (l : U8) (p q : TRd α), TRd.erase (if l > 0 then p else q) = if l > 0 then p.erase else q.erase := by
    intro α l p q
    split <;> rfl
  simp only [he, TRd.erase_bind, TRd.erase_fill, TRd.erase_pure, runRd, id]
  split <;> rename_i h <;> split <;> rename_i h' <;> simp_all

/-! ## Addresses -/

theorem parseDigitsT_toOption (max : Nat) (acc : Nat) (cs : List Char) (h : acc ≤ max) :
    (parseDigitsT max acc cs).toOption = parseDigits max acc cs := by
  induction cs generalizing acc with
  | nil => rfl
  | cons c cs ih =>
    simp only [parseDigitsT, parseDigits]
    cases digitVal c with
    | none => simp only [ite_self]; rfl
    | some d =>
      by_cases hd : acc * 10 + d ≤ max
      · simp only [hd, if_true, show acc * 10 ≤ max by omega]
        exact ih _ hd
      · simp only [hd, if_false]
        split <;> rfl

theorem parseUIntT_toOption (max : Nat) (cs : List Char) : (parseUIntT max cs).toOption = parseUInt max cs := by
  match cs with
  | [] => rfl
  | [c] =>
    by_cases hc : c = '+'
    · subst hc; rfl
    · have h1 : parseUIntT max [c] = parseDigitsT max 0 [c] := by unfold parseUIntT; split <;> simp_all
      have h2 : parseUInt max [c] = parseDigits max 0 [c] := by unfold parseUInt; split <;> simp_all
      rw [h1, h2]
      exact parseDigitsT_toOption _ _ _ (Nat.zero_le _)
  | c :: d :: cs =>
    by_cases hc : c = '+'
    · subst hc
      exact parseDigitsT_toOption _ _ _ (Nat.zero_le _)
    · have h1 : parseUIntT max (c :: d :: cs) = parseDigitsT max 0 (c :: d :: cs) := by unfold parseUIntT; split <;> simp_all
      have h2 : parseUInt max (c :: d :: cs) = parseDigits max 0 (c :: d :: cs) := by unfold parseUInt; split <;> simp_all
      rw [h1, h2]
      exact parseDigitsT_toOption _ _ _ (Nat.zero_le _)

theorem partU8_erase (p : List Char) (f : IntErr → Text) :
    (partU8 p f).erase = match parseU8 p with | some n => .ok n | none => .err := by
  unfold partU8 parseU8
  rw [← parseUIntT_toOption]
  cases parseUIntT 255 p <;> rfl

theorem IndAddr.parseT_erase (x : StdText) (s : List Char) : (IndAddr.parseT x s).erase = IndAddr.parse s := by
  unfold IndAddr.parseT IndAddr.parse
  generalize splitOn '.' s = l
  match l with
  | [] | [_] | [_, _] | _ :: _ :: _ :: _ :: _ => rfl
  | [p0, p1, p2] =>
    have h0 := partU8_erase p0 (indText x "area" p0)
    have h1 := partU8_erase p1 (indText x "line" p1)
    have h2 := partU8_erase p2 (indText x "address" p2)
    cases e0 : partU8 p0 (indText x "area" p0) <;> cases g0 : parseU8 p0 <;> simp only [e0, g0, TRes.erase, reduceCtorEq] at h0 ⊢
    cases e1 : partU8 p1 (indText x "line" p1) <;> cases g1 : parseU8 p1 <;> simp only [e1, g1, TRes.erase, reduceCtorEq] at h1 ⊢
    cases e2 : partU8 p2 (indText x "address" p2) <;> cases g2 : parseU8 p2 <;> simp only [e2, g2, TRes.erase, reduceCtorEq] at h2 ⊢
    cases h0; cases h1; cases h2; rfl

theorem KnxAddress.parseT_erase (x : StdText) (s : List Char) : (KnxAddress.parseT x s).erase = KnxAddress.parse s := by
  unfold KnxAddress.parseT KnxAddress.parse
  split
  · rw [← IndAddr.parseT_erase x]
    cases IndAddr.parseT x s <;> rfl
  · generalize splitOn '/' s = l
    match l with
    | [] | _ :: _ :: _ :: _ :: _ => rfl
    | [p0] =>
      have h0 : (parseUIntT 65535 p0).toOption = parseUInt 65535 p0 := parseUIntT_toOption _ _
      simp only [parseU16, ← h0]
      cases parseUIntT 65535 p0 <;> rfl
    | [p0, p1] =>
      have h0 := partU8_erase p0 (groupText "main")
      have h1 := partU8_erase p1 (groupText "sub")
      cases e0 : partU8 p0 (groupText "main") <;> cases g0 : parseU8 p0 <;> simp only [e0, g0, TRes.erase, reduceCtorEq] at h0 ⊢
      cases e1 : partU8 p1 (groupText "sub") <;> cases g1 : parseU8 p1 <;> simp only [e1, g1, TRes.erase, reduceCtorEq] at h1 ⊢
      cases h0; cases h1; rfl
    | [p0, p1, p2] =>
      have h0 := partU8_erase p0 (groupText "main")
      have h1 := partU8_erase p1 (groupText "mid")
      have h2 := partU8_erase p2 (groupText "sub")
      cases e0 : partU8 p0 (groupText "main") <;> cases g0 : parseU8 p0 <;> simp only [e0, g0, TRes.erase, reduceCtorEq] at h0 ⊢
      cases e1 : partU8 p1 (groupText "mid") <;> cases g1 : parseU8 p1 <;> simp only [e1, g1, TRes.erase, reduceCtorEq] at h1 ⊢
      cases e2 : partU8 p2 (groupText "sub") <;> cases g2 : parseU8 p2 <;> simp only [e2, g2, TRes.erase, reduceCtorEq] at h2 ⊢
      cases h0; cases h1; cases h2; rfl

end Knx
