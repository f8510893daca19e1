import Verif.Spec.Builds
import Verif.Props.Stories
import Verif.Props.MonitorLife
import Verif.Props.Wire
import Verif.Props.DpUnused
import Verif.Props.DpFloat
import Verif.Props.Exact
import Verif.Props.Dib
import Verif.Props.Search

/-!
# Debug builds and release builds (C129)
-/

namespace Knx
open Spec

/-! ## Single functions -/

/-- The checks only ever add panics. -/
def Checked {α : Type} (a b : Res α) : Prop := a = .panic ∨ a = b

theorem Checked.rfl {α : Type} {a : Res α} : Checked a a := Or.inr (Eq.refl _)

theorem Checked.ne_iff {α : Type} {a b : Res α} (h : Checked a b) (hb : b ≠ .panic) : a ≠ b ↔ a = .panic := by
  rcases h with h | h
  · simp [h, hb.symm]
  · subst h; simp [hb]

theorem checked_addU {n : Nat} (a b : BitVec n) : Checked (addU .debug a b) (addU .release a b) := by
  unfold addU; split
  · exact .rfl
  · exact Or.inl (Eq.refl _)

theorem checked_subU {n : Nat} (a b : BitVec n) : Checked (subU .debug a b) (subU .release a b) := by
  unfold subU; split
  · exact .rfl
  · exact Or.inl (Eq.refl _)

theorem checked_mulS {n : Nat} (a b : BitVec n) : Checked (mulS .debug a b) (mulS .release a b) := by
  unfold mulS; split
  · exact .rfl
  · exact Or.inl (Eq.refl _)

theorem checked_infos (total pos : U8) (r : Bytes) : Checked (cemiInfos .debug total pos r) (cemiInfos .release total pos r) := by
  induction hn : r.length using Nat.strongRecOn generalizing r pos with
  | _ n ih =>
    unfold cemiInfos
    split
    · split
      · rename_i t s r'
        split
        · exact .rfl
        · rcases checked_addU s 2 with h1 | h1
          · simp only [h1]; exact Or.inl (Eq.refl _)
          · rw [h1]
            cases h2 : addU .release s 2 with
            | err => exact .rfl
            | panic => exact .rfl
            | ok st =>
              simp only
              rcases checked_addU pos st with h3 | h3
              · simp only [h3]; exact Or.inl (Eq.refl _)
              · rw [h3]
                cases h4 : addU .release pos st with
                | err => exact .rfl
                | panic => exact .rfl
                | ok p' =>
                  simp only
                  rcases ih (r'.drop s.toNat).length (by subst hn; simp only [List.length_cons, List.length_drop]; omega) p' _ (Eq.refl _) with h5 | h5
                  · rw [h5]; exact Or.inl (Eq.refl _)
                  · rw [h5]; exact .rfl
      · exact .rfl
    · exact .rfl

/-- The same for readers. -/
def RdChecked {α : Type} (x y : Rd α) : Prop := ∀ r, Checked (x r) (y r)

theorem RdChecked.rfl {α : Type} {x : Rd α} : RdChecked x x := fun _ => .rfl

theorem RdChecked.bind {α β : Type} {x y : Rd α} {f g : α → Rd β} (h : RdChecked x y) (hf : ∀ a, RdChecked (f a) (g a)) :
    RdChecked (x >>= f) (y >>= g) := by
  intro r
  show Checked (match x r with | .ok (a, r') => f a r' | .err => .err | .panic => .panic) (match y r with | .ok (a, r') => g a r' | .err => .err | .panic => .panic)
  rcases h r with h | h
  · rw [h]; exact Or.inl (Eq.refl _)
  · rw [h]
    cases y r with
    | ok a => exact hf a.1 a.2
    | err => exact .rfl
    | panic => exact .rfl

theorem RdChecked.lift {α : Type} {a b : Res α} (h : Checked a b) : RdChecked (Rd.lift a) (Rd.lift b) := by
  intro r
  rcases h with h | h
  · rw [h]; exact Or.inl (Eq.refl _)
  · rw [h]; exact .rfl

theorem checked_cemi : RdChecked (Cemi.fromPacket .debug) (Cemi.fromPacket .release) :=
  .bind .rfl fun _ => .bind .rfl fun total => .bind (fun r => checked_infos total 0 r) fun _ => .rfl

theorem checked_dib : RdChecked (Dib.fromPacket .debug) (Dib.fromPacket .release) := by
  refine .bind .rfl fun l => .bind .rfl fun _ => .bind .rfl fun ty => ?_
  cases ty
  case supportedServiceFamilies =>
    exact .bind (.bind (.lift (checked_subU _ _)) fun _ => .rfl) fun _ => .rfl
  case knxAddresses =>
    exact .bind (.bind .rfl fun _ => .bind (.lift (checked_subU _ _)) fun _ => .rfl) fun _ => .rfl
  all_goals exact .rfl

theorem checked_search : RdChecked (SearchResponse.fromPacket .debug) (SearchResponse.fromPacket .release) :=
  .bind .rfl fun _ => .bind .rfl fun _ => .bind .rfl fun _ => .bind checked_dib fun d1 => by
    cases d1 <;> refine .bind .rfl fun _ => .bind checked_dib fun _ => .rfl

theorem checked_float (b : Bytes) : Checked (bytesToFloat .debug b) (bytesToFloat .release b) := by
  unfold bytesToFloat
  split
  · rename_i a b
    have : Checked (floatMant .debug (ofBe16 a b)) (floatMant .release (ofBe16 a b)) := by
      unfold floatMant
      simp only
      split
      · rcases checked_subU (ofBe16 a b &&& 0x07ff#16) 1 with h | h
        · simp only [h]; exact Or.inl (Eq.refl _)
        · rw [h]; exact .rfl
      · exact .rfl
    rcases this with h | h
    · simp only [h]; exact Or.inl (Eq.refl _)
    · simp only [h]; exact .rfl
  · exact .rfl

/-- C129: the two builds compute the same, except that a debug build panics, and a release build does not, on exactly these inputs: cEMI frames whose
additional information is longer than 255 octets; telegrams whose length is a multiple of 256; requests whose length does not fit; description blocks
and search responses with a block that is too small; percentages whose hundredfold does not fit; and two-byte floats with the mantissa -2048. -/
theorem C129_functions :
    (∀ r, Cemi.fromPacket .debug r ≠ Cemi.fromPacket .release r ↔ Explosive .debug r) ∧
    (∀ r : LDataReq, r.packet .debug ≠ r.packet .release ↔ r.tpdu.packet.length % 256 = 0) ∧
    (∀ t : TunnelingRequest, t.packet .debug ≠ t.packet .release ↔ 65526 ≤ t.cemi.length % 65536) ∧
    (∀ r, Dib.fromPacket .debug r ≠ Dib.fromPacket .release r ↔ ImpossibleDib r) ∧
    (∀ r, SearchResponse.fromPacket .debug r ≠ SearchResponse.fromPacket .release r ↔ ImpossibleSearch r) ∧
    (∀ v, PdtInt.percentV16 .debug v ≠ PdtInt.percentV16 .release v ↔ ¬ (-32768 ≤ v.toInt * 100 ∧ v.toInt * 100 < 32768)) ∧
    (∀ l, bytesToFloat .debug l ≠ bytesToFloat .release l ↔ ∃ a b, l = [a, b] ∧ dptM a b = -2048) ∧
    (∀ v, unusedFloatToBytes .debug v = unusedFloatToBytes .release v) := by
  refine ⟨?_, ?_, ?_, ?_, ?_, ?_, ?_, ?_⟩
  · intro r
    rw [(checked_cemi r).ne_iff (C13_cemi_panic_iff.1 r), C13_cemi_panic_iff.2]
    simp [Explosive]
  · intro r
    have h : ∀ m, r.packet m = .panic ↔ m = .debug ∧ r.tpdu.packet.length % 256 = 0 := by
      intro m
      rw [LDataReq.packet_eq]
      split <;> simp_all
    have hc : Checked (r.packet .debug) (r.packet .release) := by
      rw [LDataReq.packet_eq, LDataReq.packet_eq]
      by_cases hx : r.tpdu.packet.length % 256 = 0
      · exact Or.inl (if_pos ⟨(Eq.refl _), hx⟩)
      · rw [if_neg (fun h => hx h.2), if_neg (fun h => hx h.2)]; exact .rfl
    rw [hc.ne_iff (by rw [Ne, h]; simp), h]; simp
  · intro t
    have h := request_panic_iff (t := t)
    have hc : Checked (t.packet .debug) (t.packet .release) := by
      unfold TunnelingRequest.packet
      rcases checked_addU (10 : U16) (BitVec.ofNat 16 t.cemi.length) with hx | hx
      · rw [hx]; exact Or.inl (Eq.refl _)
      · rw [hx]; exact .rfl
    rw [hc.ne_iff (by rw [Ne, h]; simp), h]; simp
  · intro r
    rw [(checked_dib r).ne_iff (C29_release_never_panics_partial r).1, C29_dib_panics_iff]; simp
  · intro r
    rw [(checked_search r).ne_iff (C29_release_never_panics_partial r).2, C29_search_panics_iff]; simp [ImpossibleSearch]
  · intro v
    have h : ∀ m, PdtInt.percentV16 m v = .panic ↔ m = .debug ∧ ¬ (-32768 ≤ v.toInt * 100 ∧ v.toInt * 100 < 32768) := by
      intro m
      have e : (100 : I16).toInt = 100 := by decide
      unfold PdtInt.percentV16 mulS
      rw [e]
      norm_num only
      by_cases hx : -32768 ≤ v.toInt * 100 ∧ v.toInt * 100 < 32768
      · simp [hx]
      · cases m <;> simp [hx]
    have hc : Checked (PdtInt.percentV16 .debug v) (PdtInt.percentV16 .release v) := by
      unfold PdtInt.percentV16
      rcases checked_mulS v 100 with hx | hx
      · rw [hx]; exact Or.inl (Eq.refl _)
      · rw [hx]; exact .rfl
    rw [hc.ne_iff (by rw [Ne, h]; simp), h]; simp
  · intro l
    match l with
    | [a, b] =>
      have h1 : ∀ m, dptM a b ≠ -2048 → bytesToFloat m [a, b] ≠ .panic := by
        intro m h
        obtain ⟨q, hq, _⟩ := C35_decode_exact m a b h
        rw [hq]; simp
      have hr : bytesToFloat .release [a, b] ≠ .panic := by
        have : floatMant .release (ofBe16 a b) ≠ .panic := by
          unfold floatMant subU; simp only; split <;> simp
        unfold bytesToFloat
        simp only
        cases h : floatMant .release (ofBe16 a b) with
        | panic => exact absurd h this
        | _ => simp
      rw [(checked_float _).ne_iff hr]
      constructor
      · intro h
        refine ⟨a, b, (Eq.refl _), ?_⟩
        by_contra hx
        exact h1 _ hx h
      · rintro ⟨a', b', he, hm⟩
        cases he
        have := (floatMant_spec .debug a b).2 hm
        unfold bytesToFloat
        simp only [this]
    | [] => simp [bytesToFloat]
    | [_] => simp [bytesToFloat]
    | _ :: _ :: _ :: _ => simp [bytesToFloat]
  · intro v
    obtain ⟨i, hi, h⟩ := firstBit_lt ((hundredths v <<< 16) ||| (fracBits ((v.abs.mul (.fin 100)).sub (v.abs.mul (.fin 100)).floor)).setWidth 32)
    obtain ⟨h1, h2, h3, h4⟩ := after_firstBit i hi .debug
    obtain ⟨g1, g2, g3, g4⟩ := after_firstBit i hi .release
    simp only [hundredths] at h
    simp only [unusedFloatToBytes]
    rw [h, h1, g1]
    simp only [h2, h3, h4, g2, g3, g4]

theorem checked_halve (c : F32 → Bool) (fuel : Nat) : ∀ (v : F32) (e : I16),
    (halveWhile .debug c fuel v e = some .panic ∨ halveWhile .debug c fuel v e = halveWhile .release c fuel v e) ∧
    halveWhile .release c fuel v e ≠ some .panic := by
  induction fuel with
  | zero => intro v e; refine ⟨Or.inr rfl, ?_⟩; simp only [halveWhile]; split <;> simp
  | succ n ih =>
    intro v e
    simp only [halveWhile]
    split
    · have h : ∀ m, addS m e 1 = .ok (e + 1) ∨ m = .debug ∧ addS m e 1 = .panic := by
        intro m
        unfold addS
        split
        · exact Or.inl rfl
        · cases m
          · exact Or.inr ⟨rfl, rfl⟩
          · exact Or.inl rfl
      have hr : addS .release e 1 = .ok (e + 1) := by
        rcases h .release with h | ⟨h, _⟩
        · exact h
        · cases h
      rw [hr]
      simp only
      refine ⟨?_, (ih _ _).2⟩
      rcases h .debug with h | ⟨_, h⟩
      · rw [h]; exact (ih _ _).1
      · rw [h]; exact Or.inl rfl
    · exact ⟨Or.inr rfl, by simp⟩

/-- C129: the encoder of two-byte floats differs for the values whose hundredfold is infinite, and for these only: a debug build panics, a release build
goes on for ever. -/
theorem C129_encoder (v : F32) : (∃ fuel, floatToBytes .debug fuel v ≠ floatToBytes .release fuel v) ↔
    ¬ (v = .nan ∨ ∃ q, v = .fin q ∧ |roundQ (q * 100)| < 2 ^ 128) := by
  rw [← (C37_iff v).2]
  have h : ∀ fuel, (floatToBytes .debug fuel v = some .panic ∨ floatToBytes .debug fuel v = floatToBytes .release fuel v) ∧
      floatToBytes .release fuel v ≠ some .panic := by
    intro fuel
    simp only [floatToBytes]
    obtain ⟨h1, h2⟩ := checked_halve (fun x => x.lt (.fin (-2048))) fuel (v.mul (.fin 100)) 0
    cases hr : halveWhile .release (fun x => x.lt (.fin (-2048))) fuel (v.mul (.fin 100)) 0 with
    | none =>
      rw [hr] at h1
      rcases h1 with h1 | h1 <;> rw [h1] <;> simp
    | some r =>
      rw [hr] at h1 h2
      cases r with
      | panic => exact absurd rfl h2
      | err => rcases h1 with h1 | h1 <;> rw [h1] <;> simp
      | ok x =>
        obtain ⟨h3, h4⟩ := checked_halve (fun x => F32.lt (.fin 2048) x) fuel x.1 x.2
        simp only
        constructor
        · rcases h1 with h1 | h1
          · rw [h1]; exact Or.inl rfl
          · rw [h1]
            simp only
            rcases h3 with h3 | h3
            · rw [h3]; exact Or.inl rfl
            · rw [h3]; exact Or.inr rfl
        · cases hq : halveWhile .release (fun x => F32.lt (.fin 2048) x) fuel x.1 x.2 with
          | none => simp
          | some y =>
            cases y with
            | panic => exact absurd hq h4
            | _ => simp
  constructor
  · rintro ⟨fuel, hx⟩
    exact ⟨fuel, (h fuel).1.resolve_right hx⟩
  · rintro ⟨fuel, hx⟩
    exact ⟨fuel, by rw [hx]; exact (h fuel).2.symm⟩

/-! ## Executions -/

/-- The task does not hold a telegram on which the builds differ. -/
def BgSame (s : Bg) : Prop := ∀ ch sq raw, s.pc = .ackReq ch sq raw → ¬ Explosive .debug raw

theorem cemi_same {raw : Bytes} (h : ¬ Explosive .debug raw) (m m' : Mode) : runRd (Cemi.fromPacket m) id raw = runRd (Cemi.fromPacket m') id raw := by
  have hx : Cemi.fromPacket .debug raw = Cemi.fromPacket .release raw := by
    by_contra hx
    exact h ((C129_functions.1 raw).1 hx)
  have : ∀ a b : Mode, Cemi.fromPacket a raw = Cemi.fromPacket b raw := by
    intro a b; cases a <;> cases b <;> first | rfl | exact hx | exact hx.symm
  unfold runRd
  rw [this m m']

theorem bg_same {k : Kind} {s : Bg} (h : BgSame s) (m m' : Mode) (e : BgEv) : bgStep k m s e = bgStep k m' s e := by
  unfold bgStep
  split
  · rfl
  · cases hp : s.pc with
    | ackReq ch sq raw => simp only [cemi_same (h ch sq raw hp) m m']
    | _ => rfl

theorem bgSame_step {k : Kind} {m : Mode} {s s' : Bg} {e : BgEv} {o : List Obs} (h : BgSame s) (hs : bgStep k m s e = some (s', o))
    (ho : ∀ x ∈ o, ¬ BuildMatters x) : BgSame s' := by
  intro ch sq raw hp
  cases bgStep_tr hs
  case recvReq d r h1 h2 h3 =>
    cases hp
    intro hx
    exact ho (.rx d) (by simp) ⟨r, (parse_iff d _).1 h3, hx⟩
  all_goals first
    | (simp only [reduceCtorEq] at hp; done)
    | exact h ch sq raw hp
    | skip

/-- The call in progress has no telegram on which the builds differ. -/
def ApiSame : Api → Prop
  | .seqNr _ cemi | .chanId _ _ cemi => ¬ 65526 ≤ cemi.length % 65536
  | _ => True

theorem packet_same {cemi : Bytes} (h : ¬ 65526 ≤ cemi.length % 65536) (ch n : U8) (m m' : Mode) :
    (TunnelingRequest.mk ch n cemi).packet m = (TunnelingRequest.mk ch n cemi).packet m' := by
  have hx : (TunnelingRequest.mk ch n cemi).packet .debug = (TunnelingRequest.mk ch n cemi).packet .release := by
    by_contra hx
    exact h ((C129_functions.2.2.1 _).1 hx)
  cases m <;> cases m' <;> first | rfl | exact hx | exact hx.symm

theorem writeCemi_same {addr : KnxAddress} {v : Bytes} {small : Bool} (h : small = false → (v.length + 2) % 256 ≠ 0) (m m' : Mode) :
    writeCemi m addr v small = writeCemi m' addr v small := by
  have key : ∀ a b : Mode, ∀ x, writeCemi a addr v small = .ok x → writeCemi b addr v small = .ok x := by
    intro a b x hx
    have e := writeCemi_ok hx
    cases hb : writeCemi b addr v small with
    | ok y => rw [e, writeCemi_ok hb]
    | err => exact absurd hb (writeCemi_ne_err _ _ _ _)
    | panic =>
      rcases (writeCemi_panic_iff _ _ _ _).1 hb with hp | ⟨_, h1, h2⟩
      · rw [(writeCemi_panic_iff a _ _ _).2 (Or.inl hp)] at hx; cases hx
      · exact absurd h2 (h h1)
  cases hm : writeCemi m addr v small with
  | ok x => exact (key m m' x hm).symm
  | err => exact absurd hm (writeCemi_ne_err _ _ _ _)
  | panic =>
    cases hm' : writeCemi m' addr v small with
    | ok x => rw [key m' m x hm'] at hm; cases hm
    | err => exact absurd hm' (writeCemi_ne_err _ _ _ _)
    | panic => rfl

theorem api_same {s : Sys} (h : ∀ c n cemi, s.api = .chanId c n cemi → ¬ 65526 ≤ cemi.length % 65536) (m m' : Mode) (e : ApiEv)
    (he : ∀ addr v, e = .call (.write addr v false) → (v.length + 2) % 256 ≠ 0) : apiStep m s e = apiStep m' s e := by
  unfold apiStep
  split
  · rfl
  · cases hp : s.api with
    | idle =>
      cases e with
      | call c =>
        cases c with
        | write addr v small =>
          have := writeCemi_same (addr := addr) (v := v) (small := small) (fun hs hl => he addr v (by rw [hs]) hl) m m'
          simp only [apiCall, this]
        | read addr => simp only [apiCall, readCemi_eq]
        | _ => rfl
      | _ => rfl
    | chanId c n cemi =>
      have : ∀ ch, (TunnelingRequest.mk ch n cemi).packet m = (TunnelingRequest.mk ch n cemi).packet m' := fun ch => packet_same (h c n cemi hp) ch n m m'
      simp only [this]
    | _ => rfl

theorem tunnel_length {m : Mode} {c : Call} {cemi : Bytes} (h : tunnelCemi m c = some (.ok cemi)) (hc : ¬ BuildMatters (.call c)) :
    ¬ 65526 ≤ cemi.length % 65536 := by
  cases c <;> simp only [tunnelCemi, Option.some.injEq, reduceCtorEq] at h
  · rw [readCemi_eq] at h; cases h; simp [lDataReqFrame, apduRead, word]
  · rename_i addr v small
    have := writeCemi_length h
    cases small with
    | true => rw [this]; simp
    | false => rw [this]; exact fun hx => hc (Or.inr hx)

theorem apiSame_step {m : Mode} {s s' : Sys} {e : ApiEv} {o : List Obs} (h : ApiSame s.api) (hs : apiStep m s e = some (s', o))
    (ho : ∀ x ∈ o, ¬ BuildMatters x) : ApiSame s'.api := by
  cases apiStep_tr hs
  case callTunnel c cemi h1 h2 h3 => exact tunnel_length h3 (ho _ (by simp))
  case draw c cemi d h1 h2 h3 => rw [h1] at h; exact h
  all_goals first
    | trivial
    | exact h

theorem call_seen {m : Mode} {s s' : Sys} {c : Call} {o : List Obs} (hs : apiStep m s (.call c) = some (s', o)) : Obs.call c ∈ o := by
  unfold apiStep at hs
  simp only [reduceCtorEq, if_false] at hs
  cases hp : s.api <;> rw [hp] at hs <;> simp only [reduceCtorEq] at hs
  split at hs
  · cases c <;> simp only [apiCall, startTunnel, Option.some.injEq, Prod.mk.injEq, reduceCtorEq] at hs
    · split at hs <;> (simp only [Option.some.injEq, Prod.mk.injEq] at hs; obtain ⟨_, rfl⟩ := hs; simp)
    · split at hs <;> (simp only [Option.some.injEq, Prod.mk.injEq] at hs; obtain ⟨_, rfl⟩ := hs; simp)
    · obtain ⟨_, rfl⟩ := hs; simp
    · obtain ⟨_, rfl⟩ := hs; simp
  · cases hs

theorem exec_same {m : Mode} {s : Sys} {tr : List Obs} (h : Exec m s tr) (hn : ∀ x ∈ tr, ¬ BuildMatters x) (m' : Mode) :
    Exec m' s tr ∧ BgSame s.bg ∧ ApiSame s.api := by
  induction h with
  | init => exact ⟨.init, (by intro ch sq raw hp; cases hp), trivial⟩
  | @step s s' tr o e hx hs ih =>
    obtain ⟨h1, h2, h3⟩ := ih (fun x hx => hn x (List.mem_append_left _ hx))
    have ho : ∀ x ∈ o, ¬ BuildMatters x := fun x hx => hn x (List.mem_append_right _ hx)
    cases e with
    | bg e =>
      have hs' := hs
      simp only [Knx.step, Option.map_eq_some_iff, Prod.exists, Prod.mk.injEq] at hs
      obtain ⟨b, o', hb, rfl, rfl⟩ := hs
      exact ⟨h1.step (.bg e) (by simp only [Knx.step] at hs' ⊢; rw [bg_same h2 m' m]; exact hs'), bgSame_step h2 hb ho, h3⟩
    | delay d =>
      have hs' := hs
      cases hs
      exact ⟨h1.step (.delay d) hs', h2, h3⟩
    | api e =>
      have he : ∀ addr v, e = .call (.write addr v false) → (v.length + 2) % 256 ≠ 0 := by
        rintro addr v rfl hl
        exact ho _ (call_seen hs) (Or.inl hl)
      have hq : ∀ c n cemi, s.api = .chanId c n cemi → ¬ 65526 ≤ cemi.length % 65536 := by
        intro c n cemi hc; rw [hc] at h3; exact h3
      have hb : BgSame s'.bg := by
        intro ch sq raw hp
        refine h2 ch sq raw ?_
        rw [← hp]
        cases apiStep_tr hs <;> rfl
      exact ⟨h1.step (.api e) (by simp only [Knx.step]; rw [api_same hq m' m e he]; exact hs), hb, apiSame_step h3 hs ho⟩

/-- C129: an execution of a client in which nothing of the kind is seen is an execution of the one build iff it is one of the other. -/
theorem C129_client {s : Sys} {tr : List Obs} (h : ∀ x ∈ tr, ¬ BuildMatters x) : Exec .debug s tr ↔ Exec .release s tr :=
  ⟨fun hx => (exec_same hx h _).1, fun hx => (exec_same hx h _).1⟩

/-- The same for the monitor. -/
def MApiSame : MApi → Prop
  | .seqNr cemi | .chanId _ cemi => ¬ 65526 ≤ cemi.length % 65536
  | _ => True

theorem mapi_same {s : MSys} (h : ∀ n cemi, s.api = .chanId n cemi → ¬ 65526 ≤ cemi.length % 65536) (m m' : Mode) (e : MApiEv)
    (he : ∀ addr v, e = .call (.write addr v false) → (v.length + 2) % 256 ≠ 0) : mapiStep m s e = mapiStep m' s e := by
  unfold mapiStep
  split <;> first | rfl | skip
  unfold mcallStep
  cases hp : s.api with
  | idle =>
    cases e with
    | call c =>
      cases c with
      | write addr v small =>
        have := writeCemi_same (addr := addr) (v := v) (small := small) (fun hs hl => he addr v (by rw [hs]) hl) m m'
        simp only [mapiCall, this]
      | solicit addr => simp only [mapiCall, readCemi_eq]
      | _ => rfl
    | _ => rfl
  | chanId n cemi =>
    have : ∀ ch, (TunnelingRequest.mk ch n cemi).packet m = (TunnelingRequest.mk ch n cemi).packet m' := fun ch => packet_same (h n cemi hp) ch n m m'
    simp only [this]
  | _ => rfl

theorem mtunnel_length {m : Mode} {c : Call} {cemi : Bytes} (h : mtunnelCemi m c = some (.ok cemi)) (hc : ¬ BuildMatters (.call c)) :
    ¬ 65526 ≤ cemi.length % 65536 := by
  cases c <;> simp only [mtunnelCemi, Option.some.injEq, reduceCtorEq] at h
  · rename_i addr v small
    have := writeCemi_length h
    cases small with
    | true => rw [this]; simp
    | false => rw [this]; exact fun hx => hc (Or.inr hx)
  · rw [readCemi_eq] at h; cases h; simp [lDataReqFrame, apduRead, word]

theorem mapiSame_step {m : Mode} {s s' : MSys} {e : MApiEv} {o : List Obs} (h : MApiSame s.api) (hs : mapiStep m s e = some (s', o))
    (ho : ∀ x ∈ o, ¬ BuildMatters x) : MApiSame s'.api := by
  cases mapiStep_tr hs
  case callTunnel c cemi h1 h2 h3 => exact mtunnel_length h3 (ho _ (by simp))
  case draw cemi d h1 h2 h3 => rw [h1] at h; exact h
  all_goals first
    | trivial
    | exact h

theorem mcall_seen {m : Mode} {s s' : MSys} {c : Call} {o : List Obs} (hs : mapiStep m s (.call c) = some (s', o)) : Obs.call c ∈ o := by
  unfold mapiStep at hs
  simp only [mcallStep] at hs
  cases hp : s.api <;> rw [hp] at hs <;> simp only [reduceCtorEq] at hs
  split at hs
  · cases c <;> simp only [mapiCall, mstartTunnel, Option.some.injEq, Prod.mk.injEq, reduceCtorEq] at hs
    all_goals first
      | (obtain ⟨_, rfl⟩ := hs; simp; done)
      | (split at hs <;> (simp only [Option.some.injEq, Prod.mk.injEq] at hs; obtain ⟨_, rfl⟩ := hs; simp))
  · cases hs

theorem mexec_same {m : Mode} {s : MSys} {tr : List Obs} (h : MExec m s tr) (hn : ∀ x ∈ tr, ¬ BuildMatters x) (m' : Mode) :
    MExec m' s tr ∧ BgSame s.bg ∧ MApiSame s.api := by
  induction h with
  | init => exact ⟨.init, (by intro ch sq raw hp; cases hp), trivial⟩
  | @step s s' tr o e hx hs ih =>
    obtain ⟨h1, h2, h3⟩ := ih (fun x hx => hn x (List.mem_append_left _ hx))
    have ho : ∀ x ∈ o, ¬ BuildMatters x := fun x hx => hn x (List.mem_append_right _ hx)
    cases e with
    | bg e =>
      have hs' := hs
      simp only [Knx.mstep, Option.map_eq_some_iff, Prod.exists, Prod.mk.injEq] at hs
      obtain ⟨b, o', hb, rfl, rfl⟩ := hs
      exact ⟨h1.step (.bg e) (by simp only [Knx.mstep] at hs' ⊢; rw [bg_same h2 m' m]; exact hs'), bgSame_step h2 hb ho, h3⟩
    | delay d =>
      have hs' := hs
      cases hs
      exact ⟨h1.step (.delay d) hs', h2, h3⟩
    | api e =>
      have he : ∀ addr v, e = .call (.write addr v false) → (v.length + 2) % 256 ≠ 0 := by
        rintro addr v rfl hl
        exact ho _ (mcall_seen hs) (Or.inl hl)
      have hq : ∀ n cemi, s.api = .chanId n cemi → ¬ 65526 ≤ cemi.length % 65536 := by
        intro n cemi hc; rw [hc] at h3; exact h3
      have hb : BgSame s'.bg := by
        intro ch sq raw hp
        refine h2 ch sq raw ?_
        rw [← hp]
        cases mapiStep_tr hs <;> rfl
      exact ⟨h1.step (.api e) (by simp only [Knx.mstep]; rw [mapi_same hq m' m e he]; exact hs), hb, mapiSame_step h3 hs ho⟩

/-- C129: the same for a monitor. -/
theorem C129_monitor {s : MSys} {tr : List Obs} (h : ∀ x ∈ tr, ¬ BuildMatters x) : MExec .debug s tr ↔ MExec .release s tr :=
  ⟨fun hx => (mexec_same hx h _).1, fun hx => (mexec_same hx h _).1⟩

/-! ## The exceptions are real -/

theorem snoc_inj {α : Type} {a b : List α} {x y : α} (h : a ++ [x] = b ++ [y]) : a = b ∧ x = y := by
  have := List.append_inj' h rfl
  exact ⟨this.1, by simpa using this.2⟩

theorem snoc_two {α : Type} {a b : List α} {x y z w : α} (h : a ++ [x, y] = b ++ [z, w]) : a = b ∧ x = z ∧ y = w := by
  have := List.append_inj' h rfl
  exact ⟨this.1, by simpa using this.2⟩

theorem snoc_last {α : Type} {a b : List α} {x y z : α} (h : a ++ [x, y] = b ++ [z]) : a ++ [x] = b ∧ y = z :=
  snoc_inj (a := a ++ [x]) (by simpa using h)

/-- In a debug build, an acknowledged request of that kind is the last one. -/
theorem explosive_last {k : Kind} {s : Bg} {tr : List Obs} {d : Bytes} {t : TunnelingRequest} (h : GExec k .debug s tr)
    (hd : Decodes (seen d) (.tunnelingRequest t)) (hx : Explosive .debug t.cemi) :
    (∀ a, tr = a ++ [.rx d] → s.pc = .ackReq t.channel t.seq t.cemi) ∧ ∀ a p, tr ≠ a ++ [.rx d, .tx .task p] := by
  have hp := (parse_iff d (.tunnelingRequest t)).2 hd
  have hpanic : runRd (Cemi.fromPacket .debug) id t.cemi = .panic := by
    have := (C13_cemi_panic_iff.2 t.cemi).2 (by simpa [Explosive] using hx)
    unfold runRd; rw [this]
  have hne : d ≠ [] := by rintro rfl; cases hp
  induction h with
  | init => constructor <;> intros <;> simp at *
  | @env s s' tr o hg he ih =>
    have hf := he.facts
    rcases List.eq_nil_or_concat o with rfl | ⟨o', x, rfl⟩
    · simp only [List.append_nil, hf.pc]; exact ih
    · have h1 : x ≠ .rx d := by
        rintro rfl
        have := hf.received
        simp [received] at this
      have h2 : ∀ p, x ≠ .tx .task p := by
        rintro p rfl
        have := hf.taskSent
        simp [taskSent] at this
      constructor
      · intro a ha
        rw [List.concat_eq_append, ← List.append_assoc] at ha
        exact absurd (snoc_inj ha).2 h1
      · intro a p ha
        rw [List.concat_eq_append, ← List.append_assoc] at ha
        exact h2 p (snoc_inj (a := tr ++ o') (b := a ++ [.rx d]) (by rw [ha]; simp)).2
  | @task s s' tr o hg ht ih =>
    obtain ⟨ih1, ih2⟩ := ih
    have one : ∀ {x : Obs} {a : List Obs} {p : Bytes}, tr ++ [x] = a ++ [.rx d, .tx .task p] → s.pc = .ackReq t.channel t.seq t.cemi ∧ x = .tx .task p := by
      intro x a p h
      obtain ⟨h1, h2⟩ := snoc_inj (b := a ++ [.rx d]) (y := .tx .task p) (by simpa using h)
      exact ⟨ih1 a h1, h2⟩
    cases ht
    case recvReq d' r h1 h2 h3 =>
      constructor
      · intro a ha
        cases (snoc_inj ha).2
        rw [hp] at h3; cases h3; rfl
      · intro a p ha
        cases (one ha).2
    case ackReqOk ch sq raw c h1 h2 =>
      constructor
      · intro a ha
        cases (snoc_inj ha).2
      · intro a p ha
        rw [(one ha).1] at h1; cases h1; rw [hpanic] at h2; cases h2
    case ackReqBad ch sq raw h1 h2 =>
      constructor
      · intro a ha
        cases (snoc_inj ha).2
      · intro a p ha
        rw [(one ha).1] at h1; cases h1; rw [hpanic] at h2; cases h2
    all_goals
      constructor
      · intro a ha
        first
          | (rw [List.append_nil] at ha; have := ih1 a ha; simp_all; done)
          | (have h := (snoc_inj ha).2; cases h <;> simp_all; done)
          | (have h := (snoc_last ha).2; cases h; done)
      · intro a p ha
        first
          | (rw [List.append_nil] at ha; exact ih2 a p ha)
          | (have h := one ha; have h' := h.2; cases h' <;> simp_all; done)
          | (have h := (snoc_two ha).2.2; cases h; done)

theorem stTold {m : Mode} {s : Sys} {tr l f : List Obs} {c : Call} (h : Exec m s tr) (hl : lifeOf tr = l ++ .call c :: f) (hf : NoCalls f)
    (hd : Obs.dropped ∉ f) : Story m (.call c :: f) ∨ Begun m c f := by
  have hk := kept_exec h
  rw [hl] at hk
  generalize hx : l ++ .call c :: f = x at hk
  cases hk with
  | resting _ _ _ h =>
    cases h with
    | none => simp at hx
    | more l' y hl hy =>
      obtain ⟨c', f', rfl, hf'⟩ := story_shape hy
      rw [last_call hx hf hf']
      exact Or.inl hy
  | calling l c o _ _ hdo =>
    have := last_call hx hf (begun_noCalls hdo.begun)
    cases this
    exact Or.inr hdo.begun
  | over l' =>
    exfalso
    have : (l ++ .call c :: f).getLast? = some .dropped := by rw [hx]; simp
    rw [List.getLast?_append_of_ne_nil _ (by simp)] at this
    have := List.mem_of_getLast? this
    simp at this
    exact hd this

theorem mstTold {m : Mode} {s : MSys} {tr l f : List Obs} {c : Call} (h : MExec m s tr) (hl : mlifeOf tr = l ++ .call c :: f) (hf : NoCalls f)
    (hd : Obs.dropped ∉ f) : MStory m (.call c :: f) ∨ MBegun m c f := by
  have hk := mkept_exec h
  rw [hl] at hk
  generalize hx : l ++ .call c :: f = x at hk
  cases hk with
  | resting _ _ _ h =>
    cases h with
    | none => simp at hx
    | more l' y hl hy =>
      obtain ⟨c', f', rfl, hf'⟩ := mstory_shape hy
      rw [last_call hx hf hf']
      exact Or.inl hy
  | calling l c o _ _ hdo =>
    have := last_call hx hf (mbegun_noCalls (mdoing_begun hdo))
    cases this
    exact Or.inr (mdoing_begun hdo)
  | over l' =>
    exfalso
    have : (l ++ .call c :: f).getLast? = some .dropped := by rw [hx]; simp
    rw [List.getLast?_append_of_ne_nil _ (by simp)] at this
    have := List.mem_of_getLast? this
    simp at this
    exact hd this

theorem begun_pending {m : Mode} {c : Call} {o : List Obs} (h : Begun m c o) : Obs.cancelled ∉ o := by
  induction h with
  | passed addr n p o w _ _ ih => simpa using ih
  | _ => simp

theorem cancelled_story {m : Mode} {c : Call} {o : List Obs} (h : Story m (.call c :: (o ++ [.cancelled]))) : Begun m c o := by
  generalize hx : Obs.call c :: (o ++ [.cancelled]) = x at h
  cases h with
  | atOnce addr v small hp =>
    have : (o ++ [Obs.cancelled]) = [] ++ [.ret .panic] := by simpa using (List.cons.inj hx).2
    cases (snoc_inj this).2
  | finished c' o' f r hc =>
    have := (List.cons.inj hx).2
    cases (snoc_inj this).2
  | cancelled c' o' hb =>
    have := List.cons.inj hx
    cases this.1
    rw [(snoc_inj this.2).1]
    exact hb

theorem request_release {k : Kind} {s : Bg} {d : Bytes} {t : TunnelingRequest} (h : s.pc = .recv) (hd : Decodes (seen d) (.tunnelingRequest t)) :
    ∃ s' p, bgStep k .release s (.dgram d) = some ({ s with pc := .ackReq t.channel t.seq t.cemi }, [.rx d]) ∧
      bgStep k .release { s with pc := .ackReq t.channel t.seq t.cemi } .sendOk = some (s', [.tx .task p]) := by
  have hp := onDatagram_request hd
  have hn := C13_cemi_panic_iff.1 t.cemi
  cases hc : runRd (Cemi.fromPacket .release) id t.cemi with
  | panic =>
    exfalso
    unfold runRd at hc
    cases hx : Cemi.fromPacket .release t.cemi with
    | panic => exact hn hx
    | ok y => rw [hx] at hc; cases hc
    | err => rw [hx] at hc; cases hc
  | ok c =>
    exact ⟨{ s with pc := .push c }, (TunnelingAck.mk t.channel t.seq 0).packet, by simp [bgStep, h, hp, endObs], by simp [bgStep, hc]⟩
  | err =>
    exact ⟨{ s with pc := .recv }, (TunnelingAck.mk t.channel t.seq 0).packet, by simp [bgStep, h, hp, endObs], by simp [bgStep, hc]⟩

/-- C129: and nothing can be left out of the list: everything on it is seen in an execution of a client that is one of the release build but not
of the debug build. -/
theorem C129_client_differs {x : Obs} (h : BuildMatters x) :
    ∃ s tr, x ∈ tr ∧ Exec .release s tr ∧ ∀ s', ¬ Exec .debug s' tr := by
  cases x with
  | call c =>
    cases c <;> try exact h.elim
    rename_i addr v small
    cases small with
    | true => exact h.elim
    | false =>
      have st : Starts .release (.write addr v false) := by simp [Starts, PanicsAtOnce]
      have key : ∀ o, Begun .release (.write addr v false) o → (∀ i w, Obs.taken i w ∉ o) → ¬ Begun .debug (.write addr v false) o →
          Obs.dropped ∉ o → ∃ s tr, Obs.call (.write addr v false) ∈ tr ∧ Exec .release s tr ∧ ∀ s', ¬ Exec .debug s' tr := by
        intro o h1 h2 h3 h4
        obtain ⟨s, tr, l, k1, k2, k3, k4⟩ := C126_every (Story.cancelled _ _ h1) (fun i w hw => absurd hw (by simp [h2]))
        refine ⟨s, tr, ?_, k1, ?_⟩
        · have : Obs.call (.write addr v false) ∈ lifeOf tr := by rw [k4]; simp
          exact (List.mem_filter.1 this).1
        · intro s' hs
          rcases stTold hs (l := l) (c := .write addr v false) (f := o ++ [.cancelled]) (by rw [k4]; simp)
            (by
              intro y hy c
              rcases List.mem_append.1 hy with hy | hy
              · exact begun_noCalls h1 y hy c
              · rw [List.mem_singleton.1 hy]; simp)
            (by simp [h4]) with hb | hb
          · exact h3 (cancelled_story hb)
          · exact begun_pending hb (by simp)
      rcases h with h | h
      · refine key [] (.start _ st) (by simp) ?_ (by simp)
        intro hb
        cases hb with
        | start _ hs => exact hs (Or.inr ⟨rfl, rfl, h⟩)
      · have hlen : ∀ cemi, telegramOf? (.write addr v false) = some cemi → cemi.length = v.length + 11 := by
          intro cemi hc
          cases hc
          simp [lDataReqFrame, apduWriteBig, word]
        refine key _ (.asked _ 0 _ 7 st rfl (by simp [Unframeable])) (by simp) ?_ (by simp)
        intro hb
        generalize ho : [Obs.drew 0, Obs.tx Who.api _] = o at hb
        cases hb with
        | start => simp at ho
        | drew => simp at ho
        | asked _ n cemi ch _ h2 h3 => exact h3 ⟨rfl, by rw [hlen _ h2]; exact h⟩
        | plain _ ch ep p h1 => simp [plainRequest] at h1
  | rx d =>
    obtain ⟨t, h1, h2⟩ := h
    obtain ⟨b, ⟨tr, l, k1, -, -⟩, g1, -⟩ := tuned_any .release 7 ⟨1, ⟨⟨192, 168, 1, 2⟩, 3671⟩⟩ 0
    obtain ⟨s', p, e1, e2⟩ := request_release (k := .client) g1 h1
    refine ⟨_, tr ++ [.rx d] ++ [.tx .task p], by simp,
      (k1.step (.bg (.dgram d)) (o := [.rx d]) (s' := ⟨{ b with pc := .ackReq t.channel t.seq t.cemi }, .idle⟩) (by simp [Knx.step, e1])).step
        (.bg .sendOk) (o := [.tx .task p]) (s' := ⟨s', .idle⟩) (by simp [Knx.step, e2]), ?_⟩
    intro s'' hs
    exact (explosive_last hs.gexec h1 h2).2 tr p (by simp)
  | _ => exact h.elim

/-- C129: the same for a monitor. -/
theorem C129_monitor_differs {x : Obs} (h : BuildMatters x) :
    ∃ s tr, x ∈ tr ∧ MExec .release s tr ∧ ∀ s', ¬ MExec .debug s' tr := by
  cases x with
  | call c =>
    cases c <;> try exact h.elim
    rename_i addr v small
    cases small with
    | true => exact h.elim
    | false =>
      have st : MStarts .release (.write addr v false) := by simp [MStarts, PanicsAtOnce]
      have key : ∀ f, MStory .release (.call (.write addr v false) :: f) → ¬ MStory .debug (.call (.write addr v false) :: f) →
          ¬ MBegun .debug (.write addr v false) f → NoCalls f → 
          Obs.dropped ∉ f → ∃ s tr, Obs.call (.write addr v false) ∈ tr ∧ MExec .release s tr ∧ ∀ s', ¬ MExec .debug s' tr := by
        intro f h1 h2 h3 h4 h5
        obtain ⟨s, tr, l, k1, k2, k3, k4⟩ := C128_every_call h1
        refine ⟨s, tr, ?_, k1, ?_⟩
        · have : Obs.call (.write addr v false) ∈ mlifeOf tr := by rw [k4]; simp
          exact (List.mem_filter.1 this).1
        · intro s' hs
          rcases mstTold hs k4 h4 h5 with hb | hb
          · exact h2 hb
          · exact h3 hb
      rcases h with h | h
      · refine key [.cancelled] (.cancelled _ [] (.start _ st)) ?_ ?_ (by simp [NoCalls]) (by simp)
        · intro hb
          generalize ho : [Obs.call (.write addr v false), Obs.cancelled] = o at hb
          cases hb with
          | atOnce => simp at ho
          | finished c o f r =>
            have := (snoc_inj (a := [Obs.call (.write addr v false)]) (b := Obs.call c :: o ++ f) (y := Obs.ret r) ho).2
            cases this
          | cancelled c o hb =>
            have := snoc_inj (a := [Obs.call (.write addr v false)]) (b := Obs.call c :: o) (y := Obs.cancelled) ho
            cases this.1
            cases hb with
            | start _ hs => exact hs (Or.inr ⟨rfl, rfl, h⟩)
        · intro hb; cases hb
      · have hlen : ∀ cemi, mtelegramOf? (.write addr v false) = some cemi → cemi.length = v.length + 11 := by
          intro cemi hc
          cases hc
          simp [lDataReqFrame, apduWriteBig, word]
        refine key _ (.finished _ [.drew 0] _ _ (.sent _ 0 _ 7 (.drew _ 0 _ st rfl) rfl (by simp [Unframeable]))) ?_ ?_ (by simp [NoCalls]) (by simp)
        · intro hb
          generalize ho : Obs.call (.write addr v false) :: _ = o at hb
          cases hb with
          | atOnce => simp at ho
          | finished c o f r hc =>
            simp only [List.cons_append, List.nil_append, List.cons.injEq, Obs.call.injEq] at ho
            obtain ⟨rfl, ho⟩ := ho
            cases hc
            case sent n cemi ch hu _ hc => exact hu ⟨rfl, by rw [hlen _ hc]; exact h⟩
            case unconnected hm => cases hm <;> simp at ho
            all_goals simp at ho
          | cancelled c o hb =>
            simp only [List.cons_append, List.nil_append, List.cons.injEq, Obs.call.injEq] at ho
            obtain ⟨rfl, ho⟩ := ho
            cases hb <;> simp at ho
        · intro hb; cases hb
  | rx d =>
    obtain ⟨t, h1, h2⟩ := h
    obtain ⟨b, ⟨tr, l, k1, -, -⟩, g1, -⟩ := mtuned_any .release 7 ⟨1, ⟨⟨192, 168, 1, 2⟩, 3671⟩⟩ 0
    obtain ⟨s', p, e1, e2⟩ := request_release (k := .monitor) g1 h1
    refine ⟨_, tr ++ [.rx d] ++ [.tx .task p], by simp,
      (k1.step (.bg (.dgram d)) (o := [.rx d]) (s' := ⟨{ b with pc := .ackReq t.channel t.seq t.cemi }, .idle, []⟩) (by simp [Knx.mstep, e1])).step
        (.bg .sendOk) (o := [.tx .task p]) (s' := ⟨s', .idle, []⟩) (by simp [Knx.mstep, e2]), ?_⟩
    intro s'' hs
    exact (explosive_last hs.gexec h1 h2).2 tr p (by simp)
  | _ => exact h.elim

/-! ## Until it panics, a debug build does what a release build does -/

theorem cemi_until {raw : Bytes} (h : runRd (Cemi.fromPacket .debug) id raw ≠ .panic) :
    runRd (Cemi.fromPacket .release) id raw = runRd (Cemi.fromPacket .debug) id raw := by
  refine cemi_same ?_ _ _
  intro hx
  have := (C13_cemi_panic_iff.2 raw).2 (by simpa [Explosive] using hx)
  exact h (by unfold runRd; rw [this])

theorem bg_until {k : Kind} {s s' : Bg} {e : BgEv} {o : List Obs} (h : bgStep k .debug s e = some (s', o)) (hc : Obs.crash ∉ o) :
    bgStep k .release s e = some (s', o) := by
  by_cases hx : BgSame s
  · rw [bg_same hx .release .debug]; exact h
  · simp only [BgSame, not_forall, not_not] at hx
    obtain ⟨ch, sq, raw, hp, hr⟩ := hx
    have hpanic : runRd (Cemi.fromPacket .debug) id raw = .panic := by
      have := (C13_cemi_panic_iff.2 raw).2 (by simpa [Explosive] using hr)
      unfold runRd; rw [this]
    unfold bgStep at h ⊢
    cases e <;> simp only [hp, reduceCtorEq, if_false, if_true] at h ⊢
    case sendOk =>
      simp only [hpanic, Option.some.injEq, Prod.mk.injEq] at h
      obtain ⟨_, rfl⟩ := h
      simp at hc
    all_goals exact h

theorem api_until {s s' : Sys} {e : ApiEv} {o : List Obs} (h : apiStep .debug s e = some (s', o)) (hc : Obs.ret .panic ∉ o) :
    apiStep .release s e = some (s', o) := by
  by_cases h1 : ∀ c n cemi, s.api = .chanId c n cemi → ¬ 65526 ≤ cemi.length % 65536
  · by_cases h2 : ∀ addr v, e = .call (.write addr v false) → (v.length + 2) % 256 ≠ 0
    · rw [api_same h1 .release .debug e h2]; exact h
    · simp only [not_forall, not_not] at h2
      obtain ⟨addr, v, rfl, hl⟩ := h2
      exfalso
      have := (writeCemi_panic_iff .debug addr v false).2 (Or.inr ⟨rfl, rfl, hl⟩)
      unfold apiStep at h
      cases hp : s.api <;> simp only [hp, reduceCtorEq, if_false] at h
      split at h
      · simp only [apiCall, this, startTunnel, Option.some.injEq, Prod.mk.injEq] at h
        obtain ⟨_, rfl⟩ := h
        simp at hc
      · cases h
  · simp only [not_forall, not_not] at h1
    obtain ⟨c, n, cemi, hp, hl⟩ := h1
    have : ∀ ch, (TunnelingRequest.mk ch n cemi).packet .debug = .panic := fun ch => (request_panic_iff _ _).2 ⟨rfl, hl⟩
    unfold apiStep at h ⊢
    cases e <;> simp only [hp, reduceCtorEq, if_false, if_true] at h ⊢
    case run =>
      obtain ⟨h1, ⟨h2, hx⟩ | ⟨d, h2, hx⟩⟩ := withConn_cases h
      · cases hx; simp [withConn, h1, h2, finish]
      · rw [this] at hx
        simp only [finish, Option.some.injEq, Prod.mk.injEq] at hx
        obtain ⟨_, rfl⟩ := hx
        simp at hc
    all_goals exact h

theorem mapi_until {s s' : MSys} {e : MApiEv} {o : List Obs} (h : mapiStep .debug s e = some (s', o)) (hc : Obs.ret .panic ∉ o) :
    mapiStep .release s e = some (s', o) := by
  by_cases h1 : ∀ n cemi, s.api = .chanId n cemi → ¬ 65526 ≤ cemi.length % 65536
  · by_cases h2 : ∀ addr v, e = .call (.write addr v false) → (v.length + 2) % 256 ≠ 0
    · rw [mapi_same h1 .release .debug e h2]; exact h
    · simp only [not_forall, not_not] at h2
      obtain ⟨addr, v, rfl, hl⟩ := h2
      exfalso
      have := (writeCemi_panic_iff .debug addr v false).2 (Or.inr ⟨rfl, rfl, hl⟩)
      simp only [mapiStep, mcallStep] at h
      cases hp : s.api <;> simp only [hp, reduceCtorEq] at h
      split at h
      · simp only [mapiCall, this, mstartTunnel, Option.some.injEq, Prod.mk.injEq] at h
        obtain ⟨_, rfl⟩ := h
        simp at hc
      · cases h
  · simp only [not_forall, not_not] at h1
    obtain ⟨n, cemi, hp, hl⟩ := h1
    have : ∀ ch, (TunnelingRequest.mk ch n cemi).packet .debug = .panic := fun ch => (request_panic_iff _ _).2 ⟨rfl, hl⟩
    unfold mapiStep mcallStep at h ⊢
    cases e <;> simp only [hp] at h ⊢ <;> try exact h
    case run =>
      obtain ⟨h1, ⟨h2, hx⟩ | ⟨d, h2, hx⟩⟩ := mwithConn_cases h
      · cases hx; simp [mwithConn, h1, h2, mfinish]
      · rw [this] at hx
        simp only [mfinish, Option.some.injEq, Prod.mk.injEq] at hx
        obtain ⟨_, rfl⟩ := hx
        simp at hc

/-- C129: as long as nothing panics, a client of a debug build does what a client of a release build can do. -/
theorem C129_client_until {s : Sys} {tr : List Obs} (h : Exec .debug s tr) (h1 : Obs.crash ∉ tr) (h2 : Obs.ret .panic ∉ tr) : Exec .release s tr := by
  induction h with
  | init => exact .init
  | @step s s' tr o e hx hs ih =>
    simp only [List.mem_append, not_or] at h1 h2
    refine (ih h1.1 h2.1).step e ?_
    cases e with
    | bg e =>
      simp only [Knx.step, Option.map_eq_some_iff, Prod.exists, Prod.mk.injEq] at hs ⊢
      obtain ⟨b, o', hb, rfl, rfl⟩ := hs
      exact ⟨b, o', bg_until hb h1.2, rfl, rfl⟩
    | delay d => exact hs
    | api e => exact api_until hs h2.2

/-- C129: the same for a monitor. -/
theorem C129_monitor_until {s : MSys} {tr : List Obs} (h : MExec .debug s tr) (h1 : Obs.crash ∉ tr) (h2 : Obs.ret .panic ∉ tr) :
    MExec .release s tr := by
  induction h with
  | init => exact .init
  | @step s s' tr o e hx hs ih =>
    simp only [List.mem_append, not_or] at h1 h2
    refine (ih h1.1 h2.1).step e ?_
    cases e with
    | bg e =>
      simp only [Knx.mstep, Option.map_eq_some_iff, Prod.exists, Prod.mk.injEq] at hs ⊢
      obtain ⟨b, o', hb, rfl, rfl⟩ := hs
      exact ⟨b, o', bg_until hb h1.2, rfl, rfl⟩
    | delay d => exact hs
    | api e => exact mapi_until hs h2.2

/-! ## Searches -/

theorem checked_searchStep (timeout now : Nat) (st : SearchSt) (e : SearchEv) :
    searchStep .debug timeout now st e = searchStep .release timeout now st e ∨
    ∃ buf found dl d, st = .waiting buf found dl ∧ e = .dgram d ∧ ImpossibleSearch (overwrite buf d) ∧
      searchStep .debug timeout now st e = some (.finished .panic) := by
  cases st <;> cases e <;> try exact Or.inl rfl
  rename_i buf found dl d
  by_cases hx : SearchResponse.fromPacket .debug (overwrite buf d) = SearchResponse.fromPacket .release (overwrite buf d)
  · left; simp only [searchStep, runRd, hx]
  · right
    refine ⟨buf, found, dl, d, rfl, rfl, (C129_functions.2.2.2.2.1 _).1 hx, ?_⟩
    rcases checked_search (overwrite buf d) with h | h
    · simp only [searchStep, runRd, h]
    · exact absurd h hx

/-- C129: a search of a debug build that does not end in a panic goes as the search of a release build; and the search of a release build goes as that
of a debug build, unless the debug build panics at a datagram that makes the buffer a search response of the kind. -/
theorem C129_search (timeout : Nat) (evs : List (Nat × SearchEv)) : ∀ (now : Nat) (st st' : SearchSt),
    (searchRun .debug timeout now st evs = some st' → st' ≠ .finished .panic → searchRun .release timeout now st evs = some st') ∧
    (searchRun .release timeout now st evs = some st' → searchRun .debug timeout now st evs = some st' ∨
      ∃ pre t d post buf found dl, evs = pre ++ (t, .dgram d) :: post ∧ searchRun .debug timeout now st pre = some (.waiting buf found dl) ∧
        ImpossibleSearch (overwrite buf d) ∧ searchRun .debug timeout now st (pre ++ [(t, .dgram d)]) = some (.finished .panic)) := by
  induction evs with
  | nil => intro now st st'; exact ⟨fun h _ => h, fun h => Or.inl h⟩
  | cons x evs ih =>
    obtain ⟨t, e⟩ := x
    intro now st st'
    simp only [searchRun]
    split
    · rename_i hle
      rcases checked_searchStep timeout t st e with h | ⟨buf, found, dl, d, rfl, rfl, h1, h2⟩
      · rw [h]
        cases hr : searchStep .release timeout t st e with
        | none => simp
        | some st1 =>
          simp only
          refine ⟨(ih t st1 st').1, fun hx => ?_⟩
          rcases (ih t st1 st').2 hx with hy | ⟨pre, t', d, post, buf, found, dl, rfl, g1, g2, g3⟩
          · exact Or.inl hy
          · refine Or.inr ⟨(t, e) :: pre, t', d, post, buf, found, dl, rfl, ?_, g2, ?_⟩
            · simp only [searchRun, hle, if_true, h, hr]; exact g1
            · simp only [List.cons_append, searchRun, hle, if_true, h, hr]; exact g3
      · constructor
        · rw [h2]
          simp only
          intro hx hne
          cases evs with
          | nil => cases hx; exact absurd rfl hne
          | cons y evs =>
            simp only [searchRun] at hx
            split at hx
            · simp [searchStep] at hx
            · cases hx
        · intro _
          refine Or.inr ⟨[], t, d, evs, buf, found, dl, rfl, rfl, h1, ?_⟩
          simp only [List.nil_append, searchRun, hle, if_true, h2]
    · simp

/-! ## Examples -/

/-- Ordinary traffic: nothing on the list is seen when a connection is made and a telegram arrives. -/
example (m : Mode) : ∃ s tr, Exec m s tr ∧ (∀ x ∈ tr, ¬ BuildMatters x) ∧ Obs.queued tel7 ∈ tr := by
  obtain ⟨b, tr, h1, -, -, h2⟩ := reaches7 m .client
  cases h1 with | client h3 =>
  refine ⟨_, tr, h3, ?_, by rw [h2]; simp⟩
  intro x hx
  rw [h2] at hx
  simp only [linkTrace, List.mem_append, List.mem_cons, List.not_mem_nil, or_false] at hx
  rcases hx with (rfl | rfl | rfl) | (rfl | rfl | rfl) <;> try exact id
  rintro ⟨t, ht, hx⟩
  obtain ⟨t', g1, g2⟩ := carries7 .debug
  rw [← C21_dispatch_exact] at ht g1
  rw [ht] at g1
  cases g1
  have := (C13_cemi_panic_iff.2 t.cemi).2 (by simpa [Explosive] using hx)
  simp [runRd, this] at g2

/-- Things on the list: a write of 254 bytes, a write of 65515 bytes, and a tunneling request with a block of additional information of 254 octets. -/
example : BuildMatters (.call (.write (.group3 ⟨1, 0, 1⟩) (List.replicate 254 0) false)) ∧
    BuildMatters (.call (.write (.group3 ⟨1, 0, 1⟩) (List.replicate 65515 0) false)) ∧
    BuildMatters (.rx (frame TUNNELING_REQUEST ([4, 7, 0, 0] ++ [0x29, 2, 3, 254]))) := by
  refine ⟨Or.inl (by rw [List.length_replicate]), Or.inr (by rw [List.length_replicate]), ?_⟩
  exact ⟨_, decodes_request 7 0 0 [0x29, 2, 3, 254] (by simp), (explosive_iff _ _).1 (by decide +kernel)⟩

end Knx
