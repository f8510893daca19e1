import Verif.Spec.Stories
import Verif.Props.Reasons
import Verif.Props.Timing
import Verif.Props.Client
import Verif.Lemmas.Callers
import Verif.Props.Transport

/-!
# The life of a call (C126)
-/

namespace Knx
open Spec

/-- The packet of a request, in bytes. -/
theorem request_packet_iff {m : Mode} {ch n : U8} {cemi p : Bytes} :
    (TunnelingRequest.mk ch n cemi).packet m = .ok p ↔ ¬ Unframeable m cemi ∧ p = requestFor ch n cemi := by
  have h := request_panic_iff m ⟨ch, n, cemi⟩
  have key : ∀ q, (TunnelingRequest.mk ch n cemi).packet m = .ok q → q = requestFor ch n cemi := by
    intro q hq
    unfold TunnelingRequest.packet at hq
    split at hq
    · rename_i w hw
      cases hq
      have hw' : w = BitVec.ofNat 16 (10 + cemi.length) := by
        unfold addU at hw
        have e : (10 : U16) + BitVec.ofNat 16 cemi.length = BitVec.ofNat 16 (10 + cemi.length) := by
          apply BitVec.eq_of_toNat_eq; simp
        simp only [e] at hw
        repeat' split at hw
        all_goals first | (cases hw; rfl) | cases hw
      subst hw'
      rw [requestFor, header, show ((10 + cemi.length) % 65536) = (BitVec.ofNat 16 (10 + cemi.length)).toNat by simp, ← be16_eq_word]
      rfl
    · cases hq
    · cases hq
  cases hp : (TunnelingRequest.mk ch n cemi).packet m with
  | ok q =>
    rw [hp] at h
    simp only [reduceCtorEq, false_iff] at h
    have := key q hp
    subst this
    simp only [Res.ok.injEq]
    exact ⟨fun hh => ⟨h, hh.symm⟩, fun hh => hh.2.symm⟩
  | err => exact absurd hp packet_ne_err
  | panic =>
    rw [hp] at h
    simp only [true_iff] at h
    simp only [reduceCtorEq, false_iff]
    exact fun hh => hh.1 h

theorem cemi_of_tunnel {m : Mode} {c : Call} {cemi : Bytes} (h : tunnelCemi m c = some (.ok cemi)) :
    Starts m c ∧ telegramOf? c = some cemi := by
  cases c <;> simp only [tunnelCemi, Option.some.injEq, reduceCtorEq] at h
  · rw [readCemi_eq] at h; cases h; exact ⟨trivial, rfl⟩
  · rename_i addr v small
    refine ⟨?_, ?_⟩
    · intro hp
      rw [(writeCemi_panic_iff m addr v small).2 hp] at h; cases h
    · have := writeCemi_ok h
      subst this
      cases small <;> rfl

/-- Where the API is, in terms of what the call in progress has done. -/
def Doing (m : Mode) (api : Api) (c : Call) (o : List Obs) : Prop :=
  match api with
  | .idle => False
  | .seqNr c' cemi => c' = c ∧ o = [] ∧ tunnelCemi m c = some (.ok cemi)
  | .chanId c' n cemi => c' = c ∧ o = [.drew n] ∧ tunnelCemi m c = some (.ok cemi)
  | .sendReq c' p => c' = c ∧ ∃ n cemi ch, o = [.drew n] ∧ tunnelCemi m c = some (.ok cemi) ∧ ¬ Unframeable m cemi ∧ p = requestFor ch n cemi
  | .reading a _ => ∃ addr n p o', c = .read addr ∧ a = addr.toU16 ∧ o = .drew n :: .tx .api p :: o' ∧ Begun m c o
  | .writing _ => ∃ addr v small n p, c = .write addr v small ∧ o = [.drew n, .tx .api p] ∧ Begun m c o
  | .stChan | .stEp _ => c = .status ∧ o = []
  | .stSend p => c = .status ∧ o = [] ∧ ∃ ch ep, plainRequest c ch ep = some p
  | .stRecv => c = .status ∧ ∃ p, o = [.tx .api p] ∧ Begun m c o
  | .dcChan | .dcEp _ => c = .disconnect ∧ o = []
  | .dcLog p | .dcSend p => c = .disconnect ∧ o = [] ∧ ∃ ch ep, plainRequest c ch ep = some p
  | .dcRecv => c = .disconnect ∧ ∃ p, o = [.tx .api p] ∧ Begun m c o

theorem Doing.begun {m : Mode} {api : Api} {c : Call} {o : List Obs} (h : Doing m api c o) : Begun m c o := by
  cases api <;> simp only [Doing] at h
  case seqNr c' cemi => obtain ⟨rfl, rfl, h⟩ := h; exact .start _ (cemi_of_tunnel h).1
  case chanId c' n cemi => obtain ⟨rfl, rfl, h⟩ := h; exact .drew _ _ _ (cemi_of_tunnel h).1 (cemi_of_tunnel h).2
  case sendReq c' p => obtain ⟨rfl, n, cemi, ch, rfl, h, _⟩ := h; exact .drew _ _ _ (cemi_of_tunnel h).1 (cemi_of_tunnel h).2
  case reading a dl => obtain ⟨_, _, _, _, _, _, _, h⟩ := h; exact h
  case writing dl => obtain ⟨_, _, _, _, _, _, _, h⟩ := h; exact h
  case stRecv => obtain ⟨_, _, _, h⟩ := h; exact h
  case dcRecv => obtain ⟨_, _, _, h⟩ := h; exact h
  all_goals
    first
    | (obtain ⟨rfl, rfl⟩ := h; exact .start _ trivial)
    | (obtain ⟨rfl, rfl, _⟩ := h; exact .start _ trivial)

/-- The API and what has been seen of the application. -/
inductive DiaryKept (m : Mode) (s : Sys) : List Obs → Prop
  | resting (l) : s.api = .idle → s.bg.rxOpen = true → Stories m l → DiaryKept m s l
  | calling (l c o) : s.bg.rxOpen = true → Stories m l → Doing m s.api c o → DiaryKept m s (l ++ .call c :: o)
  | over (l) : s.api = .idle → s.bg.rxOpen = false → Stories m l → DiaryKept m s (l ++ [.dropped])

theorem DiaryKept.diary {m : Mode} {s : Sys} {l : List Obs} (h : DiaryKept m s l) : Diary m l := by
  cases h with
  | resting _ _ _ h => exact .resting _ h
  | calling l c o _ h1 h2 => exact .calling _ _ _ h1 h2.begun
  | over l _ _ h => exact .over _ h

theorem lifeOf_append (a b : List Obs) : lifeOf (a ++ b) = lifeOf a ++ lifeOf b := List.filter_append ..

theorem lifeOf_task {k : Kind} {m : Mode} {s s' : Bg} {e : BgEv} {o : List Obs} (h : bgStep k m s e = some (s', o)) : lifeOf o = [] := by
  cases bgStep_tr h <;> first | rfl | simp [lifeOf, isLife]

theorem kept_step {m : Mode} {s s' : Sys} {o l : List Obs} (h : DiaryKept m s l) (ht : ApiTr m s s' o) : DiaryKept m s' (l ++ lifeOf o) := by
  have one : ∀ {l : List Obs} {c : Call} {a f : List Obs} {r : Ret} {b : Bg}, b.rxOpen = true → Stories m l →
      Closes m c a f r → DiaryKept m ⟨b, .idle⟩ (l ++ .call c :: a ++ (f ++ [.ret r])) := by
    intro l c a f r b h2 h3 h4
    have := DiaryKept.resting (m := m) (s := ⟨b, .idle⟩) (l ++ (.call c :: a ++ f ++ [.ret r])) rfl h2 (.more _ _ h3 (.finished _ _ _ _ h4))
    simpa using this
  have go : ∀ {l : List Obs} {c : Call} {a x : List Obs} {b : Bg} {q : Api}, b.rxOpen = true → Stories m l →
      Doing m q c (a ++ x) → DiaryKept m ⟨b, q⟩ (l ++ .call c :: a ++ x) := by
    intro l c a x b q h1 h2 h3
    have := DiaryKept.calling (m := m) (s := ⟨b, q⟩) l c (a ++ x) h1 h2 h3
    simpa using this
  cases h with
  | resting _ hi hx hl =>
    cases ht
    case callTunnel c cemi h1 h2 h3 => exact .calling l c [] hx hl ⟨rfl, rfl, h3⟩
    case callErr c h1 h2 h3 =>
      exfalso
      cases c <;> simp only [tunnelCemi, Option.some.injEq, reduceCtorEq] at h3
      · rw [readCemi_eq] at h3; cases h3
      · exact writeCemi_ne_err _ _ _ _ h3
    case callPanic c h1 h2 h3 =>
      cases c <;> simp only [tunnelCemi, Option.some.injEq, reduceCtorEq] at h3
      · rw [readCemi_eq] at h3; cases h3
      · exact .resting _ hi hx (.more _ _ hl (.atOnce _ _ _ ((writeCemi_panic_iff _ _ _ _).1 h3)))
    case callStatus h1 h2 => exact .calling l _ [] hx hl ⟨rfl, rfl⟩
    case callDisc h1 h2 => exact .calling l _ [] hx hl ⟨rfl, rfl⟩
    case drop h1 h2 => exact .over l hi rfl hl
    all_goals (simp_all [looksUp])
  | over l' hi hx hl =>
    cases ht
    all_goals (simp_all [looksUp])
  | calling l' c a hx hl hd =>
    cases ht
    case noConn h1 h2 h3 =>
      have hb := hd.begun
      refine one hx hl (.unconnected c a hb ?_)
      cases hapi : s.api <;> rw [hapi] at h1 hd <;> simp only [looksUp, Bool.false_eq_true] at h1 <;> simp only [Doing] at hd
      case chanId => obtain ⟨_, rfl, _⟩ := hd; simp
      all_goals first | (obtain ⟨_, rfl, _⟩ := hd; simp) | (obtain ⟨_, rfl⟩ := hd; simp)
    case draw c' cemi d h1 h2 h3 =>
      rw [h1] at hd
      obtain ⟨rfl, rfl, hd⟩ := hd
      exact go (x := [.drew d.seq]) hx hl ⟨rfl, rfl, hd⟩
    case pick c' n cemi d p h1 h2 h3 h4 =>
      rw [h1] at hd
      obtain ⟨rfl, rfl, hd⟩ := hd
      obtain ⟨g1, g2⟩ := request_packet_iff.1 h4
      exact go (x := []) hx hl ⟨rfl, n, cemi, d.channel, rfl, hd, g1, g2⟩
    case pickPanic c' n cemi d h1 h2 h3 h4 =>
      rw [h1] at hd
      obtain ⟨rfl, rfl, hd⟩ := hd
      have hu : Unframeable m cemi := (request_panic_iff m _).1 h4
      exact one hx hl (.tooLong _ _ cemi (.drew _ _ _ (cemi_of_tunnel hd).1 (cemi_of_tunnel hd).2) (cemi_of_tunnel hd).2 hu)
    case sendRead addr p h1 =>
      rw [h1] at hd
      obtain ⟨rfl, n, cemi, ch, rfl, hd, g1, rfl⟩ := hd
      have hb := Begun.asked (m := m) _ n cemi ch (cemi_of_tunnel hd).1 (cemi_of_tunnel hd).2 g1
      exact go (x := [.tx .api (requestFor ch n cemi)]) hx hl ⟨addr, n, _, [], rfl, rfl, rfl, hb⟩
    case sendWrite c' p h1 h2 =>
      rw [h1] at hd
      obtain ⟨rfl, n, cemi, ch, rfl, hd, g1, rfl⟩ := hd
      have hb := Begun.asked (m := m) _ n cemi ch (cemi_of_tunnel hd).1 (cemi_of_tunnel hd).2 g1
      cases c' <;> simp only [tunnelCemi, reduceCtorEq] at hd
      · exact absurd rfl (h2 _)
      · rename_i addr v small
        exact go (x := [.tx .api (requestFor ch n cemi)]) hx hl ⟨addr, v, small, n, _, rfl, rfl, hb⟩
    case sendFail c' p h1 =>
      rw [h1] at hd
      obtain ⟨rfl, n, cemi, ch, rfl, hd, g1, rfl⟩ := hd
      exact one hx hl (.unsent _ _ cemi ch (.drew _ _ _ (cemi_of_tunnel hd).1 (cemi_of_tunnel hd).2) (cemi_of_tunnel hd).2 g1)
    case readTimeout b dl h1 h2 =>
      rw [h1] at hd
      obtain ⟨addr, n, p, o', rfl, rfl, rfl, hb⟩ := hd
      exact one hx hl (.gaveUp _ _ p hb (by simp))
    case readGone b dl h1 h2 h3 =>
      rw [h1] at hd
      obtain ⟨addr, n, p, o', rfl, rfl, rfl, hb⟩ := hd
      exact one hx hl (.gaveUp _ _ p hb (by simp))
    case readSkip b dl w rest h1 h2 h3 =>
      rw [h1] at hd
      obtain ⟨addr, n, p, o', rfl, rfl, rfl, hb⟩ := hd
      have hw : PassedOver addr.toU16 w := by
        rcases h3 with h3 | ⟨i, h3, h4⟩
        · exact Or.inl h3
        · by_cases hc : w.msgCode = codeLDataInd
          · exact Or.inr ⟨_, _, indication_iff.2 ⟨hc, i, h3, rfl, rfl⟩, h4⟩
          · exact Or.inl hc
      exact go (x := [.taken 0 w]) (b := { s.bg with queue := rest }) hx hl
        ⟨addr, n, p, o' ++ [.taken 0 w], rfl, rfl, rfl, hb.passed _ _ _ _ w hw⟩
    case readBad b dl w rest h1 h2 h3 h4 =>
      rw [h1] at hd
      obtain ⟨addr, n, p, o', rfl, rfl, rfl, hb⟩ := hd
      exact one (b := { s.bg with queue := rest }) hx hl (.short _ _ _ _ w hb h3 (ind_err h4))
    case readValue b dl w rest i h1 h2 h3 h4 h5 =>
      rw [h1] at hd
      obtain ⟨addr, n, p, o', rfl, rfl, rfl, hb⟩ := hd
      exact one (b := { s.bg with queue := rest }) hx hl (.value _ _ _ _ w _ hb (indication_iff.2 ⟨h3, i, h4, h5, rfl⟩))
    case writeTimeout dl h1 h2 =>
      rw [h1] at hd
      obtain ⟨addr, v, small, n, p, rfl, rfl, hb⟩ := hd
      exact one hx hl (.gaveUp _ _ p hb (by simp))
    case writeGone dl h1 h2 h3 =>
      rw [h1] at hd
      obtain ⟨addr, v, small, n, p, rfl, rfl, hb⟩ := hd
      exact one hx hl (.gaveUp _ _ p hb (by simp))
    case writeOk dl w rest h1 h2 h3 =>
      rw [h1] at hd
      obtain ⟨addr, v, small, n, p, rfl, rfl, hb⟩ := hd
      have := one (b := { s.bg with queue := rest }) hx hl (.written _ _ _ _ _ w hb)
      rw [if_pos (show w.msgCode = L_DATA_CON from h3)] at this
      exact this
    case writeBad dl w rest h1 h2 h3 =>
      rw [h1] at hd
      obtain ⟨addr, v, small, n, p, rfl, rfl, hb⟩ := hd
      have := one (b := { s.bg with queue := rest }) hx hl (.written _ _ _ _ _ w hb)
      rw [if_neg (show w.msgCode ≠ L_DATA_CON from h3)] at this
      exact this
    case stChan d h1 h2 h3 =>
      rw [h1] at hd
      obtain ⟨rfl, rfl⟩ := hd
      exact go (a := []) (x := []) hx hl ⟨rfl, rfl⟩
    case stEp ch d h1 h2 h3 =>
      rw [h1] at hd
      obtain ⟨rfl, rfl⟩ := hd
      exact go (a := []) (x := []) hx hl ⟨rfl, rfl, ch, d.endpoint, by rw [C19_bodies.1]; rfl⟩
    case stSend p h1 =>
      rw [h1] at hd
      obtain ⟨rfl, rfl, ch, ep, hp⟩ := hd
      exact go (a := []) (x := [.tx .api p]) hx hl ⟨rfl, p, rfl, .plain _ _ _ _ hp⟩
    case stSendFail p h1 =>
      rw [h1] at hd
      obtain ⟨rfl, rfl, ch, ep, hp⟩ := hd
      exact one hx hl (.unsentStatus _ _ _ hp)
    case stOk d r h1 h2 =>
      rw [h1] at hd
      obtain ⟨rfl, p, rfl, hb⟩ := hd
      obtain ⟨x, rest, h3, h4⟩ := runRd_ok_iff.1 h2
      cases h4
      exact one hx hl (.state p d x rest hb (by rw [← buffer_eq_seen]; exact ConnectionstateResponse.fromPacket_iff.1 h3))
    case stBad d h1 h2 =>
      rw [h1] at hd
      obtain ⟨rfl, p, rfl, hb⟩ := hd
      refine one hx hl (.noState p d hb ?_)
      intro r rest he
      rw [← buffer_eq_seen] at he
      rw [runRd_ok_iff.2 ⟨_, _, (ConnectionstateResponse.fromPacket_iff (c := r)).2 he, rfl⟩] at h2
      cases h2
    case stErr h1 =>
      rw [h1] at hd
      obtain ⟨rfl, p, rfl, hb⟩ := hd
      exact one hx hl (.gaveUp _ _ p hb (by simp))
    case dcChan d h1 h2 h3 =>
      rw [h1] at hd
      obtain ⟨rfl, rfl⟩ := hd
      exact go (a := []) (x := []) hx hl ⟨rfl, rfl⟩
    case dcEp ch d h1 h2 h3 =>
      rw [h1] at hd
      obtain ⟨rfl, rfl⟩ := hd
      exact go (a := []) (x := []) hx hl ⟨rfl, rfl, ch, d.endpoint, by rw [C19_bodies.2.1]; rfl⟩
    case dcLog p h1 =>
      rw [h1] at hd
      obtain ⟨rfl, rfl, hp⟩ := hd
      exact go (a := []) (x := []) hx hl ⟨rfl, rfl, hp⟩
    case dcSend p h1 =>
      rw [h1] at hd
      obtain ⟨rfl, rfl, ch, ep, hp⟩ := hd
      exact go (a := []) (x := [.tx .api p]) hx hl ⟨rfl, p, rfl, .plain _ _ _ _ hp⟩
    case dcSendFail p h1 =>
      rw [h1] at hd
      obtain ⟨rfl, rfl, ch, ep, hp⟩ := hd
      exact one hx hl (.unsentDisconnect _ _ _ hp)
    case dcGone h1 h2 h3 =>
      rw [h1] at hd
      obtain ⟨rfl, p, rfl, hb⟩ := hd
      exact one hx hl (.gaveUp _ _ p hb (by simp))
    case dcOk w rest h1 h2 =>
      rw [h1] at hd
      obtain ⟨rfl, p, rfl, hb⟩ := hd
      exact one (b := { s.bg with queue := rest }) hx hl (.disconnected p w hb)
    case cancel h1 =>
      have := DiaryKept.resting (m := m) (s := { s with api := .idle }) (l' ++ (.call c :: a ++ [.cancelled])) rfl hx (.more _ _ hl (.cancelled _ _ hd.begun))
      rw [← List.append_assoc] at this
      exact this
    all_goals
      exfalso
      have hi : s.api = .idle := by assumption
      rw [hi] at hd
      exact hd

theorem kept_exec {m : Mode} {s : Sys} {tr : List Obs} (h : Exec m s tr) : DiaryKept m s (lifeOf tr) := by
  induction h with
  | init => exact .resting [] rfl rfl .none
  | @step s s' tr o e hx hs ih =>
    rw [lifeOf_append]
    cases e with
    | bg e =>
      simp only [Knx.step, Option.map_eq_some_iff, Prod.exists, Prod.mk.injEq] at hs
      obtain ⟨b, o', hb, rfl, rfl⟩ := hs
      rw [lifeOf_task hb, List.append_nil]
      have hr := bgStep_rxOpen hb
      generalize lifeOf tr = l at ih ⊢
      cases ih with
      | resting _ h1 h2 h3 => exact .resting _ h1 (hr.trans h2) h3
      | calling l c o h1 h2 h3 => exact .calling l c o (hr.trans h1) h2 h3
      | over l h1 h2 h3 => exact .over l h1 (hr.trans h2) h3
    | delay d =>
      cases hs
      rw [show lifeOf [] = [] from rfl, List.append_nil]
      generalize lifeOf tr = l at ih ⊢
      cases ih with
      | resting _ h1 h2 h3 => exact .resting _ h1 h2 h3
      | calling l c o h1 h2 h3 => exact .calling l c o h1 h2 h3
      | over l h1 h2 h3 => exact .over l h1 h2 h3
    | api e => exact kept_step ih (apiStep_tr hs)

/-- C126: whatever the server, the network and the background task do, what is seen of the application is a diary: its calls one after the other, each of
them one of the listed stories. -/
theorem C126_diary {m : Mode} {s : Sys} {tr : List Obs} (h : Exec m s tr) : Diary m (lifeOf tr) := (kept_exec h).diary

/-! ## Every story happens -/

/-- After some stories the application can be seen to do `l`, and then the client is in state `s`. -/
def Possible (m : Mode) (l : List Obs) (s : Sys) : Prop := ∃ tr l0, Exec m s tr ∧ Stories m l0 ∧ lifeOf tr = l0 ++ l

/-- The task waits for datagrams, the channel is open and empty, and the next request has channel `ch` and number `n`. -/
def Tuned (s : Bg) (ch : U8) (ep : Hpai) (n : U8) : Prop :=
  s.pc = .recv ∧ s.rxOpen = true ∧ s.queue = [] ∧ s.conn = some ⟨ch, ep, n⟩

theorem Possible.step {m : Mode} {l o : List Obs} {s s' : Sys} (e : Ev) (h : Possible m l s) (hs : step m s e = some (s', o)) :
    Possible m (l ++ lifeOf o) s' := by
  obtain ⟨tr, l0, h1, h2, h3⟩ := h
  exact ⟨tr ++ o, l0, h1.step e hs, h2, by rw [lifeOf_append, h3, List.append_assoc]⟩

theorem Possible.quiet {m : Mode} {l o : List Obs} {s s' : Sys} (e : Ev) (h : Possible m l s) (hs : Knx.step m s e = some (s', o))
    (ho : lifeOf o = []) : Possible m l s' := by
  have := h.step e hs
  rwa [ho, List.append_nil] at this

/-- An application that is at rest can forget. -/
theorem Possible.forget {m : Mode} {l : List Obs} {s : Sys} (h : Possible m l s) (hi : s.api = .idle) (hr : s.bg.rxOpen = true) :
    Possible m [] s := by
  obtain ⟨tr, l0, h1, h2, h3⟩ := h
  have hk := kept_exec h1
  refine ⟨tr, lifeOf tr, h1, ?_, by simp⟩
  generalize lifeOf tr = x at hk ⊢
  cases hk with
  | resting _ _ _ h => exact h
  | calling l c o _ _ hd => rw [hi] at hd; exact hd.elim
  | over l _ hr' _ => rw [hr] at hr'; cases hr'

theorem grants_any (ch : U8) (ep : Hpai) : ∃ d r, Grants d r ∧ r.channel = ch ∧ r.dataEndpoint = ep := by
  refine ⟨connectResponse 20 ⟨ch, 0, ep, ⟨⟨1, 1, 1⟩⟩⟩, ⟨ch, 0, ep, ⟨⟨1, 1, 1⟩⟩⟩, ⟨rfl, 20, List.replicate 80 0, by omega, by omega,
    by simp [IndInRange], ?_⟩, rfl, rfl⟩
  rw [seen, padded_eq]
  simp [connectResponse, header, hpai, word]

/-- Any number on any connection can be the next. -/
theorem tuned_any (m : Mode) (ch : U8) (ep : Hpai) (n : U8) : ∃ b, Possible m [] ⟨b, .idle⟩ ∧ Tuned b ch ep n := by
  obtain ⟨k, hk⟩ : ∃ k : Nat, n = BitVec.ofNat 8 k := ⟨n.toNat, by simp⟩
  subst hk
  induction k with
  | zero =>
    obtain ⟨d, r, h1, h2, h3⟩ := grants_any ch ep
    refine ⟨linkUp .client r, ⟨_, [], exec_link m h1, .none, rfl⟩, rfl, rfl, rfl, ?_⟩
    simp [linkUp, Conn.ofResponse, h2, h3]
  | succ k ih =>
    obtain ⟨b, hp, h1, h2, h3, h4⟩ := ih
    have s1 := hp.step (.api (.call (.read (.group3 ⟨1, 0, 1⟩)))) (o := [.call (.read (.group3 ⟨1, 0, 1⟩))])
      (s' := ⟨b, .seqNr (.read (.group3 ⟨1, 0, 1⟩)) (lDataReqFrame 3 (KnxAddress.group3 ⟨1, 0, 1⟩).toU16.toNat apduRead)⟩)
      (by simp [Knx.step, apiStep, h2, apiCall, startTunnel, readCemi_eq])
    have s2 := s1.step (.api .run) (o := [.drew (BitVec.ofNat 8 k)])
      (s' := ⟨{ b with conn := some ⟨ch, ep, BitVec.ofNat 8 k + 1⟩ }, .chanId (.read (.group3 ⟨1, 0, 1⟩)) (BitVec.ofNat 8 k)
        (lDataReqFrame 3 (KnxAddress.group3 ⟨1, 0, 1⟩).toU16.toNat apduRead)⟩)
      (by simp [Knx.step, apiStep, withConn, connLocked, h1, h4])
    have s3 := s2.step (.api .cancel) (o := [.cancelled])
      (s' := ⟨{ b with conn := some ⟨ch, ep, BitVec.ofNat 8 k + 1⟩ }, .idle⟩) (by simp [Knx.step, apiStep])
    refine ⟨_, s3.forget rfl h2, h1, h2, h3, ?_⟩
    simp [BitVec.ofNat_add]

theorem tunnel_of_starts {m : Mode} {c : Call} {cemi : Bytes} (h : Starts m c) (ht : telegramOf? c = some cemi) :
    tunnelCemi m c = some (.ok cemi) := by
  cases c with
  | read addr => simp only [telegramOf?, Option.some.injEq] at ht; subst ht; simp [tunnelCemi, readCemi_eq]
  | write addr v small =>
    have : ∃ x, writeCemi m addr v small = .ok x := by
      cases hw : writeCemi m addr v small with
      | ok x => exact ⟨x, rfl⟩
      | err => exact absurd hw (writeCemi_ne_err _ _ _ _)
      | panic => exact absurd ((writeCemi_panic_iff _ _ _ _).1 hw) h
    obtain ⟨x, hx⟩ := this
    have := (cemi_of_tunnel (m := m) (c := .write addr v small) (cemi := x) (by rw [tunnelCemi, hx])).2
    rw [ht] at this
    cases this
    rw [tunnelCemi, hx]
  | _ => cases ht

/-- A read or a write, called. -/
theorem story_called {m : Mode} {c : Call} {cemi : Bytes} (hs : Starts m c) (ht : telegramOf? c = some cemi) (ch : U8) (ep : Hpai) (n : U8) :
    ∃ b, Possible m [.call c] ⟨b, .seqNr c cemi⟩ ∧ Tuned b ch ep n := by
  obtain ⟨b, hp, h1, h2, h3, h4⟩ := tuned_any m ch ep n
  have htc := tunnel_of_starts hs ht
  refine ⟨b, hp.step (.api (.call c)) (o := [.call c]) ?_, h1, h2, h3, h4⟩
  cases c <;> simp only [tunnelCemi, reduceCtorEq, Option.some.injEq] at htc
  · simp [Knx.step, apiStep, h2, apiCall, htc, startTunnel]
  · simp [Knx.step, apiStep, h2, apiCall, htc, startTunnel]

theorem story_drew {m : Mode} {c : Call} {cemi : Bytes} (hs : Starts m c) (ht : telegramOf? c = some cemi) (ch : U8) (ep : Hpai) (n : U8) :
    ∃ b, Possible m [.call c, .drew n] ⟨b, .chanId c n cemi⟩ ∧ Tuned b ch ep (n + 1) := by
  obtain ⟨b, hp, h1, h2, h3, h4⟩ := story_called hs ht ch ep n
  exact ⟨{ b with conn := some ⟨ch, ep, n + 1⟩ }, hp.step (.api .run) (o := [.drew n]) (by simp [Knx.step, apiStep, withConn, connLocked, h1, h4]),
    h1, h2, h3, rfl⟩

theorem story_ready {m : Mode} {c : Call} {cemi : Bytes} (hs : Starts m c) (ht : telegramOf? c = some cemi) (hu : ¬ Unframeable m cemi) (ch : U8)
    (ep : Hpai) (n : U8) : ∃ b, Possible m [.call c, .drew n] ⟨b, .sendReq c (requestFor ch n cemi)⟩ ∧ Tuned b ch ep (n + 1) := by
  obtain ⟨b, hp, h1, h2, h3, h4⟩ := story_drew hs ht ch ep n
  have hq := (request_packet_iff (m := m) (ch := ch) (n := n) (cemi := cemi)).2 ⟨hu, rfl⟩
  exact ⟨b, hp.quiet (.api .run) (o := []) (by simp [Knx.step, apiStep, withConn, connLocked, h1, h4, hq]) rfl, h1, h2, h3, h4⟩

theorem story_asked_read {m : Mode} {addr : KnxAddress} {cemi : Bytes} (ht : telegramOf? (.read addr) = some cemi) (hu : ¬ Unframeable m cemi)
    (ch : U8) (n : U8) : ∃ b dl ep n', Possible m [.call (.read addr), .drew n, .tx .api (requestFor ch n cemi)] ⟨b, .reading addr.toU16 dl⟩ ∧
      Tuned b ch ep n' := by
  obtain ⟨b, hp, h⟩ := story_ready (m := m) (c := .read addr) trivial ht hu ch ⟨1, ⟨⟨192, 168, 1, 2⟩, 3671⟩⟩ n
  exact ⟨b, b.now + apiTimeout, _, _, hp.step (.api .sendOk) (o := [.tx .api (requestFor ch n cemi)]) (by simp [Knx.step, apiStep]), h⟩

theorem story_asked_write {m : Mode} {addr : KnxAddress} {v : Bytes} {small : Bool} {cemi : Bytes} (hs : Starts m (.write addr v small))
    (ht : telegramOf? (.write addr v small) = some cemi) (hu : ¬ Unframeable m cemi) (ch : U8) (n : U8) :
    ∃ b dl ep n', Possible m [.call (.write addr v small), .drew n, .tx .api (requestFor ch n cemi)] ⟨b, .writing dl⟩ ∧ Tuned b ch ep n' := by
  obtain ⟨b, hp, h⟩ := story_ready (m := m) hs ht hu ch ⟨1, ⟨⟨192, 168, 1, 2⟩, 3671⟩⟩ n
  exact ⟨b, b.now + apiTimeout, _, _, hp.step (.api .sendOk) (o := [.tx .api (requestFor ch n cemi)]) (by simp [Knx.step, apiStep]), h⟩

/-- A telegram arrives. -/
theorem story_arrives {m : Mode} {l : List Obs} {b : Bg} {q : Api} {ch n : U8} {ep : Hpai} {d : Bytes} {w : Cemi} (h : Possible m l ⟨b, q⟩)
    (ht : Tuned b ch ep n) (hd : Carries m d w) : Possible m l ⟨{ b with queue := [w] }, q⟩ := by
  obtain ⟨h1, h2, h3, h4⟩ := ht
  obtain ⟨t, hd, hc⟩ := hd
  have e1 := onDatagram_request hd
  have s1 := h.quiet (.bg (.dgram d)) (o := [.rx d]) (s' := ⟨{ b with pc := .ackReq t.channel t.seq t.cemi }, q⟩)
    (by simp [Knx.step, bgStep, h1, e1, endObs]) rfl
  have s2 := s1.step (.bg .sendOk) (o := [.tx .task (TunnelingAck.mk t.channel t.seq 0).packet]) (s' := ⟨{ b with pc := .push w }, q⟩)
    (by simp [Knx.step, bgStep, hc])
  have s3 := s2.step (.bg .run) (o := [.queued w]) (s' := ⟨{ b with pc := .recv, queue := [w] }, q⟩)
    (by simp [Knx.step, bgStep, h2, h3])
  simp only [lifeOf, isLife, List.filter_cons, List.filter_nil, Bool.false_eq_true, if_false, List.append_nil] at s3
  rw [← h1] at s3
  exact s3

/-- The telegrams taken can arrive. -/
def Sendable (m : Mode) (o : List Obs) : Prop := ∀ i w, Obs.taken i w ∈ o → ∃ d, Carries m d w


theorem passedOver_skipped {a : U16} {w : Cemi} (h : PassedOver a w) : Skipped a w := by
  rcases h with h | ⟨other, v, h, hne⟩
  · exact Or.inl h
  · obtain ⟨_, i, h1, h2, _⟩ := indication_iff.1 h
    exact Or.inr ⟨i, h1, by rw [h2]; exact hne⟩

theorem readMsg_skipped {s : Sys} {a : U16} {w : Cemi} (h : Skipped a w) :
    readMsg s a w = some ({ s with api := .reading a (s.bg.now + apiTimeout) }, [.taken 0 w]) := by
  unfold readMsg
  by_cases hcon : w.msgCode = codeLDataCon
  · simp only [hcon, if_true]
    split
    · rename_i hp; exact absurd hp (C15_lDataCon w).1
    · rfl
  · simp only [hcon, if_false]
    rcases h with h | ⟨i, hi, hd⟩
    · rw [if_neg h]
    · split
      · rw [hi]; simp only [hd, if_false]
      · rfl

/-- A read that has asked, and passed over any telegrams. -/
theorem story_reading {m : Mode} {c : Call} {o : List Obs} (h : Begun m c o) : ∀ {addr : KnxAddress} {n : U8} {p : Bytes} {o' : List Obs},
    c = .read addr → o = .drew n :: .tx .api p :: o' → Sendable m o →
    ∃ b dl ch ep n', Possible m (.call c :: o) ⟨b, .reading addr.toU16 dl⟩ ∧ Tuned b ch ep n' := by
  induction h with
  | start c h => intro addr n p o' _ h; cases h
  | drew c n cemi h1 h2 => intro addr n p o' _ h; cases h
  | plain c ch ep p h => intro addr n p o' _ h; cases h
  | asked c n cemi ch h1 h2 h3 =>
    intro addr n' p o' hc ho hs
    subst hc
    obtain ⟨b, dl, ep, n'', h⟩ := story_asked_read h2 h3 ch n
    exact ⟨b, dl, ch, ep, n'', h⟩
  | passed addr n p o w hb hw ih =>
    intro addr' n' p' o' hc ho hs
    cases hc
    obtain ⟨b, dl, ch, ep, n'', h1, h2⟩ := ih rfl rfl (fun i w hi => hs i w (List.mem_append_left _ hi))
    obtain ⟨d, hd⟩ := hs 0 w (by simp)
    have h3 := story_arrives h1 h2 hd
    have hk := passedOver_skipped hw
    refine ⟨b, b.now + apiTimeout, ch, ep, n'', ?_, h2⟩
    have hq := h2.2.2.1
    have := h3.step (.api .run) (o := [.taken 0 w]) (s' := ⟨{ b with queue := [] }, .reading addr.toU16 (b.now + apiTimeout)⟩) (by
      simp [Knx.step, apiStep, chanRecv, readMsg_skipped hk])
    rw [← hq] at this
    exact this

/-- A status query or a disconnect that has sent its request. -/
theorem story_status {m : Mode} (ch : U8) (ep : Hpai) : ∃ b n, Possible m [.call .status]
    ⟨b, .stSend (frame CONNECTIONSTATE_REQUEST ([ch, 0] ++ hpai ep))⟩ ∧ Tuned b ch ep n := by
  obtain ⟨b, hp, h1, h2, h3, h4⟩ := tuned_any m ch ep 0
  have s1 := hp.step (.api (.call .status)) (o := [.call .status]) (s' := ⟨b, .stChan⟩) (by simp [Knx.step, apiStep, apiCall, h2])
  have s2 := s1.quiet (.api .run) (o := []) (s' := ⟨b, .stEp ch⟩) (by simp [Knx.step, apiStep, withConn, connLocked, h1, h4]) rfl
  have s3 := s2.quiet (.api .run) (o := []) (s' := ⟨b, .stSend (ConnectionstateRequest.mk ch ep).packet⟩)
    (by simp [Knx.step, apiStep, withConn, connLocked, h1, h4]) rfl
  rw [C19_bodies.1] at s3
  exact ⟨b, 0, s3, h1, h2, h3, h4⟩

theorem story_disconnect {m : Mode} (ch : U8) (ep : Hpai) : ∃ b n, Possible m [.call .disconnect]
    ⟨b, .dcSend (frame DISCONNECT_REQUEST ([ch, 0] ++ hpai ep))⟩ ∧ Tuned b ch ep n := by
  obtain ⟨b, hp, h1, h2, h3, h4⟩ := tuned_any m ch ep 0
  have s1 := hp.step (.api (.call .disconnect)) (o := [.call .disconnect]) (s' := ⟨b, .dcChan⟩) (by simp [Knx.step, apiStep, apiCall, h2])
  have s2 := s1.quiet (.api .run) (o := []) (s' := ⟨b, .dcEp ch⟩) (by simp [Knx.step, apiStep, withConn, connLocked, h1, h4]) rfl
  have s3 := s2.quiet (.api .run) (o := []) (s' := ⟨b, .dcLog (DisconnectRequest.mk ch ep).packet⟩)
    (by simp [Knx.step, apiStep, withConn, connLocked, h1, h4]) rfl
  have s4 := s3.quiet (.api .skipLog) (o := []) (s' := ⟨b, .dcSend (DisconnectRequest.mk ch ep).packet⟩) (by simp [Knx.step, apiStep]) rfl
  rw [C19_bodies.2.1] at s4
  exact ⟨b, 0, s4, h1, h2, h3, h4⟩

theorem story_status_sent {m : Mode} {ch : U8} {ep : Hpai} {p : Bytes} (h : plainRequest .status ch ep = some p) :
    ∃ b n, Possible m [.call .status, .tx .api p] ⟨b, .stRecv⟩ ∧ Tuned b ch ep n := by
  cases h
  obtain ⟨b, n, h1, h2⟩ := story_status (m := m) ch ep
  exact ⟨b, n, h1.step (.api .sendOk) (o := [.tx .api (frame CONNECTIONSTATE_REQUEST ([ch, 0] ++ hpai ep))]) (by simp [Knx.step, apiStep]), h2⟩

theorem story_disconnect_sent {m : Mode} {ch : U8} {ep : Hpai} {p : Bytes} (h : plainRequest .disconnect ch ep = some p) :
    ∃ b n, Possible m [.call .disconnect, .tx .api p] ⟨b, .dcRecv⟩ ∧ Tuned b ch ep n := by
  cases h
  obtain ⟨b, n, h1, h2⟩ := story_disconnect (m := m) ch ep
  exact ⟨b, n, h1.step (.api .sendOk) (o := [.tx .api (frame DISCONNECT_REQUEST ([ch, 0] ++ hpai ep))]) (by simp [Knx.step, apiStep]), h2⟩

/-- The connection is lost. -/
theorem story_lost {m : Mode} {l : List Obs} {b : Bg} {q : Api} {ch n : U8} {ep : Hpai} (h : Possible m l ⟨b, q⟩) (ht : Tuned b ch ep n) :
    Possible m l ⟨{ b with conn := none, pc := .top }, q⟩ := by
  have e : parseResponse (buffer [1]) = .err := by rfl
  have e' : onDatagram [1] = .teardown := by rfl
  generalize ([1] : Bytes) = d at e e'
  have s1 := h.quiet (.bg (.dgram d)) (o := [.rx d]) (s' := ⟨{ b with pc := .teardown }, q⟩)
    (by simp [Knx.step, bgStep, ht.1, e', endObs]) rfl
  exact s1.quiet (.bg .run) (o := [.down]) (by simp [Knx.step, bgStep]) rfl

/-- The task ends. -/
theorem story_killed {m : Mode} {l : List Obs} {b : Bg} {q : Api} {ch n : U8} {ep : Hpai} (h : Possible m l ⟨b, q⟩) (ht : Tuned b ch ep n) :
    Possible m l ⟨{ b with pc := .crashed }, q⟩ := by
  have e : parseResponse (buffer killer) = .panic := by rfl
  have e' : onDatagram killer = .crashed := by simp [onDatagram, e, show killer.length = 10 from rfl]
  exact h.quiet (.bg (.dgram killer)) (o := [.rx killer, .crash]) (by simp [Knx.step, bgStep, ht.1, e', endObs]) rfl

theorem begun_unsent {m : Mode} {c : Call} {o : List Obs} (h : Begun m c o) (hn : ∀ p, Obs.tx .api p ∉ o) :
    ∃ b q ch ep n, Possible m (.call c :: o) ⟨b, q⟩ ∧ Tuned b ch ep n ∧ looksUp q = true := by
  cases h with
  | start c h =>
    cases c with
    | read addr =>
      obtain ⟨b, h1, h2⟩ := story_called (m := m) (c := .read addr) trivial rfl 0 ⟨1, ⟨⟨192, 168, 1, 2⟩, 3671⟩⟩ 0
      exact ⟨b, _, _, _, _, h1, h2, rfl⟩
    | write addr v small =>
      obtain ⟨cemi, hc⟩ : ∃ cemi, telegramOf? (.write addr v small) = some cemi := by cases small <;> exact ⟨_, rfl⟩
      obtain ⟨b, h1, h2⟩ := story_called h hc 0 ⟨1, ⟨⟨192, 168, 1, 2⟩, 3671⟩⟩ 0
      exact ⟨b, _, _, _, _, h1, h2, rfl⟩
    | status =>
      obtain ⟨b, hp, h⟩ := tuned_any m 0 ⟨1, ⟨⟨192, 168, 1, 2⟩, 3671⟩⟩ 0
      exact ⟨b, .stChan, _, _, _, hp.step (.api (.call .status)) (o := [.call .status]) (by simp [Knx.step, apiStep, apiCall, h.2.1]), h, rfl⟩
    | disconnect =>
      obtain ⟨b, hp, h⟩ := tuned_any m 0 ⟨1, ⟨⟨192, 168, 1, 2⟩, 3671⟩⟩ 0
      exact ⟨b, .dcChan, _, _, _, hp.step (.api (.call .disconnect)) (o := [.call .disconnect]) (by simp [Knx.step, apiStep, apiCall, h.2.1]), h, rfl⟩
    | _ => exact h.elim
  | drew c n cemi h1 h2 =>
    obtain ⟨b, h3, h4⟩ := story_drew h1 h2 0 ⟨1, ⟨⟨192, 168, 1, 2⟩, 3671⟩⟩ n
    exact ⟨b, _, _, _, _, h3, h4, rfl⟩
  | asked c n cemi ch => exact absurd (by simp) (hn (requestFor ch n cemi))
  | passed addr n p o w => exact absurd (by simp) (hn p)
  | plain c ch ep p => exact absurd (by simp) (hn p)

theorem begun_possible {m : Mode} {c : Call} {o : List Obs} (h : Begun m c o) (hs : Sendable m o) :
    ∃ b q ch ep n, Possible m (.call c :: o) ⟨b, q⟩ ∧ Tuned b ch ep n ∧ q ≠ .idle := by
  by_cases hn : ∀ p, Obs.tx .api p ∉ o
  · obtain ⟨b, q, ch, ep, n, h1, h2, h3⟩ := begun_unsent h hn
    exact ⟨b, q, ch, ep, n, h1, h2, by rintro rfl; cases h3⟩
  · cases h with
    | start c h => simp at hn
    | drew c n cemi h1 h2 => simp at hn
    | asked c n cemi ch h1 h2 h3 =>
      cases c with
      | read addr =>
        obtain ⟨b, dl, ep, n', h4, h5⟩ := story_asked_read h2 h3 ch n
        exact ⟨b, _, ch, ep, n', h4, h5, by simp⟩
      | write addr v small =>
        obtain ⟨b, dl, ep, n', h4, h5⟩ := story_asked_write h1 h2 h3 ch n
        exact ⟨b, _, ch, ep, n', h4, h5, by simp⟩
      | _ => cases h2
    | passed addr n p o w hb hw =>
      obtain ⟨b, dl, ch, ep, n', h4, h5⟩ := story_reading (hb.passed _ _ _ _ w hw) rfl rfl hs
      exact ⟨b, _, ch, ep, n', h4, h5, by simp⟩
    | plain c ch ep p hp =>
      cases c with
      | status => obtain ⟨b, n, h1, h2⟩ := story_status_sent (m := m) hp; exact ⟨b, _, ch, ep, n, h1, h2, by simp⟩
      | disconnect => obtain ⟨b, n, h1, h2⟩ := story_disconnect_sent (m := m) hp; exact ⟨b, _, ch, ep, n, h1, h2, by simp⟩
      | _ => cases hp

theorem begun_writing {m : Mode} {addr : KnxAddress} {v : Bytes} {small : Bool} {n : U8} {p : Bytes}
    (h : Begun m (.write addr v small) [.drew n, .tx .api p]) :
    ∃ b dl ch ep n', Possible m [.call (.write addr v small), .drew n, .tx .api p] ⟨b, .writing dl⟩ ∧ Tuned b ch ep n' := by
  cases h with
  | asked c n cemi ch h1 h2 h3 =>
    obtain ⟨b, dl, ep, n', h4⟩ := story_asked_write h1 h2 h3 ch n
    exact ⟨b, dl, ch, ep, n', h4⟩

theorem begun_plain_status {m : Mode} {p : Bytes} (h : Begun m .status [.tx .api p]) :
    ∃ b ch ep n, Possible m [.call .status, .tx .api p] ⟨b, .stRecv⟩ ∧ Tuned b ch ep n := by
  cases h with
  | plain c ch ep p hp => obtain ⟨b, n, h⟩ := story_status_sent (m := m) hp; exact ⟨b, ch, ep, n, h⟩

theorem begun_plain_disconnect {m : Mode} {p : Bytes} (h : Begun m .disconnect [.tx .api p]) :
    ∃ b ch ep n, Possible m [.call .disconnect, .tx .api p] ⟨b, .dcRecv⟩ ∧ Tuned b ch ep n := by
  cases h with
  | plain c ch ep p hp => obtain ⟨b, n, h⟩ := story_disconnect_sent (m := m) hp; exact ⟨b, ch, ep, n, h⟩

theorem closes_possible {m : Mode} {c : Call} {o f : List Obs} {r : Ret} (h : Closes m c o f r) (hs : Sendable m (o ++ f)) :
    ∃ b, Possible m (.call c :: o ++ (f ++ [.ret r])) ⟨b, .idle⟩ ∧ b.rxOpen = true := by
  have left : Sendable m o := fun i w hi => hs i w (List.mem_append_left _ hi)
  cases h with
  | unconnected c o hb hn =>
    obtain ⟨b, q, ch, ep, n, h1, h2, h3⟩ := begun_unsent hb hn
    have h4 := story_lost h1 h2
    refine ⟨{ b with conn := none, pc := .top }, h4.step (.api .run) (o := [.ret .err]) ?_, h2.2.1⟩
    cases q <;> simp [looksUp] at h3 <;> simp [Knx.step, apiStep, withConn, connLocked, finish]
  | tooLong c n cemi hb ht hu =>
    have hst : Starts m c := by cases hb; assumption
    obtain ⟨b, h1, h2⟩ := story_drew hst ht 0 ⟨1, ⟨⟨192, 168, 1, 2⟩, 3671⟩⟩ n
    have hp : (TunnelingRequest.mk 0 n cemi).packet m = .panic := (request_panic_iff m _).2 hu
    refine ⟨b, h1.step (.api .run) (o := [.ret .panic]) ?_, h2.2.1⟩
    generalize (0 : U8) = z at hp h2
    simp [Knx.step, apiStep, withConn, connLocked, finish, h2.1, h2.2.2.2, hp]
  | unsent c n cemi ch hb ht hu =>
    have hst : Starts m c := by cases hb; assumption
    obtain ⟨b, h1, h2⟩ := story_ready hst ht hu ch ⟨1, ⟨⟨192, 168, 1, 2⟩, 3671⟩⟩ n
    exact ⟨b, h1.step (.api .sendFail) (o := [.txFail .api (requestFor ch n cemi), .ret .err]) (by simp [Knx.step, apiStep, finish]), h2.2.1⟩
  | unsentStatus ch ep p hp =>
    cases hp
    obtain ⟨b, n, h1, h2⟩ := story_status (m := m) ch ep
    exact ⟨b, h1.step (.api .sendFail) (o := [.txFail .api (frame CONNECTIONSTATE_REQUEST ([ch, 0] ++ hpai ep)), .ret .err])
      (by simp [Knx.step, apiStep, finish]), h2.2.1⟩
  | unsentDisconnect ch ep p hp =>
    cases hp
    obtain ⟨b, n, h1, h2⟩ := story_disconnect (m := m) ch ep
    exact ⟨b, h1.step (.api .sendFail) (o := [.txFail .api (frame DISCONNECT_REQUEST ([ch, 0] ++ hpai ep)), .ret .panic])
      (by simp [Knx.step, apiStep, finish]), h2.2.1⟩
  | gaveUp c o p hb hp =>
    have read : ∀ {addr n o'}, c = .read addr → o = .drew n :: .tx .api p :: o' →
        ∃ b, Possible m (.call c :: o ++ ([] ++ [.ret .err])) ⟨b, .idle⟩ ∧ b.rxOpen = true := by
      intro addr n o' h1 h2
      obtain ⟨b, dl, ch, ep, n', h4, h5⟩ := story_reading hb h1 h2 left
      refine ⟨_, (story_killed h4 h5).step (.api .run) (o := [.ret .err]) (s' := ⟨{ b with pc := .crashed }, .idle⟩) ?_, h5.2.1⟩
      simp [Knx.step, apiStep, chanRecv, sendersGone, finish, h5.2.2.1]
    cases hb with
    | start c h => simp at hp
    | drew c n cemi h1 h2 => simp at hp
    | asked c n cemi ch h1 h2 h3 =>
      simp only [List.mem_cons, Obs.tx.injEq, true_and, reduceCtorEq, List.not_mem_nil, or_false, false_or] at hp
      subst hp
      cases c with
      | read addr => exact read rfl rfl
      | write addr v small =>
        obtain ⟨b, dl, ep, n', h4, h5⟩ := story_asked_write h1 h2 h3 ch n
        refine ⟨_, (story_killed h4 h5).step (.api .run) (o := [.ret .err]) (s' := ⟨{ b with pc := .crashed }, .idle⟩) ?_, h5.2.1⟩
        simp [Knx.step, apiStep, chanRecv, sendersGone, finish, h5.2.2.1]
      | _ => cases h2
    | passed addr n p' o w hb' hw =>
      obtain ⟨b, dl, ch, ep, n', h4, h5⟩ := story_reading (hb'.passed _ _ _ _ w hw) rfl rfl left
      refine ⟨_, (story_killed h4 h5).step (.api .run) (o := [.ret .err]) (s' := ⟨{ b with pc := .crashed }, .idle⟩) ?_, h5.2.1⟩
      simp [Knx.step, apiStep, chanRecv, sendersGone, finish, h5.2.2.1]
    | plain c ch ep p' hp' =>
      cases c with
      | status =>
        obtain ⟨b, n, h1, h2⟩ := story_status_sent (m := m) hp'
        exact ⟨b, h1.step (.api .recvErr) (o := [.ret .err]) (by simp [Knx.step, apiStep, finish]), h2.2.1⟩
      | disconnect =>
        obtain ⟨b, n, h4, h5⟩ := story_disconnect_sent (m := m) hp'
        refine ⟨_, (story_killed h4 h5).step (.api .run) (o := [.ret .err]) (s' := ⟨{ b with pc := .crashed }, .idle⟩) ?_, h5.2.1⟩
        simp [Knx.step, apiStep, chanRecv, sendersGone, finish, h5.2.2.1]
      | _ => cases hp'
  | value addr n p o w v hb hv =>
    obtain ⟨b, dl, ch, ep, n', h4, h5⟩ := story_reading hb rfl rfl left
    obtain ⟨d, hd⟩ := hs 0 w (by simp)
    obtain ⟨hc, i, h1, h2, h3⟩ := indication_iff.1 hv
    refine ⟨_, (story_arrives h4 h5 hd).step (.api .run) (o := [.taken 0 w, .ret (.value v)]) (s' := ⟨{ b with queue := [] }, .idle⟩) ?_, h5.2.1⟩
    have hne : w.msgCode ≠ codeLDataCon := by rw [hc]; decide
    simp only [Knx.step, apiStep, chanRecv, readMsg, finish, reduceCtorEq, if_false, hne]
    simp only [hc, if_true, h1, h2, h3, List.singleton_append]
  | short addr n p o w hb hc hl =>
    obtain ⟨b, dl, ch, ep, n', h4, h5⟩ := story_reading hb rfl rfl left
    obtain ⟨d, hd⟩ := hs 0 w (by simp)
    have he : LDataInd.fromCemi w = .err := by
      cases hx : LDataInd.fromCemi w with
      | ok i => exact absurd ((C14_lDataInd_total w).2.1.1 ⟨i, hx⟩) (by omega)
      | err => rfl
      | panic => exact absurd hx (C14_lDataInd_total w).1
    refine ⟨_, (story_arrives h4 h5 hd).step (.api .run) (o := [.taken 0 w, .ret .err]) (s' := ⟨{ b with queue := [] }, .idle⟩) ?_, h5.2.1⟩
    have hc' : w.msgCode = codeLDataInd := hc
    have hne : w.msgCode ≠ codeLDataCon := by rw [hc']; decide
    simp only [Knx.step, apiStep, chanRecv, readMsg, finish, reduceCtorEq, if_false, hne]
    simp only [hc', if_true, he, List.singleton_append]
  | written addr v small n p w hb =>
    obtain ⟨b, dl, ch, ep, n', h4, h5⟩ := begun_writing hb
    obtain ⟨d, hd⟩ := hs 0 w (by simp)
    refine ⟨_, (story_arrives h4 h5 hd).step (.api .run) (o := [.taken 0 w, .ret (if w.msgCode = L_DATA_CON then .unit else .err)])
      (s' := ⟨{ b with queue := [] }, .idle⟩) ?_, h5.2.1⟩
    by_cases hc : w.msgCode = codeLDataCon
    · rw [if_pos (show w.msgCode = L_DATA_CON from hc)]
      simp only [Knx.step, apiStep, chanRecv, writeMsg, finish, hc, reduceCtorEq, if_false, if_true]
      split
      · rename_i hx; exact absurd hx (C15_lDataCon w).1
      · rfl
    · rw [if_neg (show w.msgCode ≠ L_DATA_CON from hc)]
      simp [Knx.step, apiStep, chanRecv, writeMsg, finish, hc]
  | state p d r rest hb hd =>
    obtain ⟨b, ch, ep, n, h1, h2⟩ := begun_plain_status hb
    have hx := (ConnectionstateResponse.fromPacket_iff (c := r)).2 hd
    rw [← buffer_eq_seen] at hx
    have hx' := runRd_ok_iff (f := id) |>.2 ⟨_, _, hx, rfl⟩
    exact ⟨b, h1.step (.api (.dgram d)) (o := [.rxApi d, .ret (.state r)]) (by simp [Knx.step, apiStep, finish, hx']), h2.2.1⟩
  | noState p d hb hd =>
    obtain ⟨b, ch, ep, n, h1, h2⟩ := begun_plain_status hb
    have hx : runRd ConnectionstateResponse.fromPacket id (buffer d) = .err := by
      cases hx : runRd ConnectionstateResponse.fromPacket id (buffer d) with
      | ok r =>
        obtain ⟨a, rest, h3, h4⟩ := runRd_ok_iff.1 hx
        rw [buffer_eq_seen] at h3
        exact absurd (ConnectionstateResponse.fromPacket_iff.1 h3) (hd a rest)
      | err => rfl
      | panic => exact absurd (runRd_panic_iff.1 hx) ConnectionstateResponse.fromPacket_no_panic
    exact ⟨b, h1.step (.api (.dgram d)) (o := [.rxApi d, .ret .err]) (by simp [Knx.step, apiStep, finish, hx]), h2.2.1⟩
  | disconnected p w hb =>
    obtain ⟨b, ch, ep, n', h4, h5⟩ := begun_plain_disconnect hb
    obtain ⟨d, hd⟩ := hs 0 w (by simp)
    refine ⟨_, (story_arrives h4 h5 hd).step (.api .run) (o := [.taken 0 w, .ret .unit]) (s' := ⟨{ b with queue := [] }, .idle⟩) ?_, h5.2.1⟩
    simp [Knx.step, apiStep, chanRecv, finish]

/-- C126: conversely each of these stories happens, if the telegrams in it can be sent at all: there is an execution in which, after other
stories, the application is seen to live exactly this one. -/
theorem C126_every {m : Mode} {x : List Obs} (h : Story m x) (hs : Sendable m x) :
    ∃ s tr l, Exec m s tr ∧ s.api = .idle ∧ Stories m l ∧ lifeOf tr = l ++ x := by
  cases h with
  | atOnce addr v small hp =>
    obtain ⟨b, h, h1, h2, h3⟩ := tuned_any m 0 ⟨1, ⟨⟨192, 168, 1, 2⟩, 3671⟩⟩ 0
    have := (writeCemi_panic_iff m addr v small).2 hp
    obtain ⟨tr, l, k1, k2, k3⟩ := h.step (.api (.call (.write addr v small))) (o := [.call (.write addr v small), .ret .panic]) (s' := ⟨b, .idle⟩)
      (by simp [Knx.step, apiStep, apiCall, h2, this, startTunnel])
    exact ⟨_, tr, l, k1, rfl, k2, k3⟩
  | finished c o f r hc =>
    obtain ⟨b, ⟨tr, l, k1, k2, k3⟩, _⟩ := closes_possible hc (fun i w hi => hs i w (by
      simp only [List.mem_append, List.mem_cons] at hi ⊢
      rcases hi with hi | hi <;> simp [hi]))
    exact ⟨_, tr, l, k1, rfl, k2, by rw [k3, List.append_assoc]⟩
  | cancelled c o hb =>
    obtain ⟨b, q, ch, ep, n, h1, h2, h3⟩ := begun_possible hb (fun i w hi => hs i w (by simp [hi]))
    obtain ⟨tr, l, k1, k2, k3⟩ := h1.step (.api .cancel) (o := [.cancelled]) (s' := ⟨b, .idle⟩) (by simp [Knx.step, apiStep, h3])
    exact ⟨_, tr, l, k1, rfl, k2, k3⟩

/-! ## Exactly the stories -/

/-- No call in it. -/
def NoCalls (f : List Obs) : Prop := ∀ y ∈ f, ∀ c, y ≠ .call c

theorem begun_noCalls {m : Mode} {c : Call} {o : List Obs} (h : Begun m c o) : NoCalls o := by
  induction h with
  | passed addr n p o w _ _ ih =>
    intro y hy c
    rcases List.mem_append.1 hy with hy | hy
    · exact ih y hy c
    · simp only [List.mem_singleton] at hy; subst hy; simp
  | _ => simp [NoCalls]

theorem closes_noCalls {m : Mode} {c : Call} {o f : List Obs} {r : Ret} (h : Closes m c o f r) : NoCalls (o ++ f) := by
  have key : ∀ {c : Call} {o f : List Obs}, Begun m c o → NoCalls f → NoCalls (o ++ f) := by
    intro c o f hb hf y hy
    rcases List.mem_append.1 hy with hy | hy
    · exact begun_noCalls hb y hy
    · exact hf y hy
  cases h
  case unsentStatus => simp [NoCalls]
  case unsentDisconnect => simp [NoCalls]
  all_goals (rename_i hb; first | exact key hb (by simp [NoCalls]) | skip)
  all_goals first
    | exact key (by assumption) (by simp [NoCalls])

theorem story_shape {m : Mode} {x : List Obs} (h : Story m x) : ∃ c f, x = .call c :: f ∧ NoCalls f := by
  cases h with
  | atOnce addr v small => exact ⟨_, _, rfl, by simp [NoCalls]⟩
  | finished c o f r hc =>
    refine ⟨c, o ++ f ++ [.ret r], rfl, ?_⟩
    intro y hy
    rcases List.mem_append.1 hy with hy | hy
    · exact closes_noCalls hc y hy
    · simp only [List.mem_singleton] at hy; subst hy; simp
  | cancelled c o hb =>
    refine ⟨c, o ++ [.cancelled], rfl, ?_⟩
    intro y hy
    rcases List.mem_append.1 hy with hy | hy
    · exact begun_noCalls hb y hy
    · simp only [List.mem_singleton] at hy; subst hy; simp

theorem last_call {a b : List Obs} {c c' : Call} {f f' : List Obs} (h : a ++ .call c :: f = b ++ .call c' :: f') (hf : NoCalls f) (hf' : NoCalls f') :
    Obs.call c :: f = .call c' :: f' := by
  rcases List.append_eq_append_iff.1 h with ⟨t, h1, h2⟩ | ⟨t, h1, h2⟩
  · cases t with
    | nil => simpa using h2
    | cons y t =>
      simp only [List.cons_append, List.cons.injEq] at h2
      exact absurd rfl (hf (.call c') (by rw [h2.2]; simp) c')
  · cases t with
    | nil => simpa using h2.symm
    | cons y t =>
      simp only [List.cons_append, List.cons.injEq] at h2
      exact absurd rfl (hf' (.call c) (by rw [h2.2]; simp) c)

/-- C126: so a call, seen from its start to its end, is exactly a story: a sequence of observations that starts with a call and contains no other, and
whose telegrams can be sent, is seen after some stories in an execution at the end of which no call is in progress iff it is a story. -/
theorem C126_exact {m : Mode} {c : Call} {f : List Obs} (hf : NoCalls f) (hd : Obs.dropped ∉ f) (hs : Sendable m f) :
    Story m (.call c :: f) ↔ ∃ s tr l, Exec m s tr ∧ s.api = .idle ∧ Stories m l ∧ lifeOf tr = l ++ .call c :: f := by
  constructor
  · exact fun h => C126_every h (fun i w hi => hs i w (by simpa using hi))
  · rintro ⟨s, tr, l, h1, h2, h3, h4⟩
    have hk := kept_exec h1
    rw [h4] at hk
    generalize hx : l ++ .call c :: f = x at hk
    cases hk with
    | resting _ _ _ h =>
      cases h with
      | none => simp at hx
      | more l' y hl hy =>
        obtain ⟨c', f', rfl, hf'⟩ := story_shape hy
        rw [last_call hx hf hf']
        exact hy
    | calling l c o _ _ hdo => rw [h2] at hdo; exact hdo.elim
    | over l' =>
      exfalso
      have : (l ++ .call c :: f).getLast? = some .dropped := by rw [hx]; simp
      rw [List.getLast?_append_of_ne_nil _ (by simp)] at this
      have := List.mem_of_getLast? this
      simp at this
      exact hd this

/-- The read of 1/0/1 that draws the number 200, passes over a confirmation and returns the value of the indication that follows: a story, which happens. -/
example (m : Mode) : ∃ p f, f = [.drew 200, .tx .api p, .taken 0 ⟨0x2e, [], [0xbc, 0xe0, 0x11, 1, 8, 1, 1, 0, 0x81]⟩, .taken 0 tel7, .ret (.value [1])] ∧
    NoCalls f ∧ Obs.dropped ∉ f ∧ Sendable m f ∧ Story m (.call (.read (.group3 ⟨1, 0, 1⟩)) :: f) := by
  refine ⟨requestFor 7 200 (lDataReqFrame 3 (KnxAddress.group3 ⟨1, 0, 1⟩).toU16.toNat apduRead), _, rfl, by simp [NoCalls], by simp, ?_, ?_⟩
  · intro i w hw
    simp only [List.mem_cons, Obs.taken.injEq, reduceCtorEq, List.not_mem_nil, or_false, false_or] at hw
    rcases hw with ⟨_, rfl⟩ | ⟨_, rfl⟩
    · exact ⟨positive7, _, decodes_request 7 1 0 [0x2e, 0, 0xbc, 0xe0, 0x11, 1, 8, 1, 1, 0, 0x81] (by simp), by cases m <;> decide +kernel⟩
    · exact ⟨req7, carries7 m⟩
  · have h1 : Begun m (.read (.group3 ⟨1, 0, 1⟩)) _ :=
      .asked _ 200 (lDataReqFrame 3 (KnxAddress.group3 ⟨1, 0, 1⟩).toU16.toNat apduRead) 7 trivial rfl
        (by simp [Unframeable, lDataReqFrame, apduRead, word])
    have h2 := Begun.passed _ _ _ [] ⟨0x2e, [], [0xbc, 0xe0, 0x11, 1, 8, 1, 1, 0, 0x81]⟩ h1 (Or.inl (by decide))
    exact .finished _ _ _ _ (.value _ _ _ _ tel7 [1] h2 ⟨rfl, 0xbc, 0xe0, 0x11, 2, 8, 1, 1, 0, 0x81, [], rfl, by decide, by decide⟩)

end Knx
