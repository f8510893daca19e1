import Verif.Spec.MonitorStories
import Verif.Props.Stories
import Verif.Props.Monitor

/-!
# The life of a call of a monitor (C128)
-/

namespace Knx
open Spec

/-! ## The calls that use the transport -/

theorem mcemi_of_tunnel {m : Mode} {c : Call} {cemi : Bytes} (h : mtunnelCemi m c = some (.ok cemi)) :
    MStarts m c ∧ mtelegramOf? c = some cemi := by
  cases c <;> simp only [mtunnelCemi, Option.some.injEq, reduceCtorEq] at h
  · rename_i addr v small
    refine ⟨?_, ?_⟩
    · intro hp
      rw [(writeCemi_panic_iff m addr v small).2 hp] at h; cases h
    · have := writeCemi_ok h
      subst this
      cases small <;> rfl
  · rw [readCemi_eq] at h; cases h; exact ⟨trivial, rfl⟩

/-- Where the API is, in terms of what the call in progress has done. -/
def MDoing (m : Mode) (api : MApi) (c : Call) (o : List Obs) : Prop :=
  match api with
  | .idle => False
  | .seqNr cemi => o = [] ∧ mtunnelCemi m c = some (.ok cemi)
  | .chanId n cemi => o = [.drew n] ∧ mtunnelCemi m c = some (.ok cemi)
  | .sendReq p => ∃ n cemi ch, o = [.drew n] ∧ mtunnelCemi m c = some (.ok cemi) ∧ ¬ Unframeable m cemi ∧ p = requestFor ch n cemi
  | .dcChan | .dcEp _ => c = .disconnect ∧ o = []
  | .dcSend p => c = .disconnect ∧ o = [] ∧ ∃ ch ep, p = disconnectRequest ch ep
  | .dcRecv => c = .disconnect ∧ ∃ ch ep, o = [.tx .api (disconnectRequest ch ep)]
  | .isConn => c = .isConnected ∧ o = []
  | .subscribe id => c = .subscribe id ∧ o = []

theorem mdoing_begun {m : Mode} {api : MApi} {c : Call} {o : List Obs} (h : MDoing m api c o) : MBegun m c o := by
  cases api <;> simp only [MDoing] at h
  case seqNr cemi => obtain ⟨rfl, h⟩ := h; exact .start _ (mcemi_of_tunnel h).1
  case chanId n cemi => obtain ⟨rfl, h⟩ := h; exact .drew _ _ _ (mcemi_of_tunnel h).1 (mcemi_of_tunnel h).2
  case sendReq p => obtain ⟨n, cemi, ch, rfl, h, _⟩ := h; exact .drew _ _ _ (mcemi_of_tunnel h).1 (mcemi_of_tunnel h).2
  case dcRecv => obtain ⟨rfl, ch, ep, rfl⟩ := h; exact .asked ch ep
  all_goals
    first
    | (obtain ⟨rfl, rfl⟩ := h; exact .start _ trivial)
    | (obtain ⟨rfl, rfl, _⟩ := h; exact .start _ trivial)

/-- The API and what has been seen of the calls. -/
inductive MDiaryKept (m : Mode) (s : MSys) : List Obs → Prop
  | resting (l) : s.api = .idle → s.bg.rxOpen = true → MStories m l → MDiaryKept m s l
  | calling (l c o) : s.bg.rxOpen = true → MStories m l → MDoing m s.api c o → MDiaryKept m s (l ++ .call c :: o)
  | over (l) : s.api = .idle → s.bg.rxOpen = false → MStories m l → MDiaryKept m s (l ++ [.dropped])

theorem MDiaryKept.diary {m : Mode} {s : MSys} {l : List Obs} (h : MDiaryKept m s l) : MDiary m l := by
  cases h with
  | resting _ _ _ h => exact .resting _ h
  | calling l c o _ h1 h2 => exact .calling _ _ _ h1 (mdoing_begun h2)
  | over l _ _ h => exact .over _ h

theorem MDiaryKept.same {m : Mode} {s s' : MSys} {l : List Obs} (h : MDiaryKept m s l) (h1 : s'.api = s.api)
    (h2 : s'.bg.rxOpen = s.bg.rxOpen) : MDiaryKept m s' l := by
  cases h with
  | resting _ a b h => exact .resting _ (h1.trans a) (h2.trans b) h
  | calling l c o a h3 h4 => exact .calling _ _ _ (h2.trans a) h3 (h1 ▸ h4)
  | over l a b h => exact .over _ (h1.trans a) (h2.trans b) h

theorem mlifeOf_append (a b : List Obs) : mlifeOf (a ++ b) = mlifeOf a ++ mlifeOf b := List.filter_append ..

theorem mlifeOf_task {k : Kind} {m : Mode} {s s' : Bg} {e : BgEv} {o : List Obs} (h : bgStep k m s e = some (s', o)) : mlifeOf o = [] := by
  cases bgStep_tr h <;> first | rfl | simp [mlifeOf, isMLife]

theorem disconnect_code {d : Bytes} {r : DisconnectResponse} (h : runRd DisconnectResponse.fromPacket id (buffer d) = .ok r) :
    ∃ rest, seen d = frame DISCONNECT_RESPONSE [r.channel, r.status] ++ rest := by
  obtain ⟨x, rest, h3, h4⟩ := runRd_ok_iff.1 h
  cases h4
  exact ⟨rest, by rw [← buffer_eq_seen]; exact DisconnectResponse.fromPacket_iff.1 h3⟩

theorem disconnect_noCode {d : Bytes} : runRd DisconnectResponse.fromPacket id (buffer d) = .err ↔
    ∀ channel status rest, seen d ≠ frame DISCONNECT_RESPONSE [channel, status] ++ rest := by
  constructor
  · intro h channel status rest he
    rw [← buffer_eq_seen] at he
    rw [runRd_ok_iff.2 ⟨_, _, (DisconnectResponse.fromPacket_iff (c := ⟨channel, status⟩)).2 he, rfl⟩] at h
    cases h
  · intro h
    cases hx : runRd DisconnectResponse.fromPacket id (buffer d) with
    | ok r => obtain ⟨rest, hr⟩ := disconnect_code hx; exact absurd hr (h _ _ _)
    | err => rfl
    | panic => exact absurd (runRd_panic_iff.1 hx) DisconnectResponse.fromPacket_no_panic

theorem mkept_step {m : Mode} {s s' : MSys} {o l : List Obs} (h : MDiaryKept m s l) (ht : MApiTr m s s' o) :
    MDiaryKept m s' (l ++ mlifeOf o) := by
  have one : ∀ {l : List Obs} {c : Call} {a f : List Obs} {r : Ret} {b : Bg} {w : List Nat}, b.rxOpen = true → MStories m l →
      MCloses m c a f r → MDiaryKept m ⟨b, .idle, w⟩ (l ++ .call c :: a ++ (f ++ [.ret r])) := by
    intro l c a f r b w h2 h3 h4
    have := MDiaryKept.resting (m := m) (s := ⟨b, .idle, w⟩) (l ++ (.call c :: a ++ f ++ [.ret r])) rfl h2 (.more _ _ h3 (.finished _ _ _ _ h4))
    simpa using this
  have go : ∀ {l : List Obs} {c : Call} {a x : List Obs} {b : Bg} {q : MApi} {w : List Nat}, b.rxOpen = true → MStories m l →
      MDoing m q c (a ++ x) → MDiaryKept m ⟨b, q, w⟩ (l ++ .call c :: a ++ x) := by
    intro l c a x b q w h1 h2 h3
    have := MDiaryKept.calling (m := m) (s := ⟨b, q, w⟩) l c (a ++ x) h1 h2 h3
    simpa using this
  have idle : ∀ {l : List Obs}, MDiaryKept m s' l → mlifeOf o = [] → MDiaryKept m s' (l ++ mlifeOf o) := by
    intro l h1 h2; rw [h2, List.append_nil]; exact h1
  by_cases hq : mlifeOf o = [] ∧ s'.api = s.api ∧ s'.bg.rxOpen = s.bg.rxOpen
  · exact idle (h.same hq.2.1 hq.2.2) hq.1
  cases h with
  | resting _ hi hx hl =>
    cases ht
    case callTunnel c cemi h1 h2 h3 => exact .calling l c [] hx hl ⟨rfl, h3⟩
    case callErr c h1 h2 h3 =>
      exfalso
      cases c <;> simp only [mtunnelCemi, Option.some.injEq, reduceCtorEq] at h3
      · exact writeCemi_ne_err _ _ _ _ h3
      · rw [readCemi_eq] at h3; cases h3
    case callPanic c h1 h2 h3 =>
      cases c <;> simp only [mtunnelCemi, Option.some.injEq, reduceCtorEq] at h3
      · exact .resting _ hi hx (.more _ _ hl (.atOnce _ _ _ ((writeCemi_panic_iff _ _ _ _).1 h3)))
      · rw [readCemi_eq] at h3; cases h3
    case callDisc h1 h2 => exact .calling l _ [] hx hl ⟨rfl, rfl⟩
    case callConn h1 h2 => exact .calling l _ [] hx hl ⟨rfl, rfl⟩
    case callSub id h1 h2 => exact .calling l _ [] hx hl ⟨rfl, rfl⟩
    case drop h1 h2 h3 => exact .over l hi rfl hl
    all_goals (exfalso; simp_all [mlooksUp, mlifeOf, isMLife, setChan])
  | over l' hi hx hl =>
    cases ht
    all_goals (exfalso; simp_all [mlooksUp, mlifeOf, isMLife, setChan])
  | calling l' c a hx hl hd =>
    cases ht
    case noConn h1 h2 h3 =>
      have hb := mdoing_begun hd
      cases hapi : s.api <;> rw [hapi] at h1 hd <;> simp only [mlooksUp, Bool.false_eq_true] at h1 <;> simp only [MDoing] at hd
      case seqNr cemi => exact one hx hl (.unconnected c a _ hb (mcemi_of_tunnel hd.2).2)
      case chanId n cemi => exact one hx hl (.unconnected c a _ hb (mcemi_of_tunnel hd.2).2)
      case dcChan => obtain ⟨rfl, rfl⟩ := hd; exact one hx hl .unconnectedDisconnect
      case dcEp ch => obtain ⟨rfl, rfl⟩ := hd; exact one hx hl .unconnectedDisconnect
    case draw cemi d h1 h2 h3 =>
      rw [h1] at hd
      obtain ⟨rfl, hd⟩ := hd
      exact go (x := [.drew d.seq]) hx hl ⟨rfl, hd⟩
    case pick n cemi d p h1 h2 h3 h4 =>
      rw [h1] at hd
      obtain ⟨rfl, hd⟩ := hd
      obtain ⟨g1, g2⟩ := request_packet_iff.1 h4
      exact go (x := []) hx hl ⟨n, cemi, d.channel, rfl, hd, g1, g2⟩
    case pickPanic n cemi d h1 h2 h3 h4 =>
      rw [h1] at hd
      obtain ⟨rfl, hd⟩ := hd
      have hu : Unframeable m cemi := (request_panic_iff m _).1 h4
      exact one hx hl (.tooLong _ _ cemi (.drew _ _ _ (mcemi_of_tunnel hd).1 (mcemi_of_tunnel hd).2) (mcemi_of_tunnel hd).2 hu)
    case send p h1 =>
      rw [h1] at hd
      obtain ⟨n, cemi, ch, rfl, hd, g1, rfl⟩ := hd
      exact one hx hl (.sent _ _ cemi ch (.drew _ _ _ (mcemi_of_tunnel hd).1 (mcemi_of_tunnel hd).2) (mcemi_of_tunnel hd).2 g1)
    case sendFail p h1 =>
      rw [h1] at hd
      obtain ⟨n, cemi, ch, rfl, hd, g1, rfl⟩ := hd
      exact one hx hl (.unsent _ _ cemi ch (.drew _ _ _ (mcemi_of_tunnel hd).1 (mcemi_of_tunnel hd).2) (mcemi_of_tunnel hd).2 g1)
    case dcChan d h1 h2 h3 =>
      rw [h1] at hd
      obtain ⟨rfl, rfl⟩ := hd
      exact go (a := []) (x := []) hx hl ⟨rfl, rfl⟩
    case dcEp ch d h1 h2 h3 =>
      rw [h1] at hd
      obtain ⟨rfl, rfl⟩ := hd
      exact go (a := []) (x := []) hx hl ⟨rfl, rfl, ch, d.endpoint, by rw [C19_bodies.2.1]; rfl⟩
    case dcSend p h1 =>
      rw [h1] at hd
      obtain ⟨rfl, rfl, ch, ep, rfl⟩ := hd
      exact go (a := []) (x := [.tx .api (disconnectRequest ch ep)]) hx hl ⟨rfl, ch, ep, rfl⟩
    case dcSendFail p h1 =>
      rw [h1] at hd
      obtain ⟨rfl, rfl, ch, ep, rfl⟩ := hd
      exact one hx hl (.unsentDisconnect ch ep)
    case dcOk d r h1 h2 =>
      rw [h1] at hd
      obtain ⟨rfl, ch, ep, rfl⟩ := hd
      obtain ⟨rest, hr⟩ := disconnect_code h2
      exact one hx hl (.code _ d _ _ rest (.asked ch ep) hr)
    case dcBad d h1 h2 =>
      rw [h1] at hd
      obtain ⟨rfl, ch, ep, rfl⟩ := hd
      exact one hx hl (.noCode _ d (.asked ch ep) (disconnect_noCode.1 h2))
    case dcErr h1 =>
      rw [h1] at hd
      obtain ⟨rfl, ch, ep, rfl⟩ := hd
      exact one hx hl (.deaf _ (.asked ch ep))
    case isConn h1 h2 =>
      rw [h1] at hd
      obtain ⟨rfl, rfl⟩ := hd
      exact one hx hl (.connected _)
    case subscribe id h1 h2 h3 =>
      rw [h1] at hd
      obtain ⟨rfl, rfl⟩ := hd
      exact one (b := { s.bg with subs := s.bg.subs ++ [id] }) hx hl (.subscribed id)
    case cancel h1 =>
      have := MDiaryKept.resting (m := m) (s := { s with api := .idle }) (l' ++ (.call c :: a ++ [.cancelled])) rfl hx
        (.more _ _ hl (.cancelled _ _ (mdoing_begun hd)))
      rw [← List.append_assoc] at this
      exact this
    all_goals
      exfalso
      first
      | (have hi : s.api = .idle := by assumption
         rw [hi] at hd
         exact hd)
      | (simp [mlifeOf, isMLife, setChan] at hq)

theorem mkept_exec {m : Mode} {s : MSys} {tr : List Obs} (h : MExec m s tr) : MDiaryKept m s (mlifeOf tr) := by
  induction h with
  | init => exact .resting [] rfl rfl .none
  | @step s s' tr o e hx hs ih =>
    rw [mlifeOf_append]
    cases e with
    | bg e =>
      simp only [Knx.mstep, Option.map_eq_some_iff, Prod.exists, Prod.mk.injEq] at hs
      obtain ⟨b, o', hb, rfl, rfl⟩ := hs
      rw [mlifeOf_task hb, List.append_nil]
      exact ih.same rfl (bgStep_rxOpen hb)
    | delay d =>
      cases hs
      rw [show mlifeOf [] = [] from rfl, List.append_nil]
      exact ih.same rfl rfl
    | api e => exact mkept_step ih (mapiStep_tr hs)

/-- C128: whatever the server, the network, the task and the callers of `next_msg` do, the calls that use the transport of a monitor are seen one after
the other, each of them one of the listed stories. -/
theorem C128_calls {m : Mode} {s : MSys} {tr : List Obs} (h : MExec m s tr) : MDiary m (mlifeOf tr) := (mkept_exec h).diary

/-! ## The callers of `next_msg` -/

theorem reported_iff {c : Cemi} {i : LDataInd} : LDataInd.fromCemi c = .ok i ↔ Reported c i := by
  constructor
  · intro h
    have h9 := (C14_lDataInd_total c).2.1.1 ⟨i, h⟩
    match hs : c.serviceInfo with
    | [] | [_] | [_, _] | [_, _, _] | [_, _, _, _] | [_, _, _, _, _] | [_, _, _, _, _, _]
    | [_, _, _, _, _, _, _] | [_, _, _, _, _, _, _, _] => rw [hs] at h9; simp at h9
    | c1 :: c2 :: s1 :: s2 :: d1 :: d2 :: l :: a :: b :: rest =>
      obtain ⟨g1, ⟨g2, g3, g4, g5, g6, g7⟩, _, g8, _, g9⟩ := (C14_lDataInd_total c).2.2 c1 c2 s1 s2 d1 d2 l a b rest i (by simpa using hs) h
      refine ⟨c1, c2, s1, s2, d1, d2, l, a, b, rest, by simpa using hs, g1, g2, g3, g4, g5, g6, g7, ?_⟩
      split
      · exact g8 (by assumption)
      · exact g9 (by omega)
  · rintro ⟨c1, c2, s1, s2, d1, d2, l, a, b, rest, hs, g1, g2, g3, g4, g5, g6, g7, g8⟩
    obtain ⟨j, hj⟩ := (C14_lDataInd_total c).2.1.2 (by rw [hs]; simp)
    obtain ⟨k1, ⟨k2, k3, k4, k5, k6, k7⟩, _, k8, _, k9⟩ := (C14_lDataInd_total c).2.2 c1 c2 s1 s2 d1 d2 l a b rest j hs hj
    rw [hj]
    congr 1
    obtain ⟨jc, ⟨js, jd, jf, jr, jb, ja⟩, jv⟩ := j
    obtain ⟨ic, ⟨is, id, if', ir, ib, ia⟩, iv⟩ := i
    simp only at *
    have e1 : js = is := BitVec.eq_of_toNat_eq (k2.trans g2.symm)
    have e2 : jd = id := BitVec.eq_of_toNat_eq (k3.trans g3.symm)
    have e3 : jv = iv := by
      rw [g8]
      split
      · exact k8 (by assumption)
      · exact k9 (by omega)
    rw [k1, g1, e1, e2, e3, k4, k5, k6, k7, g4, g5, g6, g7]

/-- Caller `i` and what has been seen of it. -/
inductive NDiaryKept (i : Nat) (s : MSys) : List Obs → Prop
  | resting (l) : i ∉ s.waiting → s.bg.rxOpen = true → NStories i l → NDiaryKept i s l
  | calling (l o) : i ∈ s.waiting → s.bg.rxOpen = true → NStories i l → NBegun i o → NDiaryKept i s (l ++ .ncall i :: o)
  | over (l) : s.waiting = [] → s.bg.rxOpen = false → NStories i l → NDiaryKept i s (l ++ [.dropped])

theorem NDiaryKept.diary {i : Nat} {s : MSys} {l : List Obs} (h : NDiaryKept i s l) : NDiary i l := by
  cases h with
  | resting _ _ _ h => exact .resting _ h
  | calling l o _ _ h1 h2 => exact .calling _ _ h1 h2
  | over l _ _ h => exact .over _ h

theorem NDiaryKept.same {i : Nat} {s s' : MSys} {l : List Obs} (h : NDiaryKept i s l) (h1 : s'.waiting = s.waiting)
    (h2 : s'.bg.rxOpen = s.bg.rxOpen) : NDiaryKept i s' l := by
  cases h with
  | resting _ a b h => exact .resting _ (h1 ▸ a) (h2.trans b) h
  | calling l o a b h3 h4 => exact .calling _ _ (h1 ▸ a) (h2.trans b) h3 h4
  | over l a b h => exact .over _ (h1.trans a) (h2.trans b) h

/-- Another caller leaves. -/
theorem NDiaryKept.leave {i j : Nat} {s : MSys} {l : List Obs} (h : NDiaryKept i s l) (hj : j ≠ i) (s' : MSys)
    (h1 : s'.waiting = s.waiting.filter (· ≠ j)) (h2 : s'.bg.rxOpen = s.bg.rxOpen) : NDiaryKept i s' l := by
  cases h with
  | resting _ a b h => exact .resting _ (by rw [h1]; simp [a]) (h2.trans b) h
  | calling l o a b h3 h4 => exact .calling _ _ (by rw [h1]; simp [a, Ne.symm hj]) (h2.trans b) h3 h4
  | over l a b h => exact .over _ (by rw [h1, a]; rfl) (h2.trans b) h

theorem nlifeOf_append (i : Nat) (a b : List Obs) : nlifeOf i (a ++ b) = nlifeOf i a ++ nlifeOf i b := List.filter_append ..

theorem nlifeOf_task {i : Nat} {k : Kind} {m : Mode} {s s' : Bg} {e : BgEv} {o : List Obs} (h : bgStep k m s e = some (s', o)) :
    nlifeOf i o = [] := by
  cases bgStep_tr h <;> first | rfl | simp [nlifeOf, isNLife]

theorem shown_isIndication (w : Cemi) : shownCode w.msgCode ↔ isIndication w = true := by
  simp [shownCode, isIndication, codeLDataInd, codeLBusmonInd, L_DATA_IND, L_BUSMON_IND]

theorem nkept_step {i : Nat} {m : Mode} {s s' : MSys} {o l : List Obs} (h : NDiaryKept i s l) (ht : MApiTr m s s' o) :
    NDiaryKept i s' (l ++ nlifeOf i o) := by
  have idle : ∀ {l : List Obs}, NDiaryKept i s' l → nlifeOf i o = [] → NDiaryKept i s' (l ++ nlifeOf i o) := by
    intro l h1 h2; rw [h2, List.append_nil]; exact h1
  by_cases hq : nlifeOf i o = [] ∧ s'.waiting = s.waiting ∧ s'.bg.rxOpen = s.bg.rxOpen
  · exact idle (h.same hq.2.1 hq.2.2) hq.1
  -- a step of caller `i` itself, waiting
  have mine : i ∈ s.waiting → ∃ l' a, l = l' ++ .ncall i :: a ∧ s.bg.rxOpen = true ∧ NStories i l' ∧ NBegun i a := by
    intro hi
    cases h with
    | resting _ a => exact absurd hi a
    | calling l' o' a b h3 h4 => exact ⟨l', o', rfl, b, h3, h4⟩
    | over l' a => rw [a] at hi; cases hi
  have close : ∀ {f : List Obs}, i ∈ s.waiting → nlifeOf i o = f → (∀ a, NBegun i a → NStory i (.ncall i :: a ++ f)) →
      i ∉ s'.waiting → s'.bg.rxOpen = s.bg.rxOpen → NDiaryKept i s' (l ++ nlifeOf i o) := by
    intro f hi hf hs hw hr
    obtain ⟨l', a, rfl, h2, h3, h4⟩ := mine hi
    have := NDiaryKept.resting (s := s') (l' ++ (.ncall i :: a ++ f)) hw (hr.trans h2) (.more _ _ h3 (hs a h4))
    rw [hf]
    simpa using this
  cases ht
  case ncall j h1 h2 h3 =>
    by_cases hj : j = i
    · subst hj
      have hl : nlifeOf j [.ncall j] = [.ncall j] := by simp [nlifeOf, isNLife]
      rw [hl]
      cases h with
      | resting _ a b h => exact .calling _ [] (by simp) b h .start
      | calling l' o' a => exact absurd a h3
      | over l' a b => rw [h2] at b; cases b
    · refine idle ?_ (by simp [nlifeOf, isNLife, hj])
      cases h with
      | resting _ a b h => exact .resting _ (by simp [a, Ne.symm hj]) b h
      | calling l' o' a b h4 h5 => exact .calling _ _ (by simp [a]) b h4 h5
      | over l' a b => rw [h2] at b; cases b
  case drop h1 h2 h3 =>
    have hl : nlifeOf i [.dropped] = [.dropped] := by simp [nlifeOf, isNLife]
    rw [hl]
    cases h with
    | resting _ a b h => exact .over _ h3 rfl h
    | calling l' o' a => rw [h3] at a; cases a
    | over l' a b => rw [h2] at b; cases b
  case nskip j w rest h1 h2 h3 =>
    by_cases hj : j = i
    · subst hj
      have hl : nlifeOf j [.taken j w] = [.taken j w] := by simp [nlifeOf, isNLife]
      rw [hl]
      obtain ⟨l', a, rfl, g2, g3, g4⟩ := mine h1
      have hw : isIndication w = false := by
        cases hx : isIndication w with
        | false => rfl
        | true => exact absurd ((shown_isIndication w).2 hx) h3
      have := NDiaryKept.calling (s := { s with bg := { s.bg with queue := rest } }) l' (a ++ [.taken j w]) h1 g2 g3 (.passed _ w g4 hw)
      simpa using this
    · exact idle (h.same rfl rfl) (by simp [nlifeOf, isNLife, hj])
  case nind j w rest d h1 h2 h3 h4 =>
    by_cases hj : j = i
    · subst hj
      exact close h1 (by simp [nlifeOf, isNLife]) (fun a ha => .shown a w d ha ((shown_isIndication w).1 h3) (reported_iff.1 h4))
        (by simp) rfl
    · exact idle (h.leave hj _ rfl rfl) (by simp [nlifeOf, isNLife, hj])
  case nbad j w rest h1 h2 h3 h4 =>
    by_cases hj : j = i
    · subst hj
      exact close h1 (by simp [nlifeOf, isNLife]) (fun a ha => .short a w ha ((shown_isIndication w).1 h3) (ind_err h4)) (by simp) rfl
    · exact idle (h.leave hj _ rfl rfl) (by simp [nlifeOf, isNLife, hj])
  case nend j h1 h2 h3 =>
    by_cases hj : j = i
    · subst hj
      exact close h1 (by simp [nlifeOf, isNLife]) (fun a ha => .ended a ha) (by simp) rfl
    · exact idle (h.leave hj _ rfl rfl) (by simp [nlifeOf, isNLife, hj])
  case ncancel j h1 =>
    by_cases hj : j = i
    · subst hj
      exact close h1 (by simp [nlifeOf, isNLife]) (fun a ha => .cancelled a ha) (by simp) rfl
    · exact idle (h.leave hj _ rfl rfl) (by simp [nlifeOf, isNLife, hj])
  all_goals (exfalso; exact hq ⟨rfl, rfl, rfl⟩)

theorem nkept_exec {m : Mode} {s : MSys} {tr : List Obs} (h : MExec m s tr) (i : Nat) : NDiaryKept i s (nlifeOf i tr) := by
  induction h with
  | init => exact .resting [] (by simp [MSys.init]) rfl .none
  | @step s s' tr o e hx hs ih =>
    rw [nlifeOf_append]
    cases e with
    | bg e =>
      simp only [Knx.mstep, Option.map_eq_some_iff, Prod.exists, Prod.mk.injEq] at hs
      obtain ⟨b, o', hb, rfl, rfl⟩ := hs
      rw [nlifeOf_task hb, List.append_nil]
      exact ih.same rfl (bgStep_rxOpen hb)
    | delay d =>
      cases hs
      rw [show nlifeOf i [] = [] from rfl, List.append_nil]
      exact ih.same rfl rfl
    | api e => exact nkept_step ih (mapiStep_tr hs)

/-- C128: whatever the others do, what is seen of one caller of `next_msg` is its calls one after the other, each of them one of the listed stories. -/
theorem C128_caller {m : Mode} {s : MSys} {tr : List Obs} (h : MExec m s tr) (i : Nat) : NDiary i (nlifeOf i tr) := (nkept_exec h i).diary

/-! ## Every story happens -/

/-- After some stories the application can be seen to do `l`, and then the monitor is in state `s`. -/
def MPossible (m : Mode) (l : List Obs) (s : MSys) : Prop := ∃ tr l0, MExec m s tr ∧ MStories m l0 ∧ mlifeOf tr = l0 ++ l

theorem MPossible.step {m : Mode} {l o : List Obs} {s s' : MSys} (e : MEv) (h : MPossible m l s) (hs : mstep m s e = some (s', o)) :
    MPossible m (l ++ mlifeOf o) s' := by
  obtain ⟨tr, l0, h1, h2, h3⟩ := h
  exact ⟨tr ++ o, l0, h1.step e hs, h2, by rw [mlifeOf_append, h3, List.append_assoc]⟩

theorem MPossible.quiet {m : Mode} {l o : List Obs} {s s' : MSys} (e : MEv) (h : MPossible m l s) (hs : mstep m s e = some (s', o))
    (ho : mlifeOf o = []) : MPossible m l s' := by
  have := h.step e hs
  rwa [ho, List.append_nil] at this

theorem MPossible.forget {m : Mode} {l : List Obs} {s : MSys} (h : MPossible m l s) (hi : s.api = .idle) (hr : s.bg.rxOpen = true) :
    MPossible m [] s := by
  obtain ⟨tr, l0, h1, h2, h3⟩ := h
  have hk := mkept_exec h1
  refine ⟨tr, mlifeOf tr, h1, ?_, by simp⟩
  generalize mlifeOf tr = x at hk ⊢
  cases hk with
  | resting _ _ _ h => exact h
  | calling l c o _ _ hd => rw [hi] at hd; exact hd.elim
  | over l _ hr' _ => rw [hr] at hr'; cases hr'

theorem mtuned_any (m : Mode) (ch : U8) (ep : Hpai) (n : U8) : ∃ b, MPossible m [] ⟨b, .idle, []⟩ ∧ Tuned b ch ep n := by
  obtain ⟨k, hk⟩ : ∃ k : Nat, n = BitVec.ofNat 8 k + 1 := ⟨(n - 1).toNat, by
    rw [BitVec.ofNat_toNat, BitVec.setWidth_eq]; exact (BitVec.sub_add_cancel n 1).symm⟩
  subst hk
  induction k with
  | zero =>
    obtain ⟨d, r, h1, h2, h3⟩ := grants_any ch ep
    refine ⟨linkUp .monitor r, ⟨_, [], mexec_link m h1, .none, rfl⟩, rfl, rfl, rfl, ?_⟩
    simp [linkUp, Conn.ofResponse, h2, h3]
  | succ k ih =>
    obtain ⟨b, hp, h1, h2, h3, h4⟩ := ih
    have s1 := hp.step (.api (.call (.solicit (.group3 ⟨1, 0, 1⟩)))) (o := [.call (.solicit (.group3 ⟨1, 0, 1⟩))])
      (s' := ⟨b, .seqNr (lDataReqFrame 3 (KnxAddress.group3 ⟨1, 0, 1⟩).toU16.toNat apduRead), []⟩)
      (by simp [Knx.mstep, mapiStep, mcallStep, h2, mapiCall, mstartTunnel, readCemi_eq])
    have s2 := s1.step (.api .run) (o := [.drew (BitVec.ofNat 8 k + 1)])
      (s' := ⟨{ b with conn := some ⟨ch, ep, BitVec.ofNat 8 k + 1 + 1⟩ }, .chanId (BitVec.ofNat 8 k + 1)
        (lDataReqFrame 3 (KnxAddress.group3 ⟨1, 0, 1⟩).toU16.toNat apduRead), []⟩)
      (by simp [Knx.mstep, mapiStep, mcallStep, mwithConn, connLocked, h1, h4])
    have s3 := s2.step (.api .cancel) (o := [.cancelled])
      (s' := ⟨{ b with conn := some ⟨ch, ep, BitVec.ofNat 8 k + 1 + 1⟩ }, .idle, []⟩) (by simp [Knx.mstep, mapiStep])
    refine ⟨_, s3.forget rfl h2, h1, h2, h3, ?_⟩
    simp [BitVec.ofNat_add]

theorem mtunnel_of_starts {m : Mode} {c : Call} {cemi : Bytes} (h : MStarts m c) (ht : mtelegramOf? c = some cemi) :
    mtunnelCemi m c = some (.ok cemi) := by
  cases c with
  | solicit addr => simp only [mtelegramOf?, Option.some.injEq] at ht; subst ht; simp [mtunnelCemi, readCemi_eq]
  | write addr v small =>
    have : ∃ x, writeCemi m addr v small = .ok x := by
      cases hw : writeCemi m addr v small with
      | ok x => exact ⟨x, rfl⟩
      | err => exact absurd hw (writeCemi_ne_err _ _ _ _)
      | panic => exact absurd ((writeCemi_panic_iff _ _ _ _).1 hw) h
    obtain ⟨x, hx⟩ := this
    have := (mcemi_of_tunnel (m := m) (c := .write addr v small) (cemi := x) (by rw [mtunnelCemi, hx])).2
    rw [ht] at this
    cases this
    rw [mtunnelCemi, hx]
  | _ => cases ht

theorem mstory_called {m : Mode} {c : Call} {cemi : Bytes} (hs : MStarts m c) (ht : mtelegramOf? c = some cemi) (ch : U8) (ep : Hpai) (n : U8) :
    ∃ b, MPossible m [.call c] ⟨b, .seqNr cemi, []⟩ ∧ Tuned b ch ep n := by
  obtain ⟨b, hp, h1, h2, h3, h4⟩ := mtuned_any m ch ep n
  have htc := mtunnel_of_starts hs ht
  refine ⟨b, hp.step (.api (.call c)) (o := [.call c]) ?_, h1, h2, h3, h4⟩
  cases c <;> simp only [mtunnelCemi, reduceCtorEq, Option.some.injEq] at htc
  · simp [Knx.mstep, mapiStep, mcallStep, h2, mapiCall, htc, mstartTunnel]
  · simp [Knx.mstep, mapiStep, mcallStep, h2, mapiCall, htc, mstartTunnel]

theorem mstory_drew {m : Mode} {c : Call} {cemi : Bytes} (hs : MStarts m c) (ht : mtelegramOf? c = some cemi) (ch : U8) (ep : Hpai) (n : U8) :
    ∃ b, MPossible m [.call c, .drew n] ⟨b, .chanId n cemi, []⟩ ∧ Tuned b ch ep (n + 1) := by
  obtain ⟨b, hp, h1, h2, h3, h4⟩ := mstory_called hs ht ch ep n
  exact ⟨{ b with conn := some ⟨ch, ep, n + 1⟩ }, hp.step (.api .run) (o := [.drew n])
    (by simp [Knx.mstep, mapiStep, mcallStep, mwithConn, connLocked, h1, h4]), h1, h2, h3, rfl⟩

theorem mstory_ready {m : Mode} {c : Call} {cemi : Bytes} (hs : MStarts m c) (ht : mtelegramOf? c = some cemi) (hu : ¬ Unframeable m cemi) (ch : U8)
    (ep : Hpai) (n : U8) : ∃ b, MPossible m [.call c, .drew n] ⟨b, .sendReq (requestFor ch n cemi), []⟩ ∧ Tuned b ch ep (n + 1) := by
  obtain ⟨b, hp, h1, h2, h3, h4⟩ := mstory_drew hs ht ch ep n
  have hq := (request_packet_iff (m := m) (ch := ch) (n := n) (cemi := cemi)).2 ⟨hu, rfl⟩
  exact ⟨b, hp.quiet (.api .run) (o := []) (by simp [Knx.mstep, mapiStep, mcallStep, mwithConn, connLocked, h1, h4, hq]) rfl, h1, h2, h3, h4⟩

theorem mstory_plain {m : Mode} (c : Call) (q : MApi) (hq : ∀ b w, b.rxOpen = true → mcallStep m ⟨b, .idle, w⟩ (.call c) = some (⟨b, q, w⟩, [.call c])) :
    ∃ b, MPossible m [.call c] ⟨b, q, []⟩ ∧ Tuned b 7 ⟨1, ⟨⟨192, 168, 1, 2⟩, 3671⟩⟩ 0 := by
  obtain ⟨b, hp, h⟩ := mtuned_any m 7 ⟨1, ⟨⟨192, 168, 1, 2⟩, 3671⟩⟩ 0
  exact ⟨b, hp.step (.api (.call c)) (o := [.call c]) (by simp only [Knx.mstep, mapiStep, hq b [] h.2.1]), h⟩

theorem mstory_disconnect {m : Mode} (ch : U8) (ep : Hpai) : ∃ b n, MPossible m [.call .disconnect]
    ⟨b, .dcSend (disconnectRequest ch ep), []⟩ ∧ Tuned b ch ep n := by
  obtain ⟨b, hp, h1, h2, h3, h4⟩ := mtuned_any m ch ep 0
  have s1 := hp.step (.api (.call .disconnect)) (o := [.call .disconnect]) (s' := ⟨b, .dcChan, []⟩) (by simp [Knx.mstep, mapiStep, mcallStep, mapiCall, h2])
  have s2 := s1.quiet (.api .run) (o := []) (s' := ⟨b, .dcEp ch, []⟩) (by simp [Knx.mstep, mapiStep, mcallStep, mwithConn, connLocked, h1, h4]) rfl
  have s3 := s2.quiet (.api .run) (o := []) (s' := ⟨b, .dcSend (DisconnectRequest.mk ch ep).packet, []⟩)
    (by simp [Knx.mstep, mapiStep, mcallStep, mwithConn, connLocked, h1, h4]) rfl
  rw [C19_bodies.2.1] at s3
  exact ⟨b, 0, s3, h1, h2, h3, h4⟩

theorem mstory_asked {m : Mode} (ch : U8) (ep : Hpai) : ∃ b n, MPossible m [.call .disconnect, .tx .api (disconnectRequest ch ep)]
    ⟨b, .dcRecv, []⟩ ∧ Tuned b ch ep n := by
  obtain ⟨b, n, h1, h2⟩ := mstory_disconnect (m := m) ch ep
  exact ⟨b, n, h1.step (.api .sendOk) (o := [.tx .api (disconnectRequest ch ep)]) (by simp [Knx.mstep, mapiStep, mcallStep]), h2⟩

theorem mstory_lost {m : Mode} {l : List Obs} {b : Bg} {q : MApi} {ch n : U8} {ep : Hpai} (h : MPossible m l ⟨b, q, []⟩) (ht : Tuned b ch ep n) :
    MPossible m l ⟨{ b with conn := none, pc := .top }, q, []⟩ := by
  have e : parseResponse (buffer [1]) = .err := by rfl
  have e' : onDatagram [1] = .teardown := by rfl
  generalize ([1] : Bytes) = d at e e'
  have s1 := h.quiet (.bg (.dgram d)) (o := [.rx d]) (s' := ⟨{ b with pc := .teardown }, q, []⟩)
    (by simp [Knx.mstep, bgStep, ht.1, e', endObs]) rfl
  exact s1.quiet (.bg .run) (o := [.down]) (by simp [Knx.mstep, bgStep]) rfl

theorem mbegun_starts {m : Mode} {c : Call} {o : List Obs} (h : MBegun m c o) : MStarts m c := by cases h <;> first | assumption | trivial

theorem mbegun_possible {m : Mode} {c : Call} {o : List Obs} (h : MBegun m c o) :
    ∃ b q ch ep n, MPossible m (.call c :: o) ⟨b, q, []⟩ ∧ Tuned b ch ep n ∧ q ≠ .idle ∧ ((∃ cemi, mtelegramOf? c = some cemi) → mlooksUp q = true) := by
  cases h with
  | start c h =>
    have tele : ∀ {cemi}, mtelegramOf? c = some cemi → ∃ b q ch ep n, MPossible m [.call c] ⟨b, q, []⟩ ∧ Tuned b ch ep n ∧ q ≠ .idle ∧
        ((∃ cemi, mtelegramOf? c = some cemi) → mlooksUp q = true) := by
      intro cemi hc
      obtain ⟨b, h1, h2⟩ := mstory_called h hc 0 ⟨1, ⟨⟨192, 168, 1, 2⟩, 3671⟩⟩ 0
      exact ⟨b, _, _, _, _, h1, h2, by simp, fun _ => rfl⟩
    cases c with
    | solicit addr => exact tele rfl
    | write addr v small => cases small <;> exact tele rfl
    | disconnect =>
      obtain ⟨b, h1, h2⟩ := mstory_plain (m := m) .disconnect .dcChan (by intro b w hb; simp [mcallStep, mapiCall, hb])
      exact ⟨b, _, _, _, _, h1, h2, by simp, fun _ => rfl⟩
    | isConnected =>
      obtain ⟨b, h1, h2⟩ := mstory_plain (m := m) .isConnected .isConn (by intro b w hb; simp [mcallStep, mapiCall, hb])
      exact ⟨b, _, _, _, _, h1, h2, by simp, by rintro ⟨_, h⟩; cases h⟩
    | subscribe id =>
      obtain ⟨b, h1, h2⟩ := mstory_plain (m := m) (.subscribe id) (.subscribe id) (by intro b w hb; simp [mcallStep, mapiCall, hb])
      exact ⟨b, _, _, _, _, h1, h2, by simp, by rintro ⟨_, h⟩; cases h⟩
    | _ => exact h.elim
  | drew c n cemi h1 h2 =>
    obtain ⟨b, h3, h4⟩ := mstory_drew h1 h2 0 ⟨1, ⟨⟨192, 168, 1, 2⟩, 3671⟩⟩ n
    exact ⟨b, _, _, _, _, h3, h4, by simp, fun _ => rfl⟩
  | asked ch ep =>
    obtain ⟨b, n, h1, h2⟩ := mstory_asked (m := m) ch ep
    exact ⟨b, _, _, _, _, h1, h2, by simp, by rintro ⟨_, h⟩; cases h⟩

theorem mbegun_asked {m : Mode} {p : Bytes} (h : MBegun m .disconnect [.tx .api p]) :
    ∃ b, MPossible m [.call .disconnect, .tx .api p] ⟨b, .dcRecv, []⟩ := by
  cases h with
  | asked ch ep => obtain ⟨b, n, h1, _⟩ := mstory_asked (m := m) ch ep; exact ⟨b, h1⟩

theorem mcloses_possible {m : Mode} {c : Call} {o f : List Obs} {r : Ret} (h : MCloses m c o f r) :
    ∃ b, MPossible m (.call c :: o ++ (f ++ [.ret r])) ⟨b, .idle, []⟩ := by
  cases h with
  | unconnected c o cemi hb ht =>
    obtain ⟨b, q, ch, ep, n, h1, h2, _, h3⟩ := mbegun_possible hb
    have h3 := h3 ⟨_, ht⟩
    have h4 := mstory_lost h1 h2
    refine ⟨{ b with conn := none, pc := .top }, h4.step (.api .run) (o := [.ret .err]) ?_⟩
    cases q <;> simp [mlooksUp] at h3 <;> simp [Knx.mstep, mapiStep, mcallStep, mwithConn, connLocked, mfinish]
  | unconnectedDisconnect =>
    obtain ⟨b, h1, h2⟩ := mstory_plain (m := m) .disconnect .dcChan (by intro b w hb; simp [mcallStep, mapiCall, hb])
    have h4 := mstory_lost h1 h2
    exact ⟨{ b with conn := none, pc := .top }, h4.step (.api .run) (o := [.ret .err])
      (by simp [Knx.mstep, mapiStep, mcallStep, mwithConn, connLocked, mfinish])⟩
  | tooLong c n cemi hb ht hu =>
    obtain ⟨b, h1, h2⟩ := mstory_drew (mbegun_starts hb) ht 0 ⟨1, ⟨⟨192, 168, 1, 2⟩, 3671⟩⟩ n
    have hp : (TunnelingRequest.mk 0 n cemi).packet m = .panic := (request_panic_iff m _).2 hu
    refine ⟨b, h1.step (.api .run) (o := [.ret .panic]) ?_⟩
    generalize (0 : U8) = z at hp h2
    simp [Knx.mstep, mapiStep, mcallStep, mwithConn, connLocked, mfinish, h2.1, h2.2.2.2, hp]
  | sent c n cemi ch hb ht hu =>
    obtain ⟨b, h1, h2⟩ := mstory_ready (mbegun_starts hb) ht hu ch ⟨1, ⟨⟨192, 168, 1, 2⟩, 3671⟩⟩ n
    exact ⟨b, h1.step (.api .sendOk) (o := [.tx .api (requestFor ch n cemi), .ret .unit]) (by simp [Knx.mstep, mapiStep, mcallStep, mfinish])⟩
  | unsent c n cemi ch hb ht hu =>
    obtain ⟨b, h1, h2⟩ := mstory_ready (mbegun_starts hb) ht hu ch ⟨1, ⟨⟨192, 168, 1, 2⟩, 3671⟩⟩ n
    exact ⟨b, h1.step (.api .sendFail) (o := [.txFail .api (requestFor ch n cemi), .ret .err]) (by simp [Knx.mstep, mapiStep, mcallStep, mfinish])⟩
  | unsentDisconnect ch ep =>
    obtain ⟨b, n, h1, h2⟩ := mstory_disconnect (m := m) ch ep
    exact ⟨b, h1.step (.api .sendFail) (o := [.txFail .api (disconnectRequest ch ep), .ret .panic])
      (by simp [Knx.mstep, mapiStep, mcallStep, mfinish])⟩
  | code p d channel status rest hb hd =>
    obtain ⟨b, h1⟩ := mbegun_asked hb
    have hx := (DisconnectResponse.fromPacket_iff (c := ⟨channel, status⟩)).2 hd
    rw [← buffer_eq_seen] at hx
    have hx' := runRd_ok_iff (f := id) |>.2 ⟨_, _, hx, rfl⟩
    exact ⟨b, h1.step (.api (.dgram d)) (o := [.rxApi d, .ret (.code status)]) (by simp [Knx.mstep, mapiStep, mcallStep, mfinish, hx'])⟩
  | noCode p d hb hd =>
    obtain ⟨b, h1⟩ := mbegun_asked hb
    have hx := disconnect_noCode.2 hd
    exact ⟨b, h1.step (.api (.dgram d)) (o := [.rxApi d, .ret .err]) (by simp [Knx.mstep, mapiStep, mcallStep, mfinish, hx])⟩
  | deaf p hb =>
    obtain ⟨b, h1⟩ := mbegun_asked hb
    exact ⟨b, h1.step (.api .recvErr) (o := [.ret .panic]) (by simp [Knx.mstep, mapiStep, mcallStep, mfinish])⟩
  | connected v =>
    obtain ⟨b, h1, h2⟩ := mstory_plain (m := m) .isConnected .isConn (by intro b w hb; simp [mcallStep, mapiCall, hb])
    cases v with
    | true => exact ⟨b, h1.step (.api .run) (o := [.ret (.bool true)])
        (by simp [Knx.mstep, mapiStep, mcallStep, mfinish, connLocked, h2.1, h2.2.2.2])⟩
    | false => exact ⟨{ b with conn := none, pc := .top }, (mstory_lost h1 h2).step (.api .run) (o := [.ret (.bool false)])
        (by simp [Knx.mstep, mapiStep, mcallStep, mfinish, connLocked])⟩
  | subscribed id =>
    obtain ⟨b, h1, h2⟩ := mstory_plain (m := m) (.subscribe id) (.subscribe id) (by intro b w hb; simp [mcallStep, mapiCall, hb])
    have h3 : ∃ b', MPossible m [.call (.subscribe id)] ⟨b', .subscribe id, []⟩ ∧ b'.pc = .recv ∧ (b'.chans id).cap ≠ 0 := by
      by_cases hc : (b.chans id).cap = 0
      · exact ⟨_, h1.quiet (.api (.mkChan id 1)) (o := []) (s' := setChan ⟨b, .subscribe id, []⟩ id ⟨1, 0, true⟩)
          (by simp [Knx.mstep, mapiStep, hc]) rfl, h2.1, by simp⟩
      · exact ⟨b, h1, h2.1, hc⟩
    obtain ⟨b', k1, k2, k3⟩ := h3
    exact ⟨{ b' with subs := b'.subs ++ [id] }, k1.step (.api .run) (o := [.subscribed id, .ret .unit])
      (by simp [Knx.mstep, mapiStep, mcallStep, mfinish, connLocked, k2, k3])⟩

/-- C128: conversely each of these stories happens: there is an execution in which, after other stories, the application is seen to live exactly this one. -/
theorem C128_every_call {m : Mode} {x : List Obs} (h : MStory m x) :
    ∃ s tr l, MExec m s tr ∧ s.api = .idle ∧ MStories m l ∧ mlifeOf tr = l ++ x := by
  cases h with
  | atOnce addr v small hp =>
    obtain ⟨b, h, h1, h2, h3⟩ := mtuned_any m 0 ⟨1, ⟨⟨192, 168, 1, 2⟩, 3671⟩⟩ 0
    have := (writeCemi_panic_iff m addr v small).2 hp
    obtain ⟨tr, l, k1, k2, k3⟩ := h.step (.api (.call (.write addr v small))) (o := [.call (.write addr v small), .ret .panic]) (s' := ⟨b, .idle, []⟩)
      (by simp [Knx.mstep, mapiStep, mcallStep, mapiCall, h2, this, mstartTunnel])
    exact ⟨_, tr, l, k1, rfl, k2, k3⟩
  | finished c o f r hc =>
    obtain ⟨b, tr, l, k1, k2, k3⟩ := mcloses_possible hc
    exact ⟨_, tr, l, k1, rfl, k2, by rw [k3, List.append_assoc]⟩
  | cancelled c o hb =>
    obtain ⟨b, q, ch, ep, n, h1, h2, h3, _⟩ := mbegun_possible hb
    obtain ⟨tr, l, k1, k2, k3⟩ := h1.step (.api .cancel) (o := [.cancelled]) (s' := ⟨b, .idle, []⟩) (by simp [Knx.mstep, mapiStep, h3])
    exact ⟨_, tr, l, k1, rfl, k2, k3⟩

theorem mbegun_noCalls {m : Mode} {c : Call} {o : List Obs} (h : MBegun m c o) : NoCalls o := by cases h <;> simp [NoCalls]

theorem mstory_shape {m : Mode} {x : List Obs} (h : MStory m x) : ∃ c f, x = .call c :: f ∧ NoCalls f := by
  cases h with
  | atOnce addr v small => exact ⟨_, _, rfl, by simp [NoCalls]⟩
  | finished c o f r hc =>
    refine ⟨c, o ++ f ++ [.ret r], rfl, ?_⟩
    cases hc
    case unconnected hb =>
      intro y hy
      rcases List.mem_append.1 hy with hy | hy
      · exact mbegun_noCalls hb y (by simpa using hy)
      · simp only [List.mem_singleton] at hy; subst hy; simp
    all_goals simp [NoCalls]
  | cancelled c o hb =>
    refine ⟨c, o ++ [.cancelled], rfl, ?_⟩
    intro y hy
    rcases List.mem_append.1 hy with hy | hy
    · exact mbegun_noCalls hb y hy
    · simp only [List.mem_singleton] at hy; subst hy; simp

/-- C128: so such a call, seen from its start to its end, is exactly a story. -/
theorem C128_call_exact {m : Mode} {c : Call} {f : List Obs} (hf : NoCalls f) (hd : Obs.dropped ∉ f) :
    MStory m (.call c :: f) ↔ ∃ s tr l, MExec m s tr ∧ s.api = .idle ∧ MStories m l ∧ mlifeOf tr = l ++ .call c :: f := by
  constructor
  · exact fun h => C128_every_call h
  · rintro ⟨s, tr, l, h1, h2, h3, h4⟩
    have hk := mkept_exec h1
    rw [h4] at hk
    generalize hx : l ++ .call c :: f = x at hk
    cases hk with
    | resting _ _ _ h =>
      cases h with
      | none => simp at hx
      | more l' y hl hy =>
        obtain ⟨c', f', rfl, hf'⟩ := mstory_shape hy
        rw [last_call hx hf hf']
        exact hy
    | calling l c o _ _ hdo => rw [h2] at hdo; exact hdo.elim
    | over l' =>
      exfalso
      have : (l ++ .call c :: f).getLast? = some .dropped := by rw [hx]; simp
      rw [List.getLast?_append_of_ne_nil _ (by simp)] at this
      have := List.mem_of_getLast? this
      simp at this
      exact hd this

/-! ## Every story of a caller of `next_msg` happens -/

/-- Caller `i` can be seen to do `l`, and then the monitor is in state `s`. -/
def NPossible (m : Mode) (i : Nat) (l : List Obs) (s : MSys) : Prop := ∃ tr, MExec m s tr ∧ nlifeOf i tr = l

theorem NPossible.step {m : Mode} {i : Nat} {l o x : List Obs} {s s' : MSys} (e : MEv) (h : NPossible m i l s) (hs : mstep m s e = some (s', o))
    (ho : nlifeOf i o = x) : NPossible m i (l ++ x) s' := by
  obtain ⟨tr, h1, h2⟩ := h
  exact ⟨tr ++ o, h1.step e hs, by rw [nlifeOf_append, h2, ho]⟩

theorem NPossible.quiet {m : Mode} {i : Nat} {l o : List Obs} {s s' : MSys} (e : MEv) (h : NPossible m i l s) (hs : mstep m s e = some (s', o))
    (ho : nlifeOf i o = []) : NPossible m i l s' := by
  have := h.step e hs ho
  rwa [List.append_nil] at this

theorem nstory_arrives {m : Mode} {i : Nat} {l : List Obs} {b : Bg} {q : MApi} {ws : List Nat} {ch n : U8} {ep : Hpai} {d : Bytes} {w : Cemi}
    (h : NPossible m i l ⟨b, q, ws⟩) (ht : Tuned b ch ep n) (hd : Carries m d w) : NPossible m i l ⟨{ b with queue := [w] }, q, ws⟩ := by
  obtain ⟨h1, h2, h3, h4⟩ := ht
  obtain ⟨t, hd, hc⟩ := hd
  have e1 := onDatagram_request hd
  have s1 := h.quiet (.bg (.dgram d)) (o := [.rx d]) (s' := ⟨{ b with pc := .ackReq t.channel t.seq t.cemi }, q, ws⟩)
    (by simp [Knx.mstep, bgStep, h1, e1, endObs]) rfl
  have s2 := s1.quiet (.bg .sendOk) (o := [.tx .task (TunnelingAck.mk t.channel t.seq 0).packet]) (s' := ⟨{ b with pc := .push w }, q, ws⟩)
    (by simp [Knx.mstep, bgStep, hc]) rfl
  have s3 := s2.quiet (.bg .run) (o := [.queued w]) (s' := ⟨{ b with pc := .recv, queue := [w] }, q, ws⟩)
    (by simp [Knx.mstep, bgStep, h2, h3]) rfl
  rw [← h1] at s3
  exact s3

theorem nextMsg_passed {s : MSys} {i : Nat} {w : Cemi} (h : isIndication w = false) : nextMsg s i w = some (s, [.taken i w]) := by
  have h1 : w.msgCode ≠ codeLDataInd := by intro h1; have := (shown_isIndication w).1 (Or.inl h1); rw [h] at this; cases this
  have h2 : w.msgCode ≠ codeLBusmonInd := by intro h1; have := (shown_isIndication w).1 (Or.inr h1); rw [h] at this; cases this
  unfold nextMsg
  rw [if_neg h1, if_neg h2]
  split
  · split
    · rename_i hp; exact absurd hp (C15_lDataCon w).1
    · rfl
  · rfl

theorem nextMsg_shown {s : MSys} {i : Nat} {w : Cemi} (h : isIndication w = true) :
    nextMsg s i w = nfinish s i [.taken i w] (match LDataInd.fromCemi w with | .ok d => .ind d | .err => .err | .panic => .panic) := by
  have hne : w.msgCode ≠ codeLDataCon := by
    rcases (shown_isIndication w).2 h with h | h <;> rw [h] <;> decide
  unfold nextMsg
  rw [if_neg hne]
  by_cases h1 : w.msgCode = codeLDataInd
  · rw [if_pos h1]; cases LDataInd.fromCemi w <;> rfl
  · have h2 : w.msgCode = codeLBusmonInd := ((shown_isIndication w).2 h).resolve_left h1
    rw [if_neg h1, if_pos h2]; cases LDataInd.fromCemi w <;> rfl

theorem nbegun_possible {m : Mode} {i : Nat} {o : List Obs} (h : NBegun i o) (hs : Sendable m o) :
    ∃ b, NPossible m i (.ncall i :: o) ⟨b, .idle, [i]⟩ ∧ Tuned b 7 ⟨1, ⟨⟨192, 168, 1, 2⟩, 3671⟩⟩ 1 := by
  induction h with
  | start =>
    have h0 : NPossible m i [] ⟨linkUp .monitor conn7, .idle, []⟩ := ⟨_, mexec_link m grants7, rfl⟩
    exact ⟨_, h0.step (.api (.ncall i)) (o := [.ncall i]) (s' := ⟨linkUp .monitor conn7, .idle, [i]⟩) (x := [.ncall i])
      (by simp [Knx.mstep, mapiStep, mcallStep, linkUp, Bg.init]) (by simp [nlifeOf, isNLife]), rfl, rfl, rfl, rfl⟩
  | passed o w hb hw ih =>
    obtain ⟨b, h1, h2⟩ := ih (fun j w hi => hs j w (List.mem_append_left _ hi))
    obtain ⟨d, hd⟩ := hs i w (by simp)
    have hq := h2.2.2.1
    have := (nstory_arrives h1 h2 hd).step (.api (.nrun i)) (o := [.taken i w]) (s' := ⟨{ b with queue := [] }, .idle, [i]⟩) (x := [.taken i w])
      (by simp [Knx.mstep, mapiStep, nextMsg_passed hw]) (by simp [nlifeOf, isNLife])
    rw [← hq] at this
    exact ⟨b, this, h2⟩

/-- C128: conversely each story of a caller of `next_msg` happens, if the telegrams in it can be sent at all. -/
theorem C128_every_caller {m : Mode} {i : Nat} {x : List Obs} (h : NStory i x) (hs : Sendable m x) :
    ∃ s tr, MExec m s tr ∧ i ∉ s.waiting ∧ nlifeOf i tr = x := by
  have fin : ∀ {o f y : List Obs} {b : Bg} {q : MApi} {e : MEv}, NPossible m i (.ncall i :: o) ⟨b, q, [i]⟩ → ∀ b', mstep m ⟨b, q, [i]⟩ e =
      some (⟨b', q, []⟩, y) → nlifeOf i y = f → ∃ s tr, MExec m s tr ∧ i ∉ s.waiting ∧ nlifeOf i tr = .ncall i :: o ++ f := by
    intro o f y b q e h1 b' h2 h3
    obtain ⟨tr, k1, k2⟩ := h1.step e h2 h3
    exact ⟨_, tr, k1, by simp, k2⟩
  cases h with
  | shown o w d hb hw hr =>
    obtain ⟨b, h1, h2⟩ := nbegun_possible hb (fun j w hi => hs j w (by simp [hi]))
    obtain ⟨dg, hd⟩ := hs i w (by simp)
    exact fin (e := .api (.nrun i)) (y := [.taken i w, .nret i (.ind d)]) (nstory_arrives h1 h2 hd) { b with queue := [] }
      (by simp [Knx.mstep, mapiStep, nextMsg_shown hw, reported_iff.2 hr, nfinish]) (by simp [nlifeOf, isNLife])
  | short o w hb hw hl =>
    obtain ⟨b, h1, h2⟩ := nbegun_possible hb (fun j w hi => hs j w (by simp [hi]))
    obtain ⟨dg, hd⟩ := hs i w (by simp)
    have he : LDataInd.fromCemi w = .err := by
      cases hx : LDataInd.fromCemi w with
      | ok i => exact absurd ((C14_lDataInd_total w).2.1.1 ⟨i, hx⟩) (by omega)
      | err => rfl
      | panic => exact absurd hx (C14_lDataInd_total w).1
    exact fin (e := .api (.nrun i)) (y := [.taken i w, .nret i .err]) (nstory_arrives h1 h2 hd) { b with queue := [] }
      (by simp [Knx.mstep, mapiStep, nextMsg_shown hw, he, nfinish]) (by simp [nlifeOf, isNLife])
  | ended o hb =>
    obtain ⟨b, h1, h2⟩ := nbegun_possible hb (fun j w hi => hs j w (by simp [hi]))
    have e : parseResponse (buffer killer) = .panic := by rfl
    have e' : onDatagram killer = .crashed := by simp [onDatagram, e, show killer.length = 10 from rfl]
    have h3 := h1.quiet (.bg (.dgram killer)) (o := [.rx killer, .crash]) (s' := ⟨{ b with pc := .crashed }, .idle, [i]⟩)
      (by simp [Knx.mstep, bgStep, h2.1, e', endObs]) rfl
    exact fin (e := .api (.nrun i)) (y := [.nret i .err]) h3 { b with pc := .crashed }
      (by simp [Knx.mstep, mapiStep, sendersGone, nfinish, h2.2.2.1]) (by simp [nlifeOf, isNLife])
  | cancelled o hb =>
    obtain ⟨b, h1, h2⟩ := nbegun_possible hb (fun j w hi => hs j w (by simp [hi]))
    exact fin (e := .api (.ncancel i)) (y := [.ncancelled i]) h1 b (by simp [Knx.mstep, mapiStep]) (by simp [nlifeOf, isNLife])

theorem nbegun_noCall {i : Nat} {o : List Obs} (h : NBegun i o) : ∀ y ∈ o, y ≠ .ncall i := by
  induction h with
  | start => simp
  | passed o w _ _ ih =>
    intro y hy
    rcases List.mem_append.1 hy with hy | hy
    · exact ih y hy
    · simp only [List.mem_singleton] at hy; subst hy; simp

theorem nstory_shape {i : Nat} {x : List Obs} (h : NStory i x) : ∃ f, x = .ncall i :: f ∧ ∀ y ∈ f, y ≠ .ncall i := by
  cases h with
  | shown o w d hb _ _ =>
    refine ⟨o ++ [.taken i w, .nret i (.ind d)], rfl, fun y hy => ?_⟩
    rcases List.mem_append.1 hy with hy | hy
    · exact nbegun_noCall hb y hy
    · simp at hy; rcases hy with rfl | rfl <;> simp
  | short o w hb _ _ =>
    refine ⟨o ++ [.taken i w, .nret i .err], rfl, fun y hy => ?_⟩
    rcases List.mem_append.1 hy with hy | hy
    · exact nbegun_noCall hb y hy
    · simp at hy; rcases hy with rfl | rfl <;> simp
  | ended o hb =>
    refine ⟨o ++ [.nret i .err], rfl, fun y hy => ?_⟩
    rcases List.mem_append.1 hy with hy | hy
    · exact nbegun_noCall hb y hy
    · simp at hy; subst hy; simp
  | cancelled o hb =>
    refine ⟨o ++ [.ncancelled i], rfl, fun y hy => ?_⟩
    rcases List.mem_append.1 hy with hy | hy
    · exact nbegun_noCall hb y hy
    · simp at hy; subst hy; simp

/-- C128: so a call of `next_msg`, seen from its start to its end, is exactly a story. -/
theorem C128_caller_exact {m : Mode} {i : Nat} {f : List Obs} (hf : Obs.ncall i ∉ f) (hd : Obs.dropped ∉ f) (hs : Sendable m f) :
    NStory i (.ncall i :: f) ↔ ∃ s tr l, MExec m s tr ∧ i ∉ s.waiting ∧ NStories i l ∧ nlifeOf i tr = l ++ .ncall i :: f := by
  constructor
  · intro h
    obtain ⟨s, tr, h1, h2, h3⟩ := C128_every_caller (m := m) h (fun j w hi => hs j w (by simpa using hi))
    exact ⟨s, tr, [], h1, h2, .none, h3⟩
  · rintro ⟨s, tr, l, h1, h2, h3, h4⟩
    have hk := nkept_exec h1 i
    rw [h4] at hk
    generalize hx : l ++ .ncall i :: f = x at hk
    cases hk with
    | resting _ _ _ h =>
      cases h with
      | none => simp at hx
      | more l' y hl hy =>
        obtain ⟨f', rfl, hf'⟩ := nstory_shape hy
        have : Obs.ncall i :: f = .ncall i :: f' := by
          rcases List.append_eq_append_iff.1 hx with ⟨t, g1, g2⟩ | ⟨t, g1, g2⟩
          · cases t with
            | nil => simpa using g2
            | cons y t =>
              simp only [List.cons_append, List.cons.injEq] at g2
              exact absurd (by rw [g2.2]; simp) hf
          · cases t with
            | nil => simpa using g2.symm
            | cons y t =>
              simp only [List.cons_append, List.cons.injEq] at g2
              exact absurd rfl (hf' (.ncall i) (by rw [g2.2]; simp))
        rw [this]
        exact hy
    | calling l o hw => exact absurd hw h2
    | over l' =>
      exfalso
      have : (l ++ .ncall i :: f).getLast? = some .dropped := by rw [hx]; simp
      rw [List.getLast?_append_of_ne_nil _ (by simp)] at this
      have := List.mem_of_getLast? this
      simp at this
      exact hd this

/-- Stories that happen: a solicited read of 1/0/1 with the number 200; and a caller that passes over a confirmation and returns the indication that follows. -/
example (m : Mode) : (∃ p, MStory m [.call (.solicit (.group3 ⟨1, 0, 1⟩)), .drew 200, .tx .api p, .ret .unit]) ∧
    (∃ f d, f = [.taken 3 ⟨0x2e, [], [0xbc, 0xe0, 0x11, 1, 8, 1, 1, 0, 0x81]⟩, .taken 3 tel7, .nret 3 (.ind d)] ∧ d.value = [1] ∧
      Obs.ncall 3 ∉ f ∧ Obs.dropped ∉ f ∧ Sendable m f ∧ NStory 3 (.ncall 3 :: f)) := by
  constructor
  · exact ⟨_, .finished _ [.drew 200] [_] _ (.sent _ 200 (lDataReqFrame 3 (KnxAddress.group3 ⟨1, 0, 1⟩).toU16.toNat apduRead) 7
      (.drew _ _ _ trivial rfl) rfl (by simp [Unframeable, lDataReqFrame, apduRead, word]))⟩
  · obtain ⟨d, hd⟩ := (C14_lDataInd_total tel7).2.1.2 (by decide)
    have hv : d.value = [1] := by
      have : LDataInd.fromCemi tel7 = .ok ⟨tel7, ⟨0x1102, 0x0801, true, true, true, false⟩, [1]⟩ := by decide +kernel
      rw [this] at hd
      cases hd
      rfl
    refine ⟨_, d, rfl, hv, by simp, by simp, ?_, ?_⟩
    · intro i w hw
      simp only [List.mem_cons, Obs.taken.injEq, reduceCtorEq, List.not_mem_nil, or_false] at hw
      rcases hw with ⟨_, rfl⟩ | ⟨_, rfl⟩
      · exact ⟨positive7, _, decodes_request 7 1 0 [0x2e, 0, 0xbc, 0xe0, 0x11, 1, 8, 1, 1, 0, 0x81] (by simp), by cases m <;> decide +kernel⟩
      · exact ⟨req7, carries7 m⟩
    · exact .shown [.taken 3 ⟨0x2e, [], [0xbc, 0xe0, 0x11, 1, 8, 1, 1, 0, 0x81]⟩] tel7 d (.passed [] _ .start (by decide)) (by decide) (reported_iff.1 hd)

end Knx
