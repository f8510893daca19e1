import Verif.Lemmas.Monitor
import Verif.Spec.Monitor

/-!
# Invariants of the monitor
-/

namespace Knx
open Spec

/-- Observations that do not concern the call holding the transport. -/
structure CallFacts (o : List Obs) : Prop where
  noCall : o.any isCall = false
  noDrew : o.any isDrew = false
  drawn : drawn o = []
  sent : apiSent o = []
  received : apiReceived o = []

theorem TaskFacts.call {o : List Obs} (f : TaskFacts o) : CallFacts o := ⟨f.noCall, f.noDrew, f.drawn, f.sent, f.received⟩

theorem CallFacts.nil : CallFacts [] := ⟨rfl, rfl, rfl, rfl, rfl⟩

/-- What is known about the call holding the transport. -/
def MCallInv (m : Mode) (api : MApi) (tr : List Obs) : Prop :=
  match api with
  | .idle => True
  | .seqNr cemi => ∃ c, lastCall tr = some c ∧ mtunnelCemi m c = some (.ok cemi) ∧
      apiSent (since isCall tr) = [] ∧ drawn (since isCall tr) = []
  | .chanId n cemi => ∃ c, lastCall tr = some c ∧ mtunnelCemi m c = some (.ok cemi) ∧
      apiSent (since isCall tr) = [] ∧ drawn (since isCall tr) = [n]
  | .sendReq p => ∃ c, lastCall tr = some c ∧ apiSent (since isCall tr) = [] ∧
      ∃ n ch cemi, mtunnelCemi m c = some (.ok cemi) ∧ drawn (since isCall tr) = [n] ∧
        (TunnelingRequest.mk ch n cemi).packet m = .ok p
  | .dcChan => lastCall tr = some .disconnect ∧ apiSent (since isCall tr) = [] ∧ apiReceived (since isCall tr) = []
  | .dcEp _ => lastCall tr = some .disconnect ∧ apiSent (since isCall tr) = [] ∧ apiReceived (since isCall tr) = []
  | .dcSend p => lastCall tr = some .disconnect ∧ apiSent (since isCall tr) = [] ∧ apiReceived (since isCall tr) = [] ∧
      ∃ ch ep, p = (DisconnectRequest.mk ch ep).packet
  | .dcRecv => lastCall tr = some .disconnect ∧ apiReceived (since isCall tr) = [] ∧
      ∃ ch ep, apiSent (since isCall tr) = [(DisconnectRequest.mk ch ep).packet]
  | .isConn => lastCall tr = some .isConnected ∧ apiSent (since isCall tr) = []
  | .subscribe id => lastCall tr = some (.subscribe id) ∧ apiSent (since isCall tr) = []

theorem MCallInv.other {m : Mode} {api : MApi} {tr o : List Obs} (h : MCallInv m api tr) (f : CallFacts o) :
    MCallInv m api (tr ++ o) := by
  have e2 : apiSent (since isCall (tr ++ o)) = apiSent (since isCall tr) := by
    rw [since_task _ f.noCall, apiSent_append, f.sent, List.append_nil]
  have e3 : drawn (since isCall (tr ++ o)) = drawn (since isCall tr) := by
    rw [since_task _ f.noCall, drawn_append, f.drawn, List.append_nil]
  have e4 := lastCall_same tr o f.noCall
  have e5 : apiReceived (since isCall (tr ++ o)) = apiReceived (since isCall tr) := by
    rw [since_task _ f.noCall, apiReceived_append, f.received, List.append_nil]
  cases api <;> simp only [MCallInv, e2, e3, e4, e5] at h ⊢ <;> exact h

theorem MExec.callInv {m : Mode} {s : MSys} {tr : List Obs} (h : MExec m s tr) : MCallInv m s.api tr := by
  induction h with
  | init => trivial
  | @step s s' tr o e hx hs ih =>
    cases e with
    | bg e =>
      simp only [Knx.mstep, Option.map_eq_some_iff, Prod.exists, Prod.mk.injEq] at hs
      obtain ⟨b, o', hb, rfl, rfl⟩ := hs
      exact ih.other (bgStep_tr hb).facts.call
    | delay d => cases hs; exact ih.other .nil
    | api e =>
      have := mapiStep_tr hs
      cases this
      case callTunnel c cemi h1 h2 h3 =>
        refine ⟨c, lastCall_call _ _, h3, ?_⟩
        rw [since_call _ _ [] rfl]; exact ⟨rfl, rfl⟩
      case callErr h1 _ _ => rw [h1]; trivial
      case callPanic h1 _ _ => rw [h1]; trivial
      case callDisc =>
        refine ⟨lastCall_call _ _, ?_⟩
        rw [since_call _ _ [] rfl]; exact ⟨rfl, rfl⟩
      case callConn =>
        refine ⟨lastCall_call _ _, ?_⟩
        rw [since_call _ _ [] rfl]; rfl
      case callSub =>
        refine ⟨lastCall_call _ _, ?_⟩
        rw [since_call _ _ [] rfl]; rfl
      case draw cemi d h1 h2 h3 =>
        rw [h1] at ih
        obtain ⟨c, i1, i2, i4, i5⟩ := ih
        refine ⟨c, (lastCall_same _ _ rfl).trans i1, i2, ?_⟩
        rw [since_task _ rfl, apiSent_append, drawn_append, i4, i5]
        exact ⟨rfl, rfl⟩
      case pick n cemi d p h1 h2 h3 h4 =>
        rw [h1] at ih
        obtain ⟨c, i1, i2, i4, i5⟩ := ih
        rw [List.append_nil]
        exact ⟨c, i1, i4, n, d.channel, cemi, i2, i5, h4⟩
      case dcChan d h1 h2 h3 =>
        rw [h1] at ih
        rw [List.append_nil]
        exact ih
      case dcEp ch d h1 h2 h3 =>
        rw [h1] at ih
        rw [List.append_nil]
        exact ⟨ih.1, ih.2.1, ih.2.2, _, _, rfl⟩
      case dcSend p h1 =>
        rw [h1] at ih
        obtain ⟨i1, i2, i3, ch, ep, rfl⟩ := ih
        refine ⟨(lastCall_same _ _ rfl).trans i1, ?_⟩
        rw [since_task _ rfl, apiReceived_append, apiSent_append, i2, i3]
        exact ⟨rfl, ch, ep, rfl⟩
      case ncall => exact ih.other ⟨rfl, rfl, rfl, rfl, rfl⟩
      case drop => exact ih.other ⟨rfl, rfl, rfl, rfl, rfl⟩
      case nskip => exact ih.other ⟨rfl, rfl, rfl, rfl, rfl⟩
      case nind => exact ih.other ⟨rfl, rfl, rfl, rfl, rfl⟩
      case nbad => exact ih.other ⟨rfl, rfl, rfl, rfl, rfl⟩
      case nend => exact ih.other ⟨rfl, rfl, rfl, rfl, rfl⟩
      case ncancel => exact ih.other ⟨rfl, rfl, rfl, rfl, rfl⟩
      case mkChan => exact ih.other .nil
      case drain => exact ih.other .nil
      case fill => exact ih.other .nil
      case closeChan => exact ih.other .nil
      all_goals trivial

/-- The request a call of the monitor has in preparation. -/
def MRequestInv (api : MApi) (tr : List Obs) : Prop :=
  match api with
  | .chanId n _ => (drawn tr).getLast? = some n ∧ Numbered (some n) tr
  | .sendReq p => PairedUpTo tr p ∧ ∃ n ch cemi, RequestPacket ch n cemi p ∧ Numbered (some n) tr
  | _ => Numbered none tr

theorem MRequestInv.numbered {api : MApi} {tr : List Obs} (h : MRequestInv api tr) : Numbered none tr := by
  cases api
  case chanId => exact h.2.drop
  case sendReq => obtain ⟨_, n, _, _, _, hn⟩ := h; exact hn.drop
  all_goals exact h

theorem MRequestInv.other {api : MApi} {tr o : List Obs} (h : MRequestInv api tr) (f : CallFacts o) :
    MRequestInv api (tr ++ o) := by
  have hm : ∀ {x}, Numbered x tr → Numbered x (tr ++ o) := fun hx => hx.mono f.drawn (requestsSent_nil f.sent)
  cases api
  case chanId => exact ⟨by rw [drawn_append, f.drawn, List.append_nil]; exact h.1, hm h.2⟩
  case sendReq =>
    obtain ⟨h1, n, ch, cemi, h2, h3⟩ := h
    exact ⟨PairedUpTo.mono h1 f.noDrew f.drawn, n, ch, cemi, h2, hm h3⟩
  all_goals exact hm h

theorem MExec.requestInv {m : Mode} {s : MSys} {tr : List Obs} (h : MExec m s tr) : MRequestInv s.api tr := by
  induction h with
  | init => exact ⟨[], [], rfl, .slnil, .nil⟩
  | @step s s' tr o e hx hs ih =>
    cases e with
    | bg e =>
      simp only [Knx.mstep, Option.map_eq_some_iff, Prod.exists, Prod.mk.injEq] at hs
      obtain ⟨b, o', hb, rfl, rfl⟩ := hs
      exact ih.other (bgStep_tr hb).facts.call
    | delay d => cases hs; exact ih.other .nil
    | api e =>
      have hn := ih.numbered
      have hci := hx.callInv
      have := mapiStep_tr hs
      cases this
      case draw cemi d h1 h2 h3 =>
        exact ⟨by rw [drawn_append]; simp [drawn], hn.draw _⟩
      case pick n cemi d p h1 h2 h3 h4 =>
        rw [h1] at ih
        rw [List.append_nil]
        exact ⟨hx.gexec.pairedUpTo h3 ih.1 h4, n, _, _, requestPacket_of h4, ih.2⟩
      case send p h1 =>
        rw [h1] at ih
        obtain ⟨_, n, ch, cemi, h2, h3⟩ := ih
        have := h3.send ⟨ch, cemi, h2⟩
        have h4 := this.mono (o := [.ret .unit]) rfl rfl
        rwa [List.append_assoc] at h4
      case dcSend p h1 =>
        rw [h1] at hci
        obtain ⟨_, _, _, ch, ep, rfl⟩ := hci
        exact hn.mono rfl (by simp [requestsSent, apiSent, discReq_not_request])
      case callErr h1 _ _ => rw [h1]; exact hn.mono rfl rfl
      case callPanic h1 _ _ => rw [h1]; exact hn.mono rfl rfl
      case ncall => exact ih.other ⟨rfl, rfl, rfl, rfl, rfl⟩
      case drop => exact ih.other ⟨rfl, rfl, rfl, rfl, rfl⟩
      case nskip => exact ih.other ⟨rfl, rfl, rfl, rfl, rfl⟩
      case nind => exact ih.other ⟨rfl, rfl, rfl, rfl, rfl⟩
      case nbad => exact ih.other ⟨rfl, rfl, rfl, rfl, rfl⟩
      case nend => exact ih.other ⟨rfl, rfl, rfl, rfl, rfl⟩
      case ncancel => exact ih.other ⟨rfl, rfl, rfl, rfl, rfl⟩
      case mkChan => exact ih.other .nil
      case drain => exact ih.other .nil
      case fill => exact ih.other .nil
      case closeChan => exact ih.other .nil
      all_goals exact hn.mono rfl rfl

/-! ## The callers of `next_msg` -/

@[simp] theorem nexts_append (a b : List Obs) : nexts (a ++ b) = nexts a ++ nexts b := by simp [nexts]
@[simp] theorem takenBy_append (i : Nat) (a b : List Obs) : takenBy i (a ++ b) = takenBy i a ++ takenBy i b := by simp [takenBy]

theorem isIndication_iff {c : Cemi} : isIndication c = true ↔ shownCode c.msgCode := by
  simp [isIndication, shownCode, L_DATA_IND, L_BUSMON_IND, codeLDataInd, codeLBusmonInd]

theorem shown_of {c : Cemi} {r : Res LDataInd} (h : LDataInd.fromCemi c = r) :
    Shown c (match r with | .ok i => .ind i | _ => .err) := by
  have low : ∀ b : U8, [b &&& 0x3f#8] = [byte (b.toNat % 64)] := by decide +kernel
  by_cases h9 : c.serviceInfo.length < 9
  · left
    refine ⟨h9, ?_⟩
    cases r with
    | ok i => exact absurd ((C14_lDataInd_total c).2.1.1 ⟨i, h⟩) (by omega)
    | err => rfl
    | panic => rfl
  · right
    match hs : c.serviceInfo with
    | [] | [_] | [_, _] | [_, _, _] | [_, _, _, _] | [_, _, _, _, _] | [_, _, _, _, _, _]
    | [_, _, _, _, _, _, _] | [_, _, _, _, _, _, _, _] => rw [hs] at h9; simp at h9
    | c1 :: c2 :: s1 :: s2 :: d1 :: d2 :: l :: a :: b :: rest =>
      have he := lDataInd_eval c c1 c2 s1 s2 d1 d2 l a b rest hs
      rw [he] at h
      subst h
      refine ⟨_, c1, c2, s1, s2, d1, d2, l, a, b, rest, rfl, by simp, rfl, word_ofBe16 s1 s2, word_ofBe16 d1 d2, ?_⟩
      simp only [low]

/-- The results given to the callers so far. -/
structure NextInv (s : MSys) (tr : List Obs) : Prop where
  order : ∃ front k, nexts tr = front ++ List.replicate k .err ∧
    List.Forall₂ Shown ((taken tr).filter isIndication) front ∧
    (k ≠ 0 → sendersGone s.bg = true ∧ s.bg.queue = [])
  caller : ∀ i ∈ s.waiting, ∀ c ∈ takenBy i (since (isNcall i) tr), isIndication c = false

theorem NextInv.other {s s' : MSys} {tr o : List Obs} (h : NextInv s tr) (h1 : nexts o = []) (h2 : taken o = [])
    (h3 : ∀ i, takenBy i o = []) (h4 : ∀ i, o.any (isNcall i) = false) (hw : s'.waiting = s.waiting)
    (hg : sendersGone s.bg = true → s.bg.queue = [] → sendersGone s'.bg = true ∧ s'.bg.queue = []) : NextInv s' (tr ++ o) := by
  constructor
  · obtain ⟨front, k, e1, e2, e3⟩ := h.order
    refine ⟨front, k, by rw [nexts_append, h1, List.append_nil, e1], by rw [taken_append, h2, List.append_nil]; exact e2, ?_⟩
    intro hk
    exact hg (e3 hk).1 (e3 hk).2
  · intro i hi c hc
    rw [hw] at hi
    rw [since_task _ (h4 i), takenBy_append, h3, List.append_nil] at hc
    exact h.caller i hi c hc

theorem gone_stuck {k : Kind} {m : Mode} {s s' : Bg} {o : List Obs} (h : BgTr k m s s' o) (hg : sendersGone s = true) : False := by
  cases h <;> simp_all [sendersGone] <;> (cases hp : s.pc <;> simp_all [busy])

theorem takenBy_single (i j : Nat) (c : Cemi) : takenBy i [.taken j c] = if j = i then [c] else [] := by
  by_cases h : j = i <;> simp [takenBy, h]

theorem MExec.nextInv {m : Mode} {s : MSys} {tr : List Obs} (h : MExec m s tr) : NextInv s tr := by
  induction h with
  | init => exact ⟨⟨[], 0, rfl, .nil, by simp⟩, by simp [MSys.init]⟩
  | @step s s' tr o e hx hs ih =>
    cases e with
    | bg e =>
      simp only [Knx.mstep, Option.map_eq_some_iff, Prod.exists, Prod.mk.injEq] at hs
      obtain ⟨b, o', hb, rfl, rfl⟩ := hs
      have ht := bgStep_tr hb
      have hg : sendersGone s.bg = true → False := gone_stuck ht
      have a1 : nexts o' = [] := by cases ht <;> rfl
      have a2 : ∀ i, takenBy i o' = [] := by intro i; cases ht <;> rfl
      have a3 : ∀ i, o'.any (isNcall i) = false := by intro i; cases ht <;> rfl
      exact ih.other a1 ht.facts.taken a2 a3 rfl (fun h => (hg h).elim)
    | delay d =>
      cases hs; exact ih.other rfl rfl (fun _ => rfl) (fun _ => rfl) rfl (fun h1 h2 => ⟨h1, h2⟩)
    | api e =>
      have ret : ∀ i c rest r, s.bg.queue = c :: rest → shownCode c.msgCode → Shown c r →
          NextInv ⟨{ s.bg with queue := rest }, s.api, s.waiting.filter (· ≠ i)⟩ (tr ++ [.taken i c, .nret i r]) := by
        intro i c rest r hq hc hr
        obtain ⟨front, k, e1, e2, e3⟩ := ih.order
        have hk : k = 0 := by
          by_contra hk
          have := (e3 hk).2
          rw [hq] at this; cases this
        subst hk
        constructor
        · refine ⟨front ++ [r], 0, ?_, ?_, by simp⟩
          · rw [nexts_append, e1]; simp [nexts]
          · rw [taken_append, List.filter_append]
            have : (taken [.taken i c, .nret i r]).filter isIndication = [c] := by
              simp [taken, isIndication_iff.2 hc]
            rw [this]
            exact Forall₂.snoc e2 hr
        · intro j hj x hx
          simp only [List.mem_filter, decide_eq_true_eq] at hj
          rw [since_task _ rfl, takenBy_append] at hx
          have : takenBy j [.taken i c, .nret i r] = [] := by
            have hij : ¬ i = j := fun h => hj.2 h.symm
            simp [takenBy, hij]
          rw [this, List.append_nil] at hx
          exact ih.caller j hj.1 x hx
      have := mapiStep_tr hs
      cases this
      case nind i c rest d hi hq hc hd => exact ret i c rest _ hq hc (by have := shown_of hd; exact this)
      case nbad i c rest hi hq hc hd => exact ret i c rest _ hq hc (by have := shown_of hd; exact this)
      case nskip i c rest hi hq hc =>
        have hci : isIndication c = false := by
          cases hb : isIndication c with
          | false => rfl
          | true => exact absurd (isIndication_iff.1 hb) hc
        obtain ⟨front, k, e1, e2, e3⟩ := ih.order
        have hk : k = 0 := by
          by_contra hk
          have := (e3 hk).2
          rw [hq] at this; cases this
        subst hk
        constructor
        · refine ⟨front, 0, ?_, ?_, by simp⟩
          · rw [nexts_append, e1]; simp [nexts]
          · rw [taken_append, List.filter_append]
            have : (taken [.taken i c]).filter isIndication = [] := by simp [taken, hci]
            rw [this, List.append_nil]
            exact e2
        · intro j hj x hx
          rw [since_task _ rfl, takenBy_append, takenBy_single] at hx
          rcases List.mem_append.1 hx with hx | hx
          · exact ih.caller j hj x hx
          · split at hx
            · simp only [List.mem_singleton] at hx; subst hx; exact hci
            · cases hx
      case nend i hi hq hg =>
        obtain ⟨front, k, e1, e2, e3⟩ := ih.order
        constructor
        · refine ⟨front, k + 1, ?_, ?_, fun _ => ⟨hg, hq⟩⟩
          · rw [nexts_append, e1, List.append_assoc, List.replicate_succ']; rfl
          · rw [taken_append]
            simpa [taken] using e2
        · intro j hj x hx
          simp only [List.mem_filter, decide_eq_true_eq] at hj
          rw [since_task _ rfl, takenBy_append, show takenBy j [.nret i .err] = [] from rfl, List.append_nil] at hx
          exact ih.caller j hj.1 x hx
      case ncancel i hi =>
        obtain ⟨front, k, e1, e2, e3⟩ := ih.order
        constructor
        · refine ⟨front, k, ?_, ?_, e3⟩
          · rw [nexts_append, e1]; simp [nexts]
          · rw [taken_append]
            simpa [taken] using e2
        · intro j hj x hx
          simp only [List.mem_filter, decide_eq_true_eq] at hj
          rw [since_task _ rfl, takenBy_append, show takenBy j [.ncancelled i] = [] from rfl, List.append_nil] at hx
          exact ih.caller j hj.1 x hx
      case ncall i h1 h2 h3 =>
        obtain ⟨front, k, e1, e2, e3⟩ := ih.order
        constructor
        · refine ⟨front, k, ?_, ?_, e3⟩
          · rw [nexts_append, e1]; simp [nexts]
          · rw [taken_append]
            simpa [taken] using e2
        · intro j hj x hx
          by_cases hij : i = j
          · subst hij
            rw [since_append] at hx
            simp [isNcall, since, takenBy] at hx
          · have hj' : j ∈ s.waiting := by
              rcases List.mem_cons.1 hj with h | h
              · exact absurd h.symm hij
              · exact h
            rw [since_task _ (by simp [isNcall, hij]), takenBy_append, show takenBy j [.ncall i] = [] from rfl,
              List.append_nil] at hx
            exact ih.caller j hj' x hx
      case drop h1 h2 h3 => exact ih.other rfl rfl (fun _ => rfl) (fun _ => rfl) rfl (fun h1 _ => ⟨h1, rfl⟩)
      all_goals exact ih.other rfl rfl (fun _ => rfl) (fun _ => rfl) rfl (fun h1 h2 => ⟨h1, h2⟩)

end Knx
