import Verif.Lemmas.Transport
import Verif.Props.Emi

/-!
# Lemmas about the client API: the steps as a relation
-/

namespace Knx

/-- The cEMI message a read or write call sends. -/
def tunnelCemi (m : Mode) : Call → Option (Res Bytes)
  | .read a => some (readCemi m a)
  | .write a v small => some (writeCemi m a v small)
  | _ => none

/-- The API state is one that looks at the connection data. -/
def looksUp : Api → Bool
  | .seqNr _ _ => true
  | .chanId _ _ _ => true
  | .stChan => true
  | .stEp _ => true
  | .dcChan => true
  | .dcEp _ => true
  | .dcLog _ => true
  | _ => false

/-- `c` is not an indication for `addr`. -/
def Skipped (addr : U16) (c : Cemi) : Prop :=
  c.msgCode ≠ codeLDataInd ∨ ∃ i, LDataInd.fromCemi c = .ok i ∧ i.lData.dest ≠ addr

/-- The steps of the client API. -/
inductive ApiTr (m : Mode) (s : Sys) : Sys → List Obs → Prop
  | callTunnel (c cemi) : s.api = .idle → s.bg.rxOpen = true → tunnelCemi m c = some (.ok cemi) →
      ApiTr m s { s with api := .seqNr c cemi } [.call c]
  | callErr (c) : s.api = .idle → s.bg.rxOpen = true → tunnelCemi m c = some .err →
      ApiTr m s s [.call c, .ret .err]
  | callPanic (c) : s.api = .idle → s.bg.rxOpen = true → tunnelCemi m c = some .panic →
      ApiTr m s s [.call c, .ret .panic]
  | callStatus : s.api = .idle → s.bg.rxOpen = true → ApiTr m s { s with api := .stChan } [.call .status]
  | callDisc : s.api = .idle → s.bg.rxOpen = true → ApiTr m s { s with api := .dcChan } [.call .disconnect]
  | drop : s.api = .idle → s.bg.rxOpen = true →
      ApiTr m s { s with bg := { s.bg with rxOpen := false, queue := [] } } [.dropped]
  | noConn : looksUp s.api = true → connLocked .client s.bg = false → s.bg.conn = none →
      ApiTr m s { s with api := .idle } [.ret .err]
  | draw (c cemi d) : s.api = .seqNr c cemi → connLocked .client s.bg = false → s.bg.conn = some d →
      ApiTr m s { bg := { s.bg with conn := some { d with seq := d.seq + 1 } }, api := .chanId c d.seq cemi } [.drew d.seq]
  | pick (c n cemi d p) : s.api = .chanId c n cemi → connLocked .client s.bg = false → s.bg.conn = some d →
      (TunnelingRequest.mk d.channel n cemi).packet m = .ok p → ApiTr m s { s with api := .sendReq c p } []
  | pickPanic (c n cemi d) : s.api = .chanId c n cemi → connLocked .client s.bg = false → s.bg.conn = some d →
      (TunnelingRequest.mk d.channel n cemi).packet m = .panic → ApiTr m s { s with api := .idle } [.ret .panic]
  | sendRead (addr p) : s.api = .sendReq (.read addr) p →
      ApiTr m s { s with api := .reading addr.toU16 (s.bg.now + apiTimeout) } [.tx .api p]
  | sendWrite (c p) : s.api = .sendReq c p → (∀ addr, c ≠ .read addr) →
      ApiTr m s { s with api := .writing (s.bg.now + apiTimeout) } [.tx .api p]
  | sendFail (c p) : s.api = .sendReq c p → ApiTr m s { s with api := .idle } [.txFail .api p, .ret .err]
  | readTimeout (addr dl) : s.api = .reading addr dl → dl ≤ s.bg.now → ApiTr m s { s with api := .idle } [.ret .err]
  | readGone (addr dl) : s.api = .reading addr dl → s.bg.queue = [] → sendersGone s.bg = true →
      ApiTr m s { s with api := .idle } [.ret .err]
  | readSkip (addr dl c rest) : s.api = .reading addr dl → s.bg.queue = c :: rest → Skipped addr c →
      ApiTr m s { bg := { s.bg with queue := rest }, api := .reading addr (s.bg.now + apiTimeout) } [.taken 0 c]
  | readBad (addr dl c rest) : s.api = .reading addr dl → s.bg.queue = c :: rest → c.msgCode = codeLDataInd →
      LDataInd.fromCemi c = .err →
      ApiTr m s { bg := { s.bg with queue := rest }, api := .idle } [.taken 0 c, .ret .err]
  | readValue (addr dl c rest i) : s.api = .reading addr dl → s.bg.queue = c :: rest → c.msgCode = codeLDataInd →
      LDataInd.fromCemi c = .ok i → i.lData.dest = addr →
      ApiTr m s { bg := { s.bg with queue := rest }, api := .idle } [.taken 0 c, .ret (.value i.value)]
  | writeTimeout (dl) : s.api = .writing dl → dl ≤ s.bg.now → ApiTr m s { s with api := .idle } [.ret .err]
  | writeGone (dl) : s.api = .writing dl → s.bg.queue = [] → sendersGone s.bg = true →
      ApiTr m s { s with api := .idle } [.ret .err]
  | writeOk (dl c rest) : s.api = .writing dl → s.bg.queue = c :: rest → c.msgCode = codeLDataCon →
      ApiTr m s { bg := { s.bg with queue := rest }, api := .idle } [.taken 0 c, .ret .unit]
  | writeBad (dl c rest) : s.api = .writing dl → s.bg.queue = c :: rest → c.msgCode ≠ codeLDataCon →
      ApiTr m s { bg := { s.bg with queue := rest }, api := .idle } [.taken 0 c, .ret .err]
  | stChan (d) : s.api = .stChan → connLocked .client s.bg = false → s.bg.conn = some d →
      ApiTr m s { s with api := .stEp d.channel } []
  | stEp (ch d) : s.api = .stEp ch → connLocked .client s.bg = false → s.bg.conn = some d →
      ApiTr m s { s with api := .stSend (ConnectionstateRequest.mk ch d.endpoint).packet } []
  | stSend (p) : s.api = .stSend p → ApiTr m s { s with api := .stRecv } [.tx .api p]
  | stSendFail (p) : s.api = .stSend p → ApiTr m s { s with api := .idle } [.txFail .api p, .ret .err]
  | stOk (d r) : s.api = .stRecv → runRd ConnectionstateResponse.fromPacket id (buffer d) = .ok r →
      ApiTr m s { s with api := .idle } [.rxApi d, .ret (.state r)]
  | stBad (d) : s.api = .stRecv → runRd ConnectionstateResponse.fromPacket id (buffer d) = .err →
      ApiTr m s { s with api := .idle } [.rxApi d, .ret .err]
  | stErr : s.api = .stRecv → ApiTr m s { s with api := .idle } [.ret .err]
  | dcChan (d) : s.api = .dcChan → connLocked .client s.bg = false → s.bg.conn = some d →
      ApiTr m s { s with api := .dcEp d.channel } []
  | dcEp (ch d) : s.api = .dcEp ch → connLocked .client s.bg = false → s.bg.conn = some d →
      ApiTr m s { s with api := .dcLog (DisconnectRequest.mk ch d.endpoint).packet } []
  | dcLog (p) : s.api = .dcLog p → ApiTr m s { s with api := .dcSend p } []
  | dcSend (p) : s.api = .dcSend p → ApiTr m s { s with api := .dcRecv } [.tx .api p]
  | dcSendFail (p) : s.api = .dcSend p → ApiTr m s { s with api := .idle } [.txFail .api p, .ret .panic]
  | dcGone : s.api = .dcRecv → s.bg.queue = [] → sendersGone s.bg = true →
      ApiTr m s { s with api := .idle } [.ret .err]
  | dcOk (c rest) : s.api = .dcRecv → s.bg.queue = c :: rest →
      ApiTr m s { bg := { s.bg with queue := rest }, api := .idle } [.taken 0 c, .ret .unit]
  | cancel : s.api ≠ .idle → ApiTr m s { s with api := .idle } [.cancelled]

theorem runRd_no_panic {α β : Type} {p : Rd α} {f : α → β} {r : Bytes} (h : p r ≠ .panic) : runRd p f r ≠ .panic := by
  unfold runRd
  split <;> simp_all

theorem withConn_cases {s : Sys} {f : Conn → Option (Sys × List Obs)} {x : Sys × List Obs}
    (h : withConn s f = some x) :
    connLocked .client s.bg = false ∧
      ((s.bg.conn = none ∧ x = ({ s with api := .idle }, [.ret .err])) ∨ ∃ d, s.bg.conn = some d ∧ f d = some x) := by
  unfold withConn at h
  split at h
  · cases h
  · rename_i hl
    refine ⟨by simpa using hl, ?_⟩
    split at h
    · rename_i hc; left; refine ⟨hc, ?_⟩; unfold finish at h; cases h; rfl
    · rename_i d hc; exact Or.inr ⟨d, hc, h⟩

theorem chanRecv_cases {s : Sys} {f : Sys → Cemi → Option (Sys × List Obs)} {x : Sys × List Obs}
    (h : chanRecv s f = some x) :
    (∃ c rest, s.bg.queue = c :: rest ∧ f { s with bg := { s.bg with queue := rest } } c = some x) ∨
      (s.bg.queue = [] ∧ sendersGone s.bg = true ∧ x = ({ s with api := .idle }, [.ret .err])) := by
  unfold chanRecv at h
  split at h
  · rename_i c rest hq; exact Or.inl ⟨c, rest, hq, h⟩
  · rename_i hq
    split at h
    · rename_i hg; unfold finish at h; cases h; exact Or.inr ⟨hq, hg, rfl⟩
    · cases h

theorem packet_ne_err {m : Mode} {t : TunnelingRequest} : t.packet m ≠ .err := by
  unfold TunnelingRequest.packet addU
  split
  · simp
  · rename_i h; revert h; repeat' split
    all_goals simp
  · simp

/-- Every step of the API is one of the listed ones. -/
theorem apiStep_tr {m : Mode} {s s' : Sys} {e : ApiEv} {o : List Obs}
    (h : apiStep m s e = some (s', o)) : ApiTr m s s' o := by
  have startC : ∀ c r, s.api = .idle → s.bg.rxOpen = true → tunnelCemi m c = some r →
      startTunnel s c r = some (s', o) → ApiTr m s s' o := by
    intro c r h1 h2 h3 h
    cases r <;> (unfold startTunnel at h; cases h)
    · exact .callTunnel _ _ h1 h2 h3
    · exact .callErr _ h1 h2 h3
    · exact .callPanic _ h1 h2 h3
  unfold apiStep at h
  split at h
  · split at h
    · cases h
    · rename_i hi; cases h; exact .cancel hi
  split at h
  all_goals (rename_i hapi)
  · split at h
    · split at h
      · rename_i hx
        unfold apiCall at h
        split at h
        · exact startC _ _ hapi hx rfl h
        · exact startC _ _ hapi hx rfl h
        · cases h; exact .callStatus hapi hx
        · cases h; exact .callDisc hapi hx
        · cases h
      · cases h
    · split at h
      · rename_i hx; cases h; exact .drop hapi hx
      · cases h
    · cases h
  · split at h
    · obtain ⟨hl, ⟨hc, hx⟩ | ⟨d, hc, hx⟩⟩ := withConn_cases h
      · cases hx; exact .noConn (by rw [hapi]; rfl) hl hc
      · cases hx; exact .draw _ _ _ hapi hl hc
    · cases h
  · split at h
    · obtain ⟨hl, ⟨hc, hx⟩ | ⟨d, hc, hx⟩⟩ := withConn_cases h
      · cases hx; exact .noConn (by rw [hapi]; rfl) hl hc
      · split at hx
        · rename_i hp; cases hx; exact .pick _ _ _ _ _ hapi hl hc hp
        · rename_i hp; exact absurd hp packet_ne_err
        · rename_i hp; cases hx; exact .pickPanic _ _ _ _ hapi hl hc hp
    · cases h
  · split at h
    · split at h
      · cases h; exact .sendRead _ _ hapi
      · rename_i hn; cases h; exact .sendWrite _ _ hapi (fun a ha => hn a ha)
    · cases h; exact .sendFail _ _ hapi
    · cases h
  · split at h
    · obtain ⟨c, rest, hq, hx⟩ | ⟨hq, hg, hx⟩ := chanRecv_cases h
      · unfold readMsg at hx
        simp only at hx
        split at hx
        · rename_i hcode
          have hs : ∀ a, Skipped a c := fun a => Or.inl (by rw [hcode]; decide)
          split at hx
          · rename_i hp; exact absurd hp (C15_lDataCon c).1
          · cases hx; exact .readSkip _ _ _ _ hapi hq (hs _)
        · split at hx
          · rename_i hcode
            split at hx
            · rename_i i hi
              split at hx
              · rename_i hd; cases hx; exact .readValue _ _ _ _ _ hapi hq hcode hi hd
              · rename_i hd; cases hx; exact .readSkip _ _ _ _ hapi hq (Or.inr ⟨i, hi, hd⟩)
            · rename_i hi; cases hx; exact .readBad _ _ _ _ hapi hq hcode hi
            · rename_i hi; exact absurd hi (C14_lDataInd_total c).1
          · rename_i hcode; cases hx; exact .readSkip _ _ _ _ hapi hq (Or.inl hcode)
      · cases hx; exact .readGone _ _ hapi hq hg
    · split at h
      · rename_i hd; cases h; exact .readTimeout _ _ hapi hd
      · cases h
    · cases h
  · split at h
    · obtain ⟨c, rest, hq, hx⟩ | ⟨hq, hg, hx⟩ := chanRecv_cases h
      · unfold writeMsg at hx
        split at hx
        · rename_i hcode
          split at hx
          · rename_i hp; exact absurd hp (C15_lDataCon c).1
          · cases hx; exact .writeOk _ _ _ hapi hq hcode
        · rename_i hcode; cases hx; exact .writeBad _ _ _ hapi hq hcode
      · cases hx; exact .writeGone _ hapi hq hg
    · split at h
      · rename_i hd; cases h; exact .writeTimeout _ hapi hd
      · cases h
    · cases h
  · split at h
    · obtain ⟨hl, ⟨hc, hx⟩ | ⟨d, hc, hx⟩⟩ := withConn_cases h
      · cases hx; exact .noConn (by rw [hapi]; rfl) hl hc
      · cases hx; exact .stChan _ hapi hl hc
    · cases h
  · split at h
    · obtain ⟨hl, ⟨hc, hx⟩ | ⟨d, hc, hx⟩⟩ := withConn_cases h
      · cases hx; exact .noConn (by rw [hapi]; rfl) hl hc
      · cases hx; exact .stEp _ _ hapi hl hc
    · cases h
  · split at h
    · cases h; exact .stSend _ hapi
    · cases h; exact .stSendFail _ hapi
    · cases h
  · split at h
    · split at h
      · rename_i hr; cases h; exact .stOk _ _ hapi hr
      · rename_i hr; cases h; exact .stBad _ hapi hr
      · rename_i hr; exact absurd hr (runRd_no_panic ConnectionstateResponse.fromPacket_no_panic)
    · cases h; exact .stErr hapi
    · cases h
  · split at h
    · obtain ⟨hl, ⟨hc, hx⟩ | ⟨d, hc, hx⟩⟩ := withConn_cases h
      · cases hx; exact .noConn (by rw [hapi]; rfl) hl hc
      · cases hx; exact .dcChan _ hapi hl hc
    · cases h
  · split at h
    · obtain ⟨hl, ⟨hc, hx⟩ | ⟨d, hc, hx⟩⟩ := withConn_cases h
      · cases hx; exact .noConn (by rw [hapi]; rfl) hl hc
      · cases hx; exact .dcEp _ _ hapi hl hc
    · cases h
  · split at h
    · obtain ⟨hl, ⟨hc, hx⟩ | ⟨d, hc, hx⟩⟩ := withConn_cases h
      · cases hx; exact .noConn (by rw [hapi]; rfl) hl hc
      · cases hx; exact .dcLog _ hapi
    · cases h; exact .dcLog _ hapi
    · cases h
  · split at h
    · cases h; exact .dcSend _ hapi
    · cases h; exact .dcSendFail _ hapi
    · cases h
  · split at h
    · obtain ⟨c, rest, hq, hx⟩ | ⟨hq, hg, hx⟩ := chanRecv_cases h
      · cases hx; exact .dcOk _ _ hapi hq
      · cases hx; exact .dcGone hapi hq hg
    · cases h

end Knx
