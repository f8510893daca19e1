import Verif.Lemmas.Client
import Verif.Spec.Trace

/-!
# Executions of the background task in an arbitrary environment
-/

namespace Knx
open Spec

/-- Observations of the API that concern neither the message channel nor the connection data nor acks. -/
def quiet : Obs → Bool
  | .rxApi _ => true
  | .tx .api p => !serviceIs TUNNELING_ACK p
  | .txFail .api _ => true
  | .call _ => true
  | .ret _ => true
  | .cancelled => true
  | .ncall _ => true
  | .nret _ _ => true
  | .ncancelled _ => true
  | .subscribed _ => true
  | _ => false

/-- What the environment does to the task's state. -/
inductive Env (k : Kind) (s : Bg) : Bg → List Obs → Prop
  | quiet (o) : (∀ x ∈ o, quiet x = true) → Env k s s o
  | draw (c) : connLocked k s = false → s.conn = some c →
      Env k s { s with conn := some { c with seq := c.seq + 1 } } [.drew c.seq]
  | take (i c rest o) : s.queue = c :: rest → (∀ x ∈ o, Knx.quiet x = true) →
      Env k s { s with queue := rest } (.taken i c :: o)
  | drop : s.rxOpen = true → Env k s { s with rxOpen := false, queue := [] } [.dropped]
  | subs (id o) : connLocked k s = false → k = .monitor → 0 < (s.chans id).cap → (∀ x ∈ o, Knx.quiet x = true) →
      Env k s { s with subs := s.subs ++ [id] } o
  | chans (ch) : (∀ id, 0 < (s.chans id).cap → 0 < (ch id).cap ∧ ((ch id).isOpen = true → (s.chans id).isOpen = true)) →
      Env k s { s with chans := ch } []
  | delay (d) : Env k s { s with now := s.now + d } []

/-- Executions of the task. -/
inductive GExec (k : Kind) (m : Mode) : Bg → List Obs → Prop
  | init : GExec k m Bg.init []
  | task {s s' tr o} : GExec k m s tr → BgTr k m s s' o → GExec k m s' (tr ++ o)
  | env {s s' tr o} : GExec k m s tr → Env k s s' o → GExec k m s' (tr ++ o)

/-- The packets the API is about to send are not acks. -/
def apiPacketOk : Api → Prop
  | .sendReq _ p => serviceIs TUNNELING_ACK p = false
  | .stSend p => serviceIs TUNNELING_ACK p = false
  | .dcLog p => serviceIs TUNNELING_ACK p = false
  | .dcSend p => serviceIs TUNNELING_ACK p = false
  | _ => True

theorem serviceIs_frame (svc svc' : Nat) (body : Bytes) :
    serviceIs svc' (frame svc body) = (word svc == word svc') := by
  simp [serviceIs, frame, word]

theorem reqPacket_not_ack {m : Mode} {t : TunnelingRequest} {p : Bytes} (h : t.packet m = .ok p) :
    serviceIs TUNNELING_ACK p = false := by
  unfold TunnelingRequest.packet at h
  split at h
  · cases h; simp [serviceIs, word, TUNNELING_ACK, byte]
  · cases h
  · cases h

theorem stateReq_not_ack (c : ConnectionstateRequest) : serviceIs TUNNELING_ACK c.packet = false := by
  rw [C19_bodies.1, serviceIs_frame]; decide

theorem discReq_not_ack (c : DisconnectRequest) : serviceIs TUNNELING_ACK c.packet = false := by
  rw [C19_bodies.2.1, serviceIs_frame]; decide

/-- A step of the client API as a step of the environment. -/
theorem ApiTr.env {m : Mode} {s s' : Sys} {o : List Obs} (h : ApiTr m s s' o) (hp : apiPacketOk s.api) :
    Env .client s.bg s'.bg o ∧ apiPacketOk s'.api := by
  cases h
  case drop h1 h2 => exact ⟨.drop h2, hp⟩
  case draw h1 h2 h3 => exact ⟨.draw _ h2 h3, trivial⟩
  case pick h1 h2 h3 h4 => exact ⟨.quiet _ (by simp), reqPacket_not_ack h4⟩
  case stEp => exact ⟨.quiet _ (by simp), stateReq_not_ack _⟩
  case dcEp => exact ⟨.quiet _ (by simp), discReq_not_ack _⟩
  case dcLog h => rw [h] at hp; exact ⟨.quiet _ (by simp), hp⟩
  case readSkip h1 h2 h3 => exact ⟨.take _ _ _ _ h2 (by simp), trivial⟩
  case readBad h1 h2 h3 h4 => exact ⟨.take _ _ _ _ h2 (by simp [Knx.quiet]), trivial⟩
  case readValue h1 h2 h3 h4 h5 => exact ⟨.take _ _ _ _ h2 (by simp [Knx.quiet]), trivial⟩
  case writeOk h1 h2 h3 => exact ⟨.take _ _ _ _ h2 (by simp [Knx.quiet]), trivial⟩
  case writeBad h1 h2 h3 => exact ⟨.take _ _ _ _ h2 (by simp [Knx.quiet]), trivial⟩
  case dcOk h1 h2 => exact ⟨.take _ _ _ _ h2 (by simp [Knx.quiet]), trivial⟩
  case callErr h1 _ _ => exact ⟨.quiet _ (by simp [Knx.quiet]), hp⟩
  case callPanic h1 _ _ => exact ⟨.quiet _ (by simp [Knx.quiet]), hp⟩
  case sendRead h => rw [h] at hp; exact ⟨.quiet _ (by simpa [Knx.quiet, apiPacketOk] using hp), trivial⟩
  case sendWrite h _ => rw [h] at hp; exact ⟨.quiet _ (by simpa [Knx.quiet, apiPacketOk] using hp), trivial⟩
  case stSend h => rw [h] at hp; exact ⟨.quiet _ (by simpa [Knx.quiet, apiPacketOk] using hp), trivial⟩
  case dcSend h => rw [h] at hp; exact ⟨.quiet _ (by simpa [Knx.quiet, apiPacketOk] using hp), trivial⟩
  all_goals exact ⟨.quiet _ (by simp [Knx.quiet]), trivial⟩

theorem Exec.gexec' {m : Mode} {s : Sys} {tr : List Obs} (h : Exec m s tr) :
    GExec .client m s.bg tr ∧ apiPacketOk s.api := by
  induction h with
  | init => exact ⟨.init, trivial⟩
  | step e _ hs ih =>
    cases e with
    | bg e =>
      simp only [Knx.step, Option.map_eq_some_iff, Prod.exists, Prod.mk.injEq] at hs
      obtain ⟨b, o', hb, rfl, rfl⟩ := hs
      exact ⟨.task ih.1 (bgStep_tr hb), ih.2⟩
    | api e =>
      have := (apiStep_tr hs).env ih.2
      exact ⟨.env ih.1 this.1, this.2⟩
    | delay d =>
      cases hs
      exact ⟨.env ih.1 (.delay d), ih.2⟩

/-- What is proved of every execution of the task holds for the client. -/
theorem Exec.gexec {m : Mode} {s : Sys} {tr : List Obs} (h : Exec m s tr) : GExec .client m s.bg tr := h.gexec'.1

/-- The packets the monitor API is about to send are not acks. -/
def mapiPacketOk : MApi → Prop
  | .sendReq p => serviceIs TUNNELING_ACK p = false
  | .dcSend p => serviceIs TUNNELING_ACK p = false
  | _ => True

theorem mapiStep_env {m : Mode} {s s' : MSys} {e : MApiEv} {o : List Obs} (h : mapiStep m s e = some (s', o))
    (hp : mapiPacketOk s.api) : Env .monitor s.bg s'.bg o ∧ mapiPacketOk s'.api := by
  have conn : ∀ f : Conn → Option (MSys × List Obs), mwithConn s f = some (s', o) →
      (∀ d, connLocked .monitor s.bg = false → s.bg.conn = some d → f d = some (s', o) →
        Env .monitor s.bg s'.bg o ∧ mapiPacketOk s'.api) → Env .monitor s.bg s'.bg o ∧ mapiPacketOk s'.api := by
    intro f h hf
    unfold mwithConn at h
    split at h
    · cases h
    · rename_i hl
      split at h
      · cases h; exact ⟨.quiet _ (by simp [quiet]), trivial⟩
      · rename_i d hc; exact hf d (by simpa using hl) hc h
  have q : ∀ o : List Obs, s'.bg = s.bg → (∀ x ∈ o, quiet x = true) → mapiPacketOk s'.api →
      Env .monitor s.bg s'.bg o ∧ mapiPacketOk s'.api := by
    intro o h h1 h2; rw [h]; exact ⟨.quiet _ h1, h2⟩
  have start : ∀ c r, mstartTunnel s c r = some (s', o) → Env .monitor s.bg s'.bg o ∧ mapiPacketOk s'.api := by
    intro c r h
    cases r <;> (unfold mstartTunnel at h; cases h)
    · exact q _ rfl (by simp [quiet]) trivial
    · exact q _ rfl (by simp [quiet]) hp
    · exact q _ rfl (by simp [quiet]) hp
  unfold mapiStep at h
  split at h
  · split at h
    · cases h
    · cases h; exact q _ rfl (by simp [quiet]) trivial
  · split at h
    · split at h
      · rename_i c rest hq
        unfold nextMsg nfinish at h
        repeat' split at h
        all_goals cases h
        all_goals exact ⟨.take _ _ _ _ hq (by simp [quiet]), hp⟩
      · split at h
        · cases h; exact q _ rfl (by simp [quiet]) hp
        · cases h
    · cases h
  · split at h
    · cases h; exact q _ rfl (by simp [quiet]) hp
    · cases h
  · split at h
    · rename_i hc
      cases h
      refine ⟨.chans _ fun id hid => ?_, hp⟩
      split
      · rename_i he; subst he; omega
      · exact ⟨hid, fun x => x⟩
    · cases h
  · split at h
    · rename_i hc
      cases h
      refine ⟨.chans _ fun id hid => ?_, hp⟩
      split
      · rename_i he; subst he; exact ⟨hid, fun x => x⟩
      · exact ⟨hid, fun x => x⟩
    · cases h
  · split at h
    · cases h
      refine ⟨.chans _ fun id hid => ?_, hp⟩
      split
      · rename_i he; subst he; exact ⟨hid, fun x => x⟩
      · exact ⟨hid, fun x => x⟩
    · cases h
  · cases h
    refine ⟨.chans _ fun id hid => ?_, hp⟩
    split
    · rename_i he; subst he; exact ⟨hid, by simp⟩
    · exact ⟨hid, fun x => x⟩
  · unfold mcallStep at h
    split at h
    all_goals (rename_i hapi)
    · split at h
      · split at h
        · unfold mapiCall at h
          split at h
          · exact start _ _ h
          · exact start _ _ h
          · cases h; exact q _ rfl (by simp [quiet]) trivial
          · cases h; exact q _ rfl (by simp [quiet]) trivial
          · cases h; exact q _ rfl (by simp [quiet]) trivial
          · cases h
        · cases h
      · split at h
        · cases h; exact q _ rfl (by simp [quiet]) hp
        · cases h
      · split at h
        · rename_i hx; cases h; exact ⟨.drop hx.1, hp⟩
        · cases h
      · cases h
    · split at h
      · exact conn _ h fun d hl hc hx => by cases hx; exact ⟨.draw _ hl hc, trivial⟩
      · cases h
    · split at h
      · refine conn _ h fun d hl hc hx => ?_
        split at hx
        · rename_i hpk; cases hx; exact q _ rfl (by simp) (reqPacket_not_ack hpk)
        · cases hx; exact q _ rfl (by simp [quiet]) trivial
        · cases hx; exact q _ rfl (by simp [quiet]) trivial
      · cases h
    · rw [hapi] at hp
      split at h
      · cases h; exact q _ rfl (by simpa [quiet, mapiPacketOk] using hp) trivial
      · cases h; exact q _ rfl (by simp [quiet]) trivial
      · cases h
    · split at h
      · exact conn _ h fun d hl hc hx => by cases hx; exact q _ rfl (by simp) trivial
      · cases h
    · split at h
      · exact conn _ h fun d hl hc hx => by cases hx; exact q _ rfl (by simp) (discReq_not_ack _)
      · cases h
    · rw [hapi] at hp
      split at h
      · cases h; exact q _ rfl (by simpa [quiet, mapiPacketOk] using hp) trivial
      · cases h; exact q _ rfl (by simp [quiet]) trivial
      · cases h
    · split at h
      · split at h
        all_goals (cases h; exact q _ rfl (by simp [quiet]) trivial)
      · cases h; exact q _ rfl (by simp [quiet]) trivial
      · cases h
    · split at h
      · split at h
        · cases h
        · cases h; exact q _ rfl (by simp [quiet]) trivial
      · cases h
    · split at h
      · split at h
        · cases h
        · rename_i hl
          cases h
          rw [not_or] at hl
          exact ⟨.subs _ _ (by simpa using hl.1) rfl (Nat.pos_of_ne_zero hl.2) (by simp [quiet]), trivial⟩
      · cases h

theorem MExec.gexec' {m : Mode} {s : MSys} {tr : List Obs} (h : MExec m s tr) :
    GExec .monitor m s.bg tr ∧ mapiPacketOk s.api := by
  induction h with
  | init => exact ⟨.init, trivial⟩
  | step e _ hs ih =>
    cases e with
    | bg e =>
      simp only [Knx.mstep, Option.map_eq_some_iff, Prod.exists, Prod.mk.injEq] at hs
      obtain ⟨b, o', hb, rfl, rfl⟩ := hs
      exact ⟨.task ih.1 (bgStep_tr hb), ih.2⟩
    | api e =>
      have := mapiStep_env hs ih.2
      exact ⟨.env ih.1 this.1, this.2⟩
    | delay d =>
      cases hs
      exact ⟨.env ih.1 (.delay d), ih.2⟩

/-- What is proved of every execution of the task holds for the monitor. -/
theorem MExec.gexec {m : Mode} {s : MSys} {tr : List Obs} (h : MExec m s tr) : GExec .monitor m s.bg tr := h.gexec'.1

end Knx
