import Verif.Props.Client
import Verif.Props.Monitor

/-!
# Further invariants of the background task: what it is about to send, and when
-/

namespace Knx
open Spec

/-- What the task is about to send. -/
def SendInv (k : Kind) (s : Bg) (tr : List Obs) : Prop :=
  match s.pc with
  | .hb ch ep => s.conn.map (fun c => (c.channel, c.endpoint)) = some (ch, ep)
  | .ackReq ch sq raw => ∃ d, (received tr).getLast? = some d ∧ Decodes (seen d) (.tunnelingRequest ⟨ch, sq, raw⟩)
  | .ackFeat ch sq => ∃ d f v st, (received tr).getLast? = some d ∧ Decodes (seen d) (.featureResponse ⟨f, v, st, ch, sq⟩)
  | .enable r => k = .monitor ∧ ∃ d, (connAnswers tr).getLast? = some d ∧ Grants d r
  | _ => True

theorem GExec.sendInv {k : Kind} {m : Mode} {s : Bg} {tr : List Obs} (h : GExec k m s tr) : SendInv k s tr := by
  induction h with
  | init => trivial
  | @task s s' tr o hx ht ih =>
    cases ht
    case recvReq d r hpc hd hp => exact ⟨d, by simp [received], parse_seen hp⟩
    case recvFeat d r hpc hd hp =>
      exact ⟨d, r.feature, r.value, r.status, by simp [received], parse_seen hp⟩
    case connOkMonitor dl d r hpc hr hk => exact ⟨hk, d, by simp [connAnswers], (tryConnect_iff d r).1 hr⟩
    case tickIdle c hpc hd hc => simp [SendInv, hc]
    case tickBusy c hpc hd hc => simp [SendInv, hc]
    case recvEmpty hpc => simp [SendInv, hpc]
    case recvAck hpc _ _ => simp [SendInv, hpc]
    case recvStateOk hpc _ _ _ => simp [SendInv, hpc]
    all_goals trivial
  | @env s s' tr o hx he ih =>
    have f := he.facts
    unfold SendInv at ih ⊢
    rw [f.pc]
    split at ih
    · rw [f.conn]; exact ih
    · rw [received_append, f.received, List.append_nil]; exact ih
    · rw [received_append, f.received, List.append_nil]; exact ih
    · rw [show connAnswers (tr ++ o) = connAnswers tr ++ connAnswers o by simp [connAnswers], f.answers, List.append_nil]; exact ih
    · trivial

/-! ## Heart beats -/

theorem nextTick_ge {now due : Nat} (h : due ≤ now) : due + 60000 ≤ nextTick now due ∧ now + 59995 ≤ nextTick now due ∧
    nextTick now due ≤ now + 60000 := by
  unfold nextTick; split <;> omega

theorem BgTr.hbDue {k : Kind} {m : Mode} {s s' : Bg} {o : List Obs} (h : BgTr k m s s' o) :
    s.hbDue ≤ s'.hbDue ∧ s'.now = s.now ∧ (Obs.tick ∈ o → s.hbDue ≤ s.now ∧ s'.hbDue = nextTick s.now s.hbDue) ∧
      (Obs.tick ∉ o → s'.hbDue = s.hbDue) := by
  cases h
  case tickIdle c hpc hd hc => exact ⟨by have := nextTick_ge hd; simp only; omega, rfl, fun _ => ⟨hd, rfl⟩, fun h => absurd (by simp) h⟩
  case tickBusy c hpc hd hc => exact ⟨by have := nextTick_ge hd; simp only; omega, rfl, fun _ => ⟨hd, rfl⟩, fun h => absurd (by simp) h⟩
  case tickIdleNone hpc hd hc => exact ⟨by have := nextTick_ge hd; simp only; omega, rfl, fun _ => ⟨hd, rfl⟩, fun h => absurd (by simp) h⟩
  case tickBusyNone hpc hd hc => exact ⟨by have := nextTick_ge hd; simp only; omega, rfl, fun _ => ⟨hd, rfl⟩, fun h => absurd (by simp) h⟩
  all_goals exact ⟨Nat.le_refl _, rfl, by simp, fun _ => rfl⟩

theorem Env.hbDue {k : Kind} {s s' : Bg} {o : List Obs} (h : Env k s s' o) : s'.hbDue = s.hbDue ∧ s.now ≤ s'.now ∧ Obs.tick ∉ o := by
  have f := h.facts
  refine ⟨f.hbDue, ?_, ?_⟩
  · cases h <;> simp
  · cases h
    case quiet hq => exact fun hm => by simpa [Knx.quiet] using hq _ hm
    case take hq => intro hm; rcases List.mem_cons.1 hm with hm | hm; cases hm; simpa [Knx.quiet] using hq _ hm
    case subs hq => exact fun hm => by simpa [Knx.quiet] using hq _ hm
    all_goals simp

/-- The next heart beat is due within a minute. -/
theorem GExec.hbSoon {k : Kind} {m : Mode} {s : Bg} {tr : List Obs} (h : GExec k m s tr) : s.hbDue ≤ s.now + 60000 := by
  induction h with
  | init => simp [Bg.init]
  | @task s s' tr o hx ht ih =>
    obtain ⟨h1, h2, h3, h4⟩ := ht.hbDue
    by_cases ht : Obs.tick ∈ o
    · obtain ⟨h5, h6⟩ := h3 ht
      have := nextTick_ge h5
      omega
    · rw [h4 ht, h2]; exact ih
  | @env s s' tr o hx he ih =>
    obtain ⟨h1, h2, h3⟩ := he.hbDue
    omega

/-- Runs of the task in an arbitrary environment. -/
inductive GRun (k : Kind) (m : Mode) : Bg → List Obs → Bg → Prop
  | nil (s : Bg) : GRun k m s [] s
  | task {s s' s'' o tr} : BgTr k m s s' o → GRun k m s' tr s'' → GRun k m s (o ++ tr) s''
  | env {s s' s'' o tr} : Env k s s' o → GRun k m s' tr s'' → GRun k m s (o ++ tr) s''

theorem Run.grun {m : Mode} {s s' : Sys} {tr : List Obs} (h : Run m s tr s') (hp : apiPacketOk s.api) : GRun .client m s.bg tr s'.bg := by
  induction h with
  | nil => exact .nil _
  | step e hs hr ih =>
    cases e with
    | bg e =>
      simp only [Knx.step, Option.map_eq_some_iff, Prod.exists, Prod.mk.injEq] at hs
      obtain ⟨b, o', hb, rfl, rfl⟩ := hs
      exact .task (bgStep_tr hb) (ih hp)
    | api e =>
      have := (apiStep_tr hs).env hp
      exact .env this.1 (ih this.2)
    | delay d =>
      cases hs
      exact .env (.delay d) (ih hp)

theorem MRun.grun {m : Mode} {s s' : MSys} {tr : List Obs} (h : MRun m s tr s') (hp : mapiPacketOk s.api) : GRun .monitor m s.bg tr s'.bg := by
  induction h with
  | nil => exact .nil _
  | step e hs hr ih =>
    cases e with
    | bg e =>
      simp only [Knx.mstep, Option.map_eq_some_iff, Prod.exists, Prod.mk.injEq] at hs
      obtain ⟨b, o', hb, rfl, rfl⟩ := hs
      exact .task (bgStep_tr hb) (ih hp)
    | api e =>
      have := mapiStep_env hs hp
      exact .env this.1 (ih this.2)
    | delay d =>
      cases hs
      exact .env (.delay d) (ih hp)

/-- In a run time and the next heart beat do not go back. -/
theorem GRun.mono {k : Kind} {m : Mode} {s s' : Bg} {tr : List Obs} (h : GRun k m s tr s') : s.hbDue ≤ s'.hbDue ∧ s.now ≤ s'.now := by
  induction h with
  | nil => simp
  | task ht _ ih => have := ht.hbDue; omega
  | env he _ ih => have := he.hbDue; omega

/-- The task has last asked for a connection at time `t`. -/
def Asked (t : Nat) (s : Bg) : Prop :=
  t ≤ s.now ∧
  match s.pc with
  | .connWait _ => True
  | .connSleep d => t + 10000 ≤ d
  | .connSend => t + 10000 ≤ s.now
  | .enable _ => True
  | .store _ => True
  | _ => False

theorem isAttempt_connReq : isAttempt (.tx .task connReqPacket) = true := by decide

theorem attempts_append (a b : List Obs) : attempts (a ++ b) = attempts a + attempts b := by
  simp [attempts, List.countP_append]

theorem ack_not_connect (ch sq st : U8) : serviceIs CONNECT_REQUEST (TunnelingAck.mk ch sq st).packet = false := by
  simp only [TunnelingAck.packet, serviceIs, header, word]; rfl

theorem state_not_connect (c : ConnectionstateRequest) : serviceIs CONNECT_REQUEST c.packet = false := by
  rw [C19_bodies.1, serviceIs_frame]; decide

theorem enable_not_connect (ch : U8) : serviceIs CONNECT_REQUEST (enablePacket ch) = false := by
  rw [enablePacket, C19_bodies.2.2.2.2.1, serviceIs_frame]; decide

/-- A step of the task either is an attempt to connect, or is none. -/
theorem BgTr.attempt {k : Kind} {m : Mode} {s s' : Bg} {o : List Obs} (h : BgTr k m s s' o) (hd : ∀ p, s.pc ≠ .discResp p) :
    (s.pc = .connSend ∧ attempts o = 1 ∧ Asked s.now s') ∨ (s.pc ≠ .connSend ∧ attempts o = 0) := by
  cases h
  case connSendOk hpc => exact Or.inl ⟨hpc, by decide, by simp [Asked]⟩
  case connSendFail hpc => exact Or.inl ⟨hpc, by decide, by simp [Asked]⟩
  case discOk p hpc => exact absurd hpc (hd p)
  case discFail p hpc => exact absurd hpc (hd p)
  case tickBusy hb _ _ => exact Or.inr ⟨fun h => by rw [h] at hb; simp [busy] at hb, by decide⟩
  case tickBusyNone hb _ _ => exact Or.inr ⟨fun h => by rw [h] at hb; simp [busy] at hb, by decide⟩
  all_goals
    refine Or.inr ⟨fun h => by simp_all, ?_⟩
    simp [attempts, List.countP_cons, isAttempt, ack_not_connect, state_not_connect, enable_not_connect]

theorem Asked.task {k : Kind} {m : Mode} {s s1 : Bg} {o : List Obs} {t : Nat} (ht : BgTr k m s s1 o) (ha : Asked t s)
    (hu : ∀ r, Obs.up r ∉ o) (hf : ∀ c, Obs.txFail .task (enablePacket c) ∉ o) : Asked t s1 := by
  unfold Asked at ha
  cases ht
  case connSendOk hpc => exact ⟨ha.1, trivial⟩
  case connSendFail hpc => rw [hpc] at ha; simp only [Asked] at ha ⊢; omega
  case connOkClient => exact ⟨ha.1, trivial⟩
  case connOkMonitor => exact ⟨ha.1, trivial⟩
  case connBad hpc _ => rw [hpc] at ha; simp only [Asked] at ha ⊢; omega
  case connErr hpc => rw [hpc] at ha; simp only [Asked] at ha ⊢; omega
  case connTimeout hpc _ => rw [hpc] at ha; simp only [Asked] at ha ⊢; omega
  case connRetry hpc _ => rw [hpc] at ha; simp only [Asked] at ha ⊢; omega
  case enableOk => exact ⟨ha.1, trivial⟩
  case enableFail r hpc => exact absurd (List.mem_singleton.2 rfl) (hf r.channel)
  case storeClient r _ _ => exact absurd (List.mem_singleton.2 rfl) (hu r)
  case storeMonitor r _ _ => exact absurd (List.mem_singleton.2 rfl) (hu r)
  case tickBusy hb _ _ => exfalso; revert hb ha; cases s.pc <;> simp [busy]
  case tickBusyNone hb _ _ => exfalso; revert hb ha; cases s.pc <;> simp [busy]
  all_goals (exfalso; simp_all)

theorem Asked.env {k : Kind} {s s1 : Bg} {o : List Obs} {t : Nat} (he : Env k s s1 o) (ha : Asked t s) : Asked t s1 := by
  have f := he.facts
  have := he.hbDue
  unfold Asked at ha ⊢
  rw [f.pc]
  refine ⟨by omega, ?_⟩
  have ha2 := ha.2
  split at ha2 <;> omega

theorem Env.attempts {k : Kind} {s s' : Bg} {o : List Obs} (h : Env k s s' o) : Spec.attempts o = 0 := by
  have q : ∀ o : List Obs, (∀ x ∈ o, Knx.quiet x = true) → Spec.attempts o = 0 := by
    intro o h
    rw [Spec.attempts, List.countP_eq_zero]
    intro x hx
    have := h x hx
    cases x <;> first | simp [isAttempt] | skip
    all_goals (rename_i w p; cases w <;> simp_all [Knx.quiet])
  cases h
  case quiet h => exact q _ h
  case take h _ => 
    rename_i hq
    rw [Spec.attempts, List.countP_cons, ← Spec.attempts, q _ hq]
    rfl
  case subs h => exact q _ h
  all_goals rfl

/-- Along a run, no state answers a disconnect request (there are none: C22). -/
def NoDisc (s : Bg) : Prop := ∀ p, s.pc ≠ .discResp p

theorem NoDisc.task {k : Kind} {m : Mode} {s s' : Bg} {o : List Obs} (h : NoDisc s) (ht : BgTr k m s s' o) : NoDisc s' := by
  unfold NoDisc at *
  cases ht <;> simp_all

theorem NoDisc.env {k : Kind} {s s' : Bg} {o : List Obs} (h : NoDisc s) (he : Env k s s' o) : NoDisc s' := by
  unfold NoDisc at *
  rw [he.facts.pc]; exact h

/-- The number of attempts in a run. -/
theorem GRun.attempts {k : Kind} {m : Mode} {s s' : Bg} {tr : List Obs} (h : GRun k m s tr s') (hd : NoDisc s)
    (hu : ∀ r, Obs.up r ∉ tr) (hf : ∀ c, Obs.txFail .task (enablePacket c) ∉ tr) :
    (∀ t, Asked t s → t + 10000 * Spec.attempts tr ≤ s'.now) ∧ s.now + 10000 * Spec.attempts tr ≤ s'.now + 10000 := by
  induction h with
  | nil => exact ⟨fun t ha => by simpa [Spec.attempts] using ha.1, by simp [Spec.attempts]⟩
  | @task s s1 s2 o tr ht hrun ih =>
    have hu' := fun r hr => hu r (List.mem_append_left _ hr)
    have hf' := fun c hr => hf c (List.mem_append_left _ hr)
    obtain ⟨i1, i2⟩ := ih (hd.task ht) (fun r hr => hu r (List.mem_append_right _ hr)) (fun c hr => hf c (List.mem_append_right _ hr))
    have hn := ht.hbDue.2.1
    rw [attempts_append]
    rcases ht.attempt hd with ⟨hpc, ha, hb⟩ | ⟨hpc, ha⟩
    · have := i1 _ hb
      refine ⟨fun t h => ?_, by omega⟩
      have h2 := h.2
      rw [hpc] at h2
      simp only at h2
      omega
    · refine ⟨fun t h => ?_, by omega⟩
      have := i1 t (h.task ht hu' hf')
      omega
  | @env s s1 s2 o tr he hrun ih =>
    obtain ⟨i1, i2⟩ := ih (hd.env he) (fun r hr => hu r (List.mem_append_right _ hr)) (fun c hr => hf c (List.mem_append_right _ hr))
    have hn := he.hbDue.2.1
    rw [attempts_append, he.attempts]
    refine ⟨fun t h => ?_, by omega⟩
    have := i1 t (h.env he)
    omega

theorem GExec.clientNoEnable {m : Mode} {s : Bg} {tr : List Obs} (h : GExec .client m s tr) : ∀ r, s.pc ≠ .enable r := by
  intro r hr
  have := h.sendInv
  simp [SendInv, hr] at this

theorem GExec.clientNoNotify {m : Mode} {s : Bg} {tr : List Obs} (h : GExec .client m s tr) : ∀ t a, s.pc ≠ .notify t a := by
  induction h with
  | init => simp [Bg.init]
  | env _ he ih => rw [he.facts.pc]; exact ih
  | @task s s' tr o hx ht ih =>
    intro t a hp
    cases ht <;> simp_all

end Knx
