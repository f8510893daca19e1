import Verif.Spec.Faults
import Verif.Props.Transport
import Mathlib.Data.List.Induction

/-!
# What makes the task give a connection up (C91)
-/

namespace Knx
open Spec

/-- The last thing the task did was a fault of the established connection. -/
def LastFault (t : List Obs) : Prop := ∃ a x, t = a ++ [x] ∧ upNow a = true ∧ Fault x

/-- A short tunneling request. -/
def Short (x : Obs) : Prop := ∃ d, x = .rx d ∧ ∃ (len : Nat) (channel seq pad : U8) (rest : Bytes),
  len < 10 ∧ seen d = header TUNNELING_REQUEST len ++ [4, channel, seq, pad] ++ rest

/-- Faults and the ends of connections go together. -/
def Matched (t : List Obs) : Prop := ∀ a x y b, t = a ++ x :: y :: b →
  (y = .down → upNow a = true ∧ Fault x) ∧ (upNow a = true → Fault x → y = .down ∨ (y = .crash ∧ Short x))

theorem Matched.snoc {t : List Obs} {y : Obs} (h : Matched t) (h1 : y = .down → LastFault t)
    (h2 : ∀ a x, t = a ++ [x] → upNow a = true → Fault x → y = .down ∨ (y = .crash ∧ Short x)) : Matched (t ++ [y]) := by
  intro a x y' b he
  rcases List.eq_nil_or_concat b with rfl | ⟨b', z, rfl⟩
  · have e1 : t ++ [y] = (a ++ [x]) ++ [y'] := by simpa using he
    obtain ⟨rfl, e2⟩ := List.append_inj' e1 rfl
    cases e2
    refine ⟨fun hy => ?_, h2 a x rfl⟩
    obtain ⟨a', x', g1, g2, g3⟩ := h1 hy
    obtain ⟨rfl, g4⟩ := List.append_inj' g1 rfl
    cases g4
    exact ⟨g2, g3⟩
  · have e1 : t ++ [y] = (a ++ x :: y' :: b') ++ [z] := by simpa using he
    obtain ⟨rfl, -⟩ := List.append_inj' e1 rfl
    exact h a x y' b' rfl

theorem lastFault_snoc {t : List Obs} {y : Obs} : LastFault (t ++ [y]) ↔ upNow t = true ∧ Fault y := by
  constructor
  · rintro ⟨a, x, g1, g2, g3⟩
    obtain ⟨rfl, g4⟩ := List.append_inj' g1 rfl
    cases g4
    exact ⟨g2, g3⟩
  · rintro ⟨h1, h2⟩; exact ⟨t, y, rfl, h1, h2⟩

theorem upNow_taskObs (tr : List Obs) : upNow (taskObs tr) = upNow tr := by
  induction tr using List.reverseRecOn with
  | nil => rfl
  | append_singleton tr x ih =>
    rw [taskObs, List.filter_append, upNow_append, upNow_append, ← ih]
    cases hx : ofTask x <;> simp [hx, taskObs]
    cases x <;> simp_all [ofTask, upStep]

theorem env_taskObs {k : Kind} {s s' : Bg} {o : List Obs} (h : Env k s s' o) : taskObs o = [] := by
  have q : ∀ o : List Obs, (∀ x ∈ o, quiet x = true) → taskObs o = [] := by
    intro o h
    rw [taskObs, List.filter_eq_nil_iff]
    intro x hx
    have := h x hx
    clear h hx
    cases x <;> try (simp [quiet, ofTask] at this ⊢; done)
    all_goals rename_i w p; cases w <;> simp [quiet, ofTask] at this ⊢
  cases h
  case quiet h => exact q _ h
  case take i c rest o h1 h => simpa [taskObs, ofTask] using q _ h
  case subs h => exact q _ h
  all_goals rfl

theorem fault_tx (w : Who) (p : Bytes) : ¬ Fault (.tx w p) := by simp [Fault]

theorem fault_decodes {d : Bytes} {y : Response} (h : parseResponse (buffer d) = .ok y)
    (hy : ∀ r, y = .connectionstateResponse r → r.status = 0) : ¬ Fault (.rx d) := by
  have hd := parse_seen h
  rintro (h | ⟨p, h⟩ | h | ⟨d', h, -, h2⟩)
  · cases h
  · cases h
  · cases h
  · cases h
    rcases h2 with h2 | ⟨r, h2, h3⟩
    · exact h2 _ hd
    · rw [← C21_dispatch_exact] at h2 hd
      rw [h2] at hd
      cases hd
      exact h3 (hy r rfl)

theorem fault_empty : ¬ Fault (.rx []) := by simp [Fault]

/-- The invariant. -/
theorem GExec.faults {k : Kind} {m : Mode} {s : Bg} {tr : List Obs} (h : GExec k m s tr) :
    (s.pc = .teardown ↔ LastFault (taskObs tr)) ∧ Matched (taskObs tr) := by
  have app : ∀ a b : List Obs, taskObs (a ++ b) = taskObs a ++ taskObs b := fun a b => by simp [taskObs]
  induction h with
  | init => exact ⟨by simp [Bg.init, LastFault, taskObs], by intro a x y b h; simp [taskObs] at h⟩
  | @env s s' tr o hx he ih => rw [app, env_taskObs he, List.append_nil, he.facts.pc]; exact ih
  | @task s s' tr o hx ht ih =>
    obtain ⟨ih1, ih2⟩ := ih
    have hci := hx.conn_iff
    have hu : Spec.upNow (taskObs tr) = pcUp s.pc := by rw [upNow_taskObs, ← hx.upNow, hci.1]
    -- the task was not about to give up: a step with one observation
    have one : ∀ y, ofTask y = true → s.pc ≠ .teardown → y ≠ .down → (s'.pc = .teardown ↔ pcUp s.pc = true ∧ Fault y) →
        (s'.pc = .teardown ↔ LastFault (taskObs (tr ++ [y]))) ∧ Matched (taskObs (tr ++ [y])) := by
      intro y h0 h1 h2 h3
      have e : taskObs (tr ++ [y]) = taskObs tr ++ [y] := by rw [app]; simp [taskObs, h0]
      rw [e, lastFault_snoc, hu]
      exact ⟨h3, ih2.snoc (fun h => absurd h h2) fun a x g1 g2 g3 => absurd (ih1.2 ⟨a, x, g1, g2, g3⟩) h1⟩
    have two : ∀ y z, ofTask y = true → ofTask z = true → s.pc ≠ .teardown → s'.pc ≠ .teardown → y ≠ .down → z ≠ .down →
        (∀ b, upStep b y = b) → ¬ Fault z → (pcUp s.pc = true → Fault y → z = .crash ∧ Short y) →
        (s'.pc = .teardown ↔ LastFault (taskObs (tr ++ [y, z]))) ∧ Matched (taskObs (tr ++ [y, z])) := by
      intro y z h0 h0' h1 h1' h2 h2' h3 h4 h5
      have e : taskObs (tr ++ [y, z]) = (taskObs tr ++ [y]) ++ [z] := by rw [app]; simp [taskObs, h0, h0']
      rw [e, lastFault_snoc]
      refine ⟨⟨fun h => absurd h h1', fun h => absurd h.2 h4⟩, ?_⟩
      refine (ih2.snoc (fun h => absurd h h2) fun a x g1 g2 g3 => absurd (ih1.2 ⟨a, x, g1, g2, g3⟩) h1).snoc (fun h => absurd h h2') ?_
      intro a x g1 g2 g3
      obtain ⟨rfl, g4⟩ := List.append_inj' g1 rfl
      cases g4
      exact Or.inr (h5 (hu ▸ g2) g3)
    have nil : s.pc ≠ .teardown → s'.pc ≠ .teardown →
        (s'.pc = .teardown ↔ LastFault (taskObs (tr ++ []))) ∧ Matched (taskObs (tr ++ [])) := by
      intro h1 h2
      rw [List.append_nil]
      exact ⟨⟨fun h => absurd h h2, fun h => absurd (ih1.2 h) h1⟩, ih2⟩
    have rxf : ∀ d, d ≠ [] → parseResponse (buffer d) = .err → Fault (.rx d) := fun d hd hp =>
      Or.inr (Or.inr (Or.inr ⟨d, rfl, hd, Or.inl (parse_err_not_decodes hp)⟩))
    cases ht
    case topNone hpc _ => exact nil (by simp [hpc]) (by simp)
    case topSome hpc _ => exact nil (by simp [hpc]) (by simp)
    case connSendOk hpc => exact one _ rfl (by simp [hpc]) (by simp) (by simp [fault_tx])
    case connSendFail hpc => exact one _ rfl (by simp [hpc]) (by simp) (by simp [hpc, pcUp])
    case connOkClient hpc _ _ => exact one _ rfl (by simp [hpc]) (by simp) (by simp [hpc, pcUp])
    case connOkMonitor hpc _ _ => exact one _ rfl (by simp [hpc]) (by simp) (by simp [hpc, pcUp])
    case connBad hpc _ => exact one _ rfl (by simp [hpc]) (by simp) (by simp [hpc, pcUp])
    case connErr hpc => exact one _ rfl (by simp [hpc]) (by simp) (by simp [hpc, pcUp])
    case connTimeout hpc _ => exact nil (by simp [hpc]) (by simp)
    case connRetry hpc _ => exact nil (by simp [hpc]) (by simp)
    case enableOk hpc => exact one _ rfl (by simp [hpc]) (by simp) (by simp [hpc, pcUp])
    case enableFail hpc => exact one _ rfl (by simp [hpc]) (by simp) (by simp [hpc, pcUp])
    case storeClient hpc _ => exact one _ rfl (by simp [hpc]) (by simp) (by simp [hpc, pcUp])
    case storeMonitor hpc _ => exact one _ rfl (by simp [hpc]) (by simp) (by simp [hpc, pcUp])
    case notifyEnd hpc => exact nil (by simp [hpc]) (by simp)
    case notifyClosed hpc _ => exact nil (by simp [hpc]) (by simp)
    case notifyOpen hpc _ _ => exact one _ rfl (by simp [hpc]) (by simp) (by simp [Fault])
    case recvEmpty hpc => exact one _ rfl (by simp [hpc]) (by simp) (by simp [hpc, fault_empty])
    case recvErr d hpc hd hp => exact one _ rfl (by simp [hpc]) (by simp) (by simp [hpc, pcUp, rxf d hd hp])
    case recvPanic d hpc hd hp =>
      refine two _ _ rfl rfl (by simp [hpc]) (by simp) (by simp) (by simp) (fun _ => rfl) (by simp [Fault]) fun _ _ => ⟨rfl, d, rfl, ?_⟩
      rw [← buffer_eq_seen]
      exact (C20_panics_iff _).1 hp
    case recvReq hpc hd hp => exact one _ rfl (by simp [hpc]) (by simp) (by simp [fault_decodes hp])
    case recvAck hpc hd hp => exact one _ rfl (by simp [hpc]) (by simp) (by simp [hpc, fault_decodes hp])
    case recvFeat hpc hd hp => exact one _ rfl (by simp [hpc]) (by simp) (by simp [fault_decodes hp])
    case recvStateOk d r hpc hd hp h0 =>
      exact one _ rfl (by simp [hpc]) (by simp) (by simp [hpc, fault_decodes hp (fun r' h => by cases h; exact h0)])
    case recvStateBad d r hpc hd hp h0 =>
      have : Fault (.rx d) := Or.inr (Or.inr (Or.inr ⟨d, rfl, hd, Or.inr ⟨r, parse_seen hp, h0⟩⟩))
      exact one _ rfl (by simp [hpc]) (by simp) (by simp [hpc, pcUp, this])
    case recvDisc hpc hd hp =>
      exact two _ _ rfl rfl (by simp [hpc]) (by simp) (by simp) (by simp) (fun _ => rfl) (by simp [Fault]) fun _ h =>
        absurd h (fault_decodes hp (by simp))
    case recvIoErr hpc => exact one _ rfl (by simp [hpc]) (by simp) (by simp [hpc, pcUp, Fault])
    case ackReqOk hpc _ => exact one _ rfl (by simp [hpc]) (by simp) (by simp [fault_tx])
    case ackReqBad hpc _ => exact one _ rfl (by simp [hpc]) (by simp) (by simp [fault_tx])
    case ackReqPanic hpc _ =>
      exact two _ _ rfl rfl (by simp [hpc]) (by simp) (by simp) (by simp) (fun _ => rfl) (by simp [Fault]) fun _ h => absurd h (fault_tx _ _)
    case ackReqFail hpc => exact one _ rfl (by simp [hpc]) (by simp) (by simp [hpc, pcUp, Fault])
    case pushClosed hpc _ => exact one _ rfl (by simp [hpc]) (by simp) (by simp [hpc, pcUp, Fault])
    case pushOk hpc _ _ => exact one _ rfl (by simp [hpc]) (by simp) (by simp [Fault])
    case ackFeatOk hpc => exact one _ rfl (by simp [hpc]) (by simp) (by simp [fault_tx])
    case ackFeatFail hpc => exact one _ rfl (by simp [hpc]) (by simp) (by simp [hpc, pcUp, Fault])
    case discOk p hpc => exact absurd hpc (hci.2 p)
    case discFail p hpc => exact absurd hpc (hci.2 p)
    case hbOk hpc => exact one _ rfl (by simp [hpc]) (by simp) (by simp [fault_tx])
    case hbFail hpc => exact one _ rfl (by simp [hpc]) (by simp) (by simp [hpc, pcUp, Fault])
    case teardown hpc =>
      have e : taskObs (tr ++ [.down]) = taskObs tr ++ [.down] := by rw [app]; rfl
      rw [e, lastFault_snoc]
      exact ⟨by simp [Fault], ih2.snoc (fun _ => ih1.1 hpc) fun _ _ _ _ _ => Or.inl rfl⟩
    case tickIdle hpc _ _ => exact one _ rfl (by simp [hpc]) (by simp) (by simp [Fault])
    case tickBusy hb _ _ =>
      have h1 : s.pc ≠ .teardown := by intro h; rw [h] at hb; simp [busy] at hb
      exact two _ _ rfl rfl h1 (by simp) (by simp) (by simp) (fun _ => rfl) (by simp [Fault]) fun _ h => by simp [Fault] at h
    case tickIdleNone hpc _ hc => rw [hpc, hc] at hci; simp [pcUp] at hci
    case tickBusyNone hb _ hc =>
      exfalso
      have := hci.1
      rw [hc] at this
      revert hb this
      cases s.pc <;> simp [busy, pcUp]

/-- C91: a fault of an established connection is the last thing the task does with it: the next thing the task does is to give it up
(or, if the fault is a short tunneling request, to panic). And it never gives up a connection for anything else than a fault that has just
happened. -/
theorem C91_faults {m : Mode} {k : Kind} {s : Bg} {tr : List Obs} (h : Reaches m k s tr) {a b : List Obs} {x y : Obs}
    (ht : taskObs tr = a ++ x :: y :: b) :
    (y = .down → upNow a = true ∧ Fault x) ∧
    (upNow a = true → Fault x → y = .down ∨
      (y = .crash ∧ ∃ d, x = .rx d ∧ ∃ (len : Nat) (channel seq pad : U8) (rest : Bytes),
        len < 10 ∧ seen d = header TUNNELING_REQUEST len ++ [4, channel, seq, pad] ++ rest)) :=
  h.gexec.faults.2 a x y b ht

/-- C91: as soon as a fault has happened the task can give the connection up, and it can do nothing else. -/
theorem C91_next {m : Mode} {k : Kind} {s : Bg} {tr : List Obs} (h : Reaches m k s tr) {a : List Obs} {x : Obs}
    (ht : taskObs tr = a ++ [x]) (hu : upNow a = true) (hf : Fault x) :
    (∃ s', bgStep k m s .run = some (s', [.down])) ∧ ∀ e s' o, bgStep k m s e = some (s', o) → o = [.down] := by
  have hpc := h.gexec.faults.1.2 ⟨a, x, ht, hu, hf⟩
  constructor
  · exact ⟨{ s with conn := none, pc := .top }, by simp [bgStep, hpc]⟩
  · intro e s' o hs
    cases e <;> simp [bgStep, hpc, tickStep, inSelect] at hs
    exact hs.2.symm

/-- A heart beat that cannot be sent ends the connection; a datagram that does not decode ends the next one. -/
example (m : Mode) : ∃ s tr, Exec m s tr ∧ taskObs tr =
    [.tx .task connReqPacket, .rxConn grant7, .up conn7, .tick, .txFail .task [6, 0x10, 2, 7, 0, 16, 7, 0, 8, 1, 192, 168, 1, 2, 0x0e, 0x57], .down,
     .tx .task connReqPacket, .rxConn grant7, .up conn7, .rx [1, 2, 3], .down] := by
  obtain ⟨s, tr, h1, h2⟩ := exec_of_evs (m := m) (evs := [.bg .run, .bg .sendOk, .bg (.dgram grant7), .bg .run, .delay 60000,
      .bg .tick, .api (.call .status), .bg .sendFail, .bg .run, .bg .run, .bg .sendOk, .bg (.dgram grant7), .bg .run, .bg (.dgram [1, 2, 3]), .bg .run])
    (f := fun x => taskObs x.2)
    (y := [.tx .task connReqPacket, .rxConn grant7, .up conn7, .tick, .txFail .task [6, 0x10, 2, 7, 0, 16, 7, 0, 8, 1, 192, 168, 1, 2, 0x0e, 0x57], .down,
     .tx .task connReqPacket, .rxConn grant7, .up conn7, .rx [1, 2, 3], .down]) (by cases m <;> decide +kernel)
  exact ⟨s, tr, h1, h2⟩

/-- A fault that has just happened, on a monitor. -/
example (m : Mode) : ∃ s, Reaches m .monitor s (linkTrace .monitor grant7 conn7 ++ [.rxErr]) ∧
    taskObs (linkTrace .monitor grant7 conn7 ++ [.rxErr]) = linkTrace .monitor grant7 conn7 ++ [.rxErr] ∧ upNow (linkTrace .monitor grant7 conn7) = true :=
  ⟨_, (reaches_link m .monitor grants7).append (evs := [.recvErr]) (s' := { linkUp .monitor conn7 with pc := .teardown }) rfl, rfl, rfl⟩

/-- Before a connection is established a fault does not give anything up: the same observations, no `down`. -/
example (m : Mode) : ∃ s tr, Exec m s tr ∧ taskObs tr = [.txFail .task connReqPacket, .tx .task connReqPacket, .rxErr, .tx .task connReqPacket] := by
  obtain ⟨s, tr, h1, h2⟩ := exec_of_evs (m := m) (evs := [.bg .run, .bg .sendFail, .delay 10000, .bg .timer, .bg .sendOk, .bg .recvErr, .delay 10000,
      .bg .timer, .bg .sendOk]) (f := fun x => taskObs x.2)
    (y := [.txFail .task connReqPacket, .tx .task connReqPacket, .rxErr, .tx .task connReqPacket]) (by cases m <;> decide +kernel)
  exact ⟨s, tr, h1, h2⟩

end Knx
