import Verif.Props.Wire

/-!
# C50: exactly which frames end the receive task
-/

namespace Knx
open Spec

/-- C50, exactly which frames end the task: one received while connected panics the task exactly if it is a tunneling
request that declares a length below ten, ends it exactly if it is a disconnect response, and, if it is a tunneling request
that is acknowledged, panics it after the acknowledgement exactly if its telegram has too much additional information for a
debug build. -/
theorem C50_iff {m : Mode} {k : Kind} {s s' : Bg} {d : Bytes} {o : List Obs}
    (hs : bgStep k m s (.dgram d) = some (s', o)) (hr : Obs.rx d ∈ o) :
    (Obs.crash ∈ o ↔ TooShort d) ∧
    (Obs.exit ∈ o ↔ ∃ r, Decodes (seen d) (.disconnectResponse r)) ∧
    (∀ t, Decodes (seen d) (.tunnelingRequest t) → ∃ s'' o', bgStep k m s' .sendOk = some (s'', o') ∧
      (Obs.crash ∈ o' ↔ Explosive m t.cemi)) := by
  have hd : ∀ x, Decodes (seen d) x ↔ parseResponse (buffer d) = .ok x := fun x => (parse_iff d x).symm
  have hz : parseResponse (buffer []) = .err := by rfl
  have ht := bgStep_tr hs
  simp only [hd, ← tooShort_iff, ← explosive_iff]
  cases ht
  all_goals simp only [List.mem_cons, List.not_mem_nil, or_false, reduceCtorEq, Obs.rx.injEq, or_self] at hr
  case recvEmpty h1 => subst hr; simp [hz]
  case recvErr h1 h2 h3 => subst hr; simp [h3]
  case recvPanic h1 h2 h3 => subst hr; simp [h3]
  case recvReq h1 h2 h3 =>
    subst hr
    refine ⟨by simp [h3], by simp [h3], fun t e => ?_⟩
    have e' := h3.symm.trans e
    injection e' with e'; injection e' with e'; subst e'
    generalize hq : runRd (Cemi.fromPacket m) id _ = q
    cases q with
    | ok c => exact ⟨_, _, by simp only [bgStep]; rw [hq, if_neg (by simp)], by simp⟩
    | err => exact ⟨_, _, by simp only [bgStep]; rw [hq, if_neg (by simp)], by simp⟩
    | panic => exact ⟨_, _, by simp only [bgStep]; rw [hq, if_neg (by simp)], by simp [endObs]⟩
  case recvAck h1 h2 h3 => subst hr; simp [h3]
  case recvFeat h1 h2 h3 => subst hr; simp [h3]
  case recvStateOk h1 h2 h3 h4 => subst hr; simp [h3]
  case recvStateBad h1 h2 h3 h4 => subst hr; simp [h3]
  case recvDisc h1 h2 h3 => subst hr; simp [h3]

/-- The hypotheses are met: the deadly frame of `C50_violated`, received over an established connection. -/
example (m : Mode) (k : Kind) (d : Bytes) (r : ConnectionResponse) (_ : Grants d r) :
    ∃ s' o, bgStep k m (linkUp k r) (.dgram killer) = some (s', o) ∧ Obs.rx killer ∈ o ∧ TooShort killer := by
  have e : parseResponse (buffer killer) = .panic := by rfl
  have e' : onDatagram killer = .crashed := by simp [onDatagram, e, show killer.length = 10 from rfl]
  refine ⟨_, _, by simp [bgStep, linkUp, Bg.init, e']; exact ⟨rfl, rfl⟩, by simp, (tooShort_iff _).1 e⟩

end Knx
