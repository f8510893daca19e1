import Verif.Props.Timing

/-!
# C68: the bound on the distance of heart beats cannot be improved
-/

namespace Knx
open Spec

/-- One heart beat. -/
theorem beat_once (k : Kind) (m : Mode) (s : Bg) (c : Conn) (hpc : s.pc = .recv) (hc : s.conn = some c) (hd : s.hbDue ≤ s.now)
    (hl : s.now ≤ s.hbDue + 5) :
    ∃ p, serviceIs CONNECTIONSTATE_REQUEST p = true ∧ Alone k m s [.tick, .tx .task p] { s with hbDue := s.hbDue + 60000 } := by
  refine ⟨(ConnectionstateRequest.mk c.channel c.endpoint).packet, by rw [C19_bodies.1, serviceIs_frame]; rfl, ?_⟩
  have h1 : bgStep k m s .tick = some ({ s with hbDue := s.hbDue + 60000, pc := .hb c.channel c.endpoint }, [.tick]) := by
    simp only [bgStep, if_true, tickStep, hpc, inSelect, hd, and_self, busy, hc, nextTick, if_neg (Nat.not_lt.2 hl)]
    rfl
  have h2 : bgStep k m { s with hbDue := s.hbDue + 60000, pc := .hb c.channel c.endpoint } .sendOk =
      some ({ s with hbDue := s.hbDue + 60000 }, [.tx .task (ConnectionstateRequest.mk c.channel c.endpoint).packet]) := by
    cases s; simp_all [bgStep]
  exact .step _ h1 (.step _ h2 (.nil _))

/-- Connected at time `t`, the next heart beat due at `d`. -/
def clock (k : Kind) (t d : Nat) : Bg := { linkUp k conn7 with now := t, hbDue := d }

theorem clock_now (k : Kind) (t d : Nat) : (clock k t d).now = t := rfl

theorem clock_delay {k : Kind} {m : Mode} {t d : Nat} {tr : List Obs} {s : Bg} (x : Nat) (h : Alone k m (clock k (t + x) d) tr s) :
    Alone k m (clock k t d) tr s := .delay x h

theorem beat_clock (k : Kind) (m : Mode) (t d : Nat) (hd : d ≤ t) (hl : t ≤ d + 5) :
    ∃ p, serviceIs CONNECTIONSTATE_REQUEST p = true ∧ Alone k m (clock k t d) [.tick, .tx .task p] (clock k t (d + 60000)) :=
  beat_once k m (clock k t d) _ rfl rfl hd hl

/-- C68: the bound of `C68_spacing` is attained for any number of heart beats: the first one comes five milliseconds late, the following
ones on time. -/
theorem C68_tight (m : Mode) (k : Kind) (n : Nat) : ∃ s tr tr' s', Goes m k s tr tr' s' ∧ tr'.count .tick = n + 2 ∧ beatsSent tr' = n + 2 ∧
    60000 * (n + 2) = (s'.now - s.now) + 60005 := by
  have more : ∀ n, ∃ tr', Alone k m (clock k 5 0) tr' (clock k (60000 * (n + 1)) (60000 * (n + 2))) ∧
      tr'.count .tick = n + 2 ∧ beatsSent tr' = n + 2 := by
    intro n
    induction n with
    | zero =>
      obtain ⟨p, h1, h2⟩ := beat_clock k m 5 0 (by omega) (by omega)
      obtain ⟨q, h3, h4⟩ := beat_clock k m (5 + 59995) (0 + 60000) (by omega) (by omega)
      have h5 := h2.trans (clock_delay 59995 h4)
      rw [show 5 + 59995 = 60000 * (0 + 1) by omega, show 0 + 60000 + 60000 = 60000 * (0 + 2) by omega] at h5
      refine ⟨_, h5, by simp, ?_⟩
      simp [beatsSent, taskSent, h1, h3]
    | succ n ih =>
      obtain ⟨tr, h1, h2, h3⟩ := ih
      obtain ⟨q, h4, h5⟩ := beat_clock k m (60000 * (n + 1) + 60000) (60000 * (n + 2)) (by omega) (by omega)
      have h6 := h1.trans (clock_delay 60000 h5)
      rw [show 60000 * (n + 1) + 60000 = 60000 * (n + 1 + 1) by omega, show 60000 * (n + 2) + 60000 = 60000 * (n + 1 + 2) by omega] at h6
      refine ⟨_, h6, by simp [h2], ?_⟩
      have : beatsSent (tr ++ [.tick, .tx .task q]) = beatsSent tr + 1 := by simp [beatsSent, taskSent, h4]
      rw [this, h3]
  obtain ⟨tr', h1, h2, h3⟩ := more n
  have e : 60000 * (n + 2) = ((clock k (60000 * (n + 1)) (60000 * (n + 2))).now - (clock k 5 0).now) + 60005 := by
    rw [clock_now, clock_now]; omega
  cases k with
  | client => exact ⟨_, _, _, _, .client (((exec_link m grants7).step (.delay 5) rfl)) (h1.run .idle), h2, h3, e⟩
  | monitor => exact ⟨_, _, _, _, .monitor (((mexec_link m grants7).step (.delay 5) rfl)) (h1.mrun .idle []), h2, h3, e⟩

end Knx
