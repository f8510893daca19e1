import Verif.Props.Timing
import Verif.Props.Programs
import Verif.Props.Recovery

/-!
# C119: The library never sends much more than it receives
-/

namespace Knx
open Spec

/-- How much an answer to a connect request can set off: on the client the next connect request, on the monitor also the feature request. -/
def weight : Kind → Nat
  | .client => 1
  | .monitor => 2

/-- Sends that have been set off and not been made, and the time until the next connect request may be sent. -/
def credit (s : Bg) : Int :=
  match s.pc with
  | .connWait _ => s.now + 10000
  | .connSleep dl => max s.now dl
  | .enable _ => s.now - 10000
  | .ackReq _ _ _ => s.now - 10000
  | .ackFeat _ _ => s.now - 10000
  | .discResp _ => s.now - 10000
  | .hb _ _ => s.now - 10000
  | _ => s.now

theorem BgTr.credit {k : Kind} {m : Mode} {s s' : Bg} {o : List Obs} (h : BgTr k m s s' o) :
    10000 * ((taskSent o).length : Int) ≤ 10000 * ((received o).length + weight k * (connAnswers o).length + o.count .tick) + credit s' - credit s := by
  cases h
  case tickBusy hb _ _ => 
    revert hb
    cases hp : s.pc <;> simp [busy, Knx.credit, hp, taskSent, received, connAnswers]
  case tickBusyNone hb _ _ => 
    revert hb
    cases hp : s.pc <;> simp [busy, Knx.credit, hp, taskSent, received, connAnswers] <;> omega
  all_goals (simp_all [Knx.credit, taskSent, received, connAnswers, weight])
  all_goals (try omega)

theorem quiet_counts {o : List Obs} (h : ∀ x ∈ o, quiet x = true) : taskSent o = [] := by
  simp only [taskSent, List.filterMap_eq_nil_iff]
  intro x hx
  have h1 := h x hx
  clear h
  cases x with
  | tx w p =>
    cases w with
    | task => cases h1
    | api => rfl
  | _ => rfl

theorem Env.credit {k : Kind} {s s' : Bg} {o : List Obs} (h : Env k s s' o) : taskSent o = [] ∧ credit s ≤ credit s' := by
  cases h
  case quiet h => exact ⟨quiet_counts h, Int.le_refl _⟩
  case draw => exact ⟨rfl, Int.le_refl _⟩
  case take h => exact ⟨by simpa [taskSent] using quiet_counts h, Int.le_refl _⟩
  case drop => exact ⟨rfl, Int.le_refl _⟩
  case subs h => exact ⟨quiet_counts h, Int.le_refl _⟩
  case chans => exact ⟨rfl, Int.le_refl _⟩
  case delay => 
    refine ⟨rfl, ?_⟩
    unfold Knx.credit
    cases s.pc <;> simp <;> omega

theorem GRun.credit {k : Kind} {m : Mode} {s s' : Bg} {tr : List Obs} (h : GRun k m s tr s') :
    10000 * ((taskSent tr).length : Int) ≤
      10000 * ((received tr).length + weight k * (connAnswers tr).length + tr.count .tick) + Knx.credit s' - Knx.credit s := by
  induction h with
  | nil => simp [taskSent, received, connAnswers]
  | @task s s1 s2 o tr ht _ ih =>
    have h1 := ht.credit
    have e : (weight k : Int) * (connAnswers (o ++ tr)).length = weight k * (connAnswers o).length + weight k * (connAnswers tr).length := by
      simp only [connAnswers, List.filterMap_append, List.length_append, Int.natCast_add, Int.mul_add]
    rw [e]
    simp only [taskSent, received, List.filterMap_append, List.length_append, List.count_append, Int.natCast_add] at *
    omega
  | @env s s1 s2 o tr he _ ih =>
    obtain ⟨h1, h2⟩ := he.credit
    have e : (weight k : Int) * (connAnswers (o ++ tr)).length = weight k * (connAnswers o).length + weight k * (connAnswers tr).length := by
      simp only [connAnswers, List.filterMap_append, List.length_append, Int.natCast_add, Int.mul_add]
    have e1 : taskSent (o ++ tr) = taskSent tr := by rw [show taskSent (o ++ tr) = taskSent o ++ taskSent tr by simp [taskSent], h1]; rfl
    rw [e, e1]
    have e2 : 0 ≤ (weight k : Int) * (connAnswers o).length := Int.mul_nonneg (Int.natCast_nonneg _) (Int.natCast_nonneg _)
    simp only [received, List.filterMap_append, List.length_append, List.count_append, Int.natCast_add] at *
    omega

theorem credit_bounds {s : Bg} (h : ∀ dl, s.pc = .connSleep dl → dl ≤ s.now + 10000) : credit s ≤ s.now + 10000 := by
  unfold credit
  cases hp : s.pc <;> simp <;> try omega
  have := h _ hp
  omega

theorem GRun.trans {k : Kind} {m : Mode} {s0 s1 s2 : Bg} {t1 t2 : List Obs} (h1 : GRun k m s0 t1 s1) (h2 : GRun k m s1 t2 s2) : GRun k m s0 (t1 ++ t2) s2 := by
  induction h1 with
  | nil => exact h2
  | task ht _ ih => rw [List.append_assoc]; exact .task ht (ih h2)
  | env he _ ih => rw [List.append_assoc]; exact .env he (ih h2)

theorem GExec.grun {k : Kind} {m : Mode} {s : Bg} {tr : List Obs} (h : GExec k m s tr) : GRun k m Bg.init tr s := by
  induction h with
  | init => exact .nil _
  | task _ ht ih => exact ih.trans (by simpa using GRun.task ht (.nil _))
  | env _ he ih => exact ih.trans (by simpa using GRun.env he (.nil _))

/-- What both kinds have in common. -/
theorem task_rate {m : Mode} {k : Kind} {s : Bg} {tr : List Obs} (h : Reaches m k s tr) :
    60000 * (taskSent tr).length ≤ 60000 * ((received tr).length + weight k * (connAnswers tr).length) + 7 * s.now + 120000 := by
  have hg := h.gexec
  have h1 := hg.grun.credit
  have h2 := credit_bounds hg.sleepSoon
  have h3 := hg.grun.ticks.1
  have h4 := hg.hbSoon
  have e : credit Bg.init = 0 := rfl
  have e' : Bg.init.hbDue = 0 := rfl
  have e2 : (weight k : Int) * (connAnswers tr).length = ((weight k * (connAnswers tr).length : Nat) : Int) := by push_cast; rfl
  rw [e2] at h1
  omega

/-- C119: in every execution of the client, the background task sends no more datagrams than it has received, but for one per ten seconds and one per minute
(asking for a connection, heart beats), and two. -/
theorem C119_client {m : Mode} {s : Sys} {tr : List Obs} (h : Exec m s tr) :
    60000 * (taskSent tr).length ≤ 60000 * ((received tr).length + (connAnswers tr).length) + 7 * s.bg.now + 120000 := by
  simpa [weight] using task_rate (.client h)

/-- C119: the task of the monitor may send one more for each answer to a connect request. -/
theorem C119_monitor {m : Mode} {s : MSys} {tr : List Obs} (h : MExec m s tr) :
    60000 * (taskSent tr).length ≤ 60000 * ((received tr).length + 2 * (connAnswers tr).length) + 7 * s.bg.now + 120000 := by
  simpa [weight] using task_rate (.monitor h)

theorem credit_above (s : Bg) : (s.now : Int) ≤ credit s + 10000 := by
  unfold credit
  cases hp : s.pc <;> simp <;> omega

/-- C119: and from any point of an execution on, whatever the server has been doing before: the allowance does not build up. -/
theorem C119_window {m : Mode} {k : Kind} {s s' : Bg} {tr tr' : List Obs} (h : Goes m k s tr tr' s') :
    60000 * (taskSent tr').length ≤
      60000 * ((received tr').length + weight k * (connAnswers tr').length) + 7 * (s'.now - s.now) + 180005 := by
  have h0 := (C68_spacing h).1
  obtain ⟨hg, hr⟩ := h.grun
  have h1 := hr.credit
  have h2 := credit_bounds (hg.append hr).sleepSoon
  have h3 := credit_above s
  have h4 := hr.mono.2
  have e2 : (weight k : Int) * (connAnswers tr').length = ((weight k * (connAnswers tr').length : Nat) : Int) := by push_cast; rfl
  rw [e2] at h1
  omega

theorem sent_split (tr : List Obs) : (sent tr).length = (taskSent tr).length + (apiSent tr).length := by
  induction tr with
  | nil => rfl
  | cons x tr ih =>
    cases x with
    | tx w p => cases w <;> simp [sent, taskSent, apiSent] at ih ⊢ <;> omega
    | _ => simpa [sent, taskSent, apiSent] using ih

theorem sentBy_calls {tr : List Obs} (h1 : (sentBy tr).map (·.1) = calls tr) (h2 : (sentBy tr).flatMap (·.2) = apiSent tr)
    (h3 : ∀ x ∈ sentBy tr, x.2 = [] ∨ ∃ p, x.2 = [p] ∧ OwnRequest x.1 p) : (apiSent tr).length ≤ (calls tr).length := by
  rw [← h1, ← h2, List.length_map]
  clear h1 h2
  revert h3
  generalize sentBy tr = l
  intro h3
  induction l with
  | nil => simp
  | cons x l ih =>
    have := ih (fun y hy => h3 y (List.mem_cons_of_mem _ hy))
    rw [List.flatMap_cons, List.length_append, List.length_cons]
    rcases h3 x List.mem_cons_self with h | ⟨p, h, -⟩ <;> rw [h]
    · rw [List.length_nil]; omega
    · rw [List.length_singleton]; omega

/-- C119: with the calls: one datagram for each at most. -/
theorem C119_client_all {m : Mode} {s : Sys} {tr : List Obs} (h : Exec m s tr) :
    60000 * (sent tr).length ≤ 60000 * ((received tr).length + (connAnswers tr).length + (calls tr).length) + 7 * s.bg.now + 120000 := by
  have h1 := C119_client h
  obtain ⟨h2, h3, h4⟩ := C86_per_call h
  have h5 := sentBy_calls h2 h3 h4
  rw [sent_split]
  omega

/-- C119: the same for the monitor. -/
theorem C119_monitor_all {m : Mode} {s : MSys} {tr : List Obs} (h : MExec m s tr) :
    60000 * (sent tr).length ≤ 60000 * ((received tr).length + 2 * (connAnswers tr).length + (calls tr).length) + 7 * s.bg.now + 120000 := by
  have h1 := C119_monitor h
  obtain ⟨h2, h3, h4⟩ := C86_monitor h
  have h5 := sentBy_calls h2 h3 h4
  rw [sent_split]
  omega

/-- C119: the factors are right: there are executions of the client with as many datagrams sent as received, and of the monitor with twice as many, in any
number and in no time. -/
theorem C119_tight (m : Mode) (k : Kind) (d : Bytes) (r : ConnectionResponse) (h : Grants d r) (n : Nat) :
    ∃ s tr, Reaches m k s tr ∧ s.now = 0 ∧ received tr = [] ∧ (connAnswers tr).length = n ∧
      (taskSent tr).length = weight k * n := by
  refine ⟨Bg.init, times n (linkTrace k d r ++ [.rxErr, .down]), ?_, rfl, ?_, ?_, ?_⟩
  · induction n with
    | zero => exact reaches_init m k
    | succ n ih =>
      rw [times_succ]
      obtain ⟨evs, he⟩ := linkUp_run m k h
      have h2 : bgRun k m (linkUp k r) [.recvErr, .run] = some (Bg.init, [.rxErr, .down]) := by
        simp [bgRun, bgStep, linkUp, Bg.init]
      exact ih.append (by rw [bgRun_append he, h2]; rfl)
  · induction n with
    | zero => rfl
    | succ n ih => rw [times_succ, show ∀ a b, received (a ++ b) = received a ++ received b by simp [received], ih]; cases k <;> rfl
  · induction n with
    | zero => rfl
    | succ n ih =>
      rw [times_succ, show ∀ a b, connAnswers (a ++ b) = connAnswers a ++ connAnswers b by simp [connAnswers], List.length_append, ih]
      cases k <;> rfl
  · induction n with
    | zero => cases k <;> rfl
    | succ n ih =>
      rw [times_succ, show ∀ a b, taskSent (a ++ b) = taskSent a ++ taskSent b by simp [taskSent], List.length_append, ih]
      cases k
      · show _ + 1 = _; simp only [weight]; omega
      · show _ + 2 = _; simp only [weight]; omega

theorem BgTr.size {k : Kind} {m : Mode} {s s' : Bg} {o : List Obs} (h : BgTr k m s s' o) (hd : NoDisc s) : ∀ p ∈ taskSent o, p.length ≤ 26 := by
  intro p hp
  cases h
  case discOk q hq => exact absurd hq (hd q)
  all_goals (first | (cases hp; done) | skip)
  all_goals (simp only [taskSent, List.filterMap_cons, List.filterMap_nil, List.mem_singleton, List.not_mem_nil] at hp)
  all_goals (subst hp)
  all_goals (first | decide | exact Nat.le_of_ble_eq_true rfl)

/-- C119: and none of these datagrams has more than 26 bytes. -/
theorem C119_size {m : Mode} {k : Kind} {s : Bg} {tr : List Obs} (h : Reaches m k s tr) : ∀ p ∈ taskSent tr, p.length ≤ 26 := by
  have hg := h.gexec
  clear h
  induction hg with
  | init => intro p hp; cases hp
  | task hx ht ih =>
    intro p hp
    rw [show ∀ a b, taskSent (a ++ b) = taskSent a ++ taskSent b by simp [taskSent], List.mem_append] at hp
    exact hp.elim (ih p) (ht.size hx.noDisc p)
  | env hx he ih =>
    intro p hp
    rw [show ∀ a b, taskSent (a ++ b) = taskSent a ++ taskSent b by simp [taskSent], he.credit.1, List.append_nil] at hp
    exact ih p hp

/-- A monitor that has been granted a connection and has received one telegram has received 2 datagrams and sent 3. -/
example (m : Mode) : ∃ s tr, Reaches m .monitor s tr ∧ (taskSent tr).length = 3 ∧ (connAnswers tr).length = 1 ∧ (received tr).length = 1 := by
  obtain ⟨s, tr, h1, h2⟩ := mexec_of_evs (m := m) (evs := [.bg .run, .bg .sendOk, .bg (.dgram grant7), .bg .sendOk, .bg .run, .bg .run, .bg (.dgram (confirmation 7 0 0x801)), .bg .sendOk])
    (f := fun x => ((taskSent x.2).length, (connAnswers x.2).length, (received x.2).length)) (y := (3, 1, 1)) (by cases m <;> decide +kernel)
  simp only [Prod.mk.injEq] at h2
  exact ⟨s.bg, tr, .monitor h1, h2.1, h2.2.1, h2.2.2⟩

/-- The tight executions, for a server that grants channel 7. -/
example (m : Mode) (n : Nat) : ∃ s tr, Reaches m .monitor s tr ∧ s.now = 0 ∧ (connAnswers tr).length = n ∧ (taskSent tr).length = 2 * n := by
  obtain ⟨s, tr, h1, h2, -, h3, h4⟩ := C119_tight m .monitor grant7 conn7 grants7 n
  exact ⟨s, tr, h1, h2, h3, h4⟩

end Knx
