import Verif.Lemmas.Session

/-!
# Runs of the task with a clock
-/

namespace Knx
open Spec

theorem GExec.append {k : Kind} {m : Mode} {s s' : Bg} {tr tr' : List Obs} (h : GExec k m s tr) (h' : GRun k m s tr' s') :
    GExec k m s' (tr ++ tr') := by
  induction h' generalizing tr with
  | nil => simpa using h
  | task ht _ ih => rw [← List.append_assoc]; exact ih (.task h ht)
  | env he _ ih => rw [← List.append_assoc]; exact ih (.env h he)

theorem Goes.grun {m : Mode} {k : Kind} {s s' : Bg} {tr tr' : List Obs} (h : Goes m k s tr tr' s') :
    GExec k m s tr ∧ GRun k m s tr' s' := by
  cases h with
  | client h1 h2 => exact ⟨h1.gexec, h2.grun h1.gexec'.2⟩
  | monitor h1 h2 => exact ⟨h1.gexec, h2.grun h1.gexec'.2⟩

theorem Goes.reaches {m : Mode} {k : Kind} {s s' : Bg} {tr tr' : List Obs} (h : Goes m k s tr tr' s') :
    Reaches m k s tr ∧ Reaches m k s' (tr ++ tr') := by
  cases h with
  | client h1 h2 => exact ⟨.client h1, .client (h1.append h2)⟩
  | monitor h1 h2 => exact ⟨.monitor h1, .monitor (h1.append h2)⟩

theorem MPromptRun.run {m : Mode} {s s' : MSys} {tr : List Obs} (h : MPromptRun m s tr s') : MRun m s tr s' := by
  induction h with
  | nil => exact .nil _
  | step e _ hs _ ih => exact .step e hs ih

theorem GoesPromptly.goes {m : Mode} {k : Kind} {s s' : Bg} {tr tr' : List Obs} (h : GoesPromptly m k s tr tr' s') :
    Goes m k s tr tr' s' := by
  cases h with
  | client h1 h2 => exact .client h1 h2.run
  | monitor h1 h2 => exact .monitor h1 h2.run

theorem GExec.noDisc {k : Kind} {m : Mode} {s : Bg} {tr : List Obs} (h : GExec k m s tr) : NoDisc s := fun p hp => h.conn_iff.2 p hp

/-- Runs of the task in an arbitrary environment, its timers firing on time. -/
inductive GPRun (k : Kind) (m : Mode) : Bg → List Obs → Bg → Prop
  | nil (s : Bg) : GPRun k m s [] s
  | task {s s' s'' o tr} : BgTr k m s s' o → GPRun k m s' tr s'' → GPRun k m s (o ++ tr) s''
  | env {s s' s'' o tr} : Env k s s' o → (s'.now = s.now ∨ ∀ t ∈ bgDeadline s, s'.now ≤ t) → GPRun k m s' tr s'' →
      GPRun k m s (o ++ tr) s''

/-- Steps of the API take no time. -/
theorem apiStep_now {m : Mode} {s s' : Sys} {o : List Obs} (h : ApiTr m s s' o) : s'.bg.now = s.bg.now := by
  cases h <;> rfl

theorem mapiStep_now {m : Mode} {s s' : MSys} {e : MApiEv} {o : List Obs} (h : mapiStep m s e = some (s', o)) : s'.bg.now = s.bg.now := by
  have := mapiStep_tr h
  cases this <;> rfl

theorem PromptRun.gprun {m : Mode} {s s' : Sys} {tr : List Obs} (h : PromptRun m s tr s') (hp : apiPacketOk s.api) :
    GPRun .client m s.bg tr s'.bg := by
  induction h with
  | nil => exact .nil _
  | step e he hs hr ih =>
    cases e with
    | bg e =>
      simp only [Knx.step, Option.map_eq_some_iff, Prod.exists, Prod.mk.injEq] at hs
      obtain ⟨b, o', hb, rfl, rfl⟩ := hs
      exact .task (bgStep_tr hb) (ih hp)
    | api e =>
      have ht := apiStep_tr hs
      have := ht.env hp
      exact .env this.1 (Or.inl (apiStep_now ht)) (ih this.2)
    | delay d =>
      cases hs
      exact .env (.delay d) (Or.inr he.1) (ih hp)

theorem MPromptRun.gprun {m : Mode} {s s' : MSys} {tr : List Obs} (h : MPromptRun m s tr s') (hp : mapiPacketOk s.api) :
    GPRun .monitor m s.bg tr s'.bg := by
  induction h with
  | nil => exact .nil _
  | step e he hs hr ih =>
    cases e with
    | bg e =>
      simp only [Knx.mstep, Option.map_eq_some_iff, Prod.exists, Prod.mk.injEq] at hs
      obtain ⟨b, o', hb, rfl, rfl⟩ := hs
      exact .task (bgStep_tr hb) (ih hp)
    | api e =>
      have := mapiStep_env hs hp
      exact .env this.1 (Or.inl (mapiStep_now hs)) (ih this.2)
    | delay d =>
      cases hs
      exact .env (.delay d) (Or.inr he) (ih hp)

theorem GoesPromptly.gprun {m : Mode} {k : Kind} {s s' : Bg} {tr tr' : List Obs} (h : GoesPromptly m k s tr tr' s') :
    GPRun k m s tr' s' := by
  cases h with
  | client h1 h2 => exact h2.gprun h1.gexec'.2
  | monitor h1 h2 => exact h2.gprun h1.gexec'.2

/-! ## Heart beats -/

theorem beatsSent_append (a b : List Obs) : beatsSent (a ++ b) = beatsSent a + beatsSent b := by
  simp [beatsSent, taskSent]

/-- Heart beats the task has in hand. -/
def inHand (s : Bg) : Nat :=
  match s.pc with
  | .hb _ _ => 1
  | _ => 0

theorem ack_not_state (ch sq st : U8) : serviceIs CONNECTIONSTATE_REQUEST (TunnelingAck.mk ch sq st).packet = false := by
  simp only [TunnelingAck.packet, serviceIs, header, word]; rfl

theorem connReq_not_state : serviceIs CONNECTIONSTATE_REQUEST connReqPacket = false := by decide

theorem enable_not_state (ch : U8) : serviceIs CONNECTIONSTATE_REQUEST (enablePacket ch) = false := by
  rw [enablePacket, C19_bodies.2.2.2.2.1, serviceIs_frame]; decide

theorem BgTr.beat {k : Kind} {m : Mode} {s s' : Bg} {o : List Obs} (h : BgTr k m s s' o) (hd : NoDisc s) :
    beatsSent o + inHand s' ≤ o.count .tick + inHand s := by
  cases h
  case discOk p hpc => exact absurd hpc (hd p)
  case discFail p hpc => exact absurd hpc (hd p)
  case hbOk ch ep hpc =>
    have : beatsSent [.tx .task (ConnectionstateRequest.mk ch ep).packet] ≤ 1 := by
      simp only [beatsSent, taskSent, List.filterMap_cons, List.filterMap_nil]
      exact List.length_filter_le _ _
    simp only [inHand, hpc]
    omega
  case recvEmpty => simp [beatsSent, taskSent]
  case recvAck => simp [beatsSent, taskSent]
  case recvStateOk => simp [beatsSent, taskSent]
  all_goals simp [beatsSent, taskSent, inHand, List.count_cons, ack_not_state, connReq_not_state, enable_not_state, *]

theorem Env.beat {k : Kind} {s s' : Bg} {o : List Obs} (h : Env k s s' o) : beatsSent o = 0 ∧ o.count .tick = 0 := by
  refine ⟨?_, List.count_eq_zero.2 h.hbDue.2.2⟩
  have q : ∀ o : List Obs, (∀ x ∈ o, Knx.quiet x = true) → taskSent o = [] := by
    intro o h
    rw [taskSent, List.filterMap_eq_nil_iff]
    intro x hx
    have := h x hx
    cases x <;> first | rfl | skip
    rename_i w p; cases w <;> simp_all [Knx.quiet]
  have : taskSent o = [] := by
    cases h
    case quiet h => exact q _ h
    case take h _ =>
      rename_i hq
      have := q _ hq
      simpa [taskSent] using this
    case subs h => exact q _ h
    all_goals rfl
  rw [beatsSent, this]; rfl

theorem GRun.beats {k : Kind} {m : Mode} {s s' : Bg} {tr : List Obs} (h : GRun k m s tr s') (hd : NoDisc s) :
    beatsSent tr + inHand s' ≤ tr.count .tick + inHand s := by
  induction h with
  | nil => simp [beatsSent, taskSent]
  | @task s s1 s2 o tr ht hrun ih =>
    have := ih (hd.task ht)
    have := ht.beat hd
    rw [beatsSent_append, List.count_append]; omega
  | @env s s1 s2 o tr he hrun ih =>
    have := ih (hd.env he)
    have h2 := he.beat
    have : inHand s1 = inHand s := by simp [inHand, he.facts.pc]
    rw [beatsSent_append, List.count_append]; omega

theorem BgTr.ticks {k : Kind} {m : Mode} {s s' : Bg} {o : List Obs} (h : BgTr k m s s' o) : o.count .tick ≤ 1 := by
  cases h <;> simp

/-- Every tick moves the next one by at least a minute. -/
theorem GRun.ticks {k : Kind} {m : Mode} {s s' : Bg} {tr : List Obs} (h : GRun k m s tr s') :
    s.hbDue + 60000 * tr.count .tick ≤ s'.hbDue ∧ (0 < tr.count .tick → s.now + 60000 * tr.count .tick ≤ s'.hbDue + 5) := by
  induction h with
  | nil => simp
  | @task s s1 s2 o tr ht hrun ih =>
    obtain ⟨h1, h2, h3, h4⟩ := ht.hbDue
    have h5 := ht.ticks
    rw [List.count_append]
    by_cases hm : Obs.tick ∈ o
    · obtain ⟨h6, h7⟩ := h3 hm
      have := nextTick_ge h6
      omega
    · have h8 : o.count .tick = 0 := List.count_eq_zero.2 hm
      have := h4 hm
      omega
  | @env s s1 s2 o tr he hrun ih =>
    have := he.hbDue
    have h2 := he.beat.2
    rw [List.count_append]
    omega

/-- `prompt`, computed. -/
def promptB (s : Sys) : Ev → Bool
  | .delay d => (bgDeadline s.bg).all (fun t => decide (s.bg.now + d ≤ t)) && (apiDeadline s.api).all (fun t => decide (s.bg.now + d ≤ t))
  | _ => true

theorem promptB_prompt {s : Sys} {e : Ev} (h : promptB s e = true) : prompt s e := by
  cases e with
  | delay d =>
    simp only [promptB, Bool.and_eq_true, Option.all_eq_true, decide_eq_true_eq] at h
    exact ⟨fun t ht => h.1 t ht, fun t ht => h.2 t ht⟩
  | _ => trivial

/-- A sequence of events of the client with timers on time. -/
def promptEvs (m : Mode) : Sys → List Ev → Option (Sys × List Obs)
  | s, [] => some (s, [])
  | s, e :: es =>
    if promptB s e = true then
      match step m s e with
      | none => none
      | some (s', o) => (promptEvs m s' es).map fun x => (x.1, o ++ x.2)
    else none

theorem promptEvs_run {m : Mode} {s s' : Sys} {evs : List Ev} {tr : List Obs} (h : promptEvs m s evs = some (s', tr)) :
    PromptRun m s tr s' := by
  induction evs generalizing s tr with
  | nil => simp only [promptEvs, Option.some.injEq, Prod.mk.injEq] at h; obtain ⟨rfl, rfl⟩ := h; exact .nil _
  | cons e es ih =>
    simp only [promptEvs] at h
    split at h
    · rename_i hp
      split at h
      · cases h
      · rename_i s1 o hs
        simp only [Option.map_eq_some_iff, Prod.exists, Prod.mk.injEq] at h
        obtain ⟨a, b, h1, rfl, rfl⟩ := h
        exact .step e (promptB_prompt hp) hs (ih h1)
    · cases h

/-- A run from the start, then one with timers on time. -/
theorem prompt_of_evs {m : Mode} {evs evs' : List Ev} {α : Type} {f : Sys × List Obs → Sys × List Obs → α} {y : α}
    (h : ((runEvs m Sys.init evs).bind fun x => (promptEvs m x.1 evs').map (f x)) = some y) :
    ∃ s tr s' tr', Exec m s tr ∧ PromptRun m s tr' s' ∧ f (s, tr) (s', tr') = y := by
  simp only [Option.bind_eq_some_iff, Option.map_eq_some_iff] at h
  obtain ⟨⟨s, tr⟩, h1, ⟨s', tr'⟩, h2, h3⟩ := h
  exact ⟨s, tr, s', tr', by simpa using Exec.init.append (runEvs_run h1), promptEvs_run h2, h3⟩

end Knx
