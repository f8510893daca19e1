import Verif.Spec.Beat
import Verif.Lemmas.Runs
import Verif.Props.Stall

/-!
# C110: heart beats that are being sent and calls
-/

namespace Knx
open Spec

def isHb : Pc → Bool
  | .hb _ _ => true
  | _ => false

theorem beating_append (tr o : List Obs) : beating (tr ++ o) = o.foldl beatStep (beating tr) := by
  simp [beating, List.foldl_append]

theorem beat_quiet {o : List Obs} (h : ∀ x ∈ o, quiet x = true) (b : Bool) : o.foldl beatStep b = b := by
  induction o generalizing b with
  | nil => rfl
  | cons x o ih =>
    rw [List.foldl_cons]
    have hx := h x (by simp)
    have : beatStep b x = b := by
      cases x with
      | tx w p => cases w <;> simp_all [quiet, beatStep]
      | txFail w p => cases w <;> simp_all [quiet, beatStep]
      | _ => simp_all [quiet, beatStep]
    rw [this]
    exact ih (fun y hy => h y (by simp [hy])) b

structure BeatInv (s : Bg) (tr : List Obs) : Prop where
  conn : inSelect s.pc = true ∨ isHb s.pc = true ∨ (∃ t a, s.pc = .notify t a) → s.conn.isSome = true
  hb : beating tr = isHb s.pc

theorem GExec.beatInv {k : Kind} {m : Mode} {s : Bg} {tr : List Obs} (h : GExec k m s tr) : BeatInv s tr := by
  induction h with
  | init => exact ⟨by simp [Bg.init, inSelect, isHb], rfl⟩
  | @task s s' tr o hx ht ih =>
    obtain ⟨h1, h2⟩ := ih
    cases ht
    case tickBusy c hb hd hc =>
      have : isHb s.pc = false := by revert hb; cases s.pc <;> simp [busy, isHb]
      exact ⟨by simp [hc], by rw [beating_append, h2, this]; rfl⟩
    case tickBusyNone hb hd hc =>
      have : inSelect s.pc = true := by revert hb; cases s.pc <;> simp [busy, inSelect]
      have := h1 (Or.inl this)
      simp [hc] at this
    case tickIdleNone hpc hd hc =>
      have := h1 (Or.inl (by simp [hpc, inSelect]))
      simp [hc] at this
    all_goals
      refine ⟨?_, ?_⟩
      · simp_all [inSelect, isHb]
      · rw [beating_append, h2]
        simp_all [beatStep, isHb]
  | @env s s' tr o hx he ih =>
    obtain ⟨h1, h2⟩ := ih
    cases he with
    | quiet o ho => exact ⟨h1, by rw [beating_append, beat_quiet ho]; exact h2⟩
    | draw c hl hc => exact ⟨fun _ => rfl, by rw [beating_append]; exact h2⟩
    | take i c rest o hq ho => exact ⟨h1, by rw [beating_append, List.foldl_cons, beat_quiet ho]; exact h2⟩
    | drop => exact ⟨h1, by rw [beating_append]; exact h2⟩
    | subs id o _ _ _ ho => exact ⟨h1, by rw [beating_append, beat_quiet ho]; exact h2⟩
    | chans ch => exact ⟨h1, by rw [beating_append]; exact h2⟩
    | delay d => exact ⟨h1, by rw [beating_append]; exact h2⟩

/-- C110, exactly: a call of the client that needs the data of the connection has to wait for it exactly while a heart beat is on its
way. -/
theorem C110_exact {m : Mode} {s : Sys} {tr : List Obs} (h : Exec m s tr) (ha : looksUp s.api = true) :
    apiStep m s .run = none ↔ beating tr = true := by
  rw [h.gexec.beatInv.hb]
  have hl : connLocked .client s.bg = isHb s.bg.pc := by unfold connLocked isHb; cases s.bg.pc <;> rfl
  rw [← hl]
  have key : ∀ f, (∀ c, f c ≠ none) → (withConn s f = none ↔ connLocked .client s.bg = true) := by
    intro f hf
    unfold withConn
    cases connLocked .client s.bg
    · cases hc : s.bg.conn <;> simp [finish, hf]
    · simp
  cases hapi : s.api <;> simp [looksUp, hapi] at ha
  all_goals simp only [apiStep, hapi, reduceCtorEq, if_false]
  all_goals refine key _ ?_
  all_goals intro c
  case chanId => split <;> simp [finish]
  all_goals simp

/-- C110 for the monitor: no call ever waits for a heart beat. -/
theorem C110_monitor {m : Mode} {s : MSys} {tr : List Obs} (h : MExec m s tr) (hb : beating tr = true)
    (ha : mlooksUp s.api = true ∨ s.api = .isConn) : ∃ x, mapiStep m s .run = some x := by
  rw [h.gexec.beatInv.hb] at hb
  have hl : connLocked .monitor s.bg = false := by
    revert hb; unfold connLocked isHb; cases s.bg.pc <;> simp
  have key : ∀ f, (∀ c, ∃ x, f c = some x) → ∃ x, mwithConn s f = some x := by
    intro f hf
    unfold mwithConn
    rw [hl]
    cases hc : s.bg.conn <;> simp [mfinish, hf]
  rcases ha with ha | ha
  · cases hapi : s.api <;> simp [mlooksUp, hapi] at ha
    all_goals simp only [mapiStep, mcallStep, hapi]
    all_goals refine key _ fun c => ?_
    case chanId => split <;> simp [mfinish]
    all_goals simp
  · simp [mapiStep, mcallStep, ha, hl, mfinish]

/-- Waiting for the data of the connection, or not calling. -/
def AtLookUp : Api → Prop
  | .idle => True
  | .seqNr _ _ => True
  | .stChan => True
  | .dcChan => True
  | _ => False

theorem held_step {m : Mode} {s s' : Sys} {e : Ev} {o : List Obs} (hp : isHb s.bg.pc = true) (ha : AtLookUp s.api)
    (hs : step m s e = some (s', o)) (h1 : taskSent o = []) (h2 : ∀ p, Obs.txFail .task p ∉ o) :
    isHb s'.bg.pc = true ∧ AtLookUp s'.api ∧ apiSent o = [] ∧ ∀ r ∈ returned o, r = .panic := by
  have hl : connLocked .client s.bg = true := by
    revert hp; unfold connLocked isHb; cases s.bg.pc <;> simp
  cases e with
  | delay d => cases hs; exact ⟨hp, ha, rfl, by simp [returned]⟩
  | bg e =>
    exfalso
    simp only [step, Option.map_eq_some_iff, Prod.exists, Prod.mk.injEq] at hs
    obtain ⟨b, o', hb, rfl, rfl⟩ := hs
    have ht := bgStep_tr hb
    cases hpc : s.bg.pc <;> simp [hpc, isHb] at hp
    cases ht
    case hbOk => simp [taskSent] at h1
    case hbFail => exact h2 _ (List.mem_singleton.2 rfl)
    all_goals simp_all [busy]
  | api e =>
    simp only [step] at hs
    unfold apiStep at hs
    split at hs
    · split at hs
      · cases hs
      · cases hs; exact ⟨hp, trivial, rfl, by simp [returned]⟩
    · cases hapi : s.api <;> simp only [hapi, AtLookUp] at ha hs
      case idle =>
        cases e <;> simp only [reduceCtorEq] at hs
        case call cl _ =>
          split at hs
          case isFalse => cases hs
          cases cl <;> simp only [apiCall] at hs
          case read addr _ =>
            rw [readCemi_eq] at hs
            cases hs; exact ⟨hp, trivial, rfl, by simp [returned]⟩
          case write addr v small _ =>
            cases hw : writeCemi m addr v small with
            | ok x => rw [hw] at hs; cases hs; exact ⟨hp, trivial, rfl, by simp [returned]⟩
            | err => exact absurd hw (writeCemi_ne_err m addr v small)
            | panic => rw [hw] at hs; cases hs; exact ⟨hp, by rw [hapi]; trivial, rfl, by simp [returned]⟩
          all_goals first | cases hs | skip
          all_goals exact ⟨hp, trivial, rfl, by simp [returned]⟩
        case drop =>
          split at hs
          · cases hs; exact ⟨hp, by simp only [hapi, AtLookUp], rfl, by simp [returned]⟩
          · cases hs
      all_goals
        cases e <;> simp [withConn, hl] at hs

/-- C110 is violated for the client: while a heart beat is on its way, however long that takes, no call made meanwhile sends anything, and
none returns (but for a write whose value cannot be encoded, which panics at once). -/
theorem C110_violated {m : Mode} {s s' : Sys} {tr tr' : List Obs} (h : Exec m s tr) (hb : beating tr = true) (hi : s.api = .idle)
    (hr : Run m s tr' s') (h1 : taskSent tr' = []) (h2 : ∀ p, Obs.txFail .task p ∉ tr') :
    apiSent tr' = [] ∧ (∀ r ∈ returned tr', r = .panic) ∧ beating (tr ++ tr') = true := by
  rw [h.gexec.beatInv.hb] at hb
  have ha : AtLookUp s.api := by rw [hi]; trivial
  clear hi
  induction hr generalizing tr with
  | nil => exact ⟨rfl, by simp [returned], by rw [List.append_nil, h.gexec.beatInv.hb]; exact hb⟩
  | @step s s1 s2 o tr' e hs hr ih =>
    have e1 : taskSent (o ++ tr') = taskSent o ++ taskSent tr' := by simp [taskSent]
    rw [e1] at h1
    simp only [List.append_eq_nil_iff] at h1
    obtain ⟨h3, h4, h5, h6⟩ := held_step hb ha hs h1.1 (fun p hp => h2 p (by simp [hp]))
    obtain ⟨h7, h8, h9⟩ := ih (.step e h hs) h3 h1.2 (fun p hp => h2 p (by simp [hp])) h4
    refine ⟨?_, ?_, by rwa [← List.append_assoc]⟩
    · simp only [apiSent, List.filterMap_append] at h5 h7 ⊢; rw [h5, h7]; rfl
    · intro r hr
      simp only [returned, List.filterMap_append, List.mem_append] at hr h6 h8
      rcases hr with hr | hr
      · exact h6 r hr
      · exact h8 r hr

/-- The case of `C110_violated`: in every connection the first heart beat is due at once; then a read is called and `n` milliseconds
pass. -/
example (m : Mode) (n : Nat) : ∃ s s' tr tr', Exec m s tr ∧ beating tr = true ∧ s.api = .idle ∧ Run m s tr' s' ∧ taskSent tr' = [] ∧
    (∀ p, Obs.txFail .task p ∉ tr') ∧ tr' = [.call (.read (.group3 ⟨1, 0, 1⟩))] ∧ s'.bg.now = s.bg.now + n := by
  have h1 : step m ⟨linkUp .client conn7, .idle⟩ (.bg .tick) = 
      some (⟨{ linkUp .client conn7 with hbDue := nextTick 0 0, pc := .hb conn7.channel conn7.dataEndpoint }, .idle⟩, [.tick]) := by
    simp [step, bgStep, tickStep, linkUp, inSelect, Bg.init, busy, Conn.ofResponse]
  have h2 : step m ⟨{ linkUp .client conn7 with hbDue := nextTick 0 0, pc := .hb conn7.channel conn7.dataEndpoint }, .idle⟩
      (.api (.call (.read (.group3 ⟨1, 0, 1⟩)))) =
      some (⟨{ linkUp .client conn7 with hbDue := nextTick 0 0, pc := .hb conn7.channel conn7.dataEndpoint },
        .seqNr (.read (.group3 ⟨1, 0, 1⟩)) (lDataReqFrame 3 (KnxAddress.group3 ⟨1, 0, 1⟩).toU16.toNat apduRead)⟩,
        [.call (.read (.group3 ⟨1, 0, 1⟩))]) := by
    simp only [step, apiStep, linkUp, Bg.init, apiCall, readCemi_eq, startTunnel, if_true, reduceCtorEq, if_false]
  exact ⟨_, _, _, _, .step (.bg .tick) (exec_link m grants7) h1, by rw [beating_append]; rfl, rfl,
    .step _ h2 (.step (.delay n) rfl (.nil _)), rfl, by simp, rfl, rfl⟩

/-- The case of `C110_exact`: the read is at this point. -/
example (m : Mode) : ∃ s tr, Exec m s tr ∧ looksUp s.api = true ∧ beating tr = true := by
  obtain ⟨s, tr, h1, h2⟩ := exec_of_evs (m := m) (evs := [.bg .run, .bg .sendOk, .bg (.dgram grant7), .bg .run, .bg .tick,
      .api (.call (.read (.group3 ⟨1, 0, 1⟩)))])
    (f := fun x => (looksUp x.1.api, beating x.2)) (y := (true, true)) (by cases m <;> decide +kernel)
  simp only [Prod.mk.injEq] at h2
  exact ⟨s, tr, h1, h2⟩

/-- The case of `C110_monitor`: a write of the monitor is sent and returns while a heart beat is on its way. -/
example (m : Mode) : ∃ s tr, MExec m s tr ∧ beating tr = true ∧ returned tr = [.unit] ∧ (apiSent tr).length = 1 := by
  obtain ⟨s, tr, h1, h2⟩ := mexec_of_evs (m := m) (evs := [.bg .run, .bg .sendOk, .bg (.dgram grant7), .bg .sendOk, .bg .run, .bg .run, .bg .tick,
      .api (.call (.write (.group3 ⟨1, 0, 1⟩) [1] true)), .api .run, .api .run, .api .sendOk])
    (f := fun x => (beating x.2, returned x.2, (apiSent x.2).length)) (y := (true, [.unit], 1)) (by cases m <;> decide +kernel)
  simp only [Prod.mk.injEq] at h2
  exact ⟨s, tr, h1, h2⟩

end Knx
