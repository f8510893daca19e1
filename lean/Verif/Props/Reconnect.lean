import Verif.Spec.Served
import Verif.Props.Timing

/-!
# C104: with a server that answers, a connection is back soon, whatever else happens
-/

namespace Knx
open Spec

/-- The runs of `Served` and `MServed`, as the task sees them. -/
inductive GServed (k : Kind) (m : Mode) (R : Nat) : Bg → Option Nat → List Obs → Bg → Option Nat → Prop
  | nil (s : Bg) (w : Option Nat) : GServed k m R s w [] s w
  | task {s s' s'' w w' o tr} : BgTr k m s s' o → Answering o → GServed k m R s' (asked s.now w o) tr s'' w' → GServed k m R s w (o ++ tr) s'' w'
  | env {s s' s'' w w' o tr} : Env k s s' o → s'.now = s.now → GServed k m R s' w tr s'' w' → GServed k m R s w (o ++ tr) s'' w'
  | delay {s s'' w w' tr} (d : Nat) : MayWait k m R s w d → GServed k m R { s with now := s.now + d } w tr s'' w' → GServed k m R s w tr s'' w'

theorem asked_env {k : Kind} {s s' : Bg} {o : List Obs} (h : Env k s s' o) (n : Nat) (w : Option Nat) : asked n w o = w := by
  have f := h.facts
  simp [asked, f.taskSent, f.answers]

theorem Served.gserved {m : Mode} {R : Nat} {s s' : Sys} {w w' : Option Nat} {tr : List Obs} (h : Served m R s w tr s' w') (hp : apiPacketOk s.api) :
    GServed .client m R s.bg w tr s'.bg w' := by
  induction h with
  | nil => exact .nil _ _
  | step e he hs ha hr ih =>
    cases e with
    | bg e =>
      simp only [Knx.step, Option.map_eq_some_iff, Prod.exists, Prod.mk.injEq] at hs
      obtain ⟨b, o', hb, rfl, rfl⟩ := hs
      exact .task (bgStep_tr hb) ha (ih hp)
    | api e =>
      have ht := apiStep_tr hs
      have := ht.env hp
      have h2 := ih this.2
      rw [asked_env this.1] at h2
      exact .env this.1 (apiStep_now ht) h2
    | delay d =>
      cases hs
      exact .delay d (he d rfl) (ih hp)

theorem MServed.gserved {m : Mode} {R : Nat} {s s' : MSys} {w w' : Option Nat} {tr : List Obs} (h : MServed m R s w tr s' w') (hp : mapiPacketOk s.api) :
    GServed .monitor m R s.bg w tr s'.bg w' := by
  induction h with
  | nil => exact .nil _ _
  | step e he hs ha hr ih =>
    cases e with
    | bg e =>
      simp only [Knx.mstep, Option.map_eq_some_iff, Prod.exists, Prod.mk.injEq] at hs
      obtain ⟨b, o', hb, rfl, rfl⟩ := hs
      exact .task (bgStep_tr hb) ha (ih hp)
    | api e =>
      have := mapiStep_env hs hp
      have h2 := ih this.2
      rw [asked_env this.1] at h2
      exact .env this.1 (mapiStep_now hs) h2
    | delay d =>
      cases hs
      exact .delay d (he d rfl) (ih hp)

theorem GoesServed.gserved {m : Mode} {R : Nat} {k : Kind} {s s' : Bg} {tr tr' : List Obs} (h : GoesServed m R k s tr tr' s') :
    Reaches m k s tr ∧ ∃ w, GServed k m R s none tr' s' w := by
  cases h with
  | client h1 h2 => exact ⟨.client h1, _, h2.gserved h1.gexec'.2⟩
  | monitor h1 h2 => exact ⟨.monitor h1, _, h2.gserved h1.gexec'.2⟩

/-- The task is on its way to a connection and will have one at time `T` at the latest. -/
def Coming (R T : Nat) (s : Bg) (w : Option Nat) : Prop :=
  match s.pc with
  | .top => s.conn = none ∧ w = none ∧ s.now + R ≤ T
  | .connSend => w = none ∧ s.now + R ≤ T
  | .connWait dl =>
    match w with
    | some t => dl = t + 30000 ∧ s.now ≤ t + R ∧ t + R ≤ T
    | none => max s.now dl + 10000 + R ≤ T
  | .connSleep dl => w = none ∧ max s.now dl + R ≤ T
  | .enable _ => w = none ∧ s.now ≤ T
  | .store _ => w = none ∧ s.now ≤ T
  | _ => False

theorem asked_nil (n : Nat) (w : Option Nat) : asked n w [] = w := rfl
theorem asked_conn (n : Nat) (w : Option Nat) : asked n w [.tx .task connReqPacket] = some n := rfl
theorem asked_rx (n : Nat) (w : Option Nat) (d : Bytes) : asked n w [.rxConn d] = none := rfl
theorem asked_enable (n : Nat) (w : Option Nat) (ch : U8) : asked n w [.tx .task (enablePacket ch)] = w := by
  have : serviceIs CONNECT_REQUEST (enablePacket ch) = false := by
    rw [enablePacket, C19_bodies.2.2.2.2.1, serviceIs_frame]; decide
  simp [asked, taskSent, connAnswers, this]

theorem Coming.task {k : Kind} {m : Mode} {R T : Nat} (hR : R < 30000) {s s' : Bg} {w : Option Nat} {o : List Obs} (h : BgTr k m s s' o)
    (ha : Answering o) (hc : Coming R T s w) : (∃ r, Obs.up r ∈ o) ∨ Coming R T s' (asked s.now w o) := by
  obtain ⟨a1, a2, a3⟩ := ha
  cases h
  case topNone hpc _ => right; rw [asked_nil]; simp only [Coming, hpc] at hc ⊢; exact hc.2
  case topSome c hpc hs => simp [Coming, hpc, hs] at hc
  case connSendOk hpc => right; rw [asked_conn]; simp only [Coming, hpc] at hc ⊢; exact ⟨trivial, by omega, by omega⟩
  case connSendFail => exact absurd (by simp) (a2 connReqPacket)
  case connOkClient dl d r hpc _ _ =>
    right; rw [asked_rx]; simp only [Coming, hpc] at hc ⊢
    exact ⟨trivial, by split at hc <;> omega⟩
  case connOkMonitor dl d r hpc _ _ =>
    right; rw [asked_rx]; simp only [Coming, hpc] at hc ⊢
    exact ⟨trivial, by split at hc <;> omega⟩
  case connBad dl d hpc hb =>
    obtain ⟨r, hr⟩ := a3 d (by simp)
    rw [(tryConnect_iff d r).2 hr] at hb; cases hb
  case connErr => exact absurd (by simp) a1
  case connTimeout dl hpc hle =>
    right; rw [asked_nil]; simp only [Coming, hpc] at hc ⊢
    split at hc
    · omega
    · exact ⟨rfl, by omega⟩
  case connRetry dl hpc hle => right; rw [asked_nil]; simp only [Coming, hpc] at hc ⊢; exact ⟨hc.1, by omega⟩
  case enableOk r hpc => right; rw [asked_enable]; simp only [Coming, hpc] at hc ⊢; exact hc
  case enableFail r hpc => exact absurd (by simp) (a2 (enablePacket r.channel))
  case storeClient r _ _ => exact Or.inl ⟨r, by simp⟩
  case storeMonitor r _ _ => exact Or.inl ⟨r, by simp⟩
  case tickBusy hb _ _ => exfalso; revert hb hc; unfold Coming; cases s.pc <;> simp [busy]
  case tickBusyNone hb _ _ => exfalso; revert hb hc; unfold Coming; cases s.pc <;> simp [busy]
  all_goals (exfalso; rename_i hpc; first | (simp only [Coming, hpc] at hc; done) | skip)
  all_goals (unfold Coming at hc; simp_all)

theorem Coming.delay {k : Kind} {m : Mode} {R T : Nat} {s : Bg} {w : Option Nat} {d : Nat} (h : MayWait k m R s w d) (hc : Coming R T s w) :
    Coming R T { s with now := s.now + d } w := by
  obtain ⟨h1, h2, h3⟩ := h
  unfold Coming at hc
  split at hc
  · rename_i hpc; simp [acting, bgStep, hpc, hc.1] at h1
  · rename_i hpc; simp [acting, bgStep, hpc] at h1
  · rename_i dl hpc
    have := h2 dl (by simp [bgDeadline, hpc])
    simp only [Coming, hpc]
    split at hc
    · rename_i t
      have := h3 t (by simp)
      omega
    · omega
  · rename_i dl hpc
    have := h2 dl (by simp [bgDeadline, hpc])
    simp only [Coming, hpc]; exact ⟨hc.1, by omega⟩
  · rename_i hpc; simp [acting, bgStep, hpc] at h1
  · rename_i r hpc; cases k <;> simp [acting, bgStep, hpc] at h1
  · exact hc.elim

theorem Coming.now {R T : Nat} {s : Bg} {w : Option Nat} (hc : Coming R T s w) : s.now ≤ T := by
  unfold Coming at hc
  split at hc
  · omega
  · omega
  · split at hc <;> omega
  · omega
  · omega
  · omega
  · exact hc.elim

theorem Coming.run {k : Kind} {m : Mode} {R T : Nat} (hR : R < 30000) {s s' : Bg} {w w' : Option Nat} {tr : List Obs}
    (h : GServed k m R s w tr s' w') (hc : Coming R T s w) (hu : ∀ r, Obs.up r ∉ tr) : Coming R T s' w' := by
  induction h with
  | nil => exact hc
  | task hb ha _ ih =>
    rcases hc.task hR hb ha with ⟨r, hr⟩ | h1
    · exact absurd (List.mem_append_left _ hr) (hu r)
    · exact ih h1 fun r hr => hu r (List.mem_append_right _ hr)
  | env he hn _ ih =>
    refine ih ?_ fun r hr => hu r (List.mem_append_right _ hr)
    have f := he.facts
    unfold Coming at hc ⊢
    rw [f.pc, hn]
    split at hc
    · refine ⟨?_, hc.2⟩
      have := f.conn
      rw [hc.1] at this
      simpa using this
    all_goals assumption
  | delay d hw _ ih => exact ih (hc.delay hw) hu

theorem Env.later {k : Kind} {s s' : Bg} {o : List Obs} (h : Env k s s' o) : ∃ d, s'.now = s.now + d := by
  cases h
  case delay d => exact ⟨d, rfl⟩
  all_goals exact ⟨0, rfl⟩

/-- The deadlines of a task that has no connection. -/
theorem GExec.deadlines {k : Kind} {m : Mode} {s : Bg} {tr : List Obs} (h : GExec k m s tr) :
    (∀ dl, s.pc = .connWait dl → dl ≤ s.now + 30000) ∧ ∀ dl, s.pc = .connSleep dl → dl ≤ s.now + 10000 := by
  induction h with
  | init => exact ⟨fun _ h => (by cases h), fun _ h => (by cases h)⟩
  | task _ ht ih =>
    cases ht
    all_goals first
      | exact ih
      | (refine ⟨fun dl h => ?_, fun dl h => ?_⟩ <;> first | (cases h; done) | (cases h; exact Nat.le_refl _))
  | env _ he ih =>
    have f := he.facts
    obtain ⟨e, hn⟩ := he.later
    exact ⟨fun dl h => by have := ih.1 dl (f.pc ▸ h); omega, fun dl h => by have := ih.2 dl (f.pc ▸ h); omega⟩

theorem GExec.coming {k : Kind} {m : Mode} {s : Bg} {tr : List Obs} (h : GExec k m s tr) (hn : s.conn = none) (R : Nat) :
    Coming R (s.now + 40000 + R) s none := by
  obtain ⟨h1, h2⟩ := h.conn_iff
  obtain ⟨h3, h4⟩ := h.deadlines
  rw [hn] at h1
  unfold Coming
  split
  · exact ⟨hn, rfl, by omega⟩
  · exact ⟨rfl, by omega⟩
  · rename_i dl hpc; have := h3 dl hpc; simp only; omega
  · rename_i dl hpc; have := h4 dl hpc; exact ⟨rfl, by omega⟩
  · exact ⟨rfl, by omega⟩
  · exact ⟨rfl, by omega⟩
  · revert h1 h2; cases hp : s.pc <;> simp_all [pcUp]

/-- C104: whenever a client or monitor is without a connection, it has one within forty seconds and the time the server takes to
answer, whatever the application does meanwhile and however its steps and those of the task interleave. -/
theorem C104_connects {m : Mode} {R : Nat} {k : Kind} {s s' : Bg} {tr tr' : List Obs} (h : GoesServed m R k s tr tr' s') (hR : R < 30000)
    (hn : s.conn = none) (hu : ∀ r, Obs.up r ∉ tr') : s'.now ≤ s.now + 40000 + R := by
  obtain ⟨h1, w, h2⟩ := h.gserved
  exact (Coming.run hR h2 (h1.gexec.coming hn R) hu).now

/-- C104: after the loss of a connection the next one is there as soon as the server has answered: the task asks for it at once. -/
theorem C104_after_loss {m : Mode} {R : Nat} {k : Kind} {s s1 s2 : Bg} {tr o tr' : List Obs} {e : BgEv} (h1 : bgStep k m s e = some (s1, o))
    (hd : Obs.down ∈ o) (h2 : GoesServed m R k s1 (tr ++ o) tr' s2) (hR : R < 30000) (hu : ∀ r, Obs.up r ∉ tr') : s2.now ≤ s1.now + R := by
  obtain ⟨-, w, h3⟩ := h2.gserved
  refine (Coming.run hR h3 ?_ hu).now
  have ht := bgStep_tr h1
  cases ht
  case teardown => exact ⟨rfl, rfl, Nat.le_refl _⟩
  all_goals simp_all

/-- C104: a new client is connected as soon as the server has answered its first request. -/
theorem C104_start {m : Mode} {R : Nat} {s : Sys} {tr : List Obs} {w : Option Nat} (h : Served m R Sys.init none tr s w) (hR : R < 30000)
    (hu : ∀ r, Obs.up r ∉ tr) : s.bg.now ≤ R :=
  (Coming.run hR (h.gserved trivial) ⟨rfl, rfl, by simp [Sys.init, Bg.init]⟩ hu).now

/-- C104: so is a new monitor. -/
theorem C104_start_monitor {m : Mode} {R : Nat} {s : MSys} {tr : List Obs} {w : Option Nat} (h : MServed m R MSys.init none tr s w)
    (hR : R < 30000) (hu : ∀ r, Obs.up r ∉ tr) : s.bg.now ≤ R :=
  (Coming.run hR (h.gserved trivial) ⟨rfl, rfl, by simp [MSys.init, Bg.init]⟩ hu).now

/-! ## These runs do not get stuck -/

theorem Served.append {m : Mode} {R : Nat} {s s' s'' : Sys} {w w' w'' : Option Nat} {a b : List Obs} (h : Served m R s w a s' w')
    (h2 : Served m R s' w' b s'' w'') : Served m R s w (a ++ b) s'' w'' := by
  induction h with
  | nil => exact h2
  | step e h3 h4 h5 _ ih => rw [List.append_assoc]; exact .step e h3 h4 h5 (ih h2)

theorem MServed.append {m : Mode} {R : Nat} {s s' s'' : MSys} {w w' w'' : Option Nat} {a b : List Obs} (h : MServed m R s w a s' w')
    (h2 : MServed m R s' w' b s'' w'') : MServed m R s w (a ++ b) s'' w'' := by
  induction h with
  | nil => exact h2
  | step e h3 h4 h5 _ ih => rw [List.append_assoc]; exact .step e h3 h4 h5 (ih h2)

/-- The task alone, with such a server. -/
inductive AServed (k : Kind) (m : Mode) (R : Nat) : Bg → Option Nat → List Obs → Bg → Option Nat → Prop
  | nil (s : Bg) (w : Option Nat) : AServed k m R s w [] s w
  | step {s s' s'' w w' o tr} (e : BgEv) : bgStep k m s e = some (s', o) → Answering o → AServed k m R s' (asked s.now w o) tr s'' w' →
      AServed k m R s w (o ++ tr) s'' w'
  | delay {s s'' w w' tr} (d : Nat) : MayWait k m R s w d → AServed k m R { s with now := s.now + d } w tr s'' w' → AServed k m R s w tr s'' w'

theorem AServed.served {m : Mode} {R : Nat} {s s' : Bg} {w w' : Option Nat} {tr : List Obs} (h : AServed .client m R s w tr s' w') (a : Api) :
    Served m R ⟨s, a⟩ w tr ⟨s', a⟩ w' := by
  induction h with
  | nil => exact .nil _ _
  | step e h1 h2 _ ih => exact .step (.bg e) (fun _ h => by cases h) (by simp [Knx.step, h1]) h2 ih
  | delay d h1 _ ih => exact .step (.delay d) (fun _ h => by cases h; exact h1) rfl (by simp [Answering]) ih

theorem AServed.mserved {m : Mode} {R : Nat} {s s' : Bg} {w w' : Option Nat} {tr : List Obs} (h : AServed .monitor m R s w tr s' w') (a : MApi)
    (l : List Nat) : MServed m R ⟨s, a, l⟩ w tr ⟨s', a, l⟩ w' := by
  induction h with
  | nil => exact .nil _ _
  | step e h1 h2 _ ih => exact .step (.bg e) (fun _ h => by cases h) (by simp [Knx.mstep, h1]) h2 ih
  | delay d h1 _ ih => exact .step (.delay d) (fun _ h => by cases h; exact h1) rfl (by simp [Answering]) ih

theorem answering_of {o : List Obs} (h1 : Obs.rxErr ∉ o) (h2 : ∀ p, Obs.txFail .task p ∉ o) (h3 : ∀ d, Obs.rxConn d ∉ o) : Answering o :=
  ⟨h1, h2, fun d hd => absurd hd (h3 d)⟩

theorem Coming.goesOn {k : Kind} {m : Mode} {R T : Nat} {s : Bg} {w : Option Nat} {d : Bytes} {r : ConnectionResponse} (hc : Coming R T s w)
    (hg : Grants d r) : ∃ tr s' w' x, AServed k m R s w tr s' w' ∧ Obs.up x ∈ tr := by
  have store : ∀ (s : Bg) (w : Option Nat) (x : ConnectionResponse), s.pc = .store x →
      ∃ tr s' w' y, AServed k m R s w tr s' w' ∧ Obs.up y ∈ tr := by
    intro s w x hpc
    cases k with
    | client => exact ⟨[.up x] ++ [], _, _, x, .step .run (by simp only [bgStep, hpc]; rfl) (answering_of (by simp) (by simp) (by simp)) (.nil _ _), by simp⟩
    | monitor => exact ⟨[.up x] ++ [], _, _, x, .step .run (by simp only [bgStep, hpc]; rfl) (answering_of (by simp) (by simp) (by simp)) (.nil _ _), by simp⟩
  have enable : ∀ (s : Bg) (w : Option Nat) (x : ConnectionResponse), s.pc = .enable x →
      ∃ tr s' w' y, AServed k m R s w tr s' w' ∧ Obs.up y ∈ tr := by
    intro s w x hpc
    obtain ⟨tr, s', w', y, h1, h2⟩ := store { s with pc := .store x } (asked s.now w [.tx .task (enablePacket x.channel)]) x rfl
    exact ⟨_, s', w', y, .step .sendOk (by simp only [bgStep, hpc]; rfl) (answering_of (by simp) (by simp) (by simp)) h1, List.mem_append_right _ h2⟩
  have wait : ∀ (s : Bg) (w : Option Nat) (dl : Nat), s.pc = .connWait dl → ∃ tr s' w' y, AServed k m R s w tr s' w' ∧ Obs.up y ∈ tr := by
    intro s w dl hpc
    have ha : Answering [.rxConn d] := ⟨by simp, by simp, fun d' h => by simp at h; subst h; exact ⟨r, hg⟩⟩
    cases k with
    | client =>
      obtain ⟨tr, s', w', y, h1, h2⟩ := store { s with pc := .store r } (asked s.now w [.rxConn d]) r rfl
      exact ⟨_, s', w', y, .step (.dgram d) (by simp only [bgStep, hpc, (tryConnect_iff d r).2 hg]; rfl) ha h1, List.mem_append_right _ h2⟩
    | monitor =>
      obtain ⟨tr, s', w', y, h1, h2⟩ := enable { s with pc := .enable r } (asked s.now w [.rxConn d]) r rfl
      exact ⟨_, s', w', y, .step (.dgram d) (by simp only [bgStep, hpc, (tryConnect_iff d r).2 hg]; rfl) ha h1, List.mem_append_right _ h2⟩
  have send : ∀ (s : Bg) (w : Option Nat), s.pc = .connSend → ∃ tr s' w' y, AServed k m R s w tr s' w' ∧ Obs.up y ∈ tr := by
    intro s w hpc
    obtain ⟨tr, s', w', y, h1, h2⟩ := wait { s with pc := .connWait (s.now + 30000) } (asked s.now w [.tx .task connReqPacket]) _ rfl
    exact ⟨_, s', w', y, .step .sendOk (by simp only [bgStep, hpc]; rfl) (answering_of (by simp) (by simp) (by simp)) h1, List.mem_append_right _ h2⟩
  unfold Coming at hc
  split at hc
  · rename_i hpc
    obtain ⟨tr, s', w', y, h1, h2⟩ := send { s with pc := .connSend } (asked s.now w []) rfl
    exact ⟨_, s', w', y, .step .run (by simp only [bgStep, hpc, hc.1]; rfl) (answering_of (by simp) (by simp) (by simp)) h1, h2⟩
  · rename_i hpc; exact send s w hpc
  · rename_i dl hpc; exact wait s w dl hpc
  · rename_i dl hpc
    obtain ⟨tr, s', w', y, h1, h2⟩ := send { s with pc := .connSend, now := s.now + (dl - s.now) } (asked (s.now + (dl - s.now)) w []) rfl
    have h3 : AServed k m R { s with now := s.now + (dl - s.now) } w ([] ++ tr) s' w' :=
      .step .timer (by
        have hle : dl ≤ s.now + (dl - s.now) := by omega
        simp [bgStep, hpc, hle]) (answering_of (by simp) (by simp) (by simp)) h1
    by_cases hle : s.now ≤ dl
    · exact ⟨_, s', w', y, .delay (dl - s.now) ⟨by simp [acting, bgStep, hpc], by simp [bgDeadline, hpc]; omega, by simp [hc.1]⟩ h3, h2⟩
    · have e : s.now + (dl - s.now) = s.now := by omega
      rw [e] at h3
      exact ⟨_, s', w', y, h3, h2⟩
  · rename_i x hpc; exact enable s w x hpc
  · rename_i x hpc; exact store s w x hpc
  · exact hc.elim

/-- C104: the hypotheses do not stop time: as long as there is no connection yet, every such run goes on to one. -/
theorem C104_goes_on {m : Mode} {R : Nat} {k : Kind} {s s' : Bg} {tr tr' : List Obs} {d : Bytes} {r : ConnectionResponse}
    (h : GoesServed m R k s tr tr' s') (hR : R < 30000) (hn : s.conn = none) (hu : ∀ r, Obs.up r ∉ tr') (hg : Grants d r) :
    ∃ tr'' s'' x, GoesServed m R k s tr (tr' ++ tr'') s'' ∧ Obs.up x ∈ tr'' := by
  have hs := h.gserved.1.gexec.coming hn R
  cases h with
  | client h1 h2 =>
    obtain ⟨tr'', s'', w'', x, h3, h4⟩ := Coming.goesOn (k := .client) (m := m) (Coming.run hR (h2.gserved h1.gexec'.2) hs hu) hg
    exact ⟨tr'', s'', x, .client h1 (h2.append (h3.served _)), h4⟩
  | monitor h1 h2 =>
    obtain ⟨tr'', s'', w'', x, h3, h4⟩ := Coming.goesOn (k := .monitor) (m := m) (Coming.run hR (h2.gserved h1.gexec'.2) hs hu) hg
    exact ⟨tr'', s'', x, .monitor h1 (h2.append (h3.mserved _ _)), h4⟩

/-- C104: the bound is exact: there is a state in which the client has asked a server that did not answer, and from which it takes
forty seconds and the time the server takes, now that it answers. -/
theorem C104_tight (m : Mode) (R : Nat) (hR : R < 30000) :
    ∃ s tr tr' s', GoesServed m R .client s tr tr' s' ∧ s.conn = none ∧ (∀ r, Obs.up r ∉ tr') ∧ s'.now = s.now + 40000 + R := by
  have h0 : Exec m ⟨{ Bg.init with pc := .connWait 30000 }, .idle⟩ [.tx .task connReqPacket] := by
    have h1 : Exec m ⟨{ Bg.init with pc := .connSend }, .idle⟩ [] := Exec.init.step (.bg .run) rfl
    exact h1.step (.bg .sendOk) rfl
  have a0 : Answering [] := answering_of (by simp) (by simp) (by simp)
  have h2 : AServed .client m R { Bg.init with pc := .connWait 30000 } none
      ([] ++ ([] ++ ([.tx .task connReqPacket] ++ []))) { Bg.init with pc := .connWait 70000, now := 40000 + R } (some 40000) := by
    refine .delay 30000 ⟨rfl, by simp [bgDeadline, Bg.init], by simp⟩ ?_
    refine .step .timer (s' := { Bg.init with pc := .connSleep 40000, now := 30000 }) (by simp [bgStep, Bg.init]) a0 ?_
    refine .delay 10000 ⟨rfl, by simp [bgDeadline], by simp [asked_nil]⟩ ?_
    refine .step .timer (s' := { Bg.init with pc := .connSend, now := 40000 }) (by simp [bgStep, Bg.init]) a0 ?_
    refine .step .sendOk (s' := { Bg.init with pc := .connWait 70000, now := 40000 }) (by simp [bgStep, Bg.init]) (answering_of (by simp) (by simp) (by simp)) ?_
    rw [asked_conn]
    exact .delay R ⟨rfl, by simp [bgDeadline]; omega, by simp⟩ (.nil _ _)
  exact ⟨_, _, _, _, .client h0 (h2.served .idle), rfl, by simp, by simp [Bg.init]⟩

end Knx
