import Verif.Spec.Own
import Verif.Lemmas.Callers
import Verif.Lemmas.Runs
import Verif.Props.Transport

/-!
# C107: the calls of the application do not influence what the library does of its own accord
-/

namespace Knx
open Spec

/-- What of the connection data the task uses. -/
def connCore (c : Option Conn) : Option (U8 × Hpai) := c.map fun d => (d.channel, d.endpoint)

/-- Two tasks that differ only in what the application can change. -/
structure Alike (b b' : Bg) : Prop where
  pc : b.pc = b'.pc
  now : b.now = b'.now
  hb : b.hbDue = b'.hbDue
  conn : connCore b.conn = connCore b'.conn
  opn : b.rxOpen = true ∧ b'.rxOpen = true
  subs : b.subs = [] ∧ b'.subs = []
  notify : ∀ todo act, b.pc = .notify todo act → todo = [] ∧ act = []

theorem connCore_none {c c' : Option Conn} (h : connCore c = connCore c') : c = none ↔ c' = none := by
  cases c <;> cases c' <;> simp [connCore] at *

theorem connCore_some {c : Conn} {c' : Option Conn} (h : connCore (some c) = connCore c') :
    ∃ d, c' = some d ∧ c.channel = d.channel ∧ c.endpoint = d.endpoint := by
  cases c' with
  | none => simp [connCore] at h
  | some d => simp [connCore] at h; exact ⟨d, rfl, h⟩

local macro "alike" : tactic => `(tactic| exact ⟨_, rfl, ⟨rfl, rfl, rfl, by assumption, ⟨rfl, rfl⟩, ⟨rfl, rfl⟩, by simp [connected]⟩, by simp [queued, connected]⟩)

theorem Alike.step {k : Kind} {m : Mode} {b b' b1 : Bg} {e : BgEv} {o : List Obs} (h : Alike b b') (hs : bgStep k m b e = some (b1, o))
    (hq : b'.queue.length + (queued o).length ≤ 100) : ∃ b2, bgStep k m b' e = some (b2, o) ∧ Alike b1 b2 ∧ b2.queue = b'.queue ++ queued o := by
  obtain ⟨conn, pc, queue, rxOpen, now, hbDue, subs, chans⟩ := b
  obtain ⟨conn', pc', queue', rxOpen', now', hbDue', subs', chans'⟩ := b'
  obtain ⟨hpc, hnow, hhb, hconn, ⟨ho, ho'⟩, ⟨hsub, hsub'⟩, hnot⟩ := h
  simp only at *
  subst hpc hnow hhb ho ho' hsub hsub'
  unfold bgStep at hs ⊢
  by_cases ht : e = .tick
  · rw [if_pos ht] at hs ⊢
    unfold tickStep at hs ⊢
    simp only at hs ⊢
    split at hs
    · rename_i hc
      rw [if_pos hc]
      cases conn with
      | none =>
        rw [(connCore_none hconn).1 rfl] at *
        cases hs
        refine ⟨_, rfl, ⟨rfl, rfl, rfl, rfl, ⟨rfl, rfl⟩, ⟨rfl, rfl⟩, by simp⟩, ?_⟩
        split <;> simp [queued]
      | some c =>
        obtain ⟨d, rfl, h1, h2⟩ := connCore_some hconn
        cases hs
        refine ⟨_, rfl, ⟨by simp [h1, h2], rfl, rfl, hconn, ⟨rfl, rfl⟩, ⟨rfl, rfl⟩, by simp⟩, ?_⟩
        split <;> simp [queued]
    · cases hs
  · rw [if_neg ht] at hs ⊢
    clear ht
    cases pc with
    | notify todo act =>
      obtain ⟨rfl, rfl⟩ := hnot _ _ rfl
      cases e <;> cases hs
      alike
    | top =>
      cases e <;> try cases hs
      cases conn with
      | none =>
        rw [(connCore_none hconn).1 rfl] at *
        cases hs
        alike
      | some c =>
        obtain ⟨d, rfl, h1, h2⟩ := connCore_some hconn
        cases hs
        alike
    | connWait dl =>
      cases e <;> try cases hs
      · rename_i d
        simp only at hs ⊢
        cases hx : tryConnect (buffer d) <;> rw [hx] at hs <;> cases hs
        · cases k <;> alike
        · alike
        · alike
      · alike
      · simp only at hs ⊢
        split at hs
        · rename_i hc; rw [if_pos hc]; cases hs; alike
        · cases hs
    | connSleep dl =>
      cases e <;> try cases hs
      simp only at hs ⊢
      split at hs
      · rename_i hc; rw [if_pos hc]; cases hs; alike
      · cases hs
    | store r =>
      cases e <;> try cases hs
      cases k <;> cases hs
      · exact ⟨_, rfl, ⟨rfl, rfl, rfl, rfl, ⟨rfl, rfl⟩, ⟨rfl, rfl⟩, by simp⟩, by simp [queued]⟩
      · exact ⟨_, rfl, ⟨rfl, rfl, rfl, rfl, ⟨rfl, rfl⟩, ⟨rfl, rfl⟩, by rintro _ _ ⟨⟩; exact ⟨rfl, rfl⟩⟩, by simp [queued]⟩
    | recv =>
      cases e <;> cases hs
      · rename_i d
        refine ⟨_, rfl, ⟨rfl, rfl, rfl, hconn, ⟨rfl, rfl⟩, ⟨rfl, rfl⟩, ?_⟩, ?_⟩
        · intro todo act h
          exfalso
          simp only [onDatagram] at h
          repeat' split at h
          all_goals cases h
        · cases onDatagram d <;> simp [queued, endObs]
      · alike
    | ackReq ch sq raw =>
      cases e <;> try cases hs
      · simp only at hs ⊢
        cases hx : runRd (Cemi.fromPacket m) id raw <;> rw [hx] at hs <;> cases hs <;> alike
      · alike
    | push c =>
      cases e <;> try cases hs
      simp only [Bool.true_eq_false, if_false] at hs ⊢
      split at hs
      · cases hs
        simp only [queued, List.filterMap_cons, List.filterMap_nil, List.length_cons, List.length_nil] at hq
        rw [if_pos (by omega)]
        exact ⟨_, rfl, ⟨rfl, rfl, rfl, hconn, ⟨rfl, rfl⟩, ⟨rfl, rfl⟩, by simp⟩, by simp [queued]⟩
      · cases hs
    | teardown =>
      cases e <;> cases hs
      exact ⟨_, rfl, ⟨rfl, rfl, rfl, rfl, ⟨rfl, rfl⟩, ⟨rfl, rfl⟩, by simp⟩, by simp [queued]⟩
    | _ => cases e <;> cases hs <;> alike

/-! ## Runs -/

theorem ownPart_append (a b : List Obs) : ownPart (a ++ b) = ownPart a ++ ownPart b := List.filter_append ..

theorem bgStep_own {k : Kind} {m : Mode} {s s' : Bg} {e : BgEv} {o : List Obs} (h : bgStep k m s e = some (s', o)) : ownPart o = o := by
  have ht := bgStep_tr h
  cases ht <;> rfl

/-- What happens to a task: the end of a wait, or time passing. -/
abbrev Outer := BgEv ⊕ Nat

/-- A task whose application takes every telegram at once. -/
def outerRun (k : Kind) (m : Mode) : Bg → List Outer → Option (Bg × List Obs)
  | b, [] => some (b, [])
  | b, .inl e :: es =>
    match bgStep k m { b with queue := [] } e with
    | none => none
    | some (b', o) => (outerRun k m b' es).map fun x => (x.1, o ++ x.2)
  | b, .inr d :: es => outerRun k m { b with now := b.now + d } es

def outer (evs : List Ev) : List Outer := evs.filterMap fun
  | .bg e => some (.inl e)
  | .delay d => some (.inr d)
  | .api _ => none

def mouter (evs : List MEv) : List Outer := evs.filterMap fun
  | .bg e => some (.inl e)
  | .delay d => some (.inr d)
  | .api _ => none

theorem outer_outside (evs : List Ev) : outer (outside evs) = outer evs := by
  induction evs with
  | nil => rfl
  | cons e es ih => cases e <;> simp_all [outer, outside]

theorem mouter_outside (evs : List MEv) : mouter (moutside evs) = mouter evs := by
  induction evs with
  | nil => rfl
  | cons e es ih => cases e <;> simp_all [mouter, moutside]

theorem Alike.delay {b b' : Bg} (h : Alike b b') (d : Nat) : Alike { b with now := b.now + d } { b' with now := b'.now + d } :=
  ⟨h.pc, by simp [h.now], h.hb, h.conn, h.opn, h.subs, h.notify⟩

theorem Alike.emptied {b b' : Bg} (h : Alike b b') : Alike b { b' with queue := [] } := ⟨h.pc, h.now, h.hb, h.conn, h.opn, h.subs, h.notify⟩

theorem bgStep_queued {k : Kind} {m : Mode} {s s' : Bg} {e : BgEv} {o : List Obs} (h : bgStep k m s e = some (s', o)) :
    (queued o).length ≤ 1 := by
  have ht := bgStep_tr h
  cases ht <;> simp [queued]

theorem Alike.call {m : Mode} {s s' : Sys} {b : Bg} {e : ApiEv} {o : List Obs} (h : Alike s.bg b) (hs : apiStep m s e = some (s', o))
    (hd : Obs.dropped ∉ o) : Alike s'.bg b ∧ ownPart o = [] := by
  have ht := apiStep_tr hs
  have hk : ∀ (d : Conn), s.bg.conn = some d → Alike { s.bg with conn := some { d with seq := d.seq + 1 } } b := by
    intro d hd
    exact ⟨h.pc, h.now, h.hb, by rw [← h.conn, hd]; rfl, h.opn, h.subs, h.notify⟩
  have hq : ∀ q, Alike { s.bg with queue := q } b := fun q => ⟨h.pc, h.now, h.hb, h.conn, h.opn, h.subs, h.notify⟩
  cases ht
  case drop => exact absurd (List.mem_singleton.2 rfl) hd
  all_goals first
    | exact ⟨h, rfl⟩
    | exact ⟨hq _, rfl⟩
    | exact ⟨hk _ (by assumption), rfl⟩

theorem Alike.mcall {m : Mode} {s s' : MSys} {b : Bg} {e : MApiEv} {o : List Obs} (h : Alike s.bg b) (hs : mapiStep m s e = some (s', o))
    (hd : Obs.dropped ∉ o) (hn : ∀ i, Obs.subscribed i ∉ o) : Alike s'.bg b ∧ ownPart o = [] := by
  have ht := mapiStep_tr hs
  have hk : ∀ (d : Conn), s.bg.conn = some d → Alike { s.bg with conn := some { d with seq := d.seq + 1 } } b := by
    intro d hd
    exact ⟨h.pc, h.now, h.hb, by rw [← h.conn, hd]; rfl, h.opn, h.subs, h.notify⟩
  have hq : ∀ q, Alike { s.bg with queue := q } b := fun q => ⟨h.pc, h.now, h.hb, h.conn, h.opn, h.subs, h.notify⟩
  have hc : ∀ q, Alike { s.bg with chans := q } b := fun q => ⟨h.pc, h.now, h.hb, h.conn, h.opn, h.subs, h.notify⟩
  cases ht
  case drop => exact absurd (List.mem_singleton.2 rfl) hd
  case subscribe => exact absurd (List.mem_cons_self ..) (hn _)
  all_goals first
    | exact ⟨h, rfl⟩
    | exact ⟨hq _, rfl⟩
    | exact ⟨hc _, rfl⟩
    | exact ⟨hk _ (by assumption), rfl⟩

theorem Alike.run {m : Mode} {evs : List Ev} : ∀ {s s' : Sys} {b : Bg} {tr : List Obs}, runEvs m s evs = some (s', tr) → Alike s.bg b →
    Obs.dropped ∉ tr → ∃ b', outerRun .client m b (outer evs) = some (b', ownPart tr) := by
  induction evs with
  | nil => intro s s' b tr h ha _; simp only [runEvs, Option.some.injEq, Prod.mk.injEq] at h; obtain ⟨rfl, rfl⟩ := h; exact ⟨b, rfl⟩
  | cons e es ih =>
    intro s s' b tr h ha hd
    simp only [runEvs] at h
    split at h
    · cases h
    · rename_i s1 o hs
      simp only [Option.map_eq_some_iff, Prod.exists, Prod.mk.injEq] at h
      obtain ⟨s2, o2, hs2, rfl, rfl⟩ := h
      have hd1 : Obs.dropped ∉ o := fun h => hd (List.mem_append_left _ h)
      have hd2 : Obs.dropped ∉ o2 := fun h => hd (List.mem_append_right _ h)
      cases e with
      | bg e =>
        simp only [Knx.step, Option.map_eq_some_iff, Prod.exists, Prod.mk.injEq] at hs
        obtain ⟨b1, o', hb, rfl, rfl⟩ := hs
        obtain ⟨b2, h1, h2, -⟩ := ha.emptied.step hb (by have := bgStep_queued hb; simp; omega)
        obtain ⟨b3, h3⟩ := ih hs2 h2 hd2
        refine ⟨b3, ?_⟩
        simp only [outer] at h3
        simp only [outer, List.filterMap_cons, outerRun, h1, h3, Option.map_some, ownPart_append, bgStep_own hb]
      | api e =>
        obtain ⟨h1, h2⟩ := ha.call hs hd1
        obtain ⟨b3, h3⟩ := ih hs2 h1 hd2
        exact ⟨b3, by rw [ownPart_append, h2, List.nil_append, ← h3]; rfl⟩
      | delay d =>
        cases hs
        obtain ⟨b3, h3⟩ := ih hs2 (ha.delay d) hd2
        exact ⟨b3, by rw [List.nil_append, ← h3]; rfl⟩

theorem Alike.mrun {m : Mode} {evs : List MEv} : ∀ {s s' : MSys} {b : Bg} {tr : List Obs}, mrunEvs m s evs = some (s', tr) → Alike s.bg b →
    Obs.dropped ∉ tr → (∀ i, Obs.subscribed i ∉ tr) → ∃ b', outerRun .monitor m b (mouter evs) = some (b', ownPart tr) := by
  induction evs with
  | nil => intro s s' b tr h ha _ _; simp only [mrunEvs, Option.some.injEq, Prod.mk.injEq] at h; obtain ⟨rfl, rfl⟩ := h; exact ⟨b, rfl⟩
  | cons e es ih =>
    intro s s' b tr h ha hd hn
    simp only [mrunEvs] at h
    split at h
    · cases h
    · rename_i s1 o hs
      simp only [Option.map_eq_some_iff, Prod.exists, Prod.mk.injEq] at h
      obtain ⟨s2, o2, hs2, rfl, rfl⟩ := h
      have hd1 : Obs.dropped ∉ o := fun h => hd (List.mem_append_left _ h)
      have hd2 : Obs.dropped ∉ o2 := fun h => hd (List.mem_append_right _ h)
      have hn1 : ∀ i, Obs.subscribed i ∉ o := fun i h => hn i (List.mem_append_left _ h)
      have hn2 : ∀ i, Obs.subscribed i ∉ o2 := fun i h => hn i (List.mem_append_right _ h)
      cases e with
      | bg e =>
        simp only [Knx.mstep, Option.map_eq_some_iff, Prod.exists, Prod.mk.injEq] at hs
        obtain ⟨b1, o', hb, rfl, rfl⟩ := hs
        obtain ⟨b2, h1, h2, -⟩ := ha.emptied.step hb (by have := bgStep_queued hb; simp; omega)
        obtain ⟨b3, h3⟩ := ih hs2 h2 hd2 hn2
        refine ⟨b3, ?_⟩
        simp only [mouter] at h3
        simp only [mouter, List.filterMap_cons, outerRun, h1, h3, Option.map_some, ownPart_append, bgStep_own hb]
      | api e =>
        obtain ⟨h1, h2⟩ := ha.mcall hs hd1 hn1
        obtain ⟨b3, h3⟩ := ih hs2 h1 hd2 hn2
        exact ⟨b3, by rw [ownPart_append, h2, List.nil_append, ← h3]; rfl⟩
      | delay d =>
        cases hs
        obtain ⟨b3, h3⟩ := ih hs2 (ha.delay d) hd2 hn2
        exact ⟨b3, by rw [List.nil_append, ← h3]; rfl⟩

theorem Alike.init : Alike Bg.init Bg.init := ⟨rfl, rfl, rfl, rfl, ⟨rfl, rfl⟩, ⟨rfl, rfl⟩, by simp [Bg.init]⟩

/-- C107: what a client does of its own accord, what it sends first of all, is determined by what happens to its background task
(what it receives, whether sending succeeds, and when): two applications that do anything else with the client, as long as neither
drops it, see the same of it. -/
theorem C107_client {m : Mode} {evs evs' : List Ev} {s s' : Sys} {tr tr' : List Obs} (h : runEvs m Sys.init evs = some (s, tr))
    (h' : runEvs m Sys.init evs' = some (s', tr')) (hd : Obs.dropped ∉ tr) (hd' : Obs.dropped ∉ tr') (ho : outside evs = outside evs') :
    ownPart tr = ownPart tr' := by
  obtain ⟨b, h1⟩ := Alike.run h Alike.init hd
  obtain ⟨b', h2⟩ := Alike.run h' Alike.init hd'
  rw [← outer_outside, ho, outer_outside, h2] at h1
  simp only [Option.some.injEq, Prod.mk.injEq] at h1
  exact h1.2.symm

/-- C107: likewise the monitor, as long as there are no subscribers. -/
theorem C107_monitor {m : Mode} {evs evs' : List MEv} {s s' : MSys} {tr tr' : List Obs} (h : mrunEvs m MSys.init evs = some (s, tr))
    (h' : mrunEvs m MSys.init evs' = some (s', tr')) (hd : Obs.dropped ∉ tr) (hd' : Obs.dropped ∉ tr')
    (hn : ∀ i, Obs.subscribed i ∉ tr) (hn' : ∀ i, Obs.subscribed i ∉ tr') (ho : moutside evs = moutside evs') :
    ownPart tr = ownPart tr' := by
  obtain ⟨b, h1⟩ := Alike.mrun h Alike.init hd hn
  obtain ⟨b', h2⟩ := Alike.mrun h' Alike.init hd' hn'
  rw [← mouter_outside, ho, mouter_outside, h2] at h1
  simp only [Option.some.injEq, Prod.mk.injEq] at h1
  exact h1.2.symm

theorem queued_append' (a b : List Obs) : queued (a ++ b) = queued a ++ queued b := by simp [queued, List.filterMap_append]

theorem Alike.follow {m : Mode} {evs : List Ev} : ∀ {s s' t : Sys} {tr : List Obs}, runEvs m s evs = some (s', tr) → Alike s.bg t.bg →
    Obs.dropped ∉ tr → t.bg.queue.length + (queued tr).length ≤ 100 → ∃ t', runEvs m t (outside evs) = some (t', ownPart tr) := by
  induction evs with
  | nil => intro s s' t tr h ha _ _; simp only [runEvs, Option.some.injEq, Prod.mk.injEq] at h; obtain ⟨rfl, rfl⟩ := h; exact ⟨t, rfl⟩
  | cons e es ih =>
    intro s s' t tr h ha hd hq
    simp only [runEvs] at h
    split at h
    · cases h
    · rename_i s1 o hs
      simp only [Option.map_eq_some_iff, Prod.exists, Prod.mk.injEq] at h
      obtain ⟨s2, o2, hs2, rfl, rfl⟩ := h
      have hd1 : Obs.dropped ∉ o := fun h => hd (List.mem_append_left _ h)
      have hd2 : Obs.dropped ∉ o2 := fun h => hd (List.mem_append_right _ h)
      rw [queued_append', List.length_append] at hq
      cases e with
      | bg e =>
        simp only [Knx.step, Option.map_eq_some_iff, Prod.exists, Prod.mk.injEq] at hs
        obtain ⟨b1, o', hb, rfl, rfl⟩ := hs
        obtain ⟨b2, h1, h2, h4⟩ := ha.step hb (by omega)
        obtain ⟨b3, h3⟩ := ih (t := { t with bg := b2 }) hs2 h2 hd2 (by simp only [h4, List.length_append]; omega)
        refine ⟨b3, ?_⟩
        simp only [outside] at h3
        simp only [outside, List.filter_cons, if_true, runEvs, Knx.step, h1, h3, Option.map_some, ownPart_append, bgStep_own hb]
      | api e =>
        obtain ⟨h1, h2⟩ := ha.call hs hd1
        obtain ⟨b3, h3⟩ := ih hs2 h1 hd2 (by omega)
        exact ⟨b3, by rw [ownPart_append, h2, List.nil_append, ← h3]; rfl⟩
      | delay d =>
        cases hs
        obtain ⟨b3, h3⟩ := ih (t := { t with bg := { t.bg with now := t.bg.now + d } }) hs2 (ha.delay d) hd2 (by simp only; omega)
        refine ⟨b3, ?_⟩
        simp only [outside] at h3
        simp only [outside, List.filter_cons, if_true, runEvs, Knx.step, h3, Option.map_some, List.nil_append]

theorem Alike.mfollow {m : Mode} {evs : List MEv} : ∀ {s s' t : MSys} {tr : List Obs}, mrunEvs m s evs = some (s', tr) → Alike s.bg t.bg →
    Obs.dropped ∉ tr → (∀ i, Obs.subscribed i ∉ tr) → t.bg.queue.length + (queued tr).length ≤ 100 →
    ∃ t', mrunEvs m t (moutside evs) = some (t', ownPart tr) := by
  induction evs with
  | nil => intro s s' t tr h ha _ _ _; simp only [mrunEvs, Option.some.injEq, Prod.mk.injEq] at h; obtain ⟨rfl, rfl⟩ := h; exact ⟨t, rfl⟩
  | cons e es ih =>
    intro s s' t tr h ha hd hn hq
    simp only [mrunEvs] at h
    split at h
    · cases h
    · rename_i s1 o hs
      simp only [Option.map_eq_some_iff, Prod.exists, Prod.mk.injEq] at h
      obtain ⟨s2, o2, hs2, rfl, rfl⟩ := h
      have hd1 : Obs.dropped ∉ o := fun h => hd (List.mem_append_left _ h)
      have hd2 : Obs.dropped ∉ o2 := fun h => hd (List.mem_append_right _ h)
      have hn1 : ∀ i, Obs.subscribed i ∉ o := fun i h => hn i (List.mem_append_left _ h)
      have hn2 : ∀ i, Obs.subscribed i ∉ o2 := fun i h => hn i (List.mem_append_right _ h)
      rw [queued_append', List.length_append] at hq
      cases e with
      | bg e =>
        simp only [Knx.mstep, Option.map_eq_some_iff, Prod.exists, Prod.mk.injEq] at hs
        obtain ⟨b1, o', hb, rfl, rfl⟩ := hs
        obtain ⟨b2, h1, h2, h4⟩ := ha.step hb (by omega)
        obtain ⟨b3, h3⟩ := ih (t := { t with bg := b2 }) hs2 h2 hd2 hn2 (by simp only [h4, List.length_append]; omega)
        refine ⟨b3, ?_⟩
        simp only [moutside] at h3
        simp only [moutside, List.filter_cons, if_true, mrunEvs, Knx.mstep, h1, h3, Option.map_some, ownPart_append, bgStep_own hb]
      | api e =>
        obtain ⟨h1, h2⟩ := ha.mcall hs hd1 hn1
        obtain ⟨b3, h3⟩ := ih hs2 h1 hd2 hn2 (by omega)
        exact ⟨b3, by rw [ownPart_append, h2, List.nil_append, ← h3]; rfl⟩
      | delay d =>
        cases hs
        obtain ⟨b3, h3⟩ := ih (t := { t with bg := { t.bg with now := t.bg.now + d } }) hs2 (ha.delay d) hd2 hn2 (by simp only; omega)
        refine ⟨b3, ?_⟩
        simp only [moutside] at h3
        simp only [moutside, List.filter_cons, if_true, mrunEvs, Knx.mstep, h3, Option.map_some, List.nil_append]

/-- C107: without any call at all the client does the same, and without the calls nothing else is observed, as long as no more than
100 telegrams have been put into the queue that nobody reads then. -/
theorem C107_unattended {m : Mode} {evs : List Ev} {s : Sys} {tr : List Obs} (h : runEvs m Sys.init evs = some (s, tr))
    (hd : Obs.dropped ∉ tr) (hq : (queued tr).length ≤ 100) : ∃ s', runEvs m Sys.init (outside evs) = some (s', ownPart tr) :=
  Alike.follow h Alike.init hd (by simpa [Sys.init, Bg.init] using hq)

/-- C107: likewise the monitor. -/
theorem C107_unattended_monitor {m : Mode} {evs : List MEv} {s : MSys} {tr : List Obs} (h : mrunEvs m MSys.init evs = some (s, tr))
    (hd : Obs.dropped ∉ tr) (hn : ∀ i, Obs.subscribed i ∉ tr) (hq : (queued tr).length ≤ 100) :
    ∃ s', mrunEvs m MSys.init (moutside evs) = some (s', ownPart tr) :=
  Alike.mfollow h Alike.init hd hn (by simpa [MSys.init, Bg.init] using hq)

/-- The case of C107: an application that reads from 1/0/1 while a telegram arrives, and one that does nothing. -/
example (m : Mode) : ∃ evs evs' s s' tr tr', runEvs m Sys.init evs = some (s, tr) ∧ runEvs m Sys.init evs' = some (s', tr') ∧
    outside evs = outside evs' ∧ Obs.dropped ∉ tr ∧ Obs.dropped ∉ tr' ∧ (calls tr).length = 1 ∧ calls tr' = [] ∧ (queued tr).length ≤ 100 ∧
    ownPart tr = [.tx .task connReqPacket, .rxConn grant7, .up conn7, .rx req7, .tx .task (frame TUNNELING_ACK [4, 7, 0, 0]), .queued tel7] := by
  let evs : List Ev := [.bg .run, .bg .sendOk, .bg (.dgram grant7), .bg .run, .api (.call (.read (.group3 ⟨1, 0, 1⟩))), .api .run,
    .api .run, .api .sendOk, .bg (.dgram req7), .bg .sendOk, .delay 5, .bg .run, .api .run]
  let f : Sys × List Obs → Bool × Nat × Nat × List Obs := fun x => (decide (Obs.dropped ∈ x.2), (calls x.2).length, (queued x.2).length, ownPart x.2)
  let own : List Obs := [.tx .task connReqPacket, .rxConn grant7, .up conn7, .rx req7, .tx .task (frame TUNNELING_ACK [4, 7, 0, 0]), .queued tel7]
  have h1 : (runEvs m Sys.init evs).map f = some (false, 1, 1, own) := by cases m <;> decide +kernel
  have h2 : (runEvs m Sys.init (outside evs)).map f = some (false, 0, 1, own) := by cases m <;> decide +kernel
  simp only [Option.map_eq_some_iff, Prod.exists] at h1 h2
  obtain ⟨s, tr, h1, e1⟩ := h1
  obtain ⟨s', tr', h2, e2⟩ := h2
  simp only [f, Prod.mk.injEq, decide_eq_false_iff_not] at e1 e2
  exact ⟨evs, outside evs, s, s', tr, tr', h1, h2, rfl, e1.1, e2.1, e1.2.1, List.length_eq_zero_iff.1 e2.2.1, by omega, e1.2.2.2⟩

/-- The same for the monitor. -/
example (m : Mode) : ∃ evs s tr, mrunEvs m MSys.init evs = some (s, tr) ∧ Obs.dropped ∉ tr ∧ (∀ i, Obs.subscribed i ∉ tr) ∧
    moutside evs ≠ evs ∧ (queued tr).length = 1 := by
  let evs : List MEv := [.bg .run, .bg .sendOk, .bg (.dgram grant7), .bg .sendOk, .bg .run, .bg .run,
      .api (.ncall 3), .bg (.dgram req7), .bg .sendOk, .bg .run, .api (.nrun 3)]
  let f : MSys × List Obs → Bool × Nat × Bool := fun x => (decide (Obs.dropped ∈ x.2), (queued x.2).length,
    x.2.any fun | .subscribed _ => true | _ => false)
  have h1 : (mrunEvs m MSys.init evs).map f = some (false, 1, false) := by cases m <;> decide +kernel
  simp only [Option.map_eq_some_iff, Prod.exists] at h1
  obtain ⟨s, tr, h1, e1⟩ := h1
  simp only [f, Prod.mk.injEq, decide_eq_false_iff_not, List.any_eq_false] at e1
  refine ⟨evs, s, tr, h1, e1.1, fun i hi => ?_, fun h => ?_, e1.2.1⟩
  · exact absurd rfl (e1.2.2 _ hi)
  · exact absurd (congrArg List.length h) (by simp [evs, moutside])

end Knx
