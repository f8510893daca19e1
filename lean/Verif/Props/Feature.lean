import Verif.Model.Feature
import Verif.Spec.Feature
import Verif.Props.Client
import Verif.Props.Monitor
import Verif.Props.Frames
import Verif.Lemmas.Runs
import Verif.Lemmas.Invariants3

/-!
# C121: what `set_feature` sends
-/

namespace Knx
open Spec

theorem bg_taskOnly {k : Kind} {m : Mode} {s s' : Bg} {o : List Obs} (h : BgTr k m s s' o) : TaskOnly o := by
  intro x hx
  cases h <;> simp only [List.mem_cons, List.not_mem_nil, or_false] at hx <;> (try rcases hx with rfl | hx) <;> (try subst hx) <;> (try rfl) <;>
    simp_all

theorem taskOnly_app {a b : List Obs} (ha : TaskOnly a) (hb : TaskOnly b) : TaskOnly (a ++ b) := by
  intro x hx
  rcases List.mem_append.1 hx with h | h
  · exact ha x h
  · exact hb x h

theorem taskOnly_nil : TaskOnly [] := fun _ h => absurd h List.not_mem_nil

theorem feat_idle {k : Kind} {m : Mode} {s s' : Bg} {a : Feat} {tr : List Obs} (h : FRun k m s .idle tr s' a) : TaskOnly tr := by
  generalize hx : Feat.idle = x at h
  induction h with
  | nil => exact taskOnly_nil
  | task e hb _ ih => exact taskOnly_app (bg_taskOnly (bgStep_tr hb)) (ih hx)
  | call e hn => exact absurd hx.symm hn
  | delay d _ ih => exact ih hx

theorem feat_send {k : Kind} {m : Mode} {s s' : Bg} {p : Bytes} {tr : List Obs} (h : FRun k m s (.send p) tr s' .idle) :
    ∃ c d, TaskOnly c ∧ TaskOnly d ∧ (tr = c ++ .cancelled :: d ∨ tr = c ++ .tx .api p :: .ret .unit :: d ∨
      tr = c ++ .txFail .api p :: .ret .err :: d) := by
  generalize hx : Feat.send p = x at h
  generalize hy : Feat.idle = y at h
  induction h with
  | nil => subst hx; cases hy
  | task e hb _ ih =>
    obtain ⟨c, d, h1, h2, h3⟩ := ih hx hy
    refine ⟨_ ++ c, d, taskOnly_app (bg_taskOnly (bgStep_tr hb)) h1, h2, ?_⟩
    rcases h3 with rfl | rfl | rfl
    · exact .inl (List.append_assoc _ _ _).symm
    · exact .inr (.inl (List.append_assoc _ _ _).symm)
    · exact .inr (.inr (List.append_assoc _ _ _).symm)
  | call e _ hs hr ih =>
    subst hx
    cases e <;> simp only [featStep, reduceCtorEq, Option.some.injEq, Prod.mk.injEq] at hs
    all_goals
      obtain ⟨rfl, rfl, rfl⟩ := hs
      subst hy
      refine ⟨[], _, taskOnly_nil, feat_idle hr, ?_⟩
      simp
  | delay d _ ih => exact ih hx hy

theorem GExec.number {k : Kind} {m : Mode} {s : Bg} {tr : List Obs} (h : GExec k m s tr) {c : Conn} (hc : s.conn = some c) :
    c.seq = nextNumber k tr := by
  obtain ⟨n, h1, h2⟩ := h.sequence
  unfold nextNumber
  rw [h2 c hc, h1, List.length_map, List.length_range, byte, BitVec.ofNat_add]
  cases k <;> rfl

theorem feat_packet (f : KnxIpFeature) (v ch n : U8) : (FeatureSet.mk f v ch n).packet = featureFrame ch n f v :=
  C19_bodies.2.2.2.2.1 ⟨f, v, ch, n⟩

theorem feat_chan {k : Kind} {m : Mode} {s s' : Bg} {f : KnxIpFeature} {v n : U8} {tr tr' : List Obs} (hg : GExec k m s tr)
    (h : FRun k m s (.chanId f v n) tr' s' .idle) : SetsOn f v n tr tr' := by
  generalize hx : Feat.chanId f v n = x at h
  generalize hy : Feat.idle = y at h
  induction h generalizing tr with
  | nil => subst hx; cases hy
  | @task s s1 _ _ _ o tr' e hb _ ih =>
    have ht := bgStep_tr hb
    obtain ⟨b, d, h1, h2, h3⟩ := ih (hg.task ht) hx hy
    refine ⟨o ++ b, d, taskOnly_app (bg_taskOnly ht) h1, h2, ?_⟩
    simpa only [List.append_assoc, List.append_cancel_left_eq] using h3
  | @call s s1 _ _ _ _ o tr' e _ hs hr ih =>
    subst hx
    cases e <;> simp only [featStep, reduceCtorEq] at hs
    case run =>
      have hu := hg.upNow
      split at hs
      · cases hs
      split at hs
      · rename_i hc
        rw [hc] at hu
        simp only [Option.some.injEq, Prod.mk.injEq] at hs
        obtain ⟨rfl, rfl, rfl⟩ := hs
        subst hy
        exact ⟨[], _, taskOnly_nil, feat_idle hr, .inl ⟨by simpa using hu.symm, rfl⟩⟩
      · rename_i c hc
        rw [hc] at hu
        simp only [Option.some.injEq, Prod.mk.injEq] at hs
        obtain ⟨rfl, rfl, rfl⟩ := hs
        subst hy
        obtain ⟨r, hr1, hr2, _⟩ := hg.grants.2.2 c hc
        obtain ⟨x, d, h1, h2, h3⟩ := feat_send hr
        rw [feat_packet, hr2] at h3
        rcases h3 with rfl | rfl | rfl
        · exact ⟨x, d, h1, h2, .inr (.inl rfl)⟩
        · exact ⟨[], d, taskOnly_nil, h2, .inr (.inr ⟨x, r, h1, by simpa using hu.symm, by simpa using hr1, .inl rfl⟩)⟩
        · exact ⟨[], d, taskOnly_nil, h2, .inr (.inr ⟨x, r, h1, by simpa using hu.symm, by simpa using hr1, .inr rfl⟩)⟩
    case cancel =>
      simp only [Option.some.injEq, Prod.mk.injEq] at hs
      obtain ⟨rfl, rfl, rfl⟩ := hs
      subst hy
      exact ⟨[], _, taskOnly_nil, feat_idle hr, .inr (.inl rfl)⟩
  | @delay s _ _ _ tr' d _ ih =>
    exact ih (by simpa using hg.env (.delay d)) hx hy

/-- C121: in every state of client or monitor that can be reached, whatever the task does in the meantime, a call of `set_feature` draws at
most one number, the next one of the connection, and sends at most one datagram: the feature request of the standard for the feature and the
value given, with that number. Ok is returned if and only if it was sent. -/
theorem C121_sets {m : Mode} {k : Kind} {s s' : Bg} {f : KnxIpFeature} {v : U8} {tr tr' : List Obs} (hg : Reaches m k s tr)
    (h : FRun k m s (.seqNr f v) tr' s' .idle) : Sets k f v tr tr' := by
  replace hg := hg.gexec
  generalize hx : Feat.seqNr f v = x at h
  generalize hy : Feat.idle = y at h
  induction h generalizing tr with
  | nil => subst hx; cases hy
  | @task s s1 _ _ _ o tr' e hb _ ih =>
    have ht := bgStep_tr hb
    have hh := ih (hg.task ht) hx hy
    have := bg_taskOnly ht
    cases hh with
    | noConn a d h1 h2 h3 =>
      rw [← List.append_assoc]
      exact .noConn (o ++ a) d (taskOnly_app this h1) h2 (by rwa [List.append_assoc] at h3)
    | given a d h1 h2 =>
      rw [← List.append_assoc]
      exact .given (o ++ a) d (taskOnly_app this h1) h2
    | drawn a rest h1 h2 h3 =>
      rw [List.append_assoc] at h2 h3
      rw [← List.append_assoc, List.append_assoc tr o a]
      exact .drawn (o ++ a) rest (taskOnly_app this h1) h2 h3
  | @call s s1 _ _ _ _ o tr' e _ hs hr ih =>
    subst hx
    cases e <;> simp only [featStep, reduceCtorEq] at hs
    case run =>
      have hu := hg.upNow
      split at hs
      · cases hs
      rename_i hlock
      split at hs
      · rename_i hc
        rw [hc] at hu
        simp only [Option.some.injEq, Prod.mk.injEq] at hs
        obtain ⟨rfl, rfl, rfl⟩ := hs
        subst hy
        exact .noConn [] _ taskOnly_nil (feat_idle hr) (by simpa using hu.symm)
      · rename_i c hc
        rw [hc] at hu
        simp only [Option.some.injEq, Prod.mk.injEq] at hs
        obtain ⟨rfl, rfl, rfl⟩ := hs
        subst hy
        have hn := hg.number hc
        have := feat_chan (hg.env (.draw c (by simpa using hlock) hc)) hr
        rw [hn] at this ⊢
        have hu' : Spec.upNow (tr ++ []) = true := by simpa using hu.symm
        have := Sets.drawn (k := k) (f := f) (v := v) (tr := tr) [] tr' taskOnly_nil hu' (by simpa using this)
        simpa using this
    case cancel =>
      simp only [Option.some.injEq, Prod.mk.injEq] at hs
      obtain ⟨rfl, rfl, rfl⟩ := hs
      subst hy
      exact .given [] _ taskOnly_nil (feat_idle hr)
  | @delay s _ _ _ tr' d _ ih =>
    exact ih (by simpa using hg.env (.delay d)) hx hy

/-- C121: the other way round: wherever there is a connection and the task does not hold it locked, the request can be sent. -/
theorem C121_sent {m : Mode} {k : Kind} {s : Bg} {tr : List Obs} (hg : Reaches m k s tr) (hu : upNow tr = true) (hl : connLocked k s = false)
    (f : KnxIpFeature) (v : U8) : ∃ r s', lastUp tr = some r ∧
      FRun k m s (.seqNr f v) [.drew (nextNumber k tr), .tx .api (featureFrame r.channel (nextNumber k tr) f v), .ret .unit] s' .idle := by
  have hg' := hg.gexec
  obtain ⟨c, hc⟩ := Option.isSome_iff_exists.1 (hg'.upNow.trans hu)
  obtain ⟨r, hr1, hr2, _⟩ := hg'.grants.2.2 c hc
  refine ⟨r, { s with conn := some { c with seq := c.seq + 1 } }, hr1, ?_⟩
  rw [← hg'.number hc, ← hr2]
  have hl' : ∀ x, connLocked k { s with conn := x } = false := fun x => hl
  refine .call (s' := { s with conn := some { c with seq := c.seq + 1 } }) (o := [.drew c.seq]) .run (by simp) (a' := .chanId f v c.seq) (by simp [featStep, hl, hc]) ?_
  refine .call (s' := { s with conn := some { c with seq := c.seq + 1 } }) (o := []) .run (by simp) (a' := .send (featureFrame c.channel c.seq f v)) (by simp [featStep, hl', feat_packet]) ?_
  exact .call (o := [_, _]) .sendOk (by simp) rfl (.nil _ _)


theorem frun_bg {k : Kind} {m : Mode} {s s' s'' : Bg} {a a' : Feat} {evs : List BgEv} {o tr : List Obs} (h : bgRun k m s evs = some (s', o))
    (hr : FRun k m s' a tr s'' a') : FRun k m s a (o ++ tr) s'' a' := by
  induction evs generalizing s o with
  | nil => simp only [bgRun, Option.some.injEq, Prod.mk.injEq] at h; obtain ⟨rfl, rfl⟩ := h; exact hr
  | cons e es ih =>
    simp only [bgRun] at h
    split at h
    · cases h
    · rename_i s1 o1 he
      simp only [Option.map_eq_some_iff, Prod.mk.injEq, Prod.exists] at h
      obtain ⟨s2, o2, h1, rfl, rfl⟩ := h
      rw [List.append_assoc]
      exact .task e he (ih h1)

/-- C121: what the property cannot promise, because it does not hold: that number and channel belong together. For any two connections that a
server can grant, the number drawn on the first is sent on the second, if the first is given up in between. -/
theorem C121_mixed (m : Mode) (k : Kind) {d1 d2 : Bytes} {r1 r2 : ConnectionResponse} (h1 : Grants d1 r1) (h2 : Grants d2 r2)
    (f : KnxIpFeature) (v : U8) :
    ∃ s tr s' tr', Reaches m k s tr ∧ lastUp tr = some r1 ∧ FRun k m s (.seqNr f v) tr' s' .idle ∧ lastUp tr' = some r2 ∧
      Obs.drew (nextNumber k tr) ∈ tr' ∧ Obs.tx .api (featureFrame r2.channel (nextNumber k tr) f v) ∈ tr' := by
  have hr := reaches_link m k h1
  have hl : lastUp (linkTrace k d1 r1) = some r1 := by cases k <;> rfl
  have hn : nextNumber k (linkTrace k d1 r1) = (Conn.ofResponse k r1).seq := by cases k <;> rfl
  have hc := (tryConnect_iff d2 r2).2 h2
  obtain ⟨bad, e⟩ : ∃ bad, onDatagram bad = .teardown := ⟨[1, 2, 3], by decide +kernel⟩
  have hb : ∃ evs, bgRun k m { linkUp k r1 with conn := some { Conn.ofResponse k r1 with seq := (Conn.ofResponse k r1).seq + 1 } } evs =
      some (linkUp k r2, [.rx bad, .down] ++ linkTrace k d2 r2) := by
    cases k
    · exact ⟨[.dgram bad, .run, .run, .sendOk, .dgram d2, .run],
        by simp [bgRun, bgStep, linkUp, Bg.init, hc, connected, linkTrace, e, endObs]⟩
    · exact ⟨[.dgram bad, .run, .run, .sendOk, .dgram d2, .sendOk, .run, .run],
        by simp [bgRun, bgStep, linkUp, Bg.init, hc, connected, linkTrace, e, endObs]⟩
  obtain ⟨evs, hb⟩ := hb
  refine ⟨_, _, linkUp k r2, [.drew (nextNumber k (linkTrace k d1 r1))] ++ (([.rx bad, .down] ++ linkTrace k d2 r2) ++
    ([] ++ [.tx .api (featureFrame r2.channel (nextNumber k (linkTrace k d1 r1)) f v), .ret .unit])), hr, hl, ?_, ?_, by simp, by simp⟩
  · refine .call .run (by simp) (a' := .chanId f v (nextNumber k (linkTrace k d1 r1))) ?_ (frun_bg hb ?_)
    · rw [hn]; cases k <;> simp [featStep, connLocked, linkUp]
    · refine .call .run (by simp) (s' := linkUp k r2) (a' := .send (featureFrame r2.channel (nextNumber k (linkTrace k d1 r1)) f v)) ?_ ?_
      · cases k <;> simp [featStep, connLocked, linkUp, feat_packet, Conn.ofResponse]
      · exact .call (o := [_, _]) (tr := []) .sendOk (by simp) rfl (.nil _ _)
  · cases k <;> rfl

example (m : Mode) : ∃ s, Reaches m .client s (linkTrace .client grant7 conn7) ∧ upNow (linkTrace .client grant7 conn7) = true ∧
    connLocked .client s = false ∧ nextNumber .client (linkTrace .client grant7 conn7) = 0 ∧
    featureFrame 7 0 .infoServiceEnable 1 = [6, 0x10, 4, 0x24, 0, 13, 4, 7, 0, 0, 8, 0, 1] :=
  ⟨_, reaches_link m .client grants7, rfl, rfl, rfl, by decide⟩

end Knx
