import Verif.Spec.Fate
import Verif.Props.Transport

/-!
# C44: exactly which acknowledged telegrams are lost
-/

namespace Knx
open Spec

/-- The state of the account. -/
def fateSt (tr : List Obs) : Option Bytes × List (Bytes × Fate) := tr.foldl fateStep (none, [])

theorem fateSt_append (tr o : List Obs) : fateSt (tr ++ o) = o.foldl fateStep (fateSt tr) := by
  simp [fateSt, List.foldl_append]

theorem settle_last (f : Fate) (l : List (Bytes × Fate)) (d : Bytes) : settle f (l ++ [(d, .none)]) = l ++ [(d, f)] := by
  induction l with
  | nil => rfl
  | cons x l ih =>
    cases h : l ++ [(d, Fate.none)] with
    | nil => simp at h
    | cons y t =>
      rw [h] at ih
      rw [List.cons_append, h]
      rw [show settle f (x :: y :: t) = x :: settle f (y :: t) by
        obtain ⟨a, b⟩ := x; cases b <;> rfl, ih]
      rfl

/-- Observations that have no part in the account. -/
def fateless : Obs → Bool
  | .rx _ => false
  | .tx _ p => !serviceIs TUNNELING_ACK p
  | .queued _ => false
  | .interrupt => false
  | .closed => false
  | _ => true

theorem fateStep_fateless {st : Option Bytes × List (Bytes × Fate)} {x : Obs} (h : fateless x = true) : fateStep st x = st := by
  cases x <;> simp_all [fateless, fateStep]

theorem fold_fateless {o : List Obs} (st : Option Bytes × List (Bytes × Fate)) (h : ∀ x ∈ o, fateless x = true) :
    o.foldl fateStep st = st := by
  induction o with
  | nil => rfl
  | cons x o ih =>
    rw [List.foldl_cons, fateStep_fateless (h x (by simp))]
    exact ih fun y hy => h y (by simp [hy])

theorem quiet_fateless {x : Obs} (h : quiet x = true) : fateless x = true := by
  cases x <;> first | rfl | (rename_i w p; cases w <;> simp_all [quiet, fateless]) | simp_all [quiet]

theorem Env.fateless {k : Kind} {s s' : Bg} {o : List Obs} (h : Env k s s' o) : ∀ x ∈ o, fateless x = true := by
  cases h with
  | quiet _ hq => exact fun x hx => quiet_fateless (hq x hx)
  | draw => simp [Knx.fateless]
  | take i c rest o _ hq =>
    intro x hx
    rcases List.mem_cons.1 hx with rfl | hx
    · rfl
    · exact quiet_fateless (hq x hx)
  | drop => simp [Knx.fateless]
  | subs _ _ _ _ _ hq => exact fun x hx => quiet_fateless (hq x hx)
  | chans => simp
  | delay => simp

/-- The account at a place in the code. -/
def FateAt (m : Mode) (st : Option Bytes × List (Bytes × Fate)) : Pc → Prop
  | .push c => ∃ l d, st = (none, l ++ [(d, .none)]) ∧ Carries m d c ∧ ∀ x ∈ l, FateFits m x
  | _ => ∀ x ∈ st.2, FateFits m x

/-- The account agrees with what was acknowledged and delivered. -/
structure FateInv (m : Mode) (pc : Pc) (tr : List Obs) : Prop where
  cur : (fateSt tr).1 = (ackSt tr).1
  acked : (fateSt tr).2.map Prod.fst = (ackSt tr).2
  del : deliveredOf (fateSt tr).2 = queued tr
  lost : (lostOf (fateSt tr).2).length ≤ interrupts tr + closings tr
  fits : FateAt m (fateSt tr) pc

theorem FateInv.still {m : Mode} {pc pc' : Pc} {tr o : List Obs} (h : FateInv m pc tr) (ho : ∀ x ∈ o, fateless x = true)
    (h1 : ∀ st, o.foldl ackedStep st = st) (h2 : queued o = [])
    (h3 : ∀ st, FateAt m st pc → FateAt m st pc') : FateInv m pc' (tr ++ o) := by
  have e : fateSt (tr ++ o) = fateSt tr := by rw [fateSt_append, fold_fateless _ ho]
  have e' : ackSt (tr ++ o) = ackSt tr := by rw [ackSt_append, h1]
  have := h.lost
  exact ⟨by rw [e, e']; exact h.cur, by rw [e, e']; exact h.acked, by rw [e, queued_append, h2, List.append_nil]; exact h.del,
    by rw [e, interrupts_append, closings_append]; omega, by rw [e]; exact h3 _ h.fits⟩

theorem FateInv.rx {m : Mode} {pc pc' : Pc} {tr o : List Obs} {d : Bytes} (h : FateInv m pc tr)
    (ho : ∀ st, o.foldl fateStep st = (some d, st.2))
    (h1 : ∀ st, o.foldl ackedStep st = (some d, st.2)) (h2 : queued o = [])
    (h3 : ∀ st, FateAt m st pc → FateAt m (some d, st.2) pc') : FateInv m pc' (tr ++ o) := by
  have e : fateSt (tr ++ o) = (some d, (fateSt tr).2) := by rw [fateSt_append, ho]
  have e' : ackSt (tr ++ o) = (some d, (ackSt tr).2) := by rw [ackSt_append, h1]
  have := h.lost
  exact ⟨by rw [e, e'], by rw [e, e']; exact h.acked, by rw [e, queued_append, h2, List.append_nil]; exact h.del,
    by rw [e, interrupts_append, closings_append]; simp only; omega, by rw [e]; exact h3 _ h.fits⟩

theorem FateInv.ack {m : Mode} {pc pc' : Pc} {tr o : List Obs} {d : Bytes} (h : FateInv m pc tr)
    (hd : (ackSt tr).1 = some d) (ho : ∀ st, o.foldl fateStep st = (none, st.2 ++ st.1.toList.map (·, .none)))
    (h1 : ∀ st, o.foldl ackedStep st = (none, st.2 ++ st.1.toList)) (h2 : queued o = [])
    (h3 : FateAt m (fateSt tr) pc → FateAt m (none, (fateSt tr).2 ++ [(d, .none)]) pc') : FateInv m pc' (tr ++ o) := by
  have e : fateSt (tr ++ o) = (none, (fateSt tr).2 ++ [(d, .none)]) := by rw [fateSt_append, ho, h.cur, hd]; rfl
  have e' : ackSt (tr ++ o) = (none, (ackSt tr).2 ++ [d]) := by rw [ackSt_append, h1, hd]; rfl
  have := h.lost
  refine ⟨by rw [e, e'], by rw [e, e', List.map_append, h.acked]; rfl, ?_, ?_, by rw [e]; exact h3 h.fits⟩
  · rw [e, queued_append, h2, List.append_nil, ← h.del]
    simp [deliveredOf, List.filterMap_append]
  · rw [e, interrupts_append, closings_append]
    have : lostOf ((fateSt tr).2 ++ [(d, Fate.none)]) = lostOf (fateSt tr).2 := by simp [lostOf, List.filterMap_append]
    simp only [this]
    omega

/-- A telegram is lost. -/
theorem FateInv.lose {m : Mode} {c : Cemi} {pc' : Pc} {tr o : List Obs} (h : FateInv m (.push c) tr)
    (ho : ∀ l, o.foldl fateStep (none, l) = (none, settle .lost l)) (h1 : ∀ st, o.foldl ackedStep st = st) (h2 : queued o = [])
    (h3 : interrupts o + closings o = 1) (h4 : ∀ st, (∀ x ∈ st.2, FateFits m x) → FateAt m st pc') : FateInv m pc' (tr ++ o) := by
  obtain ⟨l, d, hs, hc, hl⟩ := h.fits
  have e : fateSt (tr ++ o) = (none, l ++ [(d, .lost)]) := by rw [fateSt_append, hs, ho, settle_last]
  have e' : ackSt (tr ++ o) = ackSt tr := by rw [ackSt_append, h1]
  have g1 := h.cur
  have g2 := h.acked
  have g3 := h.del
  have g4 := h.lost
  rw [hs] at g1 g2 g3 g4
  refine ⟨by rw [e, e']; exact g1, by rw [e, e', ← g2]; simp, ?_, ?_, ?_⟩
  · rw [e, queued_append, h2, List.append_nil, ← g3]
    simp [deliveredOf, List.filterMap_append]
  · rw [e, interrupts_append, closings_append]
    have a : lostOf (l ++ [(d, Fate.none)]) = lostOf l := by simp [lostOf, List.filterMap_append]
    have b : lostOf (l ++ [(d, Fate.lost)]) = lostOf l ++ [d] := by simp [lostOf, List.filterMap_append]
    rw [a] at g4
    simp only [b, List.length_append, List.length_singleton]
    omega
  · rw [e]
    apply h4
    intro x hx
    rcases List.mem_append.1 hx with hx | hx
    · exact hl x hx
    · rw [List.mem_singleton.1 hx]; exact ⟨c, hc⟩

theorem FateAt.all {m : Mode} {st : Option Bytes × List (Bytes × Fate)} {pc : Pc} (h : FateAt m st pc) (hp : ∀ c, pc ≠ .push c) :
    ∀ x ∈ st.2, FateFits m x := by
  cases pc <;> first | exact h | exact absurd rfl (hp _)

theorem FateAt.of {m : Mode} {st : Option Bytes × List (Bytes × Fate)} {pc : Pc} (h : ∀ x ∈ st.2, FateFits m x) (hp : ∀ c, pc ≠ .push c) :
    FateAt m st pc := by
  cases pc <;> first | exact h | exact absurd rfl (hp _)

theorem fits_snoc {m : Mode} {l : List (Bytes × Fate)} {d : Bytes} (h : ∀ x ∈ l, FateFits m x) (hd : ¬ HasTelegram m d) :
    ∀ x ∈ l ++ [(d, Fate.none)], FateFits m x := by
  intro x hx
  rcases List.mem_append.1 hx with hx | hx
  · exact h x hx
  · rw [List.mem_singleton.1 hx]
    exact fun c hc => hd ⟨c, hc⟩

theorem GExec.fate {k : Kind} {m : Mode} {s : Bg} {tr : List Obs} (h : GExec k m s tr) : FateInv m s.pc tr := by
  induction h with
  | init => exact ⟨rfl, rfl, rfl, by decide, by intro x hx; cases hx⟩
  | env _ he ih =>
    refine ih.still he.fateless he.facts.acked he.facts.queued ?_
    rw [he.facts.pc]; exact fun _ h => h
  | @task s s' tr o hx ht ih =>
    have prog := hx.ledger.del
    have busyTick : ∀ pc', busy s.pc = true → (∀ c, pc' ≠ .push c) → FateInv m pc' (tr ++ [.tick, .interrupt]) := by
      intro pc' hb hp
      cases hpc : s.pc <;> simp [busy, hpc] at hb
      case push c =>
        rw [hpc] at ih
        exact ih.lose (fun l => rfl) (by simp [ackedStep]) rfl rfl (fun st h => FateAt.of h hp)
      case discResp p => exact absurd hpc (hx.conn_iff.2 p)
      all_goals
        obtain ⟨ds0, _, hprog⟩ := prog
        rw [hpc] at hprog ih
        have hs : ∃ d, (ackSt tr).1 = some d := by
          first
          | exact ⟨_, hprog.1.choose_spec.1⟩
          | (obtain ⟨⟨d, f, v, u, hd, _⟩, _⟩ := hprog; exact ⟨d, hd⟩)
        obtain ⟨d, hd⟩ := hs
        have e : fateSt (tr ++ [.tick, .interrupt]) = fateSt tr := by
          rw [fateSt_append]
          simp only [List.foldl_cons, List.foldl_nil, fateStep, ih.cur, hd]
          simp
        have e' : ackSt (tr ++ [.tick, .interrupt]) = ackSt tr := by rw [ackSt_append]; rfl
        have g := ih.lost
        exact ⟨by rw [e, e']; exact ih.cur, by rw [e, e']; exact ih.acked, by rw [e, queued_append]; simpa [queued] using ih.del,
          by rw [e, interrupts_append, closings_append]; omega, by rw [e]; exact FateAt.of (ih.fits.all (by simp)) hp⟩
    have keep : ∀ pc', (∀ c, s.pc ≠ .push c) → (∀ c, pc' ≠ .push c) → ∀ st, FateAt m st s.pc → FateAt m st pc' :=
      fun pc' h1 h2 st h => FateAt.of (h.all h1) h2
    have keep' : ∀ pc' d, (∀ c, s.pc ≠ .push c) → (∀ c, pc' ≠ .push c) → ∀ st, FateAt m st s.pc → FateAt m (some d, st.2) pc' :=
      fun pc' d h1 h2 st h => FateAt.of (st := (some d, st.2)) (h.all h1) h2
    cases ht
    case tickBusy c hb _ _ => exact busyTick _ hb (by simp)
    case tickBusyNone hb _ _ => exact busyTick _ hb (by simp)
    case connSendOk hpc => exact ih.still (by simp [fateless, serviceIs_connReq]) (by simp [ackedStep, serviceIs_connReq]) rfl (keep _ (by simp [hpc]) (by simp))
    case enableOk hpc => exact ih.still (by simp [fateless, serviceIs_enable]) (by simp [ackedStep, serviceIs_enable]) rfl (keep _ (by simp [hpc]) (by simp))
    case hbOk hpc => exact ih.still (by simp [fateless, stateReq_not_ack]) (by simp [ackedStep, stateReq_not_ack]) rfl (keep _ (by simp [hpc]) (by simp))
    case discOk p hpc => exact absurd hpc (hx.conn_iff.2 p)
    case discFail p hpc => exact absurd hpc (hx.conn_iff.2 p)
    case pushClosed c hpc ho =>
      rw [hpc] at ih
      exact ih.lose (fun l => rfl) (by simp [ackedStep]) rfl rfl (fun st h => FateAt.of h (by simp))
    case pushOk c hpc ho hq =>
      rw [hpc] at ih
      obtain ⟨l, d, hs, hc, hl⟩ := ih.fits
      have e : fateSt (tr ++ [.queued c]) = (none, l ++ [(d, .delivered c)]) := by
        rw [fateSt_append, hs]
        simp only [List.foldl_cons, List.foldl_nil, fateStep, settle_last]
      have e' : ackSt (tr ++ [.queued c]) = ackSt tr := by rw [ackSt_append]; rfl
      have g1 := ih.cur
      have g2 := ih.acked
      have g3 := ih.del
      have g4 := ih.lost
      rw [hs] at g1 g2 g3 g4
      refine ⟨by rw [e, e']; exact g1, by rw [e, e', ← g2]; simp, ?_, ?_, ?_⟩
      · rw [e, queued_append, ← g3]
        simp [deliveredOf, List.filterMap_append, queued]
      · rw [e, interrupts_append, closings_append]
        have a : lostOf (l ++ [(d, Fate.none)]) = lostOf l := by simp [lostOf, List.filterMap_append]
        have b : lostOf (l ++ [(d, Fate.delivered c)]) = lostOf l := by simp [lostOf, List.filterMap_append]
        rw [a] at g4
        simp only [b]
        omega
      · rw [e]
        intro x hx
        rcases List.mem_append.1 hx with hx | hx
        · exact hl x hx
        · rw [List.mem_singleton.1 hx]; exact hc
    case ackReqOk ch sq raw c hpc hc =>
      obtain ⟨ds0, _, hprog⟩ := prog
      rw [hpc] at hprog
      obtain ⟨⟨d, hd, hdec⟩, _⟩ := hprog
      exact ih.ack hd (by simp [fateStep, serviceIs_ack]) (by simp [ackedStep, serviceIs_ack]) rfl
        fun h => ⟨_, d, rfl, ⟨_, hdec, hc⟩, h.all (by simp [hpc])⟩
    case ackReqBad ch sq raw hpc hc =>
      obtain ⟨ds0, _, hprog⟩ := prog
      rw [hpc] at hprog
      obtain ⟨⟨d, hd, hdec⟩, _⟩ := hprog
      exact ih.ack hd (by simp [fateStep, serviceIs_ack]) (by simp [ackedStep, serviceIs_ack]) rfl
        fun h => fits_snoc (h.all (by simp [hpc])) (by rw [HasTelegram.iff hdec, hc]; simp)
    case ackReqPanic ch sq raw hpc hc =>
      obtain ⟨ds0, _, hprog⟩ := prog
      rw [hpc] at hprog
      obtain ⟨⟨d, hd, hdec⟩, _⟩ := hprog
      exact ih.ack hd (by simp [fateStep, serviceIs_ack]) (by simp [ackedStep, serviceIs_ack]) rfl
        fun h => fits_snoc (h.all (by simp [hpc])) (by rw [HasTelegram.iff hdec, hc]; simp)
    case ackFeatOk ch sq hpc =>
      obtain ⟨ds0, _, hprog⟩ := prog
      rw [hpc] at hprog
      obtain ⟨⟨d, f, v, u, hd, hdec⟩, _⟩ := hprog
      exact ih.ack hd (by simp [fateStep, serviceIs_ack]) (by simp [ackedStep, serviceIs_ack]) rfl
        fun h => fits_snoc (h.all (by simp [hpc])) (HasTelegram.not hdec (by simp))
    case recvEmpty hpc => exact ih.rx (d := []) (by simp [fateStep]) (by simp [ackedStep]) rfl (keep' _ _ (by simp [hpc]) (by simp [hpc]))
    case recvAck d r hpc _ _ => exact ih.rx (d := d) (by simp [fateStep]) (by simp [ackedStep]) rfl (keep' _ _ (by simp [hpc]) (by simp [hpc]))
    case recvStateOk d r hpc _ _ _ => exact ih.rx (d := d) (by simp [fateStep]) (by simp [ackedStep]) rfl (keep' _ _ (by simp [hpc]) (by simp [hpc]))
    case recvErr d hpc _ _ => exact ih.rx (d := d) (by simp [fateStep]) (by simp [ackedStep]) rfl (keep' _ _ (by simp [hpc]) (by simp [hpc]))
    case recvPanic d hpc _ _ => exact ih.rx (d := d) (by simp [fateStep]) (by simp [ackedStep]) rfl (keep' _ _ (by simp [hpc]) (by simp [hpc]))
    case recvReq d r hpc _ _ => exact ih.rx (d := d) (by simp [fateStep]) (by simp [ackedStep]) rfl (keep' _ _ (by simp [hpc]) (by simp [hpc]))
    case recvFeat d r hpc _ _ => exact ih.rx (d := d) (by simp [fateStep]) (by simp [ackedStep]) rfl (keep' _ _ (by simp [hpc]) (by simp [hpc]))
    case recvStateBad d r hpc _ _ _ => exact ih.rx (d := d) (by simp [fateStep]) (by simp [ackedStep]) rfl (keep' _ _ (by simp [hpc]) (by simp [hpc]))
    case recvDisc d r hpc _ _ => exact ih.rx (d := d) (by simp [fateStep]) (by simp [ackedStep]) rfl (keep' _ _ (by simp [hpc]) (by simp [hpc]))
    all_goals
      rename_i hpc
      refine ih.still (by simp [fateless]) (by simp [ackedStep]) rfl (keep _ ?_ ?_)
      all_goals simp_all

/-- C44, exactly what is lost: whenever no telegram waits for a place in the message channel, every acknowledged datagram that
carries a telegram either had it put into the channel (and all that was put there came about so, in this order), or its telegram was lost;
and that is the case exactly if, after the acknowledgement and before the telegram was put into the channel, the heart beat
interrupted the handler or the channel was found closed. Every loss has an interrupt or a closed channel of its own. -/
theorem C44_exact {m : Mode} {k : Kind} {s : Bg} {tr : List Obs} (h : Reaches m k s tr) (hp : ∀ c, s.pc ≠ .push c) :
    (fates tr).map Prod.fst = acked tr ∧ deliveredOf (fates tr) = queued tr ∧ (∀ x ∈ fates tr, FateFits m x) ∧
      (lostOf (fates tr)).length ≤ interrupts tr + closings tr :=
  have f := h.gexec.fate
  ⟨f.acked, f.del, f.fits.all hp, f.lost⟩

example (m : Mode) (k : Kind) : ∃ s tr, Reaches m k s tr ∧ s.pc = .recv ∧ (fates tr).length = 101 ∧ (deliveredOf (fates tr)).length = 100 := by
  obtain ⟨s, tr, h, hpc, _, _, ha, _, hq⟩ := C44_violated m k
  obtain ⟨h1, h2, _, _⟩ := C44_exact h (by simp [hpc])
  refine ⟨s, tr, h, hpc, ?_, by rw [h2, hq, List.length_replicate]⟩
  rw [← List.length_map (f := Prod.fst), h1, ha, List.length_replicate]

end Knx
