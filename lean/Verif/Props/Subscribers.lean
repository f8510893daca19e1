import Verif.Spec.Owed
import Verif.Lemmas.Runs
import Verif.Props.Calls

/-!
# C109: what a subscriber of the monitor learns
-/

namespace Knx
open Spec

theorem told_append (id : Nat) (a b : List Obs) : told id (a ++ b) = told id a + told id b := by simp [told]
theorem signedUp_append (id : Nat) (a b : List Obs) : signedUp id (a ++ b) = signedUp id a + signedUp id b := by simp [signedUp]

theorem owed_append (id n : Nat) (a b : List Obs) : owed id n (a ++ b) = owed id n a + owed id (n + signedUp id a) b := by
  induction a generalizing n with
  | nil => simp [owed, signedUp, subscribedIds]
  | cons x a ih =>
    cases x <;> simp only [List.cons_append, owed, ih] <;> simp [signedUp, subscribedIds]
    case subscribed j =>
      by_cases h : j = id
      · subst h; simp; congr 1; omega
      · simp [h]
    case up => omega

theorem owed_noUp (id n : Nat) {o : List Obs} (h : o.any isUp = false) : owed id n o = 0 := by
  induction o generalizing n with
  | nil => rfl
  | cons x o ih => cases x <;> simp_all [owed, isUp]

theorem owed_ge (id n : Nat) {o : List Obs} (h : o.any isUp = true) : n ≤ owed id n o := by
  induction o generalizing n with
  | nil => simp at h
  | cons x o ih =>
    cases x <;> simp only [List.any_cons, isUp, Bool.false_or, owed] at h ⊢
    case up => omega
    case subscribed j => split; exact Nat.le_trans (Nat.le_succ n) (ih _ h); exact ih _ h
    all_goals exact ih _ h

/-- The notifications still to be sent in the present round. -/
def leftToTell (s : Bg) (id : Nat) : Nat :=
  match s.pc with
  | .notify t _ => t.count id
  | _ => 0

/-- How often the subscriber will be on the list after the present round, if its channel stays open. -/
def onList (s : Bg) (id : Nat) : Nat :=
  match s.pc with
  | .notify t a => t.count id + a.count id
  | _ => s.subs.count id

theorem leftToTell_not {s : Bg} {id : Nat} (h : notNotify s.pc) : leftToTell s id = 0 := by
  unfold leftToTell; cases hp : s.pc <;> simp_all [notNotify]
theorem onList_not {s : Bg} {id : Nat} (h : notNotify s.pc) : onList s id = s.subs.count id := by
  unfold onList; cases hp : s.pc <;> simp_all [notNotify]

structure OweInv (id : Nat) (s : Bg) (tr : List Obs) : Prop where
  cap : 0 < signedUp id tr → 0 < (s.chans id).cap
  le : told id tr + leftToTell s id ≤ owed id 0 tr ∧ onList s id ≤ signedUp id tr
  eq : (s.chans id).isOpen = true ∨ (s.chans id).cap = 0 → told id tr + leftToTell s id = owed id 0 tr ∧ onList s id = signedUp id tr

theorem OweInv.other {id : Nat} {s s' : Bg} {tr o : List Obs} (h : OweInv id s tr) (f : MFacts s s' o) : OweInv id s' (tr ++ o) := by
  have ht : told id o = 0 := by simp [told, f.notified]
  have ho : ∀ n, owed id n o = 0 := fun n => owed_noUp id n f.noUp
  have hp : leftToTell s' id = leftToTell s id := by simp [leftToTell, f.pc]
  have hopen : (s'.chans id).isOpen = true ∨ (s'.chans id).cap = 0 → (s.chans id).isOpen = true ∨ (s.chans id).cap = 0 := by
    intro h
    rcases Nat.eq_zero_or_pos (s.chans id).cap with h0 | h0
    · exact Or.inr h0
    · obtain ⟨h1, h2⟩ := f.chans id h0
      rcases h with h | h
      · exact Or.inl (h2 h)
      · omega
  rcases f.subs with ⟨h1, h2⟩ | ⟨j, h1, h2, h3, h4⟩
  · have hs : signedUp id o = 0 := by simp [signedUp, h2]
    have hh : onList s' id = onList s id := by simp [onList, f.pc, h1]
    refine ⟨?_, ?_, ?_⟩
    · rw [signedUp_append, hs]; exact fun x => (f.chans id (h.cap x)).1
    · rw [told_append, owed_append, signedUp_append, ht, ho, hs, hp, hh]; exact h.le
    · rw [told_append, owed_append, signedUp_append, ht, ho, hs, hp, hh]; exact fun x => h.eq (hopen x)
  · have hs : signedUp id o = if j = id then 1 else 0 := by simp [signedUp, h2, List.count_singleton]
    have hh : onList s' id = onList s id + if j = id then 1 else 0 := by
      rw [onList_not h3, onList_not (f.pc ▸ h3), h1, List.count_append, List.count_singleton]; simp
    refine ⟨?_, ?_, ?_⟩
    · rw [signedUp_append, hs]
      intro x
      by_cases hj : j = id
      · subst hj; exact (f.chans _ h4).1
      · exact (f.chans id (h.cap (by simpa [hj] using x))).1
    · rw [told_append, owed_append, signedUp_append, ht, ho, hs, hp, hh]; have := h.le; omega
    · rw [told_append, owed_append, signedUp_append, ht, ho, hs, hp, hh]; intro x; have := h.eq (hopen x); omega

theorem OweInv.still {id : Nat} {s s' : Bg} {tr o : List Obs} (h : OweInv id s tr) (h1 : s'.subs = s.subs) (h2 : s'.chans = s.chans)
    (h3 : notNotify s.pc) (h4 : notNotify s'.pc) (h5 : o.any isUp = false) (h6 : notifiedIds o = [])
    (h7 : subscribedIds o = []) : OweInv id s' (tr ++ o) := by
  have ht : told id o = 0 := by simp [told, h6]
  have ho : ∀ n, owed id n o = 0 := fun n => owed_noUp id n h5
  have hs : signedUp id o = 0 := by simp [signedUp, h7]
  refine ⟨?_, ?_, ?_⟩
  · rw [signedUp_append, hs, h2]; exact h.cap
  · have := h.le
    rw [leftToTell_not h3, onList_not h3] at this
    rw [told_append, owed_append, signedUp_append, ht, ho, hs, leftToTell_not h4, onList_not h4, h1]; exact this
  · have := h.eq
    rw [leftToTell_not h3, onList_not h3] at this
    rw [told_append, owed_append, signedUp_append, ht, ho, hs, leftToTell_not h4, onList_not h4, h1, h2]; exact this

theorem MExec.oweInv {m : Mode} {s : MSys} {tr : List Obs} (id : Nat) (h : MExec m s tr) : OweInv id s.bg tr := by
  induction h with
  | init => exact ⟨by simp [signedUp, subscribedIds], by simp [told, notifiedIds, leftToTell, MSys.init, Bg.init, onList],
      fun _ => by simp [told, notifiedIds, leftToTell, MSys.init, Bg.init, onList, owed, signedUp, subscribedIds]⟩
  | @step s s' tr o e hx hs ih =>
    cases e with
    | delay d => cases hs; exact ih.other ⟨rfl, rfl, rfl, fun _ h => ⟨h, fun x => x⟩, Or.inl ⟨rfl, rfl⟩⟩
    | api e => exact ih.other (mapiStep_tr hs).facts
    | bg e =>
      simp only [Knx.mstep, Option.map_eq_some_iff, Prod.exists, Prod.mk.injEq] at hs
      obtain ⟨b, o', hb, rfl, rfl⟩ := hs
      have ht := bgStep_tr hb
      cases ht
      case storeClient hk => cases hk
      case storeMonitor r hpc hk =>
        have h3 : notNotify s.bg.pc := by rw [hpc]; trivial
        have hle := ih.le
        have heq := ih.eq
        rw [leftToTell_not h3, onList_not h3] at hle heq
        have e1 : signedUp id [Obs.up r] = 0 := rfl
        have e2 : told id [Obs.up r] = 0 := rfl
        have e3 : ∀ n, owed id n [Obs.up r] = n := fun n => rfl
        refine ⟨?_, ?_, ?_⟩
        · rw [signedUp_append, e1]; exact ih.cap
        · rw [told_append, owed_append, signedUp_append, e1, e2, e3]
          simp only [leftToTell, onList, List.count_nil]; omega
        · rw [told_append, owed_append, signedUp_append, e1, e2, e3]
          intro x
          have := heq x
          simp only [leftToTell, onList, List.count_nil]; omega
      case notifyEnd active hpc =>
        have hle := ih.le
        have heq := ih.eq
        simp only [leftToTell, onList, hpc, List.count_nil] at hle heq
        rw [List.append_nil]
        refine ⟨ih.cap, ?_, fun x => ?_⟩
        · simp only [leftToTell, onList]; omega
        · have := heq x
          simp only [leftToTell, onList]; omega
      case notifyClosed j todo active hpc ho =>
        have hle := ih.le
        have heq := ih.eq
        simp only [leftToTell, onList, hpc, List.count_cons] at hle heq
        rw [List.append_nil]
        refine ⟨ih.cap, ?_, fun x => ?_⟩
        · simp only [leftToTell, onList]; omega
        · by_cases hj : j = id
          · subst hj
            simp only [beq_self_eq_true, if_true] at hle
            have := ih.cap (by omega)
            simp only [ho, Bool.false_eq_true, false_or] at x
            omega
          · have := heq x
            simp only [leftToTell, onList]
            simp [hj] at this
            exact this
      case notifyOpen j todo active hpc ho hl =>
        have hle := ih.le
        have heq := ih.eq
        simp only [leftToTell, onList, hpc, List.count_cons] at hle heq
        have e1 : signedUp id [Obs.notified j] = 0 := rfl
        have e2 : told id [Obs.notified j] = if j == id then 1 else 0 := by simp [told, notifiedIds, List.count_singleton]
        have e3 : ∀ n, owed id n [Obs.notified j] = 0 := fun n => rfl
        refine ⟨?_, ?_, ?_⟩
        · rw [signedUp_append, e1]
          intro x
          have := ih.cap x
          simp only
          split
          · rename_i h; subst h; exact this
          · exact this
        · rw [told_append, owed_append, signedUp_append, e1, e2, e3]
          simp only [leftToTell, onList, List.count_append, List.count_singleton]
          omega
        · rw [told_append, owed_append, signedUp_append, e1, e2, e3]
          intro x
          have := heq (by
            simp only at x
            split at x
            · rename_i h; subst h; exact x
            · exact x)
          simp only [leftToTell, onList, List.count_append, List.count_singleton]
          omega
      case tickBusy hbz _ _ => exact ih.still rfl rfl (busy_notNotify hbz) trivial rfl rfl rfl
      case tickBusyNone hbz _ _ => exact ih.still rfl rfl (busy_notNotify hbz) trivial rfl rfl rfl
      case recvEmpty hpc =>
        have hn : notNotify s.bg.pc := by rw [hpc]; trivial
        exact ih.still rfl rfl hn hn rfl rfl rfl
      case recvAck hpc _ _ =>
        have hn : notNotify s.bg.pc := by rw [hpc]; trivial
        exact ih.still rfl rfl hn hn rfl rfl rfl
      case recvStateOk hpc _ _ _ =>
        have hn : notNotify s.bg.pc := by rw [hpc]; trivial
        exact ih.still rfl rfl hn hn rfl rfl rfl
      all_goals
        have hn : notNotify s.bg.pc := by simp [*, notNotify]
        exact ih.still rfl rfl hn trivial rfl rfl rfl

/-- C109: a subscriber whose channel is open has been told of every connection established since its registration exactly once for
each registration, except while the monitor is about to tell it. -/
theorem C109_told {m : Mode} {s : MSys} {tr : List Obs} {id : Nat} (h : MExec m s tr) (hl : connLocked .monitor s.bg = false)
    (ho : (s.bg.chans id).isOpen = true) : told id tr = owed id 0 tr := by
  have := ((h.oweInv id).eq (Or.inl ho)).1
  rwa [leftToTell_not (notNotify_iff.1 hl)] at this

/-- C109: nobody is ever told of more than that: not of a connection that was there before the registration. -/
theorem C109_not_more {m : Mode} {s : MSys} {tr : List Obs} (id : Nat) (h : MExec m s tr) : told id tr ≤ owed id 0 tr := by
  have := (h.oweInv id).le.1; omega

theorem MRun.mexec' {m : Mode} {s s' : MSys} {tr tr' : List Obs} (h : MExec m s tr) (hr : MRun m s tr' s') : MExec m s' (tr ++ tr') := by
  induction hr generalizing tr with
  | nil => rw [List.append_nil]; exact h
  | step e hs _ ih => rw [← List.append_assoc]; exact ih (.step e h hs)

/-- C109: subscribe, then ask: who has subscribed and is then answered that there is no connection is told of it when there is one. -/
theorem C109_subscribe_then_ask_partial {m : Mode} {s s1 s2 : MSys} {tr o tr' : List Obs} {e : MEv} {id : Nat} (h : MExec m s tr)
    (hsub : id ∈ subscribedIds tr) (hs : mstep m s e = some (s1, o)) (hr : Obs.ret (.bool false) ∈ o)
    (hc : lastCall (tr ++ o) = some .isConnected) (hrun : MRun m s1 tr' s2) (hup : upNow (tr ++ o ++ tr') = true)
    (hl : connLocked .monitor s2.bg = false) (ho : (s2.bg.chans id).isOpen = true) : id ∈ notifiedIds tr' := by
  have hq := C74_is_connected h hs hr hc
  simp only [Ret.bool.injEq] at hq
  obtain ⟨rfl, hq, -⟩ := hq
  have h1 : ([Obs.ret (.bool false)] ++ tr').any isUp = true := by
    cases hb : ([Obs.ret (.bool false)] ++ tr').any isUp with
    | true => rfl
    | false =>
      rw [List.append_assoc, upNow_append, ← hq] at hup
      have : ∀ l : List Obs, l.any isUp = false → l.foldl upStep false = false := by
        intro l
        induction l with
        | nil => intro; rfl
        | cons x l ih => intro hl; cases x <;> simp_all [upStep, isUp]
      rw [this _ hb] at hup
      exact hup
  have h2 := C109_told (MRun.mexec' (.step e h hs) hrun) hl ho
  have h3 := C109_not_more id h
  have h4 : 0 < signedUp id tr := List.count_pos_iff.2 hsub
  rw [List.append_assoc, told_append, owed_append] at h2
  have h5 := owed_ge id (0 + signedUp id tr) h1
  have h6 : 0 < told id ([Obs.ret (.bool false)] ++ tr') := by omega
  have := List.count_pos_iff.1 h6
  simpa [notifiedIds] using this

/-- C109 is violated for the other order: the application asks, is answered that there is no connection, subscribes, and is never told
of the connection, however long it lasts: it was established in between. -/
theorem C109_violated (m : Mode) : ∃ s tr tr1, MExec m s tr ∧ tr = tr1 ++ [.call (.subscribe 1), .subscribed 1, .ret .unit] ∧
    returned tr1 = [.bool false] ∧ upNow tr = true ∧ (s.bg.chans 1).isOpen = true ∧
    ∀ s' tr', MRun m s tr' s' → tr'.any isUp = false → 1 ∉ notifiedIds (tr ++ tr') := by
  obtain ⟨s, tr, h1, h2⟩ := mexec_of_evs (m := m) (evs := [.api (.mkChan 1 1), .api (.call .isConnected), .api .run,
      .bg .run, .bg .sendOk, .bg (.dgram grant7), .bg .sendOk, .bg .run, .bg .run, .api (.call (.subscribe 1)), .api .run])
    (f := fun x => ((x.1.bg.chans 1).isOpen, x.2))
    (y := (true, [.call .isConnected, .ret (.bool false), .tx .task connReqPacket, .rxConn grant7, .tx .task (enablePacket 7), .up conn7] ++
      [.call (.subscribe 1), .subscribed 1, .ret .unit])) (by cases m <;> decide +kernel)
  simp only [Prod.mk.injEq] at h2
  obtain ⟨h2, rfl⟩ := h2
  refine ⟨s, _, _, h1, rfl, by decide +kernel, by decide +kernel, h2, fun s' tr' hr hn hmem => ?_⟩
  have h3 := C109_not_more 1 (MRun.mexec' h1 hr)
  rw [owed_append, owed_noUp 1 _ hn] at h3
  exact absurd (List.count_pos_iff.2 hmem) (Nat.not_lt.2 h3)

set_option synthInstance.maxSize 1024 in
/-- The case of `C109_subscribe_then_ask_partial`. -/
example (m : Mode) : ∃ s s1 s2 tr o tr' e, MExec m s tr ∧ 1 ∈ subscribedIds tr ∧ mstep m s e = some (s1, o) ∧ Obs.ret (.bool false) ∈ o ∧
    lastCall (tr ++ o) = some .isConnected ∧ MRun m s1 tr' s2 ∧ upNow (tr ++ o ++ tr') = true ∧ connLocked .monitor s2.bg = false ∧
    (s2.bg.chans 1).isOpen = true := by
  obtain ⟨s, tr, h1, h2⟩ := mexec_of_evs (m := m) (evs := [.api (.mkChan 1 1), .api (.call (.subscribe 1)), .api .run, .api (.call .isConnected)])
    (f := fun x => (x.2, (mstep m x.1 (.api .run)).bind fun y => (mrunEvs m y.1 [.bg .run, .bg .sendOk, .bg (.dgram grant7), .bg .sendOk,
      .bg .run, .bg .run, .bg .run]).map fun z => (y.2, upNow z.2, connLocked .monitor z.1.bg, (z.1.bg.chans 1).isOpen)))
    (y := ([.call (.subscribe 1), .subscribed 1, .ret .unit, .call .isConnected], some ([.ret (.bool false)], true, false, true)))
    (by cases m <;> decide +kernel)
  simp only [Prod.mk.injEq, Option.bind_eq_some_iff, Option.map_eq_some_iff, Prod.exists] at h2
  obtain ⟨rfl, s1, o, h3, s2, tr', h4, rfl, h5, h6, h7⟩ := h2
  refine ⟨s, s1, s2, _, _, tr', _, h1, by decide, h3, by simp, rfl, mrunEvs_run h4, ?_, h6, h7⟩
  rw [upNow_append]; exact h5

set_option synthInstance.maxSize 1024 in
/-- The case of `C109_told`: two connections after the registration of 1, one after that of 2. -/
example (m : Mode) : ∃ s tr, MExec m s tr ∧ connLocked .monitor s.bg = false ∧ (s.bg.chans 1).isOpen = true ∧ (s.bg.chans 2).isOpen = true ∧
    owed 1 0 tr = 2 ∧ owed 2 0 tr = 1 ∧ notifiedIds tr = [1, 1, 2] := by
  obtain ⟨s, tr, h1, h2⟩ := mexec_of_evs (m := m) (evs := [.api (.mkChan 1 2), .api (.mkChan 2 1), .api (.call (.subscribe 1)), .api .run,
      .bg .run, .bg .sendOk, .bg (.dgram grant7), .bg .sendOk, .bg .run, .bg .run, .bg .run, .api (.call (.subscribe 2)), .api .run,
      .bg .recvErr, .bg .run, .bg .run, .bg .sendOk, .bg (.dgram grant7), .bg .sendOk, .bg .run, .bg .run, .bg .run, .bg .run])
    (f := fun x => (connLocked .monitor x.1.bg, (x.1.bg.chans 1).isOpen, (x.1.bg.chans 2).isOpen, owed 1 0 x.2, owed 2 0 x.2, notifiedIds x.2))
    (y := (false, true, true, 2, 1, [1, 1, 2])) (by cases m <;> decide +kernel)
  simp only [Prod.mk.injEq] at h2
  exact ⟨s, tr, h1, h2⟩

end Knx
