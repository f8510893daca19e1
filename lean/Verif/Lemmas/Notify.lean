import Verif.Lemmas.MonitorInv

/-!
# Invariants of the monitor: subscribers, bus monitoring
-/

namespace Knx
open Spec

@[simp] theorem notifiedIds_append (a b : List Obs) : notifiedIds (a ++ b) = notifiedIds a ++ notifiedIds b := by
  simp [notifiedIds]
@[simp] theorem subscribedIds_append (a b : List Obs) : subscribedIds (a ++ b) = subscribedIds a ++ subscribedIds b := by
  simp [subscribedIds]

theorem since_up (tr : List Obs) (r : ConnectionResponse) : since isUp (tr ++ [.up r]) = [] := by
  rw [since_append]; simp [isUp, since]

/-- The task is not notifying. -/
def notNotify : Pc → Prop
  | .notify _ _ => False
  | _ => True

theorem notNotify_iff {s : Bg} : connLocked .monitor s = false ↔ notNotify s.pc := by
  unfold connLocked notNotify
  cases s.pc <;> simp

/-- What a step of the monitor API leaves alone. -/
structure MFacts (s s' : Bg) (o : List Obs) : Prop where
  pc : s'.pc = s.pc
  noUp : o.any isUp = false
  notified : notifiedIds o = []
  chans : ∀ id, 0 < (s.chans id).cap → 0 < (s'.chans id).cap ∧ ((s'.chans id).isOpen = true → (s.chans id).isOpen = true)
  subs : (s'.subs = s.subs ∧ subscribedIds o = []) ∨
    ∃ id, s'.subs = s.subs ++ [id] ∧ subscribedIds o = [id] ∧ notNotify s.pc ∧ 0 < (s.chans id).cap

theorem MApiTr.facts {m : Mode} {s s' : MSys} {o : List Obs} (h : MApiTr m s s' o) : MFacts s.bg s'.bg o := by
  have chan : ∀ id c, (0 < (s.bg.chans id).cap → 0 < c.cap ∧ (c.isOpen = true → (s.bg.chans id).isOpen = true)) →
      MFacts s.bg (setChan s id c).bg [] := by
    intro id c hc
    refine ⟨rfl, rfl, rfl, fun j hj => ?_, Or.inl ⟨rfl, rfl⟩⟩
    simp only [setChan]
    split
    · rename_i h; subst h; exact hc hj
    · exact ⟨hj, fun x => x⟩
  cases h
  case mkChan id cap h1 h2 => exact chan _ _ (fun h => by omega)
  case drain => exact chan _ _ (fun h => ⟨h, fun x => x⟩)
  case fill => exact chan _ _ (fun h => ⟨h, fun x => x⟩)
  case closeChan => exact chan _ _ (fun h => ⟨h, by simp⟩)
  case subscribe id h1 h2 h3 => exact ⟨rfl, rfl, rfl, fun _ h => ⟨h, fun x => x⟩, Or.inr ⟨id, rfl, rfl, notNotify_iff.1 h2, h3⟩⟩
  all_goals exact ⟨rfl, rfl, rfl, fun _ h => ⟨h, fun x => x⟩, Or.inl ⟨rfl, rfl⟩⟩

/-- What is known about the registered subscribers. -/
structure SubsInv (s : Bg) (tr : List Obs) : Prop where
  caps : ∀ id ∈ s.subs, 0 < (s.chans id).cap
  reg : notNotify s.pc → s.subs = registered tr
  notif : ∀ t a, s.pc = .notify t a → notifiedIds (since isUp tr) = a ∧ subscribedIds (since isUp tr) = [] ∧
    ∃ old, s.subs = old ++ t ∧ a.Sublist old

theorem SubsInv.other {s s' : Bg} {tr o : List Obs} (h : SubsInv s tr) (f : MFacts s s' o) : SubsInv s' (tr ++ o) := by
  rcases f.subs with ⟨h1, h2⟩ | ⟨id, h1, h2, h3, h4⟩
  · refine ⟨?_, ?_, ?_⟩
    · intro id hid; rw [h1] at hid; exact (f.chans id (h.caps id hid)).1
    · intro hp
      rw [f.pc] at hp
      rw [h1, h.reg hp, registered, registered, since_task _ f.noUp, notifiedIds_append, subscribedIds_append, f.notified, h2]
      simp
    · intro t a hp
      rw [f.pc] at hp
      obtain ⟨h3, h4, h5⟩ := h.notif t a hp
      rw [since_task _ f.noUp, notifiedIds_append, subscribedIds_append, f.notified, h2, h1]
      simpa using ⟨h3, h4, h5⟩
  · refine ⟨?_, ?_, ?_⟩
    · intro j hj
      rw [h1] at hj
      rcases List.mem_append.1 hj with hj | hj
      · exact (f.chans j (h.caps j hj)).1
      · simp only [List.mem_singleton] at hj; subst hj; exact (f.chans _ h4).1
    · intro _
      rw [h1, h.reg h3, registered, registered, since_task _ f.noUp, notifiedIds_append, subscribedIds_append, f.notified, h2]
      simp
    · intro t a hp
      rw [f.pc] at hp
      rw [hp] at h3; exact h3.elim

theorem SubsInv.still {s s' : Bg} {tr o : List Obs} (h : SubsInv s tr) (h1 : s'.subs = s.subs) (h2 : s'.chans = s.chans)
    (h3 : notNotify s.pc) (h4 : notNotify s'.pc) (h5 : o.any isUp = false) (h6 : notifiedIds o = [])
    (h7 : subscribedIds o = []) : SubsInv s' (tr ++ o) := by
  refine ⟨by rw [h1, h2]; exact h.caps, fun _ => ?_, fun t a hp => by rw [hp] at h4; exact h4.elim⟩
  rw [h1, h.reg h3, registered, registered, since_task _ h5, notifiedIds_append, subscribedIds_append, h6, h7]
  simp

theorem busy_notNotify {p : Pc} (h : busy p = true) : notNotify p := by
  revert h; cases p <;> simp [busy, notNotify]

theorem MExec.subsInv {m : Mode} {s : MSys} {tr : List Obs} (h : MExec m s tr) : SubsInv s.bg tr := by
  induction h with
  | init => exact ⟨by simp [MSys.init, Bg.init], fun _ => rfl, fun t a h => by simp [MSys.init, Bg.init] at h⟩
  | @step s s' tr o e hx hs ih =>
    cases e with
    | delay d => cases hs; exact ih.other ⟨rfl, rfl, rfl, fun _ h => ⟨h, fun x => x⟩, Or.inl ⟨rfl, rfl⟩⟩
    | api e => exact ih.other (mapiStep_tr hs).facts
    | bg e =>
      simp only [Knx.mstep, Option.map_eq_some_iff, Prod.exists, Prod.mk.injEq] at hs
      obtain ⟨b, o', hb, rfl, rfl⟩ := hs
      have ht := bgStep_tr hb
      cases ht
      case storeClient hk => cases hk
      case storeMonitor r hpc hk =>
        refine ⟨ih.caps, fun h => h.elim, fun t a hp => ?_⟩
        simp only [Pc.notify.injEq] at hp
        obtain ⟨rfl, rfl⟩ := hp
        rw [since_up]
        exact ⟨rfl, rfl, [], rfl, .slnil⟩
      case notifyEnd active hpc =>
        obtain ⟨h1, h2, old, h3, h4⟩ := ih.notif _ _ hpc
        refine ⟨?_, fun _ => ?_, fun t a hp => by simp at hp⟩
        · intro id hid
          refine ih.caps id ?_
          rw [h3, List.append_nil]
          exact h4.subset hid
        · rw [registered, List.append_nil, h1, h2, List.append_nil]
      case notifyClosed id todo active hpc ho =>
        obtain ⟨h1, h2, old, h3, h4⟩ := ih.notif _ _ hpc
        refine ⟨ih.caps, fun h => h.elim, fun t a hp => ?_⟩
        simp only [Pc.notify.injEq] at hp
        obtain ⟨rfl, rfl⟩ := hp
        rw [List.append_nil]
        exact ⟨h1, h2, old ++ [id], by simpa using h3, h4.trans (List.sublist_append_left _ _)⟩
      case notifyOpen id todo active hpc ho hl =>
        obtain ⟨h1, h2, old, h3, h4⟩ := ih.notif _ _ hpc
        refine ⟨?_, fun h => h.elim, fun t a hp => ?_⟩
        · intro j hj
          simp only
          split
          · rename_i h; subst h; exact ih.caps _ hj
          · exact ih.caps j hj
        · simp only [Pc.notify.injEq] at hp
          obtain ⟨rfl, rfl⟩ := hp
          rw [since_task _ rfl, notifiedIds_append, subscribedIds_append, h1, h2]
          exact ⟨rfl, rfl, old ++ [id], by simpa using h3, h4.append (.refl _)⟩
      case tickBusy hbz _ _ => exact ih.still rfl rfl (busy_notNotify hbz) trivial rfl rfl rfl
      case tickBusyNone hbz _ _ => exact ih.still rfl rfl (busy_notNotify hbz) trivial rfl rfl rfl
      case recvEmpty hpc =>
        have hn : notNotify s.bg.pc := by rw [hpc]; trivial
        exact ih.still rfl rfl hn hn rfl rfl rfl
      case recvAck hpc _ _ =>
        have hn : notNotify s.bg.pc := by rw [hpc]; trivial
        exact ih.still rfl rfl hn hn rfl rfl rfl
      case recvStateOk hpc _ _ _ =>
        have hn : notNotify s.bg.pc := by rw [hpc]; trivial
        exact ih.still rfl rfl hn hn rfl rfl rfl
      all_goals
        have hn : notNotify s.bg.pc := by simp [*, notNotify]
        exact ih.still rfl rfl hn trivial rfl rfl rfl

/-- Notification of the subscribers `old`; `gone` are those whose channels were closed before. -/
structure NoteInv (old gone : List Nat) (s : Bg) (acc : List Obs) : Prop where
  caps : ∀ id ∈ old, 0 < (s.chans id).cap
  gone : ∀ id ∈ gone, id ∈ old ∧ (s.chans id).isOpen = false ∧ id ∉ notifiedIds acc
  notif : ∀ t a, s.pc = .notify t a → notifiedIds acc = a ∧ ∃ seen, old = seen ++ t ∧ a.Sublist seen ∧
    ∀ id ∈ old, (s.chans id).isOpen = true → a.count id = seen.count id
  over : notNotify s.pc → (notifiedIds acc).Sublist old ∧
    ∀ id ∈ old, (s.chans id).isOpen = true → (notifiedIds acc).count id = old.count id

theorem NoteInv.mono {old gone : List Nat} {s s' : Bg} {acc o : List Obs} (h : NoteInv old gone s acc) (hpc : s'.pc = s.pc)
    (hn : notifiedIds o = [])
    (hc : ∀ id, 0 < (s.chans id).cap → 0 < (s'.chans id).cap ∧ ((s'.chans id).isOpen = true → (s.chans id).isOpen = true)) :
    NoteInv old gone s' (acc ++ o) := by
  have e : notifiedIds (acc ++ o) = notifiedIds acc := by rw [notifiedIds_append, hn, List.append_nil]
  refine ⟨fun id hid => (hc id (h.caps id hid)).1, fun id hid => ?_, fun t a hp => ?_, fun hp => ?_⟩
  · obtain ⟨h1, h2, h3⟩ := h.gone id hid
    refine ⟨h1, ?_, by rwa [e]⟩
    cases ho : (s'.chans id).isOpen with
    | false => rfl
    | true => rw [(hc id (h.caps id h1)).2 ho] at h2; cases h2
  · rw [hpc] at hp
    obtain ⟨h1, seen, h2, h3, h4⟩ := h.notif t a hp
    rw [e]
    exact ⟨h1, seen, h2, h3, fun id hid ho => h4 id hid ((hc id (h.caps id hid)).2 ho)⟩
  · rw [hpc] at hp
    obtain ⟨h1, h2⟩ := h.over hp
    rw [e]
    exact ⟨h1, fun id hid ho => h2 id hid ((hc id (h.caps id hid)).2 ho)⟩

theorem NoteInv.still {old gone : List Nat} {s s' : Bg} {acc o : List Obs} (h : NoteInv old gone s acc)
    (h1 : notNotify s.pc) (h2 : notNotify s'.pc) (hn : notifiedIds o = []) (hc : s'.chans = s.chans) :
    NoteInv old gone s' (acc ++ o) := by
  have e : notifiedIds (acc ++ o) = notifiedIds acc := by rw [notifiedIds_append, hn, List.append_nil]
  refine ⟨by rw [hc]; exact h.caps, by rw [hc, e]; exact h.gone, fun t a hp => by rw [hp] at h2; exact h2.elim, fun _ => ?_⟩
  rw [e, hc]; exact h.over h1

theorem NoteInv.task {old gone : List Nat} {m : Mode} {s s' : Bg} {acc o : List Obs} (h : NoteInv old gone s acc)
    (ht : BgTr .monitor m s s' o) (hup : o.any isUp = false) : NoteInv old gone s' (acc ++ o) := by
  cases ht
  case storeClient hk => cases hk
  case storeMonitor => simp [isUp] at hup
  case notifyEnd active hpc =>
    obtain ⟨h1, seen, h2, h3, h4⟩ := h.notif _ _ hpc
    rw [List.append_nil] at h2 ⊢
    subst h2
    refine ⟨h.caps, h.gone, fun t a hp => by simp at hp, fun _ => ?_⟩
    rw [h1]; exact ⟨h3, h4⟩
  case notifyClosed id todo active hpc ho =>
    obtain ⟨h1, seen, h2, h3, h4⟩ := h.notif _ _ hpc
    rw [List.append_nil]
    refine ⟨h.caps, h.gone, fun t a hp => ?_, fun hp => hp.elim⟩
    simp only [Pc.notify.injEq] at hp
    obtain ⟨rfl, rfl⟩ := hp
    refine ⟨h1, seen ++ [id], by simpa using h2, h3.trans (List.sublist_append_left _ _), fun j hj hjo => ?_⟩
    have : j ≠ id := by rintro rfl; rw [ho] at hjo; cases hjo
    rw [List.count_append, List.count_singleton, h4 j hj hjo]
    simp [this.symm]
  case notifyOpen id todo active hpc ho hl =>
    obtain ⟨h1, seen, h2, h3, h4⟩ := h.notif _ _ hpc
    have ho' : ∀ j, (if j = id then (⟨(s.chans id).cap, (s.chans id).len + 1, (s.chans id).isOpen⟩ : Sub) else s.chans j).isOpen
        = (s.chans j).isOpen := by
      intro j; split
      · rename_i hj; rw [hj]
      · rfl
    have hc' : ∀ j, (if j = id then (⟨(s.chans id).cap, (s.chans id).len + 1, (s.chans id).isOpen⟩ : Sub) else s.chans j).cap
        = (s.chans j).cap := by
      intro j; split
      · rename_i hj; rw [hj]
      · rfl
    have e : notifiedIds (acc ++ [.notified id]) = notifiedIds acc ++ [id] := by simp [notifiedIds]
    refine ⟨fun j hj => ?_, fun j hj => ?_, fun t a hp => ?_, fun hp => hp.elim⟩
    · simp only [hc']; exact h.caps j hj
    · obtain ⟨g1, g2, g3⟩ := h.gone j hj
      refine ⟨g1, by simp only [ho']; exact g2, ?_⟩
      rw [e, List.mem_append, not_or]
      refine ⟨g3, ?_⟩
      simp only [List.mem_singleton]
      rintro rfl
      rw [ho] at g2; cases g2
    · simp only [Pc.notify.injEq] at hp
      obtain ⟨rfl, rfl⟩ := hp
      refine ⟨by rw [e, h1], seen ++ [id], by simpa using h2, h3.append (.refl _), fun j hj hjo => ?_⟩
      simp only [ho'] at hjo
      rw [List.count_append, List.count_append, h4 j hj hjo]
  case tickBusy hbz _ _ => exact h.still (busy_notNotify hbz) trivial rfl rfl
  case tickBusyNone hbz _ _ => exact h.still (busy_notNotify hbz) trivial rfl rfl
  case recvEmpty hpc =>
    have hn : notNotify s.pc := by rw [hpc]; trivial
    exact h.still hn hn rfl rfl
  case recvAck hpc _ _ =>
    have hn : notNotify s.pc := by rw [hpc]; trivial
    exact h.still hn hn rfl rfl
  case recvStateOk hpc _ _ _ =>
    have hn : notNotify s.pc := by rw [hpc]; trivial
    exact h.still hn hn rfl rfl
  all_goals
    have hn : notNotify s.pc := by simp [*, notNotify]
    exact h.still hn trivial rfl rfl

theorem NoteInv.run {old gone : List Nat} {m : Mode} {s s' : MSys} {acc tr : List Obs} (h : NoteInv old gone s.bg acc)
    (hr : MRun m s tr s') (hup : tr.any isUp = false) : NoteInv old gone s'.bg (acc ++ tr) := by
  induction hr generalizing acc with
  | nil => simpa using h
  | @step s s1 s2 o tr e hs _ ih =>
    rw [List.any_append, Bool.or_eq_false_iff] at hup
    rw [← List.append_assoc]
    refine ih ?_ hup.2
    cases e with
    | delay d => cases hs; exact h.mono rfl rfl (fun _ h => ⟨h, fun x => x⟩)
    | api e => exact have f := (mapiStep_tr hs).facts; h.mono f.pc f.notified f.chans
    | bg e =>
      simp only [Knx.mstep, Option.map_eq_some_iff, Prod.exists, Prod.mk.injEq] at hs
      obtain ⟨b, o', hb, rfl, rfl⟩ := hs
      exact h.task (bgStep_tr hb) hup.1

/-- The step that announces a connection leads to notifying everybody registered. -/
theorem up_step {m : Mode} {s s' : MSys} {tr o : List Obs} {e : MEv} {r : ConnectionResponse} (h : MExec m s tr)
    (hs : mstep m s e = some (s', o)) (hu : Obs.up r ∈ o) :
    o = [.up r] ∧ s'.bg.pc = .notify s.bg.subs [] ∧ s'.bg.chans = s.bg.chans ∧ s.bg.subs = registered tr := by
  cases e with
  | delay d => cases hs; simp at hu
  | api e =>
    have := (mapiStep_tr hs).facts.noUp
    rw [List.any_eq_false] at this
    exact absurd rfl (this _ hu)
  | bg e =>
    have hsub := h.subsInv
    simp only [Knx.mstep, Option.map_eq_some_iff, Prod.exists, Prod.mk.injEq] at hs
    obtain ⟨b, o', hb, rfl, rfl⟩ := hs
    have ht := bgStep_tr hb
    cases ht
    case storeMonitor r' hpc hk =>
      simp only [List.mem_singleton, Obs.up.injEq] at hu
      subst hu
      exact ⟨rfl, rfl, rfl, hsub.reg (by rw [hpc]; trivial)⟩
    case storeClient hk => cases hk
    all_goals simp at hu

/-! ## The enabling request -/

/-- Before a connection is stored, the enabling request has been sent in it. -/
structure EnableInv (s : Bg) (tr : List Obs) : Prop where
  enable : ∀ r, s.pc = .enable r → ∃ d, (connAnswers tr).getLast? = some d ∧ Grants d r ∧ taskSent (since isAnswer tr) = []
  store : ∀ r, s.pc = .store r → ∃ d, (connAnswers tr).getLast? = some d ∧ Grants d r ∧
    taskSent (since isAnswer tr) = [enablePacket r.channel]

@[simp] theorem taskSent_append (a b : List Obs) : taskSent (a ++ b) = taskSent a ++ taskSent b := by simp [taskSent]
theorem connAnswers_append (a b : List Obs) : connAnswers (a ++ b) = connAnswers a ++ connAnswers b := by simp [connAnswers]

theorem any_isAnswer {o : List Obs} (h : connAnswers o = []) : o.any isAnswer = false := by
  rw [List.any_eq_false]
  intro x hx ha
  cases x <;> simp [isAnswer] at ha
  rename_i d
  have : d ∈ connAnswers o := List.mem_filterMap.2 ⟨_, hx, rfl⟩
  rw [h] at this; cases this

theorem EnableInv.env {s s' : Bg} {tr o : List Obs} (h : EnableInv s tr) (f : EnvFacts s s' o) : EnableInv s' (tr ++ o) := by
  have ha := any_isAnswer f.answers
  refine ⟨fun r hp => ?_, fun r hp => ?_⟩
  · rw [connAnswers_append, f.answers, List.append_nil, since_task _ ha, taskSent_append, f.taskSent, List.append_nil]
    exact h.enable r (f.pc ▸ hp)
  · rw [connAnswers_append, f.answers, List.append_nil, since_task _ ha, taskSent_append, f.taskSent, List.append_nil]
    exact h.store r (f.pc ▸ hp)

theorem GExec.enableInv {m : Mode} {s : Bg} {tr : List Obs} (h : GExec .monitor m s tr) : EnableInv s tr := by
  induction h with
  | init => exact ⟨fun r h => by simp [Bg.init] at h, fun r h => by simp [Bg.init] at h⟩
  | env _ he ih => exact ih.env he.facts
  | @task s s' tr o hx ht ih =>
    cases ht
    case connOkClient hk => cases hk
    case connOkMonitor dl d r hpc hd hk =>
      refine ⟨fun r' hp => ?_, fun r' hp => by simp at hp⟩
      simp only [Pc.enable.injEq] at hp
      subst hp
      refine ⟨d, by simp [connAnswers], (tryConnect_iff d r).1 hd, ?_⟩
      rw [since_append]; simp [isAnswer, since, taskSent]
    case enableOk r hpc =>
      refine ⟨fun r' hp => by simp at hp, fun r' hp => ?_⟩
      simp only [Pc.store.injEq] at hp
      subst hp
      obtain ⟨d, h1, h2, h3⟩ := ih.enable r hpc
      refine ⟨d, ?_, h2, ?_⟩
      · rw [connAnswers_append]; simpa [connAnswers] using h1
      · rw [since_task _ rfl, taskSent_append, h3]; rfl
    case recvEmpty hpc => exact ⟨fun r h => by simp [hpc] at h, fun r h => by simp [hpc] at h⟩
    case recvAck hpc _ _ => exact ⟨fun r h => by simp [hpc] at h, fun r h => by simp [hpc] at h⟩
    case recvStateOk hpc _ _ _ => exact ⟨fun r h => by simp [hpc] at h, fun r h => by simp [hpc] at h⟩
    all_goals exact ⟨fun r h => by simp at h, fun r h => by simp at h⟩

/-- The step that announces a connection. -/
theorem up_enabled {m : Mode} {s s' : MSys} {tr o : List Obs} {e : MEv} {r : ConnectionResponse} (h : MExec m s tr)
    (hs : mstep m s e = some (s', o)) (hu : Obs.up r ∈ o) :
    ∃ d, (connAnswers tr).getLast? = some d ∧ Grants d r ∧ taskSent (since isAnswer tr) = [enablePacket r.channel] := by
  cases e with
  | delay d => cases hs; simp at hu
  | api e =>
    have := (mapiStep_tr hs).facts.noUp
    rw [List.any_eq_false] at this
    exact absurd rfl (this _ hu)
  | bg e =>
    have hen := h.gexec.enableInv
    simp only [Knx.mstep, Option.map_eq_some_iff, Prod.exists, Prod.mk.injEq] at hs
    obtain ⟨b, o', hb, rfl, rfl⟩ := hs
    have ht := bgStep_tr hb
    cases ht
    case storeMonitor r' hpc hk =>
      simp only [List.mem_singleton, Obs.up.injEq] at hu
      subst hu
      exact hen.store r hpc
    case storeClient hk => cases hk
    all_goals simp at hu

end Knx
