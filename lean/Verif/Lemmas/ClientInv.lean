import Verif.Lemmas.Runs

/-!
# Invariants of the client API
-/

namespace Knx
open Spec

@[simp] theorem apiSent_append (a b : List Obs) : apiSent (a ++ b) = apiSent a ++ apiSent b := by simp [apiSent]
@[simp] theorem apiReceived_append (a b : List Obs) : apiReceived (a ++ b) = apiReceived a ++ apiReceived b := by
  simp [apiReceived]
@[simp] theorem returned_append (a b : List Obs) : returned (a ++ b) = returned a ++ returned b := by simp [returned]

@[simp] theorem calls_append (a b : List Obs) : calls (a ++ b) = calls a ++ calls b := by simp [calls]

theorem since_suffix (p : Obs → Bool) (tr : List Obs) : since p tr <:+ tr := by
  have h : (tr.reverse.takeWhile fun o => !p o) <+: tr.reverse := List.takeWhile_prefix _
  have := List.reverse_suffix.2 h
  rwa [List.reverse_reverse] at this

theorem upto_since (p : Obs → Bool) (tr : List Obs) : upto p tr ++ since p tr = tr := by
  obtain ⟨a, ha⟩ := since_suffix p tr
  have : upto p tr = a := by
    unfold upto
    have hl : tr.length = a.length + (since p tr).length := by rw [← List.length_append, ha]
    rw [hl, Nat.add_sub_cancel]
    conv_lhs => rw [← ha]
    rw [List.take_left' rfl]
  rw [this, ha]

theorem upto_append (p : Obs → Bool) (tr o : List Obs) (h : o.any p = false) : upto p (tr ++ o) = upto p tr := by
  have h1 := upto_since p (tr ++ o)
  rw [since_append, h, if_neg (by simp)] at h1
  have h2 := upto_since p tr
  rw [← List.append_assoc] at h1
  have h3 := List.append_cancel_right h1
  exact List.append_cancel_right (h3.trans h2.symm)

theorem upto_snoc (p : Obs → Bool) (tr : List Obs) (x : Obs) (h : p x = true) : upto p (tr ++ [x]) = tr ++ [x] := by
  have h1 := upto_since p (tr ++ [x])
  rw [since_append, List.any_cons, h, Bool.true_or, if_pos rfl, since_single, h, if_pos rfl, List.append_nil] at h1
  exact h1

/-- Observations of the background task. -/
structure TaskFacts (o : List Obs) : Prop where
  noCall : o.any isCall = false
  noDrew : o.any isDrew = false
  taken : taken o = []
  drawn : drawn o = []
  sent : apiSent o = []
  received : apiReceived o = []
  returned : returned o = []
  lastCall : ∀ tr, lastCall (tr ++ o) = lastCall tr

theorem BgTr.facts {k : Kind} {m : Mode} {s s' : Bg} {o : List Obs} (h : BgTr k m s s' o) : TaskFacts o := by
  cases h
  all_goals
    exact ⟨rfl, rfl, rfl, rfl, rfl, rfl, rfl, fun tr => by simp [Spec.lastCall, calls]⟩

theorem TaskFacts.nil : TaskFacts [] := ⟨rfl, rfl, rfl, rfl, rfl, rfl, rfl, fun tr => by simp⟩

/-- What is known about a call in progress. -/
def CallInv (m : Mode) (api : Api) (tr : List Obs) : Prop :=
  match api with
  | .idle => True
  | .seqNr c cemi => lastCall tr = some c ∧ tunnelCemi m c = some (.ok cemi) ∧ taken (since isCall tr) = [] ∧
      apiSent (since isCall tr) = [] ∧ drawn (since isCall tr) = []
  | .chanId c n cemi => lastCall tr = some c ∧ tunnelCemi m c = some (.ok cemi) ∧ taken (since isCall tr) = [] ∧
      apiSent (since isCall tr) = [] ∧ drawn (since isCall tr) = [n]
  | .sendReq c p => lastCall tr = some c ∧ taken (since isCall tr) = [] ∧ apiSent (since isCall tr) = [] ∧
      ∃ n ch cemi, tunnelCemi m c = some (.ok cemi) ∧ drawn (since isCall tr) = [n] ∧
        (TunnelingRequest.mk ch n cemi).packet m = .ok p
  | .reading a _ => ∃ addr p, lastCall tr = some (.read addr) ∧ a = addr.toU16 ∧
      (∀ x ∈ taken (since isCall tr), Skipped a x) ∧ apiSent (since isCall tr) = [p] ∧
      ∃ n ch cemi, readCemi m addr = .ok cemi ∧ drawn (since isCall tr) = [n] ∧
        (TunnelingRequest.mk ch n cemi).packet m = .ok p
  | .writing _ => ∃ addr v small p, lastCall tr = some (.write addr v small) ∧ taken (since isCall tr) = [] ∧
      apiSent (since isCall tr) = [p] ∧ ∃ n ch cemi, writeCemi m addr v small = .ok cemi ∧
        drawn (since isCall tr) = [n] ∧ (TunnelingRequest.mk ch n cemi).packet m = .ok p
  | .stChan => lastCall tr = some .status ∧ taken (since isCall tr) = [] ∧ apiSent (since isCall tr) = []
  | .stEp _ => lastCall tr = some .status ∧ taken (since isCall tr) = [] ∧ apiSent (since isCall tr) = []
  | .stSend p => lastCall tr = some .status ∧ taken (since isCall tr) = [] ∧ apiSent (since isCall tr) = [] ∧
      ∃ ch ep, p = (ConnectionstateRequest.mk ch ep).packet
  | .stRecv => lastCall tr = some .status ∧ taken (since isCall tr) = [] ∧
      ∃ ch ep, apiSent (since isCall tr) = [(ConnectionstateRequest.mk ch ep).packet]
  | .dcChan => lastCall tr = some .disconnect ∧ taken (since isCall tr) = [] ∧ apiSent (since isCall tr) = []
  | .dcEp _ => lastCall tr = some .disconnect ∧ taken (since isCall tr) = [] ∧ apiSent (since isCall tr) = []
  | .dcLog p => lastCall tr = some .disconnect ∧ taken (since isCall tr) = [] ∧ apiSent (since isCall tr) = [] ∧
      ∃ ch ep, p = (DisconnectRequest.mk ch ep).packet
  | .dcSend p => lastCall tr = some .disconnect ∧ taken (since isCall tr) = [] ∧ apiSent (since isCall tr) = [] ∧
      ∃ ch ep, p = (DisconnectRequest.mk ch ep).packet
  | .dcRecv => lastCall tr = some .disconnect ∧ taken (since isCall tr) = [] ∧
      ∃ ch ep, apiSent (since isCall tr) = [(DisconnectRequest.mk ch ep).packet]

theorem since_task {tr o : List Obs} (p : Obs → Bool) (h : o.any p = false) : since p (tr ++ o) = since p tr ++ o := by
  rw [since_append, h, if_neg (by simp)]

theorem CallInv.task {m : Mode} {api : Api} {tr o : List Obs} (h : CallInv m api tr) (f : TaskFacts o) :
    CallInv m api (tr ++ o) := by
  have e1 : taken (since isCall (tr ++ o)) = taken (since isCall tr) := by
    rw [since_task _ f.noCall, taken_append, f.taken, List.append_nil]
  have e2 : apiSent (since isCall (tr ++ o)) = apiSent (since isCall tr) := by
    rw [since_task _ f.noCall, apiSent_append, f.sent, List.append_nil]
  have e3 : drawn (since isCall (tr ++ o)) = drawn (since isCall tr) := by
    rw [since_task _ f.noCall, drawn_append, f.drawn, List.append_nil]
  have e4 := f.lastCall tr
  cases api <;> simp only [CallInv, e1, e2, e3, e4] at h ⊢ <;> exact h

theorem since_call (tr : List Obs) (c : Call) (o : List Obs) (h : o.any isCall = false) :
    since isCall (tr ++ .call c :: o) = o := by
  rw [show tr ++ Obs.call c :: o = (tr ++ [.call c]) ++ o by simp, since_task _ h, since_append]
  simp [isCall, since]

theorem lastCall_call (tr : List Obs) (c : Call) : lastCall (tr ++ [.call c]) = some c := by
  simp [lastCall, calls]

theorem lastCall_same (tr o : List Obs) (h : o.any isCall = false) : lastCall (tr ++ o) = lastCall tr := by
  have : calls o = [] := by
    unfold calls
    rw [List.filterMap_eq_nil_iff]
    intro x hx
    rw [List.any_eq_false] at h
    have := h x hx
    cases x <;> simp_all [isCall]
  rw [lastCall, calls_append, this, List.append_nil, lastCall]

theorem Exec.callInv {m : Mode} {s : Sys} {tr : List Obs} (h : Exec m s tr) : CallInv m s.api tr := by
  induction h with
  | init => trivial
  | @step s s' tr o e hx hs ih =>
    cases e with
    | bg e =>
      simp only [Knx.step, Option.map_eq_some_iff, Prod.exists, Prod.mk.injEq] at hs
      obtain ⟨b, o', hb, rfl, rfl⟩ := hs
      exact ih.task (bgStep_tr hb).facts
    | delay d => cases hs; exact ih.task TaskFacts.nil
    | api e =>
      have := apiStep_tr hs
      cases this
      case callTunnel c cemi h1 h2 h3 =>
        refine ⟨lastCall_call _ _, h3, ?_⟩
        rw [since_call _ _ [] rfl]; exact ⟨rfl, rfl, rfl⟩
      case callErr h1 _ _ => rw [h1]; trivial
      case callPanic h1 _ _ => rw [h1]; trivial
      case callStatus =>
        refine ⟨lastCall_call _ _, ?_⟩
        rw [since_call _ _ [] rfl]; exact ⟨rfl, rfl⟩
      case callDisc =>
        refine ⟨lastCall_call _ _, ?_⟩
        rw [since_call _ _ [] rfl]; exact ⟨rfl, rfl⟩
      case drop h1 _ => rw [h1]; trivial
      case draw c cemi d h1 h2 h3 =>
        rw [h1] at ih
        obtain ⟨i1, i2, i3, i4, i5⟩ := ih
        refine ⟨(lastCall_same _ _ rfl).trans i1, i2, ?_⟩
        rw [since_task _ rfl, taken_append, apiSent_append, drawn_append, i3, i4, i5]
        exact ⟨rfl, rfl, rfl⟩
      case pick c n cemi d p h1 h2 h3 h4 =>
        rw [h1] at ih
        obtain ⟨i1, i2, i3, i4, i5⟩ := ih
        rw [List.append_nil]
        exact ⟨i1, i3, i4, n, d.channel, cemi, i2, i5, h4⟩
      case sendRead addr p h1 =>
        rw [h1] at ih
        obtain ⟨i1, i3, i4, n, ch, cemi, i5, i6, i7⟩ := ih
        simp only [tunnelCemi, Option.some.injEq] at i5
        refine ⟨addr, p, (lastCall_same _ _ rfl).trans i1, rfl, ?_⟩
        rw [since_task _ rfl, taken_append, apiSent_append, drawn_append, i3, i4, i6]
        exact ⟨by simp [taken], rfl, n, ch, cemi, i5, rfl, i7⟩
      case sendWrite c p h1 h2 =>
        rw [h1] at ih
        obtain ⟨i1, i3, i4, n, ch, cemi, i5, i6, i7⟩ := ih
        cases c <;> simp only [tunnelCemi, Option.some.injEq, reduceCtorEq] at i5
        · exact absurd rfl (h2 _)
        · refine ⟨_, _, _, p, (lastCall_same _ _ rfl).trans i1, ?_⟩
          rw [since_task _ rfl, taken_append, apiSent_append, drawn_append, i3, i4, i6]
          exact ⟨rfl, rfl, n, ch, cemi, i5, rfl, i7⟩
      case readSkip addr dl c rest h1 h2 h3 =>
        rw [h1] at ih
        obtain ⟨a, p, i1, i2, i3, i4, n, ch, cemi, i5, i6, i7⟩ := ih
        refine ⟨a, p, (lastCall_same _ _ rfl).trans i1, i2, ?_⟩
        rw [since_task _ rfl, taken_append, apiSent_append, drawn_append, i4, i6]
        refine ⟨?_, rfl, n, ch, cemi, i5, rfl, i7⟩
        intro x hx
        rcases List.mem_append.1 hx with hx | hx
        · exact i3 x hx
        · simp [taken] at hx; subst hx; exact h3
      case stChan d h1 h2 h3 =>
        rw [h1] at ih
        rw [List.append_nil]
        exact ih
      case stEp ch d h1 h2 h3 =>
        rw [h1] at ih
        rw [List.append_nil]
        exact ⟨ih.1, ih.2.1, ih.2.2, _, _, rfl⟩
      case stSend p h1 =>
        rw [h1] at ih
        obtain ⟨i1, i2, i3, ch, ep, rfl⟩ := ih
        refine ⟨(lastCall_same _ _ rfl).trans i1, ?_⟩
        rw [since_task _ rfl, taken_append, apiSent_append, i2, i3]
        exact ⟨rfl, ch, ep, rfl⟩
      case dcChan d h1 h2 h3 =>
        rw [h1] at ih
        rw [List.append_nil]
        exact ih
      case dcEp ch d h1 h2 h3 =>
        rw [h1] at ih
        rw [List.append_nil]
        exact ⟨ih.1, ih.2.1, ih.2.2, _, _, rfl⟩
      case dcLog p h1 =>
        rw [h1] at ih
        rw [List.append_nil]
        exact ih
      case dcSend p h1 =>
        rw [h1] at ih
        obtain ⟨i1, i2, i3, ch, ep, rfl⟩ := ih
        refine ⟨(lastCall_same _ _ rfl).trans i1, ?_⟩
        rw [since_task _ rfl, taken_append, apiSent_append, i2, i3]
        exact ⟨rfl, ch, ep, rfl⟩
      all_goals trivial

end Knx
