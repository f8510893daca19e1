import Verif.Props.Gateway
import Verif.Props.Callers
import Verif.Props.Monitor

/-!
# Property C100: calls whose future is dropped
-/

namespace Knx
open Spec

/-- Where `x` is when a trace is continued. -/
theorem split_append {α : Type} {tr o a b : List α} {x : α} (h : tr ++ o = a ++ x :: b) :
    (∃ b', tr = a ++ x :: b' ∧ b = b' ++ o) ∨ ∃ o1, a = tr ++ o1 ∧ o = o1 ++ x :: b := by
  rcases List.append_eq_append_iff.1 h with ⟨c, h1, h2⟩ | ⟨c, h1, h2⟩
  · exact Or.inr ⟨c, h1, h2⟩
  · cases c with
    | nil => exact Or.inr ⟨[], by simpa using h1.symm, by simpa using h2.symm⟩
    | cons y c =>
      rw [List.cons_append, List.cons.injEq] at h2
      obtain ⟨rfl, rfl⟩ := h2
      exact Or.inl ⟨c, h1, rfl⟩

/-- A datagram sent by a call. -/
def apiTx : Obs → Bool
  | .tx .api _ => true
  | _ => false

/-- In `b` no call does more than sending. -/
def Untouched (b : List Obs) : Prop := ∀ o ∈ b, byCall o = true → apiTx o = true

/-- What is not done by a call. -/
def others (b : List Obs) : List Obs := b.filter fun o => !byCall o

theorem others_append (a b : List Obs) : others (a ++ b) = others a ++ others b := by simp [others]

theorem others_same {o : List Obs} (h : ∀ x ∈ o, byCall x = false) : others o = o := by
  rw [others, List.filter_eq_self]; intro x hx; simp [h x hx]

/-- The call has neither drawn a number nor received anything. -/
def unsent : Api → Bool
  | .seqNr _ _ => true
  | .stChan => true
  | .stEp _ => true
  | .stSend _ => true
  | .stRecv => true
  | .dcChan => true
  | .dcEp _ => true
  | .dcLog _ => true
  | .dcSend _ => true
  | .dcRecv => true
  | _ => false

/-- `x` is the only call in a step. -/
theorem split_call {o1 b : List Obs} {c c' : Call} {t : List Obs} (h : o1 ++ .call c :: b = .call c' :: t) (ht : ∀ x ∈ t, isCall x = false) :
    o1 = [] ∧ b = t := by
  cases o1 with
  | nil => exact ⟨rfl, by simpa using (List.cons.inj h).2⟩
  | cons y o1 =>
    have := ht (.call c) (by rw [← (List.cons.inj h).2]; simp)
    cases this

/-- While a call has not drawn a number or received anything, the client can be in the same state without it. -/
theorem Exec.unsent {m : Mode} {s : Sys} {tr : List Obs} (h : Exec m s tr) :
    ∀ {a b c}, tr = a ++ .call c :: b → Untouched b → Knx.unsent s.api = true ∧ Exec m { s with api := .idle } (a ++ others b) := by
  induction h with
  | init => intro a b c h; simp at h
  | @step s s' tr o e hx hs ih =>
    intro a b c he hb
    rcases split_append he with ⟨b', h1, rfl⟩ | ⟨o1, rfl, rfl⟩
    · obtain ⟨i1, i2⟩ := ih h1 (fun x hx => hb x (List.mem_append_left _ hx))
      have ho : Untouched o := fun x hx => hb x (List.mem_append_right _ hx)
      rw [others_append, ← List.append_assoc]
      cases e with
      | bg e =>
        simp only [Knx.step, Option.map_eq_some_iff, Prod.exists, Prod.mk.injEq] at hs
        obtain ⟨b, o', hb2, rfl, rfl⟩ := hs
        rw [others_same (bgStep_byCall hb2)]
        exact ⟨i1, i2.step (.bg e) (by simp [Knx.step, hb2])⟩
      | delay d => cases hs; exact ⟨i1, i2.step (.delay d) rfl⟩
      | api e =>
        have ht := apiStep_tr hs
        cases ht
        all_goals first
          | (refine ⟨rfl, ?_⟩; simpa [others, byCall] using i2; done)
          | (exfalso; simp_all [Knx.unsent]; done)
          | (exfalso; simp [Untouched, byCall, apiTx] at ho; done)
    · cases e with
      | bg e =>
        simp only [Knx.step, Option.map_eq_some_iff, Prod.exists, Prod.mk.injEq] at hs
        obtain ⟨b', o', hb', rfl, rfl⟩ := hs
        have := (bgStep_byCall hb') (.call c) (by simp)
        cases this
      | delay d =>
        simp [Knx.step] at hs
      | api e =>
        have ht := apiStep_tr hs
        generalize ho : o1 ++ Obs.call c :: b = o at ht
        have hm : Obs.call c ∈ o := by rw [← ho]; simp
        have idle : s.api = .idle → ({ s with api := .idle } : Sys) = s := by
          intro hi; cases s; cases hi; rfl
        cases ht
        case callTunnel c' cemi g1 g2 g3 =>
          obtain ⟨rfl, rfl⟩ := split_call ho (by simp)
          simp only [List.append_nil, others, List.filter_nil]
          exact ⟨rfl, by rw [idle g1]; exact hx⟩
        case callStatus g1 g2 =>
          obtain ⟨rfl, rfl⟩ := split_call ho (by simp)
          simp only [List.append_nil, others, List.filter_nil]
          exact ⟨rfl, by rw [idle g1]; exact hx⟩
        case callDisc g1 g2 =>
          obtain ⟨rfl, rfl⟩ := split_call ho (by simp)
          simp only [List.append_nil, others, List.filter_nil]
          exact ⟨rfl, by rw [idle g1]; exact hx⟩
        case callErr c' g1 g2 g3 =>
          obtain ⟨rfl, rfl⟩ := split_call ho (by simp [isCall])
          have := hb (.ret .err) (by simp) rfl; cases this
        case callPanic c' g1 g2 g3 =>
          obtain ⟨rfl, rfl⟩ := split_call ho (by simp [isCall])
          have := hb (.ret .panic) (by simp) rfl; cases this
        all_goals simp at hm

/-- C100, the part that holds: a call that is dropped before it has drawn a number or received anything leaves no trace but the datagram
it may have sent: the client can do everything else, before, meanwhile and afterwards, exactly as without the call, and gets into
the same state. -/
theorem C100_unseen_partial {m : Mode} {s : Sys} {a b t : List Obs} {c : Call} (h : Exec m s (a ++ [.call c] ++ b ++ [.cancelled] ++ t))
    (hb : ∀ o ∈ b, byCall o = true → ∃ p, o = .tx .api p) : Exec m s (a ++ b.filter (fun o => !byCall o) ++ t) := by
  generalize hg : a ++ [.call c] ++ b ++ [.cancelled] ++ t = tr at h
  induction h generalizing t with
  | init => simp at hg
  | @step s s' tr o e hx hs ih =>
    have hg' : tr ++ o = (a ++ [.call c] ++ b) ++ .cancelled :: t := by rw [← hg]; simp
    rcases split_append hg' with ⟨t', h1, rfl⟩ | ⟨o1, h1, rfl⟩
    · have := (ih (t := t') (by rw [h1]; simp)).step e hs
      rwa [List.append_assoc] at this
    · cases e with
      | bg e =>
        simp only [Knx.step, Option.map_eq_some_iff, Prod.exists, Prod.mk.injEq] at hs
        obtain ⟨b', o', hb', rfl, rfl⟩ := hs
        have := (bgStep_byCall hb') .cancelled (by simp)
        cases this
      | delay d => simp [Knx.step] at hs
      | api e =>
        have ht := apiStep_tr hs
        generalize ho : o1 ++ Obs.cancelled :: t = o at ht
        have hm : Obs.cancelled ∈ o := by rw [← ho]; simp
        cases ht
        case cancel hn =>
          have e1 : o1 = [] ∧ t = [] := by
            rcases o1 with _ | ⟨y, o1⟩ <;> simp at ho ⊢
            exact ho
          obtain ⟨rfl, rfl⟩ := e1
          rw [List.append_nil] at h1
          have := (hx.unsent (a := a) (b := b) (c := c) (by rw [← h1]; simp) (fun o ho h => by obtain ⟨p, rfl⟩ := hb o ho h; rfl)).2
          rwa [List.append_nil]
        all_goals simp at hm


/-- The call of the monitor has neither drawn a number nor received anything. -/
def munsent : MApi → Bool
  | .seqNr _ => true
  | .dcChan => true
  | .dcEp _ => true
  | .dcSend _ => true
  | .dcRecv => true
  | .isConn => true
  | .subscribe _ => true
  | _ => false

theorem MExec.unsent {m : Mode} {s : MSys} {tr : List Obs} (h : MExec m s tr) :
    ∀ {a b c}, tr = a ++ .call c :: b → Untouched b → munsent s.api = true ∧ MExec m { s with api := .idle } (a ++ others b) := by
  induction h with
  | init => intro a b c h; simp at h
  | @step s s' tr o e hx hs ih =>
    intro a b c he hb
    rcases split_append he with ⟨b', h1, rfl⟩ | ⟨o1, rfl, rfl⟩
    · obtain ⟨i1, i2⟩ := ih h1 (fun x hx => hb x (List.mem_append_left _ hx))
      have ho : Untouched o := fun x hx => hb x (List.mem_append_right _ hx)
      rw [others_append, ← List.append_assoc]
      cases e with
      | bg e =>
        simp only [Knx.mstep, Option.map_eq_some_iff, Prod.exists, Prod.mk.injEq] at hs
        obtain ⟨b, o', hb2, rfl, rfl⟩ := hs
        rw [others_same (bgStep_byCall hb2)]
        exact ⟨i1, i2.step (.bg e) (by simp [Knx.mstep, hb2])⟩
      | delay d => cases hs; exact ⟨i1, i2.step (.delay d) rfl⟩
      | api e =>
        by_cases hn : (∃ i, e = .nrun i) ∨ (∃ i, e = .ncancel i) ∨ (∃ i n, e = .mkChan i n) ∨ (∃ i, e = .drain i) ∨ (∃ i, e = .fill i) ∨ ∃ i, e = .closeChan i
        · have key : s'.api = s.api ∧ mapiStep m { s with api := .idle } e = some ({ s' with api := .idle }, o) := by
            rcases hn with ⟨i, rfl⟩ | ⟨i, rfl⟩ | ⟨i, n, rfl⟩ | ⟨i, rfl⟩ | ⟨i, rfl⟩ | ⟨i, rfl⟩
            · simp only [Knx.mstep, mapiStep, nextMsg, nfinish] at hs ⊢
              repeat' split at hs
              all_goals first
                | (cases hs; done)
                | (cases hs; simp_all; done)
            all_goals
              simp only [Knx.mstep, mapiStep, setChan] at hs ⊢
              first
                | (split at hs
                   · rename_i h; cases hs; simp [h]
                   · cases hs)
                | (cases hs; exact ⟨rfl, rfl⟩)
          have hr : others o = o := by
            refine others_same fun x hx => ?_
            have ht : MApiTr m s s' o := mapiStep_tr hs
            rcases hn with ⟨i, rfl⟩ | ⟨i, rfl⟩ | ⟨i, n, rfl⟩ | ⟨i, rfl⟩ | ⟨i, rfl⟩ | ⟨i, rfl⟩
            · simp only [Knx.mstep, mapiStep, nextMsg, nfinish] at hs
              repeat' split at hs
              all_goals first
                | (cases hs; done)
                | (cases hs; simp at hx; rcases hx with rfl | rfl <;> rfl)
                | (cases hs; simp at hx; subst hx; rfl)
            all_goals
              simp only [Knx.mstep, mapiStep] at hs
              first
                | (split at hs
                   · cases hs; simp at hx; done
                   · cases hs)
                | (split at hs
                   · cases hs; simp at hx; subst hx; rfl
                   · cases hs)
                | (cases hs; simp at hx; done)
          rw [hr]
          exact ⟨by rw [key.1]; exact i1, i2.step (.api e) key.2⟩
        · have hc : Knx.mcallStep m s e = some (s', o) ∨ e = .cancel := by
            cases e <;> first | exact Or.inl hs | exact Or.inr rfl | (simp at hn; done)
          clear hn
          have key : munsent s'.api = true ∧ s' = { s with api := s'.api } ∧ others o = [] := by
            rcases hc with hc | rfl
            · unfold mcallStep at hc
              cases ha : s.api <;> rw [ha] at hc i1 <;> first | (cases i1; done) | skip
              all_goals
                cases e <;> first | (cases hc; done) | skip
              all_goals
                simp only [mfinish] at hc
                first
                  | (obtain ⟨-, ⟨-, hc⟩ | ⟨d, -, hc⟩⟩ := mwithConn_cases hc <;> cases hc <;>
                      first
                        | (simp [Untouched, byCall, apiTx] at ho; done)
                        | exact ⟨rfl, rfl, rfl⟩)
                  | (split at hc <;> cases hc <;> simp [Untouched, byCall, apiTx] at ho; done)
                  | (cases hc; simp [Untouched, byCall, apiTx] at ho; done)
                  | (cases hc; exact ⟨rfl, rfl, rfl⟩)
            · simp only [Knx.mstep, mapiStep] at hs
              split at hs
              · cases hs
              · cases hs; simp [Untouched, byCall, apiTx] at ho
          obtain ⟨k1, k2, k3⟩ := key
          refine ⟨k1, ?_⟩
          rw [k3, List.append_nil, show ({ s' with api := .idle } : MSys) = { s with api := .idle } by rw [k2]]
          exact i2
    · cases e with
      | bg e =>
        simp only [Knx.mstep, Option.map_eq_some_iff, Prod.exists, Prod.mk.injEq] at hs
        obtain ⟨b', o', hb', rfl, rfl⟩ := hs
        have := (bgStep_byCall hb') (.call c) (by simp)
        cases this
      | delay d =>
        simp [Knx.mstep] at hs
      | api e =>
        have ht := mapiStep_tr hs
        generalize ho : o1 ++ Obs.call c :: b = o at ht
        have hm : Obs.call c ∈ o := by rw [← ho]; simp
        have idle : s.api = .idle → ({ s with api := .idle } : MSys) = s := by
          intro hi; cases s; cases hi; rfl
        cases ht
        case callTunnel c' cemi g1 g2 g3 =>
          obtain ⟨rfl, rfl⟩ := split_call ho (by simp)
          simp only [List.append_nil, others, List.filter_nil]
          exact ⟨rfl, by rw [idle g1]; exact hx⟩
        case callDisc g1 g2 =>
          obtain ⟨rfl, rfl⟩ := split_call ho (by simp)
          simp only [List.append_nil, others, List.filter_nil]
          exact ⟨rfl, by rw [idle g1]; exact hx⟩
        case callConn g1 g2 =>
          obtain ⟨rfl, rfl⟩ := split_call ho (by simp)
          simp only [List.append_nil, others, List.filter_nil]
          exact ⟨rfl, by rw [idle g1]; exact hx⟩
        case callSub id g1 g2 =>
          obtain ⟨rfl, rfl⟩ := split_call ho (by simp)
          simp only [List.append_nil, others, List.filter_nil]
          exact ⟨rfl, by rw [idle g1]; exact hx⟩
        case callErr c' g1 g2 g3 =>
          obtain ⟨rfl, rfl⟩ := split_call ho (by simp [isCall])
          have := hb (.ret .err) (by simp) rfl; cases this
        case callPanic c' g1 g2 g3 =>
          obtain ⟨rfl, rfl⟩ := split_call ho (by simp [isCall])
          have := hb (.ret .panic) (by simp) rfl; cases this
        all_goals simp at hm

/-- C100, the same for the calls of the monitor. -/
theorem C100_monitor_unseen_partial {m : Mode} {s : MSys} {a b t : List Obs} {c : Call}
    (h : MExec m s (a ++ [.call c] ++ b ++ [.cancelled] ++ t)) (hb : ∀ o ∈ b, byCall o = true → ∃ p, o = .tx .api p) :
    MExec m s (a ++ b.filter (fun o => !byCall o) ++ t) := by
  generalize hg : a ++ [.call c] ++ b ++ [.cancelled] ++ t = tr at h
  induction h generalizing t with
  | init => simp at hg
  | @step s s' tr o e hx hs ih =>
    have hg' : tr ++ o = (a ++ [.call c] ++ b) ++ .cancelled :: t := by rw [← hg]; simp
    rcases split_append hg' with ⟨t', h1, rfl⟩ | ⟨o1, h1, rfl⟩
    · have := (ih (t := t') (by rw [h1]; simp)).step e hs
      rwa [List.append_assoc] at this
    · cases e with
      | bg e =>
        simp only [Knx.mstep, Option.map_eq_some_iff, Prod.exists, Prod.mk.injEq] at hs
        obtain ⟨b', o', hb', rfl, rfl⟩ := hs
        have := (bgStep_byCall hb') .cancelled (by simp)
        cases this
      | delay d => simp [Knx.mstep] at hs
      | api e =>
        have ht := mapiStep_tr hs
        generalize ho : o1 ++ Obs.cancelled :: t = o at ht
        have hm : Obs.cancelled ∈ o := by rw [← ho]; simp
        cases ht
        case cancel hn =>
          have e1 : o1 = [] ∧ t = [] := by
            rcases o1 with _ | ⟨y, o1⟩ <;> simp at ho ⊢
            exact ho
          obtain ⟨rfl, rfl⟩ := e1
          rw [List.append_nil] at h1
          have := (hx.unsent (a := a) (b := b) (c := c) (by rw [← h1]; simp) (fun o ho h => by obtain ⟨p, rfl⟩ := hb o ho h; rfl)).2
          rwa [List.append_nil]
        all_goals simp at hm

/-- The call that holds the transport does not care who waits in `next_msg`. -/
theorem mcallStep_waiting {m : Mode} {s s' : MSys} {e : MApiEv} {o : List Obs} (h : mcallStep m s e = some (s', o)) (hd : e ≠ .drop)
    (hn : ∀ i, e ≠ .ncall i) (w : List Nat) :
    mcallStep m { s with waiting := w } e = some ({ s' with waiting := w }, o) ∧ s'.waiting = s.waiting := by
  unfold mcallStep at h ⊢
  cases ha : s.api <;> rw [ha] at h <;> cases e <;> first | (cases h; done) | skip
  all_goals simp only [mapiCall, mstartTunnel, mwithConn, mfinish] at h ⊢
  all_goals first
    | (exact absurd rfl hd)
    | (exact absurd rfl (hn _))
    | (cases h; exact ⟨rfl, rfl⟩)
    | (repeat' split at h
       all_goals first | (cases h; done) | (cases h; simp_all; done))

/-- Something done by caller `i` of `next_msg`. -/
def nextStep (i : Nat) : Obs → Bool
  | .taken j _ => j == i
  | .nret j _ => j == i
  | .ncancelled j => j == i
  | _ => false

theorem filter_comm (w : List Nat) (i j : Nat) : (w.filter (· ≠ i)).filter (· ≠ j) = (w.filter (· ≠ j)).filter (· ≠ i) := by
  simp [List.filter_filter, Bool.and_comm]

/-- While a caller of `next_msg` has not taken a telegram, the monitor can be in the same state without it. -/
theorem MExec.untaken {m : Mode} {s : MSys} {tr : List Obs} (h : MExec m s tr) :
    ∀ {a b i}, tr = a ++ .ncall i :: b → (∀ o ∈ b, nextStep i o = false) →
      i ∈ s.waiting ∧ MExec m { s with waiting := s.waiting.filter (· ≠ i) } (a ++ b) := by
  induction h with
  | init => intro a b c h; simp at h
  | @step s s' tr o e hx hs ih =>
    intro a b i he hb
    rcases split_append he with ⟨b', h1, rfl⟩ | ⟨o1, rfl, rfl⟩
    · obtain ⟨i1, i2⟩ := ih h1 (fun x hx => hb x (List.mem_append_left _ hx))
      have ho : ∀ x ∈ o, nextStep i x = false := fun x hx => hb x (List.mem_append_right _ hx)
      rw [← List.append_assoc]
      have mem : ∀ j, j ≠ i → i ∈ s.waiting.filter (· ≠ j) := fun j hj => by simp [i1, hj.symm]
      cases e with
      | bg e =>
        simp only [Knx.mstep, Option.map_eq_some_iff, Prod.exists, Prod.mk.injEq] at hs
        obtain ⟨b, o', hb2, rfl, rfl⟩ := hs
        exact ⟨i1, i2.step (.bg e) (by simp [Knx.mstep, hb2])⟩
      | delay d => cases hs; exact ⟨i1, i2.step (.delay d) rfl⟩
      | api e =>
        have key : i ∈ s'.waiting ∧ mapiStep m { s with waiting := s.waiting.filter (· ≠ i) } e = some ({ s' with waiting := s'.waiting.filter (· ≠ i) }, o) := by
          have easy : mcallStep m s e = some (s', o) → e ≠ .drop → (∀ i, e ≠ .ncall i) →
              i ∈ s'.waiting ∧ mcallStep m { s with waiting := s.waiting.filter (· ≠ i) } e = some ({ s' with waiting := s'.waiting.filter (· ≠ i) }, o) := by
            intro h h1 h2
            obtain ⟨k1, k2⟩ := mcallStep_waiting h h1 h2 (s.waiting.filter (· ≠ i))
            rw [k2]; exact ⟨i1, k1⟩
          have hs : mapiStep m s e = some (s', o) := hs
          cases e with
          | nrun j =>
            by_cases hj : j = i
            · subst hj
              exfalso
              have ht := hs
              simp only [mapiStep, if_pos i1] at ht
              split at ht
              · simp only [nextMsg, nfinish] at ht
                repeat' split at ht
                all_goals (cases ht; simp [nextStep] at ho)
              · split at ht
                · cases ht; simp [nextStep] at ho
                · cases ht
            · have hm := mem j hj
              simp only [mapiStep, nextMsg, nfinish, filter_comm _ i j] at hs ⊢
              have hw : j ∈ s.waiting → j ∈ s.waiting.filter (· ≠ i) := fun h => by simp [h, hj]
              split at hs
              · rename_i h; rw [if_pos (hw h)]
                repeat' split at hs
                all_goals first | (cases hs; done) | (cases hs; simp_all; done)
              · cases hs
          | ncancel j =>
            have hj : j ≠ i := by
              rintro rfl
              simp only [mapiStep, if_pos i1] at hs
              cases hs; simp [nextStep] at ho
            have hm := mem j hj
            simp only [mapiStep, filter_comm _ i j] at hs ⊢
            split at hs
            · rename_i h
              rw [if_pos (by simp [h, hj])]
              cases hs; exact ⟨hm, rfl⟩
            · cases hs
          | ncall j =>
            simp only [mapiStep, mcallStep] at hs ⊢
            split at hs
            · split at hs
              · rename_i h
                cases hs
                have hj : j ≠ i := fun hj => h.2 (hj ▸ i1)
                simp [h.1, h.2, hj, i1]
              · cases hs
            all_goals cases hs
          | drop =>
            simp only [mapiStep, mcallStep] at hs
            split at hs
            · split at hs
              · rename_i h; rw [h.2] at i1; cases i1
              · cases hs
            all_goals cases hs
          | mkChan id cap =>
            simp only [mapiStep, setChan] at hs ⊢
            split at hs
            · rename_i h; cases hs; simp [h, i1]
            · cases hs
          | drain id =>
            simp only [mapiStep, setChan] at hs ⊢
            split at hs
            · rename_i h; cases hs; simp [h, i1]
            · cases hs
          | fill id =>
            simp only [mapiStep, setChan] at hs ⊢
            split at hs
            · rename_i h; cases hs; simp [h, i1]
            · cases hs
          | closeChan id => simp only [mapiStep, setChan] at hs ⊢; cases hs; exact ⟨i1, rfl⟩
          | cancel =>
            simp only [mapiStep] at hs ⊢
            split at hs
            · cases hs
            · rename_i h; cases hs; simp [h, i1]
          | _ => exact easy hs (by simp) (by simp)
        exact ⟨key.1, i2.step (.api e) key.2⟩
    · cases e with
      | bg e =>
        simp only [Knx.mstep, Option.map_eq_some_iff, Prod.exists, Prod.mk.injEq] at hs
        obtain ⟨b', o', hb', rfl, rfl⟩ := hs
        have ht := bgStep_tr hb'
        have hm : Obs.ncall i ∈ o1 ++ Obs.ncall i :: b := by simp
        generalize o1 ++ Obs.ncall i :: b = o at ht hm
        cases ht <;> simp at hm
      | delay d =>
        simp [Knx.mstep] at hs
      | api e =>
        have ht := mapiStep_tr hs
        generalize ho : o1 ++ Obs.ncall i :: b = o at ht
        have hm : Obs.ncall i ∈ o := by rw [← ho]; simp
        cases ht
        case ncall j g1 g2 g3 =>
          have e1 : o1 = [] ∧ b = [] ∧ j = i := by
            rcases o1 with _ | ⟨y, o1⟩ <;> simp at ho ⊢
            exact ⟨ho.2, ho.1.symm⟩
          obtain ⟨rfl, rfl, rfl⟩ := e1
          refine ⟨by simp, ?_⟩
          have : (j :: s.waiting).filter (· ≠ j) = s.waiting := by
            rw [List.filter_cons_of_neg (by simp), List.filter_eq_self]
            intro x hx; simp; rintro rfl; exact g3 hx
          simp only [List.append_nil, this]
          exact hx
        all_goals simp at hm

/-- C100: a `next_msg` that is dropped before it has taken a telegram leaves no trace; in particular no telegram is lost to it. -/
theorem C100_next_unseen {m : Mode} {s : MSys} {a b t : List Obs} {i : Nat}
    (h : MExec m s (a ++ [.ncall i] ++ b ++ [.ncancelled i] ++ t)) (hb : ∀ o ∈ b, nextStep i o = false) : MExec m s (a ++ b ++ t) := by
  generalize hg : a ++ [.ncall i] ++ b ++ [.ncancelled i] ++ t = tr at h
  induction h generalizing t with
  | init => simp at hg
  | @step s s' tr o e hx hs ih =>
    have hg' : tr ++ o = (a ++ [.ncall i] ++ b) ++ .ncancelled i :: t := by rw [← hg]; simp
    rcases split_append hg' with ⟨t', h1, rfl⟩ | ⟨o1, h1, rfl⟩
    · have := (ih (t := t') (by rw [h1]; simp)).step e hs
      rwa [List.append_assoc] at this
    · cases e with
      | bg e =>
        simp only [Knx.mstep, Option.map_eq_some_iff, Prod.exists, Prod.mk.injEq] at hs
        obtain ⟨b', o', hb', rfl, rfl⟩ := hs
        have ht := bgStep_tr hb'
        have hm : Obs.ncancelled i ∈ o1 ++ Obs.ncancelled i :: t := by simp
        generalize o1 ++ Obs.ncancelled i :: t = o at ht hm
        cases ht <;> simp at hm
      | delay d => simp [Knx.mstep] at hs
      | api e =>
        have ht := mapiStep_tr hs
        generalize ho : o1 ++ Obs.ncancelled i :: t = o at ht
        have hm : Obs.ncancelled i ∈ o := by rw [← ho]; simp
        cases ht
        case ncancel j hn =>
          have e1 : o1 = [] ∧ t = [] ∧ j = i := by
            rcases o1 with _ | ⟨y, o1⟩ <;> simp at ho ⊢
            exact ⟨ho.2, ho.1.symm⟩
          obtain ⟨rfl, rfl, rfl⟩ := e1
          rw [List.append_nil] at h1
          have := (hx.untaken (a := a) (b := b) (i := j) (by rw [← h1]; simp) hb).2
          rwa [List.append_nil]
        all_goals simp at hm

/-- While a caller waits for its turn, the object can be in the same state without it. -/
theorem PExec.unbegun {V : Server} {p : Pool V} {tr : List (PObs V)} (h : PExec V p tr) :
    ∀ {a b i r}, tr = a ++ .asked i r :: b → (∀ r', PObs.began i r' ∉ b) → PObs.early i ∉ b → PObs.left i ∉ b →
      (∃ x ∈ p.line, x.1 = i) ∧ PExec V { p with line := p.line.filter (·.1 ≠ i) } (a ++ b) := by
  induction h with
  | init => intro a b i r h; simp at h
  | @step p p' tr o e hx hs ih =>
    intro a b i r he h1 h2 h3
    rcases split_append he with ⟨b', g1, rfl⟩ | ⟨o1, rfl, rfl⟩
    · obtain ⟨⟨x, i1, rfl⟩, i2⟩ := ih g1 (fun r' hx => h1 r' (List.mem_append_left _ hx)) (fun hx => h2 (List.mem_append_left _ hx)) (fun hx => h3 (List.mem_append_left _ hx))
      rw [← List.append_assoc]
      have o1 : ∀ r', PObs.began x.1 r' ∉ o := fun r' hx => h1 r' (List.mem_append_right _ hx)
      have o3 : PObs.left x.1 ∉ o := fun hx => h3 (List.mem_append_right _ hx)
      clear h1 h2 h3 he ih g1
      cases e with
      | ask j q =>
        simp only [Pool.step] at hs
        split at hs
        · rename_i hc
          obtain ⟨c1, c2, c3, c4⟩ := hc
          have hj : x.1 ≠ j := c3 x i1
          have hc' : V.alive p.sys = true ∧ p.owner ≠ some j ∧ (∀ y ∈ p.line.filter (·.1 ≠ x.1), y.1 ≠ j) ∧ V.away p.sys j = false :=
            ⟨c1, c2, fun y hy => c3 y (List.mem_of_mem_filter hy), c4⟩
          split at hs
          · rename_i hq
            cases hs
            exact ⟨⟨x, i1, rfl⟩, i2.step (.ask j q) (by simp only [Pool.step, if_pos hc', if_pos hq])⟩
          · rename_i hq
            cases hs
            refine ⟨⟨x, by simp [i1], rfl⟩, i2.step (.ask j q) ?_⟩
            simp only [Pool.step, if_pos hc', if_neg hq]
            simp [hj.symm]
        · cases hs
      | grant =>
        simp only [Pool.step] at hs
        split at hs
        · cases hs
        · rename_i j q rest hl
          split at hs
          · rename_i hf
            split at hs
            · cases hs
            · rename_i s o hv
              cases hs
              have hj : j ≠ x.1 := by rintro rfl; exact o1 q (by simp)
              rw [hl] at i1 i2
              rw [List.filter_cons_of_pos (by simpa using hj)] at i2
              have hm : x ∈ rest := by
                rcases List.mem_cons.1 i1 with rfl | h
                · exact absurd rfl hj
                · exact h
              exact ⟨⟨x, hm, rfl⟩, i2.step .grant (by simp [Pool.step, hf, hv])⟩
          · cases hs
      | leave j =>
        simp only [Pool.step] at hs
        split at hs
        · rename_i hm
          cases hs
          have hj : x.1 ≠ j := by rintro rfl; exact o3 (by simp)
          obtain ⟨y, hy, rfl⟩ := hm
          refine ⟨⟨x, by simp [i1, hj], rfl⟩, i2.step (.leave y.1) ?_⟩
          have : ∃ z ∈ p.line.filter (·.1 ≠ x.1), z.1 = y.1 := ⟨y, by simp [hy, hj.symm], rfl⟩
          simp only [Pool.step, if_pos this]
          simp [List.filter_filter, Bool.and_comm]
        · cases hs
      | sys e =>
        simp only [Pool.step] at hs
        split at hs
        · cases hs
        · rename_i hn
          split at hs
          · cases hs
          · rename_i s o hv
            cases hs
            refine ⟨⟨x, i1, rfl⟩, i2.step (.sys e) ?_⟩
            have : ¬ (V.begins e = true ∨ V.drops e = true ∧ p.line.filter (·.1 ≠ x.1) ≠ []) := by
              rintro (h | ⟨h, _⟩)
              · exact hn (Or.inl h)
              · exact hn (Or.inr ⟨h, fun h => by rw [h] at i1; cases i1⟩)
            simp only [Pool.step, if_neg this, hv]
    · have hm : PObs.asked i r ∈ o1 ++ PObs.asked i r :: b := by simp
      have tagged : ∀ (c : Bool) (j : Option Nat) (l : List Obs), PObs.asked i r ∉ l.map (tag (V := V) c j) := by
        intro c j l h
        obtain ⟨y, -, hy⟩ := List.mem_map.1 h
        unfold tag at hy
        split at hy <;> cases hy
      cases e with
      | ask j q =>
        simp only [Pool.step] at hs
        split at hs
        · rename_i hc
          split at hs
          · simp only [Option.some.injEq, Prod.mk.injEq] at hs
            obtain ⟨rfl, ho⟩ := hs
            have hb : PObs.early i ∈ b := by
              rcases o1 with _ | ⟨y, _ | ⟨z, o1⟩⟩ <;> simp at ho
              rw [← ho.2, ho.1.1]; simp
            exact absurd hb h2
          · simp only [Option.some.injEq, Prod.mk.injEq] at hs
            obtain ⟨rfl, ho⟩ := hs
            have e1 : o1 = [] ∧ b = [] ∧ j = i ∧ q = r := by
              rcases o1 with _ | ⟨y, o1⟩ <;> simp at ho ⊢
              exact ⟨ho.2, ho.1.1, ho.1.2⟩
            obtain ⟨rfl, rfl, rfl, rfl⟩ := e1
            refine ⟨⟨(j, q), by simp, rfl⟩, ?_⟩
            have : (p.line ++ [(j, q)]).filter (·.1 ≠ j) = p.line := by
              rw [List.filter_append, List.filter_cons_of_neg (by simp), List.filter_nil, List.append_nil, List.filter_eq_self]
              intro x hx; simpa using hc.2.2.1 x hx
            simp only [List.append_nil, this]
            exact hx
        · cases hs
      | grant =>
        simp only [Pool.step] at hs
        split at hs
        · cases hs
        · split at hs
          · split at hs
            · cases hs
            · simp only [Option.some.injEq, Prod.mk.injEq] at hs
              rw [← hs.2, List.mem_cons] at hm
              rcases hm with hm | hm
              · cases hm
              · exact absurd hm (tagged _ _ _)
          · cases hs
      | leave j =>
        simp only [Pool.step] at hs
        split at hs
        · simp only [Option.some.injEq, Prod.mk.injEq] at hs
          rw [← hs.2] at hm; simp at hm
        · cases hs
      | sys e =>
        simp only [Pool.step] at hs
        split at hs
        · cases hs
        · split at hs
          · cases hs
          · simp only [Option.some.injEq, Prod.mk.injEq] at hs
            rw [← hs.2] at hm; exact absurd hm (tagged _ _ _)

/-- C100: a caller of client or monitor that gives up while it waits for its turn leaves no trace either. -/
theorem C100_waiting_unseen {m : Mode} {V : Server} (_hV : V = clientServer m ∨ V = monitorServer m) {p : Pool V} {a b t : List (PObs V)}
    {i : Nat} {r : V.Req} (h : PExec V p (a ++ [.asked i r] ++ b ++ [.left i] ++ t))
    (hb : ∀ r', PObs.began i r' ∉ b) (he : PObs.early i ∉ b) (hl : PObs.left i ∉ b) : PExec V p (a ++ b ++ t) := by
  generalize hg : a ++ [.asked i r] ++ b ++ [.left i] ++ t = tr at h
  induction h generalizing t with
  | init => simp at hg
  | @step p p' tr o e hx hs ih =>
    have hg' : tr ++ o = (a ++ [.asked i r] ++ b) ++ .left i :: t := by rw [← hg]; simp
    rcases split_append hg' with ⟨t', h1, rfl⟩ | ⟨o1, h1, rfl⟩
    · have := (ih (t := t') (by rw [h1]; simp)).step e hs
      rwa [List.append_assoc] at this
    · have hm : PObs.left i ∈ o1 ++ PObs.left i :: t := by simp
      have tagged : ∀ (c : Bool) (j : Option Nat) (l : List Obs), PObs.left i ∉ l.map (tag (V := V) c j) := by
        intro c j l h
        obtain ⟨y, -, hy⟩ := List.mem_map.1 h
        unfold tag at hy
        split at hy <;> cases hy
      cases e with
      | ask j q =>
        simp only [Pool.step] at hs
        split at hs
        · split at hs
          all_goals
            simp only [Option.some.injEq, Prod.mk.injEq] at hs
            rw [← hs.2] at hm; simp at hm
        · cases hs
      | grant =>
        simp only [Pool.step] at hs
        split at hs
        · cases hs
        · split at hs
          · split at hs
            · cases hs
            · simp only [Option.some.injEq, Prod.mk.injEq] at hs
              rw [← hs.2, List.mem_cons] at hm
              rcases hm with hm | hm
              · cases hm
              · exact absurd hm (tagged _ _ _)
          · cases hs
      | leave j =>
        simp only [Pool.step] at hs
        split at hs
        · simp only [Option.some.injEq, Prod.mk.injEq] at hs
          obtain ⟨rfl, ho⟩ := hs
          have e1 : o1 = [] ∧ t = [] ∧ j = i := by
            rcases o1 with _ | ⟨y, o1⟩ <;> simp at ho ⊢
            exact ⟨ho.2, ho.1⟩
          obtain ⟨rfl, rfl, rfl⟩ := e1
          rw [List.append_nil] at h1
          have := (hx.unbegun (a := a) (b := b) (i := j) (r := r) (by rw [← h1]; simp) hb he hl).2
          rwa [List.append_nil]
        · cases hs
      | sys e =>
        simp only [Pool.step] at hs
        split at hs
        · cases hs
        · split at hs
          · cases hs
          · simp only [Option.some.injEq, Prod.mk.injEq] at hs
            rw [← hs.2] at hm; exact absurd hm (tagged _ _ _)

/-- A status query is sent; before it is dropped a telegram arrives and is acknowledged. -/
example (m : Mode) : ∃ s a b t p, Exec m s (a ++ [.call .status] ++ b ++ [.cancelled] ++ t) ∧ .tx .api p ∈ b ∧ received b = [req7] ∧
    (∀ o ∈ b, byCall o = true → ∃ p, o = .tx .api p) ∧ returned t = [.value [1]] := by
  obtain ⟨s, tr, h1, h2⟩ := exec_of_evs (m := m) (evs := [.bg .run, .bg .sendOk, .bg (.dgram grant7), .bg .run,
      .api (.call .status), .api .run, .api .run, .api .sendOk, .bg (.dgram req7), .bg .sendOk, .bg .run, .api .cancel,
      .api (.call (.read (.group3 ⟨1, 0, 1⟩))), .api .run, .api .run, .api .sendOk, .api .run])
    (f := fun x => x.2)
    (y := [.tx .task connReqPacket, .rxConn grant7, .up conn7] ++ [.call .status] ++
      [.tx .api (ConnectionstateRequest.mk 7 conn7.dataEndpoint).packet, .rx req7, .tx .task (frame TUNNELING_ACK [4, 7, 0, 0]), .queued tel7] ++
      [.cancelled] ++ [.call (.read (.group3 ⟨1, 0, 1⟩)), .drew 0, .tx .api (readReq 7), .taken 0 tel7, .ret (.value [1])]) (by cases m <;> decide +kernel)
  simp only at h2
  rw [h2] at h1
  exact ⟨s, _, _, _, _, h1, by simp; rfl, rfl, by simp [byCall], rfl⟩

/-- Somebody waits in `next_msg` while a telegram is received, and gives up; the next one gets it. -/
example (m : Mode) : ∃ s a b t, MExec m s (a ++ [.ncall 1] ++ b ++ [.ncancelled 1] ++ t) ∧ received b = [req7] ∧
    (∀ o ∈ b, nextStep 1 o = false) ∧ takenBy 2 t = [tel7] := by
  obtain ⟨s, tr, h1, h2⟩ := mexec_of_evs (m := m) (evs := [.bg .run, .bg .sendOk, .bg (.dgram grant7), .bg .sendOk, .bg .run, .bg .run,
      .api (.ncall 1), .bg (.dgram req7), .bg .sendOk, .bg .run, .api (.ncancel 1), .api (.ncall 2), .api (.nrun 2)])
    (f := fun x => x.2)
    (y := [.tx .task connReqPacket, .rxConn grant7, .tx .task (enablePacket 7), .up conn7] ++ [.ncall 1] ++
      [.rx req7, .tx .task (frame TUNNELING_ACK [4, 7, 0, 0]), .queued tel7] ++ [.ncancelled 1] ++
      [.ncall 2, .taken 2 tel7, .nret 2 (.ind ⟨tel7, ⟨0x1102, 0x801, true, true, true, false⟩, [1]⟩)]) (by cases m <;> decide +kernel)
  simp only at h2
  rw [h2] at h1
  exact ⟨s, _, _, _, h1, rfl, by simp [nextStep], rfl⟩

/-- Caller 2 waits for caller 1, and gives up. -/
example (m : Mode) : ∃ (p : Pool (clientServer m)) (a b t : List (PObs (clientServer m))), PExec (clientServer m) p (a ++ [.asked 2 ClientReq.disconnect] ++ b ++ [.left 2] ++ t) ∧
    (∀ r', PObs.began 2 r' ∉ b) ∧ PObs.early 2 ∉ b ∧ PObs.left 2 ∉ b ∧ p.owner = some 1 := by
  obtain ⟨p, tr, h1, h2⟩ := pexec_of_evs (V := clientServer m) (evs := [.ask 1 .status, .grant, .ask 2 .disconnect, .sys (.delay 10), .leave 2])
    (f := fun x => (x.1.owner, x.2)) (y := (some 1, [.asked 1 .status, .began 1 .status, .own 1 (.call .status)] ++ [.asked 2 .disconnect] ++ [] ++ [.left 2] ++ []))
    (by cases m <;> rfl)
  simp only [Prod.mk.injEq] at h2
  rw [h2.2] at h1
  exact ⟨p, _, [], _, h1, fun _ => List.not_mem_nil, List.not_mem_nil, List.not_mem_nil, h2.1⟩

/-- C100: no answer is lost to a read that is dropped, and no telegram at all to another call that is dropped: the telegrams taken by
a call that has not returned are no indications for the address it reads, and only a read takes telegrams without returning. -/
theorem C100_keeps {m : Mode} {s s' : Sys} {tr : List Obs} {e : Ev} (h : Exec m s tr) (hs : step m s e = some (s', [.cancelled])) :
    ∃ c, lastCall tr = some c ∧ (apiSent (since isCall tr)).length ≤ 1 ∧
      ∀ x ∈ taken (since isCall tr), ∃ addr, c = .read addr ∧ ∀ v, ¬ IndicationFor addr.toU16 x v := by
  have hc := h.callInv
  have hi : s.api ≠ .idle := by
    cases e with
    | bg e =>
      simp only [Knx.step, Option.map_eq_some_iff, Prod.exists, Prod.mk.injEq] at hs
      obtain ⟨b', o', hb', rfl, rfl⟩ := hs
      have := (bgStep_byCall hb') .cancelled (by simp)
      cases this
    | delay d => simp [Knx.step] at hs
    | api e =>
      have ht := apiStep_tr hs
      generalize ho : [Obs.cancelled] = o at ht
      cases ht <;> first | (cases ho; done) | assumption
  cases ha : s.api <;> rw [ha] at hc
  case idle => exact absurd ha hi
  case reading a dl =>
    obtain ⟨addr, p, h1, rfl, h3, h4, -⟩ := hc
    exact ⟨_, h1, by rw [h4]; simp, fun x hx => ⟨addr, rfl, skipped_iff (h3 x hx)⟩⟩
  all_goals simp only [CallInv] at hc
  case seqNr => exact ⟨_, hc.1, by rw [hc.2.2.2.1]; simp, by rw [hc.2.2.1]; simp⟩
  case chanId => exact ⟨_, hc.1, by rw [hc.2.2.2.1]; simp, by rw [hc.2.2.1]; simp⟩
  case sendReq => exact ⟨_, hc.1, by rw [hc.2.2.1]; simp, by rw [hc.2.1]; simp⟩
  case writing =>
    obtain ⟨addr, v, small, p, h1, h2, h3, -⟩ := hc
    exact ⟨_, h1, by rw [h3]; simp, by rw [h2]; simp⟩
  case stRecv =>
    obtain ⟨h1, h2, _, _, h3⟩ := hc
    exact ⟨_, h1, by rw [h3]; simp, by rw [h2]; simp⟩
  case dcRecv =>
    obtain ⟨h1, h2, _, _, h3⟩ := hc
    exact ⟨_, h1, by rw [h3]; simp, by rw [h2]; simp⟩
  case stChan => exact ⟨_, hc.1, by rw [hc.2.2]; simp, by rw [hc.2.1]; simp⟩
  case stEp => exact ⟨_, hc.1, by rw [hc.2.2]; simp, by rw [hc.2.1]; simp⟩
  case dcChan => exact ⟨_, hc.1, by rw [hc.2.2]; simp, by rw [hc.2.1]; simp⟩
  case dcEp => exact ⟨_, hc.1, by rw [hc.2.2]; simp, by rw [hc.2.1]; simp⟩
  all_goals exact ⟨_, hc.1, by rw [hc.2.2.1]; simp, by rw [hc.2.1]; simp⟩

/-- C100: no indication is lost to a `next_msg` that is dropped. -/
theorem C100_next_keeps {m : Mode} {s s' : MSys} {tr : List Obs} {e : MEv} {i : Nat} (h : MExec m s tr)
    (hs : mstep m s e = some (s', [.ncancelled i])) : ∀ c ∈ takenBy i (since (isNcall i) tr), isIndication c = false := by
  refine h.nextInv.caller i ?_
  cases e with
  | bg e =>
    simp only [Knx.mstep, Option.map_eq_some_iff, Prod.exists, Prod.mk.injEq] at hs
    obtain ⟨b', o', hb', rfl, rfl⟩ := hs
    have ht := bgStep_tr hb'
    generalize ho : [Obs.ncancelled i] = o at ht
    cases ht <;> cases ho
  | delay d => simp [Knx.mstep] at hs
  | api e =>
    have ht := mapiStep_tr hs
    generalize ho : [Obs.ncancelled i] = o at ht
    cases ht <;> cases ho
    assumption

/-- C100 is refuted: when a write is dropped after its number has been drawn and before its request has been sent, a server that follows
the standard discards all the following requests (up to 254). -/
theorem C100_violated_number (m : Mode) (d : Bytes) (r : ConnectionResponse) (h : Grants d r) (addr : KnxAddress) (b : U8) (n : Nat) (hn : n ≤ 254) :
    ∃ s s' tr', Exec m s (linkTrace .client d r ++ [.call (.write addr [b] true), .drew 0, .cancelled]) ∧ PromptRun m s tr' s' ∧
      calls tr' = List.replicate n (.write addr [b] true) ∧ returned tr' = List.replicate n .err ∧ Obs.down ∉ tr' ∧
      (requestsSent tr').length = n ∧ gate r.channel 0 (requestsSent tr') = List.replicate n .discarded := by
  obtain ⟨s, s', tr, o, tr', h1, h2, h3, h4, h5, h6, -, h8, -, h10, h11⟩ := C88_violated_unsent m d r h addr b n hn true
  rw [if_pos rfl] at h3
  subst h3
  rw [h2] at h1
  exact ⟨s, s', tr', h1, h4, h5, h6, h8, h10, h11⟩

/-- C100 is refuted: a write of 1/0/1 is dropped after it has been sent; its confirmation makes the next call, a write of 1/0/2, return `Ok`,
for which nothing has been received. -/
theorem C100_violated_confirmation (m : Mode) : ∃ s tr, Exec m s tr ∧
    calls tr = [.write (.group3 ⟨1, 0, 1⟩) [1] true, .write (.group3 ⟨1, 0, 2⟩) [1] true] ∧ Obs.cancelled ∈ upto isCall tr ∧
    received tr = [positive7] ∧ received (since isCall tr) = [] ∧ returned tr = [.unit] := by
  obtain ⟨s, tr, h1, h2⟩ := exec_of_evs (m := m) (evs := [.bg .run, .bg .sendOk, .bg (.dgram grant7), .bg .run,
      .api (.call (.write (.group3 ⟨1, 0, 1⟩) [1] true)), .api .run, .api .run, .api .sendOk, .api .cancel,
      .bg (.dgram positive7), .bg .sendOk, .bg .run,
      .api (.call (.write (.group3 ⟨1, 0, 2⟩) [1] true)), .api .run, .api .run, .api .sendOk, .api .run])
    (f := fun x => ((calls x.2, (upto isCall x.2).contains .cancelled), received x.2, received (since isCall x.2), returned x.2))
    (y := (([.write (.group3 ⟨1, 0, 1⟩) [1] true, .write (.group3 ⟨1, 0, 2⟩) [1] true], true), [positive7], [], [.unit]))
    (by cases m <;> decide +kernel)
  simp only [Prod.mk.injEq, List.contains_iff_mem] at h2
  exact ⟨s, tr, h1, h2.1.1, h2.1.2, h2.2.1, h2.2.2.1, h2.2.2.2⟩

/-- C100 is refuted: a read is dropped after it has been sent; its answer is what a later read of the same address returns, before anything has
been received in answer to it. -/
theorem C100_violated_value (m : Mode) : ∃ s tr, Exec m s tr ∧
    calls tr = [.read (.group3 ⟨1, 0, 1⟩), .read (.group3 ⟨1, 0, 1⟩)] ∧ Obs.cancelled ∈ upto isCall tr ∧
    received tr = [req7] ∧ received (since isCall tr) = [] ∧ returned tr = [.value [1]] := by
  obtain ⟨s, tr, h1, h2⟩ := exec_of_evs (m := m) (evs := [.bg .run, .bg .sendOk, .bg (.dgram grant7), .bg .run,
      .api (.call (.read (.group3 ⟨1, 0, 1⟩))), .api .run, .api .run, .api .sendOk, .api .cancel,
      .bg (.dgram req7), .bg .sendOk, .bg .run,
      .api (.call (.read (.group3 ⟨1, 0, 1⟩))), .api .run, .api .run, .api .sendOk, .api .run])
    (f := fun x => ((calls x.2, (upto isCall x.2).contains .cancelled), received x.2, received (since isCall x.2), returned x.2))
    (y := (([.read (.group3 ⟨1, 0, 1⟩), .read (.group3 ⟨1, 0, 1⟩)], true), [req7], [], [.value [1]]))
    (by cases m <;> decide +kernel)
  simp only [Prod.mk.injEq, List.contains_iff_mem] at h2
  exact ⟨s, tr, h1, h2.1.1, h2.1.2, h2.2.1, h2.2.2.1, h2.2.2.2⟩

end Knx
