import Verif.Lemmas.GExec
import Mathlib.Data.List.Forall2
import Mathlib.Data.List.TakeWhile

/-!
# Invariants of the background task
-/

namespace Knx
open Spec

/-! ## Trace functions -/

theorem since_append (p : Obs → Bool) (tr o : List Obs) :
    since p (tr ++ o) = if o.any p then since p o else since p tr ++ o := by
  unfold since
  rw [List.reverse_append, List.takeWhile_append]
  by_cases h : o.any p = true
  · rw [if_pos h, if_neg]
    intro hl
    obtain ⟨x, hx, hpx⟩ := List.any_eq_true.1 h
    have := (List.takeWhile_prefix (l := o.reverse) (fun o => !p o)).eq_of_length hl
    have hx' : x ∈ o.reverse.takeWhile fun o => !p o := by rw [this]; simpa using hx
    have := List.mem_takeWhile_imp hx'
    simp [hpx] at this
  · have h' : o.reverse.takeWhile (fun o => !p o) = o.reverse := by
      rw [List.takeWhile_eq_self_iff]
      intro x hx
      simp only [List.any_eq_true, not_exists, not_and] at h
      simpa using h x (by simpa using hx)
    rw [if_neg h, if_pos (by rw [h']), List.reverse_append, List.reverse_reverse]

theorem since_nil (p : Obs → Bool) : since p [] = [] := rfl

theorem since_single (p : Obs → Bool) (x : Obs) : since p [x] = if p x then [] else [x] := by
  by_cases h : p x = true <;> simp [since, h]

theorem buffer_eq_seen (d : Bytes) : buffer d = seen d := by
  unfold buffer seen padded
  rw [List.take_append, List.take_replicate, Nat.min_eq_left (Nat.sub_le _ _)]

/-- What the environment observes. -/
theorem quiet_spec {o : List Obs} (h : ∀ x ∈ o, quiet x = true) :
    received o = [] ∧ acksSent o = [] ∧ queued o = [] ∧ taken o = [] ∧ ups o = [] ∧ drawn o = [] ∧
      o.any isUp = false ∧ o.any isDown = false ∧ Obs.down ∉ o ∧ Obs.interrupt ∉ o ∧ Obs.closed ∉ o ∧
      Obs.crash ∉ o ∧ Obs.exit ∉ o ∧ Obs.dropped ∉ o ∧ (∀ d, Obs.rxConn d ∉ o) ∧ (∀ p, Obs.txFail .task p ∉ o) ∧
      (∀ p, Obs.tx .task p ∉ o) ∧ (∀ r, Obs.up r ∉ o) ∧ (∀ i, Obs.notified i ∉ o) ∧ Obs.tick ∉ o ∧ Obs.rxErr ∉ o ∧
      (∀ d, Obs.rx d ∉ o) := by
  have hn : ∀ x, quiet x = false → x ∉ o := fun x hx hm => by rw [h x hm] at hx; cases hx
  refine ⟨?_, ?_, ?_, ?_, ?_, ?_, ?_, ?_, hn _ rfl, hn _ rfl, hn _ rfl, hn _ rfl, hn _ rfl, hn _ rfl, fun _ => hn _ rfl,
    fun _ => hn _ rfl, fun _ => hn _ rfl, fun _ => hn _ rfl, fun _ => hn _ rfl, hn _ rfl, hn _ rfl, fun _ => hn _ rfl⟩
  · rw [received, List.filterMap_eq_nil_iff]
    intro x hx
    cases x <;> first | rfl | exact absurd (h _ hx) (by simp [quiet])
  · rw [acksSent, List.filter_eq_nil_iff]
    intro p hp
    rw [sent, List.mem_filterMap] at hp
    obtain ⟨x, hx, hxp⟩ := hp
    have := h x hx
    cases x with
    | tx w q =>
      cases w with
      | task => simp [quiet] at this
      | api => simp only [Option.some.injEq] at hxp; subst hxp; simpa [quiet] using this
    | _ => simp at hxp
  · rw [queued, List.filterMap_eq_nil_iff]
    intro x hx
    cases x <;> first | rfl | exact absurd (h _ hx) (by simp [quiet])
  · rw [taken, List.filterMap_eq_nil_iff]
    intro x hx
    cases x <;> first | rfl | exact absurd (h _ hx) (by simp [quiet])
  · rw [ups, List.filterMap_eq_nil_iff]
    intro x hx
    cases x <;> first | rfl | exact absurd (h _ hx) (by simp [quiet])
  · rw [drawn, List.filterMap_eq_nil_iff]
    intro x hx
    cases x <;> first | rfl | exact absurd (h _ hx) (by simp [quiet])
  · rw [List.any_eq_false]
    intro x hx
    cases x <;> first | simp [isUp]; done | exact absurd (h _ hx) (by simp [quiet])
  · rw [List.any_eq_false]
    intro x hx
    cases x <;> first | simp [isDown]; done | exact absurd (h _ hx) (by simp [quiet])

@[simp] theorem received_append (a b : List Obs) : received (a ++ b) = received a ++ received b := by simp [received]
@[simp] theorem acksSent_append (a b : List Obs) : acksSent (a ++ b) = acksSent a ++ acksSent b := by simp [acksSent, sent]
@[simp] theorem queued_append (a b : List Obs) : queued (a ++ b) = queued a ++ queued b := by simp [queued]
@[simp] theorem taken_append (a b : List Obs) : taken (a ++ b) = taken a ++ taken b := by simp [taken]
@[simp] theorem ups_append (a b : List Obs) : ups (a ++ b) = ups a ++ ups b := by simp [ups]
@[simp] theorem drawn_append (a b : List Obs) : drawn (a ++ b) = drawn a ++ drawn b := by simp [drawn]

/-! ## Where the connection data is set -/

/-- In these places of the task the connection data is set. -/
def pcUp : Pc → Bool
  | .top => false
  | .connSend => false
  | .connWait _ => false
  | .connSleep _ => false
  | .enable _ => false
  | .store _ => false
  | _ => true

theorem GExec.conn_iff {k : Kind} {m : Mode} {s : Bg} {tr : List Obs} (h : GExec k m s tr) :
    s.conn.isSome = pcUp s.pc ∧ ∀ p, s.pc ≠ .discResp p := by
  induction h with
  | init => exact ⟨rfl, by intro p; simp [Bg.init]⟩
  | task _ ht ih =>
    cases ht
    case tickBusy hb _ hc => simp_all [pcUp]
    case tickBusyNone hb _ hc =>
      rw [hc] at ih
      exfalso
      revert hb ih
      cases Bg.pc _ <;> simp [pcUp, busy]
    all_goals simp_all [pcUp]
  | env _ he ih =>
    cases he <;> simp_all

/-! ## Where connections come from -/

theorem tryConnect_iff (d : Bytes) (r : ConnectionResponse) : tryConnect (buffer d) = .ok r ↔ Grants d r := by
  rw [buffer_eq_seen]
  unfold tryConnect Grants
  constructor
  · intro h
    split at h
    · rename_i r' hr
      obtain ⟨c, rest, hc, he⟩ := runRd_ok_iff.1 hr
      obtain ⟨len, h1, h2, _, h3, h4⟩ := ConnectionResponse.fromPacket_iff.1 hc
      split at h
      · rename_i hs; cases h; cases he; exact ⟨hs, len, rest, h1, h2, h3, h4⟩
      · cases h
    · cases h
    · cases h
  · rintro ⟨hs, len, rest, h1, h2, h3, h4⟩
    have : ConnectionResponse.fromPacket (seen d) = .ok (r, rest) := by
      rw [ConnectionResponse.fromPacket_iff]
      exact ⟨len, h1, h2, by rw [hs]; simp [refusedStatus], h3, h4⟩
    simp [runRd, this, hs]

theorem GExec.grants {k : Kind} {m : Mode} {s : Bg} {tr : List Obs} (h : GExec k m s tr) :
    (∀ r, s.pc = .enable r ∨ s.pc = .store r → ∃ d, (connAnswers tr).getLast? = some d ∧ Grants d r) ∧
    (∀ r, .up r ∈ tr → ∃ d, d ∈ connAnswers tr ∧ Grants d r) ∧
    (∀ c, s.conn = some c → ∃ r, lastUp tr = some r ∧ c.channel = r.channel ∧ c.endpoint = r.dataEndpoint) := by
  induction h with
  | init => simp [Bg.init]
  | @task s s' tr o hx ht ih =>
    obtain ⟨i1, i2, i3⟩ := ih
    cases ht
    case connOkClient dl d r hpc hr hk =>
      rw [tryConnect_iff] at hr
      refine ⟨?_, ?_, ?_⟩
      · simp only [Pc.store.injEq, reduceCtorEq, false_or]; rintro r rfl; exact ⟨d, by simp [connAnswers], hr⟩
      · intro r' hr'; simp only [List.mem_append, List.mem_singleton, reduceCtorEq, or_false] at hr'
        obtain ⟨d', h1, h2⟩ := i2 r' hr'
        exact ⟨d', by simp only [connAnswers, List.filterMap_append, List.mem_append] at *; exact Or.inl h1, h2⟩
      · simpa [lastUp, ups] using i3
    case connOkMonitor dl d r hpc hr hk =>
      rw [tryConnect_iff] at hr
      refine ⟨?_, ?_, ?_⟩
      · simp only [Pc.enable.injEq, reduceCtorEq, or_false]; rintro r rfl; exact ⟨d, by simp [connAnswers], hr⟩
      · intro r' hr'; simp only [List.mem_append, List.mem_singleton, reduceCtorEq, or_false] at hr'
        obtain ⟨d', h1, h2⟩ := i2 r' hr'
        exact ⟨d', by simp only [connAnswers, List.filterMap_append, List.mem_append] at *; exact Or.inl h1, h2⟩
      · simpa [lastUp, ups] using i3
    case storeClient r hpc hk =>
      obtain ⟨d, hd, hg⟩ := i1 r (Or.inr hpc)
      refine ⟨by simp, ?_, ?_⟩
      · intro r' hr'
        simp only [List.mem_append, List.mem_singleton, Obs.up.injEq] at hr'
        rcases hr' with hr' | rfl
        · obtain ⟨d', h1, h2⟩ := i2 r' hr'
          exact ⟨d', by simpa [connAnswers] using h1, h2⟩
        · exact ⟨d, by simpa [connAnswers] using List.mem_of_getLast? hd, hg⟩
      · rintro c hc; cases hc; exact ⟨r, by simp [lastUp, ups], rfl, rfl⟩
    case storeMonitor r hpc hk =>
      obtain ⟨d, hd, hg⟩ := i1 r (Or.inr hpc)
      refine ⟨by simp, ?_, ?_⟩
      · intro r' hr'
        simp only [List.mem_append, List.mem_singleton, Obs.up.injEq] at hr'
        rcases hr' with hr' | rfl
        · obtain ⟨d', h1, h2⟩ := i2 r' hr'
          exact ⟨d', by simpa [connAnswers] using h1, h2⟩
        · exact ⟨d, by simpa [connAnswers] using List.mem_of_getLast? hd, hg⟩
      · rintro c hc; cases hc; exact ⟨r, by simp [lastUp, ups], rfl, rfl⟩
    case enableOk r hpc =>
      obtain ⟨d, hd, hg⟩ := i1 r (Or.inl hpc)
      refine ⟨?_, by simpa [connAnswers] using i2, by simpa [lastUp, ups] using i3⟩
      simp only [Pc.store.injEq, reduceCtorEq, false_or]; rintro r rfl; exact ⟨d, by simpa [connAnswers] using hd, hg⟩
    case teardown => exact ⟨by simp, by simpa [connAnswers] using i2, by simp⟩
    case recvEmpty hpc => exact ⟨by simp [hpc], by simpa [connAnswers] using i2, by simpa [lastUp, ups] using i3⟩
    case recvAck hpc _ _ => exact ⟨by simp [hpc], by simpa [connAnswers] using i2, by simpa [lastUp, ups] using i3⟩
    case recvStateOk hpc _ _ _ => exact ⟨by simp [hpc], by simpa [connAnswers] using i2, by simpa [lastUp, ups] using i3⟩
    case connBad =>
      refine ⟨by simp, ?_, by simpa [lastUp, ups] using i3⟩
      intro r' hr'; simp only [List.mem_append, List.mem_singleton, reduceCtorEq, or_false] at hr'
      obtain ⟨d', h1, h2⟩ := i2 r' hr'
      exact ⟨d', by simp only [connAnswers, List.filterMap_append, List.mem_append] at *; exact Or.inl h1, h2⟩
    all_goals exact ⟨by simp, by simpa [connAnswers] using i2, by simpa [lastUp, ups] using i3⟩
  | @env s s' tr o hx he ih =>
    obtain ⟨i1, i2, i3⟩ := ih
    have key : ∀ o, connAnswers o = [] → (∀ r, Obs.up r ∉ o) → ups o = [] →
        (∀ r, s.pc = .enable r ∨ s.pc = .store r → ∃ d, (connAnswers (tr ++ o)).getLast? = some d ∧ Grants d r) ∧
        (∀ r, .up r ∈ tr ++ o → ∃ d, d ∈ connAnswers (tr ++ o) ∧ Grants d r) ∧ lastUp (tr ++ o) = lastUp tr := by
      intro o h1 h2 h3
      have e : connAnswers (tr ++ o) = connAnswers tr := by
        unfold connAnswers at *; rw [List.filterMap_append, h1, List.append_nil]
      rw [e]
      refine ⟨i1, ?_, by simp [lastUp, h3]⟩
      intro r hr
      rw [List.mem_append] at hr
      exact i2 r (hr.resolve_right (h2 r))
    have qca : ∀ o, (∀ x ∈ o, quiet x = true) → connAnswers o = [] := by
      intro o hq
      unfold connAnswers
      rw [List.filterMap_eq_nil_iff]
      intro x hx
      cases x <;> first | rfl | exact absurd (hq _ hx) (by simp [quiet])
    cases he
    case quiet hq =>
      obtain ⟨k1, k2, k3⟩ := key o (qca _ hq) (quiet_spec hq).2.2.2.2.2.2.2.2.2.2.2.2.2.2.2.2.2.1 (quiet_spec hq).2.2.2.2.1
      exact ⟨k1, k2, by rw [k3]; exact i3⟩
    case draw c hl hc =>
      obtain ⟨k1, k2, k3⟩ := key [.drew c.seq] rfl (by simp) rfl
      refine ⟨k1, k2, ?_⟩
      rw [k3]
      rintro c' hc'
      simp only [Option.some.injEq] at hc'
      subst hc'
      exact i3 c hc
    case take i c rest o hqu hq =>
      obtain ⟨k1, k2, k3⟩ := key (.taken i c :: o) (by have := qca _ hq; simpa [connAnswers] using this)
        (by have := (quiet_spec hq).2.2.2.2.2.2.2.2.2.2.2.2.2.2.2.2.2.1; simpa using this)
        (by have := (quiet_spec hq).2.2.2.2.1; simpa [ups] using this)
      exact ⟨k1, k2, by rw [k3]; exact i3⟩
    case drop =>
      obtain ⟨k1, k2, k3⟩ := key [.dropped] rfl (by simp) rfl
      exact ⟨k1, k2, by rw [k3]; exact i3⟩
    case subs hq =>
      obtain ⟨k1, k2, k3⟩ := key o (qca _ hq) (quiet_spec hq).2.2.2.2.2.2.2.2.2.2.2.2.2.2.2.2.2.1 (quiet_spec hq).2.2.2.2.1
      exact ⟨k1, k2, by rw [k3]; exact i3⟩
    case chans =>
      obtain ⟨k1, k2, k3⟩ := key [] rfl (by simp) rfl
      exact ⟨k1, k2, by rw [k3]; exact i3⟩
    case delay =>
      obtain ⟨k1, k2, k3⟩ := key [] rfl (by simp) rfl
      exact ⟨k1, k2, by rw [k3]; exact i3⟩

end Knx
