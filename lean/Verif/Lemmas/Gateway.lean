import Verif.Lemmas.Brackets
import Verif.Lemmas.Pairing
import Verif.Lemmas.MonitorInv
import Verif.Spec.Gateway

/-!
# Lemmas: the requests of a connection and the server
-/

namespace Knx
open Spec

theorem requestOf_packet {ch n : U8} {cemi p : Bytes} (h : RequestPacket ch n cemi p) :
    requestOf p = some (ch, n, cemi) ∧ p.drop 10 = cemi := by
  obtain ⟨len, rfl⟩ := h
  constructor
  · simp [requestOf, header, word, TUNNELING_REQUEST, byte]
  · simp [header, word]

theorem gateStep_expected {ch n : U8} {cemi p : Bytes} (h : RequestPacket ch n cemi p) : gateStep ch n p = (passed p, n + 1) := by
  simp [gateStep, (requestOf_packet h).1, passed, (requestOf_packet h).2]

theorem gateStep_repeated {ch e n : U8} {cemi p : Bytes} (h : RequestPacket ch n cemi p) (hn : n + 1 = e) :
    gateStep ch e p = (.repeated, e) := by
  subst hn
  have h1 : n ≠ n + 1 := by bv_omega
  have h2 : n = n + 1 - 1 := by bv_omega
  simp only [gateStep, (requestOf_packet h).1, ne_eq, not_true_eq_false, if_false, if_neg h1, if_pos h2]

theorem gateStep_discarded {ch e n : U8} {cemi p : Bytes} (h : RequestPacket ch n cemi p) (h1 : n ≠ e) (h2 : n + 1 ≠ e) :
    gateStep ch e p = (.discarded, e) := by
  have h3 : n ≠ e - 1 := by bv_omega
  simp only [gateStep, (requestOf_packet h).1, ne_eq, not_true_eq_false, if_false, if_neg h1, if_neg h3]

theorem count_add (a : U8) (i j : Nat) : count a (i + j) = count a i ++ count (a + BitVec.ofNat 8 i) j := by
  induction i generalizing a with
  | zero => simp [count]
  | succ i ih =>
    rw [Nat.succ_add, count, ih, count, List.cons_append]
    congr 3
    apply BitVec.eq_of_toNat_eq; simp; omega

theorem count_length (a : U8) (n : Nat) : (count a n).length = n := by
  induction n generalizing a with
  | zero => rfl
  | succ n ih => simp [count, ih]

theorem count_eq (a : U8) (n : Nat) : count a n = (List.range n).map fun i => a + BitVec.ofNat 8 i := by
  induction n with
  | zero => rfl
  | succ n ih => rw [count_add, ih, List.range_succ, List.map_append]; rfl

theorem gate_append (ch e : U8) (a b : List Bytes) :
    gate ch e (a ++ b) = gate ch e a ++ gate ch (a.foldl (fun e p => (gateStep ch e p).2) e) b := by
  induction a generalizing e with
  | nil => rfl
  | cons p a ih => simp [gate, ih]

/-- Requests with the numbers the server expects are forwarded. -/
theorem gate_count {ch e : U8} {ps : List Bytes} {n : Nat} (h : Numbers ch ps (count e n)) :
    gate ch e ps = ps.map passed ∧ ps.foldl (fun e p => (gateStep ch e p).2) e = e + BitVec.ofNat 8 n := by
  induction n generalizing e ps with
  | zero => cases h; simp [gate]
  | succ n ih =>
    cases h with
    | @cons p _ ps _ h1 h2 =>
      obtain ⟨cemi, h1⟩ := h1
      obtain ⟨g1, g2⟩ := ih h2
      simp only [gate, gateStep_expected h1, g1, List.map_cons, List.foldl_cons, g2, true_and]
      apply BitVec.eq_of_toNat_eq; simp; omega

/-- Requests with other numbers are discarded. -/
theorem gate_discards {ch e : U8} {ps : List Bytes} {ns : List U8} (h : Numbers ch ps ns) (h1 : ∀ n ∈ ns, n ≠ e ∧ n + 1 ≠ e) :
    gate ch e ps = ps.map (fun _ => Verdict.discarded) ∧ ps.foldl (fun e p => (gateStep ch e p).2) e = e := by
  induction h with
  | nil => simp [gate]
  | @cons p n ps ns hp _ ih =>
    obtain ⟨cemi, hp⟩ := hp
    obtain ⟨g1, g2⟩ := ih fun n hn => h1 n (List.mem_cons_of_mem _ hn)
    simp [gate, gateStep_discarded hp (h1 n (List.mem_cons_self ..)).1 (h1 n (List.mem_cons_self ..)).2, g1, g2]

theorem mem_count {a x : U8} {n : Nat} : x ∈ count a n ↔ ∃ i, i < n ∧ x = a + BitVec.ofNat 8 i := by
  rw [count_eq, List.mem_map]
  simp only [List.mem_range]
  exact ⟨fun ⟨i, h1, h2⟩ => ⟨i, h1, h2.symm⟩, fun ⟨i, h1, h2⟩ => ⟨i, h1, h2.symm⟩⟩

/-- The server expects `e` and gets `e + 1`, `e + 2`, …: it discards 254 requests, takes the next for a repetition and forwards the rest. -/
theorem gate_behind {ch e : U8} {ps : List Bytes} {n : Nat} (h : Numbers ch ps (count (e + 1) n)) :
    gate ch e ps = (ps.take 254).map (fun _ => Verdict.discarded) ++ ((ps.drop 254).take 1).map (fun _ => Verdict.repeated) ++
      (ps.drop 255).map passed := by
  have hlen : ps.length = n := by rw [h.length_eq, count_length]
  have hd : ∀ k ≤ 254, ∀ x ∈ count (e + 1) k, x ≠ e ∧ x + 1 ≠ e := by
    intro k hk x hx
    obtain ⟨i, hi, rfl⟩ := mem_count.1 hx
    constructor
    · intro he
      have := congrArg BitVec.toNat he
      simp at this; omega
    · intro he
      have := congrArg BitVec.toNat he
      simp at this; omega
  by_cases hn : n ≤ 254
  · rw [(gate_discards h (hd n hn)).1, List.take_of_length_le (by omega), List.drop_of_length_le (by omega : ps.length ≤ 254),
      List.drop_of_length_le (by omega : ps.length ≤ 255)]
    simp
  · obtain ⟨k, rfl⟩ : ∃ k, n = 254 + (1 + k) := ⟨n - 255, by omega⟩
    rw [count_add, count_add] at h
    have h1 := List.forall₂_take_append ps _ _ h
    have h2 := List.forall₂_drop_append ps _ _ h
    rw [count_length] at h1 h2
    cases hq : ps.drop 254 with
    | nil => rw [hq] at h2; cases h2
    | cons q qs =>
      rw [hq] at h2
      have hqs : ps.drop 255 = qs := by
        rw [show (255 : Nat) = 254 + 1 from rfl, ← List.drop_drop, hq]; rfl
      cases h2 with
      | cons g1 g2 =>
        obtain ⟨cemi, g1⟩ := g1
        have e1 : e + 1 + BitVec.ofNat 8 254 + 1 = e := by bv_omega
        have e2 : e + 1 + BitVec.ofNat 8 254 + BitVec.ofNat 8 1 = e := by bv_omega
        have g2 : Numbers ch qs (count e k) := by
          rw [← e2]
          exact g2
        obtain ⟨f1, f2⟩ := gate_discards h1 (hd 254 (le_refl _))
        have key : gate ch e (ps.take 254 ++ q :: qs) = (ps.take 254).map (fun _ => Verdict.discarded) ++ [Verdict.repeated] ++ qs.map passed := by
          rw [gate_append, f1, f2, gate, gateStep_repeated g1 e1, (gate_count g2).1]
          simp
        rw [← hq, List.take_append_drop] at key
        rw [key, hqs]
        rfl

/-- The requests sent within `U` on channel `ch` carry some of the numbers drawn there, in order; `fresh` is the number drawn for the
request in preparation. While `ok` they are the first ones, and all of them unless the connection is gone. -/
def Held (ok : Prop) (ch : U8) (conn : Option Conn) (fresh : Option U8) (U : List Obs) : Prop :=
  ∃ ns ds, Numbers ch (requestsSent U) ns ∧ drawn U = ds ++ fresh.toList ∧ ns.Sublist ds ∧
    (ok → ns <+: ds ∧ (fresh ≠ none → ns = ds) ∧ (conn ≠ none → ns = ds))

theorem requestsSent_append (a b : List Obs) : requestsSent (a ++ b) = requestsSent a ++ requestsSent b := by
  simp [requestsSent, apiSent_append]

theorem Held.nil (ok : Prop) (ch : U8) (conn : Option Conn) : Held ok ch conn none [] :=
  ⟨[], [], .nil, rfl, .slnil, fun _ => ⟨List.prefix_rfl, fun _ => rfl, fun _ => rfl⟩⟩

theorem Held.mono {ok ok' : Prop} {ch : U8} {conn conn' : Option Conn} {f : Option U8} {U o : List Obs} (h : Held ok ch conn f U)
    (h1 : drawn o = []) (h2 : requestsSent o = []) (h3 : ok' → ok) (h4 : conn' ≠ none → conn ≠ none) : Held ok' ch conn' f (U ++ o) := by
  obtain ⟨ns, ds, g1, g2, g3, g4⟩ := h
  refine ⟨ns, ds, ?_, ?_, g3, fun ho => ⟨(g4 (h3 ho)).1, (g4 (h3 ho)).2.1, fun hc => (g4 (h3 ho)).2.2 (h4 hc)⟩⟩
  · rw [requestsSent_append, h2, List.append_nil]; exact g1
  · rw [drawn_append, h1, List.append_nil]; exact g2

theorem Held.waste {ok ok' : Prop} {ch : U8} {conn conn' : Option Conn} {f : Option U8} {U o : List Obs} (h : Held ok ch conn f U)
    (h1 : drawn o = []) (h2 : requestsSent o = []) (h3 : ok' → ok ∧ conn' = none) : Held ok' ch conn' none (U ++ o) := by
  obtain ⟨ns, ds, g1, g2, g3, g4⟩ := h
  refine ⟨ns, ds ++ f.toList, ?_, ?_, g3.trans (List.sublist_append_left _ _), fun ho => ⟨?_, fun hf => absurd rfl hf, fun hc => absurd (h3 ho).2 hc⟩⟩
  · rw [requestsSent_append, h2, List.append_nil]; exact g1
  · rw [drawn_append, h1, g2]; simp
  · exact (g4 (h3 ho).1).1.trans (List.prefix_append _ _)

theorem Held.draw {ok ok' : Prop} {ch : U8} {conn conn' : Option Conn} {U : List Obs} (h : Held ok ch conn none U) (n : U8)
    (h3 : ok' → ok) (h4 : conn ≠ none) : Held ok' ch conn' (some n) (U ++ [.drew n]) := by
  obtain ⟨ns, ds, g1, g2, g3, g4⟩ := h
  refine ⟨ns, ds, ?_, ?_, g3, fun ho => ⟨(g4 (h3 ho)).1, fun _ => (g4 (h3 ho)).2.2 h4, fun _ => (g4 (h3 ho)).2.2 h4⟩⟩
  · rw [requestsSent_append]; simpa [requestsSent, apiSent] using g1
  · rw [drawn_append, g2]; simp [drawn]

theorem Held.send {ok ok' : Prop} {ch n : U8} {conn conn' : Option Conn} {U o : List Obs} {cemi p : Bytes} (h : Held ok ch conn (some n) U)
    (hp : RequestPacket ch n cemi p) (h1 : drawn o = []) (h2 : requestsSent o = [p]) (h3 : ok' → ok) : Held ok' ch conn' none (U ++ o) := by
  obtain ⟨ns, ds, g1, g2, g3, g4⟩ := h
  refine ⟨ns ++ [n], ds ++ [n], ?_, ?_, g3.append (List.Sublist.refl _), fun ho => ?_⟩
  · rw [requestsSent_append, h2]
    exact Forall₂.snoc g1 ⟨cemi, hp⟩
  · rw [drawn_append, h1, g2]; simp
  · rw [(g4 (h3 ho)).2.1 (by simp)]
    exact ⟨List.prefix_rfl, fun _ => rfl, fun _ => rfl⟩

/-- How far a call is with its request. -/
inductive Stage where
  | none
  | drawn (n : U8)
  | built (p : Bytes)

def Api.stage : Api → Stage
  | .chanId _ n _ => .drawn n
  | .sendReq _ p => .built p
  | _ => .none

def MApi.stage : MApi → Stage
  | .chanId n _ => .drawn n
  | .sendReq p => .built p
  | _ => .none

/-- The requests of the current connection, given how far the call in progress is. -/
def Kept (st : Stage) (conn : Option Conn) (tr : List Obs) : Prop :=
  ∀ r, lastUp tr = some r → Spec.bracket (upto isUp tr) = some false →
    match st with
    | .none => Held (Undisturbed (since isUp tr)) r.channel conn none (since isUp tr)
    | .drawn n => Held (Undisturbed (since isUp tr)) r.channel conn (some n) (since isUp tr)
    | .built p => ∃ n cemi, RequestPacket r.channel n cemi p ∧ Held (Undisturbed (since isUp tr)) r.channel conn (some n) (since isUp tr)

theorem Undisturbed.left {a b : List Obs} (h : Undisturbed (a ++ b)) : Undisturbed a :=
  ⟨fun p hp => h.1 p (List.mem_append_left _ hp), fun hp => h.2.1 (List.mem_append_left _ hp), fun hp => h.2.2 (List.mem_append_left _ hp)⟩

theorem lastUp_same (tr o : List Obs) (h : o.any isUp = false) : lastUp (tr ++ o) = lastUp tr := by
  rw [lastUp, ups_append]
  have : ups o = [] := by
    rw [ups, List.filterMap_eq_nil_iff]
    intro x hx
    rw [List.any_eq_false] at h
    have := h x hx
    cases x <;> simp_all [isUp]
  rw [this, List.append_nil]; rfl

theorem Kept.mono {st : Stage} {conn conn' : Option Conn} {tr o : List Obs} (h : Kept st conn tr) (h0 : o.any isUp = false)
    (h1 : drawn o = []) (h2 : requestsSent o = []) (h4 : conn' ≠ none → conn ≠ none) : Kept st conn' (tr ++ o) := by
  intro r hr hb
  rw [lastUp_same _ _ h0] at hr
  rw [upto_append _ _ _ h0] at hb
  rw [since_task _ h0]
  have := h r hr hb
  cases st with
  | none => exact this.mono h1 h2 Undisturbed.left h4
  | drawn n => exact this.mono h1 h2 Undisturbed.left h4
  | built p =>
    obtain ⟨n, cemi, g1, g2⟩ := this
    exact ⟨n, cemi, g1, g2.mono h1 h2 Undisturbed.left h4⟩

/-- The call ends without having sent a request. -/
theorem Kept.waste {st : Stage} {conn conn' : Option Conn} {tr o : List Obs} (h : Kept st conn tr) (h0 : o.any isUp = false)
    (h1 : drawn o = []) (h2 : requestsSent o = []) (h3 : Undisturbed o → conn' = none) : Kept .none conn' (tr ++ o) := by
  intro r hr hb
  rw [lastUp_same _ _ h0] at hr
  rw [upto_append _ _ _ h0] at hb
  rw [since_task _ h0]
  have hu : ∀ {a : List Obs}, Undisturbed (a ++ o) → Undisturbed a ∧ conn' = none := fun hx =>
    ⟨Undisturbed.left hx, h3 ⟨fun p hp => hx.1 p (List.mem_append_right _ hp), fun hp => hx.2.1 (List.mem_append_right _ hp), fun hp => hx.2.2 (List.mem_append_right _ hp)⟩⟩
  have := h r hr hb
  cases st with
  | none => exact this.waste h1 h2 hu
  | drawn n => exact this.waste h1 h2 hu
  | built p =>
    obtain ⟨n, cemi, g1, g2⟩ := this
    exact g2.waste h1 h2 hu

theorem Kept.draw {conn conn' : Option Conn} {tr : List Obs} (h : Kept .none conn tr) (n : U8) (h4 : conn ≠ none) :
    Kept (.drawn n) conn' (tr ++ [.drew n]) := by
  intro r hr hb
  rw [lastUp_same _ _ rfl] at hr
  rw [upto_append _ _ _ rfl] at hb
  rw [since_task _ rfl]
  exact Held.draw (h r hr hb) n Undisturbed.left h4

theorem Kept.build {k : Kind} {m : Mode} {s : Bg} {tr : List Obs} {n : U8} {d : Conn} {cemi p : Bytes} (h : Kept (.drawn n) s.conn tr)
    (hx : GExec k m s tr) (hc : s.conn = some d) (hp : (TunnelingRequest.mk d.channel n cemi).packet m = .ok p) :
    Kept (.built p) s.conn (tr ++ []) := by
  intro r hr hb
  rw [List.append_nil] at hr hb ⊢
  obtain ⟨r', h1, h2, _⟩ := hx.grants.2.2 d hc
  rw [hr] at h1; cases h1
  exact ⟨n, cemi, h2 ▸ requestPacket_of hp, h r hr hb⟩

theorem Kept.send {conn conn' : Option Conn} {tr o : List Obs} {p : Bytes} (h : Kept (.built p) conn tr) (h0 : o.any isUp = false)
    (h1 : drawn o = []) (h2 : apiSent o = [p]) : Kept .none conn' (tr ++ o) := by
  intro r hr hb
  rw [lastUp_same _ _ h0] at hr
  rw [upto_append _ _ _ h0] at hb
  rw [since_task _ h0]
  obtain ⟨n, cemi, g1, g2⟩ := h r hr hb
  exact Held.send g2 g1 h1 (by rw [requestsSent, h2]; simp [serviceIs_request g1]) Undisturbed.left

theorem Kept.up {conn : Option Conn} {tr : List Obs} {r : ConnectionResponse} {st : Stage}
    (hb : Spec.bracket tr = some false → st = .none) : Kept st conn (tr ++ [.up r]) := by
  intro r' hr hb'
  rw [upto_snoc _ _ _ rfl, bracket_append] at hb'
  rw [hb (by simpa [bracketStep] using hb')]
  simp only [since_append, since_single]
  exact Held.nil ..

theorem BgTr.kept {k : Kind} {m : Mode} {s s' : Bg} {tr o : List Obs} {st : Stage} (ht : BgTr k m s s' o) (h : Kept st s.conn tr)
    (hb : Spec.bracket tr = some false → st = .none) : Kept st s'.conn (tr ++ o) := by
  have f := ht.facts
  cases ht
  case storeClient => exact Kept.up hb
  case storeMonitor => exact Kept.up hb
  all_goals
    refine h.mono rfl f.drawn (requestsSent_nil f.sent) (fun hc => ?_)
    first | exact hc | exact absurd rfl hc

theorem Exec.kept {m : Mode} {s : Sys} {tr : List Obs} (h : Exec m s tr) : Kept s.api.stage s.bg.conn tr := by
  induction h with
  | init => intro r hr; cases hr
  | @step s s' tr o e hx hs ih =>
    cases e with
    | bg e =>
      simp only [Knx.step, Option.map_eq_some_iff, Prod.exists, Prod.mk.injEq] at hs
      obtain ⟨b, o', hb, rfl, rfl⟩ := hs
      refine (bgStep_tr hb).kept ih fun hb => ?_
      rw [hx.bracket] at hb
      have : s.api = .idle := by simpa using hb
      simp only [this]; rfl
    | delay d => cases hs; exact ih.mono rfl rfl rfl id
    | api e =>
      have hci := hx.callInv
      have := apiStep_tr hs
      cases this
      case draw c cemi d h1 h2 h3 =>
        rw [h1] at ih
        exact Kept.draw ih _ (by simp [h3])
      case pick c n cemi d p h1 h2 h3 h4 =>
        rw [h1] at ih
        exact Kept.build ih hx.gexec h3 h4
      case sendRead addr p h1 =>
        rw [h1] at ih
        exact Kept.send ih rfl rfl rfl
      case sendWrite c p h1 h2 =>
        rw [h1] at ih
        exact Kept.send ih rfl rfl rfl
      case noConn h1 h2 h3 => exact ih.waste rfl rfl rfl fun _ => h3
      case pickPanic => exact ih.waste rfl rfl rfl fun hu => absurd (by simp) hu.2.1
      case sendFail p _ => exact ih.waste rfl rfl rfl fun hu => absurd (by simp) (hu.1 p)
      case cancel => exact ih.waste rfl rfl rfl fun hu => absurd (by simp) hu.2.2
      case stSend p h1 =>
        rw [h1] at hci ih
        obtain ⟨_, _, _, ch, ep, rfl⟩ := hci
        exact Kept.mono ih rfl rfl (by simp [requestsSent, apiSent, stateReq_not_request]) id
      case dcSend p h1 =>
        rw [h1] at hci ih
        obtain ⟨_, _, _, ch, ep, rfl⟩ := hci
        exact Kept.mono ih rfl rfl (by simp [requestsSent, apiSent, discReq_not_request]) id
      all_goals first
        | exact Kept.mono ih rfl rfl rfl id
        | rename s.api = _ => h1
          rw [h1] at ih
          exact Kept.mono ih rfl rfl rfl id

theorem MExec.kept {m : Mode} {s : MSys} {tr : List Obs} (h : MExec m s tr) : Kept s.api.stage s.bg.conn tr := by
  induction h with
  | init => intro r hr; cases hr
  | @step s s' tr o e hx hs ih =>
    cases e with
    | bg e =>
      simp only [Knx.mstep, Option.map_eq_some_iff, Prod.exists, Prod.mk.injEq] at hs
      obtain ⟨b, o', hb, rfl, rfl⟩ := hs
      refine (bgStep_tr hb).kept ih fun hb => ?_
      rw [hx.bracket] at hb
      have : s.api = .idle := by simpa using hb
      simp only [this]; rfl
    | delay d => cases hs; exact ih.mono rfl rfl rfl id
    | api e =>
      have hci := hx.callInv
      have := mapiStep_tr hs
      cases this
      case draw cemi d h1 h2 h3 =>
        rw [h1] at ih
        exact Kept.draw ih _ (by simp [h3])
      case pick n cemi d p h1 h2 h3 h4 =>
        rw [h1] at ih
        exact Kept.build ih hx.gexec h3 h4
      case send p h1 =>
        rw [h1] at ih
        exact Kept.send ih rfl rfl rfl
      case noConn h1 h2 h3 => exact ih.waste rfl rfl rfl fun _ => h3
      case pickPanic => exact ih.waste rfl rfl rfl fun hu => absurd (by simp) hu.2.1
      case sendFail p _ => exact ih.waste rfl rfl rfl fun hu => absurd (by simp) (hu.1 p)
      case cancel => exact ih.waste rfl rfl rfl fun hu => absurd (by simp) hu.2.2
      case dcSend p h1 =>
        rw [h1] at hci ih
        obtain ⟨_, _, _, ch, ep, rfl⟩ := hci
        exact Kept.mono ih rfl rfl (by simp [requestsSent, apiSent, discReq_not_request]) id
      all_goals first
        | exact Kept.mono ih rfl rfl rfl id
        | rename s.api = _ => h1
          rw [h1] at ih
          exact Kept.mono ih rfl rfl rfl id

end Knx
