import Verif.Spec.Slots
import Verif.Props.Programs
import Verif.Props.Session
import Verif.Props.Endpoint

/-!
# Property of the connections a server keeps for a client (C94)
-/

namespace Knx
open Spec

theorem arrived_append (a b : List Obs) : arrived (a ++ b) = arrived a ++ arrived b := by simp [arrived]

theorem slots_append (a b : List Obs) : slots (a ++ b) = b.foldl slotStep (slots a) := by simp [slots]

/-- Number of disconnect requests sent. -/
def byes (tr : List Obs) : Nat := (sent tr).countP fun p => (ends p).isSome

theorem byes_append (a b : List Obs) : byes (a ++ b) = byes a + byes b := by simp [byes, sent]

theorem erase_length (l : List U8) (c : Option U8) :
    l.length ≤ (without l c).length + (if c.isSome then 1 else 0) := by
  cases c with
  | none => simp [without]
  | some ch =>
    simp only [Option.isSome_some, if_true, without]
    rw [List.length_erase]
    split <;> omega

theorem slots_ge (tr : List Obs) : ((arrived tr).filterMap opens).length ≤ (slots tr).length + byes tr + hangups tr := by
  induction tr using List.reverseRecOn with
  | nil => simp [arrived, slots]
  | append_singleton tr x ih =>
    have key : ∀ d, arrived [x] = [d] → slotStep (slots tr) x = without (slots tr) (ends d) ++ (opens d).toList →
        ((arrived (tr ++ [x])).filterMap opens).length ≤ (slots (tr ++ [x])).length + byes (tr ++ [x]) + hangups (tr ++ [x]) := by
      intro d h1 h2
      rw [slots_append, byes_append]
      unfold hangups at ih ⊢
      rw [arrived_append, h1, List.filterMap_append, List.countP_append]
      simp only [List.foldl_cons, List.foldl_nil, h2, List.length_append]
      have := erase_length (slots tr) (ends d)
      have e : ([d].filterMap opens).length = (opens d).toList.length := by cases h : opens d <;> simp [h]
      rw [e, List.countP_singleton]
      omega
    have same : arrived [x] = [] → slotStep (slots tr) x = slots tr →
        ((arrived (tr ++ [x])).filterMap opens).length ≤ (slots (tr ++ [x])).length + byes (tr ++ [x]) + hangups (tr ++ [x]) := by
      intro h1 h2
      rw [slots_append, byes_append]
      unfold hangups at ih ⊢
      rw [arrived_append, h1, List.append_nil]
      simp only [List.foldl_cons, List.foldl_nil, h2]
      omega
    cases x <;> first | exact key _ rfl rfl | exact same rfl rfl | skip
    rename_i w p
    have h1 : arrived [Obs.tx w p] = [] := rfl
    rw [slots_append, byes_append]
    unfold hangups at ih ⊢
    rw [arrived_append, h1, List.append_nil]
    have := erase_length (slots tr) (ends p)
    have e : byes [Obs.tx w p] = if (ends p).isSome then 1 else 0 := by simp [byes, sent, List.countP_singleton]
    rw [e]
    simp only [List.foldl_cons, List.foldl_nil, slotStep]
    omega

theorem opens_grants {d : Bytes} {r : ConnectionResponse} (h : Grants d r) : opens d = some r.channel := by
  obtain ⟨h0, len, rest, _, _, _, h1⟩ := h
  unfold opens
  rw [h1]
  simp [connectResponse, header, word, CONNECT_RESPONSE, byte, h0]

/-- A connect response has just been accepted. -/
def pending : Pc → Nat
  | .enable _ => 1
  | .store _ => 1
  | _ => 0

theorem downs_append (a b : List Obs) : downs (a ++ b) = downs a + downs b := by simp [downs]

theorem BgTr.ends {k : Kind} {m : Mode} {s s' : Bg} {o : List Obs} (ht : BgTr k m s s' o) (hc : ∀ p, s.pc ≠ .discResp p) :
    ∀ p ∈ taskSent o, Spec.ends p = none := by
  have ack : ∀ ch sq, Spec.ends (TunnelingAck.mk ch sq 0).packet = none := by
    intro ch sq; rw [ack_packet]; simp [Spec.ends, frame, word, TUNNELING_ACK, byte]
  have beat : ∀ ch ep, Spec.ends (ConnectionstateRequest.mk ch ep).packet = none := by
    intro ch ep; rw [C19_bodies.1]; simp [Spec.ends, frame, word, CONNECTIONSTATE_REQUEST, byte]
  have en : ∀ ch, Spec.ends (enablePacket ch) = none := by
    intro ch; rw [enablePacket, C19_bodies.2.2.2.2.1]; simp [Spec.ends, frame, word, TUNNELING_FEATURE_SET, byte]
  have one : ∀ p, Spec.ends p = none → ∀ q ∈ [p], Spec.ends q = none := by
    intro p hp q hq; rw [List.mem_singleton] at hq; rw [hq]; exact hp
  cases ht
  case discOk p hpc => exact absurd hpc (hc p)
  case discFail p hpc => exact absurd hpc (hc p)
  all_goals first
    | exact fun p hp => absurd hp (List.not_mem_nil)
    | exact one _ (ack _ _)
    | exact one _ (beat _ _)
    | exact one _ (en _)
    | exact one _ (by decide)

theorem BgTr.counts {k : Kind} {m : Mode} {s s' : Bg} {o : List Obs} (ht : BgTr k m s s' o) (hc : s.conn.isSome = pcUp s.pc) :
    (ups o).length + (if s.conn.isSome then 1 else 0) = downs o + (if s'.conn.isSome then 1 else 0) := by
  cases ht
  case storeClient r hpc _ => rw [hpc] at hc; simp [hc, pcUp, ups, downs, isDown]
  case storeMonitor r hpc _ => rw [hpc] at hc; simp [hc, pcUp, ups, downs, isDown]
  case teardown hpc => rw [hpc] at hc; simp [hc, pcUp, ups, downs, isDown]
  all_goals (simp only [ups, downs, List.filterMap_cons, List.filterMap_nil, List.countP_cons, List.countP_nil, isDown]; simp_all)

theorem BgTr.pending {k : Kind} {m : Mode} {s s' : Bg} {o : List Obs} (ht : BgTr k m s s' o) :
    (ups o).length + Knx.pending s'.pc ≤ Knx.pending s.pc + ((connAnswers o).filterMap opens).length := by
  cases ht
  case connOkClient dl d r hpc hr hk =>
    rw [tryConnect_iff] at hr
    simp [ups, connAnswers, Knx.pending, opens_grants hr]
  case connOkMonitor dl d r hpc hr hk =>
    rw [tryConnect_iff] at hr
    simp [ups, connAnswers, Knx.pending, opens_grants hr]
  all_goals first
    | (simp [ups, connAnswers, Knx.pending]; done)
    | (simp [ups, connAnswers, Knx.pending, *]; done)

theorem GExec.counts {k : Kind} {m : Mode} {s : Bg} {tr : List Obs} (h : GExec k m s tr) :
    (ups tr).length = Spec.downs tr + (if s.conn.isSome then 1 else 0) ∧
    (ups tr).length + pending s.pc ≤ ((connAnswers tr).filterMap opens).length ∧
    ∀ p ∈ taskSent tr, ends p = none := by
  induction h with
  | init => simp [Bg.init, ups, Spec.downs, pending, taskSent]
  | @task s s' tr o hx ht ih =>
    obtain ⟨i1, i2, i3⟩ := ih
    have hc := hx.conn_iff
    have h1 := ht.counts hc.1
    have h2 := ht.pending
    have h3 := ht.ends hc.2
    rw [ups_append', downs_append, connAnswers_append, taskSent_append, List.filterMap_append, List.length_append, List.length_append]
    refine ⟨by omega, by omega, ?_⟩
    intro p hp
    rcases List.mem_append.1 hp with hp | hp
    · exact i3 p hp
    · exact h3 p hp
  | @env s s' tr o hx he ih =>
    have f := he.facts
    have hc : s'.conn.isSome = s.conn.isSome := by
      have := congrArg Option.isSome f.conn
      simpa using this
    have hd : Spec.downs o = 0 := by
      unfold Spec.downs
      rw [List.countP_eq_zero]
      intro x hx
      cases x <;> simp [isDown]
      exact f.noDown hx
    rw [ups_append', downs_append, connAnswers_append, taskSent_append, f.ups, f.answers, f.taskSent, hd, f.pc, hc]
    simpa using ih

theorem sent_count (f : Bytes → Bool) (tr : List Obs) : (sent tr).countP f = (taskSent tr).countP f + (apiSent tr).countP f := by
  induction tr with
  | nil => rfl
  | cons x tr ih =>
    rw [← List.singleton_append, sent_append, taskSent_append, apiSent_append]
    simp only [List.countP_append, ih]
    cases x
    case tx w p => cases w <;> simp [sent, taskSent, apiSent] <;> omega
    all_goals simp [sent, taskSent, apiSent]

theorem own_ends {c : Call} {p : Bytes} (h : OwnRequest c p) (he : (ends p).isSome = true) : c = .disconnect := by
  have req : ∀ {ch n cemi}, RequestPacket ch n cemi p → False := by
    rintro ch n cemi ⟨len, rfl⟩
    simp [ends, header, word, TUNNELING_REQUEST, byte] at he
  cases c
  case read addr => obtain ⟨_, _, h⟩ := h; exact (req h).elim
  case solicit addr => obtain ⟨_, _, h⟩ := h; exact (req h).elim
  case write addr v small =>
    cases small
    · obtain ⟨_, _, h⟩ := h; exact (req h).elim
    · obtain ⟨_, _, _, h⟩ := h; exact (req h).elim
  case status =>
    obtain ⟨ch, ep, rfl⟩ := h
    simp [ends, frame, word, CONNECTIONSTATE_REQUEST, byte] at he
  case disconnect => rfl
  all_goals exact h.elim

theorem sentBy_ends (xs : List (Call × List Bytes)) (h : ∀ x ∈ xs, x.2 = [] ∨ ∃ p, x.2 = [p] ∧ OwnRequest x.1 p) :
    (xs.flatMap (·.2)).countP (fun p => (ends p).isSome) ≤ (xs.map (·.1)).countP (· == .disconnect) := by
  induction xs with
  | nil => simp
  | cons x xs ih =>
    have := ih fun y hy => h y (List.mem_cons_of_mem _ hy)
    rw [List.flatMap_cons, List.map_cons, List.countP_append, List.countP_cons]
    rcases h x List.mem_cons_self with h1 | ⟨p, h1, h2⟩
    · rw [h1, List.countP_nil]; omega
    · rw [h1, List.countP_singleton]
      split
      · rename_i he
        rw [own_ends h2 he, if_pos (by rfl)]
        omega
      · omega

/-- Disconnect requests are sent by calls of `disconnect` only, and one at most by each. -/
theorem byes_le {m : Mode} {k : Kind} {s : Bg} {tr : List Obs} (h : Reaches m k s tr) : byes tr ≤ goodbyes tr := by
  have key : (sentBy tr).map (·.1) = calls tr ∧ (sentBy tr).flatMap (·.2) = apiSent tr ∧
      ∀ x ∈ sentBy tr, x.2 = [] ∨ ∃ p, x.2 = [p] ∧ OwnRequest x.1 p := by
    cases h with
    | client h => exact C86_per_call h
    | monitor h => exact C86_monitor h
  have h1 := sentBy_ends _ key.2.2
  rw [key.1, key.2.1] at h1
  have h2 : (taskSent tr).countP (fun p => (ends p).isSome) = 0 := by
    rw [List.countP_eq_zero]
    intro p hp
    rw [h.gexec.counts.2.2 p hp]; simp
  rw [byes, sent_count, h2, Nat.zero_add]
  exact h1

theorem answers_arrived (tr : List Obs) : (connAnswers tr).Sublist (arrived tr) := by
  induction tr with
  | nil => exact .slnil
  | cons x tr ih =>
    cases x <;> first
      | exact ih
      | exact List.Sublist.cons_cons _ ih
      | exact List.Sublist.cons _ ih

/-- What becomes of the connections: besides the one in use, the server is left with at least as many as were given up, less one for each
call of `disconnect` and for each disconnect request of the server itself. -/
theorem C94_left_partial {m : Mode} {k : Kind} {s : Bg} {tr : List Obs} (h : Reaches m k s tr) :
    downs tr + (if upNow tr then 1 else 0) ≤ (slots tr).length + goodbyes tr + hangups tr := by
  have h1 := byes_le h
  have h2 := slots_ge tr
  have h3 := h.gexec.counts
  have h4 := ((answers_arrived tr).filterMap opens).length_le
  rw [h.gexec.upNow] at h3
  omega

theorem ends_grants {d : Bytes} {r : ConnectionResponse} (h : Grants d r) : ends d = none := by
  unfold ends
  rw [if_neg]
  intro h'
  obtain ⟨h0, len, rest, _, _, _, h1⟩ := h
  have h2 := congrArg (List.take 4) h1
  have h3 : 4 ≤ d.length := by
    have := congrArg List.length h'
    simp at this; omega
  have h4 : (seen d).take 4 = d.take 4 := by
    unfold seen padded
    rw [List.take_take]
    exact List.take_append_of_le_length h3
  rw [h4, h'] at h2
  simp [connectResponse, header, word, CONNECT_RESPONSE, byte] at h2

/-- What is observed of a connection granted and given up at once because of an undecodable datagram. -/
def brief (k : Kind) (g : Bytes × ConnectionResponse) : List Obs := linkTrace k g.1 g.2 ++ [.rx [1], .down]

theorem brief_run (m : Mode) (k : Kind) {g : Bytes × ConnectionResponse} (h : Grants g.1 g.2) :
    ∃ evs, bgRun k m Bg.init evs = some (Bg.init, brief k g) := by
  obtain ⟨evs, he⟩ := linkUp_run m k h
  exact ⟨evs ++ [.dgram [1], .run], bgRun_append he ▸ rfl⟩

theorem brief_slots (k : Kind) {g : Bytes × ConnectionResponse} (h : Grants g.1 g.2) (l : List U8) :
    (brief k g).foldl slotStep l = l ++ [g.2.channel] := by
  have h1 := opens_grants h
  have h2 := ends_grants h
  have h3 : ends connReqPacket = none := by decide
  have h4 : ends [1#8] = none := by decide
  have h5 : opens [1#8] = none := by decide
  have h6 : ends (enablePacket g.2.channel) = none := by
    rw [enablePacket, C19_bodies.2.2.2.2.1]; simp [ends, frame, word, TUNNELING_FEATURE_SET, byte]
  cases k <;> simp [brief, linkTrace, slotStep, h1, h2, h3, h4, h5, h6, without]

/-- C94 is refuted: for any list of connections a server grants, as long as you please, there is an execution in which all of them are given up one
after the other, without any time passing (so that none of them has expired), no disconnect request is ever sent, and all of them are
still open at the server: a server that allows so many connections grants no further one. -/
theorem C94_violated (m : Mode) (k : Kind) (gs : List (Bytes × ConnectionResponse)) (hg : ∀ g ∈ gs, Grants g.1 g.2) :
    ∃ s tr, Reaches m k s tr ∧ s.now = 0 ∧ ups tr = gs.map (·.2) ∧ upNow tr = false ∧ slots tr = gs.map (·.2.channel) ∧
      (∀ p ∈ sent tr, serviceIs DISCONNECT_REQUEST p = false) := by
  suffices Reaches m k Bg.init (gs.flatMap (brief k)) ∧ slots (gs.flatMap (brief k)) = gs.map (·.2.channel) ∧
      ups (gs.flatMap (brief k)) = gs.map (·.2) ∧ (∀ p ∈ sent (gs.flatMap (brief k)), serviceIs DISCONNECT_REQUEST p = false) by
    exact ⟨_, _, this.1, rfl, this.2.2.1, this.1.gexec.upNow ▸ rfl, this.2.1, this.2.2.2⟩
  induction gs using List.reverseRecOn with
  | nil => exact ⟨reaches_init m k, rfl, rfl, by simp [sent]⟩
  | append_singleton gs g ih =>
    obtain ⟨i1, i2, i3, i4⟩ := ih fun x hx => hg x (List.mem_append_left _ hx)
    have h1 := hg g (by simp)
    obtain ⟨evs, he⟩ := brief_run m k h1
    rw [List.flatMap_append, List.flatMap_singleton]
    refine ⟨i1.append he, ?_, ?_, ?_⟩
    · rw [slots_append, i2, brief_slots k h1]; simp
    · rw [ups_append', i3]
      cases k <;> simp [brief, linkTrace, ups]
    · intro p hp
      rw [sent_append, List.mem_append] at hp
      rcases hp with hp | hp
      · exact i4 p hp
      · have h3 : serviceIs DISCONNECT_REQUEST connReqPacket = false := by decide
        have h6 : serviceIs DISCONNECT_REQUEST (enablePacket g.2.channel) = false := by
          rw [enablePacket, C19_bodies.2.2.2.2.1, serviceIs_frame]; decide
        cases k <;> simp [brief, linkTrace, sent] at hp
        · rw [hp]; exact h3
        · rcases hp with rfl | rfl
          · exact h3
          · exact h6

/-- A client with two connections given up and a third one in use; the server keeps all three. -/
example (m : Mode) : ∃ s tr, Exec m s tr ∧ downs tr = 2 ∧ upNow tr = true ∧ slots tr = [7, 9, 7] ∧ goodbyes tr = 0 ∧ hangups tr = 0 := by
  obtain ⟨s, tr, h1, h2⟩ := exec_of_evs (m := m) (evs := [.bg .run, .bg .sendOk, .bg (.dgram grant7), .bg .run, .bg (.dgram [1]), .bg .run,
      .bg .run, .bg .sendOk, .bg (.dgram grant9), .bg .run, .bg .recvErr, .bg .run, .bg .run, .bg .sendOk, .bg (.dgram grant7), .bg .run])
    (f := fun x => ((downs x.2, upNow x.2), (slots x.2, goodbyes x.2), hangups x.2)) (y := ((2, true), ([7, 9, 7], 0), 0))
    (by cases m <;> decide +kernel)
  simp only [Prod.mk.injEq] at h2
  exact ⟨s, tr, h1, h2.1.1, h2.1.2, h2.2.1.1, h2.2.1.2, h2.2.2⟩

/-- A call of `disconnect` releases its connection; so does a disconnect request of the server, which the client takes for a fault. -/
example (m : Mode) : ∃ s tr, Exec m s tr ∧ downs tr = 1 ∧ slots tr = [] ∧ goodbyes tr = 1 ∧ hangups tr = 1 := by
  obtain ⟨s, tr, h1, h2⟩ := exec_of_evs (m := m) (evs := [.bg .run, .bg .sendOk, .bg (.dgram grant7), .bg .run,
      .bg (.dgram [6, 0x10, 2, 9, 0, 16, 7, 0, 8, 1, 192, 168, 1, 2, 0x0e, 0x57]), .bg .run,
      .bg .run, .bg .sendOk, .bg (.dgram grant7), .bg .run, .api (.call .disconnect), .api .run, .api .run, .api .run, .api .sendOk])
    (f := fun x => (downs x.2, (slots x.2, goodbyes x.2), hangups x.2)) (y := (1, ([], 1), 1))
    (by cases m <;> decide +kernel)
  simp only [Prod.mk.injEq] at h2
  exact ⟨s, tr, h1, h2.1, h2.2.1.1, h2.2.1.2, h2.2.2⟩

end Knx
