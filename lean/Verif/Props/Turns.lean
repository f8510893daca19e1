import Verif.Spec.Turns
import Verif.Props.Slots
import Verif.Props.EndToEnd

/-!
# Property of connect requests and their answers (C96)
-/

namespace Knx
open Spec

theorem requests_append (a b : List Obs) : requests (a ++ b) = requests a + requests b := by
  simp [requests, taskSent_append]

theorem answers_append (a b : List Obs) : answers (a ++ b) = answers a ++ answers b := by
  simp [answers, arrived_append]

theorem isConnResp_grants {d : Bytes} {r : ConnectionResponse} (h : Grants d r) : isConnResp d = true := by
  obtain ⟨h0, len, rest, _, _, _, h1⟩ := h
  unfold isConnResp
  rw [h1]
  simp [connectResponse, header, word, CONNECT_RESPONSE, byte]

/-- A connect response has been accepted, and its connection not yet been given up. -/
def settled : Pc → Bool
  | .top => false
  | .connSend => false
  | .connWait _ => false
  | .connSleep _ => false
  | _ => true

theorem BgTr.asks {k : Kind} {m : Mode} {s s' : Bg} {o : List Obs} (ht : BgTr k m s s' o) (hc : ∀ p, s.pc ≠ .discResp p) :
    requests o = 0 ∨ (o = [.tx .task connReqPacket] ∧ settled s'.pc = false) := by
  have ack : ∀ ch sq, serviceIs CONNECT_REQUEST (TunnelingAck.mk ch sq 0#8).packet = false := by
    intro ch sq; rw [show (TunnelingAck.mk ch sq 0#8).packet = _ from ack_packet ch sq, serviceIs_frame]; decide
  have beat : ∀ ch ep, serviceIs CONNECT_REQUEST (ConnectionstateRequest.mk ch ep).packet = false := by
    intro ch ep; rw [C19_bodies.1, serviceIs_frame]; decide
  have en : ∀ ch, serviceIs CONNECT_REQUEST (enablePacket ch) = false := by
    intro ch; rw [enablePacket, C19_bodies.2.2.2.2.1, serviceIs_frame]; decide
  cases ht
  case connSendOk hpc => exact Or.inr ⟨rfl, rfl⟩
  case discOk p hpc => exact absurd hpc (hc p)
  all_goals (left; simp [requests, taskSent, ack, beat, en])

/-- After a step of the task a connection is settled only if it was before, and nothing was asked or answered with a connect request, or a
connect response has just been accepted. -/
theorem BgTr.settles {k : Kind} {m : Mode} {s s' : Bg} {o : List Obs} (ht : BgTr k m s s' o) (hc : s.conn.isSome = pcUp s.pc)
    (hs : settled s'.pc = true) :
    (settled s.pc = true ∧ connAnswers o = []) ∨ (settled s.pc = false ∧ ∃ d r, o = [.rxConn d] ∧ Grants d r) := by
  cases ht
  case connOkClient dl d r hpc hr hk => exact Or.inr ⟨by rw [hpc]; rfl, d, r, rfl, (tryConnect_iff d r).1 hr⟩
  case connOkMonitor dl d r hpc hr hk => exact Or.inr ⟨by rw [hpc]; rfl, d, r, rfl, (tryConnect_iff d r).1 hr⟩
  case topSome c hpc h => rw [hpc, h] at hc; simp [pcUp] at hc
  all_goals first
    | (simp [settled] at hs; done)
    | (left; refine ⟨?_, rfl⟩; rename_i hpc; rw [hpc]; rfl)
    | (left; refine ⟨?_, rfl⟩; rename_i hpc _; rw [hpc]; rfl)
    | (left; refine ⟨?_, rfl⟩; rename_i hpc _ _; rw [hpc]; rfl)
    | (left; refine ⟨?_, rfl⟩; rename_i hpc _ _ _; rw [hpc]; rfl)
    | (left; refine ⟨?_, rfl⟩; rename_i hb _ _; revert hb; cases s.pc <;> simp [busy, settled])

theorem prefix_left {α : Type} {a b : List α} {P : List α → Prop} (h : ∀ t, t <+: a ++ b → P t) : ∀ t, t <+: a → P t :=
  fun t ht => h t (ht.trans (List.prefix_append a b))

theorem GExec.turns {k : Kind} {m : Mode} {s : Bg} {tr : List Obs} (h : GExec k m s tr) (h1 : InTurn tr) (h2 : Awaited tr) :
    requests tr ≤ (answers tr).length + 1 ∧
    (settled s.pc = true → (answers tr).length = requests tr ∧ (answers tr).getLast? = (connAnswers tr).getLast?) := by
  induction h with
  | init => exact ⟨Nat.zero_le _, fun h => by simp [Bg.init, settled] at h⟩
  | @task s s' tr o hx ht ih =>
    have i := ih (prefix_left h1) (fun t p hp => h2 t p (hp.trans (List.prefix_append _ _)))
    have hc := hx.conn_iff
    have hle := h1 _ List.prefix_rfl
    rcases ht.asks hc.2 with ha | ⟨rfl, ha⟩
    · rw [requests_append, answers_append, List.length_append, ha] at hle ⊢
      refine ⟨by omega, fun hs => ?_⟩
      rcases ht.settles hc.1 hs with ⟨hs', hn⟩ | ⟨hs', d, r, rfl, hg⟩
      · have j := i.2 hs'
        have : answers o = [] := List.eq_nil_of_length_eq_zero (by omega)
        rw [this, List.append_nil, connAnswers_append, hn, List.append_nil]
        exact ⟨by simpa using j.1, j.2⟩
      · have e : answers [Obs.rxConn d] = [d] := by simp [answers, arrived, isConnResp_grants hg]
        rw [e] at hle ⊢
        simp only [List.length_singleton] at hle ⊢
        refine ⟨by omega, ?_⟩
        rw [connAnswers_append]
        simp [connAnswers]
    · have e := h2 tr connReqPacket List.prefix_rfl (by decide)
      refine ⟨?_, fun hs => by rw [hs] at ha; cases ha⟩
      rw [requests_append, answers_append, List.length_append, e]
      have : requests [.tx .task connReqPacket] = 1 := by decide
      omega
  | @env s s' tr o hx he ih =>
    have i := ih (prefix_left h1) (fun t p hp => h2 t p (hp.trans (List.prefix_append _ _)))
    have f := he.facts
    have hle := h1 _ List.prefix_rfl
    have ha : requests o = 0 := by simp [requests, f.taskSent]
    rw [requests_append, answers_append, List.length_append, ha] at hle ⊢
    refine ⟨by omega, fun hs => ?_⟩
    rw [f.pc] at hs
    have j := i.2 hs
    have : answers o = [] := List.eq_nil_of_length_eq_zero (by omega)
    rw [this, List.append_nil, connAnswers_append, f.answers, List.append_nil]
    exact ⟨by simpa using j.1, j.2⟩

theorem BgTr.reads {k : Kind} {m : Mode} {s s' : Bg} {o : List Obs} (ht : BgTr k m s s' o) {d : Bytes} (h : .rx d ∈ o) :
    settled s.pc = true ∧ requests o = 0 := by
  have hs : s.pc = .recv := by
    cases ht <;> first
      | assumption
      | (simp at h; done)
  refine ⟨by rw [hs]; rfl, ?_⟩
  rcases ht.asks (by rw [hs]; simp) with h' | ⟨rfl, _⟩
  · exact h'
  · simp at h

theorem GExec.noStray {k : Kind} {m : Mode} {s : Bg} {tr : List Obs} (h : GExec k m s tr) (h1 : InTurn tr) (h2 : Awaited tr) :
    ∀ d, .rx d ∈ tr → isConnResp d = false := by
  induction h with
  | init => simp
  | @task s s' tr o hx ht ih =>
    have h1' : InTurn tr := prefix_left h1
    have h2' : Awaited tr := fun t p hp => h2 t p (hp.trans (List.prefix_append _ _))
    intro d hd
    rcases List.mem_append.1 hd with hd | hd
    · exact ih h1' h2' d hd
    · obtain ⟨hs, hr⟩ := ht.reads hd
      have j := (hx.turns h1' h2').2 hs
      have hle := h1 _ List.prefix_rfl
      rw [requests_append, answers_append, List.length_append, hr] at hle
      have e : answers o = [] := List.eq_nil_of_length_eq_zero (by omega)
      rw [answers, List.filter_eq_nil_iff] at e
      have : d ∈ arrived o := List.mem_filterMap.2 ⟨_, hd, rfl⟩
      simpa using e d this
  | @env s s' tr o hx he ih =>
    intro d hd
    rcases List.mem_append.1 hd with hd | hd
    · exact ih (prefix_left h1) (fun t p hp => h2 t p (hp.trans (List.prefix_append _ _))) d hd
    · have : d ∈ received o := List.mem_filterMap.2 ⟨_, hd, rfl⟩
      rw [he.facts.received] at this
      cases this

theorem BgTr.ups_conn {k : Kind} {m : Mode} {s s' : Bg} {o : List Obs} (ht : BgTr k m s s' o) (hc : s.conn.isSome = pcUp s.pc)
    (h : pcUp s'.pc = true) :
    (pcUp s.pc = true ∧ ups o = [] ∧ connAnswers o = []) ∨ ∃ r, s.pc = .store r ∧ o = [.up r] := by
  cases ht
  case storeClient r hpc _ => exact Or.inr ⟨r, hpc, rfl⟩
  case storeMonitor r hpc _ => exact Or.inr ⟨r, hpc, rfl⟩
  case topSome c hpc hn => rw [hpc, hn] at hc; simp [pcUp] at hc
  all_goals first
    | (simp [pcUp] at h; done)
    | (left; refine ⟨?_, rfl, rfl⟩; rename_i hpc; rw [hpc]; rfl)
    | (left; refine ⟨?_, rfl, rfl⟩; rename_i hpc _; rw [hpc]; rfl)
    | (left; refine ⟨?_, rfl, rfl⟩; rename_i hpc _ _; rw [hpc]; rfl)
    | (left; refine ⟨?_, rfl, rfl⟩; rename_i hpc _ _ _; rw [hpc]; rfl)
    | (left; refine ⟨?_, rfl, rfl⟩; rename_i hb _ _; revert hb; cases s.pc <;> simp [busy, pcUp])

/-- The connection in use was granted by the connect response that was read last. -/
theorem GExec.lastGrant {k : Kind} {m : Mode} {s : Bg} {tr : List Obs} (h : GExec k m s tr) (hp : pcUp s.pc = true) :
    ∃ d r, (connAnswers tr).getLast? = some d ∧ (ups tr).getLast? = some r ∧ Grants d r := by
  induction h with
  | init => simp [Bg.init, pcUp] at hp
  | @task s s' tr o hx ht ih =>
    rw [connAnswers_append, ups_append']
    rcases ht.ups_conn hx.conn_iff.1 hp with ⟨h1, h2, h3⟩ | ⟨r, h1, rfl⟩
    · rw [h2, h3, List.append_nil, List.append_nil]; exact ih h1
    · obtain ⟨d, h3, h4⟩ := hx.grants.1 r (Or.inr h1)
      refine ⟨d, r, ?_, ?_, h4⟩
      · simpa [connAnswers] using h3
      · simp [ups]
  | @env s s' tr o hx he ih =>
    have f := he.facts
    rw [connAnswers_append, ups_append', f.answers, f.ups, List.append_nil, List.append_nil]
    exact ih (f.pc ▸ hp)

/-- With a server that answers every connect request once, if no connect request is sent while an earlier one is unanswered: all requests are
answered while a connection is in use, it is the one that the last answer, the one to the last request, grants, and within a
connection no connect response ever arrives. -/
theorem C96_own_partial {m : Mode} {k : Kind} {s : Bg} {tr : List Obs} (h : Reaches m k s tr) (h1 : InTurn tr) (h2 : Awaited tr) :
    (upNow tr = true → (answers tr).length = requests tr ∧
      ∃ d r, (answers tr).getLast? = some d ∧ (ups tr).getLast? = some r ∧ Grants d r) ∧
    ∀ d, .rx d ∈ tr → isConnResp d = false := by
  refine ⟨fun hu => ?_, h.gexec.noStray h1 h2⟩
  rw [← h.gexec.upNow, h.gexec.conn_iff.1] at hu
  have hs : settled s.pc = true := by revert hu; cases s.pc <;> simp [pcUp, settled]
  have t := (h.gexec.turns h1 h2).2 hs
  obtain ⟨d, r, h3, h4, h5⟩ := h.gexec.lastGrant hu
  exact ⟨t.1, d, r, t.2 ▸ h3, h4, h5⟩

/-- The first of two attempts to connect fails although the server grants the connection: because another datagram is read first, or
because the answer takes longer than 30 s. The second attempt reads the answer to the first one. -/
structure Mishap where
  /-- The datagram that is read first; none: the answer is late. -/
  other : Option Bytes
  /-- The answers of the server. -/
  first : Bytes × ConnectionResponse
  second : Bytes × ConnectionResponse

/-- The other datagram is not a connect response; the answers grant connections. -/
def Mishap.Fits (x : Mishap) : Prop :=
  (∀ d ∈ x.other, isConnResp d = false) ∧ Grants x.first.1 x.first.2 ∧ Grants x.second.1 x.second.2

/-- What is observed. -/
def Mishap.trace (k : Kind) (x : Mishap) : List Obs :=
  [.tx .task connReqPacket] ++ (x.other.map Obs.rxConn).toList ++ linkTrace k x.first.1 x.first.2 ++ [.rx x.second.1, .down]

/-- How long it takes. -/
def Mishap.time (x : Mishap) : Nat := if x.other.isSome then 10000 else 40000

theorem no_grant {d : Bytes} (h : isConnResp d = false) : tryConnect (buffer d) = .err := by
  cases h' : tryConnect (buffer d) with
  | err => rfl
  | panic => exact absurd h' (tryConnect_no_panic _)
  | ok r => rw [isConnResp_grants ((tryConnect_iff d r).1 h')] at h; cases h

theorem stray_answer {d : Bytes} {r : ConnectionResponse} (h : Grants d r) : onDatagram d = .teardown := by
  have h0 : d.length ≠ 0 := by
    intro h0
    rw [List.length_eq_zero_iff] at h0
    subst h0
    exact absurd (isConnResp_grants h) (by decide)
  have h1 := isConnResp_grants h
  unfold isConnResp at h1
  rw [beq_iff_eq] at h1
  unfold onDatagram
  rw [if_neg h0, buffer_eq_seen]
  have : parseResponse (seen d) = .err := by
    revert h1
    match seen d with
    | [] => simp
    | [_] => simp
    | [_, _] => simp
    | [_, _, _] => simp
    | a :: b :: c :: e :: l =>
      simp only [List.take_succ_cons, List.take_zero, List.cons.injEq, and_true]
      rintro ⟨rfl, rfl, rfl, rfl⟩
      rfl
  rw [this]

/-- The second attempt, from the moment it begins: the connection is established and given up. -/
theorem second_run (m : Mode) (k : Kind) (T : Nat) {x : Mishap} (h : x.Fits) :
    ∃ evs, bgRun k m { Bg.init with now := T, pc := .connSend } evs
      = some ({ Bg.init with now := T }, linkTrace k x.first.1 x.first.2 ++ [.rx x.second.1, .down]) := by
  have h1 := (tryConnect_iff _ _).2 h.2.1
  have h2 := stray_answer h.2.2
  cases k
  · refine ⟨[.sendOk, .dgram x.first.1, .run, .dgram x.second.1, .run], ?_⟩
    simp [bgRun, bgStep, Bg.init, h1, h2, connected, linkTrace, endObs]
  · refine ⟨[.sendOk, .dgram x.first.1, .sendOk, .run, .run, .dgram x.second.1, .run], ?_⟩
    simp [bgRun, bgStep, Bg.init, h1, h2, connected, linkTrace, endObs]

/-- Steps of the task alone, with time passing no longer than until the next timer is due. -/
inductive OnTime (k : Kind) (m : Mode) : Bg → List Obs → Bg → Prop
  | nil (s : Bg) : OnTime k m s [] s
  | steps {s s' s'' : Bg} {o tr : List Obs} (evs : List BgEv) : bgRun k m s evs = some (s', o) → OnTime k m s' tr s'' → OnTime k m s (o ++ tr) s''
  | delay {s s'' : Bg} {tr : List Obs} (d : Nat) : (∀ t ∈ bgDeadline s, s.now + d ≤ t) → OnTime k m { s with now := s.now + d } tr s'' →
      OnTime k m s tr s''

theorem OnTime.trans {k : Kind} {m : Mode} {a b c : Bg} {x y : List Obs} (h1 : OnTime k m a x b) (h2 : OnTime k m b y c) :
    OnTime k m a (x ++ y) c := by
  induction h1 with
  | nil _ => exact h2
  | steps evs hs _ ih => rw [List.append_assoc]; exact .steps evs hs (ih h2)
  | delay d hd _ ih => exact .delay d hd (ih h2)

theorem OnTime.client {m : Mode} {a b : Bg} {tr : List Obs} (h : OnTime .client m a tr b) : PromptRun m ⟨a, .idle⟩ tr ⟨b, .idle⟩ := by
  induction h with
  | nil _ => exact .nil _
  | steps evs hs _ ih => exact (bgRun_prompt (s := ⟨_, .idle⟩) hs).trans ih
  | @delay s s'' tr d hd _ ih =>
    exact PromptRun.step (s := ⟨s, .idle⟩) (o := []) (.delay d) ⟨hd, by simp [apiDeadline]⟩ rfl ih

theorem OnTime.monitor {m : Mode} {a b : Bg} {tr : List Obs} (h : OnTime .monitor m a tr b) : MPromptRun m ⟨a, .idle, []⟩ tr ⟨b, .idle, []⟩ := by
  induction h with
  | nil _ => exact .nil _
  | steps evs hs _ ih => exact (bgRun_mprompt (s := ⟨_, .idle, []⟩) hs).trans ih
  | @delay s s'' tr d hd _ ih =>
    exact MPromptRun.step (s := ⟨s, .idle, []⟩) (o := []) (.delay d) hd rfl ih

theorem OnTime.goes {k : Kind} {m : Mode} {s : Bg} {tr : List Obs} (h : OnTime k m Bg.init tr s) : GoesPromptly m k Bg.init [] tr s := by
  cases k
  · exact .client (s := Sys.init) .init (OnTime.client h)
  · exact .monitor (s := MSys.init) .init (OnTime.monitor h)

theorem sleep_run (m : Mode) (k : Kind) (T : Nat) :
    OnTime k m { Bg.init with now := T, pc := .connSleep (T + 10000) } [] { Bg.init with now := T + 10000, pc := .connSend } := by
  refine .delay 10000 ?_ (.steps (o := []) [.timer] ?_ (.nil _))
  · intro t ht
    simp only [bgDeadline, Option.mem_def, Option.some.injEq] at ht
    exact Nat.le_of_eq ht
  · simp only [bgRun, bgStep, reduceCtorEq, if_false, Nat.le_refl, if_true, Option.map_some, List.append_nil]

theorem late_run (m : Mode) (k : Kind) (T : Nat) :
    OnTime k m { Bg.init with now := T, pc := .connWait (T + 30000) } []
      { Bg.init with now := T + 30000, pc := .connSleep (T + 30000 + 10000) } := by
  refine .delay 30000 ?_ (.steps (o := []) [.timer] ?_ (.nil _))
  · intro t ht
    simp only [bgDeadline, Option.mem_def, Option.some.injEq] at ht
    exact Nat.le_of_eq ht
  · simp only [bgRun, bgStep, reduceCtorEq, if_false, Nat.le_refl, if_true, Option.map_some, List.append_nil]

theorem ask_run (m : Mode) (k : Kind) (T : Nat) :
    OnTime k m { Bg.init with now := T } [.tx .task connReqPacket] { Bg.init with now := T, pc := .connWait (T + 30000) } :=
  .steps (o := [.tx .task connReqPacket]) (s := { Bg.init with now := T }) [.run, .sendOk] rfl (.nil _)

theorem other_run (m : Mode) (k : Kind) (T : Nat) {d : Bytes} (hd : tryConnect (buffer d) = .err) :
    OnTime k m { Bg.init with now := T, pc := .connWait (T + 30000) } [.rxConn d]
      { Bg.init with now := T, pc := .connSleep (T + 10000) } := by
  refine .steps (o := [.rxConn d]) [.dgram d] ?_ (.nil _)
  simp only [bgRun, bgStep, reduceCtorEq, if_false, hd, Option.map_some, List.append_nil]

theorem mishap_run (m : Mode) (k : Kind) (T : Nat) {x : Mishap} (h : x.Fits) :
    OnTime k m { Bg.init with now := T } (x.trace k) { Bg.init with now := T + x.time } := by
  obtain ⟨evs, he⟩ := second_run m k (T + x.time) h
  have h2 := OnTime.steps evs he (.nil _)
  rw [List.append_nil] at h2
  unfold Mishap.trace
  rw [List.append_assoc]
  refine OnTime.trans ?_ h2
  refine (ask_run m k T).trans ?_
  cases ho : x.other with
  | none =>
    have ht : T + x.time = T + 30000 + 10000 := by
      have : x.time = 40000 := by unfold Mishap.time; rw [ho]; rfl
      omega
    rw [ht]
    exact (late_run m k T).trans (sleep_run m k (T + 30000))
  | some d =>
    have ht : T + x.time = T + 10000 := by
      have : x.time = 10000 := by unfold Mishap.time; rw [ho]; rfl
      omega
    rw [ht]
    exact (other_run m k T (no_grant (h.1 d ho))).trans (sleep_run m k T)

theorem mishaps_run (m : Mode) (k : Kind) (T : Nat) (xs : List Mishap) (h : ∀ x ∈ xs, x.Fits) :
    OnTime k m { Bg.init with now := T } (xs.flatMap (Mishap.trace k)) { Bg.init with now := T + (xs.map Mishap.time).sum } := by
  induction xs generalizing T with
  | nil => exact .nil _
  | cons x xs ih =>
    have := ih (T + x.time) fun y hy => h y (List.mem_cons_of_mem _ hy)
    rw [List.flatMap_cons, List.map_cons, List.sum_cons, ← Nat.add_assoc]
    exact (mishap_run m k T (h x List.mem_cons_self)).trans this

theorem requests_en (ch : U8) : serviceIs CONNECT_REQUEST (enablePacket ch) = false := by
  rw [enablePacket, C19_bodies.2.2.2.2.1, serviceIs_frame]; decide

theorem mishap_counts (k : Kind) {x : Mishap} (h : x.Fits) :
    requests (x.trace k) = 2 ∧ answers (x.trace k) = [x.first.1, x.second.1] ∧ ups (x.trace k) = [x.first.2] := by
  have h1 := isConnResp_grants h.2.1
  have h2 := isConnResp_grants h.2.2
  have h3 : serviceIs CONNECT_REQUEST connReqPacket = true := by decide
  have h4 := requests_en x.first.2.channel
  have ho := h.1
  unfold Mishap.trace
  cases k <;> cases e : x.other <;> simp [linkTrace, requests, answers, taskSent, arrived, ups, h1, h2, h3, h4]
  all_goals simp [h1, h2, ho _ e]

/-- Of `q` connect requests so far `a` are answered; the observations that follow keep to the order, and whenever a connection is
established one request is unanswered. -/
def Behind (q a : Nat) : List Obs → Prop
  | [] => a ≤ q
  | x :: l => a ≤ q ∧ (∀ r, x = .up r → q = a + 1) ∧ Behind (q + requests [x]) (a + (answers [x]).length) l

theorem Behind.prefix {q a : Nat} {l : List Obs} (h : Behind q a l) (u : List Obs) (hu : u <+: l) :
    a + (answers u).length ≤ q + requests u ∧ ∀ v r, u = v ++ [.up r] → q + requests v = a + (answers v).length + 1 := by
  induction l generalizing q a u with
  | nil =>
    rw [List.prefix_nil] at hu
    subst hu
    exact ⟨h, fun v r e => by simp at e⟩
  | cons x l ih =>
    rcases List.prefix_cons_iff.1 hu with rfl | ⟨t, rfl, ht⟩
    · exact ⟨h.1, fun v r e => by simp at e⟩
    · have e1 : ∀ w, requests (x :: w) = requests [x] + requests w := fun w => requests_append [x] w
      have e2 : ∀ w, (answers (x :: w)).length = (answers [x]).length + (answers w).length := by
        intro w
        have := congrArg List.length (answers_append [x] w)
        rwa [List.length_append] at this
      have i := ih h.2.2 t ht
      rw [e1, e2]
      refine ⟨by omega, fun v r e => ?_⟩
      cases v with
      | nil =>
        simp only [List.nil_append, List.cons.injEq] at e
        have := h.2.1 r e.1
        simpa [requests, taskSent, answers, arrived] using this
      | cons y v =>
        simp only [List.cons_append, List.cons.injEq] at e
        obtain ⟨rfl, e⟩ := e
        have := i.2 v r e
        rw [e1, e2]
        omega

theorem mishap_behind (k : Kind) {x : Mishap} (h : x.Fits) (q : Nat) (l : List Obs) (hl : Behind (q + 2) (q + 2) l) :
    Behind q q (x.trace k ++ l) := by
  have h1 := isConnResp_grants h.2.1
  have h2 := isConnResp_grants h.2.2
  have h3 : serviceIs CONNECT_REQUEST connReqPacket = true := by decide
  have h4 := requests_en x.first.2.channel
  have ho := h.1
  unfold Mishap.trace
  cases k <;> cases e : x.other
  all_goals
    simp [linkTrace, Behind, requests, answers, taskSent, arrived, h1, h2, h3, h4, Nat.add_assoc, hl]
  all_goals (simp [ho _ e, hl]; try omega)

theorem mishaps_behind (k : Kind) (xs : List Mishap) (h : ∀ x ∈ xs, x.Fits) (q : Nat) : Behind q q (xs.flatMap (Mishap.trace k)) := by
  induction xs generalizing q with
  | nil => exact Nat.le_refl _
  | cons x xs ih =>
    exact mishap_behind k (h x List.mem_cons_self) q _ (ih (fun y hy => h y (List.mem_cons_of_mem _ hy)) (q + 2))

/-- C96 is refuted. A server answers every connect request once, in order, and grants every connection; timers fire on time. Any number of
times another datagram is read before the answer (say a telegram that the server sends on the connection given up before), or the
answer takes longer than 30 s. Then every connection established is the one granted to an earlier request than the last one, and every
connection is given up because the answer to the last request arrives: 2 n grants, and no connection. -/
theorem C96_violated (m : Mode) (k : Kind) (xs : List Mishap) (h : ∀ x ∈ xs, x.Fits) :
    ∃ s tr, GoesPromptly m k Bg.init [] tr s ∧ s.now = (xs.map Mishap.time).sum ∧ InTurn tr ∧
      answers tr = xs.flatMap (fun x => [x.first.1, x.second.1]) ∧ (∀ d ∈ answers tr, ∃ r, Grants d r) ∧
      requests tr = (answers tr).length ∧ ups tr = xs.map (·.first.2) ∧ upNow tr = false ∧
      ∀ t r, t ++ [.up r] <+: tr → requests t = (answers t).length + 1 := by
  have h1 := mishaps_run m k 0 xs h
  have h2 := mishaps_behind k xs h 0
  have h3 : answers (xs.flatMap (Mishap.trace k)) = xs.flatMap (fun x => [x.first.1, x.second.1]) ∧
      requests (xs.flatMap (Mishap.trace k)) = 2 * xs.length ∧ ups (xs.flatMap (Mishap.trace k)) = xs.map (·.first.2) := by
    clear h1 h2
    induction xs with
    | nil => exact ⟨rfl, rfl, rfl⟩
    | cons x xs ih =>
      obtain ⟨i1, i2, i3⟩ := ih fun y hy => h y (List.mem_cons_of_mem _ hy)
      obtain ⟨c1, c2, c3⟩ := mishap_counts k (h x List.mem_cons_self)
      rw [List.flatMap_cons, answers_append, requests_append, ups_append', i1, i2, i3, c1, c2, c3]
      exact ⟨rfl, by simp only [List.length_cons]; omega, rfl⟩
  refine ⟨_, _, h1.goes, by simp, fun t ht => ?_, h3.1, ?_, ?_, h3.2.2, ?_, fun t r ht => ?_⟩
  · simpa using (h2.prefix t ht).1
  · intro d hd
    rw [h3.1, List.mem_flatMap] at hd
    obtain ⟨x, hx, hd⟩ := hd
    simp only [List.mem_cons, List.not_mem_nil, or_false] at hd
    rcases hd with rfl | rfl
    · exact ⟨_, (h x hx).2.1⟩
    · exact ⟨_, (h x hx).2.2⟩
  · rw [h3.1, h3.2.1, List.length_flatMap]
    simp [Nat.mul_comm]
  · have : ∀ {s : Bg} {tr : List Obs}, GoesPromptly m k Bg.init [] tr s → Reaches m k s tr := by
      intro s tr hg
      generalize hb : Bg.init = b at hg
      generalize he : ([] : List Obs) = e at hg
      cases hg with
      | client hx hp => have := hx.append hp.run; subst he; exact .client this
      | monitor hx hp => have := hx.append hp.run; subst he; exact .monitor this
    rw [← (this h1.goes).gexec.upNow]
    rfl
  · simpa using (h2.prefix _ ht).2 t r rfl

/-- A telegram arrives before the answer to the first request; at another time an answer is late. -/
example (m : Mode) (k : Kind) : ∃ s tr, GoesPromptly m k Bg.init [] tr s ∧ s.now = 50000 ∧ requests tr = 4 ∧
    ups tr = [conn7, conn7] ∧ upNow tr = false := by
  obtain ⟨s, tr, h1, h2, _, h4, _, h6, h7, h8, _⟩ := C96_violated m k
    [⟨some (frame TUNNELING_REQUEST [4, 6, 0, 0, 0x29, 0, 0xbc, 0xe0, 0x11, 1, 8, 1, 1, 0, 0x81]), ⟨grant7, conn7⟩, ⟨grant7, conn7⟩⟩,
      ⟨none, ⟨grant7, conn7⟩, ⟨grant7, conn7⟩⟩]
    (by
      intro x hx
      simp only [List.mem_cons, List.not_mem_nil, or_false] at hx
      rcases hx with rfl | rfl
      · refine ⟨?_, grants7, grants7⟩
        intro d hd
        simp only [Option.mem_def, Option.some.injEq] at hd
        subst hd
        decide
      · exact ⟨by simp, grants7, grants7⟩)
  refine ⟨s, tr, h1, h2, ?_, h7, h8⟩
  rw [h6, h4]
  rfl

/-- The hypotheses of `C96_own_partial` hold when the first request is answered at once. -/
example (m : Mode) (k : Kind) : Reaches m k (linkUp k conn7) (linkTrace k grant7 conn7) ∧ InTurn (linkTrace k grant7 conn7) ∧
    Awaited (linkTrace k grant7 conn7) ∧ upNow (linkTrace k grant7 conn7) = true := by
  refine ⟨reaches_link m k grants7, ?_, ?_, by cases k <;> rfl⟩
  · intro t ht
    cases k <;> simp only [linkTrace, List.prefix_cons_iff, List.prefix_nil] at ht
    · rcases ht with rfl | ⟨_, rfl, rfl | ⟨_, rfl, rfl | ⟨_, rfl, rfl⟩⟩⟩ <;> decide
    · rcases ht with rfl | ⟨_, rfl, rfl | ⟨_, rfl, rfl | ⟨_, rfl, rfl | ⟨_, rfl, rfl⟩⟩⟩⟩ <;> decide
  · intro t p ht hp
    cases k
    · simp only [linkTrace] at ht
      rcases t with _ | ⟨x, _ | ⟨y, _ | ⟨z, t⟩⟩⟩
      · rfl
      all_goals simp [List.prefix_cons_iff] at ht
    · simp only [linkTrace] at ht
      rcases t with _ | ⟨x, _ | ⟨y, _ | ⟨z, _ | ⟨w, t⟩⟩⟩⟩
      · rfl
      all_goals simp [List.prefix_cons_iff] at ht
      rw [ht.2.2, requests_en] at hp
      cases hp

end Knx
