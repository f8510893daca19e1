import Verif.Spec.Recovery
import Verif.Props.Gateway

/-!
# A client that is not finished can always be used again (C89)
-/

namespace Knx
open Spec

theorem GExec.sleepSoon {k : Kind} {m : Mode} {s : Bg} {tr : List Obs} (h : GExec k m s tr) : ∀ dl, s.pc = .connSleep dl → dl ≤ s.now + 10000 := by
  induction h with
  | init => simp [Bg.init]
  | env _ he ih =>
    intro dl hp
    rw [he.facts.pc] at hp
    have := ih dl hp
    have := he.hbDue
    omega
  | @task s s' tr o hx ht ih =>
    intro dl hp
    cases ht <;> simp_all

theorem GExec.notifyConn {k : Kind} {m : Mode} {s : Bg} {tr : List Obs} (h : GExec k m s tr) : ∀ t a, s.pc = .notify t a → s.conn.isSome := by
  induction h with
  | init => simp [Bg.init]
  | env _ he ih =>
    intro t a hp
    have h1 := ih t a (he.facts.pc ▸ hp)
    have h2 := congrArg Option.isSome he.facts.conn
    simpa [h1] using h2
  | @task s s' tr o hx ht ih =>
    intro t a hp
    cases ht <;> simp_all

/-! ## Runs that lead back to a connection -/

theorem PromptRun.one {m : Mode} {s s' : Sys} {o : List Obs} (e : Ev) (hp : prompt s e) (h : Knx.step m s e = some (s', o)) : PromptRun m s o s' := by
  have := PromptRun.step e hp h (.nil s')
  rwa [List.append_nil] at this

theorem Spec.Smooth.append {a b : List Obs} (ha : Smooth a) (hb : Smooth b) : Smooth (a ++ b) := by
  obtain ⟨a1, a2, a3, a4, a5⟩ := ha
  obtain ⟨b1, b2, b3, b4, b5⟩ := hb
  refine ⟨fun w p h => ?_, ?_, ?_, ?_, ?_⟩
  · rcases List.mem_append.1 h with h | h
    · exact a1 w p h
    · exact b1 w p h
  all_goals simp_all

/-- The task has a connection and waits for a datagram. -/
def Ready (s : Bg) : Prop := s.pc = .recv ∧ s.conn.isSome

/-- Steps of the task alone with timers firing on time; the subscribers of a monitor may take messages out of their channels. -/
inductive Go (k : Kind) (m : Mode) : Bg → List Obs → Bg → Prop
  | nil (s : Bg) : Go k m s [] s
  | step {s s' s'' : Bg} {o tr : List Obs} (e : BgEv) : bgStep k m s e = some (s', o) → Go k m s' tr s'' → Go k m s (o ++ tr) s''
  | wait {s s'' : Bg} {tr : List Obs} (u : Nat) : s.now ≤ u → (∀ x ∈ bgDeadline s, u ≤ x) → Go k m { s with now := u } tr s'' → Go k m s tr s''
  | drain {s s'' : Bg} {tr : List Obs} (id : Nat) : k = .monitor → (s.chans id).isOpen = true → 0 < (s.chans id).len →
      Go k m { s with chans := fun i => if i = id then { s.chans id with len := (s.chans id).len - 1 } else s.chans i } tr s'' → Go k m s tr s''

theorem Go.prompt {m : Mode} {s s' : Bg} {tr : List Obs} (h : Go .client m s tr s') : PromptRun m ⟨s, .idle⟩ tr ⟨s', .idle⟩ := by
  induction h with
  | nil s => exact .nil _
  | @step s s' s'' o tr e hs _ ih => exact .step (s' := ⟨s', .idle⟩) (.bg e) trivial (by simp [Knx.step, hs]) ih
  | @wait s s'' tr u hu hd _ ih =>
    have := PromptRun.step (s := ⟨s, .idle⟩) (s' := ⟨{ s with now := u }, .idle⟩) (o := []) (m := m) (.delay (u - s.now)) ?_ ?_ ih
    · exact this
    · refine ⟨fun x hx => ?_, fun x hx => by simp [apiDeadline] at hx⟩
      have := hd x hx
      simp only
      omega
    · have : s.now + (u - s.now) = u := by omega
      simp only [Knx.step, this]
  | drain id hk => cases hk

theorem Go.mprompt {m : Mode} {s s' : Bg} {tr : List Obs} (h : Go .monitor m s tr s') (w : List Nat) :
    MPromptRun m ⟨s, .idle, w⟩ tr ⟨s', .idle, w⟩ := by
  induction h with
  | nil s => exact .nil _
  | @step s s' s'' o tr e hs _ ih => exact .step (s' := ⟨s', .idle, w⟩) (.bg e) trivial (by simp [Knx.mstep, hs]) ih
  | @wait s s'' tr u hu hd _ ih =>
    have := MPromptRun.step (s := ⟨s, .idle, w⟩) (s' := ⟨{ s with now := u }, .idle, w⟩) (o := []) (m := m) (.delay (u - s.now)) ?_ ?_ ih
    · exact this
    · intro x hx
      have := hd x hx
      simp only
      omega
    · have : s.now + (u - s.now) = u := by omega
      simp only [Knx.mstep, this]
  | @drain s s'' tr id hk h1 h2 _ ih =>
    exact MPromptRun.step (s := ⟨s, .idle, w⟩) (o := []) (m := m) (.api (.drain id)) trivial (by simp [Knx.mstep, mapiStep, h1, h2, setChan]) ih

/-- From `s` the task can come to be ready by the time `t`, if nothing goes wrong from here on. -/
def Leads (k : Kind) (m : Mode) (s : Bg) (t : Nat) : Prop :=
  ∃ tr s', Go k m s tr s' ∧ Ready s' ∧ s'.queue = s.queue ∧ s'.rxOpen = s.rxOpen ∧ s'.now ≤ t ∧ Smooth tr ∧ calls tr = []

theorem Leads.step {k : Kind} {m : Mode} {s s' : Bg} {o : List Obs} {t : Nat} (e : BgEv) (hs : bgStep k m s e = some (s', o))
    (h1 : s'.queue = s.queue) (h2 : s'.rxOpen = s.rxOpen) (ho : Smooth o) (hc : calls o = []) (h : Leads k m s' t) : Leads k m s t := by
  obtain ⟨tr, s'', hr, k1, k2, k3, k4, k5, k6⟩ := h
  refine ⟨o ++ tr, s'', .step e hs hr, k1, k2.trans h1, k3.trans h2, k4, ho.append k5, ?_⟩
  rw [show ∀ a b : List Obs, calls (a ++ b) = calls a ++ calls b from fun a b => by simp [calls], hc, k6]
  rfl

theorem Leads.wait {k : Kind} {m : Mode} {s : Bg} {t u : Nat} (hu : s.now ≤ u) (hd : ∀ x ∈ bgDeadline s, u ≤ x)
    (h : Leads k m { s with now := u } t) : Leads k m s t := by
  obtain ⟨tr, s'', hr, h⟩ := h
  exact ⟨tr, s'', .wait u hu hd hr, h⟩

theorem smooth_nil : Smooth [] := by simp [Smooth]

theorem Leads.ready {k : Kind} {m : Mode} {s : Bg} {t : Nat} (h1 : s.pc = .recv) (h2 : s.conn.isSome) (ht : s.now ≤ t) : Leads k m s t :=
  ⟨[], s, .nil _, ⟨h1, h2⟩, rfl, rfl, ht, smooth_nil, rfl⟩

/-- The subscribers' channels can hold something. -/
def Roomy (s : Bg) (l : List Nat) : Prop := ∀ id ∈ l, 0 < (s.chans id).cap

/-- The subscribers can be notified, if those whose channels are full take messages out. -/
theorem leads_notify {m : Mode} {t : Nat} (todo : List Nat) : ∀ (s : Bg) (active : List Nat), s.pc = .notify todo active →
    s.conn.isSome → Roomy s todo → s.now ≤ t → Leads .monitor m s t := by
  induction todo with
  | nil =>
    intro s active hp hc _ ht
    exact .step (s' := { s with subs := active, pc := .recv }) .run (by simp [bgStep, hp]) rfl rfl smooth_nil rfl (.ready rfl hc ht)
  | cons id todo ih =>
    intro s active hp hc hr ht
    have hcap := hr id (by simp)
    by_cases ho : (s.chans id).isOpen = true
    · -- make room
      have room : ∀ n (b : Bg), (b.chans id).len = n → b.pc = .notify (id :: todo) active → b.conn.isSome → Roomy b (id :: todo) → b.now ≤ t →
          (b.chans id).isOpen = true → Leads .monitor m b t := by
        intro n
        induction n using Nat.strongRecOn with
        | _ n ihn =>
          intro b hn hp hc hr ht ho
          have hcap := hr id (by simp)
          by_cases hl : (b.chans id).len < (b.chans id).cap
          · refine .step (s' := { b with chans := fun i => if i = id then { b.chans id with len := (b.chans id).len + 1 } else b.chans i,
                                          pc := .notify todo (active ++ [id]) }) .run (o := [.notified id]) ?_ rfl rfl (by simp [Smooth]) rfl ?_
            · simp only [bgStep, hp, reduceCtorEq, if_false, ho, Bool.true_eq_false, hl, if_true]
            · refine ih _ (active ++ [id]) rfl hc (fun j hj => ?_) ht
              have := hr j (by simp [hj])
              simp only
              split
              · exact hcap
              · exact this
          · obtain ⟨tr, s'', g, gs⟩ := ihn (n - 1) (by omega)
              { b with chans := fun i => if i = id then { b.chans id with len := (b.chans id).len - 1 } else b.chans i }
              (by simp [hn]) hp hc (fun j hj => by
                have := hr j hj
                simp only
                split
                · exact hcap
                · exact this) ht (by simp [ho])
            exact ⟨tr, s'', .drain id rfl ho (by omega) g, gs⟩
      exact room _ s rfl hp hc hr ht ho
    · simp only [Bool.not_eq_true] at ho
      exact .step (s' := { s with pc := .notify todo active }) .run (by simp [bgStep, hp, ho]) rfl rfl smooth_nil rfl
        (ih _ active rfl hc (fun j hj => hr j (by simp [hj])) ht)

section
variable {k : Kind} {m : Mode} {d : Bytes} {r : ConnectionResponse}

theorem leads_store {s : Bg} {t : Nat} (r : ConnectionResponse) (hs : k = .monitor → Roomy s s.subs) (h : s.pc = .store r) (ht : s.now ≤ t) :
    Leads k m s t := by
  cases k with
  | client =>
    exact .step (s' := { s with conn := some (Conn.ofResponse .client r), pc := .recv }) .run (by simp [bgStep, h]) rfl rfl
      (o := [.up r]) (by simp [Smooth]) rfl (.ready rfl rfl ht)
  | monitor =>
    exact .step (s' := { s with conn := some (Conn.ofResponse .monitor r), pc := .notify s.subs [] }) .run (by simp [bgStep, h]) rfl rfl
      (o := [.up r]) (by simp [Smooth]) rfl (leads_notify s.subs _ [] rfl rfl (hs rfl) ht)

theorem leads_enable {s : Bg} {t : Nat} (r : ConnectionResponse) (hs : k = .monitor → Roomy s s.subs) (h : s.pc = .enable r) (ht : s.now ≤ t) :
    Leads k m s t :=
  .step (s' := { s with pc := .store r }) .sendOk (by simp [bgStep, h]) rfl rfl (o := [.tx .task (enablePacket r.channel)]) (by simp [Smooth]) rfl
    (leads_store r hs rfl ht)

variable (hg : Grants d r)
include hg

theorem leads_wait {s : Bg} {dl t : Nat} (hs : k = .monitor → Roomy s s.subs) (h : s.pc = .connWait dl) (ht : s.now ≤ t) : Leads k m s t := by
  refine .step (s' := connected k s r) (.dgram d) (by simp [bgStep, h, (tryConnect_iff d r).2 hg]) ?_ ?_
    (o := [.rxConn d]) (by simp [Smooth]) rfl ?_
  · cases k <;> rfl
  · cases k <;> rfl
  · cases k with
    | client => exact leads_store r (by simp) rfl ht
    | monitor => exact leads_enable r (fun _ => hs rfl) rfl ht

theorem leads_send {s : Bg} {t : Nat} (hs : k = .monitor → Roomy s s.subs) (h : s.pc = .connSend) (ht : s.now ≤ t) : Leads k m s t :=
  .step (s' := { s with pc := .connWait (s.now + 30000) }) .sendOk (by simp [bgStep, h]) rfl rfl
    (o := [.tx .task connReqPacket]) (by simp [Smooth]) rfl (leads_wait hg hs rfl ht)

theorem leads_top {s : Bg} {t : Nat} (hs : k = .monitor → Roomy s s.subs) (h : s.pc = .top) (ht : s.now ≤ t) : Leads k m s t := by
  cases hc : s.conn with
  | none => exact .step (s' := { s with pc := .connSend }) .run (by simp [bgStep, h, hc]) rfl rfl smooth_nil rfl (leads_send hg hs rfl ht)
  | some c => exact .step (s' := { s with pc := .recv }) .run (by simp [bgStep, h, hc]) rfl rfl smooth_nil rfl (.ready rfl (by simp [hc]) ht)

theorem leads_teardown {s : Bg} {t : Nat} (hs : k = .monitor → Roomy s s.subs) (h : s.pc = .teardown) (ht : s.now ≤ t) : Leads k m s t :=
  .step (s' := { s with conn := none, pc := .top }) .run (by simp [bgStep, h]) rfl rfl (o := [.down]) (by simp [Smooth]) rfl (leads_top hg hs rfl ht)

theorem leads_sleep {s : Bg} {dl t : Nat} (hs : k = .monitor → Roomy s s.subs) (h : s.pc = .connSleep dl) (h1 : dl ≤ t) (ht : s.now ≤ t) :
    Leads k m s t := by
  by_cases hd : dl ≤ s.now
  · exact .step (s' := { s with pc := .connSend }) .timer (by simp [bgStep, h, hd]) rfl rfl smooth_nil rfl (leads_send hg hs rfl ht)
  · refine .wait (u := dl) (by omega) (fun x hx => by simp [bgDeadline, h] at hx; omega) ?_
    exact .step (s' := { s with now := dl, pc := .connSend }) .timer (by simp [bgStep, h]) rfl rfl smooth_nil rfl (leads_send hg hs rfl h1)

theorem leads_select {s : Bg} {t : Nat} (hs : k = .monitor → Roomy s s.subs) (h : inSelect s.pc = true) (h1 : s.hbDue ≤ t) (ht : s.now ≤ t) :
    Leads k m s t := by
  have key : ∀ b : Bg, (k = .monitor → Roomy b b.subs) → inSelect b.pc = true → b.hbDue ≤ b.now → b.now ≤ t → Leads k m b t := by
    intro b hs hb hd hn
    cases hc : b.conn with
    | none =>
      refine .step (s' := { b with hbDue := nextTick b.now b.hbDue, pc := .teardown }) .tick (by simp [bgStep, tickStep, hb, hd, hc]) rfl rfl
        (o := if busy b.pc then [Obs.tick, .interrupt] else [Obs.tick]) ?_ ?_
        (leads_teardown hg hs rfl hn)
      · split <;> simp [Smooth]
      · split <;> rfl
    | some c =>
      refine .step (s' := { b with hbDue := nextTick b.now b.hbDue, pc := .hb c.channel c.endpoint }) .tick
        (by simp [bgStep, tickStep, hb, hd, hc]) rfl rfl (o := if busy b.pc then [Obs.tick, .interrupt] else [Obs.tick]) ?_ ?_ ?_
      · split <;> simp [Smooth]
      · split <;> rfl
      · exact .step (s' := { b with hbDue := nextTick b.now b.hbDue, pc := .recv }) .sendOk (by simp [bgStep]) rfl rfl
          (o := [.tx .task (ConnectionstateRequest.mk c.channel c.endpoint).packet]) (by simp [Smooth]) rfl (.ready rfl (by simp [hc]) hn)
  by_cases hd : s.hbDue ≤ s.now
  · exact key s hs h hd ht
  · refine .wait (u := s.hbDue) (by omega) (fun x hx => ?_) (key _ hs h (Nat.le_refl _) h1)
    cases hp : s.pc <;> simp_all [bgDeadline, inSelect]

/-- From every state of the task that is not its end, a connection within a minute. -/
theorem leads_any {s : Bg} {tr : List Obs} (h : GExec k m s tr) (hs : k = .monitor → SubsInv s tr) (h1 : s.pc ≠ .done) (h2 : s.pc ≠ .crashed) :
    Leads k m s (s.now + 60000) := by
  have hb := h.hbSoon
  have hR : k = .monitor → Roomy s s.subs := fun hk => (hs hk).caps
  cases hp : s.pc with
  | top => exact leads_top hg hR hp (by omega)
  | connSend => exact leads_send hg hR hp (by omega)
  | connWait dl => exact leads_wait hg hR hp (by omega)
  | connSleep dl =>
    have : dl ≤ s.now + 10000 := h.sleepSoon dl hp
    exact leads_sleep hg hR hp (by omega) (by omega)
  | enable r => exact leads_enable r hR hp (by omega)
  | store r' => exact leads_store r' hR hp (by omega)
  | notify t a =>
    cases k with
    | client => exact absurd hp (h.clientNoNotify t a)
    | monitor => exact leads_notify t s a hp (h.notifyConn t a hp) (fun id hid => by
        obtain ⟨-, -, old, e, -⟩ := (hs rfl).notif t a hp
        exact (hs rfl).caps id (by rw [e]; simp [hid])) (by omega)
  | recv => exact leads_select hg hR (by simp [hp, inSelect]) (by omega) (by omega)
  | ackReq a b c => exact leads_select hg hR (by simp [hp, inSelect]) (by omega) (by omega)
  | ackFeat a b => exact leads_select hg hR (by simp [hp, inSelect]) (by omega) (by omega)
  | push c => exact leads_select hg hR (by simp [hp, inSelect]) (by omega) (by omega)
  | discResp p => exact leads_select hg hR (by simp [hp, inSelect]) (by omega) (by omega)
  | hb ch ep =>
    refine .step (s' := { s with pc := .recv }) .sendOk (by simp [bgStep, hp]) rfl rfl
      (o := [.tx .task (ConnectionstateRequest.mk ch ep).packet]) (by simp [Smooth]) rfl (leads_select hg hR rfl ?_ ?_)
    all_goals simp only; omega
  | teardown => exact leads_teardown hg hR hp (by omega)
  | done => exact absurd hp h1
  | crashed => exact absurd hp h2

end

/-! ## Calls on an established connection -/

/-- A call up to the point where its request has been sent. -/
theorem sendRun (m : Mode) (s : Bg) (c : Conn) (cl : Call) (cemi : Bytes) (hpc : s.pc = .recv) (hc : s.conn = some c)
    (hs : ∀ a, apiCall m ⟨s, a⟩ cl = some (⟨s, .seqNr cl cemi⟩, [.call cl])) (ho : s.rxOpen = true) (hl : cemi.length ≤ 60000) :
    ∃ p, (∃ len, p = header TUNNELING_REQUEST len ++ [4, c.channel, c.seq, 0] ++ cemi) ∧
      PromptRun m ⟨s, .idle⟩ [.call cl, .drew c.seq] ⟨{ s with conn := some { c with seq := c.seq + 1 } }, .sendReq cl p⟩ := by
  obtain ⟨p, hp⟩ : ∃ p, (TunnelingRequest.mk c.channel c.seq cemi).packet m = .ok p := by
    cases h : (TunnelingRequest.mk c.channel c.seq cemi).packet m with
    | ok p => exact ⟨p, rfl⟩
    | err => exact absurd h packet_ne_err
    | panic =>
      rw [request_panic_iff] at h
      have h2 := h.2
      simp only at h2
      omega
  refine ⟨p, requestPacket_of hp, ?_⟩
  have hk : ∀ t : Bg, t.pc = .recv → connLocked .client t = false := by
    intro t ht; simp [connLocked, ht]
  have h4 : Knx.step m ⟨s, .idle⟩ (.api (.call cl)) = some (⟨s, .seqNr cl cemi⟩, [.call cl]) := by
    simp [Knx.step, apiStep, ho, hs]
  have h5 : Knx.step m ⟨s, .seqNr cl cemi⟩ (.api .run)
      = some (⟨{ s with conn := some { c with seq := c.seq + 1 } }, .chanId cl c.seq cemi⟩, [.drew c.seq]) := by
    simp only [Knx.step, apiStep, withConn, hk s hpc, reduceCtorEq, if_false, Bool.false_eq_true]
    simp only [hc]
  have h6 : Knx.step m ⟨{ s with conn := some { c with seq := c.seq + 1 } }, .chanId cl c.seq cemi⟩ (.api .run)
      = some (⟨{ s with conn := some { c with seq := c.seq + 1 } }, .sendReq cl p⟩, []) := by
    simp only [Knx.step, apiStep, withConn, hk { s with conn := some { c with seq := c.seq + 1 } } hpc, hp, reduceCtorEq,
      if_false, Bool.false_eq_true]
  exact .step (.api (.call _)) trivial h4 (.step (.api .run) trivial h5 (.step (.api .run) trivial h6 (.nil _)))

/-- The confirmation of a telegram to `dest`, as the interface `ch` delivers it. -/
def confirmation (ch seq : U8) (dest : U16) : Bytes :=
  frame TUNNELING_REQUEST ([4, ch, seq, 0] ++ ([0x2e, 0, 0xbc, 0xe0, 0, 0] ++ word dest.toNat ++ [1, 0, 0x80]))

def confirmCemi (dest : U16) : Cemi := ⟨0x2e, [], [0xbc, 0xe0, 0, 0] ++ word dest.toNat ++ [1, 0, 0x80]⟩

theorem bg_confirmation (k : Kind) (m : Mode) (s : Bg) (ch seq : U8) (dest : U16) (hpc : s.pc = .recv) (hr : s.rxOpen = true)
    (hq : s.queue.length < 100) :
    bgRun k m s [.dgram (confirmation ch seq dest), .sendOk, .run]
      = some ({ s with queue := s.queue ++ [confirmCemi dest] },
        [.rx (confirmation ch seq dest), .tx .task (frame TUNNELING_ACK [4, ch, seq, 0]), .queued (confirmCemi dest)]) := by
  refine (C41_datagram_exact k m s ch seq 0 _ (confirmCemi dest) (by simp [word]) hpc hr hq ?_).1
  rw [show ∀ b : Bytes, b.length ≤ 90 → cut b = b from fun b hb => by
    rw [cut, List.take_of_length_le hb, show b.length - 90 = 0 by omega]; simp]
  swap
  · simp [word]
  simp only [List.cons_append, List.nil_append]
  rw [cemi_plain]
  rfl

/-- A write that takes one of the telegrams still queued. -/
theorem drainOne (m : Mode) (s : Bg) (c : Conn) (x : Cemi) (q : List Cemi) (addr : KnxAddress) (b : U8) (hpc : s.pc = .recv) (hc : s.conn = some c)
    (ho : s.rxOpen = true) (hq : s.queue = x :: q) :
    ∃ tr, PromptRun m ⟨s, .idle⟩ tr ⟨{ s with queue := q, conn := some { c with seq := c.seq + 1 } }, .idle⟩ ∧ Smooth tr ∧
      calls tr = [.write addr [b] true] := by
  obtain ⟨cemi, hw⟩ : ∃ cemi, writeCemi m addr [b] true = .ok cemi := ⟨_, writeCemi_eq m addr [b] true (by simp) (by simp)⟩
  obtain ⟨p, -, h1⟩ := sendRun m s c (.write addr [b] true) cemi hpc hc (fun a => by simp only [apiCall, hw, startTunnel]) ho
    (by rw [writeCemi_length hw]; simp)
  have h2 : Knx.step m ⟨{ s with conn := some { c with seq := c.seq + 1 } }, .sendReq (.write addr [b] true) p⟩ (.api .sendOk)
      = some (⟨{ s with conn := some { c with seq := c.seq + 1 } }, .writing (s.now + 10000)⟩, [.tx .api p]) := by
    simp [Knx.step, apiStep, apiTimeout]
  obtain ⟨v, h3⟩ : ∃ v, Knx.step m ⟨{ s with conn := some { c with seq := c.seq + 1 } }, .writing (s.now + 10000)⟩ (.api .run)
      = some (⟨{ s with queue := q, conn := some { c with seq := c.seq + 1 } }, .idle⟩, [.taken 0 x, .ret v]) := by
    simp only [Knx.step, apiStep, reduceCtorEq, if_false, chanRecv, hq, writeMsg, finish, List.cons_append, List.nil_append]
    split
    · split
      · exact ⟨_, rfl⟩
      · exact ⟨_, rfl⟩
    · exact ⟨_, rfl⟩
  refine ⟨_, (h1.trans (.one (.api .sendOk) trivial h2)).trans (.one (.api .run) trivial h3), by simp [Smooth], by simp [calls]⟩

/-- Writes until nothing is queued any more. -/
theorem drain (m : Mode) (addr : KnxAddress) (b : U8) (s : Bg) (c : Conn) (hpc : s.pc = .recv) (hc : s.conn = some c) (ho : s.rxOpen = true) :
    ∃ tr c', PromptRun m ⟨s, .idle⟩ tr ⟨{ s with queue := [], conn := some c' }, .idle⟩ ∧ c'.channel = c.channel ∧ Smooth tr ∧
      calls tr = List.replicate s.queue.length (.write addr [b] true) := by
  induction hq : s.queue generalizing s c with
  | nil =>
    refine ⟨[], c, ?_, rfl, smooth_nil, rfl⟩
    have : ({ s with queue := [], conn := some c } : Bg) = s := by cases s; simp_all
    rw [this]; exact .nil _
  | cons x q ih =>
    obtain ⟨t1, h1, h2, h3⟩ := drainOne m s c x q addr b hpc hc ho hq
    obtain ⟨t2, c', k1, k2, k3, k4⟩ := ih { s with queue := q, conn := some { c with seq := c.seq + 1 } } { c with seq := c.seq + 1 } hpc rfl ho rfl
    refine ⟨t1 ++ t2, c', h1.trans k1, k2, h2.append k3, ?_⟩
    rw [show ∀ a b : List Obs, calls (a ++ b) = calls a ++ calls b from fun a b => by simp [calls], h3, k4]
    rfl

/-! ## C89 -/

/-- From every state that is not final: a connection, no call in progress and nothing queued, within a minute. -/
theorem recovers {m : Mode} {s : Sys} {tr : List Obs} {d : Bytes} {r : ConnectionResponse} (h : Exec m s tr) (hg : Grants d r)
    (h1 : Obs.dropped ∉ tr) (h2 : Obs.exit ∉ tr) (h3 : Obs.crash ∉ tr) (addr : KnxAddress) (b : U8) :
    ∃ tr' s' c, PromptRun m s tr' ⟨s', .idle⟩ ∧ s'.pc = .recv ∧ s'.conn = some c ∧ s'.queue = [] ∧ s'.rxOpen = true ∧
      s'.now ≤ s.bg.now + 60000 ∧ Smooth tr' ∧ ∃ n ≤ 100, calls tr' = List.replicate n (.write addr [b] true) := by
  have hgx := h.gexec
  have hend := hgx.ending
  have hopen : s.bg.rxOpen = true := by
    cases ho : s.bg.rxOpen with
    | true => rfl
    | false => exact absurd (hgx.channel.closed ho).2.2 h1
  obtain ⟨t1, g1, g2, g3⟩ : ∃ t1, PromptRun m s t1 ⟨s.bg, .idle⟩ ∧ Smooth t1 ∧ calls t1 = [] := by
    by_cases hi : s.api = .idle
    · refine ⟨[], ?_, smooth_nil, rfl⟩
      obtain ⟨b, a⟩ := s
      cases hi
      exact .nil _
    · exact ⟨[.cancelled], .one (.api .cancel) trivial (by simp [Knx.step, apiStep, hi]), by simp [Smooth], rfl⟩
  obtain ⟨t2, s2, k1, ⟨k2, k3⟩, k4, k5, k6, k7, k8⟩ := leads_any hg hgx (by simp) (fun hp => h2 (hend.exit.2 hp)) (fun hp => h3 (hend.crash.2 hp))
  obtain ⟨c, hc⟩ := Option.isSome_iff_exists.1 k3
  obtain ⟨t3, c', l1, -, l3, l4⟩ := drain m addr b s2 c k2 hc (k5.trans hopen)
  refine ⟨t1 ++ t2 ++ t3, _, c', (g1.trans k1.prompt).trans l1, k2, rfl, rfl, k5.trans hopen, k6, (g2.append k7).append l3, s2.queue.length, ?_, ?_⟩
  · rw [k4]; exact hgx.channel.bound
  · rw [show ∀ a b : List Obs, calls (a ++ b) = calls a ++ calls b from fun a b => by simp [calls],
      show ∀ a b : List Obs, calls (a ++ b) = calls a ++ calls b from fun a b => by simp [calls], g3, k8, l4]
    rfl

/-- C89, writes: from every situation in which the client object has not been dropped and the task has neither ended nor panicked, and for
every connect response with which the server may grant a connection: if from here on sends and receives succeed, a call that is in
progress is given up, and at most 100 writes are made to use up what is queued, then within a minute a given write is sent and
returns `Ok`. -/
theorem C89_write_partial {m : Mode} {s : Sys} {tr : List Obs} {d : Bytes} {r : ConnectionResponse} (h : Exec m s tr) (hg : Grants d r)
    (h1 : Obs.dropped ∉ tr) (h2 : Obs.exit ∉ tr) (h3 : Obs.crash ∉ tr) (addr : KnxAddress) (v : Bytes) (small : Bool)
    (hs : small = true → v ≠ []) (hb : small = false → v.length ≤ 253) :
    ∃ tr' s', PromptRun m s tr' s' ∧ s'.bg.now ≤ s.bg.now + 60000 ∧ Smooth tr' ∧ (calls tr').length ≤ 101 ∧
      EndsWith tr' (.write addr v small) .unit := by
  obtain ⟨t1, b, c, k1, k2, k3, k4, k5, k6, k7, n, hn, k8⟩ := recovers h hg h1 h2 h3 addr 0
  obtain ⟨cemi, hw⟩ : ∃ cemi, writeCemi m addr v small = .ok cemi := ⟨_, writeCemi_eq m addr v small hs hb⟩
  have hl := writeCemi_length hw
  obtain ⟨p, -, g1⟩ := sendRun m b c (.write addr v small) cemi k2 k3 (fun a => by simp only [apiCall, hw, startTunnel]) k5 (by
    cases small with
    | true => simp_all
    | false => have := hb rfl; simp at hl; omega)
  have g2 : Knx.step m ⟨{ b with conn := some { c with seq := c.seq + 1 } }, .sendReq (.write addr v small) p⟩ (.api .sendOk)
      = some (⟨{ b with conn := some { c with seq := c.seq + 1 } }, .writing (b.now + 10000)⟩, [.tx .api p]) := by
    simp [Knx.step, apiStep, apiTimeout]
  have g3 := bgRun_prompt (s := ⟨{ b with conn := some { c with seq := c.seq + 1 } }, .writing (b.now + 10000)⟩)
    (bg_confirmation .client m { b with conn := some { c with seq := c.seq + 1 } } c.channel 0 addr.toU16 k2 k5 (by simp [k4]))
  have g4 : Knx.step m ⟨{ b with conn := some { c with seq := c.seq + 1 }, queue := b.queue ++ [confirmCemi addr.toU16] }, .writing (b.now + 10000)⟩ (.api .run)
      = some (⟨{ b with conn := some { c with seq := c.seq + 1 }, queue := [] }, .idle⟩, [.taken 0 (confirmCemi addr.toU16), .ret .unit]) := by
    obtain ⟨i, hi⟩ := ((C15_lDataCon (confirmCemi addr.toU16)).2.1).2 (by simp [confirmCemi, word])
    have hcode : (confirmCemi addr.toU16).msgCode = codeLDataCon := rfl
    simp [Knx.step, apiStep, chanRecv, writeMsg, hcode, hi, finish, k4]
  have g := (((k1.trans g1).trans (.one (.api .sendOk) trivial g2)).trans g3).trans (.one (.api .run) trivial g4)
  refine ⟨_, _, g, k6, ?_, ?_, t1, [.drew c.seq, .tx .api p, .rx (confirmation c.channel 0 addr.toU16),
    .tx .task (frame TUNNELING_ACK [4, c.channel, 0, 0]), .queued (confirmCemi addr.toU16), .taken 0 (confirmCemi addr.toU16)],
    by simp, by simp [calls], by simp [returned], by simp⟩
  · simp only [List.append_assoc]
    exact k7.append (by simp [Smooth])
  · have e : ∀ a b : List Obs, calls (a ++ b) = calls a ++ calls b := fun a b => by simp [calls]
    simp only [e, List.length_append, k8, List.length_replicate]
    simp [calls]
    omega

/-- C89, reads: the same for a read, and every value of one to 79 bytes that the device may answer with. -/
theorem C89_read_partial {m : Mode} {s : Sys} {tr : List Obs} {d : Bytes} {r : ConnectionResponse} (h : Exec m s tr) (hg : Grants d r)
    (h1 : Obs.dropped ∉ tr) (h2 : Obs.exit ∉ tr) (h3 : Obs.crash ∉ tr) (addr : KnxAddress) (v : Bytes) (hv : 1 ≤ v.length) (hv' : v.length ≤ 79) :
    ∃ tr' s', PromptRun m s tr' s' ∧ s'.bg.now ≤ s.bg.now + 60000 ∧ Smooth tr' ∧ (calls tr').length ≤ 101 ∧
      EndsWith tr' (.read addr) (.value v) := by
  obtain ⟨t1, b, c, k1, k2, k3, k4, k5, k6, k7, n, hn, k8⟩ := recovers h hg h1 h2 h3 addr 0
  obtain ⟨p, -, g1⟩ := sendRun m b c (.read addr) (lDataReqFrame 3 addr.toU16.toNat apduRead) k2 k3 (fun a => by simp only [apiCall, readCemi_eq, startTunnel]) k5
    (by simp [lDataReqFrame, apduRead, word])
  have g2 : Knx.step m ⟨{ b with conn := some { c with seq := c.seq + 1 } }, .sendReq (.read addr) p⟩ (.api .sendOk)
      = some (⟨{ b with conn := some { c with seq := c.seq + 1 } }, .reading addr.toU16 (b.now + 10000)⟩, [.tx .api p]) := by
    simp [Knx.step, apiStep, apiTimeout]
  obtain ⟨d1, d2, hd⟩ : ∃ d1 d2, [d1, d2] = word addr.toU16.toNat := ⟨_, _, rfl⟩
  have el : (byte (v.length + 1)).toNat = v.length + 1 := by rw [byte_toNat]; omega
  obtain ⟨s', g3, -, hnow⟩ := delivered m ⟨{ b with conn := some { c with seq := c.seq + 1 } }, .reading addr.toU16 (b.now + 10000)⟩ addr.toU16 _
    c.channel 0 0xbc 0xe0 0 0 d1 d2 (byte (v.length + 1)) 0 0x40 v rfl k2 k5 k4 (by omega) hd
  have ev : (if 2 ≤ (byte (v.length + 1)).toNat then padded ((byte (v.length + 1)).toNat - 1) (padded v.length (v.take 79))
      else [byte ((0x40 : U8).toNat % 64)]) = v := by
    have e : padded v.length v = v := by rw [padded_eq]; simp
    rw [if_pos (by omega), el, Nat.add_sub_cancel, List.take_of_length_le hv', e, e]
  rw [ev] at g3
  have g := ((k1.trans g1).trans (.one (.api .sendOk) trivial g2)).trans g3
  refine ⟨_, _, g, hnow ▸ k6, ?_, ?_, t1, [.drew c.seq, .tx .api p,
    .rx (indication c.channel 0 0xbc 0xe0 0 0 d1 d2 (byte (v.length + 1)) 0 0x40 v),
    .tx .task (frame TUNNELING_ACK [4, c.channel, 0, 0]), .queued (indCemi 0xbc 0xe0 0 0 d1 d2 (byte (v.length + 1)) 0 0x40 v),
    .taken 0 (indCemi 0xbc 0xe0 0 0 d1 d2 (byte (v.length + 1)) 0 0x40 v)], by simp, by simp [calls], by simp [returned], by simp⟩
  · simp only [List.append_assoc]
    exact k7.append (by simp [Smooth])
  · have e : ∀ a b : List Obs, calls (a ++ b) = calls a ++ calls b := fun a b => by simp [calls]
    simp only [e, List.length_append, k8, List.length_replicate]
    simp [calls]
    omega

theorem successes_append (a b : List Obs) : successes (a ++ b) = successes a + successes b := by
  simp [successes, returned_append]

theorem ended_step {m : Mode} {s s' : Sys} {e : Ev} {o : List Obs} (h : Knx.step m s e = some (s', o)) (hp : sendersGone s.bg = true) :
    sendersGone s'.bg = true ∧ successes o + s'.bg.queue.length ≤ s.bg.queue.length ∧ taskSent o = [] ∧ ups o = [] ∧ received o = [] := by
  cases e with
  | bg e =>
    simp only [Knx.step, Option.map_eq_some_iff, Prod.exists, Prod.mk.injEq] at h
    obtain ⟨b, o', hb, rfl, rfl⟩ := h
    exfalso
    cases hq : s.bg.pc <;> simp [sendersGone, hq] at hp
    all_goals
      simp only [bgStep, hq, tickStep, inSelect, Bool.false_eq_true, false_and, if_false, ite_self, reduceCtorEq] at hb
  | api e =>
    have := apiStep_tr h
    cases this <;> simp_all [sendersGone, successes, returned, taskSent, ups, received] <;> omega
  | delay d =>
    simp only [Knx.step, Option.some.injEq, Prod.mk.injEq] at h
    obtain ⟨rfl, rfl⟩ := h
    exact ⟨hp, by simp [successes, returned], rfl, rfl, rfl⟩

theorem ended_run {m : Mode} {s s' : Sys} {tr : List Obs} (h : Run m s tr s') (hp : sendersGone s.bg = true) :
    successes tr + s'.bg.queue.length ≤ s.bg.queue.length ∧ taskSent tr = [] ∧ ups tr = [] ∧ received tr = [] := by
  induction h with
  | nil s => simp [successes, returned, taskSent, ups, received]
  | step e hs _ ih =>
    obtain ⟨h1, h2, h3, h4, h5⟩ := ended_step hs hp
    obtain ⟨k2, k3, k4, k5⟩ := ih h1
    refine ⟨?_, ?_, ?_, ?_⟩
    · rw [successes_append]; omega
    · rw [show ∀ a b : List Obs, taskSent (a ++ b) = taskSent a ++ taskSent b from fun a b => by simp [taskSent], h3, k3]; rfl
    · rw [show ∀ a b : List Obs, ups (a ++ b) = ups a ++ ups b from fun a b => by simp [ups], h4, k4]; rfl
    · rw [received_append, h5, k5]; rfl

/-- C89, the other side: once the task has ended or panicked nothing is sent by it any more, no connection is made, no datagram is looked
at, and the calls that still succeed are at most as many as there are telegrams still queued (at most 100). -/
theorem C89_ended {m : Mode} {s s' : Sys} {tr tr' : List Obs} (h : Exec m s tr) (he : Obs.exit ∈ tr ∨ Obs.crash ∈ tr) (hr : Run m s tr' s') :
    successes tr' + s'.bg.queue.length ≤ s.bg.queue.length ∧ s.bg.queue.length ≤ 100 ∧ taskSent tr' = [] ∧ ups tr' = [] ∧ received tr' = [] := by
  have hend := h.gexec.ending
  have hp : sendersGone s.bg = true := by
    rcases he with he | he
    · simp [sendersGone, hend.exit.1 he]
    · simp [sendersGone, hend.crash.1 he]
  obtain ⟨h1, h2⟩ := ended_run hr hp
  exact ⟨h1, h.gexec.channel.bound, h2⟩

/-- C89 is refuted: one datagram that says that the connection is closed, which needs no request before it, and from then on no read, no
write and no disconnect of this client succeeds, whatever happens and however long one waits. -/
theorem C89_violated (m : Mode) (d dd : Bytes) (r : ConnectionResponse) (x : DisconnectResponse) (h : Grants d r)
    (hx : Decodes (seen dd) (.disconnectResponse x)) :
    ∃ s, Exec m s (linkTrace .client d r ++ [.rx dd, .exit]) ∧ ∀ tr' s', Run m s tr' s' → successes tr' = 0 ∧ taskSent tr' = [] ∧ ups tr' = [] := by
  have hs : Knx.step m ⟨linkUp .client r, .idle⟩ (.bg (.dgram dd)) = some (⟨{ linkUp .client r with pc := .done }, .idle⟩, [.rx dd, .exit]) := by
    simp [Knx.step, bgStep, linkUp, onDatagram_bye hx, endObs]
  have he := (exec_link m h).step _ hs
  refine ⟨_, he, fun tr' s' hr => ?_⟩
  obtain ⟨h1, -, h2, h3, -⟩ := C89_ended he (Or.inl (by simp)) hr
  have : (linkUp .client r).queue.length = 0 := rfl
  simp only [this] at h1
  exact ⟨by omega, h2, h3⟩

/-! ## C89 for the monitor -/

theorem MPromptRun.one {m : Mode} {s s' : MSys} {o : List Obs} (e : MEv) (hp : mprompt s e) (h : Knx.mstep m s e = some (s', o)) :
    MPromptRun m s o s' := by
  have := MPromptRun.step e hp h (.nil s')
  rwa [List.append_nil] at this

theorem mrecovers {m : Mode} {s : MSys} {tr : List Obs} {d : Bytes} {r : ConnectionResponse} (h : MExec m s tr) (hg : Grants d r)
    (h1 : Obs.dropped ∉ tr) (h2 : Obs.exit ∉ tr) (h3 : Obs.crash ∉ tr) :
    ∃ tr' s', MPromptRun m s tr' ⟨s', .idle, s.waiting⟩ ∧ Ready s' ∧ s'.queue = s.bg.queue ∧ s'.rxOpen = true ∧
      s'.now ≤ s.bg.now + 60000 ∧ Smooth tr' ∧ calls tr' = [] := by
  have hgx := h.gexec
  have hend := hgx.ending
  have hopen : s.bg.rxOpen = true := by
    cases ho : s.bg.rxOpen with
    | true => rfl
    | false => exact absurd (hgx.channel.closed ho).2.2 h1
  obtain ⟨t1, g1, g2, g3⟩ : ∃ t1, MPromptRun m s t1 ⟨s.bg, .idle, s.waiting⟩ ∧ Smooth t1 ∧ calls t1 = [] := by
    by_cases hi : s.api = .idle
    · refine ⟨[], ?_, smooth_nil, rfl⟩
      obtain ⟨b, a, w⟩ := s
      cases hi
      exact .nil _
    · exact ⟨[.cancelled], .one (.api .cancel) trivial (by simp [Knx.mstep, mapiStep, hi]), by simp [Smooth], rfl⟩
  obtain ⟨t2, s2, k1, k2, k4, k5, k6, k7, k8⟩ := leads_any hg hgx (fun _ => h.subsInv) (fun hp => h2 (hend.exit.2 hp)) (fun hp => h3 (hend.crash.2 hp))
  refine ⟨t1 ++ t2, s2, g1.trans (k1.mprompt _), k2, k4, k5.trans hopen, k6, g2.append k7, ?_⟩
  rw [show ∀ a b : List Obs, calls (a ++ b) = calls a ++ calls b from fun a b => by simp [calls], g3, k8]
  rfl

/-- Callers of `next_msg` until nothing is queued any more. -/
theorem mdrain (m : Mode) (i : Nat) (s : Bg) (w : List Nat) (hpc : s.pc = .recv) (ho : s.rxOpen = true) :
    ∃ tr w', MPromptRun m ⟨s, .idle, w⟩ tr ⟨{ s with queue := [] }, .idle, w'⟩ ∧ Smooth tr ∧ calls tr = [] := by
  induction hq : s.queue generalizing s w with
  | nil =>
    refine ⟨[], w, ?_, smooth_nil, rfl⟩
    have : ({ s with queue := [] } : Bg) = s := by cases s; simp_all
    rw [this]; exact .nil _
  | cons x q ih =>
    obtain ⟨t1, w1, hi, h1, h2, h3⟩ : ∃ t1 w1, i ∈ w1 ∧ MPromptRun m ⟨s, .idle, w⟩ t1 ⟨s, .idle, w1⟩ ∧ Smooth t1 ∧ calls t1 = [] := by
      by_cases hi : i ∈ w
      · exact ⟨[], w, hi, .nil _, smooth_nil, rfl⟩
      · exact ⟨[.ncall i], i :: w, by simp, .one (.api (.ncall i)) trivial (by simp [Knx.mstep, mapiStep, mcallStep, ho, hi]), by simp [Smooth], rfl⟩
    obtain ⟨o, w2, hs, ho2, ho3⟩ : ∃ o w2, mstep m ⟨s, .idle, w1⟩ (.api (.nrun i)) = some (⟨{ s with queue := q }, .idle, w2⟩, o) ∧ Smooth o ∧
        calls o = [] := by
      simp only [Knx.mstep, mapiStep, hi, if_true, hq, nextMsg, nfinish]
      split
      · split
        · exact ⟨_, _, rfl, by simp [Smooth], rfl⟩
        · exact ⟨_, _, rfl, by simp [Smooth], rfl⟩
      · split
        · split <;> exact ⟨_, _, rfl, by simp [Smooth], rfl⟩
        · split
          · split <;> exact ⟨_, _, rfl, by simp [Smooth], rfl⟩
          · exact ⟨_, _, rfl, by simp [Smooth], rfl⟩
    obtain ⟨t2, w', k1, k2, k3⟩ := ih { s with queue := q } w2 hpc ho rfl
    refine ⟨t1 ++ o ++ t2, w', (h1.trans (.one (.api (.nrun i)) trivial hs)).trans k1, (h2.append ho2).append k2, ?_⟩
    rw [show ∀ a b : List Obs, calls (a ++ b) = calls a ++ calls b from fun a b => by simp [calls],
      show ∀ a b : List Obs, calls (a ++ b) = calls a ++ calls b from fun a b => by simp [calls], h3, ho3, k3]
    rfl

/-- C89, the monitor: from every situation in which the monitor object has not been dropped and the task has neither ended nor panicked: if
from here on sends and receives succeed, the subscribers take what is in their channels, and what is queued is used up, then within a
minute a caller of `next_msg` can be given any telegram: with any destination, source and value of one to 79 bytes. -/
theorem C89_monitor_next_partial {m : Mode} {s : MSys} {tr : List Obs} {d : Bytes} {r : ConnectionResponse} (h : MExec m s tr) (hg : Grants d r)
    (h1 : Obs.dropped ∉ tr) (h2 : Obs.exit ∉ tr) (h3 : Obs.crash ∉ tr) (i : Nat) (dest src : U16) (v : Bytes) (hv : 1 ≤ v.length)
    (hv' : v.length ≤ 79) :
    ∃ tr' s' a b x, MPromptRun m s tr' s' ∧ s'.bg.now ≤ s.bg.now + 60000 ∧ Smooth tr' ∧ calls tr' = [] ∧
      tr' = a ++ .ncall i :: b ++ [.nret i (.ind x)] ∧ Obs.ncancelled i ∉ b ∧ (∀ v', Obs.nret i v' ∉ b) ∧
      x.lData.dest = dest ∧ x.lData.src = src ∧ x.value = v := by
  obtain ⟨t1, b, k1, ⟨k2, k3⟩, k4, k5, k6, k7, k8⟩ := mrecovers h hg h1 h2 h3
  obtain ⟨t2, w, g1, g2, g3⟩ := mdrain m i b s.waiting k2 k5
  obtain ⟨t3, w', hw', l1, l2, l3⟩ : ∃ t3 w', i ∉ w' ∧ MPromptRun m ⟨{ b with queue := [] }, .idle, w⟩ t3 ⟨{ b with queue := [] }, .idle, w'⟩ ∧
      Smooth t3 ∧ calls t3 = [] := by
    by_cases hi : i ∈ w
    · exact ⟨[.ncancelled i], w.filter (· ≠ i), by simp, .one (.api (.ncancel i)) trivial (by simp [Knx.mstep, mapiStep, hi]), by simp [Smooth], rfl⟩
    · exact ⟨[], w, hi, .nil _, smooth_nil, rfl⟩
  have n1 : mstep m ⟨{ b with queue := [] }, .idle, w'⟩ (.api (.ncall i)) = some (⟨{ b with queue := [] }, .idle, i :: w'⟩, [.ncall i]) := by
    simp [Knx.mstep, mapiStep, mcallStep, k5, hw']
  obtain ⟨d1, d2, hd⟩ : ∃ d1 d2, [d1, d2] = word dest.toNat := ⟨_, _, rfl⟩
  obtain ⟨s1, s2, hs⟩ : ∃ s1 s2, [s1, s2] = word src.toNat := ⟨_, _, rfl⟩
  have el : (byte (v.length + 1)).toNat = v.length + 1 := by rw [byte_toNat]; omega
  obtain ⟨s', x, q1, q2, q3, q4, q5⟩ := mdelivered m ⟨{ b with queue := [] }, .idle, i :: w'⟩ dest src i
    0 0 0xbc 0xe0 s1 s2 d1 d2 (byte (v.length + 1)) 0 0x80 v (by simp) k2 k5 rfl (by omega) hd hs
  have ev : (if 2 ≤ (byte (v.length + 1)).toNat then padded ((byte (v.length + 1)).toNat - 1) (padded v.length (v.take 79))
      else [byte ((0x80 : U8).toNat % 64)]) = v := by
    have e : padded v.length v = v := by rw [padded_eq]; simp
    rw [if_pos (by omega), el, Nat.add_sub_cancel, List.take_of_length_le hv', e, e]
  rw [ev] at q5
  have g := (((k1.trans g1).trans l1).trans (.one (.api (.ncall i)) trivial n1)).trans q1
  refine ⟨_, _, t1 ++ t2 ++ t3, [.rx (indication 0 0 0xbc 0xe0 s1 s2 d1 d2 (byte (v.length + 1)) 0 0x80 v),
    .tx .task (frame TUNNELING_ACK [4, 0, 0, 0]), .queued (indCemi 0xbc 0xe0 s1 s2 d1 d2 (byte (v.length + 1)) 0 0x80 v),
    .taken i (indCemi 0xbc 0xe0 s1 s2 d1 d2 (byte (v.length + 1)) 0 0x80 v)], x, g, q2 ▸ k6, ?_, ?_, by simp, by simp, by simp, q3, q4, q5⟩
  · simp only [List.append_assoc]
    exact k7.append (g2.append (l2.append (by simp [Smooth])))
  · have e : ∀ a b : List Obs, calls (a ++ b) = calls a ++ calls b := fun a b => by simp [calls]
    simp only [e, k8, g3, l3]
    rfl

/-- C89, writes of the monitor: they return `Ok` as soon as there is a connection. -/
theorem C89_monitor_write_partial {m : Mode} {s : MSys} {tr : List Obs} {d : Bytes} {r : ConnectionResponse} (h : MExec m s tr) (hg : Grants d r)
    (h1 : Obs.dropped ∉ tr) (h2 : Obs.exit ∉ tr) (h3 : Obs.crash ∉ tr) (addr : KnxAddress) (v : Bytes) (small : Bool)
    (hs : small = true → v ≠ []) (hb : small = false → v.length ≤ 253) :
    ∃ tr' s', MPromptRun m s tr' s' ∧ s'.bg.now ≤ s.bg.now + 60000 ∧ Smooth tr' ∧ calls tr' = [.write addr v small] ∧
      EndsWith tr' (.write addr v small) .unit := by
  obtain ⟨t1, b, k1, ⟨k2, k3⟩, k4, k5, k6, k7, k8⟩ := mrecovers h hg h1 h2 h3
  obtain ⟨c, hc⟩ := Option.isSome_iff_exists.1 k3
  obtain ⟨cemi, hw⟩ : ∃ cemi, writeCemi m addr v small = .ok cemi := ⟨_, writeCemi_eq m addr v small hs hb⟩
  have hl := writeCemi_length hw
  have hl' : cemi.length ≤ 60000 := by
    cases small with
    | true => simp_all
    | false => have := hb rfl; simp at hl; omega
  obtain ⟨p, hp⟩ : ∃ p, (TunnelingRequest.mk c.channel c.seq cemi).packet m = .ok p := by
    cases h : (TunnelingRequest.mk c.channel c.seq cemi).packet m with
    | ok p => exact ⟨p, rfl⟩
    | err => exact absurd h packet_ne_err
    | panic =>
      rw [request_panic_iff] at h
      have h2 := h.2
      simp only at h2
      omega
  have hk : ∀ t : Bg, t.pc = .recv → connLocked .monitor t = false := by
    intro t ht; simp [connLocked, ht]
  have e1 : Knx.mstep m ⟨b, .idle, s.waiting⟩ (.api (.call (.write addr v small))) = some (⟨b, .seqNr cemi, s.waiting⟩, [.call (.write addr v small)]) := by
    simp only [Knx.mstep, mapiStep, mcallStep, k5, if_true, mapiCall, hw, mstartTunnel]
  have e2 : Knx.mstep m ⟨b, .seqNr cemi, s.waiting⟩ (.api .run)
      = some (⟨{ b with conn := some { c with seq := c.seq + 1 } }, .chanId c.seq cemi, s.waiting⟩, [.drew c.seq]) := by
    simp only [Knx.mstep, mapiStep, mcallStep, mwithConn, hk b k2, Bool.false_eq_true, if_false]
    simp only [hc]
  have e3 : Knx.mstep m ⟨{ b with conn := some { c with seq := c.seq + 1 } }, .chanId c.seq cemi, s.waiting⟩ (.api .run)
      = some (⟨{ b with conn := some { c with seq := c.seq + 1 } }, .sendReq p, s.waiting⟩, []) := by
    simp only [Knx.mstep, mapiStep, mcallStep, mwithConn, hk { b with conn := some { c with seq := c.seq + 1 } } k2, hp, if_false, Bool.false_eq_true]
  have e4 : Knx.mstep m ⟨{ b with conn := some { c with seq := c.seq + 1 } }, .sendReq p, s.waiting⟩ (.api .sendOk)
      = some (⟨{ b with conn := some { c with seq := c.seq + 1 } }, .idle, s.waiting⟩, [.tx .api p, .ret .unit]) := by
    simp [Knx.mstep, mapiStep, mcallStep, mfinish]
  have g := (((k1.trans (.one (.api (.call _)) trivial e1)).trans (.one (.api .run) trivial e2)).trans (.one (.api .run) trivial e3)).trans
    (.one (.api .sendOk) trivial e4)
  refine ⟨_, _, g, k6, ?_, ?_, t1, [.drew c.seq, .tx .api p], by simp, by simp [calls], by simp [returned], by simp⟩
  · simp only [List.append_assoc]
    exact k7.append (by simp [Smooth])
  · have e : ∀ a b : List Obs, calls (a ++ b) = calls a ++ calls b := fun a b => by simp [calls]
    simp only [e, k8]
    rfl

/-- Once the task of a monitor has ended. -/
theorem mended_step {m : Mode} {s s' : MSys} {e : MEv} {o : List Obs} (h : Knx.mstep m s e = some (s', o)) (hp : sendersGone s.bg = true) :
    sendersGone s'.bg = true ∧ nsuccesses o + s'.bg.queue.length ≤ s.bg.queue.length ∧ taskSent o = [] ∧ ups o = [] ∧ received o = [] := by
  cases e with
  | bg e =>
    simp only [Knx.mstep, Option.map_eq_some_iff, Prod.exists, Prod.mk.injEq] at h
    obtain ⟨b, o', hb, rfl, rfl⟩ := h
    exfalso
    cases hq : s.bg.pc <;> simp [sendersGone, hq] at hp
    all_goals
      simp only [bgStep, hq, tickStep, inSelect, Bool.false_eq_true, false_and, if_false, ite_self, reduceCtorEq] at hb
  | api e =>
    have := mapiStep_tr h
    cases this <;> (simp_all [sendersGone, nsuccesses, taskSent, ups, received, setChan]; try omega)
  | delay d =>
    simp only [Knx.mstep, Option.some.injEq, Prod.mk.injEq] at h
    obtain ⟨rfl, rfl⟩ := h
    exact ⟨hp, by simp [nsuccesses], rfl, rfl, rfl⟩

theorem mended_run {m : Mode} {s s' : MSys} {tr : List Obs} (h : MRun m s tr s') (hp : sendersGone s.bg = true) :
    nsuccesses tr + s'.bg.queue.length ≤ s.bg.queue.length ∧ taskSent tr = [] ∧ ups tr = [] ∧ received tr = [] := by
  induction h with
  | nil s => simp [nsuccesses, taskSent, ups, received]
  | step e hs _ ih =>
    obtain ⟨h1, h2, h3, h4, h5⟩ := mended_step hs hp
    obtain ⟨k2, k3, k4, k5⟩ := ih h1
    refine ⟨?_, ?_, ?_, ?_⟩
    · rw [show ∀ a b : List Obs, nsuccesses (a ++ b) = nsuccesses a + nsuccesses b from fun a b => by simp [nsuccesses]]; omega
    · rw [show ∀ a b : List Obs, taskSent (a ++ b) = taskSent a ++ taskSent b from fun a b => by simp [taskSent], h3, k3]; rfl
    · rw [show ∀ a b : List Obs, ups (a ++ b) = ups a ++ ups b from fun a b => by simp [ups], h4, k4]; rfl
    · rw [received_append, h5, k5]; rfl

/-- C89, the monitor: once the task has ended or panicked, the telegrams that callers of `next_msg` still get are at most those queued. -/
theorem C89_monitor_ended {m : Mode} {s s' : MSys} {tr tr' : List Obs} (h : MExec m s tr) (he : Obs.exit ∈ tr ∨ Obs.crash ∈ tr) (hr : MRun m s tr' s') :
    nsuccesses tr' + s'.bg.queue.length ≤ s.bg.queue.length ∧ s.bg.queue.length ≤ 100 ∧ taskSent tr' = [] ∧ ups tr' = [] ∧ received tr' = [] := by
  have hend := h.gexec.ending
  have hp : sendersGone s.bg = true := by
    rcases he with he | he
    · simp [sendersGone, hend.exit.1 he]
    · simp [sendersGone, hend.crash.1 he]
  obtain ⟨h1, h2⟩ := mended_run hr hp
  exact ⟨h1, h.gexec.channel.bound, h2⟩

/-- C89 is refuted for the monitor as well. -/
theorem C89_monitor_violated (m : Mode) (d dd : Bytes) (r : ConnectionResponse) (x : DisconnectResponse) (h : Grants d r)
    (hx : Decodes (seen dd) (.disconnectResponse x)) :
    ∃ s, MExec m s (linkTrace .monitor d r ++ [.rx dd, .exit]) ∧ ∀ tr' s', MRun m s tr' s' → nsuccesses tr' = 0 ∧ taskSent tr' = [] ∧ ups tr' = [] := by
  have hs : Knx.mstep m ⟨linkUp .monitor r, .idle, []⟩ (.bg (.dgram dd))
      = some (⟨{ linkUp .monitor r with pc := .done }, .idle, []⟩, [.rx dd, .exit]) := by
    simp [Knx.mstep, bgStep, linkUp, onDatagram_bye hx, endObs]
  have he := (mexec_link m h).step _ hs
  refine ⟨_, he, fun tr' s' hr => ?_⟩
  obtain ⟨h1, -, h2, h3, -⟩ := C89_monitor_ended he (Or.inl (by simp)) hr
  have : (linkUp .monitor r).queue.length = 0 := rfl
  simp only [this] at h1
  exact ⟨by omega, h2, h3⟩

set_option synthInstance.maxSize 1000 in
/-- The hypotheses of C89 are met by a client in trouble: it received something it cannot decode, gave its connection up, was refused a new
one and is waiting to try again, while a caller waits for the answer to a read. -/
example (m : Mode) : ∃ s tr, Exec m s tr ∧ Obs.dropped ∉ tr ∧ Obs.exit ∉ tr ∧ Obs.crash ∉ tr ∧ s.bg.conn = none ∧
    s.bg.pc = .connSleep 10000 ∧ s.api = .reading 0x801 10000 ∧ Obs.down ∈ tr := by
  obtain ⟨s, tr, h1, h2⟩ := exec_of_evs (m := m) (evs := [.bg .run, .bg .sendOk, .bg (.dgram grant7), .bg .run,
      .api (.call (.read (.group3 ⟨1, 0, 1⟩))), .api .run, .api .run, .api .sendOk,
      .bg (.dgram [1]), .bg .run, .bg .run, .bg .sendOk, .bg (.dgram [6, 0x10, 2, 6, 0, 8, 0, 0x24])])
    (f := fun x => (x.1.bg.conn, x.1.bg.pc, x.1.api, x.2.contains .dropped, x.2.contains .exit, x.2.contains .crash, x.2.contains .down))
    (y := (none, .connSleep 10000, .reading 0x801 10000, false, false, false, true)) (by cases m <;> decide +kernel)
  simp only [Prod.mk.injEq] at h2
  obtain ⟨e1, e2, e3, e4, e5, e6, e7⟩ := h2
  refine ⟨s, tr, h1, ?_, ?_, ?_, e1, e2, e3, by simpa using e7⟩
  · simpa using e4
  · simpa using e5
  · simpa using e6

/-- A case of C89_violated. -/
example (m : Mode) : ∃ s, Exec m s (linkTrace .client grant7 conn7 ++ [.rx bye7, .exit]) ∧
    ∀ tr' s', Run m s tr' s' → successes tr' = 0 ∧ taskSent tr' = [] ∧ ups tr' = [] :=
  C89_violated m grant7 bye7 conn7 ⟨7, 0⟩ grants7 (by
    rw [show seen bye7 = frame DISCONNECT_RESPONSE [7, 0] ++ List.replicate 92 0 by decide +kernel]
    exact .disconnectResponse 7 0 _)

/-- C89_monitor: a monitor whose only subscriber has not taken the first notification out of its channel of one place, so that the task
hangs in the second one while a caller waits in `next_msg`. -/
example (m : Mode) : ∃ s tr, MExec m s tr ∧ Obs.dropped ∉ tr ∧ Obs.exit ∉ tr ∧ Obs.crash ∉ tr ∧ s.bg.pc = .notify [1] [] ∧ s.waiting = [5] ∧
    bgStep .monitor m s.bg .run = none := by
  obtain ⟨s, tr, h1, h2⟩ := mexec_of_evs (m := m) (evs := [.api (.mkChan 1 1), .api (.call (.subscribe 1)), .api .run, .api (.ncall 5),
      .bg .run, .bg .sendOk, .bg (.dgram grant7), .bg .sendOk, .bg .run, .bg .run, .bg .run, .bg (.dgram [1]), .bg .run, .bg .run,
      .bg .sendOk, .bg (.dgram grant7), .bg .sendOk, .bg .run])
    (f := fun x => ((x.1.bg.pc, x.1.waiting, (bgStep .monitor m x.1.bg .run).isNone), x.2.contains .dropped, x.2.contains .exit, x.2.contains .crash))
    (y := ((.notify [1] [], [5], true), false, false, false)) (by cases m <;> decide +kernel)
  simp only [Prod.mk.injEq] at h2
  obtain ⟨⟨e1, e2, e3⟩, e4, e5, e6⟩ := h2
  refine ⟨s, tr, h1, ?_, ?_, ?_, e1, e2, by simpa using e3⟩
  · simpa using e4
  · simpa using e5
  · simpa using e6

/-- C89_ended: a telegram was queued before the task ended; the write made afterwards succeeds with it. -/
example (m : Mode) : ∃ s s' tr tr', Exec m s tr ∧ Obs.exit ∈ tr ∧ s.bg.queue.length = 1 ∧ Run m s tr' s' ∧ successes tr' = 1 := by
  obtain ⟨s, tr, h1, h2⟩ := exec_of_evs (m := m) (evs := [.bg .run, .bg .sendOk, .bg (.dgram grant7), .bg .run, .bg (.dgram (confirmation 7 0 0x801)), .bg .sendOk,
      .bg .run, .bg (.dgram bye7)])
    (f := fun x => (x.2.contains .exit, x.1.bg.queue.length,
      (runEvs m x.1 [.api (.call (.write (.group3 ⟨1, 0, 1⟩) [1] true)), .api .run, .api .run, .api .sendOk, .api .run]).map fun y => successes y.2))
    (y := (true, 1, some 1)) (by cases m <;> decide +kernel)
  simp only [Prod.mk.injEq, Option.map_eq_some_iff] at h2
  obtain ⟨e1, e2, ⟨s', tr'⟩, e3, e4⟩ := h2
  exact ⟨s, s', tr, tr', h1, by simpa using e1, e2, runEvs_run e3, e4⟩

end Knx
