import Verif.Lemmas.Gateway
import Verif.Props.Answers
import Verif.Props.Calls

/-!
# Properties C88: requests and a server that follows the standard
-/

namespace Knx
open Spec

/-! ## C88 -/

theorem prefix_count {a : U8} {n : Nat} {ns : List U8} (h : ns <+: count a n) : ns = count a ns.length := by
  obtain ⟨t, ht⟩ := h
  have hl : ns.length + t.length = n := by
    have := congrArg List.length ht
    simpa [count_length] using this
  subst hl
  rw [count_add] at ht
  exact (List.append_inj ht (by rw [count_length])).1

/-- The requests sent on the current connection carry some of the numbers from the first one on; all of them, if no call was disturbed. -/
theorem Kept.numbers {k : Kind} {m : Mode} {s : Bg} {tr : List Obs} {st : Stage} {r : ConnectionResponse} (h : Kept st s.conn tr)
    (hx : GExec k m s tr) (hr : lastUp tr = some r) (hb : Spec.bracket (upto isUp tr) = some false) :
    ∃ ns, Numbers r.channel (requestsSent (since isUp tr)) ns ∧ ns.Sublist (count (firstSeq k) (drawn (since isUp tr)).length) ∧
      (Undisturbed (since isUp tr) → ns = count (firstSeq k) ns.length) := by
  obtain ⟨n, hn, _⟩ := hx.sequence
  rw [← count_eq] at hn
  have : ∃ f, Held (Undisturbed (since isUp tr)) r.channel s.conn f (since isUp tr) := by
    have := h r hr hb
    cases st with
    | none => exact ⟨_, this⟩
    | drawn n => exact ⟨_, this⟩
    | built p => obtain ⟨_, _, _, h⟩ := this; exact ⟨_, h⟩
  obtain ⟨f, ns, ds, g1, g2, g3, g4⟩ := this
  rw [hn] at g2
  have hlen : (drawn (since isUp tr)).length = n := by rw [hn, count_length]
  refine ⟨ns, g1, ?_, fun hu => ?_⟩
  · rw [hlen, g2]; exact g3.trans (List.sublist_append_left _ _)
  · exact prefix_count (n := n) (by rw [g2]; exact (g4 hu).1.trans (List.prefix_append _ _))

/-- C88, the part that holds: if no call was in progress when the connection was established and since then no call has failed to
send, panicked or been dropped, then a server that gets every request forwards every one of them, any number of them. -/
theorem C88_accepted_partial {m : Mode} {s : Sys} {tr : List Obs} {r : ConnectionResponse} (h : Exec m s tr) (hr : lastUp tr = some r)
    (hb : bracket (upto isUp tr) = some false) (hu : Undisturbed (since isUp tr)) :
    gate r.channel 0 (requestsSent (since isUp tr)) = (requestsSent (since isUp tr)).map passed := by
  obtain ⟨ns, h1, _, h3⟩ := h.kept.numbers h.gexec hr hb
  rw [h3 hu] at h1
  exact (gate_count h1).1

/-- C88 for the monitor, whose first number, 0, is that of the feature request sent when the connection is established. -/
theorem C88_monitor_accepted_partial {m : Mode} {s : MSys} {tr : List Obs} {r : ConnectionResponse} (h : MExec m s tr) (hr : lastUp tr = some r)
    (hb : bracket (upto isUp tr) = some false) (hu : Undisturbed (since isUp tr)) :
    gate r.channel 1 (requestsSent (since isUp tr)) = (requestsSent (since isUp tr)).map passed := by
  obtain ⟨ns, h1, _, h3⟩ := h.kept.numbers h.gexec hr hb
  rw [h3 hu] at h1
  exact (gate_count h1).1

theorem gate_lost {ch e : U8} {pre post : List Bytes} {p : Bytes} {n : Nat} (h : Numbers ch (pre ++ p :: post) (count e n)) :
    gate ch e (pre ++ post) = pre.map passed ++ ((post.take 254).map (fun _ => Verdict.discarded) ++
      ((post.drop 254).take 1).map (fun _ => Verdict.repeated) ++ (post.drop 255).map passed) := by
  have hl : n = pre.length + (1 + post.length) := by
    have := h.length_eq
    rw [count_length] at this
    simp at this; omega
  subst hl
  rw [count_add] at h
  have h1 : Numbers ch pre (count e pre.length) := by
    have := List.forall₂_take_append _ _ _ h
    rwa [count_length, List.take_left] at this
  have h2 : Numbers ch (p :: post) (count (e + BitVec.ofNat 8 pre.length) (1 + post.length)) := by
    have := List.forall₂_drop_append _ _ _ h
    rwa [count_length, List.drop_left] at this
  rw [Nat.add_comm 1] at h2
  cases h2 with
  | cons _ h3 => rw [gate_append, (gate_count h1).1, (gate_count h1).2, gate_behind h3]

/-- C88 is refuted: when one request is lost on the way, the server discards the following 254 requests without a word, takes the 255th
for a repetition, which it acknowledges without forwarding it, and only then is in step again. The client never repeats a request. -/
theorem C88_lost {m : Mode} {s : Sys} {tr : List Obs} {r : ConnectionResponse} {pre post : List Bytes} {p : Bytes} (h : Exec m s tr)
    (hr : lastUp tr = some r) (hb : bracket (upto isUp tr) = some false) (hu : Undisturbed (since isUp tr))
    (hp : requestsSent (since isUp tr) = pre ++ p :: post) :
    gate r.channel 0 (pre ++ post) = pre.map passed ++ ((post.take 254).map (fun _ => Verdict.discarded) ++
      ((post.drop 254).take 1).map (fun _ => Verdict.repeated) ++ (post.drop 255).map passed) := by
  obtain ⟨ns, h1, _, h3⟩ := h.kept.numbers h.gexec hr hb
  rw [h3 hu, hp] at h1
  exact gate_lost h1

/-- C88: the same for the monitor. -/
theorem C88_monitor_lost {m : Mode} {s : MSys} {tr : List Obs} {r : ConnectionResponse} {pre post : List Bytes} {p : Bytes} (h : MExec m s tr)
    (hr : lastUp tr = some r) (hb : bracket (upto isUp tr) = some false) (hu : Undisturbed (since isUp tr))
    (hp : requestsSent (since isUp tr) = pre ++ p :: post) :
    gate r.channel 1 (pre ++ post) = pre.map passed ++ ((post.take 254).map (fun _ => Verdict.discarded) ++
      ((post.drop 254).take 1).map (fun _ => Verdict.repeated) ++ (post.drop 255).map passed) := by
  obtain ⟨ns, h1, _, h3⟩ := h.kept.numbers h.gexec hr hb
  rw [h3 hu, hp] at h1
  exact gate_lost h1

theorem gate_gap {ch e : U8} {ps : List Bytes} {ns : List U8} {k : Nat} (h : Numbers ch ps ns) (h1 : ns.Sublist (count e k)) (hk : k ≤ 255) :
    ∃ a b, ps = a ++ b ∧ gate ch e ps = a.map passed ++ b.map (fun _ => Verdict.discarded) ∧ Numbers ch a (count e a.length) ∧
      ∀ p ∈ b.head?, ∀ cemi, ¬ RequestPacket ch (e + BitVec.ofNat 8 a.length) cemi p := by
  induction k generalizing e ps ns with
  | zero =>
    have : ns = [] := by simpa [count] using h1
    subst this; cases h
    exact ⟨[], [], rfl, rfl, .nil, by simp⟩
  | succ k ih =>
    have behind : ∀ {qs : List Bytes} {ms : List U8}, Numbers ch qs ms → ms.Sublist (count (e + 1) k) →
        ∃ a b, qs = a ++ b ∧ gate ch e qs = a.map passed ++ b.map (fun _ => Verdict.discarded) ∧ Numbers ch a (count e a.length) ∧
      ∀ p ∈ b.head?, ∀ cemi, ¬ RequestPacket ch (e + BitVec.ofNat 8 a.length) cemi p := by
      intro qs ms g1 g2
      have hne : ∀ x ∈ ms, x ≠ e ∧ x + 1 ≠ e := by
        intro x hx
        obtain ⟨i, hi, rfl⟩ := mem_count.1 (g2.subset hx)
        constructor <;>
        · intro he
          have := congrArg BitVec.toNat he
          simp at this; omega
      refine ⟨[], qs, rfl, (gate_discards g1 hne).1, .nil, ?_⟩
      intro p hp cemi hr
      cases g1 with
      | nil => simp at hp
      | @cons q n _ _ hq _ =>
        simp only [List.head?_cons, Option.mem_def, Option.some.injEq] at hp
        subst hp
        obtain ⟨cemi', hq⟩ := hq
        have e1 := (requestOf_packet hq).1
        rw [(requestOf_packet hr).1] at e1
        simp only [Option.some.injEq, Prod.mk.injEq, true_and, List.length_nil] at e1
        exact (hne n (List.mem_cons_self ..)).1 (by rw [← e1.1]; simp)
    rw [count] at h1
    cases h1 with
    | cons _ h1 => exact behind h h1
    | cons_cons _ h1 =>
      cases h with
      | @cons p _ ps _ hp h =>
        obtain ⟨cemi, hp⟩ := hp
        obtain ⟨a, b, g1, g2, g3, g4⟩ := ih h h1 (by omega)
        refine ⟨p :: a, b, by rw [g1]; rfl, ?_, .cons ⟨cemi, hp⟩ g3, ?_⟩
        · simp only [gate, gateStep_expected hp, g2, List.map_cons, List.cons_append]
        · intro q hq cemi'
          have e2 : e + BitVec.ofNat 8 (a.length + 1) = e + 1 + BitVec.ofNat 8 a.length := by
            apply BitVec.eq_of_toNat_eq; simp; omega
          rw [List.length_cons, e2]
          exact g4 q hq cemi'

theorem numbers_sublist {ch : U8} {ps qs : List Bytes} {ns : List U8} (h : ps.Sublist qs) (h1 : Numbers ch qs ns) :
    ∃ ms, Numbers ch ps ms ∧ ms.Sublist ns := by
  induction h generalizing ns with
  | slnil => cases h1; exact ⟨[], .nil, .slnil⟩
  | cons q _ ih =>
    cases h1 with
    | cons _ h2 => obtain ⟨ms, g1, g2⟩ := ih h2; exact ⟨ms, g1, g2.cons _⟩
  | cons_cons q _ ih =>
    cases h1 with
    | cons h0 h2 => obtain ⟨ms, g1, g2⟩ := ih h2; exact ⟨_ :: ms, .cons h0 g1, g2.cons_cons _⟩

/-- C88, exactly what a server forwards while at most 255 numbers have been drawn, whatever was lost and whatever became of the calls:
the requests up to the first gap in the numbers, and nothing after it. -/
theorem C88_gap {m : Mode} {s : Sys} {tr : List Obs} {r : ConnectionResponse} {ps : List Bytes} (h : Exec m s tr) (hr : lastUp tr = some r)
    (hb : bracket (upto isUp tr) = some false) (hp : ps.Sublist (requestsSent (since isUp tr))) (hd : (drawn (since isUp tr)).length ≤ 255) :
    ∃ a b, ps = a ++ b ∧ gate r.channel 0 ps = a.map passed ++ b.map (fun _ => Verdict.discarded) ∧ Numbers r.channel a (count 0 a.length) ∧
      ∀ p ∈ b.head?, ∀ cemi, ¬ RequestPacket r.channel (byte a.length) cemi p := by
  obtain ⟨ns, h1, h2, _⟩ := h.kept.numbers h.gexec hr hb
  obtain ⟨ms, g1, g2⟩ := numbers_sublist hp h1
  obtain ⟨a, b, k1, k2, k3, k4⟩ := gate_gap g1 (g2.trans h2) hd
  exact ⟨a, b, k1, k2, k3, by simpa [firstSeq, byte] using k4⟩

/-- The answer to a heart beat. -/
def alive (ch : U8) : Bytes := frame CONNECTIONSTATE_RESPONSE [ch, 0]

/-- What is observed within a minute: a heart beat, its answer, and a write of the byte `b` that gets no confirmation. -/
def minute (c : Conn) (addr : KnxAddress) (b : U8) (p : Bytes) (n : U8) : List Obs :=
  [.tick, .tx .task (ConnectionstateRequest.mk c.channel c.endpoint).packet, .rx (alive c.channel),
    .call (.write addr [b] true), .drew n, .tx .api p, .ret .err]

/-- The run of this minute. -/
theorem minuteRun (m : Mode) (s : Bg) (c : Conn) (addr : KnxAddress) (b : U8) (hpc : s.pc = .recv) (hc : s.conn = some c) (hd : s.hbDue = s.now)
    (ho : s.rxOpen = true) :
    ∃ p, PromptRun m ⟨s, .idle⟩ (minute c addr b p c.seq)
      ⟨{ s with now := s.now + 60000, hbDue := s.now + 60000, conn := some { c with seq := c.seq + 1 } }, .idle⟩ ∧
      ∃ cemi, RequestPacket c.channel c.seq cemi p := by
  obtain ⟨cemi, hw⟩ : ∃ cemi, writeCemi m addr [b] true = .ok cemi := ⟨_, writeCemi_eq m addr [b] true (by simp) (by simp)⟩
  obtain ⟨p, hp⟩ : ∃ p, (TunnelingRequest.mk c.channel c.seq cemi).packet m = .ok p := by
    cases h : (TunnelingRequest.mk c.channel c.seq cemi).packet m with
    | ok p => exact ⟨p, rfl⟩
    | err => exact absurd h packet_ne_err
    | panic =>
      rw [request_panic_iff] at h
      have := writeCemi_length hw
      simp only [if_true] at this
      have h2 := h.2
      simp [this] at h2
  refine ⟨p, ?_, cemi, requestPacket_of hp⟩
  have e : onDatagram (alive c.channel) = .recv := by
    refine onDatagram_fine (t := ⟨c.channel, 0⟩) ?_ rfl
    rw [alive, seen_short (by simp [frame, word])]
    exact .connectionstateResponse c.channel 0 _
  have h1 : Knx.step m ⟨s, .idle⟩ (.bg .tick)
      = some (⟨{ s with hbDue := s.now + 60000, pc := .hb c.channel c.endpoint }, .idle⟩, [.tick]) := by
    simp [Knx.step, bgStep, tickStep, hpc, inSelect, busy, hc, hd, nextTick_self]
  have h2 : Knx.step m ⟨{ s with hbDue := s.now + 60000, pc := .hb c.channel c.endpoint }, .idle⟩ (.bg .sendOk)
      = some (⟨{ s with hbDue := s.now + 60000 }, .idle⟩, [.tx .task (ConnectionstateRequest.mk c.channel c.endpoint).packet]) := by
    simp [Knx.step, bgStep, hpc]
  have h3 : Knx.step m ⟨{ s with hbDue := s.now + 60000 }, .idle⟩ (.bg (.dgram (alive c.channel)))
      = some (⟨{ s with hbDue := s.now + 60000 }, .idle⟩, [.rx (alive c.channel)]) := by
    simp only [Knx.step, bgStep, hpc, e, endObs, reduceCtorEq, if_false, Option.map_some]
  have h4 : Knx.step m ⟨{ s with hbDue := s.now + 60000 }, .idle⟩ (.api (.call (.write addr [b] true)))
      = some (⟨{ s with hbDue := s.now + 60000 }, .seqNr (.write addr [b] true) cemi⟩, [.call (.write addr [b] true)]) := by
    simp [Knx.step, apiStep, apiCall, ho, hw, startTunnel]
  have hl : ∀ t : Bg, t.pc = .recv → connLocked .client t = false := by
    intro t ht; simp [connLocked, ht]
  have h5 : Knx.step m ⟨{ s with hbDue := s.now + 60000 }, .seqNr (.write addr [b] true) cemi⟩ (.api .run)
      = some (⟨{ s with hbDue := s.now + 60000, conn := some { c with seq := c.seq + 1 } }, .chanId (.write addr [b] true) c.seq cemi⟩,
        [.drew c.seq]) := by
    simp only [Knx.step, apiStep, withConn, hl { s with hbDue := s.now + 60000 } hpc, reduceCtorEq, if_false, Bool.false_eq_true]
    simp only [hc]
  have h6 : Knx.step m ⟨{ s with hbDue := s.now + 60000, conn := some { c with seq := c.seq + 1 } }, .chanId (.write addr [b] true) c.seq cemi⟩ (.api .run)
      = some (⟨{ s with hbDue := s.now + 60000, conn := some { c with seq := c.seq + 1 } }, .sendReq (.write addr [b] true) p⟩, []) := by
    simp only [Knx.step, apiStep, withConn, hl { s with hbDue := s.now + 60000, conn := some { c with seq := c.seq + 1 } } hpc, hp, reduceCtorEq,
      if_false, Bool.false_eq_true]
  have h7 : Knx.step m ⟨{ s with hbDue := s.now + 60000, conn := some { c with seq := c.seq + 1 } }, .sendReq (.write addr [b] true) p⟩ (.api .sendOk)
      = some (⟨{ s with hbDue := s.now + 60000, conn := some { c with seq := c.seq + 1 } }, .writing (s.now + 10000)⟩, [.tx .api p]) := by
    simp [Knx.step, apiStep, apiTimeout]
  have h8 : Knx.step m ⟨{ s with hbDue := s.now + 60000, conn := some { c with seq := c.seq + 1 } }, .writing (s.now + 10000)⟩ (.delay 10000)
      = some (⟨{ s with hbDue := s.now + 60000, conn := some { c with seq := c.seq + 1 }, now := s.now + 10000 }, .writing (s.now + 10000)⟩, []) := by
    simp [Knx.step]
  have h9 : Knx.step m ⟨{ s with hbDue := s.now + 60000, conn := some { c with seq := c.seq + 1 }, now := s.now + 10000 }, .writing (s.now + 10000)⟩ (.api .timer)
      = some (⟨{ s with hbDue := s.now + 60000, conn := some { c with seq := c.seq + 1 }, now := s.now + 10000 }, .idle⟩, [.ret .err]) := by
    simp [Knx.step, apiStep, finish]
  have h10 : Knx.step m ⟨{ s with hbDue := s.now + 60000, conn := some { c with seq := c.seq + 1 }, now := s.now + 10000 }, .idle⟩ (.delay 50000)
      = some (⟨{ s with hbDue := s.now + 60000, conn := some { c with seq := c.seq + 1 }, now := s.now + 60000 }, .idle⟩, []) := by
    have e10 : s.now + 10000 + 50000 = s.now + 60000 := by omega
    simp only [Knx.step, e10]
  refine .step (.bg .tick) trivial h1 (.step (.bg .sendOk) trivial h2 (.step (.bg (.dgram _)) trivial h3 (.step (.api (.call _)) trivial h4
    (.step (.api .run) trivial h5
    (.step (.api .run) trivial h6 (.step (.api .sendOk) trivial h7 (.step (.delay 10000) ?_ h8 (.step (.api .timer) trivial h9
    (.step (.delay 50000) ?_ h10 (.nil _))))))))))
  · refine ⟨fun t ht => ?_, fun t ht => ?_⟩
    · simp [bgDeadline, hpc, inSelect] at ht; simp only; omega
    · simp [apiDeadline] at ht; simp only; omega
  · refine ⟨fun t ht => ?_, fun t ht => ?_⟩
    · simp [bgDeadline, hpc, inSelect] at ht; simp only; omega
    · simp [apiDeadline] at ht

/-- `n` such minutes. -/
theorem minutesRun (m : Mode) (s : Bg) (c : Conn) (addr : KnxAddress) (b : U8) (hpc : s.pc = .recv) (hc : s.conn = some c) (hd : s.hbDue = s.now)
    (ho : s.rxOpen = true) (n : Nat) :
    ∃ tr s', PromptRun m ⟨s, .idle⟩ tr s' ∧ s'.bg.now = s.now + 60000 * n ∧ calls tr = List.replicate n (.write addr [b] true) ∧
      returned tr = List.replicate n .err ∧ received tr = List.replicate n (alive c.channel) ∧ tr.any isUp = false ∧
      tr.any isDown = false ∧ Undisturbed tr ∧ Numbers c.channel (requestsSent tr) (count c.seq n) ∧
      taskSent tr = List.replicate n (ConnectionstateRequest.mk c.channel c.endpoint).packet := by
  induction n generalizing s c with
  | zero => exact ⟨[], ⟨s, .idle⟩, .nil _, rfl, rfl, rfl, rfl, rfl, rfl, by simp [Undisturbed], .nil, rfl⟩
  | succ n ih =>
    obtain ⟨p, h1, cemi, hp⟩ := minuteRun m s c addr b hpc hc hd ho
    obtain ⟨tr, s', h2, g1, g2, g3, g4, g5, g6, g7, g8, g9⟩ := ih { s with now := s.now + 60000, hbDue := s.now + 60000, conn := some { c with seq := c.seq + 1 } }
      { c with seq := c.seq + 1 } hpc rfl rfl ho
    refine ⟨_, s', h1.trans h2, ?_, ?_, ?_, ?_, ?_, ?_, ?_, ?_, ?_⟩
    · rw [g1]; simp only; omega
    · rw [show ∀ a b : List Obs, calls (a ++ b) = calls a ++ calls b from fun a b => by simp [calls], g2]; rfl
    · rw [returned_append, g3]; rfl
    · rw [received_append, g4]; rfl
    · rw [List.any_append, g5]; rfl
    · rw [List.any_append, g6]; rfl
    · refine ⟨fun q hq => ?_, fun hq => ?_, fun hq => ?_⟩
      · simp only [minute, List.mem_append, List.mem_cons, reduceCtorEq, List.not_mem_nil, or_self, false_or] at hq
        exact g7.1 q hq
      · simp [minute] at hq
        exact g7.2.1 hq
      · simp [minute] at hq
        exact g7.2.2 hq
    · rw [requestsSent_append, show requestsSent (minute c addr b p c.seq) = [p] by
        simp [minute, requestsSent, apiSent, serviceIs_request hp]]
      exact .cons ⟨cemi, hp⟩ g8
    · rw [show ∀ a b : List Obs, taskSent (a ++ b) = taskSent a ++ taskSent b from fun a b => by simp [taskSent], g9]
      rfl

/-- C88 is refuted: an execution in which timers fire on time, every heart beat is answered and the connection is never given up, but the
first of `n + 1` writes, one per minute, is lost on the way: the server discards all the others, for every `n` up to 254; each of
them returns an error. -/
theorem C88_violated (m : Mode) (d : Bytes) (r : ConnectionResponse) (h : Grants d r) (addr : KnxAddress) (b : U8) (n : Nat) (hn : n ≤ 254) :
    ∃ s s' tr tr' p ps, Exec m s tr ∧ lastUp tr = some r ∧ PromptRun m s tr' s' ∧ s'.bg.now = s.bg.now + 60000 * (n + 1) ∧
      calls tr' = List.replicate (n + 1) (.write addr [b] true) ∧ returned tr' = List.replicate (n + 1) .err ∧
      taskSent tr' = List.replicate (n + 1) (frame CONNECTIONSTATE_REQUEST ([r.channel, 0] ++ hpai r.dataEndpoint)) ∧
      received tr' = List.replicate (n + 1) (frame CONNECTIONSTATE_RESPONSE [r.channel, 0]) ∧ Obs.down ∉ tr' ∧
      requestsSent tr' = p :: ps ∧ gate r.channel 0 ps = List.replicate n .discarded := by
  obtain ⟨tr', s', h2, g1, g2, g3, g4, g5, g6, g7, g8, g9⟩ := minutesRun m (linkUp .client r) (Conn.ofResponse .client r) addr b rfl rfl rfl rfl (n + 1)
  have hx := (exec_link m h).append h2.run
  cases hq : requestsSent tr' with
  | nil => rw [hq] at g8; cases g8
  | cons p ps =>
    have hl : lastUp (linkTrace .client d r) = some r := rfl
    have hs : since isUp (linkTrace .client d r ++ tr') = tr' := by
      rw [since_task _ g5]; rfl
    have hps : ps.length = n := by
      have := g8.length_eq
      rw [hq, count_length] at this
      simpa using this
    refine ⟨_, s', _, tr', p, ps, exec_link m h, hl, h2, g1, g2, g3, ?_, g4, ?_, hq, ?_⟩
    · rw [g9, C19_bodies.1]; rfl
    · intro hd
      rw [List.any_eq_false] at g6
      exact absurd rfl (g6 _ hd)
    · have := C88_lost (pre := []) (p := p) (post := ps) hx (by rw [lastUp_same _ _ g5]; exact hl)
        (by rw [upto_append _ _ _ g5]; rfl) (by rw [hs]; exact g7) (by rw [hs]; exact hq)
      rw [List.nil_append] at this
      rw [this, List.take_of_length_le (by omega), List.drop_of_length_le (by omega : ps.length ≤ 254),
        List.drop_of_length_le (by omega : ps.length ≤ 255)]
      simp [hps]

/-- C88 is refuted without any loss: a caller drops the future of a write after its number has been drawn (`o` is `[.cancelled]`), or the
operating system refuses to send its request; the server then discards all the following requests (up to 254). -/
theorem C88_violated_unsent (m : Mode) (d : Bytes) (r : ConnectionResponse) (h : Grants d r) (addr : KnxAddress) (b : U8) (n : Nat) (hn : n ≤ 254)
    (dropped : Bool) :
    ∃ s s' tr o tr', Exec m s (linkTrace .client d r ++ tr) ∧ tr = [.call (.write addr [b] true), .drew 0] ++ o ∧
      (if dropped then o = [.cancelled] else ∃ p, o = [.txFail .api p, .ret .err]) ∧ PromptRun m s tr' s' ∧
      calls tr' = List.replicate n (.write addr [b] true) ∧ returned tr' = List.replicate n .err ∧
      received tr' = List.replicate n (frame CONNECTIONSTATE_RESPONSE [r.channel, 0]) ∧ Obs.down ∉ tr' ∧
      requestsSent tr = [] ∧ (requestsSent tr').length = n ∧ gate r.channel 0 (requestsSent tr') = List.replicate n .discarded := by
  obtain ⟨cemi, hw⟩ : ∃ cemi, writeCemi m addr [b] true = .ok cemi := ⟨_, writeCemi_eq m addr [b] true (by simp) (by simp)⟩
  obtain ⟨p, hp⟩ : ∃ p, (TunnelingRequest.mk r.channel 0 cemi).packet m = .ok p := by
    cases h : (TunnelingRequest.mk r.channel 0 cemi).packet m with
    | ok p => exact ⟨p, rfl⟩
    | err => exact absurd h packet_ne_err
    | panic =>
      rw [request_panic_iff] at h
      have := writeCemi_length hw
      simp only [if_true] at this
      have h2 := h.2
      simp [this] at h2
  have h1 : Knx.step m ⟨linkUp .client r, .idle⟩ (.api (.call (.write addr [b] true)))
      = some (⟨linkUp .client r, .seqNr (.write addr [b] true) cemi⟩, [.call (.write addr [b] true)]) := by
    simp [Knx.step, apiStep, apiCall, linkUp, Bg.init, hw, startTunnel]
  have h2 : Knx.step m ⟨linkUp .client r, .seqNr (.write addr [b] true) cemi⟩ (.api .run)
      = some (⟨{ linkUp .client r with conn := some { Conn.ofResponse .client r with seq := 1 } }, .chanId (.write addr [b] true) 0 cemi⟩, [.drew 0]) := rfl
  have h3 : Knx.step m ⟨{ linkUp .client r with conn := some { Conn.ofResponse .client r with seq := 1 } }, .chanId (.write addr [b] true) 0 cemi⟩ (.api .run)
      = some (⟨{ linkUp .client r with conn := some { Conn.ofResponse .client r with seq := 1 } }, .sendReq (.write addr [b] true) p⟩, []) := by
    have hp : (TunnelingRequest.mk r.channel 0#8 cemi).packet m = .ok p := hp
    simp [Knx.step, apiStep, withConn, connLocked, linkUp, Conn.ofResponse, hp]
  have key : ∃ o, Exec m ⟨{ linkUp .client r with conn := some { Conn.ofResponse .client r with seq := 1 } }, .idle⟩
      (linkTrace .client d r ++ ([.call (.write addr [b] true), .drew 0] ++ o)) ∧
      (if dropped then o = [.cancelled] else ∃ p, o = [.txFail .api p, .ret .err]) := by
    cases dropped
    · refine ⟨[.txFail .api p, .ret .err], (exec_link m h).append ?_, p, rfl⟩
      have := Run.step _ h1 (.step _ h2 (.step _ h3 (.step (.api .sendFail) rfl (.nil _))))
      exact this
    · refine ⟨[.cancelled], (exec_link m h).append ?_, rfl⟩
      have := Run.step _ h1 (.step _ h2 (.step (.api .cancel) rfl (.nil _)))
      exact this
  obtain ⟨o, k1, k2⟩ := key
  obtain ⟨tr', s', h4, g1, g2, g3, g4, g5, g6, g7, g8, g9⟩ :=
    minutesRun m { linkUp .client r with conn := some { Conn.ofResponse .client r with seq := 1 } } { Conn.ofResponse .client r with seq := 1 } addr b rfl rfl rfl rfl n
  have hl : (requestsSent tr').length = n := by rw [g8.length_eq, count_length]
  refine ⟨_, s', _, o, tr', k1, rfl, k2, h4, g2, g3, g4, ?_, ?_, hl, ?_⟩
  · intro hd
    rw [List.any_eq_false] at g6
    exact absurd rfl (g6 _ hd)
  · cases dropped
    · obtain ⟨p, rfl⟩ := (by simpa using k2 : ∃ p, o = [.txFail .api p, .ret .err]); rfl
    · have : o = [.cancelled] := by simpa using k2
      subst this; rfl
  · have g8 : Numbers r.channel (requestsSent tr') (count (0 + 1) n) := g8
    rw [gate_behind g8, List.take_of_length_le (by omega), List.drop_of_length_le (by omega : (requestsSent tr').length ≤ 254),
      List.drop_of_length_le (by omega : (requestsSent tr').length ≤ 255)]
    simp [hl]

/-- The hypotheses of `C88_accepted_partial` and `C88_lost` are met with any number of requests. -/
example (m : Mode) (n : Nat) : ∃ s tr, Exec m s tr ∧ lastUp tr = some conn7 ∧ bracket (upto isUp tr) = some false ∧ Undisturbed (since isUp tr) ∧
    (requestsSent (since isUp tr)).length = n := by
  obtain ⟨tr', s', h2, _, _, _, _, g5, _, g7, g8, _⟩ :=
    minutesRun m (linkUp .client conn7) (Conn.ofResponse .client conn7) (.group3 ⟨1, 0, 1⟩) 1 rfl rfl rfl rfl n
  have hs : since isUp (linkTrace .client grant7 conn7 ++ tr') = tr' := by rw [since_task _ g5]; rfl
  refine ⟨s', _, (exec_link m grants7).append h2.run, by rw [lastUp_same _ _ g5]; rfl, by rw [upto_append _ _ _ g5]; rfl, by rw [hs]; exact g7, ?_⟩
  rw [hs, g8.length_eq, count_length]

/-- The same for the monitor, with three requests. -/
example (m : Mode) : ∃ s tr, MExec m s tr ∧ lastUp tr = some conn7 ∧ bracket (upto isUp tr) = some false ∧ Undisturbed (since isUp tr) ∧
    requestsSent (since isUp tr) = [readReqN 7 1, readReqN 7 2, readReqN 7 3] := by
  obtain ⟨s, tr, h1, h2⟩ := mexec_of_evs (m := m)
    (evs := mconnEvs ++ (List.replicate 3 [.api (.call (.solicit (.group3 ⟨1, 0, 1⟩))), .api .run, .api .run, .api .sendOk]).flatten)
    (f := fun x => (lastUp x.2, bracket (upto isUp x.2), since isUp x.2))
    (y := (some conn7, some false, ([1, 2, 3] : List U8).flatMap fun n => [.call (.solicit (.group3 ⟨1, 0, 1⟩)), .drew n, .tx .api (readReqN 7 n), .ret .unit]))
    (by cases m <;> decide +kernel)
  simp only [Prod.mk.injEq] at h2
  refine ⟨s, tr, h1, h2.1, h2.2.1, ?_, ?_⟩
  · rw [h2.2.2]; simp [Undisturbed]
  · rw [h2.2.2]; decide

/-- `C88_gap` with a gap: of the requests 0 to 2 the second is lost. -/
example : gate 7 0 [readReqN 7 0, readReqN 7 2] = [passed (readReqN 7 0), .discarded] := by decide

end Knx
