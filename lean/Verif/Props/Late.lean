import Verif.Spec.Late
import Verif.Props.Client
import Verif.Props.Timing
import Verif.Lemmas.Runs

/-!
# C122, C123: an answer and a confirmation that come too late
-/

namespace Knx
open Spec

theorem values_append (a b : List Obs) : values (a ++ b) = values a ++ values b := by simp [values]
theorem happened_append (a b : List Obs) : happened (a ++ b) = happened a ++ happened b := by simp [happened]
theorem forGroup_append (g : U16) (a b : List Cemi) : forGroup g (a ++ b) = forGroup g a ++ forGroup g b := by simp [forGroup]

theorem values_of_returned {o : List Obs} (h : returned o = []) : values o = [] := by
  induction o with
  | nil => rfl
  | cons x o ih =>
    cases x <;> simp only [returned, List.filterMap_cons, reduceCtorEq] at h <;> simp only [values, List.filterMap_cons] <;> exact ih h

theorem forGroup_none {g : U16} {c : Cemi} (h : ∀ v, ¬ IndicationFor g c v) : forGroup g [c] = [] := by
  simp [forGroup, h]

theorem forGroup_some {g : U16} {c : Cemi} {v : Bytes} (h : IndicationFor g c v) : forGroup g [c] = [c] := by
  have : ∃ v, IndicationFor g c v := ⟨v, h⟩
  simp [forGroup, this]

/-- C122, exactly: if only the group `g` is read, by any number of calls that return, time out or are dropped, then the values returned are those of
the indications for `g` among the telegrams delivered, in this order, whatever reads they answer: the `n`-th value is the `n`-th that arrived. What
has not been taken is still in the channel. -/
theorem C122_exact {m : Mode} {s : Sys} {tr : List Obs} {g : U16} (h : Exec m s tr) (hc : ReadsOnly g tr) :
    List.Forall₂ (IndicationFor g) (forGroup g (taken tr)) (values tr) ∧ (Obs.dropped ∉ tr → taken tr ++ s.bg.queue = queued tr) := by
  refine ⟨?_, (C43_fifo (.client h)).2.1⟩
  induction h with
  | init => exact .nil
  | @step s s' tr o e h hs ih =>
    have hc' : ReadsOnly g tr := fun c hx => hc c (by rw [calls_append]; exact List.mem_append.2 (.inl hx))
    replace ih := ih hc'
    have hi := h.callInv
    rw [taken_append, values_append, forGroup_append]
    by_cases ht : returned o ≠ [] ∨ apiSent o ≠ [] ∨ taken o ≠ [] ∨ apiReceived o ≠ []
    · have hgr : ∀ a dl, s.api = .reading a dl → a = g := by
        intro a dl ha
        rw [ha] at hi
        obtain ⟨addr, p, i1, rfl, -⟩ := hi
        obtain ⟨a', e1, e2⟩ := hc' _ (List.mem_of_getLast? i1)
        cases e1
        exact e2
      have hno : ∀ c, lastCall tr = some c → ∃ a, c = .read a := fun c hx => by
        obtain ⟨a, h, -⟩ := hc' _ (List.mem_of_getLast? hx); exact ⟨a, h⟩
      have := step_api hs ht
      cases this
      case readSkip a dl c rest h1 h2 h3 =>
        have := hgr a dl h1
        subst this
        simpa [values, taken, forGroup_none (skipped_iff h3)] using ih
      case readBad a dl c rest h1 h2 h3 h4 =>
        have : ∀ v, ¬ IndicationFor g c v := fun v hv => by
          obtain ⟨-, i, hi, -⟩ := indication_iff.1 hv
          rw [h4] at hi; cases hi
        simpa [values, taken, forGroup_none this] using ih
      case readValue a dl c rest i h1 h2 h3 h4 h5 =>
        have := hgr a dl h1
        subst this
        have hv : IndicationFor a c i.value := indication_iff.2 ⟨h3, i, h4, h5, rfl⟩
        simpa [values, taken, forGroup_some hv] using List.rel_append ih (.cons hv .nil)
      case writeOk dl c rest h1 h2 h3 =>
        rw [h1] at hi
        obtain ⟨a, v, sm, p, i1, -⟩ := hi
        obtain ⟨a', h⟩ := hno _ i1
        cases h
      case writeBad dl c rest h1 h2 h3 =>
        rw [h1] at hi
        obtain ⟨a, v, sm, p, i1, -⟩ := hi
        obtain ⟨a', h⟩ := hno _ i1
        cases h
      case dcOk c rest h1 h2 =>
        rw [h1] at hi
        obtain ⟨i1, -⟩ := hi
        obtain ⟨a', h⟩ := hno _ i1
        cases h
      all_goals simpa [values, taken, forGroup] using ih
    · simp only [not_or, ne_eq, Decidable.not_not] at ht
      rw [ht.2.2.1, values_of_returned ht.1]
      simpa [forGroup] using ih

/-- C122: as many answers as there are in the channel are ahead of the next one. -/
theorem C122_count {m : Mode} {s : Sys} {tr : List Obs} {g : U16} (h : Exec m s tr) (hc : ReadsOnly g tr) (hd : Obs.dropped ∉ tr) :
    (forGroup g (queued tr)).length = (values tr).length + (forGroup g s.bg.queue).length := by
  obtain ⟨h1, h2⟩ := C122_exact h hc
  rw [← h2 hd, forGroup_append, List.length_append, h1.length_eq]

/-- C122, the part that holds: if no indication for the group was waiting when the read started, then the value it returns arrived during the call. -/
theorem C122_own_partial {m : Mode} {s s' : Sys} {tr o : List Obs} {e : Ev} {v : Bytes} {a : KnxAddress} (h : Exec m s tr)
    (hs : step m s e = some (s', o)) (hv : Obs.ret (.value v) ∈ o) (ha : lastCall tr = some (.read a))
    (hq : forGroup a.toU16 ((queued (upto isCall tr)).drop (taken (upto isCall tr)).length) = []) :
    ∃ c ∈ queued (since isCall tr), IndicationFor a.toU16 c v := by
  obtain ⟨addr, p, ch, n, cs, c, e1, e2, e3, e4, e5, e6⟩ := C53_value h hs hv
  have hx := h.step e hs
  have h2 := (C43_fifo (.client hx)).1
  have ht := step_api hs (Or.inl (returned_ne hv))
  have hnc : o.any isCall = false := by cases ht <;> first | rfl | (simp at hv)
  have hoq : queued o = [] := by cases ht <;> rfl
  rw [lastCall_same _ _ hnc, ha] at e1
  cases e1
  refine ⟨c, ?_, e5⟩
  have h0 := (C43_fifo (.client h)).1
  rw [← upto_since isCall (tr ++ o), taken_append, queued_append, upto_append _ _ _ hnc, e4, since_task _ hnc, queued_append, hoq, List.append_nil] at h2
  obtain ⟨rest, h3⟩ := h2
  have hmem : c ∈ (queued (upto isCall tr) ++ queued (since isCall tr)).drop (taken (upto isCall tr)).length := by
    rw [← h3, List.append_assoc, List.drop_left]; simp
  rw [List.drop_append] at hmem
  rcases List.mem_append.1 hmem with hm | hm
  · exfalso
    have : c ∈ forGroup a.toU16 ((queued (upto isCall tr)).drop (taken (upto isCall tr)).length) := by
      unfold forGroup; rw [List.mem_filter]; exact ⟨hm, by simpa using ⟨v, e5⟩⟩
    rw [hq] at this; cases this
  · exact List.mem_of_mem_drop hm

theorem carries_acked {m : Mode} {d : Bytes} {c : Cemi} (h : Carries m d c) :
    ∃ ch sq raw, onDatagram d = .ackReq ch sq raw ∧ runRd (Cemi.fromPacket m) id raw = .ok c := by
  obtain ⟨t, h1, h2⟩ := h
  exact ⟨_, _, _, onDatagram_request h1, h2⟩

theorem promptRun_of_evs {m : Mode} {evs : List Ev} (hd : ∀ d, Ev.delay d ∉ evs) : ∀ {s s' : Sys} {tr : List Obs},
    runEvs m s evs = some (s', tr) → PromptRun m s tr s' := by
  induction evs with
  | nil => intro s s' tr h; simp only [runEvs, Option.some.injEq, Prod.mk.injEq] at h; obtain ⟨rfl, rfl⟩ := h; exact .nil _
  | cons e es ih =>
    intro s s' tr h
    simp only [runEvs] at h
    split at h
    · cases h
    · rename_i s1 o1 he
      simp only [Option.map_eq_some_iff, Prod.mk.injEq, Prod.exists] at h
      obtain ⟨s2, o2, h1, rfl, rfl⟩ := h
      refine .step e ?_ he (ih (fun d hx => hd d (List.mem_cons_of_mem _ hx)) h1)
      cases e with
      | delay d => exact absurd (List.mem_cons_self ..) (hd d)
      | _ => trivial

/-- The state of a client at rest on a connection. -/
structure Resting (s : Sys) (k : Conn) (q : List Cemi) : Prop where
  api : s.api = .idle
  pc : s.bg.pc = .recv
  rxOpen : s.bg.rxOpen = true
  conn : s.bg.conn = some k
  queue : s.bg.queue = q

theorem behind_run {m : Mode} {a : KnxAddress} (l : List Ans) (hl : ∀ x ∈ l, Carries m x.datagram x.telegram ∧ IndicationFor a.toU16 x.telegram x.value) :
    ∀ (s : Sys) (k : Conn) (x : Ans), Resting s k [x.telegram] → IndicationFor a.toU16 x.telegram x.value →
      ∃ tr s', PromptRun m s tr s' ∧ happened tr = behind a x.value l := by
  induction l with
  | nil => intro s k x _ _; exact ⟨[], s, .nil _, rfl⟩
  | cons y l ih =>
    intro s k x h hx
    obtain ⟨hc, i, hi, hd, hv⟩ := indication_iff.1 hx
    obtain ⟨p, hp⟩ : ∃ p, (TunnelingRequest.mk k.channel k.seq (lDataReqFrame 3 a.toU16.toNat apduRead)).packet m = .ok p :=
      ⟨_, tunnelingRequest_packet m _ (by simp [lDataReqFrame, apduRead, word])⟩
    obtain ⟨ch, sq, raw, h1, h2⟩ := carries_acked (hl y (by simp)).1
    have hne : ¬ codeLDataInd = codeLDataCon := by decide
    obtain ⟨hapi, hpc, hro, hcn, hqu⟩ := h
    have hrun : runEvs m s [.api (.call (.read a)), .api .run, .api .run, .api .sendOk, .api .run, .bg (.dgram y.datagram), .bg .sendOk, .bg .run] =
        some ({ bg := { s.bg with conn := some { k with seq := k.seq + 1 }, queue := [y.telegram] }, api := .idle },
          [.call (.read a), .drew k.seq, .tx .api p, .taken 0 x.telegram, .ret (.value x.value), .rx y.datagram, .tx .task (TunnelingAck.mk ch sq 0).packet,
            .queued y.telegram]) := by
      simp [runEvs, step, apiStep, hapi, hro, apiCall, readCemi_eq, startTunnel, withConn, connLocked, hpc, hcn, hp, chanRecv, hqu, readMsg, hne,
        hc, hi, hd, hv, finish, bgStep, h1, h2, endObs]
    obtain ⟨tr, s', h3, h4⟩ := ih (fun z hz => hl z (by simp [hz]))
      { bg := { s.bg with conn := some { k with seq := k.seq + 1 }, queue := [y.telegram] }, api := .idle } { k with seq := k.seq + 1 } y ⟨rfl, hpc, hro, rfl, rfl⟩ (hl y (by simp)).2
    refine ⟨_, s', (promptRun_of_evs (by simp) hrun).trans h3, ?_⟩
    rw [happened_append, h4]
    rfl

/-- C122 is refuted, for as long as one likes: if the answer to one read comes after the read has given up, then of any number of later reads of the
same group, each of which the server answers at once, every one returns the value of the answer to the read before. -/
theorem C122_violated {m : Mode} {s : Sys} {tr : List Obs} {k : Conn} (_h : Exec m s tr) (hs : Resting s k []) (hb : s.bg.now + 10000 ≤ s.bg.hbDue)
    (a : KnxAddress) (x : Ans) (l : List Ans) (hl : ∀ y ∈ x :: l, Carries m y.datagram y.telegram ∧ IndicationFor a.toU16 y.telegram y.value) :
    ∃ tr' s', PromptRun m s tr' s' ∧
      happened tr' = [.asks (.read a), .sends, .gets .err, .arrives x.datagram] ++ behind a x.value l := by
  obtain ⟨p, hp⟩ : ∃ p, (TunnelingRequest.mk k.channel k.seq (lDataReqFrame 3 a.toU16.toNat apduRead)).packet m = .ok p :=
    ⟨_, tunnelingRequest_packet m _ (by simp [lDataReqFrame, apduRead, word])⟩
  obtain ⟨ch, sq, raw, h1, h2⟩ := carries_acked (hl x (by simp)).1
  obtain ⟨hapi, hpc, hro, hcn, hqu⟩ := hs
  have e1 : runEvs m s [.api (.call (.read a)), .api .run, .api .run, .api .sendOk] =
      some ({ bg := { s.bg with conn := some { k with seq := k.seq + 1 } }, api := .reading a.toU16 (s.bg.now + 10000) },
        [.call (.read a), .drew k.seq, .tx .api p]) := by
    simp [runEvs, step, apiStep, hapi, hro, apiCall, readCemi_eq, startTunnel, withConn, connLocked, hpc, hcn, hp, apiTimeout]
  have e2 : runEvs m { bg := { s.bg with conn := some { k with seq := k.seq + 1 }, now := s.bg.now + 10000 }, api := .reading a.toU16 (s.bg.now + 10000) }
      [.api .timer, .bg (.dgram x.datagram), .bg .sendOk, .bg .run] =
      some ({ bg := { s.bg with conn := some { k with seq := k.seq + 1 }, now := s.bg.now + 10000, queue := [x.telegram] }, api := .idle },
        [.ret .err, .rx x.datagram, .tx .task (TunnelingAck.mk ch sq 0).packet, .queued x.telegram]) := by
    simp [runEvs, step, apiStep, finish, bgStep, hpc, h1, h2, endObs, hro, hqu]
  obtain ⟨tr', s', h3, h4⟩ := behind_run l (fun z hz => hl z (by simp [hz]))
    { bg := { s.bg with conn := some { k with seq := k.seq + 1 }, now := s.bg.now + 10000, queue := [x.telegram] }, api := .idle }
    { k with seq := k.seq + 1 } x ⟨rfl, hpc, hro, rfl, rfl⟩ (hl x (by simp)).2
  refine ⟨_, s', (promptRun_of_evs (by simp) e1).trans (.step (.delay 10000) ⟨?_, ?_⟩ rfl ((promptRun_of_evs (by simp) e2).trans h3)), ?_⟩
  · intro t ht
    simp [bgDeadline, hpc, inSelect] at ht
    simp; omega
  · intro t ht
    simp [apiDeadline] at ht
    simp [ht]
  · rw [happened_append, happened_append, happened_append, h4]
    rfl

/-- The telegram is an indication for 1/0/1 with the value 1. -/
theorem indication7 : IndicationFor 0x801 tel7 [1] := by
  refine indication_iff.2 ⟨rfl, ?_⟩
  exact ⟨_, rfl, rfl, rfl⟩

set_option synthInstance.maxSize 8192 in
set_option synthInstance.maxHeartbeats 200000 in
example (m : Mode) : ∃ s tr k, Exec m s tr ∧ Resting s k [] ∧ s.bg.now + 10000 ≤ s.bg.hbDue ∧ Carries m req7 tel7 ∧
    IndicationFor (KnxAddress.group3 ⟨1, 0, 1⟩).toU16 tel7 [1] := by
  obtain ⟨s, tr, h1, h2⟩ := exec_of_evs (m := m) (evs := [.bg .run, .bg .sendOk, .bg (.dgram grant7), .bg .run, .bg .tick, .bg .sendOk])
    (f := fun x => (x.1.api, x.1.bg.pc, x.1.bg.rxOpen, x.1.bg.conn, x.1.bg.queue, x.1.bg.now, x.1.bg.hbDue))
    (y := (.idle, .recv, true, some (Conn.ofResponse .client conn7), [], 0, 60000)) (by cases m <;> decide +kernel)
  simp only [Prod.mk.injEq] at h2
  obtain ⟨a1, a2, a3, a4, a5, a6, a7⟩ := h2
  exact ⟨s, tr, _, h1, ⟨a1, a2, a3, a4, a5⟩, by omega, carries7 m, indication7⟩

/-- A read that takes what was there before it, and one answered while it waits. -/
example (m : Mode) : ∃ s tr, Exec m s tr ∧ ReadsOnly 0x801 tr ∧ values tr = [[1], [1]] ∧ (queued tr).length = 3 := by
  obtain ⟨s, tr, h1, h2⟩ := exec_of_evs (m := m) (evs := [.bg .run, .bg .sendOk, .bg (.dgram grant7), .bg .run, .bg (.dgram req7), .bg .sendOk, .bg .run,
      .api (.call (.read (.group3 ⟨1, 0, 1⟩))), .api .run, .api .run, .api .sendOk, .api .run,
      .api (.call (.read (.group3 ⟨1, 0, 1⟩))), .api .run, .api .run, .api .sendOk, .bg (.dgram other7), .bg .sendOk, .bg .run, .api .run,
      .bg (.dgram req7), .bg .sendOk, .bg .run, .api .run])
    (f := fun x => (calls x.2, values x.2, (queued x.2).length))
    (y := ([.read (.group3 ⟨1, 0, 1⟩), .read (.group3 ⟨1, 0, 1⟩)], [[1], [1]], 3)) (by cases m <;> decide +kernel)
  simp only [Prod.mk.injEq] at h2
  refine ⟨s, tr, h1, fun c hc => ?_, h2.2.1, h2.2.2⟩
  rw [h2.1] at hc
  simp only [List.mem_cons, List.not_mem_nil, or_false, or_self] at hc
  exact ⟨_, hc, by decide⟩

/-! ## C123 -/

theorem confirmations_append (a b : List Cemi) : confirmations (a ++ b) = confirmations a ++ confirmations b := by simp [confirmations]
theorem okWrites_append (a b : List Obs) : okWrites (a ++ b) = okWrites a + okWrites b := by simp [okWrites, returned]

/-- C123, exactly: if all calls are writes, then as many of them have succeeded as confirmations have been taken; these are the first ones that
arrived, in this order, whatever writes they confirm, and what has not been taken is still in the channel. -/
theorem C123_exact {m : Mode} {s : Sys} {tr : List Obs} (h : Exec m s tr) (hc : WritesOnly tr) :
    okWrites tr = (confirmations (taken tr)).length ∧ taken tr <+: queued tr ∧ (Obs.dropped ∉ tr → taken tr ++ s.bg.queue = queued tr) := by
  refine ⟨?_, (C43_fifo (.client h)).1, (C43_fifo (.client h)).2.1⟩
  induction h with
  | init => rfl
  | @step s s' tr o e h hs ih =>
    have hc' : WritesOnly tr := fun c hx => hc c (by rw [calls_append]; exact List.mem_append.2 (.inl hx))
    replace ih := ih hc'
    have hi := h.callInv
    rw [taken_append, okWrites_append, confirmations_append, List.length_append, ih]
    by_cases ht : returned o ≠ [] ∨ apiSent o ≠ [] ∨ taken o ≠ [] ∨ apiReceived o ≠ []
    · have hno : ∀ c, lastCall tr = some c → ∃ a v sm, c = .write a v sm := fun c hx => hc' _ (List.mem_of_getLast? hx)
      have := step_api hs ht
      cases this
      case readSkip a dl c rest h1 h2 h3 => rw [h1] at hi; obtain ⟨a, p, i1, -⟩ := hi; obtain ⟨_, _, _, e⟩ := hno _ i1; cases e
      case readBad a dl c rest h1 h2 h3 h4 => rw [h1] at hi; obtain ⟨a, p, i1, -⟩ := hi; obtain ⟨_, _, _, e⟩ := hno _ i1; cases e
      case readValue a dl c rest i h1 h2 h3 h4 h5 => rw [h1] at hi; obtain ⟨a, p, i1, -⟩ := hi; obtain ⟨_, _, _, e⟩ := hno _ i1; cases e
      case writeOk dl c rest h1 h2 h3 =>
        have : c.msgCode = L_DATA_CON := h3
        simp [okWrites, returned, taken, confirmations, this]
      case writeBad dl c rest h1 h2 h3 =>
        have : ¬ c.msgCode = L_DATA_CON := h3
        simp [okWrites, returned, taken, confirmations, this]
      case dcOk c rest h1 h2 => rw [h1] at hi; obtain ⟨i1, -⟩ := hi; obtain ⟨_, _, _, e⟩ := hno _ i1; cases e
      all_goals simp [okWrites, returned, taken, confirmations]
    · simp only [not_or, ne_eq, Decidable.not_not] at ht
      simp [okWrites, ht.1, ht.2.2.1, confirmations]

/-- C123: the writes that succeed are as many as the confirmations that have arrived, less those that no write has taken. -/
theorem C123_count {m : Mode} {s : Sys} {tr : List Obs} (h : Exec m s tr) (hc : WritesOnly tr) (hd : Obs.dropped ∉ tr) :
    (confirmations (queued tr)).length = okWrites tr + (confirmations s.bg.queue).length := by
  obtain ⟨h1, -, h2⟩ := C123_exact h hc
  rw [← h2 hd, confirmations_append, List.length_append, h1]

/-- C123, the part that holds: if nothing was waiting when the write started, then the confirmation it has taken arrived during the call. -/
theorem C123_own_partial {m : Mode} {s s' : Sys} {tr o : List Obs} {e : Ev} (h : Exec m s tr)
    (hs : step m s e = some (s', o)) (hw : ∃ addr v small, lastCall tr = some (.write addr v small)) (hv : Obs.ret .unit ∈ o)
    (hq : (queued (upto isCall tr)).length = (taken (upto isCall tr)).length) :
    ∃ c, taken (since isCall (tr ++ o)) = [c] ∧ c ∈ queued (since isCall tr) ∧ c.msgCode = L_DATA_CON := by
  obtain ⟨-, c, e4, e5⟩ := C56_ok_partial h hs hw hv
  have hx := h.step e hs
  have h2 := (C43_fifo (.client hx)).1
  have ht := step_api hs (Or.inl (returned_ne hv))
  have hnc : o.any isCall = false := by cases ht <;> first | rfl | (simp at hv)
  have hoq : queued o = [] := by cases ht <;> rfl
  refine ⟨c, e4, ?_, e5⟩
  rw [← upto_since isCall (tr ++ o), taken_append, queued_append, upto_append _ _ _ hnc, e4, since_task _ hnc, queued_append, hoq, List.append_nil] at h2
  obtain ⟨rest, h3⟩ := h2
  have hmem : c ∈ (queued (upto isCall tr) ++ queued (since isCall tr)).drop (taken (upto isCall tr)).length := by
    rw [← h3, List.append_assoc, List.drop_left]; simp
  rwa [← hq, List.drop_left] at hmem

theorem write_packet (m : Mode) (k : Conn) (a : KnxAddress) (v : Bytes) (small : Bool) (h : v ≠ []) (h' : v.length ≤ 14) :
    ∃ cemi p, writeCemi m a v small = .ok cemi ∧ (TunnelingRequest.mk k.channel k.seq cemi).packet m = .ok p := by
  refine ⟨_, _, writeCemi_eq m a v small (fun _ => h) (fun _ => by omega), tunnelingRequest_packet m _ ?_⟩
  cases small <;> simp [lDataReqFrame, apduWriteSmall, apduWriteBig, word] <;> omega

theorem ahead_run {m : Mode} (l : List Confirmed)
    (hl : ∀ x ∈ l, x.value ≠ [] ∧ x.value.length ≤ 14 ∧ Carries m x.datagram x.telegram ∧ x.telegram.msgCode = L_DATA_CON) :
    ∀ (s : Sys) (k : Conn) (c : Cemi), Resting s k [c] → c.msgCode = L_DATA_CON →
      ∃ tr s', PromptRun m s tr s' ∧ happened tr = ahead l := by
  induction l with
  | nil => intro s k x _ _; exact ⟨[], s, .nil _, rfl⟩
  | cons y l ih =>
    intro s k c h hx
    obtain ⟨y1, y2, y3, y4⟩ := hl y (by simp)
    obtain ⟨cemi, p, hcm, hp⟩ := write_packet m k y.addr y.value y.small y1 y2
    obtain ⟨ch, sq, raw, h1, h2⟩ := carries_acked y3
    obtain ⟨hapi, hpc, hro, hcn, hqu⟩ := h
    have hx' : c.msgCode = codeLDataCon := hx
    have hpanic : LDataCon.fromCemi c ≠ .panic := (C15_lDataCon c).1
    have hfin : ∀ t : Sys, writeMsg t c = finish t [.taken 0 c] .unit := by
      intro t
      unfold writeMsg
      rw [if_pos hx']
      cases hcon : LDataCon.fromCemi c <;> first | rfl | exact absurd hcon hpanic
    have hrun : runEvs m s [.api (.call (.write y.addr y.value y.small)), .api .run, .api .run, .api .sendOk, .api .run, .bg (.dgram y.datagram), .bg .sendOk, .bg .run] =
        some ({ bg := { s.bg with conn := some { k with seq := k.seq + 1 }, queue := [y.telegram] }, api := .idle },
          [.call (.write y.addr y.value y.small), .drew k.seq, .tx .api p, .taken 0 c, .ret .unit, .rx y.datagram, .tx .task (TunnelingAck.mk ch sq 0).packet,
            .queued y.telegram]) := by
      simp [runEvs, step, apiStep, hapi, hro, apiCall, hcm, startTunnel, withConn, connLocked, hpc, hcn, hp, chanRecv, hqu, hfin, finish, bgStep, h1, h2, endObs]
    obtain ⟨tr, s', h3, h4⟩ := ih (fun z hz => hl z (by simp [hz]))
      { bg := { s.bg with conn := some { k with seq := k.seq + 1 }, queue := [y.telegram] }, api := .idle } { k with seq := k.seq + 1 } y.telegram ⟨rfl, hpc, hro, rfl, rfl⟩ y4
    refine ⟨_, s', (promptRun_of_evs (by simp) hrun).trans h3, ?_⟩
    rw [happened_append, h4]
    rfl

/-- C123 is refuted, for as long as one likes: if one write is confirmed after it has given up, then of any number of later writes, each of which the
server confirms at once, every one has reported success before its confirmation arrives, also the last one, and whether or not the confirmations are
negative. -/
theorem C123_violated {m : Mode} {s : Sys} {tr : List Obs} {k : Conn} (_h : Exec m s tr) (hs : Resting s k []) (hb : s.bg.now + 10000 ≤ s.bg.hbDue)
    (x : Confirmed) (l : List Confirmed)
    (hl : ∀ y ∈ x :: l, y.value ≠ [] ∧ y.value.length ≤ 14 ∧ Carries m y.datagram y.telegram ∧ y.telegram.msgCode = L_DATA_CON) :
    ∃ tr' s', PromptRun m s tr' s' ∧
      happened tr' = [.asks (.write x.addr x.value x.small), .sends, .gets .err, .arrives x.datagram] ++ ahead l := by
  obtain ⟨y1, y2, y3, y4⟩ := hl x (by simp)
  obtain ⟨cemi, p, hcm, hp⟩ := write_packet m k x.addr x.value x.small y1 y2
  obtain ⟨ch, sq, raw, h1, h2⟩ := carries_acked y3
  obtain ⟨hapi, hpc, hro, hcn, hqu⟩ := hs
  have e1 : runEvs m s [.api (.call (.write x.addr x.value x.small)), .api .run, .api .run, .api .sendOk] =
      some ({ bg := { s.bg with conn := some { k with seq := k.seq + 1 } }, api := .writing (s.bg.now + 10000) },
        [.call (.write x.addr x.value x.small), .drew k.seq, .tx .api p]) := by
    simp [runEvs, step, apiStep, hapi, hro, apiCall, hcm, startTunnel, withConn, connLocked, hpc, hcn, hp, apiTimeout]
  have e2 : runEvs m { bg := { s.bg with conn := some { k with seq := k.seq + 1 }, now := s.bg.now + 10000 }, api := .writing (s.bg.now + 10000) }
      [.api .timer, .bg (.dgram x.datagram), .bg .sendOk, .bg .run] =
      some ({ bg := { s.bg with conn := some { k with seq := k.seq + 1 }, now := s.bg.now + 10000, queue := [x.telegram] }, api := .idle },
        [.ret .err, .rx x.datagram, .tx .task (TunnelingAck.mk ch sq 0).packet, .queued x.telegram]) := by
    simp [runEvs, step, apiStep, finish, bgStep, hpc, h1, h2, endObs, hro, hqu]
  obtain ⟨tr', s', h3, h4⟩ := ahead_run l (fun z hz => hl z (by simp [hz]))
    { bg := { s.bg with conn := some { k with seq := k.seq + 1 }, now := s.bg.now + 10000, queue := [x.telegram] }, api := .idle }
    { k with seq := k.seq + 1 } x.telegram ⟨rfl, hpc, hro, rfl, rfl⟩ y4
  refine ⟨_, s', (promptRun_of_evs (by simp) e1).trans (.step (.delay 10000) ⟨?_, ?_⟩ rfl ((promptRun_of_evs (by simp) e2).trans h3)), ?_⟩
  · intro t ht
    simp [bgDeadline, hpc, inSelect] at ht
    simp; omega
  · intro t ht
    simp [apiDeadline] at ht
    simp [ht]
  · rw [happened_append, happened_append, happened_append, h4]
    rfl

/-- A negative confirmation is a confirmation; the hypotheses about the state are those of `C122_violated`. -/
example (m : Mode) : Carries m negative7 ⟨0x2e, [], [0xbd, 0xe0, 0x11, 1, 8, 2, 1, 0, 0x81]⟩ ∧
    (⟨0x2e, [], [0xbd, 0xe0, 0x11, 1, 8, 2, 1, 0, 0x81]⟩ : Cemi).msgCode = L_DATA_CON := by
  have := decodes_request 7 0 0 [0x2e, 0, 0xbd, 0xe0, 0x11, 1, 8, 2, 1, 0, 0x81] (by simp)
  exact ⟨⟨_, this, by cases m <;> decide +kernel⟩, rfl⟩

/-- Two writes: one confirmed, one that takes an unrelated telegram. -/
example (m : Mode) : ∃ s tr, Exec m s tr ∧ WritesOnly tr ∧ okWrites tr = 1 ∧ (taken tr).length = 2 ∧ returned tr = [.unit, .err] := by
  obtain ⟨s, tr, h1, h2⟩ := exec_of_evs (m := m) (evs := [.bg .run, .bg .sendOk, .bg (.dgram grant7), .bg .run,
      .api (.call (.write (.group3 ⟨1, 0, 1⟩) [1] true)), .api .run, .api .run, .api .sendOk, .bg (.dgram positive7), .bg .sendOk, .bg .run, .api .run,
      .api (.call (.write (.group3 ⟨1, 0, 1⟩) [0] true)), .api .run, .api .run, .api .sendOk, .bg (.dgram other7), .bg .sendOk, .bg .run, .api .run])
    (f := fun x => (calls x.2, okWrites x.2, (taken x.2).length, returned x.2))
    (y := ([.write (.group3 ⟨1, 0, 1⟩) [1] true, .write (.group3 ⟨1, 0, 1⟩) [0] true], 1, 2, [.unit, .err])) (by cases m <;> decide +kernel)
  simp only [Prod.mk.injEq] at h2
  refine ⟨s, tr, h1, fun c hc => ?_, h2.2.1, h2.2.2.1, h2.2.2.2⟩
  rw [h2.1] at hc
  simp only [List.mem_cons, List.not_mem_nil, or_false] at hc
  rcases hc with rfl | rfl <;> exact ⟨_, _, _, rfl⟩

end Knx
