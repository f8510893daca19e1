import Verif.Lemmas.Calls
import Verif.Props.Transport

/-!
# Properties of the client API (C47, C53–C59)

The calls are seen through the observations: `since isCall tr` is what has been observed since the last call started.
-/

namespace Knx
open Spec

/-! ## C47 -/

/-- C47, the part that holds: every tunneling request a call sends carries the sequence number drawn last; its channel is
that of the connection the number was drawn from, provided no connection has been established since. In general it is
the channel of that connection or of one established since. -/
theorem C47_paired_partial {m : Mode} {s s' : Sys} {tr o : List Obs} {e : Ev} {p : Bytes} (h : Exec m s tr)
    (hs : step m s e = some (s', o)) (hp : Obs.tx .api p ∈ o) (hr : serviceIs TUNNELING_REQUEST p = true) :
    PairedUpTo tr p ∧
    ((∀ r, Obs.up r ∉ since isDrew tr) → ∃ r seq cemi, lastUp (upto isDrew tr) = some r ∧
      (drawn tr).getLast? = some seq ∧ RequestPacket r.channel seq cemi p) := by
  have key : PairedUpTo tr p := by
    have hi := h.requestInv
    have hc := h.callInv
    have ht := step_api hs (Or.inr (Or.inl (apiSent_ne hp)))
    cases ht
    case sendRead addr p' h1 =>
      simp only [List.mem_singleton, Obs.tx.injEq, true_and] at hp
      subst hp; rw [h1] at hi; exact hi.1
    case sendWrite c p' h1 h2 =>
      simp only [List.mem_singleton, Obs.tx.injEq, true_and] at hp
      subst hp; rw [h1] at hi; exact hi.1
    case stSend p' h1 =>
      simp only [List.mem_singleton, Obs.tx.injEq, true_and] at hp
      subst hp; rw [h1] at hc
      obtain ⟨_, _, _, ch, ep, rfl⟩ := hc
      rw [stateReq_not_request] at hr; cases hr
    case dcSend p' h1 =>
      simp only [List.mem_singleton, Obs.tx.injEq, true_and] at hp
      subst hp; rw [h1] at hc
      obtain ⟨_, _, _, ch, ep, rfl⟩ := hc
      rw [discReq_not_request] at hr; cases hr
    all_goals simp at hp
  refine ⟨key, fun hn => ?_⟩
  obtain ⟨r, n, cemi, h1, h2, h3 | h3⟩ := key
  · exact ⟨r, n, cemi, h3, h2, h1⟩
  · exact absurd h3 (hn r)

/-- C47: no number is used twice: the sequence numbers of the tunneling requests sent are, in order, different ones of the
numbers drawn. -/
theorem C47_numbers {m : Mode} {s : Sys} {tr : List Obs} (h : Exec m s tr) :
    ∃ ns, ns.Sublist (drawn tr) ∧
      List.Forall₂ (fun p n => ∃ ch cemi, RequestPacket ch n cemi p) (requestsSent tr) ns := by
  obtain ⟨ns, ds, h1, h2, h3⟩ := h.requestInv.numbered
  simp only [Option.toList_none, List.append_nil] at h1
  exact ⟨ns, h1 ▸ h2, h3⟩

/-- Like `grant7`, with channel 9. -/
def grant9 : Bytes := [6, 0x10, 2, 6, 0, 20, 9, 0, 8, 1, 192, 168, 1, 2, 0x0e, 0x57, 4, 4, 0x11, 1]

def conn9 : ConnectionResponse := { conn7 with channel := 9 }

/-- The request of a read of 1/0/1 on channel `ch` with sequence number 0. -/
def readReq (ch : U8) : Bytes := [6, 0x10, 4, 0x20, 0, 21, 4, ch, 0, 0, 0x11, 0, 0xbc, 0xe0, 0, 0, 8, 1, 1, 0, 0]

/-- A read of 1/0/1 draws a number on channel 7; then a malformed datagram makes the task reconnect, on channel 9. -/
def reconnectEvs : List Ev := [.bg .run, .bg .sendOk, .bg (.dgram grant7), .bg .run,
  .api (.call (.read (.group3 ⟨1, 0, 1⟩))), .api .run,
  .bg (.dgram [1, 2, 3]), .bg .run, .bg .run, .bg .sendOk, .bg (.dgram grant9), .bg .run, .api .run]

/-- Then the read is sent, given up by the caller, and repeated. -/
def repeatEvs : List Ev := reconnectEvs ++ [.api .sendOk, .api .cancel,
  .api (.call (.read (.group3 ⟨1, 0, 1⟩))), .api .run, .api .run, .api .sendOk]

/-- C47 is refuted: a request with the number 0 drawn from the connection with channel 7 is sent on channel 9. -/
theorem C47_violated (m : Mode) : ∃ s s' tr, Exec m s tr ∧ step m s (.api .sendOk) = some (s', [.tx .api (readReq 9)]) ∧
    lastUp (upto isDrew tr) = some conn7 ∧ (drawn tr).getLast? = some 0 ∧ conn7.channel ≠ 9 := by
  obtain ⟨s, tr, h1, h2⟩ := exec_of_evs (m := m) (evs := reconnectEvs)
    (f := fun x => (lastUp (upto isDrew x.2), (drawn x.2).getLast?, x.1.api))
    (y := (some conn7, some 0, .sendReq (.read (.group3 ⟨1, 0, 1⟩)) (readReq 9))) (by cases m <;> decide +kernel)
  simp only [Prod.mk.injEq] at h2
  refine ⟨s, { s with api := .reading 0x801 (s.bg.now + apiTimeout) }, tr, h1, ?_, h2.1, h2.2.1, by decide⟩
  simp only [step, apiStep, h2.2.2]; rfl

/-- C47: as a consequence the same number is used twice on channel 9. -/
theorem C47_violated_twice (m : Mode) : ∃ s tr, Exec m s tr ∧ requestsSent tr = [readReq 9, readReq 9] ∧
    ups tr = [conn7, conn9] ∧ RequestPacket 9 0 (lDataReqFrame 3 0x801 apduRead) (readReq 9) := by
  obtain ⟨s, tr, h1, h2⟩ := exec_of_evs (m := m) (evs := repeatEvs)
    (f := fun x => (requestsSent x.2, ups x.2))
    (y := ([readReq 9, readReq 9], [conn7, conn9])) (by cases m <;> decide +kernel)
  simp only [Prod.mk.injEq] at h2
  exact ⟨s, tr, h1, h2.1, h2.2, 21, by decide⟩

/-! ## C53 -/

/-- C53: when a read returns a value, it has sent one request, the group read of its address; the telegram it took last is
an indication for that address with that value; and none of the telegrams it took before (if any) is an indication for
that address. -/
theorem C53_value {m : Mode} {s s' : Sys} {tr o : List Obs} {e : Ev} {v : Bytes} (h : Exec m s tr)
    (hs : step m s e = some (s', o)) (hv : Obs.ret (.value v) ∈ o) :
    ∃ addr p ch n cs c, lastCall (tr ++ o) = some (.read addr) ∧
      apiSent (since isCall (tr ++ o)) = [p] ∧ RequestPacket ch n (lDataReqFrame 3 addr.toU16.toNat apduRead) p ∧
      taken (since isCall (tr ++ o)) = cs ++ [c] ∧ IndicationFor addr.toU16 c v ∧
      ∀ x ∈ cs, ∀ w, ¬ IndicationFor addr.toU16 x w := by
  have hc := h.callInv
  have ht := step_api hs (Or.inl (returned_ne hv))
  cases ht
  case readValue a dl c rest i h1 h2 h3 h4 h5 =>
    rw [h1] at hc
    obtain ⟨addr, p, i1, rfl, i3, i4, n, ch, cemi, i5, i6, i7⟩ := hc
    rw [readCemi_eq] at i5
    cases i5
    simp only [List.mem_cons, Obs.ret.injEq, Ret.value.injEq, List.not_mem_nil, or_false, reduceCtorEq, false_or] at hv
    subst hv
    refine ⟨addr, p, ch, n, taken (since isCall tr), c, (lastCall_same _ _ rfl).trans i1, ?_, requestPacket_of i7, ?_,
      indication_iff.2 ⟨h3, i, h4, h5, rfl⟩, fun x hx => skipped_iff (i3 x hx)⟩
    · rw [since_task _ rfl, apiSent_append, i4]; rfl
    · rw [since_task _ rfl, taken_append]; rfl
  all_goals simp at hv

/-- One read of 1/0/1 on channel 7, with the answer arriving after an unrelated telegram. -/
def answerEvs (first : Bytes) : List Ev := [.bg .run, .bg .sendOk, .bg (.dgram grant7), .bg .run,
  .api (.call (.read (.group3 ⟨1, 0, 1⟩))), .api .run, .api .run, .api .sendOk,
  .bg (.dgram first), .bg .sendOk, .bg .run, .api .run, .bg (.dgram req7), .bg .sendOk, .bg .run]

/-- A write of 1/0/2, as a tunneling request on channel 7. -/
def other7 : Bytes := [6, 0x10, 4, 0x20, 0, 21, 4, 7, 0, 0, 0x29, 0, 0xbc, 0xe0, 0x11, 2, 8, 2, 1, 0, 0x81]

example (m : Mode) : ∃ s s' tr c, Exec m s tr ∧
    step m s (.api .run) = some (s', [.taken 0 c, .ret (.value [1])]) ∧ (taken tr).length = 1 := by
  obtain ⟨s, tr, h1, h2⟩ := exec_of_evs (m := m) (evs := answerEvs other7)
    (f := fun x => (x.1.api, x.1.bg.queue, (taken x.2).length))
    (y := (.reading 0x801 10000, [tel7], 1)) (by cases m <;> decide +kernel)
  simp only [Prod.mk.injEq] at h2
  refine ⟨s, { bg := { s.bg with queue := [] }, api := .idle }, tr, tel7, h1, ?_, h2.2.2⟩
  · simp only [step, apiStep, h2.1, chanRecv, h2.2.1]; rfl

/-! ## C54 -/

/-- C54, the part that holds: if everything delivered before the call had been taken when the read started, then the value
it returns comes from a telegram delivered during the call. -/
theorem C54_fresh_partial {m : Mode} {s s' : Sys} {tr o : List Obs} {e : Ev} {v : Bytes} (h : Exec m s tr)
    (hs : step m s e = some (s', o)) (hv : Obs.ret (.value v) ∈ o)
    (hq : taken (upto isCall tr) = queued (upto isCall tr)) :
    ∃ addr c, lastCall (tr ++ o) = some (.read addr) ∧ c ∈ queued (since isCall tr) ∧ IndicationFor addr.toU16 c v := by
  have h1 := C53_value h hs hv
  obtain ⟨addr, p, ch, n, cs, c, e1, e2, e3, e4, e5, e6⟩ := h1
  refine ⟨addr, c, e1, ?_, e5⟩
  have hx := h.step e hs
  have h2 := (C43_fifo (.client hx)).1
  have hnc : o.any isCall = false := by
    have ht := step_api hs (Or.inl (returned_ne hv))
    cases ht <;> first | rfl | (simp at hv)
  have hoq : queued o = [] := by
    have ht := step_api hs (Or.inl (returned_ne hv))
    cases ht <;> rfl
  rw [← upto_since isCall (tr ++ o), taken_append, queued_append, upto_append _ _ _ hnc, hq] at h2
  have h3 := (List.prefix_append_right_inj _).1 h2
  rw [since_task _ hnc, queued_append, hoq, List.append_nil, ← since_task _ hnc, e4] at h3
  exact h3.subset (by simp)

/-- C54 is refuted: whenever a client is connected and idle and the telegram that arrived longest ago and was not yet taken
is an indication for an address (whoever sent it, for whatever reason), then a read of that address can return its value
without anything having been received after the call was started. -/
theorem C54_violated (m : Mode) (s : Sys) (tr : List Obs) (addr : KnxAddress) (c : Cemi) (rest : List Cemi) (v : Bytes) (d : Conn)
    (_h : Exec m s tr) (h1 : s.api = .idle) (h2 : s.bg.rxOpen = true) (h3 : s.bg.conn = some d)
    (h4 : connLocked .client s.bg = false) (h5 : s.bg.queue = c :: rest) (h6 : IndicationFor addr.toU16 c v) :
    ∃ s' p, Run m s [.call (.read addr), .drew d.seq, .tx .api p, .taken 0 c, .ret (.value v)] s' := by
  obtain ⟨hc, i, hi, hd, rfl⟩ := indication_iff.1 h6
  obtain ⟨p, hp⟩ : ∃ p, (TunnelingRequest.mk d.channel d.seq (lDataReqFrame 3 addr.toU16.toNat apduRead)).packet m = .ok p :=
    ⟨_, tunnelingRequest_packet m _ (by simp [lDataReqFrame, apduRead, word])⟩
  refine ⟨{ bg := { s.bg with conn := some { d with seq := d.seq + 1 }, queue := rest }, api := .idle }, p, runEvs_run (evs := [.api (.call (.read addr)), .api .run, .api .run, .api .sendOk, .api .run]) ?_⟩
  · have hne : ¬ codeLDataInd = codeLDataCon := by decide
    have hl' : ∀ co q ro n hb su ch, connLocked .client ⟨co, s.bg.pc, q, ro, n, hb, su, ch⟩ = false :=
      fun _ _ _ _ _ _ _ => h4
    simp [runEvs, step, apiStep, h1, h2, apiCall, readCemi_eq, startTunnel, withConn, h4, h3, hl', hp, chanRecv, h5, readMsg, hne,
      hc, hi, hd, finish]

/-- A group read of 1/0/1 sent by another device, as a tunneling request on channel 7. -/
def foreign7 : Bytes := [6, 0x10, 4, 0x20, 0, 21, 4, 7, 0, 0, 0x29, 0, 0xbc, 0xe0, 0x11, 2, 8, 1, 1, 0, 0]

/-- C54: even the group read of another device is taken for an answer: it arrives before the call, no answer arrives, and
the read returns the value 0. -/
theorem C54_violated_read (m : Mode) : ∃ s tr, Exec m s tr ∧ received tr = [foreign7] ∧
    (∀ d, Obs.rx d ∉ since isCall tr) ∧ returned tr = [.value [0]] := by
  obtain ⟨s, tr, h1, h2⟩ := exec_of_evs (m := m) (evs := [.bg .run, .bg .sendOk, .bg (.dgram grant7), .bg .run,
      .bg (.dgram foreign7), .bg .sendOk, .bg .run,
      .api (.call (.read (.group3 ⟨1, 0, 1⟩))), .api .run, .api .run, .api .sendOk, .api .run])
    (f := fun x => (received x.2, received (since isCall x.2), returned x.2))
    (y := ([foreign7], [], [.value [0]])) (by cases m <;> decide +kernel)
  simp only [Prod.mk.injEq] at h2
  refine ⟨s, tr, h1, h2.1, ?_, h2.2.2⟩
  intro d hd
  have : d ∈ received (since isCall tr) := List.mem_filterMap.2 ⟨_, hd, rfl⟩
  rw [h2.2.1] at this; cases this

/-! ## C55 -/

/-- Steps of the task are prompt. -/
theorem bgRun_prompt {m : Mode} {s : Sys} {b : Bg} {evs : List BgEv} {tr : List Obs}
    (h : bgRun .client m s.bg evs = some (b, tr)) : PromptRun m s tr { s with bg := b } := by
  induction evs generalizing s tr with
  | nil => simp only [bgRun, Option.some.injEq, Prod.mk.injEq] at h; obtain ⟨rfl, rfl⟩ := h; exact .nil _
  | cons e es ih =>
    simp only [bgRun] at h
    split at h
    · cases h
    · rename_i s1 o hs
      simp only [Option.map_eq_some_iff] at h
      obtain ⟨⟨x, y⟩, hx, he⟩ := h
      cases he
      exact .step (.bg e) trivial (s' := { s with bg := s1 }) (by simp [Knx.step, hs]) (ih (s := { s with bg := s1 }) hx)

/-- A call is over: it has returned or been given up. -/
def Over (tr : List Obs) : Prop := returned tr ≠ [] ∨ Obs.cancelled ∈ tr

theorem ApiTr.of_reading {m : Mode} {s s' : Sys} {o : List Obs} {a : U16} {dl : Nat} (h : ApiTr m s s' o)
    (h1 : s.api = .reading a dl) :
    (∃ c rest, s.bg.queue = c :: rest ∧ Skipped a c ∧
      s' = { bg := { s.bg with queue := rest }, api := .reading a (s.bg.now + apiTimeout) } ∧ o = [.taken 0 c]) ∨ Over o := by
  cases h
  case readSkip a' dl' c rest g1 g2 g3 =>
    rw [h1] at g1
    cases g1
    exact Or.inl ⟨c, rest, g2, g3, rfl, rfl⟩
  all_goals first
    | (exfalso; simp_all; done)
    | (right; left; simp [returned]; done)
    | (right; right; simp; done)

/-- In a run in which timers fire on time, a read in progress is at most ten seconds past the moment it took its last telegram
or started to wait. -/
theorem reading_bound {m : Mode} {s s' : Sys} {tr : List Obs} {a : U16} {dl : Nat} (h : PromptRun m s tr s')
    (h1 : s.api = .reading a dl) (h2 : s.bg.now ≤ dl) :
    Over tr ∨ ∃ dl', s'.api = .reading a dl' ∧ s'.bg.now ≤ dl' ∧ dl' ≤ dl + apiTimeout * (taken tr).length := by
  induction h generalizing dl with
  | nil s => exact Or.inr ⟨dl, h1, h2, by simp [taken]⟩
  | @step s s1 s2 o tr e hp hs hr ih =>
    have over : Over o → Over (o ++ tr) := by
      rintro (h | h)
      · left; rw [returned_append]; simp [h]
      · right; exact List.mem_append_left _ h
    have cont : ∀ dl1, s1.api = .reading a dl1 → s1.bg.now ≤ dl1 → dl1 ≤ dl + apiTimeout * (taken o).length →
        Over (o ++ tr) ∨ ∃ dl', s2.api = .reading a dl' ∧ s2.bg.now ≤ dl' ∧
          dl' ≤ dl + apiTimeout * (taken (o ++ tr)).length := by
      intro dl1 g1 g2 g3
      rcases ih g1 g2 with (h | h) | ⟨dl', k1, k2, k3⟩
      · left; left; rw [returned_append]; simp [h]
      · left; right; exact List.mem_append_right _ h
      · right
        refine ⟨dl', k1, k2, ?_⟩
        rw [taken_append, List.length_append, Nat.mul_add]
        omega
    cases e with
    | bg e =>
      simp only [Knx.step, Option.map_eq_some_iff, Prod.exists, Prod.mk.injEq] at hs
      obtain ⟨b, o', hb, rfl, rfl⟩ := hs
      have ht := bgStep_tr hb
      refine cont dl h1 ?_ (by omega)
      have : b.now = s.bg.now := by cases ht <;> rfl
      simp only [this]; exact h2
    | delay d =>
      cases hs
      refine cont dl h1 ?_ (by omega)
      exact hp.2 dl (by rw [h1]; rfl)
    | api e =>
      rcases (apiStep_tr hs).of_reading h1 with ⟨c, rest, g1, g2, rfl, rfl⟩ | g
      · refine cont _ rfl (by simp only; omega) ?_
        rw [show (taken [Obs.taken 0 c]).length = 1 from rfl]
        omega
      · exact Or.inl (over g)

/-- C55, the part that holds: a read that has sent its request, and takes `n` telegrams, is over at the latest
10·(n+1) seconds after the request was sent, if timers fire on time; in particular after ten seconds, if there is no
telegram for it to take. -/
theorem C55_bound_partial {m : Mode} {s s1 s2 : Sys} {tr0 tr : List Obs} {addr : KnxAddress} {p : Bytes} (_h : Exec m s tr0)
    (h1 : s.api = .sendReq (.read addr) p) (h2 : step m s (.api .sendOk) = some (s1, [.tx .api p]))
    (h3 : PromptRun m s1 tr s2) (h4 : s1.bg.now + 10000 * ((taken tr).length + 1) < s2.bg.now) : Over tr := by
  have e : s1 = { s with api := .reading addr.toU16 (s.bg.now + apiTimeout) } := by
    simp only [step, apiStep, h1] at h2
    simp at h2
    exact h2.symm
  subst e
  rcases reading_bound h3 rfl (by simp only; omega) with h | ⟨dl, _, k1, k2⟩
  · exact h
  · simp only [apiTimeout] at *
    omega

/-- C55: the deadline can be met: when it has come, the read can return, with an error. -/
theorem C55_returns {m : Mode} {s : Sys} {tr0 : List Obs} {a : U16} {dl : Nat} (_h : Exec m s tr0)
    (h1 : s.api = .reading a dl) (h2 : dl ≤ s.bg.now) :
    step m s (.api .timer) = some ({ s with api := .idle }, [.ret .err]) := by
  simp [step, apiStep, h1, h2, finish]

/-- A read of `a` in progress after `n` minutes and `j` times six seconds. -/
def readBusy (r : ConnectionResponse) (a : U16) (n j : Nat) : Sys where
  bg := { linkUp .client r with conn := some ⟨r.channel, r.dataEndpoint, 1⟩, now := 60000 * n + 6000 * j, hbDue := 60000 * (n + 1) }
  api := .reading a (60000 * n + 6000 * j + apiTimeout)

/-- What one unrelated telegram gives to observe. -/
def unrelated (d : Bytes) (channel seq : U8) (c : Cemi) : List Obs :=
  [.rx d, .tx .task (frame TUNNELING_ACK [4, channel, seq, 0]), .queued c, .taken 0 c]

theorem readBusy_step (m : Mode) (r : ConnectionResponse) (a : U16) (n j : Nat) (hj : j < 10) (channel seq res : U8)
    (cemi : Bytes) (c : Cemi) (hl : cemi.length ≤ 65525) (hc : runRd (Cemi.fromPacket m) id (cut cemi) = .ok c)
    (hk : Skipped a c) :
    PromptRun m (readBusy r a n j)
      (unrelated (frame TUNNELING_REQUEST ([4, channel, seq, res] ++ cemi)) channel seq c) (readBusy r a n (j + 1)) := by
  have h1 : Knx.step m (readBusy r a n j) (.delay 6000)
      = some ({ bg := (readBusy r a n (j + 1)).bg, api := (readBusy r a n j).api }, []) := by
    simp [Knx.step, readBusy]; omega
  have h2 := (C41_datagram_exact .client m (readBusy r a n (j + 1)).bg channel seq res cemi c hl rfl rfl
    (by simp [readBusy, linkUp, Bg.init]) hc).1
  have h3 := bgRun_prompt (s := { bg := (readBusy r a n (j + 1)).bg, api := (readBusy r a n j).api }) h2
  have h4 : Knx.step m ⟨{ (readBusy r a n (j + 1)).bg with queue := (readBusy r a n (j + 1)).bg.queue ++ [c] },
      (readBusy r a n j).api⟩ (.api .run) = some (readBusy r a n (j + 1), [.taken 0 c]) := by
    simp only [Knx.step, apiStep, readBusy, linkUp, Bg.init, chanRecv, readMsg, reduceCtorEq, if_false, List.nil_append]
    rcases hk with hk | ⟨i, hi, hd⟩
    · by_cases hcon : c.msgCode = codeLDataCon
      · rw [if_pos hcon]
        split
        · rename_i hp; exact absurd hp (C15_lDataCon c).1
        · rfl
      · rw [if_neg hcon, if_neg hk]
    · by_cases hcon : c.msgCode = codeLDataCon
      · rw [if_pos hcon]
        split
        · rename_i hp; exact absurd hp (C15_lDataCon c).1
        · rfl
      · rw [if_neg hcon]
        split
        · rw [hi]; simp only [hd, if_false]
        · rfl
  have h5 : PromptRun m _ ([] ++ (_ ++ ([.taken 0 c] ++ []))) _ :=
    .step (.delay 6000) (by
      constructor
      · intro t ht
        simp [bgDeadline, readBusy, linkUp, inSelect] at ht
        simp only [readBusy]
        omega
      · intro t ht
        simp [apiDeadline, readBusy] at ht
        simp only [readBusy]
        unfold apiTimeout at ht
        omega) h1 (h3.trans (.step (.api .run) trivial h4 (.nil _)))
  simpa [unrelated] using h5

/-- The observations of `n` minutes: a heart beat and ten unrelated telegrams each. -/
def busyMinutes (n : Nat) (r : ConnectionResponse) (u : List Obs) : List Obs :=
  times n (times 10 u ++ [.tick, .tx .task (ConnectionstateRequest.mk r.channel r.dataEndpoint).packet])

theorem times_succ (n : Nat) (o : List Obs) : times (n + 1) o = times n o ++ o := by
  simp [times, List.replicate_succ', List.flatten_append]

theorem readBusy_run (m : Mode) (r : ConnectionResponse) (a : U16) (n : Nat) (channel seq res : U8)
    (cemi : Bytes) (c : Cemi) (hl : cemi.length ≤ 65525) (hc : runRd (Cemi.fromPacket m) id (cut cemi) = .ok c)
    (hk : Skipped a c) :
    PromptRun m (readBusy r a 0 0)
      (busyMinutes n r (unrelated (frame TUNNELING_REQUEST ([4, channel, seq, res] ++ cemi)) channel seq c)) (readBusy r a n 0) := by
  induction n with
  | zero => exact .nil _
  | succ n ih =>
    rw [busyMinutes, times_succ]
    refine ih.trans ?_
    have ten : ∀ j, j ≤ 10 → PromptRun m (readBusy r a n 0)
        (times j (unrelated (frame TUNNELING_REQUEST ([4, channel, seq, res] ++ cemi)) channel seq c)) (readBusy r a n j) := by
      intro j hj
      induction j with
      | zero => exact .nil _
      | succ j ihj =>
        rw [times_succ]
        exact (ihj (by omega)).trans (readBusy_step m r a n j (by omega) channel seq res cemi c hl hc hk)
    refine (ten 10 (Nat.le_refl _)).trans ?_
    have h1 : Knx.step m (readBusy r a n 10) (.bg .tick)
        = some ({ bg := { (readBusy r a (n + 1) 0).bg with pc := .hb r.channel r.dataEndpoint }, api := (readBusy r a (n + 1) 0).api },
          [.tick]) := by
      have e : 60000 * n + 6000 * 10 = 60000 * (n + 1) := by omega
      simp only [Knx.step, readBusy, e, bgStep, if_true, tickStep, linkUp, inSelect, true_and, Nat.le_refl, busy, nextTick_self,
        Bool.false_eq_true, if_false, Option.map_some]
      rfl
    have h2 : Knx.step m { bg := { (readBusy r a (n + 1) 0).bg with pc := .hb r.channel r.dataEndpoint }, api := (readBusy r a (n + 1) 0).api } (.bg .sendOk)
        = some (readBusy r a (n + 1) 0, [.tx .task (ConnectionstateRequest.mk r.channel r.dataEndpoint).packet]) := by
      simp [Knx.step, bgStep, readBusy, linkUp, Bg.init]
    exact .step (.bg .tick) trivial h1 (.step (.bg .sendOk) trivial h2 (.nil _))

theorem taken_times (n : Nat) (o : List Obs) (k : Nat) (c : Cemi) (h : taken o = List.replicate k c) :
    taken (times n o) = List.replicate (n * k) c := by
  induction n with
  | zero => simp [times, taken]
  | succ n ih => rw [times_succ, taken_append, ih, h, List.replicate_append_replicate]; congr 1; rw [Nat.succ_mul]

theorem returned_times (n : Nat) (o : List Obs) (h : returned o = []) : returned (times n o) = [] := by
  induction n with
  | zero => rfl
  | succ n ih => rw [times_succ, returned_append, ih, h]; rfl

theorem not_mem_times {x : Obs} {o : List Obs} (n : Nat) (h : x ∉ o) : x ∉ times n o := by
  simp only [times, List.mem_flatten, List.mem_replicate, not_exists, not_and]
  rintro l ⟨_, rfl⟩; exact h

/-- C55 is refuted: on every connection that can be established, a read of any address can be kept waiting for any number `n`
of minutes after it has sent its request, with all timers firing on time, by telegrams that do not concern it (here: any one telegram
that is not an indication for the address, received every six seconds). -/
theorem C55_violated (m : Mode) (d : Bytes) (r : ConnectionResponse) (hg : Grants d r) (addr : KnxAddress) (channel seq res : U8)
    (cemi : Bytes) (c : Cemi) (hl : cemi.length ≤ 65525) (hc : runRd (Cemi.fromPacket m) id (cut cemi) = .ok c)
    (hk : c.msgCode ≠ L_DATA_IND ∨ ∃ dest v, IndicationFor dest c v ∧ dest ≠ addr.toU16) (n : Nat) :
    ∃ s s' tr0 tr p, Exec m s (tr0 ++ [.tx .api p]) ∧ lastCall tr0 = some (.read addr) ∧ PromptRun m s tr s' ∧ ¬ Over tr ∧
      s'.bg.now = s.bg.now + 60000 * n ∧ (received tr).length = 10 * n ∧ taken tr = List.replicate (10 * n) c := by
  have hk' : Skipped addr.toU16 c := by
    rcases hk with hk | ⟨dest, v, hk, hd⟩
    · exact Or.inl hk
    · obtain ⟨_, i, h1, h2, _⟩ := indication_iff.1 hk
      exact Or.inr ⟨i, h1, by rw [h2]; exact hd⟩
  obtain ⟨p, hp⟩ : ∃ p, (TunnelingRequest.mk r.channel 0 (lDataReqFrame 3 addr.toU16.toNat apduRead)).packet m = .ok p :=
    ⟨_, tunnelingRequest_packet m _ (by simp [lDataReqFrame, apduRead, word])⟩
  have hx := exec_link m hg
  have hr : runEvs m ⟨linkUp .client r, .idle⟩ [.bg .tick, .bg .sendOk, .api (.call (.read addr)), .api .run, .api .run, .api .sendOk]
      = some (readBusy r addr.toU16 0 0, [.tick, .tx .task (ConnectionstateRequest.mk r.channel r.dataEndpoint).packet,
        .call (.read addr), .drew 0, .tx .api p]) := by
    simp only [runEvs, step, bgStep, if_true, tickStep, linkUp, Bg.init, inSelect, busy, nextTick_self, Nat.le_refl, and_self,
      Conn.ofResponse, Bool.false_eq_true, if_false, Option.map_some, reduceCtorEq, apiStep, apiCall, readCemi_eq, startTunnel,
      withConn, connLocked, hp, readBusy]
    rfl
  have hx' := hx.append (runEvs_run hr)
  have hrun := readBusy_run m r addr.toU16 n channel seq res cemi c hl hc hk'
  refine ⟨_, _, linkTrace .client d r ++ [.tick, .tx .task (ConnectionstateRequest.mk r.channel r.dataEndpoint).packet,
    .call (.read addr), .drew 0], _, p, by simpa using hx', ?_, hrun, ?_, ?_, ?_, ?_⟩
  · rw [show linkTrace .client d r ++ [.tick, .tx .task (ConnectionstateRequest.mk r.channel r.dataEndpoint).packet,
      .call (.read addr), .drew 0] = linkTrace .client d r ++ [.tick, .tx .task (ConnectionstateRequest.mk r.channel r.dataEndpoint).packet,
      .call (.read addr)] ++ [.drew 0] by simp, lastCall_same _ _ rfl]
    simp [lastCall, calls]
  · rintro (h | h)
    · apply h
      apply returned_times
      rw [returned_append, returned_times 10 _ rfl]; rfl
    · revert h
      apply not_mem_times
      rw [List.mem_append, not_or]
      exact ⟨not_mem_times 10 (by simp [unrelated]), by simp⟩
  · simp [readBusy]
  · induction n with
    | zero => rfl
    | succ n ih =>
      rw [busyMinutes, times_succ, received_append, List.length_append]
      have := ih (readBusy_run m r addr.toU16 n channel seq res cemi c hl hc hk')
      rw [busyMinutes] at this
      rw [this]
      simp [times, List.replicate, unrelated, received]
      omega
  · rw [busyMinutes, taken_times n _ 10 c, Nat.mul_comm]
    rw [taken_append, taken_times 10 _ 1 c rfl]; rfl

example (m : Mode) : Grants grant7 conn7 ∧
    runRd (Cemi.fromPacket m) id (cut [0x29, 0, 0xbc, 0xe0, 0x11, 2, 8, 1, 1, 0, 0x81]) = .ok tel7 ∧
    ∃ dest v, IndicationFor dest tel7 v ∧ dest ≠ (KnxAddress.group3 ⟨1, 0, 2⟩).toU16 :=
  ⟨grants7, tel7_eq m, 0x801, [1], ⟨rfl, 0xbc, 0xe0, 0x11, 2, 8, 1, 1, 0, 0x81, [], rfl, by decide, by decide⟩, by decide⟩

/-! ## C56 -/

/-- What a write has put on the wire: one tunneling request with the telegram of the write. -/
def WroteOnly (tr : List Obs) : Prop :=
  ∃ addr v small p ch n cemi, lastCall tr = some (.write addr v small) ∧ apiSent (since isCall tr) = [p] ∧
    RequestPacket ch n cemi p ∧ (small = false → cemi = lDataReqFrame 3 addr.toU16.toNat (apduWriteBig v)) ∧
    (small = true → cemi = lDataReqFrame 3 addr.toU16.toNat (apduWriteSmall (v.headD 0)))

theorem wroteOnly_of {m : Mode} {dl : Nat} {tr : List Obs} (h : CallInv m (.writing dl) tr) : WroteOnly tr := by
  obtain ⟨addr, v, small, p, h1, h2, h3, n, ch, cemi, h4, h5, h6⟩ := h
  refine ⟨addr, v, small, p, ch, n, cemi, h1, h3, requestPacket_of h6, ?_, ?_⟩
  · rintro rfl
    exact writeCemi_ok h4
  · rintro rfl
    exact writeCemi_ok h4

theorem WroteOnly.mono {tr o : List Obs} (h : WroteOnly tr) (h1 : o.any isCall = false) (h2 : apiSent o = []) :
    WroteOnly (tr ++ o) := by
  obtain ⟨addr, v, small, p, ch, n, cemi, e1, e2, e3⟩ := h
  refine ⟨addr, v, small, p, ch, n, cemi, (lastCall_same _ _ h1).trans e1, ?_, e3⟩
  rw [since_task _ h1, apiSent_append, h2, List.append_nil, e2]

/-- C56: a write returns `Ok` only after it has sent its one telegram and taken one telegram, which is an L_Data.con. -/
theorem C56_ok_partial {m : Mode} {s s' : Sys} {tr o : List Obs} {e : Ev} (h : Exec m s tr)
    (hs : step m s e = some (s', o)) (hw : ∃ addr v small, lastCall tr = some (.write addr v small)) (hv : Obs.ret .unit ∈ o) :
    WroteOnly (tr ++ o) ∧ ∃ c, taken (since isCall (tr ++ o)) = [c] ∧ c.msgCode = L_DATA_CON := by
  have hc := h.callInv
  have ht := step_api hs (Or.inl (returned_ne hv))
  obtain ⟨addr, v, small, hw⟩ := hw
  cases ht
  case writeOk dl c rest h1 h2 h3 =>
    rw [h1] at hc
    refine ⟨(wroteOnly_of hc).mono rfl rfl, c, ?_, h3⟩
    obtain ⟨_, _, _, _, _, g, _⟩ := hc
    rw [since_task _ rfl, taken_append, g]; rfl
  case dcOk c rest h1 h2 =>
    rw [h1] at hc
    rw [hc.1] at hw
    cases hw
  all_goals simp at hv

/-- C56: the first telegram a write takes decides its result: `Ok` iff it is an L_Data.con, whatever else is in it,
otherwise an error. -/
theorem C56_first_decides {m : Mode} {s s' : Sys} {tr o : List Obs} {e : Ev} {i : Nat} {c : Cemi} (h : Exec m s tr)
    (hs : step m s e = some (s', o)) (hw : ∃ addr v small, lastCall tr = some (.write addr v small)) (ht : Obs.taken i c ∈ o) :
    taken (since isCall (tr ++ o)) = [c] ∧ s'.api = .idle ∧
      o = [.taken 0 c, .ret (if c.msgCode = L_DATA_CON then .unit else .err)] := by
  have hc := h.callInv
  have ht' := step_api hs (Or.inr (Or.inr (Or.inl (taken_ne ht))))
  obtain ⟨addr, v, small, hw⟩ := hw
  cases ht'
  case writeOk dl c' rest h1 h2 h3 =>
    rw [h1] at hc
    obtain ⟨_, _, _, _, _, g, _⟩ := hc
    simp only [List.mem_cons, Obs.taken.injEq, reduceCtorEq, List.not_mem_nil, or_false] at ht
    obtain ⟨rfl, rfl⟩ := ht
    refine ⟨?_, rfl, ?_⟩
    · rw [since_task _ rfl, taken_append, g]; rfl
    · rw [if_pos (show c.msgCode = L_DATA_CON from h3)]
  case writeBad dl c' rest h1 h2 h3 =>
    rw [h1] at hc
    obtain ⟨_, _, _, _, _, g, _⟩ := hc
    simp only [List.mem_cons, Obs.taken.injEq, reduceCtorEq, List.not_mem_nil, or_false] at ht
    obtain ⟨rfl, rfl⟩ := ht
    refine ⟨?_, rfl, ?_⟩
    · rw [since_task _ rfl, taken_append, g]; rfl
    · rw [if_neg (show ¬ c.msgCode = L_DATA_CON from h3)]
  case dcOk c' rest h1 h2 => rw [h1] at hc; rw [hc.1] at hw; cases hw
  case readSkip a dl c' rest h1 h2 h3 => rw [h1] at hc; obtain ⟨_, _, g, _⟩ := hc; rw [g] at hw; cases hw
  case readBad a dl c' rest h1 h2 h3 h4 => rw [h1] at hc; obtain ⟨_, _, g, _⟩ := hc; rw [g] at hw; cases hw
  case readValue a dl c' rest i h1 h2 h3 h4 h5 => rw [h1] at hc; obtain ⟨_, _, g, _⟩ := hc; rw [g] at hw; cases hw
  all_goals simp at ht

/-- A negative confirmation (bit 0 of the control byte set) of a write of 1/0/2, as a tunneling request on channel 7. -/
def negative7 : Bytes := [6, 0x10, 4, 0x20, 0, 21, 4, 7, 0, 0, 0x2e, 0, 0xbd, 0xe0, 0x11, 1, 8, 2, 1, 0, 0x81]

/-- A positive confirmation of a write of 1/0/1. -/
def positive7 : Bytes := [6, 0x10, 4, 0x20, 0, 21, 4, 7, 1, 0, 0x2e, 0, 0xbc, 0xe0, 0x11, 1, 8, 1, 1, 0, 0x81]

/-- A write of 1 to 1/0/1 on channel 7 during which the datagrams `ds` arrive. -/
def writeEvs (ds : List Bytes) : List Ev := [.bg .run, .bg .sendOk, .bg (.dgram grant7), .bg .run,
  .api (.call (.write (.group3 ⟨1, 0, 1⟩) [1] true)), .api .run, .api .run, .api .sendOk]
  ++ ds.flatMap (fun d => [.bg (.dgram d), .bg .sendOk, .bg .run]) ++ [.api .run]

/-- C56 is refuted as a guarantee of delivery: a write of 1/0/1 returns `Ok` having received nothing but a negative
confirmation for another address, -/
theorem C56_violated_negative (m : Mode) : ∃ s tr, Exec m s tr ∧
    calls tr = [.write (.group3 ⟨1, 0, 1⟩) [1] true] ∧ received tr = [negative7] ∧ returned tr = [.unit] ∧
    ∃ c i, taken tr = [c] ∧ LDataCon.fromCemi c = .ok i ∧ i.confirm = false ∧ i.lData.dest = 0x802 := by
  obtain ⟨s, tr, h1, h2⟩ := exec_of_evs (m := m) (evs := writeEvs [negative7])
    (f := fun x => (calls x.2, received x.2, returned x.2, taken x.2))
    (y := ([.write (.group3 ⟨1, 0, 1⟩) [1] true], [negative7], [.unit], [⟨0x2e, [], [0xbd, 0xe0, 0x11, 1, 8, 2, 1, 0, 0x81]⟩]))
    (by cases m <;> decide +kernel)
  simp only [Prod.mk.injEq] at h2
  refine ⟨s, tr, h1, h2.1, h2.2.1, h2.2.2.1, _, ⟨⟨0x2e, [], [0xbd, 0xe0, 0x11, 1, 8, 2, 1, 0, 0x81]⟩,
    LData.ofControl 0x1101 0x802 0xbd, false⟩, h2.2.2.2, by decide, rfl, by decide⟩

/-- and an error although the confirmation has been received, if an unrelated telegram came first. -/
theorem C56_violated_indication (m : Mode) : ∃ s tr, Exec m s tr ∧
    calls tr = [.write (.group3 ⟨1, 0, 1⟩) [1] true] ∧ received tr = [other7, positive7] ∧ returned tr = [.err] ∧
    Carries m positive7 ⟨0x2e, [], [0xbc, 0xe0, 0x11, 1, 8, 1, 1, 0, 0x81]⟩ := by
  obtain ⟨s, tr, h1, h2⟩ := exec_of_evs (m := m) (evs := writeEvs [other7, positive7])
    (f := fun x => (calls x.2, received x.2, returned x.2))
    (y := ([.write (.group3 ⟨1, 0, 1⟩) [1] true], [other7, positive7], [.err])) (by cases m <;> decide +kernel)
  simp only [Prod.mk.injEq] at h2
  refine ⟨s, tr, h1, h2.1, h2.2.1, h2.2.2, ?_⟩
  have := decodes_request 7 1 0 [0x2e, 0, 0xbc, 0xe0, 0x11, 1, 8, 1, 1, 0, 0x81] (by simp)
  exact ⟨_, this, by cases m <;> decide +kernel⟩

example (m : Mode) : ∃ s tr c rest, Exec m s tr ∧ s.bg.queue = c :: rest ∧ (∃ dl, s.api = .writing dl) ∧
    lastCall tr = some (.write (.group3 ⟨1, 0, 1⟩) [1] true) ∧ c.msgCode = L_DATA_CON := by
  obtain ⟨s, tr, h1, h2⟩ := exec_of_evs (m := m) (evs := (writeEvs [positive7]).dropLast)
    (f := fun x => (x.1.bg.queue, x.1.api, lastCall x.2))
    (y := ([⟨0x2e, [], [0xbc, 0xe0, 0x11, 1, 8, 1, 1, 0, 0x81]⟩], .writing 10000, some (.write (.group3 ⟨1, 0, 1⟩) [1] true)))
    (by cases m <;> decide +kernel)
  simp only [Prod.mk.injEq] at h2
  exact ⟨s, tr, _, _, h1, h2.1, ⟨_, h2.2.1⟩, h2.2.2, rfl⟩

/-! ## C57 -/

/-- C57, what `Ok` means: `disconnect` returns `Ok` only when it has sent a disconnect request and takes a telegram from the
message channel, whatever it is. -/
theorem C57_ok_partial {m : Mode} {s s' : Sys} {tr o : List Obs} {e : Ev} (h : Exec m s tr)
    (hs : step m s e = some (s', o)) (hw : lastCall tr = some .disconnect) (hv : Obs.ret .unit ∈ o) :
    (∃ ch ep, apiSent (since isCall tr) = [frame DISCONNECT_REQUEST ([ch, 0] ++ hpai ep)]) ∧
    ∃ c, taken (since isCall (tr ++ o)) = [c] ∧ o = [.taken 0 c, .ret .unit] := by
  have hc := h.callInv
  have ht := step_api hs (Or.inl (returned_ne hv))
  cases ht
  case writeOk dl c rest h1 h2 h3 =>
    rw [h1] at hc
    obtain ⟨_, _, _, _, g, _⟩ := hc
    rw [g] at hw; cases hw
  case dcOk c rest h1 h2 =>
    rw [h1] at hc
    obtain ⟨g1, g2, ch, ep, g3⟩ := hc
    rw [C19_bodies.2.1] at g3
    refine ⟨⟨ch, ep, g3⟩, c, ?_, rfl⟩
    rw [since_task _ rfl, taken_append, g2]; rfl
  all_goals simp at hv

/-- After the task has ended with an empty message channel, `disconnect` can only return an error. -/
theorem disc_stuck {m : Mode} {s s' : Sys} {tr : List Obs} (h : Run m s tr s') (h1 : s.api = .dcRecv) (h2 : s.bg.queue = [])
    (h3 : s.bg.pc = .done) :
    (s'.api = .dcRecv ∧ s'.bg.queue = [] ∧ s'.bg.pc = .done ∧ returned tr = []) ∨
      Obs.cancelled ∈ tr ∨ (returned tr).head? = some .err := by
  induction h with
  | nil => exact Or.inl ⟨h1, h2, h3, rfl⟩
  | @step s s1 s2 o tr e hs hr ih =>
    cases e with
    | bg e =>
      simp only [Knx.step, Option.map_eq_some_iff, Prod.exists, Prod.mk.injEq] at hs
      obtain ⟨b, o', hb, rfl, rfl⟩ := hs
      exfalso
      unfold bgStep at hb
      rw [h3] at hb
      split at hb
      · simp [tickStep, h3, inSelect] at hb
      · cases hb
    | delay d =>
      cases hs
      exact ih h1 h2 h3
    | api e =>
      have ht := apiStep_tr hs
      cases ht
      case dcGone => right; right; rfl
      case dcOk c rest g1 g2 => rw [h2] at g2; cases g2
      case cancel => right; left; simp
      all_goals (exfalso; simp_all [looksUp]; done)

/-- C57 is refuted: whenever a disconnect waits, with no telegram in the message channel, and the gateway confirms it (with
whatever status), then the call does not return `Ok`: it can return an error at once, and cannot return anything else. -/
theorem C57_violated {m : Mode} {s : Sys} {tr : List Obs} {d : Bytes} {r : DisconnectResponse} (_h : Exec m s tr)
    (h1 : s.api = .dcRecv) (h2 : s.bg.pc = .recv) (h3 : s.bg.queue = []) (h4 : Decodes (seen d) (.disconnectResponse r)) :
    ∃ s1, step m s (.bg (.dgram d)) = some (s1, [.rx d, .exit]) ∧
      (∃ s2, step m s1 (.api .run) = some (s2, [.ret .err])) ∧
      ∀ s2 tr', Run m s1 tr' s2 → returned tr' = [] ∨ Obs.cancelled ∈ tr' ∨ (returned tr').head? = some .err := by
  have hd : onDatagram d = .done := by
    have hn : d ≠ [] := by rintro rfl; exact decodes_nil h4
    unfold onDatagram
    rw [if_neg (by simpa using hn), buffer_eq_seen, (C21_dispatch_exact _ _).2 h4]
  refine ⟨{ s with bg := { s.bg with pc := .done } }, ?_, ⟨{ s with bg := { s.bg with pc := .done }, api := .idle }, ?_⟩, ?_⟩
  · simp [step, bgStep, h2, hd, endObs]
  · simp [step, apiStep, h1, chanRecv, h3, sendersGone, finish]
  · intro s2 tr' hr
    rcases disc_stuck hr h1 h3 rfl with h | h | h
    · exact Or.inl h.2.2.2
    · exact Or.inr (Or.inl h)
    · exact Or.inr (Or.inr h)

/-- A disconnect response for channel 7. -/
def bye7 : Bytes := [6, 0x10, 2, 0x0a, 0, 8, 7, 0]

example (m : Mode) : ∃ s tr, Exec m s tr ∧ s.api = .dcRecv ∧ s.bg.pc = .recv ∧ s.bg.queue = [] ∧
    Decodes (seen bye7) (.disconnectResponse ⟨7, 0⟩) := by
  obtain ⟨s, tr, h1, h2⟩ := exec_of_evs (m := m) (evs := [.bg .run, .bg .sendOk, .bg (.dgram grant7), .bg .run,
      .api (.call .disconnect), .api .run, .api .run, .api .run, .api .sendOk])
    (f := fun x => (x.1.api, x.1.bg.pc, x.1.bg.queue)) (y := (.dcRecv, .recv, [])) (by cases m <;> decide +kernel)
  simp only [Prod.mk.injEq] at h2
  refine ⟨s, tr, h1, h2.1, h2.2.1, h2.2.2, ?_⟩
  rw [show seen bye7 = frame DISCONNECT_RESPONSE [7, 0] ++ List.replicate 92 0 by decide +kernel]
  exact .disconnectResponse 7 0 _

/-! ## C58 -/

/-- C58: a status query returns a status only if it has sent one connection state request and the datagram it received is a
connection state response with that status (its channel is not compared with that of the connection). -/
theorem C58_status {m : Mode} {s s' : Sys} {tr o : List Obs} {e : Ev} {r : ConnectionstateResponse} (h : Exec m s tr)
    (hs : step m s e = some (s', o)) (hv : Obs.ret (.state r) ∈ o) :
    lastCall (tr ++ o) = some .status ∧
    (∃ ch ep, apiSent (since isCall (tr ++ o)) = [frame CONNECTIONSTATE_REQUEST ([ch, 0] ++ hpai ep)]) ∧
    ∃ d rest, o = [.rxApi d, .ret (.state r)] ∧ seen d = frame CONNECTIONSTATE_RESPONSE [r.channel, r.status] ++ rest := by
  have hc := h.callInv
  have ht := step_api hs (Or.inl (returned_ne hv))
  cases ht
  case stOk d r' h1 h2 =>
    rw [h1] at hc
    obtain ⟨g1, g2, ch, ep, g3⟩ := hc
    rw [C19_bodies.1] at g3
    simp only [List.mem_cons, Obs.ret.injEq, Ret.state.injEq, reduceCtorEq, List.not_mem_nil, or_false, false_or] at hv
    subst hv
    obtain ⟨a, rest, h3, h4⟩ := runRd_ok_iff.1 h2
    cases h4
    refine ⟨(lastCall_same _ _ rfl).trans g1, ⟨ch, ep, ?_⟩, d, rest, rfl, ?_⟩
    · rw [since_task _ rfl, apiSent_append, g3]; rfl
    · rw [← buffer_eq_seen]; exact ConnectionstateResponse.fromPacket_iff.1 h3
  all_goals simp at hv

/-- C58: whatever datagram the waiting status query receives ends the call and is lost for the background task: it is
neither acknowledged nor delivered. It is an error unless it is a connection state response. -/
theorem C58_swallows {m : Mode} {s : Sys} {tr : List Obs} (_h : Exec m s tr) (h1 : s.api = .stRecv) (d : Bytes) :
    ∃ x, step m s (.api (.dgram d)) = some ({ s with api := .idle }, [.rxApi d, .ret x]) ∧
      ((∃ r rest, x = .state r ∧ seen d = frame CONNECTIONSTATE_RESPONSE [r.channel, r.status] ++ rest) ∨
       (x = .err ∧ ∀ a b rest, seen d ≠ frame CONNECTIONSTATE_RESPONSE [a, b] ++ rest)) := by
  cases hd : runRd ConnectionstateResponse.fromPacket (fun x => x) (buffer d) with
  | ok r =>
    refine ⟨.state r, ?_, Or.inl ?_⟩
    · change runRd ConnectionstateResponse.fromPacket id (buffer d) = _ at hd
      simp only [step, apiStep, h1, reduceCtorEq, if_false, hd]
      rfl
    · obtain ⟨a, rest, h3, h4⟩ := runRd_ok_iff.1 hd
      cases h4
      exact ⟨r, rest, rfl, by rw [← buffer_eq_seen]; exact ConnectionstateResponse.fromPacket_iff.1 h3⟩
  | err =>
    refine ⟨.err, ?_, Or.inr ⟨rfl, ?_⟩⟩
    · change runRd ConnectionstateResponse.fromPacket id (buffer d) = _ at hd
      simp only [step, apiStep, h1, reduceCtorEq, if_false, hd]
      rfl
    · intro a b rest he
      rw [← buffer_eq_seen] at he
      have := (ConnectionstateResponse.fromPacket_iff (c := ⟨a, b⟩)).2 he
      rw [runRd_ok_iff.2 ⟨_, _, this, rfl⟩] at hd
      cases hd
  | panic => exact absurd (runRd_panic_iff.1 hd) ConnectionstateResponse.fromPacket_no_panic

/-- C58: so a telegram can be lost in this way: during a status query the group write `req7` arrives; it is neither
acknowledged nor delivered. -/
theorem C58_loss (m : Mode) : ∃ s tr, Exec m s tr ∧ apiReceived tr = [req7] ∧ Carries m req7 tel7 ∧
    returned tr = [.err] ∧ acksSent tr = [] ∧ queued tr = [] ∧ s.bg.conn.isSome = true ∧ s.bg.pc = .recv := by
  obtain ⟨s, tr, h1, h2⟩ := exec_of_evs (m := m) (evs := [.bg .run, .bg .sendOk, .bg (.dgram grant7), .bg .run,
      .api (.call .status), .api .run, .api .run, .api .sendOk, .api (.dgram req7)])
    (f := fun x => ((apiReceived x.2, returned x.2, acksSent x.2), queued x.2, x.1.bg.conn.isSome, x.1.bg.pc))
    (y := (([req7], [.err], []), [], true, .recv)) (by cases m <;> decide +kernel)
  simp only [Prod.mk.injEq] at h2
  exact ⟨s, tr, h1, h2.1.1, carries7 m, h2.1.2.1, h2.1.2.2, h2.2.1, h2.2.2.1, h2.2.2.2⟩

example (m : Mode) : ∃ s tr, Exec m s tr ∧ returned tr = [.state ⟨9, 0⟩] := by
  obtain ⟨s, tr, h1, h2⟩ := exec_of_evs (m := m) (evs := [.bg .run, .bg .sendOk, .bg (.dgram grant7), .bg .run,
      .api (.call .status), .api .run, .api .run, .api .sendOk, .api (.dgram [6, 0x10, 2, 8, 0, 8, 9, 0])])
    (f := fun x => returned x.2) (y := [.state ⟨9, 0⟩]) (by cases m <;> decide +kernel)
  exact ⟨s, tr, h1, h2⟩

/-! ## C59 -/

/-- There was no connection when the last call started, and none has been established since. -/
def Offline (tr : List Obs) : Prop := upNow (upto isCall tr) = false ∧ ∀ r, Obs.up r ∉ since isCall tr

theorem upNow_of_offline {tr : List Obs} (h : Offline tr) : upNow tr = false := by
  have e := upto_since isCall tr
  rw [← e, upNow_append, h.1]
  have : ∀ o : List Obs, (∀ r, Obs.up r ∉ o) → o.foldl upStep false = false := by
    intro o
    induction o with
    | nil => intro _; rfl
    | cons x o ih =>
      intro hx
      rw [List.foldl_cons]
      have : upStep false x = false := by
        cases x
        case up r => exact absurd (by simp) (hx r)
        all_goals rfl
      rw [this]
      exact ih fun r hr => hx r (by simp [hr])
  exact this _ h.2

theorem Offline.of_append {tr o : List Obs} (h : o.any isCall = false) (ho : Offline (tr ++ o)) : Offline tr := by
  obtain ⟨h1, h2⟩ := ho
  rw [upto_append _ _ _ h] at h1
  rw [since_task _ h] at h2
  exact ⟨h1, fun r hr => h2 r (by simp [hr])⟩

/-- What an offline call can have done. -/
def OfflineInv (api : Api) (tr : List Obs) : Prop :=
  (api = .idle ∨ (∃ c cemi, api = .seqNr c cemi) ∨ api = .stChan ∨ api = .dcChan) ∧
  apiSent (since isCall tr) = [] ∧ ∀ r ∈ returned (since isCall tr), r = .err ∨ r = .panic

theorem Exec.offline {m : Mode} {s : Sys} {tr : List Obs} (h : Exec m s tr) : Offline tr → OfflineInv s.api tr := by
  induction h with
  | init => intro _; exact ⟨Or.inl rfl, rfl, by simp [since, returned]⟩
  | @step s s' tr o e hx hs ih =>
    intro ho
    have keep : ∀ a, o.any isCall = false → apiSent o = [] → (∀ r ∈ returned o, r = .err ∨ r = .panic) →
        (OfflineInv s.api tr → (a = .idle ∨ (∃ c cemi, a = .seqNr c cemi) ∨ a = .stChan ∨ a = .dcChan)) →
        OfflineInv a (tr ++ o) := by
      intro a h1 h2 h3 h4
      have := ih (ho.of_append h1)
      refine ⟨h4 this, ?_, ?_⟩
      · rw [since_task _ h1, apiSent_append, h2, this.2.1]; rfl
      · rw [since_task _ h1, returned_append]
        intro r hr
        rcases List.mem_append.1 hr with hr | hr
        · exact this.2.2 r hr
        · exact h3 r hr
    cases e with
    | bg e =>
      simp only [Knx.step, Option.map_eq_some_iff, Prod.exists, Prod.mk.injEq] at hs
      obtain ⟨b, o', hb, rfl, rfl⟩ := hs
      have f := (bgStep_tr hb).facts
      exact keep _ f.noCall f.sent (by rw [f.returned]; simp) fun h => h.1
    | delay d => cases hs; exact keep _ rfl rfl (by simp [returned]) fun h => h.1
    | api e =>
      have fresh : ∀ c o', o'.any isCall = false → since isCall (tr ++ .call c :: o') = o' := fun c o' h => since_call _ _ _ h
      have hoff : o.any isCall = false → OfflineInv s.api tr ∧ s.bg.conn = none := by
        intro hn
        have h1 := ho.of_append hn
        refine ⟨ih h1, ?_⟩
        have := hx.gexec.upNow
        rw [upNow_of_offline h1] at this
        simpa using this
      have ht := apiStep_tr hs
      cases ht
      case callTunnel c cemi h1 h2 h3 =>
        refine ⟨Or.inr (Or.inl ⟨c, cemi, rfl⟩), ?_⟩
        rw [fresh _ [] rfl]; exact ⟨rfl, by simp [returned]⟩
      case callErr c h1 h2 h3 =>
        refine ⟨Or.inl h1, ?_⟩
        rw [fresh _ [.ret .err] rfl]; exact ⟨rfl, by simp [returned]⟩
      case callPanic c h1 h2 h3 =>
        refine ⟨Or.inl h1, ?_⟩
        rw [fresh _ [.ret .panic] rfl]; exact ⟨rfl, by simp [returned]⟩
      case callStatus h1 h2 =>
        refine ⟨Or.inr (Or.inr (Or.inl rfl)), ?_⟩
        rw [fresh _ [] rfl]; exact ⟨rfl, by simp [returned]⟩
      case callDisc h1 h2 =>
        refine ⟨Or.inr (Or.inr (Or.inr rfl)), ?_⟩
        rw [fresh _ [] rfl]; exact ⟨rfl, by simp [returned]⟩
      case drop h1 _ => exact keep _ rfl rfl (by simp [returned]) fun h => h.1
      case noConn => exact keep _ rfl rfl (by simp [returned]) fun _ => Or.inl rfl
      case cancel => exact keep _ rfl rfl (by simp [returned]) fun _ => Or.inl rfl
      all_goals
        exfalso
        obtain ⟨⟨g, _⟩, g'⟩ := hoff rfl
        rcases g with g | ⟨_, _, g⟩ | g | g <;> simp_all

/-- C59: while there is no connection, from the start of a call on, the call sends nothing and returns, if at all, an error (or
panics, if its arguments cannot be encoded: see C08 and C10). -/
theorem C59_silent {m : Mode} {s : Sys} {tr : List Obs} (h : Exec m s tr) (h1 : upNow (upto isCall tr) = false)
    (h2 : ∀ r, Obs.up r ∉ since isCall tr) :
    apiSent (since isCall tr) = [] ∧ ∀ r ∈ returned (since isCall tr), r = .err ∨ r = .panic :=
  (h.offline ⟨h1, h2⟩).2

/-- C59: and every such call can return an error at once: a call that looks at the connection data and finds none. -/
theorem C59_returns {m : Mode} {s s1 : Sys} {tr : List Obs} {c : Call} (h : Exec m s tr) (h1 : upNow tr = false)
    (h2 : step m s (.api (.call c)) = some (s1, [.call c])) :
    step m s1 (.api .run) = some ({ s1 with api := .idle }, [.ret .err]) := by
  have hconn : s.bg.conn = none := by
    have := h.gexec.upNow
    rw [h1] at this
    simpa using this
  have hlock : connLocked .client s.bg = false := by
    have := h.gexec.conn_iff
    rw [hconn] at this
    revert this
    cases hpc : s.bg.pc <;> simp [connLocked, pcUp, hpc]
  have ht := apiStep_tr (show apiStep m s (.call c) = _ from h2)
  generalize ho : [Obs.call c] = o at ht
  cases ht <;> simp only [List.cons.injEq, reduceCtorEq, and_true, and_false] at ho
  all_goals simp [step, apiStep, withConn, hconn, hlock, finish]

example (m : Mode) : Exec m Sys.init [] ∧ upNow [] = false ∧
    (∃ s1, step m Sys.init (.api (.call .status)) = some (s1, [.call .status])) ∧
    ∃ s1, step m Sys.init (.api (.call (.read (.group3 ⟨1, 0, 1⟩)))) = some (s1, [.call (.read (.group3 ⟨1, 0, 1⟩))]) :=
  ⟨.init, rfl, ⟨_, rfl⟩, ⟨_, by simp only [step, apiStep, Sys.init, Bg.init, apiCall, readCemi_eq, startTunnel]; rfl⟩⟩

end Knx
