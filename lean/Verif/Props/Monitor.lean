import Verif.Lemmas.Notify
import Verif.Props.Client

/-!
# Properties of the monitor API (C47, C61–C63)
-/

namespace Knx
open Spec

/-! ## C47 -/

/-- A step that sends something on behalf of a call, or returns, is a step of the API. -/
theorem mstep_api {m : Mode} {s s' : MSys} {e : MEv} {o : List Obs} (hs : mstep m s e = some (s', o))
    (h : returned o ≠ [] ∨ apiSent o ≠ [] ∨ taken o ≠ [] ∨ apiReceived o ≠ [] ∨ nexts o ≠ []) : MApiTr m s s' o := by
  cases e with
  | bg e =>
    simp only [Knx.mstep, Option.map_eq_some_iff, Prod.exists, Prod.mk.injEq] at hs
    obtain ⟨b, o', hb, rfl, rfl⟩ := hs
    have ht := bgStep_tr hb
    have f := ht.facts
    have a1 : nexts o' = [] := by cases ht <;> rfl
    simp [f.returned, f.sent, f.taken, f.received, a1] at h
  | delay d => cases hs; simp [returned, apiSent, taken, apiReceived, nexts] at h
  | api e => exact mapiStep_tr hs

/-- C47 for the monitor, the part that holds: see `C47_paired_partial`. -/
theorem C47_monitor_paired_partial {m : Mode} {s s' : MSys} {tr o : List Obs} {e : MEv} {p : Bytes} (h : MExec m s tr)
    (hs : mstep m s e = some (s', o)) (hp : Obs.tx .api p ∈ o) (hr : serviceIs TUNNELING_REQUEST p = true) :
    PairedUpTo tr p ∧
    ((∀ r, Obs.up r ∉ since isDrew tr) → ∃ r seq cemi, lastUp (upto isDrew tr) = some r ∧
      (drawn tr).getLast? = some seq ∧ RequestPacket r.channel seq cemi p) := by
  have key : PairedUpTo tr p := by
    have hi := h.requestInv
    have hc := h.callInv
    have ht := mstep_api hs (Or.inr (Or.inl (apiSent_ne hp)))
    cases ht
    case send p' h1 =>
      simp only [List.mem_cons, Obs.tx.injEq, true_and, List.not_mem_nil, or_false, reduceCtorEq] at hp
      subst hp; rw [h1] at hi; exact hi.1
    case dcSend p' h1 =>
      simp only [List.mem_singleton, Obs.tx.injEq, true_and] at hp
      subst hp; rw [h1] at hc
      obtain ⟨_, _, _, ch, ep, rfl⟩ := hc
      rw [discReq_not_request] at hr; cases hr
    all_goals simp at hp
  refine ⟨key, fun hn => ?_⟩
  obtain ⟨r, n, cemi, h1, h2, h3 | h3⟩ := key
  · exact ⟨r, n, cemi, h3, h2, h1⟩
  · exact absurd h3 (hn r)

/-- C47 for the monitor: no number is used twice. -/
theorem C47_monitor_numbers {m : Mode} {s : MSys} {tr : List Obs} (h : MExec m s tr) :
    ∃ ns, ns.Sublist (drawn tr) ∧
      List.Forall₂ (fun p n => ∃ ch cemi, RequestPacket ch n cemi p) (requestsSent tr) ns := by
  obtain ⟨ns, ds, h1, h2, h3⟩ := h.requestInv.numbered
  simp only [Option.toList_none, List.append_nil] at h1
  exact ⟨ns, h1 ▸ h2, h3⟩

/-- The monitor connects on channel 7. -/
def mconnEvs : List MEv := [.bg .run, .bg .sendOk, .bg (.dgram grant7), .bg .sendOk, .bg .run, .bg .run]

/-- It draws a number for a request, loses the connection and reconnects on channel 9. -/
def mreconnectEvs : List MEv := mconnEvs ++ [.api (.call (.solicit (.group3 ⟨1, 0, 1⟩))), .api .run,
  .bg (.dgram [1, 2, 3]), .bg .run, .bg .run, .bg .sendOk, .bg (.dgram grant9), .bg .sendOk, .bg .run, .bg .run, .api .run]

/-- The request of a read of 1/0/1 on channel `ch` with sequence number `n`. -/
def readReqN (ch n : U8) : Bytes := [6, 0x10, 4, 0x20, 0, 21, 4, ch, n, 0, 0x11, 0, 0xbc, 0xe0, 0, 0, 8, 1, 1, 0, 0]

/-- C47 is refuted for the monitor as well. -/
theorem C47_monitor_violated (m : Mode) : ∃ s s' tr, MExec m s tr ∧
    mstep m s (.api .sendOk) = some (s', [.tx .api (readReqN 9 1), .ret .unit]) ∧
    lastUp (upto isDrew tr) = some conn7 ∧ (drawn tr).getLast? = some 1 ∧ conn7.channel ≠ 9 := by
  obtain ⟨s, tr, h1, h2⟩ := mexec_of_evs (m := m) (evs := mreconnectEvs)
    (f := fun x => (lastUp (upto isDrew x.2), (drawn x.2).getLast?, x.1.api))
    (y := (some conn7, some 1, .sendReq (readReqN 9 1))) (by cases m <;> decide +kernel)
  simp only [Prod.mk.injEq] at h2
  refine ⟨s, { s with api := .idle }, tr, h1, ?_, h2.1, h2.2.1, by decide⟩
  simp only [mstep, mapiStep, mcallStep, h2.2.2]; rfl

/-! ## C61 -/

/-- C61: in every execution the results of `next_msg`, whoever the callers, are, in order, exactly those of the indications among
the telegrams taken from the message channel, followed by errors if the task has ended or panicked and the channel is
empty. No indication taken is lost, none is shown twice, and nothing else is shown. -/
theorem C61_results {m : Mode} {s : MSys} {tr : List Obs} (h : MExec m s tr) :
    ∃ front k, nexts tr = front ++ List.replicate k .err ∧
      List.Forall₂ Shown ((taken tr).filter isIndication) front ∧
      (k ≠ 0 → (Obs.exit ∈ tr ∨ Obs.crash ∈ tr) ∧ s.bg.queue = []) := by
  obtain ⟨front, k, h1, h2, h3⟩ := h.nextInv.order
  refine ⟨front, k, h1, h2, fun hk => ⟨?_, (h3 hk).2⟩⟩
  have hg := (h3 hk).1
  have he := h.gexec.ending
  unfold sendersGone at hg
  split at hg
  · rename_i hp; exact Or.inl (he.exit.2 hp)
  · rename_i hp; exact Or.inr (he.crash.2 hp)
  · cases hg

/-- C61: a caller gets the first indication it takes: when it returns, the telegrams it has taken before are no indications, and
either the last one it takes is an indication and is what it is shown, or the task has ended or panicked, the channel is
empty and the result is an error. -/
theorem C61_caller {m : Mode} {s s' : MSys} {tr o : List Obs} {e : MEv} {i : Nat} {r : Ret} (h : MExec m s tr)
    (hs : mstep m s e = some (s', o)) (hr : Obs.nret i r ∈ o) :
    (∀ c ∈ takenBy i (since (isNcall i) tr), isIndication c = false) ∧
    ((∃ c, o = [.taken i c, .nret i r] ∧ isIndication c = true ∧ Shown c r) ∨
      (o = [.nret i r] ∧ r = .err ∧ (Obs.exit ∈ tr ∨ Obs.crash ∈ tr) ∧ s.bg.queue = [])) := by
  have hn : nexts o ≠ [] := by
    intro hn
    have : r ∈ nexts o := List.mem_filterMap.2 ⟨_, hr, rfl⟩
    rw [hn] at this; cases this
  have hi := h.nextInv
  have ht := mstep_api hs (Or.inr (Or.inr (Or.inr (Or.inr hn))))
  cases ht
  case nind j c rest d hw hq hc hd =>
    simp only [List.mem_cons, Obs.nret.injEq, List.not_mem_nil, or_false, reduceCtorEq, false_or] at hr
    obtain ⟨rfl, rfl⟩ := hr
    exact ⟨hi.caller _ hw, Or.inl ⟨c, rfl, isIndication_iff.2 hc, shown_of hd⟩⟩
  case nbad j c rest hw hq hc hd =>
    simp only [List.mem_cons, Obs.nret.injEq, List.not_mem_nil, or_false, reduceCtorEq, false_or] at hr
    obtain ⟨rfl, rfl⟩ := hr
    exact ⟨hi.caller _ hw, Or.inl ⟨c, rfl, isIndication_iff.2 hc, shown_of hd⟩⟩
  case nend j hw hq hg =>
    simp only [List.mem_singleton, Obs.nret.injEq] at hr
    obtain ⟨rfl, rfl⟩ := hr
    refine ⟨hi.caller _ hw, Or.inr ⟨rfl, rfl, ?_, hq⟩⟩
    have he := h.gexec.ending
    unfold sendersGone at hg
    split at hg
    · rename_i hp; exact Or.inl (he.exit.2 hp)
    · rename_i hp; exact Or.inr (he.crash.2 hp)
    · cases hg
  all_goals simp at hr

/-- C61, progress: a caller waits only while the channel is empty and the task alive. -/
theorem C61_progress {m : Mode} {s : MSys} {tr : List Obs} {i : Nat} (h : MExec m s tr) (hi : i ∈ s.waiting)
    (hb : s.bg.queue ≠ [] ∨ Obs.exit ∈ tr ∨ Obs.crash ∈ tr) :
    ∃ s' o, mstep m s (.api (.nrun i)) = some (s', o) ∧
      (∀ c rest, s.bg.queue = c :: rest → ∃ o', o = .taken i c :: o' ∧ s'.bg.queue = rest ∧
        (isIndication c = true ↔ ∃ r, o' = [.nret i r])) := by
  have total : ∃ s' o, mstep m s (.api (.nrun i)) = some (s', o) := by
    simp only [mstep, mapiStep, if_pos hi]
    cases hq : s.bg.queue with
    | nil =>
      have hg : sendersGone s.bg = true := by
        have he := h.gexec.ending
        rcases hb with hb | hb | hb
        · exact absurd hq hb
        · simp [sendersGone, he.exit.1 hb]
        · simp [sendersGone, he.crash.1 hb]
      exact ⟨_, _, by simp only [hg, if_true]; rfl⟩
    | cons c rest =>
      simp only [nextMsg]
      repeat' split
      all_goals exact ⟨_, _, rfl⟩
  obtain ⟨s', o, hs⟩ := total
  refine ⟨s', o, hs, fun c rest hq => ?_⟩
  have hmem : Obs.taken i c ∈ o := by
    have := hs
    simp only [mstep, mapiStep, if_pos hi, hq, nextMsg, nfinish] at this
    repeat' split at this
    all_goals (cases this; simp)
  have ht := mstep_api hs (Or.inr (Or.inr (Or.inl (taken_ne hmem))))
  cases ht
  case nskip j c' rest' hw hq' hc =>
    rw [hq] at hq'
    simp only [List.cons.injEq] at hq'
    obtain ⟨rfl, rfl⟩ := hq'
    simp only [List.mem_singleton, Obs.taken.injEq, and_true] at hmem
    subst hmem
    refine ⟨[], rfl, rfl, ?_⟩
    rw [isIndication_iff]
    simp [hc]
  case nind j c' rest' d hw hq' hc hd =>
    rw [hq] at hq'
    simp only [List.cons.injEq] at hq'
    obtain ⟨rfl, rfl⟩ := hq'
    simp only [List.mem_cons, Obs.taken.injEq, and_true, List.not_mem_nil, or_false, reduceCtorEq] at hmem
    subst hmem
    refine ⟨_, rfl, rfl, ?_⟩
    rw [isIndication_iff]
    simp [hc]
  case nbad j c' rest' hw hq' hc hd =>
    rw [hq] at hq'
    simp only [List.cons.injEq] at hq'
    obtain ⟨rfl, rfl⟩ := hq'
    simp only [List.mem_cons, Obs.taken.injEq, and_true, List.not_mem_nil, or_false, reduceCtorEq] at hmem
    subst hmem
    refine ⟨_, rfl, rfl, ?_⟩
    rw [isIndication_iff]
    simp [hc]
  all_goals simp at hmem

/-- Two callers; a confirmation and two indications arrive, one too short to be shown. -/
def mshowEvs : List MEv := mconnEvs ++ [.api (.ncall 4), .api (.ncall 5),
  .bg (.dgram positive7), .bg .sendOk, .bg .run, .bg (.dgram req7), .bg .sendOk, .bg .run,
  .bg (.dgram [6, 0x10, 4, 0x20, 0, 12, 4, 7, 0, 0, 0x2b, 0]), .bg .sendOk, .bg .run,
  .api (.nrun 4), .api (.nrun 5), .api (.nrun 4)]

example (m : Mode) : ∃ s tr, MExec m s tr ∧ (taken tr).length = 3 ∧ (nexts tr).length = 2 ∧ nexts tr ≠ [.err, .err] ∧
    (nexts tr)[1]? = some .err ∧ s.waiting = [] := by
  obtain ⟨s, tr, h1, h2⟩ := mexec_of_evs (m := m) (evs := mshowEvs)
    (f := fun x => ((taken x.2).length, (nexts x.2).length, decide (nexts x.2 ≠ [.err, .err]), (nexts x.2)[1]?, x.1.waiting))
    (y := (3, 2, true, some .err, [])) (by cases m <;> decide +kernel)
  simp only [Prod.mk.injEq, decide_eq_true_eq] at h2
  exact ⟨s, tr, h1, h2⟩

/-! ## C62 -/

/-- C62: except while the subscribers are being notified (in which time nobody can register), the list of subscribers consists of those
notified of the last connection and those registered since. -/
theorem C62_registered {m : Mode} {s : MSys} {tr : List Obs} (h : MExec m s tr)
    (hl : connLocked .monitor s.bg = false) : s.bg.subs = registered tr :=
  h.subsInv.reg (notNotify_iff.1 hl)

/-- C62: when a connection is established, the subscribers registered at that moment are notified in the order of their
registration; by the time the monitor goes on, every one whose channel is still open has been notified exactly as often
as it is registered, and one whose channel had been closed before has not been notified. -/
theorem C62_notified {m : Mode} {s0 s1 s2 : MSys} {tr0 tr o : List Obs} {e : MEv} {r : ConnectionResponse} (h : MExec m s0 tr0)
    (hs : mstep m s0 e = some (s1, o)) (hu : Obs.up r ∈ o) (hr : MRun m s1 tr s2) (hno : tr.any isUp = false)
    (hl : connLocked .monitor s2.bg = false) :
    (notifiedIds tr).Sublist (registered tr0) ∧
    (∀ id, (s2.bg.chans id).isOpen = true → (notifiedIds tr).count id = (registered tr0).count id) ∧
    (∀ id ∈ registered tr0, (s0.bg.chans id).isOpen = false → id ∉ notifiedIds tr) := by
  obtain ⟨rfl, h1, h2, h3⟩ := up_step h hs hu
  have inv : NoteInv (registered tr0) ((registered tr0).filter fun id => (s0.bg.chans id).isOpen = false) s1.bg [] := by
    refine ⟨fun id hid => ?_, fun id hid => ?_, fun t a hp => ?_, fun hp => ?_⟩
    · rw [h2]; exact h.subsInv.caps id (h3 ▸ hid)
    · simp only [List.mem_filter, decide_eq_true_eq] at hid
      rw [h2]
      exact ⟨hid.1, hid.2, by simp [notifiedIds]⟩
    · rw [h1] at hp
      simp only [Pc.notify.injEq] at hp
      obtain ⟨rfl, rfl⟩ := hp
      exact ⟨rfl, [], by rw [h3]; rfl, .slnil, by simp⟩
    · rw [h1] at hp; exact hp.elim
  have fin := inv.run hr hno
  rw [List.nil_append] at fin
  obtain ⟨f1, f2⟩ := fin.over (notNotify_iff.1 hl)
  refine ⟨f1, fun id ho => ?_, fun id hid hc => ?_⟩
  · by_cases hid : id ∈ registered tr0
    · exact f2 id hid ho
    · rw [List.count_eq_zero.2 hid, List.count_eq_zero]
      exact fun hx => hid (f1.subset hx)
  · exact (fin.gone id (by simp [hid, hc])).2.2

/-- C62: if there is room in the open channels, the task notifies all of them without further ado. -/
theorem C62_proceeds (m : Mode) (s : Bg) (todo active : List Nat) (hpc : s.pc = .notify todo active)
    (hroom : ∀ id ∈ todo, (s.chans id).isOpen = true → (s.chans id).len + todo.count id ≤ (s.chans id).cap) :
    ∃ s' o, bgRun .monitor m s (List.replicate (todo.length + 1) .run) = some (s', o) ∧ s'.pc = .recv ∧
      notifiedIds o = todo.filter (fun id => (s.chans id).isOpen) ∧
      s'.subs = active ++ todo.filter (fun id => (s.chans id).isOpen) := by
  induction todo generalizing s active with
  | nil =>
    exact ⟨{ s with subs := active, pc := .recv }, [], by simp [bgRun, bgStep, hpc], rfl, rfl, by simp⟩
  | cons id todo ih =>
    rw [show (id :: todo).length + 1 = (todo.length + 1) + 1 from rfl, List.replicate_succ]
    cases ho : (s.chans id).isOpen with
    | false =>
      obtain ⟨s', o, h1, h2, h3, h4⟩ := ih { s with pc := .notify todo active } active rfl (fun j hm hj => by
        have := hroom j (List.mem_cons_of_mem _ hm) hj
        have h5 : j ≠ id := by rintro rfl; simp [ho] at hj
        rwa [List.count_cons_of_ne h5.symm] at this)
      refine ⟨s', o, ?_, h2, by simpa [ho] using h3, by simpa [ho] using h4⟩
      simp [bgRun, bgStep, hpc, ho, h1]
    | true =>
      have hl : (s.chans id).len < (s.chans id).cap := by
        have := hroom id (by simp) ho
        rw [List.count_cons_self] at this; omega
      have hsame : ∀ j, (if j = id then (⟨(s.chans id).cap, (s.chans id).len + 1, (s.chans id).isOpen⟩ : Sub) else s.chans j).isOpen
          = (s.chans j).isOpen := by
        intro j; split
        · rename_i hj; rw [hj]
        · rfl
      obtain ⟨s', o, h1, h2, h3, h4⟩ := ih { s with
          chans := fun i => if i = id then { s.chans id with len := (s.chans id).len + 1 } else s.chans i
          pc := .notify todo (active ++ [id]) } (active ++ [id]) rfl (fun j hm hj => by
        simp only [hsame] at hj
        have := hroom j (List.mem_cons_of_mem _ hm) hj
        by_cases h5 : j = id
        · subst h5
          rw [List.count_cons_self] at this
          simp only [if_true]; omega
        · rw [List.count_cons_of_ne (Ne.symm h5)] at this
          simp only [h5, if_false]; omega)
      simp only [hsame] at h3 h4
      refine ⟨s', .notified id :: o, ?_, h2, ?_, by simpa [ho] using h4⟩
      · simp only [ho] at h1
        simp [bgRun, bgStep, hpc, ho, hl, h1]
      · simp [notifiedIds, ho] at h3 ⊢
        exact h3

/-- C62: a subscriber whose channel is open and full stops the monitor: the task does nothing (not even a heart beat, however
late), and no call gets past the point where it needs the connection data or the list of subscribers. -/
theorem C62_blocks {m : Mode} {s : MSys} {id : Nat} {todo active : List Nat} (hpc : s.bg.pc = .notify (id :: todo) active)
    (ho : (s.bg.chans id).isOpen = true) (hf : ¬ (s.bg.chans id).len < (s.bg.chans id).cap) :
    (∀ t e, bgStep .monitor m { s.bg with now := s.bg.now + t } e = none) ∧
    (mlooksUp s.api = true ∨ s.api = .isConn ∨ (∃ id, s.api = .subscribe id) → ∀ t,
      mapiStep m { s with bg := { s.bg with now := s.bg.now + t } } .run = none) := by
  constructor
  · intro t e
    cases e <;> simp [bgStep, tickStep, hpc, inSelect, ho, hf]
  · intro h t
    have hl : connLocked .monitor { s.bg with now := s.bg.now + t } = true := by simp [connLocked, hpc]
    rcases h with h | h | ⟨id, h⟩
    · cases ha : s.api <;> simp [ha, mlooksUp] at h
      all_goals simp [mapiStep, mcallStep, mwithConn, hl]
    · simp [mapiStep, mcallStep, h, hl]
    · simp [mapiStep, mcallStep, h, hl]

/-- Three subscriptions (one of them twice the same channel) before the connection; one channel is closed. -/
def msubEvs : List MEv := [.api (.mkChan 1 2), .api (.mkChan 2 1), .api (.call (.subscribe 1)), .api .run,
  .api (.call (.subscribe 2)), .api .run, .api (.call (.subscribe 1)), .api .run, .api (.closeChan 2),
  .bg .run, .bg .sendOk, .bg (.dgram grant7), .bg .sendOk]

example (m : Mode) : ∃ s0 s1 s2 tr0 tr, MExec m s0 tr0 ∧ registered tr0 = [1, 2, 1] ∧
    mstep m s0 (.bg .run) = some (s1, [.up conn7]) ∧ MRun m s1 tr s2 ∧ tr.any isUp = false ∧
    connLocked .monitor s2.bg = false ∧ notifiedIds tr = [1, 1] := by
  obtain ⟨s, tr, h1, h2⟩ := mexec_of_evs (m := m) (evs := msubEvs)
    (f := fun x => ((registered x.2, (mstep m x.1 (.bg .run)).map (·.2)), ((mstep m x.1 (.bg .run)).bind fun y =>
      mrunEvs m y.1 [.bg .run, .bg .run, .bg .run, .bg .run]).map fun z => (z.2.any isUp, connLocked .monitor z.1.bg, notifiedIds z.2)))
    (y := (([1, 2, 1], some [.up conn7]), some (false, false, [1, 1]))) (by cases m <;> decide +kernel)
  simp only [Prod.mk.injEq, Option.map_eq_some_iff, Option.bind_eq_some_iff, Prod.exists, exists_eq_right] at h2
  obtain ⟨⟨a1, ⟨s1, a2⟩⟩, s2, tr2, ⟨s1', o', a3, a4⟩, a5, a6, a7⟩ := h2
  rw [a2] at a3
  cases a3
  exact ⟨s, s1, s2, tr, tr2, h1, a1, a2, mrunEvs_run a4, a5, a6, a7⟩

/-- With one message already in the channel of subscriber 2 and a second subscription the monitor is stuck after connecting. -/
example (m : Mode) : ∃ s tr, MExec m s tr ∧ s.bg.pc = .notify [2] [] ∧ (s.bg.chans 2).isOpen = true ∧
    ¬ (s.bg.chans 2).len < (s.bg.chans 2).cap ∧ s.api = .isConn := by
  obtain ⟨s, tr, h1, h2⟩ := mexec_of_evs (m := m)
    (evs := [.api (.mkChan 2 1), .api (.fill 2), .api (.call (.subscribe 2)), .api .run, .api (.call .isConnected),
      .bg .run, .bg .sendOk, .bg (.dgram grant7), .bg .sendOk, .bg .run])
    (f := fun x => (x.1.bg.pc, x.1.bg.chans 2, x.1.api)) (y := (.notify [2] [], ⟨1, 1, true⟩, .isConn)) (by cases m <;> decide +kernel)
  simp only [Prod.mk.injEq] at h2
  refine ⟨s, tr, h1, h2.1, ?_, ?_, h2.2.2⟩ <;> rw [h2.2.1]
  exact Nat.lt_irrefl 1

/-! ## C63 -/

/-- C63: when a connection is established, the last answer to the connect request grants it, and since that answer the task has sent
exactly one datagram: the request to enable the info service, with sequence number 0 on the granted channel. -/
theorem C63_enabled {m : Mode} {s s' : MSys} {tr o : List Obs} {e : MEv} {r : ConnectionResponse} (h : MExec m s tr)
    (hs : mstep m s e = some (s', o)) (hu : Obs.up r ∈ o) :
    ∃ d, (connAnswers tr).getLast? = some d ∧ Grants d r ∧
      taskSent (since isAnswer tr) = [frame TUNNELING_FEATURE_SET [4, r.channel, 0, 0, 8, 0, 1]] := by
  obtain ⟨d, h1, h2, h3⟩ := up_enabled h hs hu
  refine ⟨d, h1, h2, ?_⟩
  rw [h3, enablePacket, C19_bodies.2.2.2.2.1]
  rfl

/-- C63: the numbers drawn for the requests of a connection are 1, 2, 3, … modulo 256. -/
theorem C63_numbers {m : Mode} {s : MSys} {tr : List Obs} (h : MExec m s tr) :
    drawn (since isUp tr) = (List.range (drawn (since isUp tr)).length).map fun i => byte (1 + i) := by
  refine List.ext_getElem? fun i => ?_
  rw [C46_sequence (.monitor h) i, List.getElem?_map]
  split
  · rename_i hi; rw [List.getElem?_range hi]; rfl
  · rename_i hi; rw [List.getElem?_eq_none (by simpa using hi)]; rfl

example (m : Mode) : ∃ s tr o s', MExec m s tr ∧ mstep m s (.bg .run) = some (s', o) ∧ Obs.up conn7 ∈ o := by
  obtain ⟨s, tr, h1, h2⟩ := mexec_of_evs (m := m) (evs := msubEvs)
    (f := fun x => (mstep m x.1 (.bg .run)).map (·.2)) (y := some [.up conn7]) (by cases m <;> decide +kernel)
  simp only [Option.map_eq_some_iff, Prod.exists, exists_eq_right] at h2
  obtain ⟨s', h2⟩ := h2
  exact ⟨s, tr, _, s', h1, h2, by simp⟩

example (m : Mode) : ∃ s tr, MExec m s tr ∧ drawn (since isUp tr) = [1, 2] := by
  obtain ⟨s, tr, h1, h2⟩ := mexec_of_evs (m := m)
    (evs := mconnEvs ++ [.api (.call (.solicit (.group3 ⟨1, 0, 1⟩))), .api .run, .api .run, .api .sendOk,
      .api (.call (.solicit (.group3 ⟨1, 0, 1⟩))), .api .run])
    (f := fun x => drawn (since isUp x.2)) (y := [1, 2]) (by cases m <;> decide +kernel)
  exact ⟨s, tr, h1, h2⟩

end Knx
