import Verif.Lemmas.Session

/-!
# Properties of the session as a whole (C64–C73)
-/

namespace Knx
open Spec

theorem bgRun_append {k : Kind} {m : Mode} {s s1 : Bg} {es es' : List BgEv} {o : List Obs} (h : bgRun k m s es = some (s1, o)) :
    bgRun k m s (es ++ es') = (bgRun k m s1 es').map fun x => (x.1, o ++ x.2) := by
  induction es generalizing s o with
  | nil =>
    simp only [bgRun, Option.some.injEq, Prod.mk.injEq] at h
    obtain ⟨rfl, rfl⟩ := h
    simp
  | cons e es ih =>
    simp only [bgRun, List.cons_append] at h ⊢
    split at h
    · cases h
    · rename_i s2 o2 hs
      simp only [Option.map_eq_some_iff] at h
      obtain ⟨⟨x, y⟩, hx, he⟩ := h
      cases he
      simp only [hs]
      rw [ih hx, Option.map_map]
      congr 1
      funext z
      simp

/-! ## C64 -/

theorem forall₂_count {α β : Type} [DecidableEq β] {R : α → β → Prop} [∀ c, DecidablePred fun d => R d c] {a : List α} {b : List β}
    (h : List.Forall₂ R a b) (c : β) : b.count c ≤ a.countP fun d => R d c := by
  induction h with
  | nil => simp
  | @cons x y a b hxy _ ih =>
    rw [List.count_cons, List.countP_cons]
    by_cases hc : y = c
    · subst hc; simp [hxy]; omega
    · simp [hc]; omega

open Classical in
/-- C64, the part that holds: no telegram is delivered more often than datagrams carrying it have been received. -/
theorem C64_per_copy_partial {m : Mode} {k : Kind} {s : Bg} {tr : List Obs} (h : Reaches m k s tr) (c : Cemi) :
    (queued tr).countP (fun x => x = c) ≤ (received tr).countP fun d => Carries m d c := by
  obtain ⟨_, _, ds, h1, h2, h3⟩ := C43_fifo h
  have := forall₂_count h3 c
  have h4 := (h1.trans h2).countP_le (p := fun d => decide (Carries m d c))
  rw [List.count] at this
  simp only [beq_eq_decide] at this
  exact Nat.le_trans this h4

/-- The observations of one delivery. -/
def delivery (d : Bytes) (channel seq : U8) (c : Cemi) : List Obs :=
  [.rx d, .tx .task (frame TUNNELING_ACK [4, channel, seq, 0]), .queued c]

theorem copies_run (k : Kind) (m : Mode) (s : Bg) (channel seq res : U8) (cemi : Bytes) (c : Cemi) (n : Nat)
    (hl : cemi.length ≤ 65525) (hpc : s.pc = .recv) (hr : s.rxOpen = true) (hq : s.queue.length + n ≤ 100)
    (hc : runRd (Cemi.fromPacket m) id (cut cemi) = .ok c) :
    ∃ evs, bgRun k m s evs = some ({ s with queue := s.queue ++ List.replicate n c },
      times n (delivery (frame TUNNELING_REQUEST ([4, channel, seq, res] ++ cemi)) channel seq c)) := by
  induction n with
  | zero => exact ⟨[], by simp [bgRun, times]⟩
  | succ n ih =>
    obtain ⟨evs, he⟩ := ih (by omega)
    have h := (C41_datagram_exact k m { s with queue := s.queue ++ List.replicate n c } channel seq res cemi c hl hpc hr
      (by simp; omega) hc).1
    refine ⟨evs ++ [.dgram (frame TUNNELING_REQUEST ([4, channel, seq, res] ++ cemi)), .sendOk, .run], ?_⟩
    rw [bgRun_append he, h, times_succ]
    simp [List.replicate_succ', delivery]

theorem received_deliveries (n : Nat) (d : Bytes) (ch sq : U8) (c : Cemi) :
    received (times n (delivery d ch sq c)) = List.replicate n d ∧ queued (times n (delivery d ch sq c)) = List.replicate n c ∧
      taskSent (times n (delivery d ch sq c)) = List.replicate n (frame TUNNELING_ACK [4, ch, sq, 0]) := by
  induction n with
  | zero => exact ⟨rfl, rfl, rfl⟩
  | succ n ih =>
    obtain ⟨h1, h2, h3⟩ := ih
    rw [times_succ, received_append, queued_append, h1, h2, List.replicate_succ', List.replicate_succ', List.replicate_succ']
    refine ⟨rfl, rfl, ?_⟩
    rw [show ∀ a b : List Obs, taskSent (a ++ b) = taskSent a ++ taskSent b from fun a b => by simp [taskSent], h3]
    rfl

/-- C64 is refuted: on every connection that can be established, a tunneling request (any channel, any sequence number, any telegram)
that is received `n` times is acknowledged `n` times and its telegram delivered `n` times, for every `n` up to the
capacity of the message channel. -/
theorem C64_violated (m : Mode) (k : Kind) (d : Bytes) (r : ConnectionResponse) (h : Grants d r) (channel seq res : U8) (cemi : Bytes)
    (c : Cemi) (n : Nat) (hn : n ≤ 100) (hl : cemi.length ≤ 65525) (hc : runRd (Cemi.fromPacket m) id (cut cemi) = .ok c) :
    ∃ s tr, Reaches m k s (linkTrace k d r ++ tr) ∧
      received tr = List.replicate n (frame TUNNELING_REQUEST ([4, channel, seq, res] ++ cemi)) ∧
      taskSent tr = List.replicate n (frame TUNNELING_ACK [4, channel, seq, 0]) ∧ queued tr = List.replicate n c ∧
      s.queue = List.replicate n c := by
  obtain ⟨evs, he⟩ := copies_run k m (linkUp k r) channel seq res cemi c n hl rfl rfl (by simpa [linkUp, Bg.init] using hn) hc
  obtain ⟨h1, h2, h3⟩ := received_deliveries n (frame TUNNELING_REQUEST ([4, channel, seq, res] ++ cemi)) channel seq c
  exact ⟨_, _, (reaches_link m k h).append he, h1, h3, h2, by simp [linkUp, Bg.init]⟩

example (m : Mode) : Grants grant7 conn7 ∧
    runRd (Cemi.fromPacket m) id (cut [0x29, 0, 0xbc, 0xe0, 0x11, 2, 8, 1, 1, 0, 0x81]) = .ok tel7 := ⟨grants7, tel7_eq m⟩

/-! ## C65 -/

/-- C65, the part that holds: the task's own requests on a connection are made on the channel of that connection; and if all tunneling
requests and feature responses received bear the channel `ch`, then so do all acknowledgements. -/
theorem C65_channel_partial {m : Mode} {k : Kind} {s s' : Bg} {tr o : List Obs} {e : BgEv} {p : Bytes} (h : Reaches m k s tr) :
    (bgStep k m s e = some (s', o) → Obs.tx .task p ∈ o → serviceIs CONNECTIONSTATE_REQUEST p = true →
      ∃ r, upNow tr = true ∧ lastUp tr = some r ∧ p = frame CONNECTIONSTATE_REQUEST ([r.channel, 0] ++ hpai r.dataEndpoint)) ∧
    ∀ ch, (∀ d ∈ received tr, ∀ t, (Decodes (seen d) (.tunnelingRequest t) → t.channel = ch)) →
      (∀ d ∈ received tr, ∀ t, (Decodes (seen d) (.featureResponse t) → t.channel = ch)) →
      ∀ p ∈ acksSent tr, ∃ sq, p = frame TUNNELING_ACK [4, ch, sq, 0] := by
  refine ⟨fun hs hp hsv => ?_, fun ch h1 h2 p hp => ?_⟩
  · have ht := bgStep_tr hs
    have hi := h.gexec.sendInv
    have hg := h.gexec.grants.2.2
    have hu := h.gexec.upNow
    cases ht
    case hbOk ch ep hpc =>
      simp only [SendInv, hpc] at hi
      obtain ⟨c, hc, he⟩ := Option.map_eq_some_iff.1 hi
      obtain ⟨r, hr, h1, h2⟩ := hg c hc
      rw [hc] at hu
      simp only [List.mem_singleton, Obs.tx.injEq, true_and] at hp
      cases he
      refine ⟨r, hu.symm, hr, ?_⟩
      rw [hp, C19_bodies.1, h1, h2]
    case connSendOk =>
      simp only [List.mem_singleton, Obs.tx.injEq, true_and] at hp
      subst hp
      exact absurd hsv (by decide)
    case enableOk =>
      simp only [List.mem_singleton, Obs.tx.injEq, true_and] at hp
      subst hp
      rw [enablePacket, C19_bodies.2.2.2.2.1, serviceIs_frame] at hsv
      exact absurd hsv (by decide)
    case discOk hpc => exact absurd hpc (h.gexec.conn_iff.2 _)
    all_goals
      simp only [List.mem_singleton, List.mem_cons, Obs.tx.injEq, true_and, reduceCtorEq, or_false, List.not_mem_nil] at hp
    all_goals
      subst hp
      rw [ack_packet, serviceIs_frame] at hsv
      exact absurd hsv (by decide)
  · obtain ⟨⟨ds, hsub, hf⟩, _⟩ := C42_acks h
    obtain ⟨i, hi, rfl⟩ := List.getElem_of_mem hp
    have hl := hf.length_eq
    obtain ⟨c, sq, he, hd⟩ := (List.forall₂_iff_get.1 hf).2 i hi (by omega)
    have hm : ds[i]'(by omega) ∈ received tr := hsub.subset (List.getElem_mem _)
    refine ⟨sq, ?_⟩
    simp only [List.get_eq_getElem] at he hd
    rw [he]
    rcases hd with ⟨cemi, hd⟩ | ⟨f, v, st, hd⟩
    · rw [show c = ch from h1 _ hm _ hd]
    · rw [show c = ch from h2 _ hm _ hd]

theorem onDatagram_state {d : Bytes} {t : ConnectionstateResponse} (h : Decodes (seen d) (.connectionstateResponse t)) (hs : t.status ≠ 0) :
    onDatagram d = .teardown := by
  unfold onDatagram
  have hn : d ≠ [] := by rintro rfl; exact decodes_nil h
  rw [if_neg (by simpa using hn), buffer_eq_seen, (C21_dispatch_exact _ _).2 h]
  exact if_pos hs

theorem onDatagram_bye {d : Bytes} {t : DisconnectResponse} (h : Decodes (seen d) (.disconnectResponse t)) : onDatagram d = .done := by
  unfold onDatagram
  have hn : d ≠ [] := by rintro rfl; exact decodes_nil h
  rw [if_neg (by simpa using hn), buffer_eq_seen, (C21_dispatch_exact _ _).2 h]

theorem seen_short {p : Bytes} (h : p.length ≤ 100) : seen p = p ++ List.replicate (100 - p.length) 0 := by
  rw [seen, padded_eq, List.take_of_length_le h]

/-- C65 is refuted: on every connection that can be established, frames of any other channel `ch` are acted upon: a telegram is acknowledged
on that other channel and delivered; a connection state response with an error status makes the task give up the connection; a
disconnect response ends the task. -/
theorem C65_violated (m : Mode) (k : Kind) (d : Bytes) (r : ConnectionResponse) (h : Grants d r) (ch : U8) (_hch : ch ≠ r.channel)
    (seq status : U8) (hst : status ≠ 0) (cemi : Bytes) (c : Cemi) (hl : cemi.length ≤ 65525)
    (hc : runRd (Cemi.fromPacket m) id (cut cemi) = .ok c) :
    (∃ s, Reaches m k s (linkTrace k d r ++ delivery (frame TUNNELING_REQUEST ([4, ch, seq, 0] ++ cemi)) ch seq c)) ∧
    (∃ s, Reaches m k s (linkTrace k d r ++ [.rx (frame CONNECTIONSTATE_RESPONSE [ch, status]), .down]) ∧ s.conn = none) ∧
    (∃ s, Reaches m k s (linkTrace k d r ++ [.rx (frame DISCONNECT_RESPONSE [ch, status]), .exit]) ∧ ∀ e, bgStep k m s e = none) := by
  refine ⟨⟨_, (reaches_link m k h).append
    (C41_datagram_exact k m (linkUp k r) ch seq 0 cemi c hl rfl rfl (by simp [linkUp, Bg.init]) hc).1⟩, ?_, ?_⟩
  · have e : onDatagram (frame CONNECTIONSTATE_RESPONSE [ch, status]) = .teardown := by
      refine onDatagram_state (t := ⟨ch, status⟩) ?_ hst
      rw [seen_short (by simp [frame, word])]
      exact .connectionstateResponse ch status _
    refine ⟨{ linkUp k r with conn := none, pc := .top }, (reaches_link m k h).append
      (evs := [.dgram (frame CONNECTIONSTATE_RESPONSE [ch, status]), .run]) ?_, rfl⟩
    simp [bgRun, bgStep, linkUp, Bg.init, e, endObs]
  · have e : onDatagram (frame DISCONNECT_RESPONSE [ch, status]) = .done := by
      refine onDatagram_bye (t := ⟨ch, status⟩) ?_
      rw [seen_short (by simp [frame, word])]
      exact .disconnectResponse ch status _
    refine ⟨{ linkUp k r with pc := .done }, (reaches_link m k h).append
      (evs := [.dgram (frame DISCONNECT_RESPONSE [ch, status])]) ?_, fun e => ?_⟩
    · simp [bgRun, bgStep, linkUp, Bg.init, e, endObs]
    · cases e <;> simp [bgStep, tickStep, inSelect]

example : Grants grant7 conn7 ∧ (8 : U8) ≠ conn7.channel := ⟨grants7, by decide⟩

/-! ## C66 -/

/-- C66, the part that holds: a call hands at most one datagram to the socket, and draws at most one sequence number. In particular no
request is ever repeated. -/
theorem C66_once_partial {m : Mode} {s : Sys} {tr : List Obs} (h : Exec m s tr) :
    (apiSent (since isCall tr)).length ≤ 1 ∧ (drawn (since isCall tr)).length ≤ 1 := by
  induction h with
  | init => exact ⟨by simp [since, apiSent], by simp [since, drawn]⟩
  | @step s s' tr o e hx hs ih =>
    have keep : o.any isCall = false → apiSent o = [] → drawn o = [] →
        (apiSent (since isCall (tr ++ o))).length ≤ 1 ∧ (drawn (since isCall (tr ++ o))).length ≤ 1 := by
      intro h1 h2 h3
      rw [since_task _ h1, apiSent_append, drawn_append, h2, h3, List.append_nil, List.append_nil]
      exact ih
    cases e with
    | bg e =>
      simp only [Knx.step, Option.map_eq_some_iff, Prod.exists, Prod.mk.injEq] at hs
      obtain ⟨b, o', hb, rfl, rfl⟩ := hs
      have f := (bgStep_tr hb).facts
      exact keep f.noCall f.sent f.drawn
    | delay d => cases hs; exact keep rfl rfl rfl
    | api e =>
      have hci := hx.callInv
      have ht := apiStep_tr hs
      cases ht
      case callTunnel => rw [since_call _ _ [] rfl]; exact ⟨by simp [apiSent], by simp [drawn]⟩
      case callErr => rw [since_call _ _ [.ret .err] rfl]; exact ⟨by simp [apiSent], by simp [drawn]⟩
      case callPanic => rw [since_call _ _ [.ret .panic] rfl]; exact ⟨by simp [apiSent], by simp [drawn]⟩
      case callStatus => rw [since_call _ _ [] rfl]; exact ⟨by simp [apiSent], by simp [drawn]⟩
      case callDisc => rw [since_call _ _ [] rfl]; exact ⟨by simp [apiSent], by simp [drawn]⟩
      case draw c cemi d h1 h2 h3 =>
        rw [h1] at hci
        obtain ⟨_, _, _, g1, g2⟩ := hci
        rw [since_task _ rfl, apiSent_append, drawn_append, g1, g2]
        exact ⟨by simp [apiSent], by simp [drawn]⟩
      case sendRead addr p h1 =>
        rw [h1] at hci
        obtain ⟨_, _, g1, n, _, _, _, g2, _⟩ := hci
        rw [since_task _ rfl, apiSent_append, drawn_append, g1, g2]
        exact ⟨by simp [apiSent], by simp [drawn]⟩
      case sendWrite c p h1 h2 =>
        rw [h1] at hci
        obtain ⟨_, _, g1, n, _, _, _, g2, _⟩ := hci
        rw [since_task _ rfl, apiSent_append, drawn_append, g1, g2]
        exact ⟨by simp [apiSent], by simp [drawn]⟩
      case stSend p h1 =>
        rw [h1] at hci
        obtain ⟨_, _, g1, _⟩ := hci
        rw [since_task _ rfl, apiSent_append, drawn_append, g1]
        exact ⟨by simp [apiSent], by simpa [drawn] using ih.2⟩
      case dcSend p h1 =>
        rw [h1] at hci
        obtain ⟨_, _, g1, _⟩ := hci
        rw [since_task _ rfl, apiSent_append, drawn_append, g1]
        exact ⟨by simp [apiSent], by simpa [drawn] using ih.2⟩
      all_goals exact keep rfl rfl rfl

/-- C66 is refuted: a tunneling acknowledgement is never looked at. Whatever its channel, sequence number and status, receiving it changes
nothing at all, neither in the background task nor in the call that waits: every execution can be continued with it to the same state. -/
theorem C66_violated {m : Mode} {s : Sys} {tr : List Obs} (h : Exec m s tr) (hpc : s.bg.pc = .recv) (channel seq status : U8) (d : Bytes)
    (hd : Decodes (seen d) (.tunnelingAck ⟨channel, seq, status⟩)) : Exec m s (tr ++ [.rx d]) := by
  refine h.step (.bg (.dgram d)) ?_
  have hn : d ≠ [] := by rintro rfl; exact decodes_nil hd
  have e : onDatagram d = .recv := by
    unfold onDatagram
    rw [if_neg (by simpa using hn), buffer_eq_seen, (C21_dispatch_exact _ _).2 hd]
  obtain ⟨bg, api⟩ := s
  simp only at hpc
  simp only [step, bgStep, reduceCtorEq, if_false, hpc, e, endObs, Option.map_some]
  rw [self_pc hpc]

/-- C66 is refuted: a write to 1/0/1 whose request was refused by the gateway (error status in the acknowledgement) returns `Ok` when some
confirmation arrives. -/
theorem C66_violated_write (m : Mode) : ∃ s tr, Exec m s tr ∧
    received tr = [frame TUNNELING_ACK [4, 7, 0, 0x29],
      frame TUNNELING_REQUEST ([4, 7, 0, 0] ++ [0x2e, 0, 0xbc, 0xe0, 0x11, 2, 8, 1, 1, 0, 0x81])] ∧
    (requestsSent tr).length = 1 ∧ calls tr = [.write (.group3 ⟨1, 0, 1⟩) [1] true] ∧ returned tr = [.unit] := by
  obtain ⟨s, tr, h1, h2⟩ := exec_of_evs (m := m) (evs := [.bg .run, .bg .sendOk, .bg (.dgram grant7), .bg .run,
      .api (.call (.write (.group3 ⟨1, 0, 1⟩) [1] true)), .api .run, .api .run, .api .sendOk,
      .bg (.dgram (frame TUNNELING_ACK [4, 7, 0, 0x29])),
      .bg (.dgram (frame TUNNELING_REQUEST ([4, 7, 0, 0] ++ [0x2e, 0, 0xbc, 0xe0, 0x11, 2, 8, 1, 1, 0, 0x81]))),
      .bg .sendOk, .bg .run, .api .run])
    (f := fun x => ((received x.2, (requestsSent x.2).length), calls x.2, returned x.2))
    (y := (([frame TUNNELING_ACK [4, 7, 0, 0x29],
      frame TUNNELING_REQUEST ([4, 7, 0, 0] ++ [0x2e, 0, 0xbc, 0xe0, 0x11, 2, 8, 1, 1, 0, 0x81])], 1),
      [.write (.group3 ⟨1, 0, 1⟩) [1] true], [.unit]))
    (by cases m <;> decide +kernel)
  simp only [Prod.mk.injEq] at h2
  exact ⟨s, tr, h1, h2.1.1, h2.1.2, h2.2.1, h2.2.2⟩

example (m : Mode) : ∃ s tr d, Exec m s tr ∧ s.bg.pc = .recv ∧ Decodes (seen d) (.tunnelingAck ⟨9, 3, 0x29⟩) := by
  refine ⟨_, _, frame TUNNELING_ACK [4, 9, 3, 0x29], exec_link m grants7, rfl, ?_⟩
  rw [seen_short (by simp [frame, word])]
  exact .tunnelingAck 9 3 0x29 _

/-! ## C67 -/

/-- The client object was dropped. -/
def isDropped : Obs → Bool
  | .dropped => true
  | _ => false

/-- C67, the part that holds: after the client object has been dropped there are no calls, and nothing is sent on their behalf. -/
theorem C67_silent_partial {m : Mode} {s : Sys} {tr : List Obs} (h : Exec m s tr) (hd : Obs.dropped ∈ tr) :
    s.api = .idle ∧ calls (since isDropped tr) = [] ∧ apiSent (since isDropped tr) = [] ∧ returned (since isDropped tr) = [] := by
  suffices s.bg.rxOpen = false ∧ s.api = .idle ∧ calls (since isDropped tr) = [] ∧ apiSent (since isDropped tr) = [] ∧
      returned (since isDropped tr) = [] from this.2
  induction h with
  | init => cases hd
  | @step s s' tr o e hx hs ih =>
    cases e with
    | bg e =>
      simp only [Knx.step, Option.map_eq_some_iff, Prod.exists, Prod.mk.injEq] at hs
      obtain ⟨b, o', hb, rfl, rfl⟩ := hs
      have ht := bgStep_tr hb
      have f := ht.facts
      have hn : o'.any isDropped = false := by cases ht <;> rfl
      have ho : b.rxOpen = s.bg.rxOpen := by cases ht <;> rfl
      have hm : Obs.dropped ∈ tr := by
        rcases List.mem_append.1 hd with h | h
        · exact h
        · rw [List.any_eq_false] at hn
          exact absurd rfl (hn _ h)
      obtain ⟨i1, i2, i3, i4, i5⟩ := ih hm
      refine ⟨ho.trans i1, i2, ?_⟩
      rw [since_task _ hn, calls_append, apiSent_append, returned_append, i3, i4, i5, f.sent, f.returned]
      refine ⟨?_, rfl, rfl⟩
      have := f.noCall
      rw [List.any_eq_false] at this
      rw [List.nil_append, calls, List.filterMap_eq_nil_iff]
      intro x hx
      have := this x hx
      cases x <;> simp_all [isCall]
    | delay d => cases hs; rw [List.append_nil] at hd ⊢; exact ih hd
    | api e =>
      have ht := apiStep_tr hs
      by_cases hm : Obs.dropped ∈ tr
      · obtain ⟨i1, i2, _⟩ := ih hm
        exfalso
        clear hs ih
        cases ht <;> simp_all [looksUp]
      · have ho : Obs.dropped ∈ o := (List.mem_append.1 hd).resolve_left hm
        cases ht
        case drop h1 h2 =>
          refine ⟨rfl, h1, ?_⟩
          rw [since_append]
          exact ⟨rfl, rfl, rfl⟩
        all_goals simp at ho

/-- C67 is refuted: no disconnect request is ever sent except by a call of `disconnect`, hence none after the client has been
dropped. -/
theorem C67_violated {m : Mode} {s s' : Sys} {tr o : List Obs} {e : Ev} {w : Who} {p : Bytes} (h : Exec m s tr)
    (hs : step m s e = some (s', o)) (hp : Obs.tx w p ∈ o) (hr : serviceIs DISCONNECT_REQUEST p = true) :
    w = .api ∧ lastCall tr = some .disconnect ∧ s.api ≠ .idle ∧ Obs.dropped ∉ tr := by
  have nd : s.api ≠ .idle → Obs.dropped ∉ tr := fun h1 h2 => h1 (C67_silent_partial h h2).1
  cases e with
  | bg e =>
    exfalso
    simp only [Knx.step, Option.map_eq_some_iff, Prod.exists, Prod.mk.injEq] at hs
    obtain ⟨b, o', hb, rfl, rfl⟩ := hs
    have ht := bgStep_tr hb
    cases ht
    case discOk hpc => exact h.gexec.conn_iff.2 _ hpc
    all_goals
      simp only [List.mem_singleton, List.mem_cons, Obs.tx.injEq, reduceCtorEq, or_false, List.not_mem_nil] at hp
    all_goals
      obtain ⟨_, rfl⟩ := hp
      first
        | (rw [ack_packet, serviceIs_frame] at hr; exact absurd hr (by decide))
        | (rw [C19_bodies.1, serviceIs_frame] at hr; exact absurd hr (by decide))
        | (rw [enablePacket, C19_bodies.2.2.2.2.1, serviceIs_frame] at hr; exact absurd hr (by decide))
        | exact absurd hr (by decide)
  | delay d => cases hs; cases hp
  | api e =>
    have hc := h.callInv
    have req : ∀ {ch n cemi p}, RequestPacket ch n cemi p → serviceIs DISCONNECT_REQUEST p = true → False := by
      rintro ch n cemi p ⟨len, rfl⟩ hr
      exact absurd hr (by simp [serviceIs, header, word, TUNNELING_REQUEST, DISCONNECT_REQUEST, byte])
    have ht := apiStep_tr hs
    cases ht
    case sendRead addr p' h1 =>
      simp only [List.mem_singleton, Obs.tx.injEq] at hp
      obtain ⟨_, rfl⟩ := hp
      rw [h1] at hc
      obtain ⟨_, _, _, n, ch, cemi, _, _, g⟩ := hc
      exact (req (requestPacket_of g) hr).elim
    case sendWrite c p' h1 h2 =>
      simp only [List.mem_singleton, Obs.tx.injEq] at hp
      obtain ⟨_, rfl⟩ := hp
      rw [h1] at hc
      obtain ⟨_, _, _, n, ch, cemi, _, _, g⟩ := hc
      exact (req (requestPacket_of g) hr).elim
    case stSend p' h1 =>
      simp only [List.mem_singleton, Obs.tx.injEq] at hp
      obtain ⟨_, rfl⟩ := hp
      rw [h1] at hc
      obtain ⟨_, _, _, ch, ep, rfl⟩ := hc
      rw [C19_bodies.1, serviceIs_frame] at hr; exact absurd hr (by decide)
    case dcSend p' h1 =>
      simp only [List.mem_singleton, Obs.tx.injEq] at hp
      obtain ⟨rfl, rfl⟩ := hp
      have hi : s.api ≠ .idle := by rw [h1]; simp
      rw [h1] at hc
      exact ⟨rfl, hc.1, hi, nd hi⟩
    all_goals simp at hp

/-- A run of `n` heart beats, a minute apart, on time. -/
theorem beatsRun (m : Mode) (s : Sys) (c : Conn) (hpc : s.bg.pc = .recv) (hc : s.bg.conn = some c) (hd : s.bg.hbDue = s.bg.now)
    (ha : apiDeadline s.api = none) (n : Nat) :
    PromptRun m s (times n [.tick, .tx .task (ConnectionstateRequest.mk c.channel c.endpoint).packet])
      ⟨{ s.bg with now := s.bg.now + 60000 * n, hbDue := s.bg.now + 60000 * n }, s.api⟩ := by
  obtain ⟨b, api⟩ := s
  simp only at hpc hc hd ha
  induction n with
  | zero =>
    have : ({ b with now := b.now + 60000 * 0, hbDue := b.now + 60000 * 0 } : Bg) = b := by
      cases b; simp only at hd; simp [hd]
    simp only [this]
    exact .nil _
  | succ n ih =>
    rw [times_succ]
    refine ih.trans ?_
    have h1 : Knx.step m ⟨{ b with now := b.now + 60000 * n, hbDue := b.now + 60000 * n }, api⟩ (.bg .tick)
        = some (⟨{ b with now := b.now + 60000 * n, hbDue := b.now + 60000 * (n + 1), pc := .hb c.channel c.endpoint }, api⟩, [.tick]) := by
      simp [Knx.step, bgStep, tickStep, hpc, inSelect, busy, hc, nextTick_self]
      omega
    have h2 : Knx.step m ⟨{ b with now := b.now + 60000 * n, hbDue := b.now + 60000 * (n + 1), pc := .hb c.channel c.endpoint }, api⟩ (.bg .sendOk)
        = some (⟨{ b with now := b.now + 60000 * n, hbDue := b.now + 60000 * (n + 1) }, api⟩,
          [.tx .task (ConnectionstateRequest.mk c.channel c.endpoint).packet]) := by
      simp [Knx.step, bgStep, hpc]
    have h3 : Knx.step m ⟨{ b with now := b.now + 60000 * n, hbDue := b.now + 60000 * (n + 1) }, api⟩ (.delay 60000)
        = some (⟨{ b with now := b.now + 60000 * (n + 1), hbDue := b.now + 60000 * (n + 1) }, api⟩, []) := by
      simp [Knx.step]; omega
    refine .step (.bg .tick) trivial h1 (.step (.bg .sendOk) trivial h2 (.step (.delay 60000) ?_ h3 (.nil _)))
    constructor
    · intro t ht
      simp [bgDeadline, hpc, inSelect] at ht
      simp only
      omega
    · intro t ht
      simp only [ha] at ht
      cases ht

theorem taskSent_beats (n : Nat) (p : Bytes) : taskSent (times n [.tick, .tx .task p]) = List.replicate n p := by
  induction n with
  | zero => rfl
  | succ n ih =>
    rw [times_succ, List.replicate_succ',
      show ∀ a b : List Obs, taskSent (a ++ b) = taskSent a ++ taskSent b from fun a b => by simp [taskSent], ih]
    rfl

/-- The client with the connection `r`, dropped. -/
def orphan (r : ConnectionResponse) : Sys := ⟨{ linkUp .client r with rxOpen := false }, .idle⟩

theorem exec_orphan (m : Mode) {d : Bytes} {r : ConnectionResponse} (h : Grants d r) :
    Exec m (orphan r) (linkTrace .client d r ++ [.dropped]) := by
  refine (exec_link m h).step (.api .drop) ?_
  simp [step, apiStep, linkUp, Bg.init, orphan]

/-- C67 is refuted: after the client object has been dropped, the task keeps the connection alive for ever, with one heart beat per
minute: for every connection that can be established and every `n`, there are `n` heart beats in the `n` minutes after the drop. -/
theorem C67_violated_beats (m : Mode) (d : Bytes) (r : ConnectionResponse) (h : Grants d r) (n : Nat) :
    ∃ s s' tr, Exec m s (linkTrace .client d r ++ [.dropped]) ∧ PromptRun m s tr s' ∧
      taskSent tr = List.replicate n (frame CONNECTIONSTATE_REQUEST ([r.channel, 0] ++ hpai r.dataEndpoint)) ∧
      s'.bg.now = s.bg.now + 60000 * n ∧ s'.bg.conn = s.bg.conn ∧ s.bg.conn.isSome = true := by
  have hb := beatsRun m (orphan r) (Conn.ofResponse .client r) rfl rfl rfl rfl n
  refine ⟨_, _, _, exec_orphan m h, hb, ?_, rfl, rfl, rfl⟩
  rw [taskSent_beats, C19_bodies.1]
  rfl

/-- C67 is refuted: when the dropped client's task receives a telegram, it gives up the connection and asks for a new one; so it goes on,
any number of times. -/
theorem C67_violated_reconnects (m : Mode) (d : Bytes) (r : ConnectionResponse) (h : Grants d r) (channel seq res : U8) (cemi : Bytes)
    (c : Cemi) (hl : cemi.length ≤ 65525) (hc : runRd (Cemi.fromPacket m) id (cut cemi) = .ok c) (n : Nat) :
    ∃ s, Exec m s (linkTrace .client d r ++ [.dropped] ++
      times n ([.rx (frame TUNNELING_REQUEST ([4, channel, seq, res] ++ cemi)), .tx .task (frame TUNNELING_ACK [4, channel, seq, 0]),
        .closed, .down] ++ linkTrace .client d r)) ∧ s.bg.conn.isSome = true := by
  suffices Exec m (orphan r) (linkTrace .client d r ++ [.dropped] ++
      times n ([.rx (frame TUNNELING_REQUEST ([4, channel, seq, res] ++ cemi)), .tx .task (frame TUNNELING_ACK [4, channel, seq, 0]),
        .closed, .down] ++ linkTrace .client d r)) from ⟨_, this, rfl⟩
  induction n with
  | zero =>
    rw [show times 0 _ = [] from rfl, List.append_nil]
    exact exec_orphan m h
  | succ n ih =>
    have h1 := onDatagram_request (decodes_request channel seq res cemi hl)
    have h2 := (tryConnect_iff d r).2 h
    have hr : bgRun .client m (orphan r).bg [.dgram (frame TUNNELING_REQUEST ([4, channel, seq, res] ++ cemi)), .sendOk, .run, .run,
        .run, .sendOk, .dgram d, .run] = some ((orphan r).bg,
        [.rx (frame TUNNELING_REQUEST ([4, channel, seq, res] ++ cemi)), .tx .task (frame TUNNELING_ACK [4, channel, seq, 0]),
        .closed, .down] ++ linkTrace .client d r) := by
      simp only [bgRun, bgStep, orphan, linkUp, h1, endObs, reduceCtorEq, if_false, hc, if_true, h2, connected, Option.map_some]
      rw [ack_packet]
      rfl
    have := ih.append (bgRun_run hr)
    rw [times_succ, ← List.append_assoc]
    exact this

example (m : Mode) : ∃ s tr, Exec m s tr ∧ Obs.dropped ∈ tr := ⟨_, _, exec_orphan m grants7, by simp⟩

example (m : Mode) : ∃ s s' tr o p, Exec m s tr ∧ step m s (.api .sendOk) = some (s', o) ∧ Obs.tx .api p ∈ o ∧
    serviceIs DISCONNECT_REQUEST p = true := by
  obtain ⟨s, tr, h1, h2⟩ := exec_of_evs (m := m) (evs := [.bg .run, .bg .sendOk, .bg (.dgram grant7), .bg .run,
      .api (.call .disconnect), .api .run, .api .run, .api .run])
    (f := fun x => (step m x.1 (.api .sendOk)).map (·.2))
    (y := some [.tx .api (frame DISCONNECT_REQUEST [7, 0, 8, 1, 192, 168, 1, 2, 0x0e, 0x57])]) (by cases m <;> decide +kernel)
  simp only [Option.map_eq_some_iff, Prod.exists, exists_eq_right] at h2
  obtain ⟨s', h2⟩ := h2
  exact ⟨s, s', tr, _, _, h1, h2, by simp; rfl, by decide⟩

end Knx
