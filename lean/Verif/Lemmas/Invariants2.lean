import Verif.Lemmas.Invariants

/-!
# Invariants of the background task: acknowledgements, message channel, sequence numbers, end
-/

namespace Knx
open Spec

/-- What every step of the environment leaves alone. -/
structure EnvFacts (s s' : Bg) (o : List Obs) : Prop where
  pc : s'.pc = s.pc
  hbDue : s'.hbDue = s.hbDue
  conn : s'.conn.map (fun c => (c.channel, c.endpoint)) = s.conn.map (fun c => (c.channel, c.endpoint))
  received : received o = []
  acks : acksSent o = []
  queued : queued o = []
  ups : ups o = []
  answers : connAnswers o = []
  taskSent : taskSent o = []
  interrupts : interrupts o = 0
  failures : taskSendFailures o = 0
  closings : closings o = 0
  acked : ∀ st, o.foldl ackedStep st = st
  noCrash : Obs.crash ∉ o
  noExit : Obs.exit ∉ o
  noDown : Obs.down ∉ o
  noUp : o.any isUp = false
  notified : notifiedIds o = []

theorem quiet_facts {s s' : Bg} {o : List Obs} (hpc : s'.pc = s.pc) (hd : s'.hbDue = s.hbDue)
    (hc : s'.conn.map (fun c => (c.channel, c.endpoint)) = s.conn.map (fun c => (c.channel, c.endpoint)))
    (hq : ∀ x ∈ o, quiet x = true ∨ (∃ i c, x = .taken i c) ∨ (∃ n, x = .drew n) ∨ x = .dropped) : EnvFacts s s' o := by
  have fm : ∀ {α : Type} (f : Obs → Option α), (∀ x, quiet x = true → f x = none) → (∀ i c, f (.taken i c) = none) →
      (∀ n, f (.drew n) = none) → f .dropped = none → o.filterMap f = [] := by
    intro α f h1 h2 h3 h4
    rw [List.filterMap_eq_nil_iff]
    intro x hx
    rcases hq x hx with h | ⟨i, c, rfl⟩ | ⟨n, rfl⟩ | rfl
    · exact h1 x h
    · exact h2 _ _
    · exact h3 _
    · exact h4
  have cp : ∀ (f : Obs → Bool), (∀ x, quiet x = true → f x = false) → (∀ i c, f (.taken i c) = false) →
      (∀ n, f (.drew n) = false) → f .dropped = false → o.countP f = 0 := by
    intro f h1 h2 h3 h4
    rw [List.countP_eq_zero]
    intro x hx
    rcases hq x hx with h | ⟨i, c, rfl⟩ | ⟨n, rfl⟩ | rfl
    · simp [h1 x h]
    · simp [h2]
    · simp [h3]
    · simp [h4]
  have ne : ∀ y, quiet y = false → (∀ i c, y ≠ .taken i c) → (∀ n, y ≠ .drew n) → y ≠ .dropped → y ∉ o := by
    intro y h1 h2 h3 h4 hm
    rcases hq y hm with h | ⟨i, c, rfl⟩ | ⟨n, rfl⟩ | rfl
    · rw [h1] at h; cases h
    · exact h2 _ _ rfl
    · exact h3 _ rfl
    · exact h4 rfl
  constructor
  case pc => exact hpc
  case hbDue => exact hd
  case conn => exact hc
  case acks =>
    unfold acksSent
    rw [List.filter_eq_nil_iff]
    intro p hp
    rw [sent, List.mem_filterMap] at hp
    obtain ⟨x, hx, hxp⟩ := hp
    have := hq x hx
    cases x with
    | tx w q =>
      cases w with
      | task => simp [quiet] at this
      | api => simp only [Option.some.injEq] at hxp; subst hxp; simpa [quiet] using this
    | _ => simp at hxp
  case acked =>
    clear fm cp ne hpc hd hc
    induction o with
    | nil => intro st; rfl
    | cons x o ih =>
      intro st
      have hx := hq x (by simp)
      have : ackedStep st x = st := by
        cases x with
        | tx w q =>
          cases w with
          | task => simp [quiet] at hx
          | api => simp [quiet] at hx; simp [ackedStep, hx]
        | rx d => simp [quiet] at hx
        | _ => rfl
      rw [List.foldl_cons, this]
      exact ih (fun x hx => hq x (by simp [hx])) st
  case noCrash => exact ne _ rfl (by simp) (by simp) (by simp)
  case noExit => exact ne _ rfl (by simp) (by simp) (by simp)
  case noDown => exact ne _ rfl (by simp) (by simp) (by simp)
  case noUp =>
    rw [List.any_eq_false]
    intro x hx
    rcases hq x hx with h | ⟨i, c, rfl⟩ | ⟨n, rfl⟩ | rfl
    · revert h; cases x <;> simp [isUp, quiet]
    · simp [isUp]
    · simp [isUp]
    · simp [isUp]
  case interrupts =>
    refine cp _ (fun x => ?_) (fun _ _ => rfl) (fun _ => rfl) rfl
    cases x <;> simp [quiet]
  case closings =>
    refine cp _ (fun x => ?_) (fun _ _ => rfl) (fun _ => rfl) rfl
    cases x <;> simp [quiet]
  case failures =>
    refine cp _ (fun x => ?_) (fun _ _ => rfl) (fun _ => rfl) rfl
    cases x <;> simp [quiet]
    rename_i w _; cases w <;> simp
  case taskSent =>
    refine fm _ (fun x => ?_) (fun _ _ => rfl) (fun _ => rfl) rfl
    cases x <;> simp [quiet]
    rename_i w _; cases w <;> simp
  all_goals
    refine fm _ (fun x => ?_) (fun _ _ => rfl) (fun _ => rfl) rfl
    cases x <;> simp [quiet]

theorem Env.facts {k : Kind} {s s' : Bg} {o : List Obs} (h : Env k s s' o) : EnvFacts s s' o := by
  cases h
  case quiet hq => exact quiet_facts rfl rfl rfl fun x hx => Or.inl (hq x hx)
  case draw c hl hc =>
    exact quiet_facts rfl rfl (by simp [hc]) fun x hx => by simp at hx; subst hx; simp
  case take i c rest o hqu hq =>
    refine quiet_facts rfl rfl rfl fun x hx => ?_
    rcases List.mem_cons.1 hx with rfl | hx
    · simp
    · exact Or.inl (hq x hx)
  case drop => exact quiet_facts rfl rfl rfl fun x hx => by simp at hx; subst hx; simp
  case subs hq => exact quiet_facts rfl rfl rfl fun x hx => Or.inl (hq x hx)
  case chans => exact quiet_facts rfl rfl rfl (by simp)
  case delay => exact quiet_facts rfl rfl rfl (by simp)

/-! ## Acknowledgements -/

theorem Forall₂.snoc {α β : Type} {R : α → β → Prop} {a : List α} {b : List β} {x : α} {y : β}
    (h : List.Forall₂ R a b) (hxy : R x y) : List.Forall₂ R (a ++ [x]) (b ++ [y]) :=
  List.rel_append h (.cons hxy .nil)

theorem ack_packet (ch sq : U8) : (TunnelingAck.mk ch sq 0).packet = frame TUNNELING_ACK [4, ch, sq, 0] :=
  C19_bodies.2.2.2.1 _

theorem parse_seen {d : Bytes} {x : Response} (h : parseResponse (buffer d) = .ok x) : Decodes (seen d) x := by
  rwa [buffer_eq_seen, C21_dispatch_exact] at h

/-- The datagram needs an acknowledgement. -/
def NeedsAck (d : Bytes) : Prop := ∃ p, AckFor p d

/-- The datagram carries a telegram. -/
def HasTelegram (m : Mode) (d : Bytes) : Prop := ∃ c, Carries m d c

theorem decodes_unique {r : Bytes} {x y : Response} (hx : Decodes r x) (hy : Decodes r y) : x = y := by
  rw [← C21_dispatch_exact] at hx hy
  rw [hx] at hy
  exact Res.ok.inj hy

theorem needsAck_iff (d : Bytes) : NeedsAck d ↔
    (∃ t, Decodes (seen d) (.tunnelingRequest t)) ∨ ∃ f, Decodes (seen d) (.featureResponse f) := by
  constructor
  · rintro ⟨p, ch, sq, _, ⟨c, h⟩ | ⟨f, v, st, h⟩⟩
    · exact Or.inl ⟨_, h⟩
    · exact Or.inr ⟨_, h⟩
  · rintro (⟨t, h⟩ | ⟨f, h⟩)
    · exact ⟨_, t.channel, t.seq, rfl, Or.inl ⟨t.cemi, h⟩⟩
    · exact ⟨_, f.channel, f.seq, rfl, Or.inr ⟨f.feature, f.value, f.status, h⟩⟩

theorem not_needsAck {d : Bytes} (h : ∀ x, parseResponse (buffer d) = .ok x →
    (∀ t, x ≠ .tunnelingRequest t) ∧ ∀ f, x ≠ .featureResponse f) : ¬ NeedsAck d := by
  rw [needsAck_iff]
  rw [buffer_eq_seen] at h
  rintro (⟨t, ht⟩ | ⟨f, hf⟩)
  · exact (h _ ((C21_dispatch_exact _ _).2 ht)).1 t rfl
  · exact (h _ ((C21_dispatch_exact _ _).2 hf)).2 f rfl

theorem decodes_nil {x : Response} : ¬ Decodes (seen []) x := by
  intro h
  rw [← C21_dispatch_exact, ← buffer_eq_seen] at h
  rw [show parseResponse (buffer []) = .err from rfl] at h
  cases h

theorem not_needsAck_nil : ¬ NeedsAck [] := by
  rw [needsAck_iff]
  rintro (⟨t, ht⟩ | ⟨f, hf⟩)
  · exact decodes_nil ht
  · exact decodes_nil hf

/-- The fold behind `acked`. -/
def ackSt (tr : List Obs) : Option Bytes × List Bytes := tr.foldl ackedStep (none, [])

theorem acked_eq (tr : List Obs) : acked tr = (ackSt tr).2 := rfl

theorem ackSt_append (tr o : List Obs) : ackSt (tr ++ o) = o.foldl ackedStep (ackSt tr) := by
  simp [ackSt, List.foldl_append]

/-- What is known about the datagram in progress and the deliveries `ds` made so far. -/
def Progress (m : Mode) (st : Option Bytes × List Bytes) (ds : List Bytes) : Pc → Prop
  | .ackReq ch sq raw => (∃ d, st.1 = some d ∧ Decodes (seen d) (.tunnelingRequest ⟨ch, sq, raw⟩)) ∧ ds.Sublist st.2
  | .ackFeat ch sq => (∃ d f v u, st.1 = some d ∧ Decodes (seen d) (.featureResponse ⟨f, v, u, ch, sq⟩)) ∧ ds.Sublist st.2
  | .push c => ∃ as d, st.2 = as ++ [d] ∧ Carries m d c ∧ ds.Sublist as
  | _ => ds.Sublist st.2

theorem Progress.sublist {m : Mode} {st : Option Bytes × List Bytes} {ds : List Bytes} {pc : Pc}
    (h : Progress m st ds pc) : ds.Sublist st.2 := by
  cases pc
  case ackReq => exact h.2
  case ackFeat => exact h.2
  case push =>
    obtain ⟨as, d, h1, _, h2⟩ := h
    rw [h1]; exact h2.trans (List.sublist_append_left _ _)
  all_goals exact h

theorem Progress.of_sublist {m : Mode} {st : Option Bytes × List Bytes} {ds : List Bytes} {pc : Pc}
    (hb : busy pc = false) (h : ds.Sublist st.2) : Progress m st ds pc := by
  cases pc <;> first | exact h | simp [busy] at hb

/-- An acknowledgement is about to be sent. -/
def pendAck : Pc → Nat
  | .ackReq _ _ _ => 1
  | .ackFeat _ _ => 1
  | _ => 0

/-- A telegram is about to be put into the message channel. -/
def pendPush : Pc → Nat
  | .push _ => 1
  | _ => 0

/-- The ledger of received, acknowledged and delivered datagrams. -/
structure Ledger (m : Mode) (pc : Pc) (tr : List Obs) : Prop where
  sub : ((ackSt tr).2 ++ (ackSt tr).1.toList).Sublist (received tr)
  acks : List.Forall₂ AckFor (acksSent tr) (ackSt tr).2
  del : ∃ ds, List.Forall₂ (Carries m) ds (queued tr) ∧ Progress m (ackSt tr) ds pc

theorem Ledger.env {m : Mode} {s s' : Bg} {tr o : List Obs} (h : Ledger m s.pc tr) (f : EnvFacts s s' o) :
    Ledger m s'.pc (tr ++ o) := by
  have e : ackSt (tr ++ o) = ackSt tr := by rw [ackSt_append, f.acked]
  constructor
  · rw [e, received_append, f.received, List.append_nil]; exact h.sub
  · rw [e, acksSent_append, f.acks, List.append_nil]; exact h.acks
  · rw [e, queued_append, f.queued, List.append_nil, f.pc]; exact h.del

/-- Steps that receive nothing, acknowledge nothing and deliver nothing. -/
theorem Ledger.still {m : Mode} {pc pc' : Pc} {tr o : List Obs} (h : Ledger m pc tr) (hb : busy pc' = false)
    (h1 : received o = []) (h2 : acksSent o = []) (h3 : queued o = []) (h4 : ∀ st, o.foldl ackedStep st = st) :
    Ledger m pc' (tr ++ o) := by
  have e : ackSt (tr ++ o) = ackSt tr := by rw [ackSt_append, h4]
  constructor
  · rw [e, received_append, h1, List.append_nil]; exact h.sub
  · rw [e, acksSent_append, h2, List.append_nil]; exact h.acks
  · rw [e, queued_append, h3, List.append_nil]
    obtain ⟨ds, d1, d2⟩ := h.del
    exact ⟨ds, d1, .of_sublist hb d2.sublist⟩

/-- Steps that receive a datagram. -/
theorem Ledger.rx {m : Mode} {pc pc' : Pc} {tr o : List Obs} {d : Bytes} (h : Ledger m pc tr)
    (h1 : received o = [d]) (h2 : acksSent o = []) (h3 : queued o = []) (h4 : ∀ st, o.foldl ackedStep st = (some d, st.2))
    (hp : ∀ ds, ds.Sublist (ackSt tr).2 → Progress m (some d, (ackSt tr).2) ds pc') :
    Ledger m pc' (tr ++ o) := by
  have e : ackSt (tr ++ o) = (some d, (ackSt tr).2) := by rw [ackSt_append, h4]
  constructor
  · rw [e, received_append, h1]
    exact ((List.sublist_append_left _ _).trans h.sub).append (List.Sublist.refl _)
  · rw [e, acksSent_append, h2, List.append_nil]; exact h.acks
  · rw [e, queued_append, h3, List.append_nil]
    obtain ⟨ds, d1, d2⟩ := h.del
    exact ⟨ds, d1, hp ds d2.sublist⟩

/-- Steps that acknowledge the datagram in progress. -/
theorem Ledger.ack {m : Mode} {pc pc' : Pc} {tr o : List Obs} {d p : Bytes} (h : Ledger m pc tr)
    (hd : (ackSt tr).1 = some d) (ha : AckFor p d)
    (h1 : received o = []) (h2 : acksSent o = [p]) (h3 : queued o = [])
    (h4 : ∀ st, o.foldl ackedStep st = (none, st.2 ++ st.1.toList))
    (hp : ∀ ds, ds.Sublist (ackSt tr).2 → Progress m (none, (ackSt tr).2 ++ [d]) ds pc') :
    Ledger m pc' (tr ++ o) := by
  have e : ackSt (tr ++ o) = (none, (ackSt tr).2 ++ [d]) := by rw [ackSt_append, h4, hd]; rfl
  have hs := h.sub
  rw [hd] at hs
  constructor
  · rw [e, received_append, h1]; simpa using hs
  · rw [e, acksSent_append, h2]; exact Forall₂.snoc h.acks ha
  · rw [e, queued_append, h3, List.append_nil]
    obtain ⟨ds, d1, d2⟩ := h.del
    exact ⟨ds, d1, hp ds d2.sublist⟩

theorem serviceIs_ack (ch sq : U8) : serviceIs TUNNELING_ACK (TunnelingAck.mk ch sq 0#8).packet = true := by
  show serviceIs TUNNELING_ACK (TunnelingAck.mk ch sq 0).packet = true
  rw [ack_packet, serviceIs_frame]; decide

theorem serviceIs_connReq : serviceIs TUNNELING_ACK connReqPacket = false := by decide

theorem serviceIs_enable (ch : U8) : serviceIs TUNNELING_ACK (enablePacket ch) = false := by
  unfold enablePacket; rw [C19_bodies.2.2.2.2.1, serviceIs_frame]; decide

theorem ack_single (ch sq : U8) : acksSent [.tx .task (TunnelingAck.mk ch sq 0).packet] = [(TunnelingAck.mk ch sq 0).packet] := by
  simp [acksSent, sent, serviceIs_ack]

theorem GExec.ledger {k : Kind} {m : Mode} {s : Bg} {tr : List Obs} (h : GExec k m s tr) : Ledger m s.pc tr := by
  induction h with
  | init => exact ⟨.slnil, .nil, [], .nil, .slnil⟩
  | env _ he ih => exact ih.env he.facts
  | @task s s' tr o hx ht ih =>
    cases ht
    case connSendOk => exact ih.still rfl rfl (by simp [acksSent, sent, serviceIs_connReq]) rfl (by simp [ackedStep, serviceIs_connReq])
    case enableOk => exact ih.still rfl rfl (by simp [acksSent, sent, serviceIs_enable]) rfl (by simp [ackedStep, serviceIs_enable])
    case hbOk => exact ih.still rfl rfl (by simp [acksSent, sent, stateReq_not_ack]) rfl (by simp [ackedStep, stateReq_not_ack])
    case discOk p hpc => exact absurd hpc (hx.conn_iff.2 p)
    case discFail p hpc => exact absurd hpc (hx.conn_iff.2 p)
    case recvEmpty hpc =>
      exact ih.rx (d := []) rfl rfl rfl (by simp [ackedStep]) fun ds hs => .of_sublist (by rw [hpc]; rfl) hs
    case recvErr d hpc hd hp => exact ih.rx (d := d) rfl rfl rfl (by simp [ackedStep]) fun ds hs => .of_sublist rfl hs
    case recvPanic d hpc hd hp => exact ih.rx (d := d) rfl rfl rfl (by simp [ackedStep]) fun ds hs => .of_sublist rfl hs
    case recvReq d r hpc hd hp =>
      exact ih.rx (d := d) rfl rfl rfl (by simp [ackedStep]) fun ds hs => ⟨⟨d, rfl, parse_seen hp⟩, hs⟩
    case recvAck d r hpc hd hp =>
      exact ih.rx (d := d) rfl rfl rfl (by simp [ackedStep]) fun ds hs => .of_sublist (by rw [hpc]; rfl) hs
    case recvFeat d r hpc hd hp =>
      exact ih.rx (d := d) rfl rfl rfl (by simp [ackedStep]) fun ds hs => ⟨⟨d, _, _, _, rfl, parse_seen hp⟩, hs⟩
    case recvStateOk d r hpc hd hp hs =>
      exact ih.rx (d := d) rfl rfl rfl (by simp [ackedStep]) fun ds hs => .of_sublist (by rw [hpc]; rfl) hs
    case recvStateBad d r hpc hd hp hs =>
      exact ih.rx (d := d) rfl rfl rfl (by simp [ackedStep]) fun ds hs => .of_sublist rfl hs
    case recvDisc d r hpc hd hp => exact ih.rx (d := d) rfl rfl rfl (by simp [ackedStep]) fun ds hs => .of_sublist rfl hs
    case ackReqOk ch sq raw c hpc hc =>
      obtain ⟨ds0, _, hprog⟩ := ih.del
      rw [hpc] at hprog
      obtain ⟨⟨d, hd, hdec⟩, _⟩ := hprog
      exact ih.ack hd ⟨ch, sq, ack_packet _ _, Or.inl ⟨raw, hdec⟩⟩ rfl (ack_single _ _) rfl (by simp [ackedStep, serviceIs_ack])
        fun ds hs => ⟨_, d, rfl, ⟨_, hdec, hc⟩, hs⟩
    case ackReqBad ch sq raw hpc hc =>
      obtain ⟨ds0, _, hprog⟩ := ih.del
      rw [hpc] at hprog
      obtain ⟨⟨d, hd, hdec⟩, _⟩ := hprog
      exact ih.ack hd ⟨ch, sq, ack_packet _ _, Or.inl ⟨raw, hdec⟩⟩ rfl (ack_single _ _) rfl (by simp [ackedStep, serviceIs_ack])
        fun ds hs => .of_sublist rfl (hs.trans (List.sublist_append_left _ _))
    case ackReqPanic ch sq raw hpc hc =>
      obtain ⟨ds0, _, hprog⟩ := ih.del
      rw [hpc] at hprog
      obtain ⟨⟨d, hd, hdec⟩, _⟩ := hprog
      exact ih.ack hd ⟨ch, sq, ack_packet _ _, Or.inl ⟨raw, hdec⟩⟩ rfl (ack_single _ _) rfl (by simp [ackedStep, serviceIs_ack])
        fun ds hs => .of_sublist rfl (hs.trans (List.sublist_append_left _ _))
    case ackFeatOk ch sq hpc =>
      obtain ⟨ds0, _, hprog⟩ := ih.del
      rw [hpc] at hprog
      obtain ⟨⟨d, f, v, u, hd, hdec⟩, _⟩ := hprog
      exact ih.ack hd ⟨ch, sq, ack_packet _ _, Or.inr ⟨f, v, u, hdec⟩⟩ rfl (ack_single _ _) rfl (by simp [ackedStep, serviceIs_ack])
        fun ds hs => .of_sublist rfl (hs.trans (List.sublist_append_left _ _))
    case pushOk c hpc ho hl =>
      obtain ⟨ds, hds, hprog⟩ := ih.del
      rw [hpc] at hprog
      obtain ⟨as, d, h1, h2, h3⟩ := hprog
      have e : ackSt (tr ++ [.queued c]) = ackSt tr := by rw [ackSt_append]; rfl
      constructor
      · rw [e, received_append, show received [.queued c] = [] from rfl, List.append_nil]; exact ih.sub
      · rw [e, acksSent_append, show acksSent [.queued c] = [] from rfl, List.append_nil]; exact ih.acks
      · rw [e, queued_append]
        refine ⟨ds ++ [d], Forall₂.snoc hds h2, ?_⟩
        show (ds ++ [d]).Sublist (ackSt tr).2
        rw [h1]
        exact h3.append (List.Sublist.refl _)
    all_goals exact ih.still rfl rfl rfl rfl (by simp [ackedStep])

end Knx
