import Verif.Spec.Effects
import Verif.Props.Wire
import Verif.Props.Whole
import Verif.Props.Answers
import Verif.Props.Session

/-!
# Which datagrams are alike (C130)
-/

namespace Knx
open Spec

/-- The effect, from the state of the task after the datagram. -/
def effectOf (m : Mode) (d : Bytes) : Effect :=
  match onDatagram d with
  | .recv => .ignored
  | .teardown => .lost
  | .done => .over
  | .crashed => .died
  | .ackFeat ch sq => .acked ch sq
  | .ackReq ch sq raw =>
    match runRd (Cemi.fromPacket m) id raw with
    | .ok c => .delivered ch sq c
    | .err => .acked ch sq
    | .panic => .ackedDied ch sq
  | _ => .ignored

theorem does_effectOf (m : Mode) (d : Bytes) : Does m d (effectOf m d) := by
  by_cases hd : d = []
  · subst hd; exact .empty
  · have hl : ¬ d.length = 0 := by simpa using hd
    unfold effectOf onDatagram
    rw [if_neg hl]
    cases hp : parseResponse (buffer d) with
    | err => exact .garbage d hd (garbage_of hp).1 (garbage_of hp).2
    | panic => exact .short d ((tooShort_iff d).1 hp)
    | ok x =>
      have hx := (parse_iff d x).1 hp
      cases x with
      | tunnelingRequest t =>
        obtain ⟨ch, sq, cemi⟩ := t
        simp only
        cases hc : runRd (Cemi.fromPacket m) id cemi with
        | ok c => exact .telegram d ch sq cemi c hx ⟨_, hx, hc⟩
        | err =>
          refine .unreadable d ch sq cemi hx ?_ ?_
          · rw [← explosive_iff, hc]; simp
          · rintro c ⟨t, h1, h2⟩
            have := (parse_iff d _).2 h1
            rw [hp] at this; cases this
            rw [hc] at h2; cases h2
        | panic => exact .explosive d ch sq cemi hx ((explosive_iff _ _).1 hc)
      | tunnelingAck a => exact .ack d a hx
      | featureResponse r => obtain ⟨f, v, st, ch, sq⟩ := r; exact .feature d f v st ch sq hx
      | connectionstateResponse r =>
        obtain ⟨ch, st⟩ := r
        by_cases hs : st = 0
        · subst hs; exact .fine d ch hx
        · simp only [ne_eq, hs, not_false_eq_true, if_true]; exact .broken d ch st hx hs
      | disconnectResponse r => exact .bye d r hx
      | disconnectRequest r => exact absurd hp (C22_violated _ _)

theorem does_iff {m : Mode} {d : Bytes} {E : Effect} : Does m d E ↔ E = effectOf m d := by
  constructor
  · intro h
    cases h with
    | empty => rfl
    | ack _ a h =>
      have hp := (parse_iff d _).2 h
      simp [effectOf, onDatagram, hp]
    | fine _ ch h => simp [effectOf, onDatagram_fine h rfl]
    | broken _ ch st h hs => simp [effectOf, onDatagram_state h hs]
    | garbage _ hd h1 h2 =>
      have hp : parseResponse (buffer d) = .err := by
        cases hp : parseResponse (buffer d) with
        | err => rfl
        | ok x => exact absurd ((parse_iff d x).1 hp) (h1 x)
        | panic => exact absurd ((tooShort_iff d).1 hp) h2
      simp [effectOf, onDatagram, hp, hd]
    | bye _ y h => simp [effectOf, onDatagram_bye h]
    | short _ h =>
      have hp := (tooShort_iff d).2 h
      have : d ≠ [] := by rintro rfl; cases hp
      simp [effectOf, onDatagram, hp, this]
    | feature _ f v st ch sq h =>
      have hp := (parse_iff d _).2 h
      simp [effectOf, onDatagram, hp, onDatagram_of hp]
    | unreadable _ ch sq cemi h h1 h2 =>
      have : runRd (Cemi.fromPacket m) id cemi = .err := by
        cases hc : runRd (Cemi.fromPacket m) id cemi with
        | err => rfl
        | ok c => exact absurd ⟨_, h, hc⟩ (h2 c)
        | panic => exact absurd ((explosive_iff _ _).1 hc) h1
      simp [effectOf, onDatagram_request h, this]
    | telegram _ ch sq cemi c h hc =>
      obtain ⟨t, h1, h2⟩ := hc
      have hp := (parse_iff d _).2 h
      rw [(parse_iff d _).2 h1] at hp
      cases hp
      simp [effectOf, onDatagram_request h, h2]
    | explosive _ ch sq cemi h h1 =>
      simp [effectOf, onDatagram_request h, (explosive_iff _ _).2 h1]
  · rintro rfl; exact does_effectOf m d

/-- C130: every datagram has exactly one of the effects. -/
theorem C130_one (m : Mode) (d : Bytes) : ∃! E, Does m d E := ⟨effectOf m d, does_effectOf m d, fun _ h => does_iff.1 h⟩

/-! ## The effect can be seen -/

theorem env_seen {k : Kind} {s s' : Bg} {o : List Obs} (h : Env k s s' o) {x : Obs} (hx : x ∈ o) :
    quiet x = true ∨ (∃ i c, x = .taken i c) ∨ (∃ n, x = .drew n) ∨ x = .dropped := by
  cases h
  case quiet hq => exact Or.inl (hq x hx)
  case draw c hl hc => simp at hx; subst hx; simp
  case take i c rest o hqu hq =>
    rcases List.mem_cons.1 hx with rfl | hx
    · simp
    · exact Or.inl (hq x hx)
  case drop => simp at hx; subst hx; simp
  case subs hq => exact Or.inl (hq x hx)
  case chans => simp at hx
  case delay => simp at hx

/-- Done by the task. -/
def byTask : Obs → Prop
  | .rx _ | .down | .exit | .crash | .queued _ | .tx .task _ => True
  | _ => False

theorem env_notTask {k : Kind} {s s' : Bg} {o : List Obs} (h : Env k s s' o) {x : Obs} (hx : x ∈ o) : ¬ byTask x := by
  intro hb
  rcases env_seen h hx with h | ⟨i, c, rfl⟩ | ⟨n, rfl⟩ | rfl
  · cases x <;> first | exact hb | (simp [quiet] at h; done) | skip
    rename_i w p
    cases w
    · simp [quiet] at h
    · exact hb
  · exact hb
  · exact hb
  · exact hb

/-- The task can only leave such a place with an observation. -/
def steady : Pc → Prop
  | .recv | .push _ | .ackReq _ _ _ | .ackFeat _ _ | .teardown | .done | .crashed => True
  | _ => False

/-- What the task was seen to do last, it did in some state, and is still where it was then. -/
theorem gexec_last {k : Kind} {m : Mode} {s : Bg} {tr a : List Obs} {x : Obs} (h : GExec k m s tr) (ht : tr = a ++ [x]) (hx : byTask x) :
    ∃ s0 s1 a' o1, GExec k m s0 a' ∧ BgTr k m s0 s1 (o1 ++ [x]) ∧ a = a' ++ o1 ∧ (steady s1.pc → s.pc = s1.pc) := by
  induction h with
  | init => simp at ht
  | @task s s' tr o hg hs ih =>
    rcases List.eq_nil_or_concat o with rfl | ⟨o, y, rfl⟩
    · obtain ⟨s0, s1, a', o1, h1, h2, h3, h4⟩ := ih (by simpa using ht)
      refine ⟨s0, s1, a', o1, h1, h2, h3, fun hst => ?_⟩
      have h4 := h4 hst
      generalize ho : ([] : List Obs) = o at hs
      cases hs <;> first | (cases ho; done) | (rename_i hp; rw [← h4, hp] at hst; exact hst.elim) | (rename_i hp _; rw [← h4, hp] at hst; exact hst.elim) | (rename_i hp _ _; rw [← h4, hp] at hst; exact hst.elim)
    · rw [List.concat_eq_append, ← List.append_assoc] at ht
      obtain ⟨rfl, h⟩ := List.append_inj' ht rfl
      cases h
      exact ⟨s, s', tr, o, hg, by simpa using hs, rfl, fun _ => rfl⟩
  | @env s s' tr o hg he ih =>
    rcases List.eq_nil_or_concat o with rfl | ⟨o, y, rfl⟩
    · obtain ⟨s0, s1, a', o1, h1, h2, h3, h4⟩ := ih (by simpa using ht)
      exact ⟨s0, s1, a', o1, h1, h2, h3, fun hst => by rw [he.facts.pc, h4 hst]⟩
    · rw [List.concat_eq_append, ← List.append_assoc] at ht
      obtain ⟨rfl, h⟩ := List.append_inj' ht rfl
      cases h
      exact absurd hx (env_notTask he (by simp))

theorem rx_step {k : Kind} {m : Mode} {s s' : Bg} {o1 o2 : List Obs} {d : Bytes} (h : BgTr k m s s' (o1 ++ .rx d :: o2)) :
    o1 = [] ∧ o2 = endObs (onDatagram d) ∧ s'.pc = onDatagram d := by
  generalize ho : o1 ++ .rx d :: o2 = o at h
  have h1 : ∀ x, o1 ++ .rx d :: o2 = [x] → o1 = [] ∧ Obs.rx d = x ∧ o2 = [] := by
    intro x h; clear ho; cases o1 <;> simp_all
  have h2 : ∀ x y, o1 ++ .rx d :: o2 = [x, y] → (o1 = [] ∧ Obs.rx d = x ∧ o2 = [y]) ∨ (Obs.rx d = y) := by
    intro x y h
    clear ho h1
    cases o1 with
    | nil => simp_all
    | cons a t => cases t <;> simp_all
  cases h <;> first
    | (exfalso; have := congrArg (fun l => Obs.rx d ∈ l) ho; simp at this; done)
    | skip
  case recvEmpty hp => obtain ⟨rfl, hx, rfl⟩ := h1 _ ho; cases hx; exact ⟨rfl, rfl, hp⟩
  case recvErr hp hn h => obtain ⟨rfl, hx, rfl⟩ := h1 _ ho; cases hx; simp [onDatagram, hn, h, endObs]
  case recvPanic hp hn h =>
    rcases h2 _ _ ho with ⟨rfl, hx, rfl⟩ | hx <;> cases hx
    simp [onDatagram, hn, h, endObs]
  case recvReq r hp hn h => obtain ⟨rfl, hx, rfl⟩ := h1 _ ho; cases hx; simp [onDatagram, hn, h, endObs]
  case recvAck r hp hn h => obtain ⟨rfl, hx, rfl⟩ := h1 _ ho; cases hx; simp [onDatagram, hn, h, endObs, hp]
  case recvFeat r hp hn h => obtain ⟨rfl, hx, rfl⟩ := h1 _ ho; cases hx; simp [onDatagram, hn, h, endObs]
  case recvStateOk r hp hn h hs => obtain ⟨rfl, hx, rfl⟩ := h1 _ ho; cases hx; simp [onDatagram, hn, h, endObs, hp, hs]
  case recvStateBad r hp hn h hs => obtain ⟨rfl, hx, rfl⟩ := h1 _ ho; cases hx; replace hs : ¬ r.status = 0#8 := hs; simp [onDatagram, hn, h, endObs, hs]
  case recvDisc r hp hn h =>
    rcases h2 _ _ ho with ⟨rfl, hx, rfl⟩ | hx <;> cases hx
    simp [onDatagram, hn, h, endObs]

/-! ## Two datagrams of the same effect can be exchanged -/

/-- What is acknowledged and what is made of it. -/
def ackOf (m : Mode) : Pc → Option (U8 × U8 × Res Cemi)
  | .ackReq ch sq raw => some (ch, sq, runRd (Cemi.fromPacket m) id raw)
  | .ackFeat ch sq => some (ch, sq, .err)
  | _ => none

/-- The task goes on in the same way. -/
def Like (m : Mode) (p q : Pc) : Prop := p = q ∨ ∃ x, ackOf m p = some x ∧ ackOf m q = some x

def Bg.at (s : Bg) (q : Pc) : Bg := { s with pc := q }

def Sys.at (s : Sys) (q : Pc) : Sys := { s with bg := s.bg.at q }

def MSys.at (s : MSys) (q : Pc) : MSys := { s with bg := s.bg.at q }

theorem Bg.at_self (s : Bg) : s.at s.pc = s := rfl

theorem like_bg {k : Kind} {m : Mode} {s s' : Bg} {q : Pc} {e : BgEv} {o : List Obs} (hq : Like m s.pc q)
    (h : bgStep k m s e = some (s', o)) : ∃ q', Like m s'.pc q' ∧ bgStep k m (s.at q) e = some (s'.at q', o) := by
  rcases hq with rfl | ⟨x, h1, h2⟩
  · exact ⟨s'.pc, .inl rfl, by rw [Bg.at_self, Bg.at_self]; exact h⟩
  · refine ⟨s'.pc, .inl rfl, ?_⟩
    rw [Bg.at_self, ← h]
    unfold bgStep
    by_cases he : e = .tick
    · simp only [he, if_true]
      unfold tickStep
      cases hs : s.pc <;> rw [hs] at h1 <;> cases h1 <;> cases q <;> simp only [ackOf, Option.some.injEq, reduceCtorEq] at h2 <;> simp [Bg.at, inSelect, busy]
    · simp only [he, if_false]
      cases hs : s.pc <;> rw [hs] at h1 <;> cases h1 <;> cases q <;> simp only [ackOf, Option.some.injEq, Prod.mk.injEq, reduceCtorEq] at h2 <;>
        (obtain ⟨rfl, rfl, h2⟩ := h2; simp only [Bg.at] <;> cases e <;> first | (simp [h2]; done) | (simp [← h2]; done) | rfl)

theorem like_flags {m : Mode} {s : Bg} {q : Pc} (h : Like m s.pc q) (k : Kind) :
    connLocked k (s.at q) = connLocked k s ∧ sendersGone (s.at q) = sendersGone s := by
  rcases h with rfl | ⟨x, h1, h2⟩
  · exact ⟨rfl, rfl⟩
  · cases hs : s.pc <;> rw [hs] at h1 <;> cases h1 <;> cases q <;> simp only [ackOf, Option.some.injEq, reduceCtorEq] at h2 <;> cases k <;> simp [connLocked, sendersGone, Bg.at, hs]

theorem like_api {m : Mode} {s : Sys} {q : Pc} (e : ApiEv) (hl : connLocked .client (s.bg.at q) = connLocked .client s.bg)
    (hg : sendersGone (s.bg.at q) = sendersGone s.bg) : apiStep m (s.at q) e = (apiStep m s e).map fun x => (x.1.at q, x.2) := by
  obtain ⟨b, a⟩ := s
  simp only at hl hg
  have hc : ∀ f g : Conn → Option (Sys × List Obs), (∀ d, g d = (f d).map fun x => (x.1.at q, x.2)) →
      withConn (Sys.at ⟨b, a⟩ q) g = (withConn ⟨b, a⟩ f).map fun x => (x.1.at q, x.2) := by
    intro f g hfg
    unfold withConn
    simp only [Sys.at, hl]
    split
    · rfl
    · have : (b.at q).conn = b.conn := rfl
      rw [this]
      cases b.conn with
      | none => rfl
      | some d => exact hfg d
  have hr : ∀ f g : Sys → Cemi → Option (Sys × List Obs), (∀ s c, g (s.at q) c = (f s c).map fun x => (x.1.at q, x.2)) →
      chanRecv (Sys.at ⟨b, a⟩ q) g = (chanRecv ⟨b, a⟩ f).map fun x => (x.1.at q, x.2) := by
    intro f g hfg
    unfold chanRecv
    simp only [Sys.at, hg]
    have : (b.at q).queue = b.queue := rfl
    rw [this]
    cases b.queue with
    | nil => simp only; split <;> rfl
    | cons c rest => exact hfg ⟨{ b with queue := rest }, a⟩ c
  have hf : ∀ (s : Sys) o r, finish (s.at q) o r = (finish s o r).map fun x => (x.1.at q, x.2) := fun _ _ _ => rfl
  have hi : ∀ (c : Prop) [Decidable c] (x y : Option (Sys × List Obs)),
      (if c then x.map fun x => (x.1.at q, x.2) else y.map fun x => (x.1.at q, x.2)) = (if c then x else y).map fun x => (x.1.at q, x.2) := by
    intro c _ x y; split <;> rfl
  have hs : ∀ (s : Sys) c r, startTunnel (s.at q) c r = (startTunnel s c r).map fun x => (x.1.at q, x.2) := by
    intro s c r; cases r <;> rfl
  have hcall : ∀ c, apiCall m (Sys.at ⟨b, a⟩ q) c = (apiCall m ⟨b, a⟩ c).map fun x => (x.1.at q, x.2) := by
    intro c
    unfold apiCall
    cases c <;> first | rfl | exact hs _ _ _
  unfold apiStep
  by_cases he : e = .cancel
  · rw [if_pos he, if_pos he, ← hi]; rfl
  · rw [if_neg he, if_neg he]
    have hm : ∀ addr (s : Sys) c, readMsg (s.at q) addr c = (readMsg s addr c).map fun x => (x.1.at q, x.2) := by
      intro addr s c
      simp only [readMsg]
      split
      · split <;> rfl
      · split
        · split
          · rw [← hi]; rfl
          · rfl
          · rfl
        · rfl
    have hw : ∀ (s : Sys) c, writeMsg (s.at q) c = (writeMsg s c).map fun x => (x.1.at q, x.2) := by
      intro s c
      simp only [writeMsg]
      split
      · split <;> rfl
      · rfl
    cases a
    case idle =>
      cases e <;> first | rfl | skip
      · exact (by rw [← hi, ← hcall]; rfl)
      · exact (by rw [← hi]; rfl)
    case seqNr c cemi => cases e <;> first | rfl | exact hc _ _ fun _ => rfl
    case chanId c n cemi =>
      cases e <;> first | rfl | skip
      refine hc _ _ fun d => ?_
      cases (TunnelingRequest.mk d.channel n cemi).packet m <;> rfl
    case sendReq c p => cases e <;> first | rfl | (cases c <;> rfl)
    case reading addr dl =>
      cases e <;> first | rfl | skip
      · exact hr _ _ (hm addr)
      · exact (by rw [← hi]; rfl)
    case writing dl =>
      cases e <;> first | rfl | skip
      · exact hr _ _ hw
      · exact (by rw [← hi]; rfl)
    case stChan => cases e <;> first | rfl | exact hc _ _ fun _ => rfl
    case stEp => cases e <;> first | rfl | exact hc _ _ fun _ => rfl
    case stSend => cases e <;> rfl
    case stRecv =>
      cases e <;> first | rfl | skip
      rename_i d
      show (match runRd ConnectionstateResponse.fromPacket id (buffer d) with | .ok r => _ | .err => _ | .panic => _) =
        Option.map _ (match runRd ConnectionstateResponse.fromPacket id (buffer d) with | .ok r => _ | .err => _ | .panic => _)
      cases runRd ConnectionstateResponse.fromPacket id (buffer d) <;> rfl
    case dcChan => cases e <;> first | rfl | exact hc _ _ fun _ => rfl
    case dcEp => cases e <;> first | rfl | exact hc _ _ fun _ => rfl
    case dcLog => cases e <;> first | rfl | exact hc _ _ fun _ => rfl
    case dcSend => cases e <;> rfl
    case dcRecv => cases e <;> first | rfl | exact hr _ _ fun _ _ => rfl

theorem like_mapi {m : Mode} {s : MSys} {q : Pc} (e : MApiEv) (hl : connLocked .monitor (s.bg.at q) = connLocked .monitor s.bg)
    (hg : sendersGone (s.bg.at q) = sendersGone s.bg) : mapiStep m (s.at q) e = (mapiStep m s e).map fun x => (x.1.at q, x.2) := by
  obtain ⟨b, a, w⟩ := s
  simp only at hl hg
  have hc : ∀ f g : Conn → Option (MSys × List Obs), (∀ d, g d = (f d).map fun x => (x.1.at q, x.2)) →
      mwithConn (MSys.at ⟨b, a, w⟩ q) g = (mwithConn ⟨b, a, w⟩ f).map fun x => (x.1.at q, x.2) := by
    intro f g hfg
    unfold mwithConn
    simp only [MSys.at, hl]
    split
    · rfl
    · have : (b.at q).conn = b.conn := rfl
      rw [this]
      cases b.conn with
      | none => rfl
      | some d => exact hfg d
  have hi : ∀ (c : Prop) [Decidable c] (x y : Option (MSys × List Obs)),
      (if c then x.map fun x => (x.1.at q, x.2) else y.map fun x => (x.1.at q, x.2)) = (if c then x else y).map fun x => (x.1.at q, x.2) := by
    intro c _ x y; split <;> rfl
  have hi' : ∀ (c c' : Prop) [Decidable c] [Decidable c'] (_ : c ↔ c') (x y : Option (MSys × List Obs)),
      (if c then x.map fun x => (x.1.at q, x.2) else y.map fun x => (x.1.at q, x.2)) = (if c' then x else y).map fun x => (x.1.at q, x.2) := by
    intro c c' _ _ h x y
    by_cases hc : c
    · rw [if_pos hc, if_pos (h.1 hc)]
    · rw [if_neg hc, if_neg fun h' => hc (h.2 h')]
  have hs : ∀ (s : MSys) c r, mstartTunnel (s.at q) c r = (mstartTunnel s c r).map fun x => (x.1.at q, x.2) := by
    intro s c r; cases r <;> rfl
  have hcall : ∀ c, mapiCall m (MSys.at ⟨b, a, w⟩ q) c = (mapiCall m ⟨b, a, w⟩ c).map fun x => (x.1.at q, x.2) := by
    intro c
    unfold mapiCall
    cases c <;> first | rfl | exact hs _ _ _
  have hn : ∀ (s : MSys) i c, nextMsg (s.at q) i c = (nextMsg s i c).map fun x => (x.1.at q, x.2) := by
    intro s i c
    simp only [nextMsg]
    split
    · split <;> rfl
    · split
      · split <;> rfl
      · split
        · split <;> rfl
        · rfl
  have hstep : mcallStep m (MSys.at ⟨b, a, w⟩ q) e = (mcallStep m ⟨b, a, w⟩ e).map fun x => (x.1.at q, x.2) := by
    unfold mcallStep
    cases a
    case idle =>
      cases e <;> first | rfl | skip
      · exact (by rw [← hi, ← hcall]; rfl)
      · exact (by rw [← hi]; rfl)
      · exact (by rw [← hi]; rfl)
    case seqNr cemi => cases e <;> first | rfl | exact hc _ _ fun _ => rfl
    case chanId n cemi =>
      cases e <;> first | rfl | skip
      refine hc _ _ fun d => ?_
      cases (TunnelingRequest.mk d.channel n cemi).packet m <;> rfl
    case sendReq p => cases e <;> rfl
    case dcChan => cases e <;> first | rfl | exact hc _ _ fun _ => rfl
    case dcEp => cases e <;> first | rfl | exact hc _ _ fun _ => rfl
    case dcSend => cases e <;> rfl
    case dcRecv =>
      cases e <;> first | rfl | skip
      rename_i d
      show (match runRd DisconnectResponse.fromPacket id (buffer d) with | .ok r => _ | .err => _ | .panic => _) =
        Option.map _ (match runRd DisconnectResponse.fromPacket id (buffer d) with | .ok r => _ | .err => _ | .panic => _)
      cases runRd DisconnectResponse.fromPacket id (buffer d) <;> rfl
    case isConn =>
      cases e <;> first | rfl | skip
      show (if connLocked .monitor (b.at q) = true then _ else _) = _
      rw [hl, ← hi]; rfl
    case subscribe id =>
      cases e <;> first | rfl | skip
      have : (connLocked .monitor (b.at q) = true ∨ ((b.at q).chans id).cap = 0) ↔ (connLocked .monitor b = true ∨ (b.chans id).cap = 0) := by
        rw [hl]; rfl
      exact hi' _ _ this none (mfinish ⟨{ b with subs := b.subs ++ [id] }, .subscribe id, w⟩ [.subscribed id] .unit)
  unfold mapiStep
  cases e <;> first | exact hstep | rfl | (rw [← hi]; rfl) | skip
  rename_i i
  rw [← hi]
  show (if i ∈ w then _ else _) = _
  split
  · show (match b.queue with | c :: rest => _ | [] => _) = Option.map _ (match b.queue with | c :: rest => _ | [] => _)
    cases b.queue with
    | nil =>
      show (if sendersGone (b.at q) = true then _ else _) = _
      rw [hg, ← hi]; rfl
    | cons c rest => exact hn ⟨{ b with queue := rest }, a, w⟩ i c
  · rfl

theorem like_step {m : Mode} {s s' : Sys} {q : Pc} {e : Ev} {o : List Obs} (hq : Like m s.bg.pc q)
    (h : step m s e = some (s', o)) : ∃ q', Like m s'.bg.pc q' ∧ step m (s.at q) e = some (s'.at q', o) := by
  cases e with
  | bg e =>
    simp only [Knx.step, Option.map_eq_some_iff, Prod.exists, Prod.mk.injEq] at h
    obtain ⟨b, o', hb, rfl, rfl⟩ := h
    obtain ⟨q', h1, h2⟩ := like_bg hq hb
    refine ⟨q', h1, ?_⟩
    simp only [Knx.step, Sys.at, h2]
    rfl
  | api e =>
    obtain ⟨h1, h2⟩ := like_flags hq .client
    have hpc : s'.bg.pc = s.bg.pc := by cases apiStep_tr h <;> rfl
    refine ⟨q, by rw [hpc]; exact hq, ?_⟩
    show apiStep m (s.at q) e = _
    rw [like_api e h1 h2, show apiStep m s e = _ from h]
    rfl
  | delay t =>
    cases h
    exact ⟨q, hq, rfl⟩

theorem like_mstep {m : Mode} {s s' : MSys} {q : Pc} {e : MEv} {o : List Obs} (hq : Like m s.bg.pc q)
    (h : mstep m s e = some (s', o)) : ∃ q', Like m s'.bg.pc q' ∧ mstep m (s.at q) e = some (s'.at q', o) := by
  cases e with
  | bg e =>
    simp only [Knx.mstep, Option.map_eq_some_iff, Prod.exists, Prod.mk.injEq] at h
    obtain ⟨b, o', hb, rfl, rfl⟩ := h
    obtain ⟨q', h1, h2⟩ := like_bg hq hb
    refine ⟨q', h1, ?_⟩
    simp only [Knx.mstep, MSys.at, h2]
    rfl
  | api e =>
    obtain ⟨h1, h2⟩ := like_flags hq .monitor
    have hpc : s'.bg.pc = s.bg.pc := by cases mapiStep_tr h <;> rfl
    refine ⟨q, by rw [hpc]; exact hq, ?_⟩
    show mapiStep m (s.at q) e = _
    rw [like_mapi e h1 h2, show mapiStep m s e = _ from h]
    rfl
  | delay t =>
    cases h
    exact ⟨q, hq, rfl⟩

theorem bg_rx {k : Kind} {m : Mode} {s s' : Bg} {e : BgEv} {o1 o2 : List Obs} {d : Bytes} (h : bgStep k m s e = some (s', o1 ++ .rx d :: o2)) :
    e = .dgram d ∧ s.pc = .recv ∧ s' = s.at (onDatagram d) ∧ o1 = [] ∧ o2 = endObs (onDatagram d) := by
  obtain ⟨h1, h2, h3⟩ := rx_step (bgStep_tr h)
  subst h1; subst h2
  have hp : s.pc = .recv := by
    have := bgStep_tr h
    generalize ho : ([] : List Obs) ++ .rx d :: endObs (onDatagram d) = o at this
    cases this <;> first | (cases ho; done) | assumption
  unfold bgStep at h
  split at h
  · cases hc : s.conn <;> simp [tickStep, hp, busy, hc] at h
  · rw [hp] at h
    cases e <;> simp at h
    obtain ⟨rfl, rfl, _⟩ := h
    exact ⟨rfl, hp, rfl, rfl, rfl⟩

/-- Where the task is after it. -/
def wherePc (m : Mode) (p : Pc) : Effect → Prop
  | .ignored => p = .recv
  | .lost => p = .teardown
  | .over => p = .done
  | .died => p = .crashed
  | .acked ch sq => ackOf m p = some (ch, sq, .err)
  | .delivered ch sq c => ackOf m p = some (ch, sq, .ok c)
  | .ackedDied ch sq => ackOf m p = some (ch, sq, .panic)

theorem does_pc {m : Mode} {d : Bytes} {E : Effect} (h : Does m d E) : wherePc m (onDatagram d) E := by
  cases h with
  | empty => rfl
  | ack _ a h =>
    have hp := (parse_iff d _).2 h
    simp [wherePc, onDatagram, hp]
  | fine _ ch h => simp [wherePc, onDatagram_fine h rfl]
  | broken _ ch st h hs => simp [wherePc, onDatagram_state h hs]
  | garbage _ hd h1 h2 =>
    have hp : parseResponse (buffer d) = .err := by
      cases hp : parseResponse (buffer d) with
      | err => rfl
      | ok x => exact absurd ((parse_iff d x).1 hp) (h1 x)
      | panic => exact absurd ((tooShort_iff d).1 hp) h2
    simp [wherePc, onDatagram, hp, hd]
  | bye _ y h => simp [wherePc, onDatagram_bye h]
  | short _ h =>
    have hp := (tooShort_iff d).2 h
    have : d ≠ [] := by rintro rfl; cases hp
    simp [wherePc, onDatagram, hp, this]
  | feature _ f v st ch sq h =>
    have hp := (parse_iff d _).2 h
    simp [wherePc, onDatagram, hp, onDatagram_of hp, ackOf]
  | unreadable _ ch sq cemi h h1 h2 =>
    have : runRd (Cemi.fromPacket m) id cemi = .err := by
      cases hc : runRd (Cemi.fromPacket m) id cemi with
      | err => rfl
      | ok c => exact absurd ⟨_, h, hc⟩ (h2 c)
      | panic => exact absurd ((explosive_iff _ _).1 hc) h1
    simp [wherePc, onDatagram_request h, this, ackOf]
  | telegram _ ch sq cemi c h hc =>
    obtain ⟨t, h1, h2⟩ := hc
    have hp := (parse_iff d _).2 h
    rw [(parse_iff d _).2 h1] at hp
    cases hp
    simp [wherePc, onDatagram_request h, h2, ackOf]
  | explosive _ ch sq cemi h h1 =>
    simp [wherePc, onDatagram_request h, (explosive_iff _ _).2 h1, ackOf]

theorem ackOf_end {m : Mode} {p : Pc} {x : U8 × U8 × Res Cemi} (h : ackOf m p = some x) : endObs p = [] := by
  cases p <;> first | rfl | cases h

theorem like_of {m : Mode} {d d' : Bytes} {E : Effect} (h : Does m d E) (h' : Does m d' E) :
    Like m (onDatagram d) (onDatagram d') ∧ endObs (onDatagram d) = endObs (onDatagram d') := by
  have h := does_pc h
  have h' := does_pc h'
  cases E <;> simp only [wherePc] at h h' <;> first
    | (rw [h, h']; exact ⟨.inl (Eq.refl _), Eq.refl _⟩)
    | exact ⟨.inr ⟨_, h, h'⟩, by rw [ackOf_end h, ackOf_end h']⟩

theorem append_at {tr o a b : List Obs} {x : Obs} (h : tr ++ o = a ++ x :: b) :
    (∃ b', tr = a ++ x :: b' ∧ b = b' ++ o) ∨ ∃ o1, a = tr ++ o1 ∧ o = o1 ++ x :: b := by
  rcases List.append_eq_append_iff.1 h with ⟨t, h1, h2⟩ | ⟨t, h1, h2⟩
  · exact .inr ⟨t, h1, h2⟩
  · cases t with
    | nil => exact .inr ⟨[], by simpa using h1.symm, by simpa using h2.symm⟩
    | cons y t =>
      simp only [List.cons_append, List.cons.injEq] at h2
      obtain ⟨rfl, rfl⟩ := h2
      exact .inl ⟨t, h1, rfl⟩

theorem same_exec {m : Mode} {d d' : Bytes} (hl : Like m (onDatagram d) (onDatagram d')) (he : endObs (onDatagram d) = endObs (onDatagram d'))
    {s : Sys} {tr a : List Obs} (hs : Exec m s tr) : ∀ b, tr = a ++ .rx d :: b → ∃ q, Like m s.bg.pc q ∧ Exec m (s.at q) (a ++ .rx d' :: b) := by
  induction hs with
  | init => intro b hb; simp at hb
  | @step s s' tr o e hx hs ih =>
    intro b hb
    rcases append_at hb with ⟨b', rfl, rfl⟩ | ⟨o1, rfl, rfl⟩
    · obtain ⟨q, h1, h2⟩ := ih b' rfl
      obtain ⟨q', h3, h4⟩ := like_step h1 hs
      exact ⟨q', h3, by simpa using h2.step e h4⟩
    · cases e with
      | bg e =>
        simp only [Knx.step, Option.map_eq_some_iff, Prod.exists, Prod.mk.injEq] at hs
        obtain ⟨b', o', hb, rfl, rfl⟩ := hs
        obtain ⟨rfl, hp, rfl, rfl, rfl⟩ := bg_rx hb
        refine ⟨onDatagram d', hl, ?_⟩
        rw [List.append_nil, he]
        refine hx.step (.bg (.dgram d')) ?_
        simp [Knx.step, bgStep, hp, Sys.at, Bg.at]
      | api e =>
        have := apiStep_tr hs
        generalize ho : o1 ++ .rx d :: b = o at this
        exfalso
        have hm : Obs.rx d ∈ o := by rw [← ho]; simp
        cases this <;> simp at hm
      | delay t => simp [Knx.step] at hs

theorem same_mexec {m : Mode} {d d' : Bytes} (hl : Like m (onDatagram d) (onDatagram d')) (he : endObs (onDatagram d) = endObs (onDatagram d'))
    {s : MSys} {tr a : List Obs} (hs : MExec m s tr) : ∀ b, tr = a ++ .rx d :: b → ∃ q, Like m s.bg.pc q ∧ MExec m (s.at q) (a ++ .rx d' :: b) := by
  induction hs with
  | init => intro b hb; simp at hb
  | @step s s' tr o e hx hs ih =>
    intro b hb
    rcases append_at hb with ⟨b', rfl, rfl⟩ | ⟨o1, rfl, rfl⟩
    · obtain ⟨q, h1, h2⟩ := ih b' rfl
      obtain ⟨q', h3, h4⟩ := like_mstep h1 hs
      exact ⟨q', h3, by simpa using h2.step e h4⟩
    · cases e with
      | bg e =>
        simp only [Knx.mstep, Option.map_eq_some_iff, Prod.exists, Prod.mk.injEq] at hs
        obtain ⟨b', o', hb, rfl, rfl⟩ := hs
        obtain ⟨rfl, hp, rfl, rfl, rfl⟩ := bg_rx hb
        refine ⟨onDatagram d', hl, ?_⟩
        rw [List.append_nil, he]
        refine hx.step (.bg (.dgram d')) ?_
        simp [Knx.mstep, bgStep, hp, MSys.at, Bg.at]
      | api e =>
        have := mapiStep_tr hs
        generalize ho : o1 ++ .rx d :: b = o at this
        exfalso
        have hm : Obs.rx d ∈ o := by rw [← ho]; simp
        cases this <;> simp at hm
      | delay t => simp [Knx.mstep] at hs

/-- C130: a datagram can be exchanged for another of the same effect. -/
theorem C130_same {k : Kind} {m : Mode} {d d' : Bytes} {E : Effect} (h : Does m d E) (h' : Does m d' E) {s : Bg} {a b : List Obs}
    (hs : Reaches m k s (a ++ .rx d :: b)) : ∃ s', Reaches m k s' (a ++ .rx d' :: b) := by
  obtain ⟨hl, he⟩ := like_of h h'
  generalize ht : a ++ .rx d :: b = tr at hs
  cases hs with
  | client hs => obtain ⟨q, _, h⟩ := same_exec hl he hs b ht.symm; exact ⟨_, .client h⟩
  | monitor hs => obtain ⟨q, _, h⟩ := same_mexec hl he hs b ht.symm; exact ⟨_, .monitor h⟩

/-! ## What is seen gives the effect away -/

theorem steady_on {m : Mode} {p : Pc} {E : Effect} (h : wherePc m p E) : steady p := by
  cases E <;> simp only [wherePc] at h <;> first | (rw [h]; trivial) | (cases p <;> first | trivial | cases h)

theorem gexec_rx {k : Kind} {m : Mode} {s : Bg} {a : List Obs} {d : Bytes} (h : GExec k m s (a ++ [.rx d])) :
    endObs (onDatagram d) = [] ∧ s.pc = onDatagram d := by
  obtain ⟨s0, s1, a', o1, h1, h2, h3, h4⟩ := gexec_last h rfl trivial
  obtain ⟨_, h5, h6⟩ := rx_step h2
  exact ⟨h5.symm, by rw [← h6]; exact h4 (by rw [h6]; exact steady_on (does_pc (does_effectOf m d)))⟩

theorem gexec_next {k : Kind} {m : Mode} {s : Bg} {a : List Obs} {d : Bytes} {x : Obs} (hx : byTask x) (h : GExec k m s (a ++ [.rx d] ++ [x])) :
    [x] = endObs (onDatagram d) ∨ (∃ s0 s1, s0.pc = onDatagram d ∧ BgTr k m s0 s1 [x] ∧ (steady s1.pc → s.pc = s1.pc)) := by
  obtain ⟨s0, s1, a', o1, h1, h2, h3, h4⟩ := gexec_last h rfl hx
  rcases List.eq_nil_or_concat o1 with rfl | ⟨o, y, rfl⟩
  · rw [List.append_nil] at h3
    subst h3
    exact .inr ⟨s0, s1, (gexec_rx h1).2, h2, h4⟩
  · rw [List.concat_eq_append, ← List.append_assoc] at h3
    obtain ⟨_, h7⟩ := List.append_inj' h3 rfl
    cases h7
    rw [List.concat_eq_append, List.append_assoc] at h2
    exact .inl (rx_step h2).2.1

theorem where_inj {m : Mode} {p : Pc} {E E' : Effect} (h : wherePc m p E) (h' : wherePc m p E') : E = E' := by
  cases E <;> cases E' <;> simp only [wherePc] at h h' <;> first
    | rfl
    | (rw [h] at h'; cases h'; done)
    | (rw [h'] at h; cases h; done)
    | (rw [h] at h'; cases h'; rfl)

theorem does_where {m : Mode} {d : Bytes} {E : Effect} (h : wherePc m (onDatagram d) E) : Does m d E := by
  rw [where_inj h (does_pc (does_effectOf m d))]
  exact does_effectOf m d

theorem endObs_cases {p : Pc} {x : Obs} (h : [x] = endObs p) : (p = .done ∧ x = .exit) ∨ (p = .crashed ∧ x = .crash) := by
  cases p <;> simp_all [endObs]

theorem ack_inj {ch sq a b : U8} (h : frame TUNNELING_ACK [4, ch, sq, 0] = (TunnelingAck.mk a b 0).packet) : a = ch ∧ b = sq := by
  have h1 := congrArg (fun l => l[7]?) h
  have h2 := congrArg (fun l => l[8]?) h
  simp [frame, TunnelingAck.packet] at h1 h2
  exact ⟨h1.symm, h2.symm⟩

theorem sent_ack {k : Kind} {m : Mode} {s0 s1 : Bg} {ch sq : U8} (hst : steady s0.pc)
    (h : BgTr k m s0 s1 [.tx .task (frame TUNNELING_ACK [4, ch, sq, 0])]) :
    (∃ c, ackOf m s0.pc = some (ch, sq, .ok c) ∧ s1.pc = .push c) ∨ (ackOf m s0.pc = some (ch, sq, .err) ∧ s1.pc = .recv) := by
  generalize ho : [Obs.tx .task (frame TUNNELING_ACK [4, ch, sq, 0])] = o at h
  cases h <;> first
    | (cases ho; done)
    | (simp at ho; done)
    | (rename_i hp; rw [hp] at hst; exact hst.elim)
    | skip
  case ackReqOk c sq raw c' hp hc =>
    simp only [List.cons.injEq, Obs.tx.injEq, and_true, true_and] at ho
    obtain ⟨rfl, rfl⟩ := ack_inj ho
    exact .inl ⟨_, by rw [hp]; simp [ackOf, hc], rfl⟩
  case ackReqBad c sq raw hp hc =>
    simp only [List.cons.injEq, Obs.tx.injEq, and_true, true_and] at ho
    obtain ⟨rfl, rfl⟩ := ack_inj ho
    exact .inr ⟨by rw [hp]; simp [ackOf, hc], rfl⟩
  case ackFeatOk c sq hp =>
    simp only [List.cons.injEq, Obs.tx.injEq, and_true, true_and] at ho
    obtain ⟨rfl, rfl⟩ := ack_inj ho
    exact .inr ⟨by rw [hp]; simp [ackOf], rfl⟩

theorem steady_datagram (m : Mode) (d : Bytes) : steady (onDatagram d) := steady_on (does_pc (does_effectOf m d))

/-- C130: it can be read off what happens next. -/
theorem C130_seen {k : Kind} {m : Mode} {d : Bytes} {E : Effect} {s : Bg} {a : List Obs} (hr : Reaches m k s (a ++ .rx d :: shows E)) :
    Does m d E := by
  have h := hr.gexec
  apply does_where
  cases E with
  | ignored =>
    rcases gexec_next (x := .rx []) trivial (by simpa [shows] using h) with h | ⟨s0, s1, h1, h2, _⟩
    · rcases endObs_cases h with ⟨_, h⟩ | ⟨_, h⟩ <;> cases h
    · show onDatagram d = .recv
      rw [← h1]
      generalize ho : [Obs.rx []] = o at h2
      cases h2 <;> first | (cases ho; done) | assumption
  | lost =>
    rcases gexec_next (x := .down) trivial (by simpa [shows] using h) with h | ⟨s0, s1, h1, h2, _⟩
    · rcases endObs_cases h with ⟨_, h⟩ | ⟨_, h⟩ <;> cases h
    · show onDatagram d = .teardown
      rw [← h1]
      cases h2
      assumption
  | over =>
    rcases gexec_next (x := .exit) trivial (by simpa [shows] using h) with h | ⟨s0, s1, h1, h2, _⟩
    · rcases endObs_cases h with ⟨h, _⟩ | ⟨_, h⟩
      · exact h
      · cases h
    · cases h2
  | died =>
    rcases gexec_next (x := .crash) trivial (by simpa [shows] using h) with h | ⟨s0, s1, h1, h2, _⟩
    · rcases endObs_cases h with ⟨_, h⟩ | ⟨h, _⟩
      · cases h
      · exact h
    · cases h2
  | acked ch sq =>
    obtain ⟨s0, s1, a', o1, h1, h2, h3, h4⟩ := gexec_last (x := .rx []) (a := a ++ [.rx d] ++ [.tx .task (frame TUNNELING_ACK [4, ch, sq, 0])]) h
      (by simp [shows]) trivial
    obtain ⟨rfl, _, _⟩ := rx_step h2
    rw [List.append_nil] at h3
    subst h3
    have hp : s0.pc = .recv := by
      generalize ho : [] ++ [Obs.rx []] = o at h2
      cases h2 <;> first | (cases ho; done) | assumption
    rcases gexec_next (x := .tx .task _) trivial h1 with h | ⟨t0, t1, g1, g2, g3⟩
    · rcases endObs_cases h with ⟨_, h⟩ | ⟨_, h⟩ <;> cases h
    · rcases sent_ack (by rw [g1]; exact steady_datagram m d) g2 with ⟨c, g4, g5⟩ | ⟨g4, g5⟩
      · rw [g5] at g3; rw [hp] at g3; cases g3 trivial
      · rw [g1] at g4; exact g4
  | delivered ch sq c =>
    obtain ⟨s0, s1, a', o1, h1, h2, h3, h4⟩ := gexec_last (x := .queued c) (a := a ++ [.rx d] ++ [.tx .task (frame TUNNELING_ACK [4, ch, sq, 0])]) h
      (by simp [shows]) trivial
    have hp : o1 = [] ∧ s0.pc = .push c := by
      generalize ho : o1 ++ [Obs.queued c] = o at h2
      cases h2 <;> first
        | (exfalso; have := congrArg (fun l => Obs.queued c ∈ l) ho; simp at this; done)
        | skip
      cases o1 with
      | nil => cases ho; exact ⟨rfl, by assumption⟩
      | cons x t => cases t <;> simp at ho
    obtain ⟨rfl, hp⟩ := hp
    rw [List.append_nil] at h3
    subst h3
    rcases gexec_next (x := .tx .task _) trivial h1 with h | ⟨t0, t1, g1, g2, g3⟩
    · rcases endObs_cases h with ⟨_, h⟩ | ⟨_, h⟩ <;> cases h
    · rcases sent_ack (by rw [g1]; exact steady_datagram m d) g2 with ⟨c', g4, g5⟩ | ⟨g4, g5⟩
      · rw [g5, hp] at g3
        cases g3 trivial
        rw [g1] at g4; exact g4
      · rw [g5, hp] at g3; cases g3 trivial
  | ackedDied ch sq =>
    obtain ⟨s0, s1, a', o1, h1, h2, h3, h4⟩ := gexec_last (x := .crash) (a := a ++ [.rx d] ++ [.tx .task (frame TUNNELING_ACK [4, ch, sq, 0])]) h
      (by simp [shows]) trivial
    generalize ho : o1 ++ [Obs.crash] = o at h2
    cases h2 <;> first
      | (exfalso; have := congrArg (fun l => Obs.crash ∈ l) ho; simp at this; done)
      | skip
    case recvPanic d' hp hn hpp =>
      obtain ⟨h5, _⟩ := List.append_inj' (show o1 ++ [Obs.crash] = [.rx d'] ++ [.crash] from ho) rfl
      subst h5
      obtain ⟨_, h6⟩ := List.append_inj' h3 rfl
      cases h6
    case ackReqPanic ch' sq' raw hp hc =>
      obtain ⟨h5, _⟩ := List.append_inj' (show o1 ++ [Obs.crash] = [.tx .task (TunnelingAck.mk ch' sq' 0).packet] ++ [.crash] from ho) rfl
      subst h5
      obtain ⟨h5, h6⟩ := List.append_inj' h3 rfl
      subst h5
      simp only [List.cons.injEq, Obs.tx.injEq, and_true, true_and] at h6
      obtain ⟨rfl, rfl⟩ := ack_inj h6
      have := (gexec_rx h1).2
      rw [hp] at this
      show ackOf m (onDatagram d) = _
      rw [← this]
      simp [ackOf, hc]

/-- C130: on a fresh connection it is seen. -/
theorem C130_shown (k : Kind) {m : Mode} {g : Bytes} {r : ConnectionResponse} (hg : Grants g r) {d : Bytes} {E : Effect} (h : Does m d E) :
    ∃ s, Reaches m k s (linkTrace k g r ++ .rx d :: shows E) := by
  have hp := does_pc h
  have hl := reaches_link m k hg
  cases E with
  | ignored =>
    have hp : onDatagram d = .recv := hp
    exact ⟨_, hl.append (evs := [.dgram d, .dgram []]) (by simp [bgRun, bgStep, linkUp, hp, shows, endObs, onDatagram_nil]; rfl)⟩
  | lost =>
    have hp : onDatagram d = .teardown := hp
    exact ⟨_, hl.append (evs := [.dgram d, .run]) (by simp [bgRun, bgStep, linkUp, hp, shows, endObs]; rfl)⟩
  | over =>
    have hp : onDatagram d = .done := hp
    exact ⟨_, hl.append (evs := [.dgram d]) (by simp [bgRun, bgStep, linkUp, hp, shows, endObs]; rfl)⟩
  | died =>
    have hp : onDatagram d = .crashed := hp
    exact ⟨_, hl.append (evs := [.dgram d]) (by simp [bgRun, bgStep, linkUp, hp, shows, endObs]; rfl)⟩
  | acked ch sq =>
    have hp : ackOf m (onDatagram d) = some (ch, sq, .err) := hp
    refine ⟨{ linkUp k r with pc := .recv }, hl.append (evs := [.dgram d, .sendOk, .dgram []]) ?_⟩
    cases hd : onDatagram d <;> rw [hd] at hp <;> simp [ackOf] at hp
    · obtain ⟨rfl, rfl, hc⟩ := hp
      simp [bgRun, bgStep, linkUp, hd, shows, endObs, onDatagram_nil, hc]; exact ack_packet _ _
    · obtain ⟨rfl, rfl⟩ := hp
      simp [bgRun, bgStep, linkUp, hd, shows, endObs, onDatagram_nil]; exact ack_packet _ _
  | delivered ch sq c =>
    have hp : ackOf m (onDatagram d) = some (ch, sq, .ok c) := hp
    refine ⟨{ linkUp k r with pc := .recv, queue := [c] }, hl.append (evs := [.dgram d, .sendOk, .run]) ?_⟩
    cases hd : onDatagram d <;> rw [hd] at hp <;> simp [ackOf] at hp
    obtain ⟨rfl, rfl, hc⟩ := hp
    simp [bgRun, bgStep, linkUp, hd, shows, endObs, hc, Bg.init]; exact ack_packet _ _
  | ackedDied ch sq =>
    have hp : ackOf m (onDatagram d) = some (ch, sq, .panic) := hp
    refine ⟨{ linkUp k r with pc := .crashed }, hl.append (evs := [.dgram d, .sendOk]) ?_⟩
    cases hd : onDatagram d <;> rw [hd] at hp <;> simp [ackOf] at hp
    obtain ⟨rfl, rfl, hc⟩ := hp
    simp [bgRun, bgStep, linkUp, hd, shows, endObs, hc]; exact ack_packet _ _

/-- C130: two datagrams can be exchanged everywhere exactly if they have the same effect. -/
theorem C130_iff (k : Kind) (m : Mode) (d d' : Bytes) :
    (∀ a b, (∃ s, Reaches m k s (a ++ .rx d :: b)) ↔ ∃ s, Reaches m k s (a ++ .rx d' :: b)) ↔ ∃ E, Does m d E ∧ Does m d' E := by
  constructor
  · intro h
    obtain ⟨s, hs⟩ := (h _ _).1 (C130_shown k grants7 (does_effectOf m d))
    exact ⟨_, does_effectOf m d, C130_seen hs⟩
  · rintro ⟨E, h1, h2⟩ a b
    exact ⟨fun ⟨s, hs⟩ => C130_same h1 h2 hs, fun ⟨s, hs⟩ => C130_same h2 h1 hs⟩

theorem does_of_eq {m : Mode} {d d' : Bytes} {E : Effect} (h : onDatagram d = onDatagram d') (hd : Does m d E) : Does m d' E :=
  does_where (by rw [← h]; exact does_pc hd)

/-- C130: only the first hundred octets count, and octets that are missing are taken to be zero. -/
theorem C130_seen_only {m : Mode} {d d' : Bytes} {E : Effect} (hd : d ≠ []) (hd' : d' ≠ []) (h : seen d = seen d') (hE : Does m d E) : Does m d' E := by
  refine does_of_eq ?_ hE
  rw [← buffer_eq_seen, ← buffer_eq_seen] at h
  simp [onDatagram, h, hd, hd']

/-- C130: datagrams that say the same have the same effect. -/
theorem C130_decoded {m : Mode} {d d' : Bytes} {y : Response} {E : Effect} (h : Decodes (seen d) y) (h' : Decodes (seen d') y) (hE : Does m d E) : Does m d' E := by
  refine does_of_eq ?_ hE
  have e := (parse_iff d y).2 h
  have e' := (parse_iff d' y).2 h'
  simp [onDatagram, e, e', onDatagram_of e, onDatagram_of e']

theorem does7 (m : Mode) (res : U8) : Does m (frame TUNNELING_REQUEST ([4, 7, 0, res] ++ [0x29, 0, 0xbc, 0xe0, 0x11, 2, 8, 1, 1, 0, 0x81])) (.delivered 7 0 tel7) :=
  .telegram _ 7 0 _ _ (decodes_request 7 0 res _ (by simp)) ⟨_, decodes_request 7 0 res _ (by simp), tel7_eq m⟩

/-- A telegram can be exchanged for the same telegram with other values in the reserved octet, -/
example (k : Kind) (m : Mode) (res : U8) (a b : List Obs) :
    (∃ s, Reaches m k s (a ++ .rx (frame TUNNELING_REQUEST ([4, 7, 0, res] ++ [0x29, 0, 0xbc, 0xe0, 0x11, 2, 8, 1, 1, 0, 0x81])) :: b)) ↔
      ∃ s, Reaches m k s (a ++ .rx req7 :: b) :=
  (C130_iff k m _ _).2 ⟨_, does7 m res, by rw [req7_eq]; exact does7 m 0⟩ a b

/-- and there are such executions. -/
example (k : Kind) (m : Mode) : ∃ s, Reaches m k s (linkTrace k grant7 conn7 ++ .rx req7 :: [.tx .task (frame TUNNELING_ACK [4, 7, 0, 0]), .queued tel7]) :=
  C130_shown k grants7 (E := .delivered 7 0 tel7) (by rw [req7_eq]; exact does7 m 0)

/-- It cannot be exchanged for an empty datagram. -/
example (k : Kind) (m : Mode) : ¬ ∀ a b, (∃ s, Reaches m k s (a ++ .rx req7 :: b)) ↔ ∃ s, Reaches m k s (a ++ .rx [] :: b) := by
  rw [C130_iff]
  rintro ⟨E, h1, h2⟩
  have e1 := (C130_one m req7).unique h1 (by rw [req7_eq]; exact does7 m 0)
  have e2 := (C130_one m []).unique h2 .empty
  rw [e1] at e2
  cases e2

end Knx
