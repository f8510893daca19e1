import Verif.Spec.Replied
import Verif.Props.AtOnce
import Verif.Props.Recovery

/-!
# C115: a call whose request is replied to succeeds, in every schedule
-/

namespace Knx
open Spec

/-- What the task is doing with what was received: nothing, or passing on a telegram with `P`. -/
def Passing (m : Mode) (P : Cemi → Prop) (b : Bg) : Prop :=
  b.pc = .recv ∨ (∃ ch ep, b.pc = .hb ch ep) ∨
    (∃ ch sq raw c, b.pc = .ackReq ch sq raw ∧ runRd (Cemi.fromPacket m) id raw = .ok c ∧ P c) ∨ ∃ c, b.pc = .push c ∧ P c

/-- The reply is being passed on. -/
def InFlight (m : Mode) (c : Cemi) (b : Bg) : Prop :=
  (∃ ch sq raw, b.pc = .ackReq ch sq raw ∧ runRd (Cemi.fromPacket m) id raw = .ok c) ∨ b.pc = .push c

/-- What a step of the task leaves as it is. -/
structure TaskKeeps (b b' : Bg) (o : List Obs) : Prop where
  conn : b'.conn = b.conn
  rxOpen : b'.rxOpen = b.rxOpen
  now : b'.now = b.now
  returned : returned o = []
  sent : apiSent o = []

theorem noMatter_recv {d : Bytes} (h : NoMatter d) : onDatagram d = .recv := by
  unfold onDatagram
  rcases h with rfl | ⟨a, h⟩ | ⟨r, h, hs⟩
  · rfl
  · have hn : d ≠ [] := by rintro rfl; exact decodes_nil h
    rw [if_neg (by simpa using hn), buffer_eq_seen, (C21_dispatch_exact _ _).2 h]
  · have hn : d ≠ [] := by rintro rfl; exact decodes_nil h
    rw [if_neg (by simpa using hn), buffer_eq_seen, (C21_dispatch_exact _ _).2 h]
    simp [hs]

theorem carries_ack {m : Mode} {d : Bytes} {c : Cemi} (h : Carries m d c) :
    ∃ ch sq raw, onDatagram d = .ackReq ch sq raw ∧ runRd (Cemi.fromPacket m) id raw = .ok c := by
  obtain ⟨t, h1, h2⟩ := h
  exact ⟨_, _, _, onDatagram_request h1, h2⟩

theorem Passing.task {m : Mode} {Pa : Cemi → Prop} {b b' : Bg} {e : BgEv} {o : List Obs} (h : Passing m Pa b) (hc : b.conn ≠ none)
    (hr : b.rxOpen = true) (hb : bgStep .client m b e = some (b', o)) (hf : Fine m Pa o) :
    TaskKeeps b b' o ∧ Passing m Pa b' ∧ (b'.queue = b.queue ∨ ∃ c, Pa c ∧ b'.queue = b.queue ++ [c]) := by
  have ht := bgStep_tr hb
  rcases h with hpc | ⟨ch, ep, hpc⟩ | ⟨ch, sq, raw, c, hpc, hcc, hp⟩ | ⟨c, hpc, hp⟩
  · cases e with
    | dgram d =>
      simp only [bgStep, reduceCtorEq, if_false, hpc, Option.some.injEq, Prod.mk.injEq] at hb
      obtain ⟨rfl, rfl⟩ := hb
      rcases hf.other d (by simp) with h | ⟨c, h, hp⟩
      · rw [noMatter_recv h]
        exact ⟨⟨rfl, rfl, rfl, rfl, rfl⟩, .inl rfl, .inl rfl⟩
      · obtain ⟨ch, sq, raw, h1, h2⟩ := carries_ack h
        rw [h1]
        exact ⟨⟨rfl, rfl, rfl, rfl, rfl⟩, .inr (.inr (.inl ⟨_, _, _, _, rfl, h2, hp⟩)), .inl rfl⟩
    | tick =>
      obtain ⟨d, hd⟩ := Option.ne_none_iff_exists'.1 hc
      simp [bgStep, tickStep, hpc, inSelect, busy, hd] at hb
      obtain ⟨-, rfl, rfl⟩ := hb
      exact ⟨⟨hd.symm, rfl, rfl, rfl, rfl⟩, .inr (.inl ⟨_, _, rfl⟩), .inl rfl⟩
    | recvErr =>
      simp [bgStep, hpc] at hb
      obtain ⟨rfl, rfl⟩ := hb
      exact absurd (by simp) hf.receives
    | _ => simp [bgStep, hpc] at hb
  · cases ht
    case hbOk => exact ⟨⟨rfl, rfl, rfl, rfl, rfl⟩, .inl rfl, .inl rfl⟩
    case hbFail => exact absurd List.mem_cons_self (hf.sends .task _)
    all_goals simp_all [busy]
  · cases ht
    case ackReqOk ch' sq' raw' c' hpc' hc' =>
      rw [hpc] at hpc'; cases hpc'; rw [hcc] at hc'; cases hc'
      exact ⟨⟨rfl, rfl, rfl, rfl, rfl⟩, .inr (.inr (.inr ⟨_, rfl, hp⟩)), .inl rfl⟩
    case ackReqFail => exact absurd List.mem_cons_self (hf.sends .task _)
    case tickBusy => exact absurd (by simp) hf.passed
    case tickBusyNone => exact absurd (by simp) hf.passed
    all_goals simp_all
  · cases ht
    case pushOk c' hpc' _ _ =>
      rw [hpc] at hpc'; cases hpc'
      exact ⟨⟨rfl, rfl, rfl, rfl, rfl⟩, .inl rfl, .inr ⟨_, hp, rfl⟩⟩
    case tickBusy => exact absurd (by simp) hf.passed
    case tickBusyNone => exact absurd (by simp) hf.passed
    all_goals simp_all

theorem InFlight.task {m : Mode} {Pa : Cemi → Prop} {c : Cemi} {b b' : Bg} {o : List Obs} (h : InFlight m c b)
    (hr : b.rxOpen = true) (ht : BgTr .client m b b' o) (hf : Fine m Pa o) :
    TaskKeeps b b' o ∧ ((InFlight m c b' ∧ b'.queue = b.queue) ∨ (b'.pc = .recv ∧ b'.queue = b.queue ++ [c])) := by
  rcases h with ⟨ch, sq, raw, hpc, hcc⟩ | hpc
  · cases ht
    case ackReqOk ch' sq' raw' c' hpc' hc' =>
      rw [hpc] at hpc'; cases hpc'; rw [hcc] at hc'; cases hc'
      exact ⟨⟨rfl, rfl, rfl, rfl, rfl⟩, .inl ⟨.inr rfl, rfl⟩⟩
    case ackReqFail => exact absurd List.mem_cons_self (hf.sends .task _)
    case tickBusy => exact absurd (by simp) hf.passed
    case tickBusyNone => exact absurd (by simp) hf.passed
    all_goals simp_all
  · cases ht
    case pushOk c' hpc' _ _ =>
      rw [hpc] at hpc'; cases hpc'
      exact ⟨⟨rfl, rfl, rfl, rfl, rfl⟩, .inr ⟨rfl, rfl⟩⟩
    case tickBusy => exact absurd (by simp) hf.passed
    case tickBusyNone => exact absurd (by simp) hf.passed
    all_goals simp_all

/-- `reply` answers the call with `v`, and it passes over the other telegrams. -/
structure Suits (Pa : Cemi → Prop) (cl : Call) (reply : Cemi) (v : Ret) : Prop where
  ans : IsAnswer cl reply v
  pass : ∀ c, Pa c → Passes cl c

theorem answer_not_passed {cl : Call} {reply : Cemi} {v : Ret} (ha : IsAnswer cl reply v) : ¬ Passes cl reply := by
  intro hp
  cases cl with
  | read addr =>
    obtain ⟨hm, i, hi, hdst, -⟩ : reply.msgCode = 0x29 ∧ ∃ i, LDataInd.fromCemi reply = .ok i ∧ i.lData.dest = addr.toU16 ∧ v = .value i.value := ha
    rcases hp with h | ⟨i', h, h'⟩
    · exact h hm
    · rw [hi] at h; cases h; exact h' hdst
  | _ => exact hp

/-- The client is connected and no call is in progress. -/
structure AtRest (m : Mode) (Pa : Cemi → Prop) (s : Sys) : Prop where
  task : Passing m Pa s.bg
  queue : ∀ c ∈ s.bg.queue, Pa c
  conn : s.bg.conn ≠ none
  rxOpen : s.bg.rxOpen = true
  api : s.api = .idle

/-- The call waits for its answer, until `dl`. -/
def Awaits (cl : Call) (dl : Nat) (a : Api) : Prop :=
  match cl with
  | .read addr => a = .reading addr.toU16 dl
  | _ => a = .writing dl

/-- The request has not been sent yet. -/
structure Early (m : Mode) (Pa : Cemi → Prop) (cl : Call) (t : Nat) (s : Sys) : Prop where
  task : Passing m Pa s.bg
  queue : ∀ c ∈ s.bg.queue, Pa c
  conn : s.bg.conn ≠ none
  rxOpen : s.bg.rxOpen = true
  now : s.bg.now = t
  api : (∃ cemi, cemi.length ≤ 60000 ∧ (s.api = .seqNr cl cemi ∨ ∃ n, s.api = .chanId cl n cemi)) ∨ ∃ p, s.api = .sendReq cl p

/-- The request has been sent and the reply has not been received yet. -/
structure Unreplied (m : Mode) (R : Nat) (Pa : Cemi → Prop) (cl : Call) (t : Nat) (s : Sys) : Prop where
  task : Passing m Pa s.bg
  queue : ∀ c ∈ s.bg.queue, Pa c
  conn : s.bg.conn ≠ none
  rxOpen : s.bg.rxOpen = true
  now : t ≤ s.bg.now ∧ s.bg.now ≤ t + R
  api : ∃ dl, t + 10000 ≤ dl ∧ Awaits cl dl s.api

/-- The reply has been received and the call has not got it yet. -/
structure ReplyComing (m : Mode) (R : Nat) (Pa : Cemi → Prop) (cl : Call) (reply : Cemi) (t : Nat) (s : Sys) : Prop where
  conn : s.bg.conn ≠ none
  rxOpen : s.bg.rxOpen = true
  now : t ≤ s.bg.now ∧ s.bg.now ≤ t + R
  api : ∃ dl, t + 10000 ≤ dl ∧ Awaits cl dl s.api
  reply : (InFlight m reply s.bg ∧ ∀ c ∈ s.bg.queue, Pa c) ∨
    (Passing m Pa s.bg ∧ ∃ pre post, s.bg.queue = pre ++ reply :: post ∧ (∀ c ∈ pre, Pa c) ∧ ∀ c ∈ post, Pa c)

def Replying (m : Mode) (R : Nat) (Pa : Cemi → Prop) (cl : Call) (reply : Cemi) (t : Nat) (s : Sys) (w : Option Nat) : Prop :=
  (w = none ∧ Early m Pa cl t s) ∨ (w = some t ∧ Unreplied m R Pa cl t s) ∨ (w = none ∧ ReplyComing m R Pa cl reply t s)

/-- What a step may do: go on, or end the call as it should. -/
def StepsOn (m : Mode) (R : Nat) (Pa : Cemi → Prop) (cl : Call) (reply : Cemi) (t : Nat) (v : Ret) (s : Sys) (w : Option Nat) (o : List Obs) : Prop :=
  (Replying m R Pa cl reply t s w ∧ returned o = []) ∨ ∃ x, o = x ++ [.ret v] ∧ returned x = [] ∧ w = none ∧ AtRest m Pa s

theorem Passing.notGone {m : Mode} {P : Cemi → Prop} {b : Bg} (h : Passing m P b) : sendersGone b = false := by
  rcases h with h | ⟨_, _, h⟩ | ⟨_, _, _, _, h, _⟩ | ⟨_, h, _⟩ <;> simp [sendersGone, h]

theorem InFlight.notGone {m : Mode} {c : Cemi} {b : Bg} (h : InFlight m c b) : sendersGone b = false := by
  rcases h with ⟨_, _, _, h, _⟩ | h <;> simp [sendersGone, h]

theorem passes_skipped {addr : KnxAddress} {c : Cemi} (h : Passes (.read addr) c) : Skipped addr.toU16 c := h

theorem Early.bg {m : Mode} {Pa : Cemi → Prop} {cl : Call} {t : Nat} {s : Sys} {b : Bg} {e : BgEv} {o : List Obs} (h : Early m Pa cl t s)
    (hb : bgStep .client m s.bg e = some (b, o)) (hf : Fine m Pa o) : Early m Pa cl t { s with bg := b } ∧ apiSent o = [] ∧ returned o = [] := by
  obtain ⟨g, h1, h2⟩ := h.task.task h.conn h.rxOpen hb hf
  refine ⟨⟨h1, ?_, by rw [g.conn]; exact h.conn, by rw [g.rxOpen]; exact h.rxOpen, by rw [g.now]; exact h.now, h.api⟩, g.sent, g.returned⟩
  rcases h2 with h2 | ⟨c, hc, h2⟩ <;> simp only [h2]
  · exact h.queue
  · intro c' hm
    rcases List.mem_append.1 hm with hm | hm
    · exact h.queue _ hm
    · rw [List.mem_singleton.1 hm]; exact hc

theorem Early.api' {m : Mode} {R : Nat} {Pa : Cemi → Prop} {cl : Call} {reply : Cemi} {t : Nat} {v : Ret} {s s' : Sys} {o : List Obs} (h : Early m Pa cl t s)
    (ha : IsAnswer cl reply v) (ht : ApiTr m s s' o) (hf : Fine m Pa o) :
    StepsOn m R Pa cl reply t v s' (if apiSent o = [] then none else some s.bg.now) o := by
  obtain ⟨k1, k2, k3, k4, k5, k6⟩ := h
  rcases k6 with ⟨cemi, hl, ha | ⟨n, ha⟩⟩ | ⟨p, ha⟩
  · cases ht
    case draw c cemi' d h1 h2 h3 =>
      rw [ha] at h1; cases h1
      exact .inl ⟨.inl ⟨rfl, ⟨k1, k2, by simp, k4, k5, .inl ⟨_, hl, .inr ⟨_, rfl⟩⟩⟩⟩, rfl⟩
    case noConn h1 h2 h3 => exact absurd h3 k3
    case cancel => exact absurd (by simp) hf.kept
    all_goals simp_all
  · cases ht
    case pick c cemi' d h1 h2 h3 h4 h5 =>
      rw [ha] at h2; cases h2
      exact .inl ⟨.inl ⟨rfl, ⟨k1, k2, k3, k4, k5, .inr ⟨_, rfl⟩⟩⟩, rfl⟩
    case pickPanic c cemi' d h1 h2 h3 h4 h5 =>
      rw [ha] at h2; cases h2
      rw [request_panic_iff] at h5
      have := h5.2
      simp only at this
      omega
    case noConn h1 h2 h3 => exact absurd h3 k3
    case cancel => exact absurd (by simp) hf.kept
    all_goals simp_all
  · cases ht
    case sendRead addr p' h1 =>
      rw [ha] at h1; cases h1
      refine .inl ⟨.inr (.inl ⟨by simp [apiSent, k5], ⟨k1, k2, k3, k4, ?_, ⟨_, ?_, rfl⟩⟩⟩), rfl⟩
      · simp [k5]
      · simp only [k5, apiTimeout]; omega
    case sendWrite c p' h1 h2 =>
      rw [ha] at h1; cases h1
      refine .inl ⟨.inr (.inl ⟨by simp [apiSent, k5], ⟨k1, k2, k3, k4, ?_, ⟨s.bg.now + apiTimeout, ?_, ?_⟩⟩⟩), rfl⟩
      · simp [k5]
      · simp only [k5, apiTimeout]; omega
      · unfold Awaits
        split
        · exact absurd rfl (h2 _)
        · rfl
    case sendFail => exact absurd List.mem_cons_self (hf.sends .api _)
    case cancel => exact absurd (by simp) hf.kept
    all_goals simp_all

theorem Unreplied.bg {m : Mode} {R : Nat} {Pa : Cemi → Prop} {cl : Call} {t : Nat} {s : Sys} {b : Bg} {e : BgEv} {o : List Obs} (h : Unreplied m R Pa cl t s)
    (hb : bgStep .client m s.bg e = some (b, o)) (hf : Fine m Pa o) : Unreplied m R Pa cl t { s with bg := b } ∧ apiSent o = [] ∧ returned o = [] := by
  obtain ⟨g, h1, h2⟩ := h.task.task h.conn h.rxOpen hb hf
  refine ⟨⟨h1, ?_, by rw [g.conn]; exact h.conn, by rw [g.rxOpen]; exact h.rxOpen, by rw [g.now]; exact h.now, h.api⟩, g.sent, g.returned⟩
  rcases h2 with h2 | ⟨c, hc, h2⟩ <;> simp only [h2]
  · exact h.queue
  · intro c' hm
    rcases List.mem_append.1 hm with hm | hm
    · exact h.queue _ hm
    · rw [List.mem_singleton.1 hm]; exact hc

/-- A step of a waiting call: it skips a telegram, or it ends on the reply. -/
theorem awaits_step {m : Mode} {cl : Call} {reply : Cemi} {dl : Nat} {v : Ret} {s s' : Sys} {o : List Obs} (h : Awaits cl dl s.api)
    (ha : IsAnswer cl reply v) (hd : s.bg.now < dl) (hq : ∀ c rest, s.bg.queue = c :: rest → Passes cl c ∨ c = reply)
    (hg : s.bg.queue = [] → sendersGone s.bg = false)
    (ht : ApiTr m s s' o) (hf : Obs.cancelled ∉ o) :
    (∃ c rest dl', s.bg.queue = c :: rest ∧ Passes cl c ∧ s' = ⟨{ s.bg with queue := rest }, s'.api⟩ ∧ Awaits cl dl' s'.api ∧
      dl' = s.bg.now + 10000 ∧ o = [.taken 0 c]) ∨ ∃ rest, s.bg.queue = reply :: rest ∧ s' = ⟨{ s.bg with queue := rest }, .idle⟩ ∧ o = [.taken 0 reply, .ret v] := by
  cases cl with
  | read addr =>
    have h : s.api = .reading addr.toU16 dl := h
    obtain ⟨hm, i, hi, hdst, rfl⟩ : reply.msgCode = 0x29 ∧ ∃ i, LDataInd.fromCemi reply = .ok i ∧ i.lData.dest = addr.toU16 ∧ v = .value i.value := ha
    have hns : ¬ Skipped addr.toU16 reply := by simp [Skipped, hm, hi, hdst, codeLDataInd]
    cases ht
    case readTimeout h1 h2 => rw [h] at h1; cases h1; omega
    case readGone h1 h2 h3 => rw [hg h2] at h3; cases h3
    case readSkip h1 h2 h3 =>
      rw [h] at h1; cases h1
      rcases hq _ _ h2 with h4 | rfl
      · exact .inl ⟨_, _, _, h2, h4, rfl, rfl, rfl, rfl⟩
      · exact absurd h3 hns
    case readBad h1 h2 h3 h4 =>
      rcases hq _ _ h2 with (h5 | ⟨i', h5, -⟩) | rfl
      · exact absurd h3 h5
      · rw [h5] at h4; cases h4
      · rw [hi] at h4; cases h4
    case readValue h1 h2 h3 h4 h5 =>
      rw [h] at h1; cases h1
      rcases hq _ _ h2 with (h6 | ⟨i', h6, h7⟩) | rfl
      · exact absurd h3 h6
      · rw [h6] at h4; cases h4; exact absurd h5 h7
      · rw [hi] at h4; cases h4; exact .inr ⟨_, h2, rfl, rfl⟩
    case cancel => exact absurd (by simp) hf
    all_goals simp_all [looksUp]
  | write addr val small =>
    have h : s.api = .writing dl := h
    obtain ⟨hm, rfl⟩ : reply.msgCode = 0x2e ∧ v = .unit := ha
    have hq : ∀ c rest, s.bg.queue = c :: rest → c = reply := fun c rest h => (hq c rest h).elim False.elim id
    cases ht
    case writeTimeout h1 h2 => rw [h] at h1; cases h1; omega
    case writeGone h1 h2 h3 => rw [hg h2] at h3; cases h3
    case writeOk h1 h2 h3 => have := hq _ _ h2; subst this; exact .inr ⟨_, h2, rfl, rfl⟩
    case writeBad h1 h2 h3 => have := hq _ _ h2; subst this; exact absurd hm h3
    case cancel => exact absurd (by simp) hf
    all_goals (clear hq; simp_all [looksUp])
  | _ => exact ha.elim

theorem Unreplied.api' {m : Mode} {R : Nat} {Pa : Cemi → Prop} {cl : Call} {reply : Cemi} {t : Nat} {v : Ret} {s s' : Sys} {o : List Obs}
    (h : Unreplied m R Pa cl t s) (hR : R < 10000) (ha : Suits Pa cl reply v) (ht : ApiTr m s s' o) (hf : Fine m Pa o) :
    Unreplied m R Pa cl t s' ∧ returned o = [] ∧ apiSent o = [] := by
  obtain ⟨k1, k2, k3, k4, k5, dl, h1, h2⟩ := h
  rcases awaits_step h2 ha.ans (by omega) (fun c rest h => .inl (ha.pass c (k2 c (by simp [h])))) (fun _ => k1.notGone) ht hf.kept with
    ⟨c, rest, dl', g1, g2, g3, g4, g5, rfl⟩ | ⟨rest, g1, g2, rfl⟩
  · rw [g3]
    exact ⟨⟨k1, fun c hm => k2 c (by simp [g1, hm]), k3, k4, k5, dl', by omega, g4⟩, rfl, rfl⟩
  · exact absurd (ha.pass _ (k2 reply (by simp [g1]))) (answer_not_passed ha.ans)

theorem ReplyComing.bg {m : Mode} {R : Nat} {Pa : Cemi → Prop} {cl : Call} {reply : Cemi} {t : Nat} {s : Sys} {b : Bg} {e : BgEv} {o : List Obs}
    (h : ReplyComing m R Pa cl reply t s) (hb : bgStep .client m s.bg e = some (b, o)) (hf : Fine m Pa o) :
    ReplyComing m R Pa cl reply t { s with bg := b } ∧ apiSent o = [] ∧ returned o = [] := by
  obtain ⟨k0, k1, k2, k3, ⟨k4, k5⟩ | ⟨k4, pre, post, k5, k6, k7⟩⟩ := h
  · obtain ⟨g, ⟨h1, h2⟩ | ⟨h1, h2⟩⟩ := k4.task k1 (bgStep_tr hb) hf
    · exact ⟨⟨by simpa [g.conn] using k0, by simpa [g.rxOpen] using k1, by simpa [g.now] using k2, k3, .inl ⟨h1, by simpa [h2] using k5⟩⟩, g.sent, g.returned⟩
    · exact ⟨⟨by simpa [g.conn] using k0, by simpa [g.rxOpen] using k1, by simpa [g.now] using k2, k3,
        .inr ⟨.inl h1, s.bg.queue, [], h2, k5, by simp⟩⟩, g.sent, g.returned⟩
  · obtain ⟨g, h1, h2⟩ := k4.task k0 k1 hb hf
    refine ⟨⟨by simpa [g.conn] using k0, by simpa [g.rxOpen] using k1, by simpa [g.now] using k2, k3, .inr ⟨h1, ?_⟩⟩, g.sent, g.returned⟩
    rcases h2 with h2 | ⟨c, hc, h2⟩
    · exact ⟨pre, post, by simp [h2, k5], k6, k7⟩
    · refine ⟨pre, post ++ [c], by simp [h2, k5], k6, ?_⟩
      intro c' hm
      rcases List.mem_append.1 hm with hm | hm
      · exact k7 _ hm
      · rw [List.mem_singleton.1 hm]; exact hc

theorem ReplyComing.api' {m : Mode} {R : Nat} {Pa : Cemi → Prop} {cl : Call} {reply : Cemi} {t : Nat} {v : Ret} {s s' : Sys} {o : List Obs}
    (h : ReplyComing m R Pa cl reply t s) (hR : R < 10000) (ha : Suits Pa cl reply v) (ht : ApiTr m s s' o) (hf : Fine m Pa o) :
    (ReplyComing m R Pa cl reply t s' ∧ returned o = [] ∧ apiSent o = []) ∨ (o = [.taken 0 reply, .ret v] ∧ AtRest m Pa s') := by
  obtain ⟨k0, k1, k2, ⟨dl, h1, h2⟩, k4⟩ := h
  rcases awaits_step h2 ha.ans (by omega) (fun c rest h => by
      rcases k4 with ⟨-, h3⟩ | ⟨-, pre, post, h3, h4, -⟩
      · exact .inl (ha.pass _ (h3 c (by simp [h])))
      · rw [h3] at h
        cases pre with
        | nil => cases h; exact .inr rfl
        | cons a l => cases h; exact .inl (ha.pass _ (h4 _ (by simp)))) (fun hn => by
      rcases k4 with ⟨h3, -⟩ | ⟨h3, -⟩
      · exact h3.notGone
      · exact h3.notGone) ht hf.kept with
    ⟨c, rest, dl', g1, g2, g3, g4, g5, rfl⟩ | ⟨rest, g1, g2, rfl⟩
  · left
    rw [g3]
    refine ⟨⟨k0, k1, k2, ⟨dl', by omega, g4⟩, ?_⟩, rfl, rfl⟩
    rcases k4 with ⟨h3, h4⟩ | ⟨h0, pre, post, h3, h4, h5⟩
    · exact .inl ⟨h3, fun c hm => h4 c (by simp [g1, hm])⟩
    · cases pre with
      | nil => rw [h3] at g1; cases g1; exact absurd g2 (answer_not_passed ha.ans)
      | cons a l =>
        rw [h3] at g1; cases g1
        exact .inr ⟨h0, l, post, rfl, fun c hm => h4 c (by simp [hm]), h5⟩
  · refine .inr ⟨rfl, ?_⟩
    rw [g2]
    rcases k4 with ⟨h3, h4⟩ | ⟨h0, pre, post, h3, h4, h5⟩
    · exact absurd (ha.pass _ (h4 reply (by simp [g1]))) (answer_not_passed ha.ans)
    · cases pre with
      | nil =>
        rw [h3] at g1; cases g1
        exact ⟨h0, h5, k0, k1, rfl⟩
      | cons a l =>
        rw [h3] at g1; cases g1
        exact absurd (ha.pass _ (h4 reply (by simp))) (answer_not_passed ha.ans)

theorem readMsg_isSome (s : Sys) (a : U16) (c : Cemi) : (readMsg s a c).isSome = true := by
  unfold readMsg finish
  repeat' split
  all_goals rfl

theorem writeMsg_isSome (s : Sys) (c : Cemi) : (writeMsg s c).isSome = true := by
  unfold writeMsg finish
  repeat' split
  all_goals rfl

theorem ReplyComing.notWait {m : Mode} {R : Nat} {Pa : Cemi → Prop} {cl : Call} {reply : Cemi} {t : Nat} {v : Ret} {s : Sys} (h : ReplyComing m R Pa cl reply t s)
    (ha : IsAnswer cl reply v) : acting .client m s.bg = true ∨ callActing m s = true := by
  obtain ⟨-, k1, k2, ⟨dl, h1, h2⟩, k4⟩ := h
  by_cases hq : s.bg.queue = []
  · left
    rcases k4 with ⟨⟨ch, sq, raw, hpc, hc⟩ | hpc, -⟩ | ⟨-, pre, post, h3, h4⟩
    · simp [Knx.acting, bgStep, hpc, hc]
    · simp [Knx.acting, bgStep, hpc, k1, hq]
    · rw [h3] at hq; simp at hq
  · right
    obtain ⟨c, rest, hc⟩ := List.exists_cons_of_ne_nil hq
    cases cl with
    | read addr =>
      have h2 : s.api = .reading addr.toU16 dl := h2
      simp [callActing, apiStep, h2, chanRecv, hc, readMsg_isSome]
    | write addr val small =>
      have h2 : s.api = .writing dl := h2
      simp [callActing, apiStep, h2, chanRecv, hc, writeMsg_isSome]
    | _ => exact ha.elim

theorem Early.notWait {m : Mode} {Pa : Cemi → Prop} {cl : Call} {t : Nat} {s : Sys} (h : Early m Pa cl t s) : acting .client m s.bg = true ∨ callActing m s = true := by
  obtain ⟨k1, k2, k3, k4, k5, k6⟩ := h
  obtain ⟨d, hd⟩ := Option.ne_none_iff_exists'.1 k3
  by_cases hl : connLocked .client s.bg = true
  · left
    rcases k1 with h | ⟨_, _, h⟩ | ⟨_, _, _, _, h, _⟩ | ⟨_, h, _⟩
    · simp [connLocked, h] at hl
    · simp [Knx.acting, bgStep, h]
    · simp [connLocked, h] at hl
    · simp [connLocked, h] at hl
  · right
    have hl : connLocked .client s.bg = false := by simpa using hl
    rcases k6 with ⟨cemi, hlen, ha | ⟨n, ha⟩⟩ | ⟨p, ha⟩
    · simp [callActing, apiStep, ha, withConn, hl, hd]
    · have : ∃ p, (TunnelingRequest.mk d.channel n cemi).packet m = .ok p := by
        cases h : (TunnelingRequest.mk d.channel n cemi).packet m with
        | ok p => exact ⟨p, rfl⟩
        | err => exact absurd h packet_ne_err
        | panic =>
          rw [request_panic_iff] at h
          have h2 := h.2
          simp only at h2
          omega
      obtain ⟨p, hp⟩ := this
      simp [callActing, apiStep, ha, withConn, hl, hd, hp]
    · have : (apiStep m s .sendOk).isSome = true := by
        simp only [apiStep, ha]
        cases cl <;> simp
      simp [callActing, this]

theorem Replying.step {m : Mode} {R : Nat} {Pa : Cemi → Prop} {cl : Call} {reply : Cemi} {t : Nat} {v : Ret} {s s' : Sys} {w : Option Nat} {e : Ev} {o : List Obs}
    (h : Replying m R Pa cl reply t s w) (hR : R < 10000) (ha : Suits Pa cl reply v) (he : ∀ d, e ≠ .delay d) (hs : Knx.step m s e = some (s', o))
    (hf : Fine m Pa o) : StepsOn m R Pa cl reply t v s' (if apiSent o = [] then w else some s.bg.now) o := by
  cases e with
  | delay d => exact absurd rfl (he d)
  | bg e =>
    simp only [Knx.step, Option.map_eq_some_iff, Prod.exists, Prod.mk.injEq] at hs
    obtain ⟨b, o', hb, rfl, rfl⟩ := hs
    rcases h with ⟨rfl, h⟩ | ⟨rfl, h⟩ | ⟨rfl, h⟩
    · obtain ⟨h1, h2, h3⟩ := h.bg hb hf
      rw [if_pos h2]
      exact .inl ⟨.inl ⟨rfl, h1⟩, h3⟩
    · obtain ⟨h1, h2, h3⟩ := h.bg hb hf
      rw [if_pos h2]
      exact .inl ⟨.inr (.inl ⟨rfl, h1⟩), h3⟩
    · obtain ⟨h1, h2, h3⟩ := h.bg hb hf
      rw [if_pos h2]
      exact .inl ⟨.inr (.inr ⟨rfl, h1⟩), h3⟩
  | api e =>
    have ht := apiStep_tr hs
    rcases h with ⟨rfl, h⟩ | ⟨rfl, h⟩ | ⟨rfl, h⟩
    · exact h.api' ha.ans ht hf
    · obtain ⟨h1, h2, h3⟩ := h.api' hR ha ht hf
      rw [if_pos h3]
      exact .inl ⟨.inr (.inl ⟨rfl, h1⟩), h2⟩
    · rcases h.api' hR ha ht hf with ⟨h1, h2, h3⟩ | ⟨rfl, h1⟩
      · rw [if_pos h3]
        exact .inl ⟨.inr (.inr ⟨rfl, h1⟩), h2⟩
      · exact .inr ⟨[.taken 0 reply], rfl, rfl, rfl, h1⟩

theorem Unreplied.reply {m : Mode} {R : Nat} {Pa : Cemi → Prop} {cl : Call} {reply : Cemi} {t : Nat} {s s' : Sys} {d : Bytes} {o : List Obs} (h : Unreplied m R Pa cl t s)
    (hc : Carries m d reply) (hs : Knx.step m s (.bg (.dgram d)) = some (s', o)) : ReplyComing m R Pa cl reply t s' ∧ returned o = [] := by
  simp only [Knx.step, Option.map_eq_some_iff, Prod.exists, Prod.mk.injEq] at hs
  obtain ⟨b, o', hb, rfl, rfl⟩ := hs
  obtain ⟨k1, k2, k3, k4, k5, k6⟩ := h
  obtain ⟨ch, sq, raw, h1, h2⟩ := carries_ack hc
  rcases k1 with hpc | ⟨_, _, hpc⟩ | ⟨_, _, _, _, hpc, _⟩ | ⟨_, hpc, _⟩
  · simp only [bgStep, reduceCtorEq, if_false, hpc, Option.some.injEq, Prod.mk.injEq, h1] at hb
    obtain ⟨rfl, rfl⟩ := hb
    exact ⟨⟨k3, k4, k5, k6, .inl ⟨.inl ⟨_, _, _, rfl, h2⟩, k2⟩⟩, rfl⟩
  all_goals simp [bgStep, hpc] at hb

theorem Replying.now {m : Mode} {R : Nat} {Pa : Cemi → Prop} {cl : Call} {reply : Cemi} {t : Nat} {s : Sys} {w : Option Nat} (h : Replying m R Pa cl reply t s w) :
    s.bg.now ≤ t + R := by
  rcases h with ⟨-, h⟩ | ⟨-, h⟩ | ⟨-, h⟩
  · rw [h.now]; omega
  · exact h.now.2
  · exact h.now.2

theorem AtRest.step {m : Mode} {Pa : Cemi → Prop} {s s' : Sys} {e : Ev} {o : List Obs} (h : AtRest m Pa s) (he : ∀ d, e ≠ .delay d)
    (hs : Knx.step m s e = some (s', o)) (hf : Fine m Pa o) : AtRest m Pa s' ∧ apiSent o = [] ∧ returned o = [] := by
  cases e with
  | delay d => exact absurd rfl (he d)
  | bg e =>
    simp only [Knx.step, Option.map_eq_some_iff, Prod.exists, Prod.mk.injEq] at hs
    obtain ⟨b, o', hb, rfl, rfl⟩ := hs
    obtain ⟨g, h1, h2⟩ := h.task.task h.conn h.rxOpen hb hf
    refine ⟨⟨h1, ?_, by rw [g.conn]; exact h.conn, by rw [g.rxOpen]; exact h.rxOpen, h.api⟩, g.sent, g.returned⟩
    rcases h2 with h2 | ⟨c, hc, h2⟩ <;> simp only [h2]
    · exact h.queue
    · intro c' hm
      rcases List.mem_append.1 hm with hm | hm
      · exact h.queue _ hm
      · rw [List.mem_singleton.1 hm]; exact hc
  | api e =>
    have ha := h.api
    cases apiStep_tr hs
    case callTunnel c _ _ _ _ => exact absurd (by simp) (hf.one c)
    case callErr c _ _ _ => exact absurd (by simp) (hf.one c)
    case callPanic c _ _ _ => exact absurd (by simp) (hf.one c)
    case callStatus => exact absurd (by simp) (hf.one .status)
    case callDisc => exact absurd (by simp) (hf.one .disconnect)
    case drop => exact absurd (by simp) hf.used
    all_goals simp_all [looksUp]

theorem returned_app (a b : List Obs) : returned (a ++ b) = returned a ++ returned b := by simp [returned]

theorem AtRest.run {m : Mode} {R : Nat} {Pa : Cemi → Prop} {reply : Cemi} {s s' : Sys} {w w' : Option Nat} {tr : List Obs}
    (hr : Replied m R Pa reply s w tr s' w') (hw : w = none) (h : AtRest m Pa s) : AtRest m Pa s' ∧ returned tr = [] ∧ w' = none := by
  induction hr with
  | nil => exact ⟨h, rfl, hw⟩
  | wait d _ _ _ _ ih => exact ih hw ⟨h.task, h.queue, h.conn, h.rxOpen, h.api⟩
  | reply => cases hw
  | step e he hs hf _ ih =>
    obtain ⟨h1, h2, h3⟩ := h.step he hs hf
    rw [if_pos h2] at ih
    obtain ⟨g1, g2, g3⟩ := ih hw h1
    exact ⟨g1, by rw [returned_app, h3, g2]; rfl, g3⟩

theorem Replying.run {m : Mode} {R : Nat} {Pa : Cemi → Prop} {cl : Call} {reply : Cemi} {t : Nat} {v : Ret} {s s' : Sys} {w w' : Option Nat}
    {tr : List Obs} (hr : Replied m R Pa reply s w tr s' w') (h : Replying m R Pa cl reply t s w) (hR : R < 10000) (ha : Suits Pa cl reply v) :
    (returned tr = [] ∧ Replying m R Pa cl reply t s' w') ∨
      ((∃ x y, tr = x ++ .ret v :: y ∧ returned x = [] ∧ returned y = []) ∧ AtRest m Pa s' ∧ w' = none) := by
  have app : ∀ {a b : List Obs} {P Q : Prop}, returned a = [] →
      ((returned b = [] ∧ P) ∨ ((∃ x y, b = x ++ .ret v :: y ∧ returned x = [] ∧ returned y = []) ∧ Q)) →
      (returned (a ++ b) = [] ∧ P) ∨ ((∃ x y, a ++ b = x ++ .ret v :: y ∧ returned x = [] ∧ returned y = []) ∧ Q) := by
    rintro a b P Q h0 (⟨h1, h2⟩ | ⟨⟨x, y, rfl, h1, h2⟩, h3⟩)
    · exact .inl ⟨by rw [returned_app, h0, h1]; rfl, h2⟩
    · exact .inr ⟨⟨a ++ x, y, by simp, by rw [returned_app, h0, h1]; rfl, h2⟩, h3⟩
  induction hr with
  | nil => exact .inl ⟨rfl, h⟩
  | @wait s s' w w' tr d h1 h2 h3 _ ih =>
    rcases h with ⟨rfl, h⟩ | ⟨rfl, h⟩ | ⟨rfl, h⟩
    · rcases h.notWait with h | h
      · rw [h1] at h; cases h
      · rw [h2] at h; cases h
    · apply ih
      have := h3 t rfl
      exact .inr (.inl ⟨rfl, h.task, h.queue, h.conn, h.rxOpen, ⟨Nat.le_add_right_of_le h.now.1, this⟩, h.api⟩)
    · rcases h.notWait ha.ans with h | h
      · rw [h1] at h; cases h
      · rw [h2] at h; cases h
  | @reply s s1 s2 t' w' o tr d h1 h2 _ ih =>
    rcases h with ⟨h, -⟩ | ⟨-, h⟩ | ⟨h, -⟩
    · cases h
    · obtain ⟨h3, h4⟩ := h.reply h1 h2
      exact app h4 (ih (.inr (.inr ⟨rfl, h3⟩)))
    · cases h
  | @step s s1 s2 w w' o tr e h1 h2 h3 hrest ih =>
    rcases h.step hR ha h1 h2 h3 with ⟨h4, h5⟩ | ⟨x, rfl, h5, h6, h7⟩
    · exact app h5 (ih h4)
    · obtain ⟨g1, g2, g3⟩ := h7.run hrest h6
      exact .inr ⟨⟨x, tr, by simp, h5, g2⟩, g1, g3⟩

/-- The call is started on a standing connection. -/
theorem early_start {m : Mode} {Pa : Cemi → Prop} {cl : Call} {reply : Cemi} {v : Ret} {s s1 : Sys} (hr : AtRest m Pa s)
    (ha : IsAnswer cl reply v) (hl : ∀ addr x, cl = .write addr x false → x.length ≤ 253)
    (h1 : Knx.step m s (.api (.call cl)) = some (s1, [.call cl])) : Early m Pa cl s.bg.now s1 := by
  have ht := apiStep_tr h1
  have hcl : ∀ cemi, tunnelCemi m cl = some (.ok cemi) → cemi.length ≤ 60000 := by
    intro cemi h
    cases cl with
    | read addr =>
      simp only [tunnelCemi, readCemi_eq, Option.some.injEq, Res.ok.injEq] at h
      subst h
      simp [lDataReqFrame, apduRead, word]
    | write addr x small =>
      simp only [tunnelCemi, Option.some.injEq] at h
      rw [writeCemi_length h]
      cases small with
      | true => simp
      | false => have := hl addr x rfl; simp; omega
    | _ => exact ha.elim
  cases ht
  case callTunnel cemi g1 g2 g3 => exact ⟨hr.task, hr.queue, hr.conn, g2, rfl, .inl ⟨_, hcl _ g3, .inl rfl⟩⟩
  case callStatus => exact ha.elim
  case callDisc => exact ha.elim

theorem call_rxOpen {m : Mode} {cl : Call} {reply : Cemi} {v : Ret} {s s1 : Sys} (ha : IsAnswer cl reply v)
    (h1 : Knx.step m s (.api (.call cl)) = some (s1, [.call cl])) : s.bg.rxOpen = true := by
  cases apiStep_tr h1
  case callTunnel g2 _ => exact g2
  case callStatus => exact ha.elim
  case callDisc => exact ha.elim

theorem call_idle {m : Mode} {cl : Call} {reply : Cemi} {v : Ret} {s s1 : Sys} (ha : IsAnswer cl reply v)
    (h1 : Knx.step m s (.api (.call cl)) = some (s1, [.call cl])) : s.api = .idle := by
  cases apiStep_tr h1
  case callTunnel g1 _ _ => exact g1
  case callStatus => exact ha.elim
  case callDisc => exact ha.elim

/-- C115: a read or write that is started on a standing connection, when no telegram it could mistake for its reply is queued, succeeds in every
schedule if its request is replied to within `R` < 10 seconds: it returns what it should before anything else, and until it has returned at most `R`
milliseconds pass. For a read the reply is an indication for the group, and whatever else arrives before is passed over; for a write it is a
confirmation. -/
theorem C115_succeeds {m : Mode} {R : Nat} {cl : Call} {reply : Cemi} {v : Ret} {s s1 s2 : Sys} {w : Option Nat} {tr tr' : List Obs} (_h : Exec m s tr)
    (hR : R < 10000) (hpc : s.bg.pc = .recv) (hc : s.bg.conn ≠ none) (hq : ∀ c ∈ s.bg.queue, Passes cl c) (ha : IsAnswer cl reply v)
    (hl : ∀ addr x, cl = .write addr x false → x.length ≤ 253) (h1 : Knx.step m s (.api (.call cl)) = some (s1, [.call cl]))
    (hr : Replied m R (Passes cl) reply s1 none tr' s2 w) :
    (returned tr' = [] ∧ s2.bg.now ≤ s.bg.now + R) ∨ ∃ x y, tr' = x ++ .ret v :: y ∧ returned x = [] := by
  rcases Replying.run hr (.inl ⟨rfl, early_start ⟨.inl hpc, hq, hc, call_rxOpen ha h1, call_idle ha h1⟩ ha hl h1⟩) hR ⟨ha, fun _ h => h⟩ with
    ⟨h2, h3⟩ | ⟨⟨x, y, h2, h3, h4⟩, -⟩
  · exact .inl ⟨h2, h3.now⟩
  · exact .inr ⟨x, y, h2, h3⟩

/-- There is a run to the end of the call. -/
def Finishes (m : Mode) (R : Nat) (Pa : Cemi → Prop) (reply : Cemi) (v : Ret) (s : Sys) (w : Option Nat) : Prop :=
  ∃ x s' w', Replied m R Pa reply s w (x ++ [.ret v]) s' w' ∧ returned x = []

theorem Finishes.step {m : Mode} {R : Nat} {Pa : Cemi → Prop} {reply : Cemi} {v : Ret} {s s' : Sys} {w : Option Nat} {o : List Obs} (e : Ev)
    (he : ∀ d, e ≠ .delay d) (hs : Knx.step m s e = some (s', o)) (hf : Fine m Pa o) (hr : returned o = [])
    (h : Finishes m R Pa reply v s' (if apiSent o = [] then w else some s.bg.now)) : Finishes m R Pa reply v s w := by
  obtain ⟨x, s2, w2, h1, h2⟩ := h
  refine ⟨o ++ x, s2, w2, ?_, by simp [returned, List.filterMap_append] at hr h2 ⊢; exact ⟨hr, h2⟩⟩
  rw [List.append_assoc]
  exact .step e he hs hf h1

theorem Finishes.bg {m : Mode} {R : Nat} {Pa : Cemi → Prop} {reply : Cemi} {v : Ret} {s : Sys} {b : Bg} {w : Option Nat} {o : List Obs} (e : BgEv)
    (hs : bgStep .client m s.bg e = some (b, o)) (hf : Fine m Pa o)
    (h : Finishes m R Pa reply v ⟨b, s.api⟩ w) : Finishes m R Pa reply v s w := by
  have h1 : returned o = [] := (bgStep_tr hs).facts.returned
  have h2 : apiSent o = [] := by cases bgStep_tr hs <;> rfl
  refine .step (.bg e) (by simp) (s' := ⟨b, s.api⟩) (o := o) ?_ hf h1 (by rw [if_pos h2]; exact h)
  simp [Knx.step, hs]

theorem fine_tx (m : Mode) (Pa : Cemi → Prop) (w : Who) (p : Bytes) : Fine m Pa [.tx w p] := by constructor <;> simp
theorem fine_queued (m : Mode) (Pa : Cemi → Prop) (c : Cemi) : Fine m Pa [.queued c] := by constructor <;> simp
theorem fine_nil (m : Mode) (Pa : Cemi → Prop) : Fine m Pa [] := by constructor <;> simp
theorem fine_drew (m : Mode) (Pa : Cemi → Prop) (n : U8) : Fine m Pa [.drew n] := by constructor <;> simp
theorem fine_taken (m : Mode) (Pa : Cemi → Prop) (i : Nat) (c : Cemi) : Fine m Pa [.taken i c] := by constructor <;> simp
theorem fine_ret (m : Mode) (Pa : Cemi → Prop) (i : Nat) (c : Cemi) (v : Ret) : Fine m Pa [.taken i c, .ret v] := by constructor <;> simp

/-- A waiting call takes the next telegram. -/
theorem awaits_take {m : Mode} {cl : Call} {dl : Nat} {s : Sys} {c : Cemi} {rest : List Cemi} (h : Awaits cl dl s.api)
    (hq : s.bg.queue = c :: rest) : ∃ s' o, apiStep m s .run = some (s', o) ∧ Obs.cancelled ∉ o := by
  unfold Awaits at h
  split at h
  · obtain ⟨⟨s', o⟩, hx⟩ := Option.isSome_iff_exists.1 (readMsg_isSome { s with bg := { s.bg with queue := rest } } ‹KnxAddress›.toU16 c)
    refine ⟨s', o, by simp only [apiStep, h, chanRecv, hq, reduceCtorEq, if_false]; rw [← hx]; simp [h], ?_⟩
    unfold readMsg finish at hx
    intro hm
    revert hx
    repeat' split
    all_goals (intro hx; cases hx; simp at hm)
  · obtain ⟨⟨s', o⟩, hx⟩ := Option.isSome_iff_exists.1 (writeMsg_isSome { s with bg := { s.bg with queue := rest } } c)
    refine ⟨s', o, by simp only [apiStep, h, chanRecv, hq, reduceCtorEq, if_false]; rw [← hx]; simp [h], ?_⟩
    unfold writeMsg finish at hx
    intro hm
    revert hx
    repeat' split
    all_goals (intro hx; cases hx; simp at hm)

/-- It skips it, or ends on the reply. -/
theorem awaits_taken {m : Mode} {R : Nat} {Pa : Cemi → Prop} {cl : Call} {reply : Cemi} {dl : Nat} {v : Ret} {s : Sys} {w : Option Nat} {c : Cemi} {rest : List Cemi}
    (h : Awaits cl dl s.api) (ha : Suits Pa cl reply v) (hd : s.bg.now < dl) (hq : s.bg.queue = c :: rest) (hc : Pa c ∨ c = reply)
    (go : Pa c → ∀ a, Awaits cl (s.bg.now + 10000) a → Finishes m R Pa reply v ⟨{ s.bg with queue := rest }, a⟩ w) :
    Finishes m R Pa reply v s w := by
  obtain ⟨s', o, h1, h2⟩ := awaits_take (m := m) h hq
  rcases awaits_step h ha.ans hd (fun c' rest' h => by rw [hq] at h; cases h; exact hc.imp_left (ha.pass _)) (fun h => by rw [hq] at h; cases h) (apiStep_tr h1) h2 with
    ⟨c', rest', dl', g1, g2, g3, g4, rfl, rfl⟩ | ⟨rest', g1, -, rfl⟩
  · rw [hq] at g1; cases g1
    refine .step (.api .run) (by simp) h1 (fine_taken _ _ _ _) rfl ?_
    rw [g3]
    rcases hc with hc | rfl
    · exact go hc _ g4
    · exact absurd g2 (answer_not_passed ha.ans)
  · refine ⟨[.taken 0 reply], s', w, ?_, rfl⟩
    have := Replied.step (R := R) (reply := reply) (w := w) (.api .run) (by simp) h1 (fine_ret m Pa 0 reply v) (.nil _ _)
    simpa [apiSent] using this

theorem finishes_queued {m : Mode} {R : Nat} {Pa : Cemi → Prop} {cl : Call} {reply : Cemi} {v : Ret} (ha : Suits Pa cl reply v) (post : List Cemi) :
    ∀ (pre : List Cemi) (s : Sys) (dl : Nat), s.bg.queue = pre ++ reply :: post → (∀ c ∈ pre, Pa c) → s.bg.now < dl → Awaits cl dl s.api →
      Finishes m R Pa reply v s none := by
  intro pre
  induction pre with
  | nil =>
    intro s dl hq _ hd h
    refine awaits_taken h ha hd hq (.inr rfl) (fun hp => ?_)
    exact absurd (ha.pass _ hp) (answer_not_passed ha.ans)
  | cons a l ih =>
    intro s dl hq hp hd h
    refine awaits_taken h ha hd hq (.inl (hp a (by simp))) (fun _ a' ha' => ih _ (s.bg.now + 10000) rfl (fun c hm => hp c (by simp [hm])) ?_ ha')
    simp

theorem finishes_push {m : Mode} {R : Nat} {Pa : Cemi → Prop} {cl : Call} {reply : Cemi} {v : Ret} (ha : Suits Pa cl reply v) :
    ∀ (q : List Cemi) (s : Sys) (dl : Nat), s.bg.queue = q → s.bg.pc = .push reply → s.bg.rxOpen = true → (∀ c ∈ q, Pa c) → s.bg.now < dl →
      Awaits cl dl s.api → Finishes m R Pa reply v s none := by
  intro q
  induction q with
  | nil =>
    intro s dl hq hpc ho _ hd h
    refine .bg (o := [.queued reply]) .run (b := { s.bg with queue := [reply], pc := .recv }) (by simp [bgStep, hpc, ho, hq]) (fine_queued _ _ _) ?_
    exact finishes_queued ha [] [] _ dl rfl (by simp) hd h
  | cons a l ih =>
    intro s dl hq hpc ho hp hd h
    refine awaits_taken h ha hd hq (.inl (hp a (by simp))) (fun _ a' ha' =>
      ih _ (s.bg.now + 10000) rfl hpc ho (fun c hm => hp c (by simp [hm])) ?_ ha')
    simp

theorem ReplyComing.finishes {m : Mode} {R : Nat} {Pa : Cemi → Prop} {cl : Call} {reply : Cemi} {t : Nat} {v : Ret} {s : Sys} (h : ReplyComing m R Pa cl reply t s)
    (hR : R < 10000) (ha : Suits Pa cl reply v) : Finishes m R Pa reply v s none := by
  obtain ⟨-, k1, k2, ⟨dl, h1, h2⟩, k4⟩ := h
  rcases k4 with ⟨⟨ch, sq, raw, hpc, hc⟩ | hpc, hq⟩ | ⟨-, pre, post, h3, h4, -⟩
  · refine .bg .sendOk (b := { s.bg with pc := .push reply }) (o := [.tx .task (TunnelingAck.mk ch sq 0).packet]) (by simp [bgStep, hpc, hc])
      (fine_tx _ _ _ _) ?_
    exact finishes_push ha _ _ dl rfl rfl k1 hq (by simp only; omega) h2
  · exact finishes_push ha _ _ dl rfl hpc k1 hq (by omega) h2
  · exact finishes_queued ha post pre s dl h3 h4 (by omega) h2

/-- How far the task is from receiving, and what is queued. -/
def workLeft (s : Sys) : Nat :=
  s.bg.queue.length + match s.bg.pc with
    | .ackReq _ _ _ => 3
    | .push _ => 2
    | .hb _ _ => 1
    | _ => 0

theorem Unreplied.finishes {m : Mode} {R : Nat} {Pa : Cemi → Prop} {cl : Call} {reply : Cemi} {t : Nat} {v : Ret} {d : Bytes} (hR : R < 10000) (ha : Suits Pa cl reply v)
    (hd : Carries m d reply) : ∀ (n : Nat) (s : Sys), workLeft s ≤ n → Unreplied m R Pa cl t s → Finishes m R Pa reply v s (some t) := by
  intro n
  induction n with
  | zero =>
    intro s hn h
    have hpc : s.bg.pc = .recv := by
      rcases h.task with h1 | ⟨_, _, h1⟩ | ⟨_, _, _, _, h1, _⟩ | ⟨_, h1, _⟩
      · exact h1
      all_goals simp [workLeft, h1] at hn
    obtain ⟨ch, sq, raw, h1, h2⟩ := carries_ack hd
    have hs : Knx.step m s (.bg (.dgram d)) = some (⟨{ s.bg with pc := .ackReq ch sq raw }, s.api⟩, [.rx d]) := by
      simp [Knx.step, bgStep, hpc, h1, endObs]
    obtain ⟨x, s2, w2, g1, g2⟩ := (h.reply hd hs).1.finishes hR ha
    exact ⟨[.rx d] ++ x, s2, w2, by simpa using Replied.reply d hd hs g1, by simpa [returned] using g2⟩
  | succ n ih =>
    intro s hn h
    obtain ⟨dl, g1, g2⟩ := h.api
    have h5 := h.now
    by_cases hq : s.bg.queue = []
    · rcases h.task with h1 | ⟨ch, ep, h1⟩ | ⟨ch, sq, raw, c, h1, hc, _⟩ | ⟨c, h1, _⟩
      · exact ih s (by simp [workLeft, h1, hq]) h
      · have hb : bgStep .client m s.bg .sendOk = some ({ s.bg with pc := .recv }, [.tx .task (ConnectionstateRequest.mk ch ep).packet]) := by
          simp [bgStep, h1]
        refine .bg _ hb (fine_tx _ _ _ _) (ih _ ?_ (h.bg hb (fine_tx _ _ _ _)).1)
        simp [workLeft, h1, hq]
      · have hb : bgStep .client m s.bg .sendOk = some ({ s.bg with pc := .push c }, [.tx .task (TunnelingAck.mk ch sq 0).packet]) := by
          simp [bgStep, h1, hc]
        refine .bg _ hb (fine_tx _ _ _ _) (ih _ ?_ (h.bg hb (fine_tx _ _ _ _)).1)
        simp [workLeft, h1, hq] at hn ⊢; omega
      · have hb : bgStep .client m s.bg .run = some ({ s.bg with queue := [c], pc := .recv }, [.queued c]) := by
          simp [bgStep, h1, hq, h.rxOpen]
        refine .bg _ hb (fine_queued _ _ _) (ih _ ?_ (h.bg hb (fine_queued _ _ _)).1)
        simp [workLeft, h1, hq] at hn ⊢; omega
    · obtain ⟨c, rest, hc⟩ := List.exists_cons_of_ne_nil hq
      refine awaits_taken g2 ha (by omega) hc (.inl (h.queue c (by simp [hc]))) (fun _ a ha' => ih _ ?_ ?_)
      · simp only [workLeft, hc, List.length_cons] at hn ⊢; omega
      · exact ⟨h.task, fun c hm => h.queue c (by simp [hc, hm]), h.conn, h.rxOpen, h.now, _, by omega, ha'⟩

theorem Early.finishes {m : Mode} {R : Nat} {Pa : Cemi → Prop} {cl : Call} {reply : Cemi} {t : Nat} {v : Ret} {d : Bytes} {s : Sys} (h : Early m Pa cl t s) (hR : R < 10000)
    (ha : Suits Pa cl reply v) (hd : Carries m d reply) : Finishes m R Pa reply v s none := by
  have next : ∀ {s s' : Sys} {e : ApiEv} {o : List Obs}, Early m Pa cl t s → apiStep m s e = some (s', o) → Fine m Pa o → returned o = [] →
      (Early m Pa cl t s' → Finishes m R Pa reply v s' none) → Finishes m R Pa reply v s none := by
    intro s s' e o h hs hf hr go
    refine .step (.api e) (by simp) hs hf hr ?_
    rcases h.api' (R := R) ha.ans (apiStep_tr hs) hf with ⟨⟨g1, g2⟩ | ⟨g1, g2⟩ | ⟨g1, g2⟩, -⟩ | ⟨x, rfl, -⟩
    · rw [g1]; exact go g2
    · rw [g1]; exact g2.finishes hR ha hd _ _ (Nat.le_refl _)
    · rw [g1]; exact g2.finishes hR ha
    · simp [returned] at hr
  have send : ∀ {s : Sys} {p : Bytes}, Early m Pa cl t s → s.api = .sendReq cl p → Finishes m R Pa reply v s none := by
    intro s p h hp
    have : ∃ s', apiStep m s .sendOk = some (s', [.tx .api p]) := by
      simp only [apiStep, hp]; cases cl <;> simp
    obtain ⟨s', hs⟩ := this
    refine .step (.api .sendOk) (by simp) hs (fine_tx _ _ _ _) rfl ?_
    rcases h.api' (R := R) ha.ans (apiStep_tr hs) (fine_tx _ _ _ _) with ⟨⟨g1, -⟩ | ⟨g1, g2⟩ | ⟨g1, -⟩, -⟩ | ⟨x, g1, -⟩
    · simp [apiSent] at g1
    · rw [g1]; exact g2.finishes hR ha hd _ _ (Nat.le_refl _)
    · simp [apiSent] at g1
    · have := congrArg List.getLast? g1
      simp at this
  have pick : ∀ {s : Sys} {n : U8} {cemi : Bytes}, Early m Pa cl t s → connLocked .client s.bg = false → cemi.length ≤ 60000 → s.api = .chanId cl n cemi →
      Finishes m R Pa reply v s none := by
    intro s n cemi h hl hlen hp
    obtain ⟨d, hd⟩ := Option.ne_none_iff_exists'.1 h.conn
    have : ∃ p, (TunnelingRequest.mk d.channel n cemi).packet m = .ok p := by
      cases h : (TunnelingRequest.mk d.channel n cemi).packet m with
      | ok p => exact ⟨p, rfl⟩
      | err => exact absurd h packet_ne_err
      | panic =>
        rw [request_panic_iff] at h
        have h2 := h.2
        simp only at h2
        omega
    obtain ⟨p, hp'⟩ := this
    have hs : apiStep m s .run = some ({ s with api := .sendReq cl p }, []) := by simp [apiStep, hp, withConn, hl, hd, hp']
    exact next h hs (fine_nil _ _) rfl (fun h' => send h' rfl)
  have free : ∀ {s : Sys}, Early m Pa cl t s → connLocked .client s.bg = false → Finishes m R Pa reply v s none := by
    intro s h hl
    rcases h.api with ⟨cemi, hlen, hp | ⟨n, hp⟩⟩ | ⟨p, hp⟩
    · obtain ⟨d, hd⟩ := Option.ne_none_iff_exists'.1 h.conn
      have hs : apiStep m s .run = some ({ bg := { s.bg with conn := some { d with seq := d.seq + 1 } }, api := .chanId cl d.seq cemi }, [.drew d.seq]) := by
        simp [apiStep, hp, withConn, hl, hd]
      exact next h hs (fine_drew _ _ _) rfl (fun h' => pick h' hl hlen rfl)
    · exact pick h hl hlen hp
    · exact send h hp
  by_cases hl : connLocked .client s.bg = true
  · rcases h.task with h1 | ⟨ch, ep, h1⟩ | ⟨_, _, _, _, h1, _⟩ | ⟨_, h1, _⟩
    · simp [connLocked, h1] at hl
    · have hb : bgStep .client m s.bg .sendOk = some ({ s.bg with pc := .recv }, [.tx .task (ConnectionstateRequest.mk ch ep).packet]) := by
        simp [bgStep, h1]
      exact .bg _ hb (fine_tx _ _ _ _) (free (h.bg hb (fine_tx _ _ _ _)).1 (by simp [connLocked]))
    · simp [connLocked, h1] at hl
    · simp [connLocked, h1] at hl
  · exact free h (by simpa using hl)

/-- C115: and nothing ever stands in its way: as long as it has not returned, the run can go on to its return. -/
theorem C115_goes_on {m : Mode} {R : Nat} {cl : Call} {reply : Cemi} {v : Ret} {s s1 s2 : Sys} {w : Option Nat} {tr tr' : List Obs} {d : Bytes}
    (_h : Exec m s tr) (hR : R < 10000) (hpc : s.bg.pc = .recv) (hc : s.bg.conn ≠ none) (hq : ∀ c ∈ s.bg.queue, Passes cl c) (ha : IsAnswer cl reply v)
    (hd : Carries m d reply) (hl : ∀ addr x, cl = .write addr x false → x.length ≤ 253) (h1 : Knx.step m s (.api (.call cl)) = some (s1, [.call cl]))
    (hr : Replied m R (Passes cl) reply s1 none tr' s2 w) (hn : returned tr' = []) :
    ∃ x s3 w', Replied m R (Passes cl) reply s2 w (x ++ [.ret v]) s3 w' ∧ returned x = [] := by
  rcases Replying.run hr (.inl ⟨rfl, early_start ⟨.inl hpc, hq, hc, call_rxOpen ha h1, call_idle ha h1⟩ ha hl h1⟩) hR ⟨ha, fun _ h => h⟩ with
    ⟨-, h3⟩ | ⟨⟨x, y, rfl, -⟩, -⟩
  · rcases h3 with ⟨rfl, h⟩ | ⟨rfl, h⟩ | ⟨rfl, h⟩
    · exact h.finishes hR ⟨ha, fun _ h => h⟩ hd
    · exact h.finishes hR ⟨ha, fun _ h => h⟩ hd _ _ (Nat.le_refl _)
    · exact h.finishes hR ⟨ha, fun _ h => h⟩
  · simp [returned] at hn

theorem Fine.part {m : Mode} {Pa : Cemi → Prop} {a b : List Obs} (h : Fine m Pa (a ++ b)) : Fine m Pa a ∧ Fine m Pa b :=
  ⟨⟨fun x => h.receives (by simp [x]), fun w p x => h.sends w p (by simp [x]), fun x => h.kept (by simp [x]), fun x => h.passed (by simp [x]),
    fun c x => h.one c (by simp [x]), fun x => h.used (by simp [x]), fun d x => h.other d (by simp [x])⟩,
   ⟨fun x => h.receives (by simp [x]), fun w p x => h.sends w p (by simp [x]), fun x => h.kept (by simp [x]), fun x => h.passed (by simp [x]),
    fun c x => h.one c (by simp [x]), fun x => h.used (by simp [x]), fun d x => h.other d (by simp [x])⟩⟩

theorem replied_of_evs {m : Mode} {R : Nat} {Pa : Cemi → Prop} {reply : Cemi} {w w' : Option Nat} {tl : List Obs} {s'' : Sys} {evs : List Ev}
    (hd : ∀ d, Ev.delay d ∉ evs) : ∀ {s s' : Sys} {tr : List Obs}, runEvs m s evs = some (s', tr) → Fine m Pa tr → apiSent tr = [] →
      Replied m R Pa reply s' w tl s'' w' → Replied m R Pa reply s w (tr ++ tl) s'' w' := by
  induction evs with
  | nil =>
    intro s s' tr h _ _ h1
    simp only [runEvs, Option.some.injEq, Prod.mk.injEq] at h; obtain ⟨rfl, rfl⟩ := h; exact h1
  | cons e es ih =>
    intro s s' tr h hf ha h1
    simp only [runEvs] at h
    split at h
    · cases h
    · rename_i s1 o hs
      simp only [Option.map_eq_some_iff, Prod.exists, Prod.mk.injEq] at h
      obtain ⟨s2, o2, hs2, rfl, rfl⟩ := h
      have e : ∀ a b : List Obs, apiSent (a ++ b) = apiSent a ++ apiSent b := fun a b => by simp [apiSent]
      rw [e, List.append_eq_nil_iff] at ha
      rw [List.append_assoc]
      refine .step _ (by rintro d rfl; exact absurd (List.mem_cons_self ..) (hd d)) hs hf.part.1 ?_
      rw [if_pos ha.1]
      exact ih (fun d hm => hd d (List.mem_cons_of_mem _ hm)) hs2 hf.part.2 ha.2 h1

/-- The heart beat of the connection in `grant7`. -/
def beat7 : Bytes := (ConnectionstateRequest.mk 7 (Conn.ofResponse .client conn7).endpoint).packet

set_option synthInstance.maxSize 8192 in
set_option synthInstance.maxHeartbeats 400000 in
/-- The case of C115: a read of 1/0/1; a heart beat is sent, an empty datagram arrives, and 9 seconds after the request the value 1 is received. -/
example (m : Mode) : ∃ s s1 s2 tr tr' w, Exec m s tr ∧ s.bg.pc = .recv ∧ s.bg.conn ≠ none ∧ s.bg.queue = [] ∧
    IsAnswer (.read (.group3 ⟨1, 0, 1⟩)) tel7 (.value [1]) ∧ Carries m req7 tel7 ∧
    Knx.step m s (.api (.call (.read (.group3 ⟨1, 0, 1⟩)))) = some (s1, [.call (.read (.group3 ⟨1, 0, 1⟩))]) ∧
    Replied m 9000 (Passes (.read (.group3 ⟨1, 0, 1⟩))) tel7 s1 none tr' s2 w ∧ s2.bg.now = s.bg.now + 9000 ∧ Obs.tick ∈ tr' ∧
    tr'.getLast? = some (.ret (.value [1])) := by
  let A : Sys → Option (Sys × List Obs) := fun s => Knx.step m s (.api (.call (.read (.group3 ⟨1, 0, 1⟩))))
  let B : Sys → Option (Sys × List Obs) := fun s => (A s).bind fun y => runEvs m y.1 [.api .run, .api .run]
  let C : Sys → Option (Sys × List Obs) := fun s => (B s).bind fun y => Knx.step m y.1 (.api .sendOk)
  let D : Sys → Option (Sys × List Obs) := fun s => (C s).bind fun y =>
    runEvs m ⟨{ y.1.bg with now := y.1.bg.now + 9000 }, y.1.api⟩ [.bg .tick, .bg .sendOk, .bg (.dgram [])]
  let F : Sys → Option (Sys × List Obs) := fun s => (D s).bind fun y => Knx.step m y.1 (.bg (.dgram req7))
  let G : Sys → Option (Sys × List Obs) := fun s => (F s).bind fun y => runEvs m y.1 [.bg .sendOk, .bg .run, .api .run]
  obtain ⟨s, tr, h1, h2⟩ := exec_of_evs (m := m) (evs := [.bg .run, .bg .sendOk, .bg (.dgram grant7), .bg .run])
    (f := fun x => ((x.1.bg.pc, x.1.bg.conn.isSome, x.1.bg.queue, x.1.bg.now), (A x.1).map Prod.snd, (B x.1).map (fun y => (y.2, y.1.bg.now)),
      (C x.1).map (fun y => (y.2, acting .client m y.1.bg, callActing m y.1, y.1.bg.now)), ((D x.1).map Prod.snd), (F x.1).map Prod.snd,
      (G x.1).map fun y => (y.2, y.1.bg.now)))
    (y := ((.recv, true, [], 0), some [.call (.read (.group3 ⟨1, 0, 1⟩))], some ([.drew 0], 0),
      some ([.tx .api (readReq 7)], false, false, 0), some [.tick, .tx .task beat7, .rx []], some [.rx req7],
      some ([.tx .task (frame TUNNELING_ACK [4, 7, 0, 0]), .queued tel7, .taken 0 tel7, .ret (.value [1])], 9000)))
    (by cases m <;> decide +kernel)
  simp only [Prod.mk.injEq, Option.map_eq_some_iff, Prod.exists, A] at h2
  obtain ⟨⟨g1, g2, g3, g4⟩, ⟨s1, o1, a1, rfl⟩, ⟨s2, o2, a2, rfl, b5⟩, ⟨s3, o3, a3, rfl, b1, b2, b3⟩, ⟨s4, o4, a4, rfl⟩, ⟨s5, o5, a5, rfl⟩, s6, o6, a6, rfl, b4⟩ := h2
  simp only [G, F, D, C, B, A, a1, Option.bind_some] at a2 a3 a4 a5 a6
  simp only [a2, Option.bind_some] at a3 a4 a5 a6
  simp only [a3, Option.bind_some] at a4 a5 a6
  simp only [a4, Option.bind_some] at a5 a6
  simp only [a5, Option.bind_some] at a6
  have r6 := replied_of_evs (m := m) (R := 9000) (Pa := Passes (.read (.group3 ⟨1, 0, 1⟩))) (reply := tel7) (w := none) (by simp) a6 (by constructor <;> simp) rfl (.nil _ _)
  have r4 := replied_of_evs (m := m) (R := 9000) (Pa := Passes (.read (.group3 ⟨1, 0, 1⟩))) (reply := tel7) (w := some 0) (by simp) a4
    (by constructor <;> simp [NoMatter]) rfl (.reply _ (carries7 m) a5 r6)
  have r3 := Replied.wait 9000 b1 b2 (by simp [b3]) r4
  have r2 := replied_of_evs (w := none) (by simp) a2 (by constructor <;> simp) rfl
    (.step _ (by simp) a3 (fine_tx _ _ _ _) (by
      rw [if_neg (by simp [apiSent]), b5]; exact r3))
  refine ⟨s, s1, s6, tr, _, _, h1, g1, ?_, g3, ⟨rfl, ind7, by decide +kernel, rfl, rfl⟩, carries7 m, a1, r2, by rw [b4, g4], by simp, by simp⟩
  intro h; rw [h] at g2; cases g2

set_option synthInstance.maxSize 1024 in
/-- The case of a write: 1 to 1/0/1, confirmed by the interface. -/
example (m : Mode) : ∃ s s1 s2 tr tr' w, Exec m s tr ∧ s.bg.pc = .recv ∧ s.bg.conn ≠ none ∧ s.bg.queue = [] ∧
    IsAnswer (.write (.group3 ⟨1, 0, 1⟩) [1] true) (confirmCemi 0x0801) .unit ∧
    Knx.step m s (.api (.call (.write (.group3 ⟨1, 0, 1⟩) [1] true))) = some (s1, [.call (.write (.group3 ⟨1, 0, 1⟩) [1] true)]) ∧
    Replied m 9000 (Passes (.write (.group3 ⟨1, 0, 1⟩) [1] true)) (confirmCemi 0x0801) s1 none tr' s2 w ∧ returned tr' = [.unit] := by
  obtain ⟨s, tr, h1, h2⟩ := exec_of_evs (m := m) (evs := [.bg .run, .bg .sendOk, .bg (.dgram grant7), .bg .run])
    (f := fun x => ((x.1.bg.pc, x.1.bg.conn.isSome, x.1.bg.queue),
      (Knx.step m x.1 (.api (.call (.write (.group3 ⟨1, 0, 1⟩) [1] true)))).map Prod.snd))
    (y := ((.recv, true, []), some [.call (.write (.group3 ⟨1, 0, 1⟩) [1] true)])) (by cases m <;> decide +kernel)
  simp only [Prod.mk.injEq, Option.map_eq_some_iff, Prod.exists] at h2
  obtain ⟨⟨g1, g2, g3⟩, s1, o1, a1, rfl⟩ := h2
  have g2' : s.bg.conn ≠ none := by intro h; rw [h] at g2; cases g2
  obtain ⟨x, s3, w', h3, h4⟩ := C115_goes_on (cl := .write (.group3 ⟨1, 0, 1⟩) [1] true) (R := 9000) (reply := confirmCemi 0x0801) (v := .unit) (d := confirmation 7 0 0x0801) h1 (by omega) g1 g2' (by simp [g3])
    ⟨rfl, rfl⟩ ⟨_, decodes_request 7 0 0 _ (by simp [word]), by cases m <;> decide +kernel⟩ (by simp) a1 (.nil _ _) rfl
  refine ⟨s, s1, s3, tr, _, _, h1, g1, g2', g3, ⟨rfl, rfl⟩, a1, h3, ?_⟩
  simp [returned, List.filterMap_append] at h4 ⊢
  exact h4

end Knx
