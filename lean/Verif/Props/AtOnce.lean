import Verif.Spec.Lively
import Verif.Props.Idle
import Verif.Props.Transport
import Verif.Props.Reconnect
import Verif.Lemmas.Callers

/-!
# C105: what a call waits for is passed on at once
-/

namespace Knx
open Spec

theorem Exec.callOpen {m : Mode} {s : Sys} {tr : List Obs} (h : Exec m s tr) : s.api ≠ .idle → s.bg.rxOpen = true := by
  induction h with
  | init => intro h; exact absurd rfl h
  | step e _ hs ih =>
    intro hne
    cases e with
    | bg e =>
      simp only [Knx.step, Option.map_eq_some_iff, Prod.exists, Prod.mk.injEq] at hs
      obtain ⟨b, o', hb, rfl, rfl⟩ := hs
      rw [bgStep_rxOpen hb]; exact ih hne
    | api e =>
      have ht := apiStep_tr hs
      cases ht <;> simp_all
    | delay d => cases hs; exact ih hne

theorem MExec.callersOpen {m : Mode} {s : MSys} {tr : List Obs} (h : MExec m s tr) : s.waiting ≠ [] → s.bg.rxOpen = true := by
  induction h with
  | init => intro h; exact absurd rfl h
  | step e _ hs ih =>
    intro hne
    cases e with
    | bg e =>
      simp only [Knx.mstep, Option.map_eq_some_iff, Prod.exists, Prod.mk.injEq] at hs
      obtain ⟨b, o', hb, rfl, rfl⟩ := hs
      rw [bgStep_rxOpen hb]; exact ih hne
    | api e =>
      have ht := mapiStep_tr hs
      have hf : ∀ (l : List Nat) i, l.filter (· ≠ i) ≠ [] → l ≠ [] := by rintro l i h rfl; exact h rfl
      cases ht
      case nind => exact ih (hf _ _ hne)
      case nbad => exact ih (hf _ _ hne)
      case nend => exact ih (hf _ _ hne)
      case ncancel => exact ih (hf _ _ hne)
      all_goals first | exact ih hne | simp_all
    | delay d => cases hs; exact ih hne

/-- Telegram `c` is on its way from the socket to the head of the message channel. -/
def OnItsWay (m : Mode) (c : Cemi) (b : Bg) : Prop :=
  (∃ ch sq raw, b.pc = .ackReq ch sq raw ∧ runRd (Cemi.fromPacket m) id raw = .ok c ∧ b.queue = []) ∨
    (b.pc = .push c ∧ b.queue = []) ∨ ∃ rest, b.queue = c :: rest

theorem OnItsWay.task {k : Kind} {m : Mode} {c : Cemi} {b b' : Bg} {o : List Obs} (h : OnItsWay m c b) (hr : b.rxOpen = true)
    (ht : BgTr k m b b' o) (hk : Obs.tick ∉ o) (hf : ∀ p, Obs.txFail .task p ∉ o) :
    OnItsWay m c b' ∧ b'.now = b.now ∧ b'.rxOpen = true ∧ returned o = [] ∧ taken o = [] ∧ (∀ i v, Obs.nret i v ∉ o) := by
  rcases h with ⟨ch, sq, raw, hpc, hc, hq⟩ | ⟨hpc, hq⟩ | ⟨rest, hq⟩
  · cases ht
    case ackReqOk ch' sq' raw' c' hpc' hc' =>
      rw [hpc] at hpc'; cases hpc'; rw [hc] at hc'; cases hc'
      exact ⟨Or.inr (Or.inl ⟨rfl, hq⟩), rfl, hr, rfl, rfl, by simp⟩
    case ackReqFail => exact absurd (List.mem_singleton.2 rfl) (hf _)
    case tickBusy => exact absurd (by simp) hk
    case tickBusyNone => exact absurd (by simp) hk
    all_goals simp_all
  · cases ht
    case pushOk c' hpc' _ _ =>
      rw [hpc] at hpc'; cases hpc'
      exact ⟨Or.inr (Or.inr ⟨[], by simp [hq]⟩), rfl, hr, rfl, rfl, by simp⟩
    case tickBusy => exact absurd (by simp) hk
    case tickBusyNone => exact absurd (by simp) hk
    all_goals simp_all
  · refine ⟨Or.inr (Or.inr ?_), ?_, ?_, ?_, ?_, ?_⟩
    · cases ht <;> simp_all
    · cases ht <;> rfl
    · cases ht <;> first | exact hr | simp_all
    · cases ht <;> rfl
    · cases ht <;> rfl
    · cases ht <;> simp

theorem OnItsWay.acting {k : Kind} {m : Mode} {c : Cemi} {b : Bg} (h : OnItsWay m c b) (hr : b.rxOpen = true) :
    acting k m b = true ∨ ∃ rest, b.queue = c :: rest := by
  rcases h with ⟨ch, sq, raw, hpc, hc, hq⟩ | ⟨hpc, hq⟩ | h
  · left; simp [Knx.acting, bgStep, hpc, hc]
  · left; simp [Knx.acting, bgStep, hpc, hr, hq]
  · exact Or.inr h

theorem OnItsWay.gone {m : Mode} {c : Cemi} {b : Bg} (h : OnItsWay m c b) (hq : b.queue = []) : sendersGone b = false := by
  rcases h with ⟨ch, sq, raw, hpc, hc, -⟩ | ⟨hpc, -⟩ | ⟨rest, h⟩
  · simp [sendersGone, hpc]
  · simp [sendersGone, hpc]
  · rw [hq] at h; cases h

theorem carried_start {m : Mode} {k : Kind} {b b1 : Bg} {d : Bytes} {c : Cemi} (h : bgStep k m b (.dgram d) = some (b1, [.rx d]))
    (hc : Carries m d c) (hq : b.queue = []) : OnItsWay m c b1 ∧ b1.now = b.now ∧ b1.rxOpen = b.rxOpen := by
  obtain ⟨t, h1, h2⟩ := hc
  have e := onDatagram_request h1
  have ht := bgStep_rxOpen h
  cases hpc : b.pc with
  | recv =>
    simp only [bgStep, hpc, e] at h
    simp at h
    obtain ⟨rfl, -⟩ := h
    exact ⟨Or.inl ⟨_, _, _, rfl, h2, hq⟩, rfl, rfl⟩
  | connWait dl =>
    simp only [bgStep, hpc] at h
    simp at h
    split at h <;> simp at h
  | _ => simp [bgStep, hpc] at h

/-- The client about to pass telegram `c` to call `a`. -/
def Nearly (m : Mode) (c : Cemi) (a : Api) (t : Nat) (s : Sys) : Prop :=
  s.api = a ∧ s.bg.now = t ∧ s.bg.rxOpen = true ∧ OnItsWay m c s.bg

theorem Nearly.step {m : Mode} {c : Cemi} {a : Api} {t : Nat} {v : Ret} {s s' : Sys} {o : List Obs} {e : Ev} (h : Nearly m c a t s)
    (he : Ends a c v) (ht : ∀ x ∈ apiDeadline a, t < x) (hd : ∀ d, e = .delay d → acting .client m s.bg = false ∧ callActing m s = false)
    (hs : Knx.step m s e = some (s', o)) (hk : Obs.tick ∉ o) (hf : ∀ p, Obs.txFail .task p ∉ o) (hx : Obs.cancelled ∉ o) :
    (Nearly m c a t s' ∧ returned o = []) ∨ o = [.taken 0 c, .ret v] := by
  obtain ⟨rfl, rfl, hr, hw⟩ := h
  cases e with
  | bg e =>
    simp only [Knx.step, Option.map_eq_some_iff, Prod.exists, Prod.mk.injEq] at hs
    obtain ⟨b, o', hb, rfl, rfl⟩ := hs
    obtain ⟨h1, h2, h3, h4, -, -⟩ := hw.task hr (bgStep_tr hb) hk hf
    exact Or.inl ⟨⟨rfl, h2, h3, h1⟩, h4⟩
  | api e =>
    have hta := apiStep_tr hs
    right
    have hq : ∀ c' rest, s.bg.queue = c' :: rest → c' = c := by
      intro c' rest h
      rcases hw with ⟨_, _, _, _, _, hq⟩ | ⟨_, hq⟩ | ⟨_, hq⟩ <;> rw [hq] at h <;> cases h
      rfl
    rcases he with ⟨addr, dl, i, ha, hm, hi, hdst, rfl⟩ | ⟨dl, ha, hm, rfl⟩
    · cases hta
      case readTimeout h1 h2 => rw [ha] at h1; cases h1; have := ht dl (by simp [apiDeadline, ha]); omega
      case readGone h1 h2 h3 => rw [hw.gone h2] at h3; cases h3
      case readSkip h1 h2 h3 =>
        have := hq _ _ h2; subst this; rw [ha] at h1; cases h1
        simp [Skipped, hm, hi, hdst, codeLDataInd] at h3
      case readBad h1 h2 h3 h4 => have := hq _ _ h2; subst this; rw [hi] at h4; cases h4
      case readValue h1 h2 h3 h4 h5 => have := hq _ _ h2; subst this; rw [hi] at h4; cases h4; rfl
      case cancel => exact absurd (by simp) hx
      all_goals simp_all [looksUp]
    · cases hta
      case writeTimeout h1 h2 => rw [ha] at h1; cases h1; have := ht dl (by simp [apiDeadline, ha]); omega
      case writeGone h1 h2 h3 => rw [hw.gone h2] at h3; cases h3
      case writeOk h1 h2 h3 => have := hq _ _ h2; subst this; rfl
      case writeBad h1 h2 h3 => have := hq _ _ h2; subst this; exact absurd hm h3
      case cancel => exact absurd (by simp) hx
      all_goals simp_all [looksUp]
  | delay d =>
    obtain ⟨h1, h2⟩ := hd d rfl
    exfalso
    rcases hw.acting (k := .client) (m := m) hr with h | ⟨rest, h⟩
    · rw [h1] at h; cases h
    · rcases he with ⟨addr, dl, i, ha, hm, hi, hdst, rfl⟩ | ⟨dl, ha, hm, rfl⟩
      · simp [callActing, apiStep, ha, chanRecv, h, readMsg, hm, hi, hdst, codeLDataCon, codeLDataInd, finish] at h2
      · simp [callActing, apiStep, ha, chanRecv, h, writeMsg, hm, codeLDataCon, finish] at h2
        split at h2 <;> simp at h2

theorem Nearly.run {m : Mode} {c : Cemi} {a : Api} {t : Nat} {v : Ret} {s s' : Sys} {tr : List Obs} (hl : Lively m s tr s')
    (h : Nearly m c a t s) (he : Ends a c v) (ht : ∀ x ∈ apiDeadline a, t < x) (hk : Obs.tick ∉ tr) (hf : ∀ p, Obs.txFail .task p ∉ tr)
    (hx : Obs.cancelled ∉ tr) : s'.bg.now = t ∨ ∃ x y, tr = x ++ .ret v :: y ∧ returned x = [] := by
  induction hl with
  | nil => exact Or.inl h.2.1
  | @step s s1 s2 o tr e hd hs _ ih =>
    rcases h.step he ht hd hs (fun hm => hk (List.mem_append_left _ hm)) (fun p hm => hf p (List.mem_append_left _ hm))
      (fun hm => hx (List.mem_append_left _ hm)) with ⟨h1, h2⟩ | h1
    · rcases ih h1 (fun hm => hk (List.mem_append_right _ hm)) (fun p hm => hf p (List.mem_append_right _ hm))
        (fun hm => hx (List.mem_append_right _ hm)) with h3 | ⟨x, y, rfl, h3⟩
      · exact Or.inl h3
      · exact Or.inr ⟨o ++ x, y, by simp, by simp [returned, List.filterMap_append] at h2 h3 ⊢; exact ⟨h2, h3⟩⟩
    · subst h1
      exact Or.inr ⟨[.taken 0 c], tr, by simp, rfl⟩

/-- C105: when the telegram a call waits for arrives, the call returns, with the value of this telegram, before any time passes: a read
on an indication for its group, a write on a confirmation. Whatever else arrives meanwhile; unless a heart beat is due at this moment,
the acknowledgement cannot be sent, older telegrams are still unread, or the caller gives up. -/
theorem C105_call {m : Mode} {s s1 s2 : Sys} {tr tr' : List Obs} {d : Bytes} {c : Cemi} {v : Ret} (h : Exec m s tr)
    (h1 : Knx.step m s (.bg (.dgram d)) = some (s1, [.rx d])) (hc : Carries m d c) (hq : s.bg.queue = []) (he : Ends s.api c v)
    (ht : ∀ t ∈ apiDeadline s.api, s.bg.now < t) (hl : Lively m s1 tr' s2) (hk : Obs.tick ∉ tr') (hf : ∀ p, Obs.txFail .task p ∉ tr')
    (hx : Obs.cancelled ∉ tr') : s2.bg.now = s.bg.now ∨ ∃ x y, tr' = x ++ .ret v :: y ∧ returned x = [] := by
  have ho : s.bg.rxOpen = true := h.callOpen (by rcases he with ⟨_, _, _, h, _⟩ | ⟨_, h, _⟩ <;> rw [h] <;> simp)
  simp only [Knx.step, Option.map_eq_some_iff, Prod.exists, Prod.mk.injEq] at h1
  obtain ⟨b, o', hb, rfl, rfl⟩ := h1
  obtain ⟨g1, g2, g3⟩ := carried_start hb hc hq
  exact Nearly.run hl ⟨rfl, g2, g3.trans ho, g1⟩ he ht hk hf hx

/-- The monitor about to pass telegram `c` to a call of `next_msg`. -/
def MNearly (m : Mode) (c : Cemi) (t : Nat) (s : MSys) : Prop :=
  s.waiting ≠ [] ∧ s.bg.now = t ∧ s.bg.rxOpen = true ∧ OnItsWay m c s.bg

theorem MNearly.step {m : Mode} {c : Cemi} {t : Nat} {i : LDataInd} {s s' : MSys} {o : List Obs} {e : MEv} (h : MNearly m c t s)
    (hsh : shownCode c.msgCode) (hi : LDataInd.fromCemi c = .ok i)
    (hd : ∀ d, e = .delay d → acting .monitor m s.bg = false ∧ ¬ MCallActing m s)
    (hs : Knx.mstep m s e = some (s', o)) (hk : Obs.tick ∉ o) (hf : ∀ p, Obs.txFail .task p ∉ o) (hx : ∀ j, Obs.ncancelled j ∉ o) :
    (MNearly m c t s' ∧ ∀ j v, Obs.nret j v ∉ o) ∨ ∃ j, o = [.taken j c, .nret j (.ind i)] := by
  obtain ⟨hw0, rfl, hr, hw⟩ := h
  cases e with
  | bg e =>
    simp only [Knx.mstep, Option.map_eq_some_iff, Prod.exists, Prod.mk.injEq] at hs
    obtain ⟨b, o', hb, rfl, rfl⟩ := hs
    obtain ⟨h1, h2, h3, -, -, h4⟩ := hw.task hr (bgStep_tr hb) hk hf
    exact Or.inl ⟨⟨hw0, h2, h3, h1⟩, h4⟩
  | api e =>
    have hta := mapiStep_tr hs
    have hq : ∀ c' rest, s.bg.queue = c' :: rest → c' = c := by
      intro c' rest h
      rcases hw with ⟨_, _, _, _, _, hq⟩ | ⟨_, hq⟩ | ⟨_, hq⟩ <;> rw [hq] at h <;> cases h
      rfl
    cases hta
    case nskip h1 h2 h3 => have := hq _ _ h2; subst this; exact absurd hsh h3
    case nind j c' rest x h1 h2 h3 h4 => have := hq _ _ h2; subst this; rw [hi] at h4; cases h4; exact Or.inr ⟨_, rfl⟩
    case nbad h1 h2 h3 h4 => have := hq _ _ h2; subst this; rw [hi] at h4; cases h4
    case nend h1 h2 h3 => rw [hw.gone h2] at h3; cases h3
    case ncancel => exact absurd (List.mem_singleton.2 rfl) (hx _)
    case drop h => exact absurd h hw0
    case ncall => exact Or.inl ⟨⟨by simp, rfl, hr, hw⟩, by simp⟩
    all_goals exact Or.inl ⟨⟨hw0, rfl, hr, hw⟩, by simp⟩
  | delay d =>
    obtain ⟨h1, h2⟩ := hd d rfl
    exfalso
    rcases hw.acting (k := .monitor) (m := m) hr with h | ⟨rest, h⟩
    · rw [h1] at h; cases h
    · obtain ⟨j, l, hj⟩ := List.exists_cons_of_ne_nil hw0
      apply h2
      refine Or.inr (Or.inr ⟨j, ?_⟩)
      have hc : c.msgCode = codeLDataInd ∨ c.msgCode = codeLBusmonInd := hsh
      rcases hc with hc | hc <;>
        simp [mapiStep, hj, h, nextMsg, hc, hi, codeLDataCon, codeLDataInd, codeLBusmonInd, nfinish]

theorem MNearly.run {m : Mode} {c : Cemi} {t : Nat} {i : LDataInd} {s s' : MSys} {tr : List Obs} (hl : MLively m s tr s')
    (h : MNearly m c t s) (hsh : shownCode c.msgCode) (hi : LDataInd.fromCemi c = .ok i) (hk : Obs.tick ∉ tr)
    (hf : ∀ p, Obs.txFail .task p ∉ tr) (hx : ∀ j, Obs.ncancelled j ∉ tr) :
    s'.bg.now = t ∨ ∃ x j y, tr = x ++ .nret j (.ind i) :: y ∧ ∀ j v, Obs.nret j v ∉ x := by
  induction hl with
  | nil => exact Or.inl h.2.1
  | @step s s1 s2 o tr e hd hs _ ih =>
    rcases h.step hsh hi hd hs (fun hm => hk (List.mem_append_left _ hm)) (fun p hm => hf p (List.mem_append_left _ hm))
      (fun j hm => hx j (List.mem_append_left _ hm)) with ⟨h1, h2⟩ | ⟨j, h1⟩
    · rcases ih h1 (fun hm => hk (List.mem_append_right _ hm)) (fun p hm => hf p (List.mem_append_right _ hm))
        (fun j hm => hx j (List.mem_append_right _ hm)) with h3 | ⟨x, j, y, rfl, h3⟩
      · exact Or.inl h3
      · exact Or.inr ⟨o ++ x, j, y, by simp, fun j v hm => (List.mem_append.1 hm).elim (h2 j v) (h3 j v)⟩
    · subst h1
      exact Or.inr ⟨[.taken j c], j, tr, by simp, by simp⟩

/-- C105: likewise the monitor: when a telegram with an indication or a bus monitor indication arrives while calls of `next_msg` wait,
one of these calls returns it before any time passes, and no call returns anything before that. -/
theorem C105_next_msg {m : Mode} {s s1 s2 : MSys} {tr tr' : List Obs} {d : Bytes} {c : Cemi} {i : LDataInd} (h : MExec m s tr)
    (h1 : Knx.mstep m s (.bg (.dgram d)) = some (s1, [.rx d])) (hc : Carries m d c) (hq : s.bg.queue = []) (hw : s.waiting ≠ [])
    (hsh : c.msgCode = 0x29 ∨ c.msgCode = 0x2b) (hi : LDataInd.fromCemi c = .ok i) (hl : MLively m s1 tr' s2) (hk : Obs.tick ∉ tr')
    (hf : ∀ p, Obs.txFail .task p ∉ tr') (hx : ∀ j, Obs.ncancelled j ∉ tr') :
    s2.bg.now = s.bg.now ∨ ∃ x j y, tr' = x ++ .nret j (.ind i) :: y ∧ ∀ j v, Obs.nret j v ∉ x := by
  have ho : s.bg.rxOpen = true := h.callersOpen hw
  simp only [Knx.mstep, Option.map_eq_some_iff, Prod.exists, Prod.mk.injEq] at h1
  obtain ⟨b, o', hb, rfl, rfl⟩ := h1
  obtain ⟨g1, g2, g3⟩ := carried_start hb hc hq
  exact MNearly.run hl ⟨hw, g2, g3.trans ho, g1⟩ hsh hi hk hf hx

theorem lively_of_evs {m : Mode} {evs : List Ev} (hd : ∀ d, Ev.delay d ∉ evs) : ∀ {s s' : Sys} {tr : List Obs},
    runEvs m s evs = some (s', tr) → Lively m s tr s' := by
  induction evs with
  | nil => intro s s' tr h; simp only [runEvs, Option.some.injEq, Prod.mk.injEq] at h; obtain ⟨rfl, rfl⟩ := h; exact .nil _
  | cons e es ih =>
    intro s s' tr h
    simp only [runEvs] at h
    split at h
    · cases h
    · rename_i s1 o hs
      simp only [Option.map_eq_some_iff, Prod.exists, Prod.mk.injEq] at h
      obtain ⟨s2, o2, hs2, rfl, rfl⟩ := h
      exact .step e (by rintro d rfl; exact absurd (List.mem_cons_self ..) (hd d))
        hs (ih (fun d hm => hd d (List.mem_cons_of_mem _ hm)) hs2)

theorem mlively_of_evs {m : Mode} {evs : List MEv} (hd : ∀ d, MEv.delay d ∉ evs) : ∀ {s s' : MSys} {tr : List Obs},
    mrunEvs m s evs = some (s', tr) → MLively m s tr s' := by
  induction evs with
  | nil => intro s s' tr h; simp only [mrunEvs, Option.some.injEq, Prod.mk.injEq] at h; obtain ⟨rfl, rfl⟩ := h; exact .nil _
  | cons e es ih =>
    intro s s' tr h
    simp only [mrunEvs] at h
    split at h
    · cases h
    · rename_i s1 o hs
      simp only [Option.map_eq_some_iff, Prod.exists, Prod.mk.injEq] at h
      obtain ⟨s2, o2, hs2, rfl, rfl⟩ := h
      exact .step e (by rintro d rfl; exact absurd (List.mem_cons_self ..) (hd d))
        hs (ih (fun d hm => hd d (List.mem_cons_of_mem _ hm)) hs2)

/-- The indication in `req7`. -/
def ind7 : LDataInd := ⟨tel7, LData.ofControl 0x1102 0x0801 0xbc, [1]⟩

set_option synthInstance.maxSize 1024 in
/-- The case of C105: a read for 1/0/1 waits when the telegram with the value 1 of this group arrives. -/
example (m : Mode) : ∃ s s1 s2 tr tr', Exec m s tr ∧ Knx.step m s (.bg (.dgram req7)) = some (s1, [.rx req7]) ∧ Carries m req7 tel7 ∧
    s.bg.queue = [] ∧ Ends s.api tel7 (.value [1]) ∧ (∀ t ∈ apiDeadline s.api, s.bg.now < t) ∧ Lively m s1 tr' s2 ∧
    tr' = [.tx .task (frame TUNNELING_ACK [4, 7, 0, 0]), .queued tel7, .taken 0 tel7, .ret (.value [1])] := by
  obtain ⟨s, tr, h1, h2⟩ := exec_of_evs (m := m) (evs := [.bg .run, .bg .sendOk, .bg (.dgram grant7), .bg .run,
      .api (.call (.read (.group3 ⟨1, 0, 1⟩))), .api .run, .api .run, .api .sendOk])
    (f := fun x => (x.1.api, (x.1.bg.queue, x.1.bg.now), (Knx.step m x.1 (.bg (.dgram req7))).map Prod.snd,
      ((Knx.step m x.1 (.bg (.dgram req7))).bind fun y => runEvs m y.1 [.bg .sendOk, .bg .run, .api .run]).map Prod.snd))
    (y := (.reading 0x0801 apiTimeout, ([], 0), some [.rx req7],
      some [.tx .task (frame TUNNELING_ACK [4, 7, 0, 0]), .queued tel7, .taken 0 tel7, .ret (.value [1])]))
    (by cases m <;> decide +kernel)
  simp only [Prod.mk.injEq, Option.map_eq_some_iff, Prod.exists] at h2
  obtain ⟨h2, ⟨h3, h4⟩, ⟨s1, o, h5, rfl⟩, s2, tr', h6, rfl⟩ := h2
  rw [h5] at h6
  refine ⟨s, s1, s2, tr, _, h1, h5, carries7 m, h3, ?_, ?_, lively_of_evs (by simp) h6, rfl⟩
  · exact Or.inl ⟨_, _, ind7, h2, rfl, by decide +kernel, rfl, rfl⟩
  · simp [h2, apiDeadline, h4, apiTimeout]

/-- The case of the monitor: caller 3 waits. -/
example (m : Mode) : ∃ s s1 s2 tr tr' i, MExec m s tr ∧ Knx.mstep m s (.bg (.dgram req7)) = some (s1, [.rx req7]) ∧ Carries m req7 tel7 ∧
    s.bg.queue = [] ∧ s.waiting ≠ [] ∧ LDataInd.fromCemi tel7 = .ok i ∧ MLively m s1 tr' s2 ∧
    tr' = [.tx .task (frame TUNNELING_ACK [4, 7, 0, 0]), .queued tel7, .taken 3 tel7, .nret 3 (.ind i)] := by
  obtain ⟨s, tr, h1, h2⟩ := mexec_of_evs (m := m) (evs := [.bg .run, .bg .sendOk, .bg (.dgram grant7), .bg .sendOk, .bg .run, .bg .run,
      .api (.ncall 3)])
    (f := fun x => (x.1.waiting, x.1.bg.queue, (Knx.mstep m x.1 (.bg (.dgram req7))).map Prod.snd,
      ((Knx.mstep m x.1 (.bg (.dgram req7))).bind fun y => mrunEvs m y.1 [.bg .sendOk, .bg .run, .api (.nrun 3)]).map Prod.snd))
    (y := ([3], [], some [.rx req7],
      some [.tx .task (frame TUNNELING_ACK [4, 7, 0, 0]), .queued tel7, .taken 3 tel7, .nret 3 (.ind ind7)]))
    (by cases m <;> decide +kernel)
  simp only [Prod.mk.injEq, Option.map_eq_some_iff, Prod.exists] at h2
  obtain ⟨h2, h3, ⟨s1, o, h5, rfl⟩, s2, tr', h6, rfl⟩ := h2
  rw [h5] at h6
  exact ⟨s, s1, s2, tr, _, _, h1, h5, carries7 m, h3, by simp [h2], by decide +kernel, mlively_of_evs (by simp) h6, rfl⟩

end Knx
