import Verif.Props.Timing

/-!
# C69: exactly how long an attempt waits, and how long the pause after it lasts
-/

namespace Knx
open Spec

/-- A request sent at time `t` has met with silence. -/
def Patient (t : Nat) (s : Bg) : Prop :=
  match s.pc with
  | .connWait d => d = t + 30000
  | .connSleep d => t + 40000 ≤ d ∧ t + 30000 ≤ s.now
  | .connSend => t + 40000 ≤ s.now
  | _ => False

theorem Patient.run {k : Kind} {m : Mode} {s s' : Bg} {tr : List Obs} {t : Nat} (h : GRun k m s tr s') (ht : Patient t s)
    (ha : attempts tr = 0) (hr : ∀ d, Obs.rxConn d ∉ tr) (he : Obs.rxErr ∉ tr) : Patient t s' := by
  induction h with
  | nil => exact ht
  | @task s s1 s2 o tr hb hrun ih =>
    rw [attempts_append] at ha
    refine ih ?_ (by omega) (fun d hm => hr d (List.mem_append_right _ hm)) (fun hm => he (List.mem_append_right _ hm))
    unfold Patient at ht
    cases hb
    case connOkClient dl d r hpc _ hk => exact absurd (List.mem_append_left _ (by simp)) (hr d)
    case connOkMonitor dl d r hpc _ hk => exact absurd (List.mem_append_left _ (by simp)) (hr d)
    case connBad dl d hpc _ => exact absurd (List.mem_append_left _ (by simp)) (hr d)
    case connErr dl hpc => exact absurd (List.mem_append_left _ (by simp)) he
    case connSendOk => have : attempts [.tx .task connReqPacket] = 1 := by decide
                       omega
    case connSendFail => have : attempts [.txFail .task connReqPacket] = 1 := by decide
                         omega
    case connTimeout hpc _ => rw [hpc] at ht; simp only [Patient] at ht ⊢; omega
    case connRetry hpc _ => rw [hpc] at ht; simp only [Patient] at ht ⊢; omega
    case tickBusy hb _ _ => exfalso; clear ih hrun; revert hb ht; cases s.pc <;> simp [busy]
    case tickBusyNone hb _ _ => exfalso; clear ih hrun; revert hb ht; cases s.pc <;> simp [busy]
    all_goals (exfalso; simp_all)
  | @env s s1 s2 o tr hb hrun ih =>
    rw [attempts_append] at ha
    refine ih ?_ (by omega) (fun d hm => hr d (List.mem_append_right _ hm)) (fun hm => he (List.mem_append_right _ hm))
    have f := hb.facts
    have hn := hb.hbDue.2.1
    unfold Patient at ht ⊢
    rw [f.pc]
    split at ht
    · exact ht
    · exact ⟨ht.1, by omega⟩
    · show t + 40000 ≤ s1.now; omega
    · exact ht

/-- The pause that ends at time `t`. -/
def Pausing (t : Nat) (s : Bg) : Prop :=
  match s.pc with
  | .connSleep d => d = t
  | .connSend => t ≤ s.now
  | _ => False

theorem Pausing.task {k : Kind} {m : Mode} {s s' : Bg} {o : List Obs} {t : Nat} (hb : BgTr k m s s' o) (ht : Pausing t s)
    (ha : attempts o = 0) : Pausing t s' := by
  unfold Pausing at ht
  cases hb
  case connSendOk => have : attempts [.tx .task connReqPacket] = 1 := by decide
                     omega
  case connSendFail => have : attempts [.txFail .task connReqPacket] = 1 := by decide
                       omega
  case connRetry hpc _ => rw [hpc] at ht; simp only [Pausing] at ht ⊢; omega
  case tickBusy hb _ _ => exfalso; revert hb ht; cases s.pc <;> simp [busy]
  case tickBusyNone hb _ _ => exfalso; revert hb ht; cases s.pc <;> simp [busy]
  all_goals (exfalso; simp_all)

theorem Pausing.env {k : Kind} {s s' : Bg} {o : List Obs} {t : Nat} (he : Env k s s' o) (ht : Pausing t s) : Pausing t s' := by
  have f := he.facts
  have hn := he.hbDue.2.1
  unfold Pausing at ht ⊢
  rw [f.pc]
  split at ht
  · exact ht
  · show t ≤ s'.now; omega
  · exact ht

theorem Pausing.run {k : Kind} {m : Mode} {s s' : Bg} {tr : List Obs} {t : Nat} (h : GRun k m s tr s') (ht : Pausing t s)
    (ha : attempts tr = 0) : Pausing t s' := by
  induction h with
  | nil => exact ht
  | task hb hrun ih =>
    rw [attempts_append] at ha
    exact ih (ht.task hb (by omega)) (by omega)
  | env he hrun ih =>
    rw [attempts_append] at ha
    exact ih (ht.env he) (by omega)

theorem Pausing.prun {k : Kind} {m : Mode} {s s' : Bg} {tr : List Obs} {t : Nat} (h : GPRun k m s tr s') (ht : Pausing t s)
    (hl : s.pc = .connSend ∨ s.now ≤ t) (ha : attempts tr = 0) : Pausing t s' ∧ (s'.pc = .connSend ∨ s'.now ≤ t) := by
  induction h with
  | nil => exact ⟨ht, hl⟩
  | @task s s1 s2 o tr hb hrun ih =>
    rw [attempts_append] at ha
    refine ih (ht.task hb (by omega)) ?_ (by omega)
    have hn := hb.hbDue.2.1
    rcases hl with hl | hl
    · exfalso
      cases hb
      case connSendOk => have : attempts [.tx .task connReqPacket] = 1 := by decide
                         omega
      case connSendFail => have : attempts [.txFail .task connReqPacket] = 1 := by decide
                           omega
      case tickBusy hb _ _ => rw [hl] at hb; simp [busy] at hb
      case tickBusyNone hb _ _ => rw [hl] at hb; simp [busy] at hb
      all_goals simp_all
    · right; omega
  | @env s s1 s2 o tr he hw hrun ih =>
    rw [attempts_append] at ha
    refine ih (ht.env he) ?_ (by omega)
    have f := he.facts
    rw [f.pc]
    rcases hl with hl | hl
    · exact Or.inl hl
    · unfold Pausing at ht
      split at ht
      · rename_i d hpc
        right
        rcases hw with hw | hw
        · omega
        · rw [← ht]; exact hw d (by simp [bgDeadline, hpc])
      · rename_i hpc; exact Or.inl hpc
      · exact ht.elim

/-- An attempt is only made by a task that is about to send the request. -/
theorem attempt_pc {k : Kind} {m : Mode} {s s' : Bg} {o : List Obs} {e : BgEv} (hd : NoDisc s) (h : bgStep k m s e = some (s', o))
    (ha : attempts o = 1) : s.pc = .connSend := by
  rcases (bgStep_tr h).attempt hd with ⟨hpc, _, _⟩ | ⟨_, h0⟩
  · exact hpc
  · omega

theorem enable_ne_connect (ch : U8) : enablePacket ch ≠ connReqPacket := by
  intro h
  have := congrArg (List.drop 2 · |>.take 2) h
  revert this
  rw [connReq_eq, enablePacket, C19_bodies.2.2.2.2.1]
  simp [connectRequest, frame, word, byte, CONNECT_REQUEST, TUNNELING_FEATURE_SET]

/-- C69, exactly how long an attempt waits: after a connect request was sent and as long as neither an answer nor an error of the
socket comes, the answer is waited for during thirty seconds, and the next attempt is made not before forty seconds have passed. -/
theorem C69_patient {m : Mode} {k : Kind} {s s1 s2 : Bg} {tr o tr' : List Obs} (h1 : bgStep k m s .sendOk = some (s1, o))
    (ha : attempts o = 1) (h2 : Goes m k s1 (tr ++ o) tr' s2) (hn : attempts tr' = 0) (hr : Reaches m k s tr)
    (hq : ∀ d, Obs.rxConn d ∉ tr') (he : Obs.rxErr ∉ tr') :
    (s2.now < s.now + 30000 → ∀ d, ∃ s3 o', bgStep k m s2 (.dgram d) = some (s3, o') ∧ Obs.rxConn d ∈ o') ∧
    ∀ e s3 o', bgStep k m s2 e = some (s3, o') → attempts o' = 1 → s.now + 40000 ≤ s2.now := by
  have hpc := attempt_pc hr.gexec.noDisc h1 ha
  have e1 : s1 = { s with pc := .connWait (s.now + 30000) } := by
    simp [bgStep, hpc] at h1; exact h1.1.symm
  obtain ⟨g1, g2⟩ := h2.grun
  have hp : Patient s.now s2 := Patient.run g2 (by rw [e1]; rfl) hn hq he
  constructor
  · intro hlt d
    unfold Patient at hp
    split at hp
    · rename_i dl hpc2
      simp only [bgStep, reduceCtorEq, if_false, hpc2]
      cases hc : tryConnect (buffer d) <;> exact ⟨_, _, rfl, by simp⟩
    · omega
    · omega
    · exact hp.elim
  · intro e s3 o' h3 ha'
    have hpc3 := attempt_pc (g1.append g2).noDisc h3 ha'
    unfold Patient at hp
    rw [hpc3] at hp
    exact hp

/-- C69, exactly how long the pause lasts: after an attempt has failed (the request could not be sent, the answer grants no connection, or
the socket reports an error while there is no connection), the next attempt is made not before ten seconds have passed; and, if timers fire on
time, after ten seconds the task waits for nothing but the socket in order to make it. -/
theorem C69_pause {m : Mode} {k : Kind} {s s1 s2 : Bg} {tr o tr' : List Obs} {e : BgEv} (hr : Reaches m k s tr)
    (h1 : bgStep k m s e = some (s1, o)) (hc : s.conn = none)
    (ho : o = [.txFail .task connectRequest] ∨ (∃ d, o = [.rxConn d] ∧ ∀ r, ¬ Grants d r) ∨ o = [.rxErr]) (hn : attempts tr' = 0) :
    (Goes m k s1 (tr ++ o) tr' s2 → ∀ e s3 o', bgStep k m s2 e = some (s3, o') → attempts o' = 1 → s.now + 10000 ≤ s2.now) ∧
    (GoesPromptly m k s1 (tr ++ o) tr' s2 →
      s2.now ≤ s.now + 10000 ∨ ∃ s3, bgStep k m s2 .sendOk = some (s3, [.tx .task connectRequest])) := by
  have hp : s1.pc = .connSleep (s.now + 10000) ∧ s1.now = s.now := by
    have hd := hr.gexec.noDisc
    have hci := hr.gexec.conn_iff
    have ht := bgStep_tr h1
    rw [← connReq_eq] at ho
    cases ht
    case connOkClient dl d r _ hg _ =>
      rcases ho with ho | ⟨d', ho, hg'⟩ | ho
      · simp at ho
      · simp only [List.cons.injEq, Obs.rxConn.injEq, and_true] at ho
        subst ho
        exact absurd ((tryConnect_iff d r).1 hg) (hg' r)
      · simp at ho
    case connOkMonitor dl d r _ hg _ =>
      rcases ho with ho | ⟨d', ho, hg'⟩ | ho
      · simp at ho
      · simp only [List.cons.injEq, Obs.rxConn.injEq, and_true] at ho
        subst ho
        exact absurd ((tryConnect_iff d r).1 hg) (hg' r)
      · simp at ho
    all_goals first
      | exact ⟨rfl, rfl⟩
      | (exfalso; simp_all; done)
      | (exfalso; simp_all [pcUp]; done)
      | skip
    case enableFail r hpc =>
      exfalso
      rcases ho with ho | ⟨d', ho, _⟩ | ho
      · simp only [List.cons.injEq, Obs.txFail.injEq, and_true, true_and] at ho
        exact enable_ne_connect r.channel ho
      · simp at ho
      · simp at ho
  have hp0 : Pausing (s.now + 10000) s1 := by unfold Pausing; rw [hp.1]
  constructor
  · intro h2 e s3 o' h3 ha'
    obtain ⟨g1, g2⟩ := h2.grun
    have h := Pausing.run g2 hp0 hn
    have hpc3 := attempt_pc (g1.append g2).noDisc h3 ha'
    unfold Pausing at h
    rw [hpc3] at h
    exact h
  · intro h2
    obtain ⟨h, hl⟩ := Pausing.prun h2.gprun hp0 (Or.inr (by rw [hp.2]; omega)) hn
    rcases hl with hl | hl
    · right
      exact ⟨{ s2 with pc := .connWait (s2.now + 30000) }, by rw [← connReq_eq]; simp [bgStep, hl]⟩
    · exact Or.inl hl

/-- The task about to send a connect request, and after the request. -/
def asking : Bg := { Bg.init with pc := .connSend }

theorem asking_exec (m : Mode) : Exec m ⟨asking, .idle⟩ [] := by
  have h := Exec.init.append (runEvs_run (m := m) (s := Sys.init) (evs := [.bg .run]) rfl)
  exact h

/-- Silence: forty seconds later the next request can be sent. -/
example (m : Mode) : ∃ s s1 s2 o, Reaches m .client s [] ∧ bgStep .client m s .sendOk = some (s1, o) ∧ attempts o = 1 ∧
    Goes m .client s1 ([] ++ o) [] s2 ∧ s2.now = 40000 ∧ ∃ s3 o', bgStep .client m s2 .sendOk = some (s3, o') ∧ attempts o' = 1 := by
  have h1 := (asking_exec m).append (runEvs_run (m := m) (s := ⟨asking, .idle⟩) (evs := [.bg .sendOk]) rfl)
  have h2 := runEvs_run (m := m) (s := ⟨{ asking with pc := .connWait 30000 }, .idle⟩)
    (evs := [.delay 30000, .bg .timer, .delay 10000, .bg .timer]) (s' := ⟨{ asking with now := 40000 }, .idle⟩) (tr := [])
    (by simp [runEvs, step, bgStep, asking, Bg.init])
  exact ⟨_, _, _, _, .client (asking_exec m), rfl, by decide, .client h1 h2, rfl, _, _, rfl, by decide⟩

/-- A refusal (an empty datagram) after one second: ten seconds later the next request can be sent. -/
example (m : Mode) : ∃ s s1 s2, Reaches m .client s [.tx .task connReqPacket] ∧ s.conn = none ∧ s.now = 1000 ∧
    bgStep .client m s (.dgram []) = some (s1, [.rxConn []]) ∧ Goes m .client s1 ([.tx .task connReqPacket] ++ [.rxConn []]) [] s2 ∧
    s2.now = 11000 ∧ ∃ s3 o', bgStep .client m s2 .sendOk = some (s3, o') ∧ attempts o' = 1 := by
  have h1 := (asking_exec m).append (runEvs_run (m := m) (s := ⟨asking, .idle⟩) (evs := [.bg .sendOk, .delay 1000]) rfl)
  have h2 := h1.append (runEvs_run (m := m) (evs := [.bg (.dgram [])]) rfl)
  have h3 := runEvs_run (m := m) (s := ⟨{ asking with pc := .connSleep 11000, now := 1000 }, .idle⟩)
    (evs := [.delay 10000, .bg .timer]) (s' := ⟨{ asking with now := 11000 }, .idle⟩) (tr := []) (by simp [runEvs, step, bgStep, asking, Bg.init])
  exact ⟨_, _, _, .client h1, rfl, rfl, rfl, .client h2 h3, rfl, _, _, rfl, by decide⟩

end Knx
