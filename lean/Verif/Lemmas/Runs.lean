import Verif.Spec.Exec
import Verif.Lemmas.Invariants3

/-!
# Lemmas about executions given by lists of events
-/

namespace Knx
open Spec

theorem Reaches.gexec {m : Mode} {k : Kind} {s : Bg} {tr : List Obs} (h : Reaches m k s tr) : GExec k m s tr := by
  cases h with
  | client h => exact h.gexec
  | monitor h => exact h.gexec

theorem Exec.append {m : Mode} {s s' : Sys} {tr tr' : List Obs} (h : Exec m s tr) (h' : Run m s tr' s') :
    Exec m s' (tr ++ tr') := by
  induction h' generalizing tr with
  | nil => simpa using h
  | step e hs _ ih =>
    have := ih (h.step e hs)
    rwa [List.append_assoc] at this

theorem MExec.append {m : Mode} {s s' : MSys} {tr tr' : List Obs} (h : MExec m s tr) (h' : MRun m s tr' s') :
    MExec m s' (tr ++ tr') := by
  induction h' generalizing tr with
  | nil => simpa using h
  | step e hs _ ih =>
    have := ih (h.step e hs)
    rwa [List.append_assoc] at this

theorem PromptRun.run {m : Mode} {s s' : Sys} {tr : List Obs} (h : PromptRun m s tr s') : Run m s tr s' := by
  induction h with
  | nil => exact .nil _
  | step e _ hs _ ih => exact .step e hs ih

theorem Run.trans {m : Mode} {s s' s'' : Sys} {tr tr' : List Obs} (h : Run m s tr s') (h' : Run m s' tr' s'') :
    Run m s (tr ++ tr') s'' := by
  induction h with
  | nil => exact h'
  | step e hs _ ih => rw [List.append_assoc]; exact .step e hs (ih h')

theorem PromptRun.trans {m : Mode} {s s' s'' : Sys} {tr tr' : List Obs} (h : PromptRun m s tr s') (h' : PromptRun m s' tr' s'') :
    PromptRun m s (tr ++ tr') s'' := by
  induction h with
  | nil => exact h'
  | step e hp hs _ ih => rw [List.append_assoc]; exact .step e hp hs (ih h')

theorem MRun.trans {m : Mode} {s s' s'' : MSys} {tr tr' : List Obs} (h : MRun m s tr s') (h' : MRun m s' tr' s'') :
    MRun m s (tr ++ tr') s'' := by
  induction h with
  | nil => exact h'
  | step e hs _ ih => rw [List.append_assoc]; exact .step e hs (ih h')

theorem runEvs_run {m : Mode} {s s' : Sys} {evs : List Ev} {tr : List Obs} (h : runEvs m s evs = some (s', tr)) :
    Run m s tr s' := by
  induction evs generalizing s tr with
  | nil => simp only [runEvs, Option.some.injEq, Prod.mk.injEq] at h; obtain ⟨rfl, rfl⟩ := h; exact .nil _
  | cons e es ih =>
    simp only [runEvs] at h
    split at h
    · cases h
    · rename_i s1 o hs
      simp only [Option.map_eq_some_iff] at h
      obtain ⟨⟨x, y⟩, hx, he⟩ := h
      cases he
      exact .step e hs (ih hx)

theorem mrunEvs_run {m : Mode} {s s' : MSys} {evs : List MEv} {tr : List Obs} (h : mrunEvs m s evs = some (s', tr)) :
    MRun m s tr s' := by
  induction evs generalizing s tr with
  | nil => simp only [mrunEvs, Option.some.injEq, Prod.mk.injEq] at h; obtain ⟨rfl, rfl⟩ := h; exact .nil _
  | cons e es ih =>
    simp only [mrunEvs] at h
    split at h
    · cases h
    · rename_i s1 o hs
      simp only [Option.map_eq_some_iff] at h
      obtain ⟨⟨x, y⟩, hx, he⟩ := h
      cases he
      exact .step e hs (ih hx)

/-- Steps of the task are steps of the client, -/
theorem bgRun_run {m : Mode} {s : Sys} {b : Bg} {evs : List BgEv} {tr : List Obs}
    (h : bgRun .client m s.bg evs = some (b, tr)) : Run m s tr { s with bg := b } := by
  induction evs generalizing s tr with
  | nil => simp only [bgRun, Option.some.injEq, Prod.mk.injEq] at h; obtain ⟨rfl, rfl⟩ := h; exact .nil _
  | cons e es ih =>
    simp only [bgRun] at h
    split at h
    · cases h
    · rename_i s1 o hs
      simp only [Option.map_eq_some_iff] at h
      obtain ⟨⟨x, y⟩, hx, he⟩ := h
      cases he
      exact .step (.bg e) (s' := { s with bg := s1 }) (by simp [Knx.step, hs]) (ih (s := { s with bg := s1 }) hx)

/-- and of the monitor. -/
theorem bgRun_mrun {m : Mode} {s : MSys} {b : Bg} {evs : List BgEv} {tr : List Obs}
    (h : bgRun .monitor m s.bg evs = some (b, tr)) : MRun m s tr { s with bg := b } := by
  induction evs generalizing s tr with
  | nil => simp only [bgRun, Option.some.injEq, Prod.mk.injEq] at h; obtain ⟨rfl, rfl⟩ := h; exact .nil _
  | cons e es ih =>
    simp only [bgRun] at h
    split at h
    · cases h
    · rename_i s1 o hs
      simp only [Option.map_eq_some_iff] at h
      obtain ⟨⟨x, y⟩, hx, he⟩ := h
      cases he
      exact .step (.bg e) (s' := { s with bg := s1 }) (by simp [Knx.mstep, hs]) (ih (s := { s with bg := s1 }) hx)

theorem Reaches.append {m : Mode} {k : Kind} {s s' : Bg} {evs : List BgEv} {tr tr' : List Obs} (h : Reaches m k s tr)
    (h' : bgRun k m s evs = some (s', tr')) : Reaches m k s' (tr ++ tr') := by
  cases h with
  | client h => exact .client (h.append (bgRun_run h'))
  | monitor h => exact .monitor (h.append (bgRun_mrun h'))

theorem exec_of_evs {m : Mode} {evs : List Ev} {α : Type} {f : Sys × List Obs → α} {y : α}
    (h : (runEvs m Sys.init evs).map f = some y) : ∃ s tr, Exec m s tr ∧ f (s, tr) = y := by
  simp only [Option.map_eq_some_iff] at h
  obtain ⟨⟨s, tr⟩, h1, h2⟩ := h
  exact ⟨s, tr, by simpa using Exec.init.append (runEvs_run h1), h2⟩

theorem mexec_of_evs {m : Mode} {evs : List MEv} {α : Type} {f : MSys × List Obs → α} {y : α}
    (h : (mrunEvs m MSys.init evs).map f = some y) : ∃ s tr, MExec m s tr ∧ f (s, tr) = y := by
  simp only [Option.map_eq_some_iff] at h
  obtain ⟨⟨s, tr⟩, h1, h2⟩ := h
  exact ⟨s, tr, by simpa using MExec.init.append (mrunEvs_run h1), h2⟩

/-! ## Why a connection is given up -/

/-- Observations that make the task give up the connection. -/
def Breaking (x : Obs) : Prop :=
  x = .rxErr ∨ (∃ p, x = .txFail .task p) ∨ x = .closed ∨
  ∃ d, x = .rx d ∧ d ≠ [] ∧ ((∀ y, ¬ Decodes (seen d) y) ∨ ∃ r, Decodes (seen d) (.connectionstateResponse r) ∧ r.status ≠ 0)

theorem parse_err_not_decodes {d : Bytes} (h : parseResponse (buffer d) = .err) (y : Response) : ¬ Decodes (seen d) y := by
  rw [← C21_dispatch_exact, ← buffer_eq_seen, h]; simp

theorem GExec.downs {k : Kind} {m : Mode} {s : Bg} {tr : List Obs} (h : GExec k m s tr) :
    (s.pc = .teardown ∨ Obs.down ∈ since isUp tr) → ∃ x ∈ since isUp tr, Breaking x := by
  have skip : ∀ {s s' : Bg} {tr o : List Obs},
      ((s.pc = .teardown ∨ Obs.down ∈ since isUp tr) → ∃ x ∈ since isUp tr, Breaking x) →
      o.any isUp = false → ((s'.pc = .teardown ∨ Obs.down ∈ o) → (s.pc = .teardown ∨ ∃ x ∈ o, Breaking x)) →
      (s'.pc = .teardown ∨ Obs.down ∈ since isUp (tr ++ o)) → ∃ x ∈ since isUp (tr ++ o), Breaking x := by
    intro s s' tr o h1 h2 h3 h4
    rw [since_append, h2, if_neg (by simp)] at h4 ⊢
    have h4' : (s'.pc = .teardown ∨ Obs.down ∈ o) ∨ Obs.down ∈ since isUp tr := by
      rcases h4 with h | h
      · exact Or.inl (Or.inl h)
      · rcases List.mem_append.1 h with h | h
        · exact Or.inr h
        · exact Or.inl (Or.inr h)
    have old : (∃ x ∈ since isUp tr, Breaking x) → ∃ x ∈ since isUp tr ++ o, Breaking x := by
      rintro ⟨x, hx, hb⟩; exact ⟨x, List.mem_append_left _ hx, hb⟩
    rcases h4' with h | h
    · rcases h3 h with h | ⟨x, hx, hb⟩
      · exact old (h1 (Or.inl h))
      · exact ⟨x, List.mem_append_right _ hx, hb⟩
    · exact old (h1 (Or.inr h))
  induction h with
  | init => simp [Bg.init, since]
  | @task s s' tr o hx ht ih =>
    have hci := hx.conn_iff
    cases ht
    case storeClient r hpc hk => rw [since_append]; simp [isUp, since]
    case storeMonitor r hpc hk => rw [since_append]; simp [isUp, since]
    case teardown hpc => exact skip ih rfl fun _ => Or.inl hpc
    case recvErr d hpc hd hp =>
      exact skip ih rfl fun _ => Or.inr ⟨.rx d, by simp, Or.inr (Or.inr (Or.inr ⟨d, rfl, hd, Or.inl (parse_err_not_decodes hp)⟩))⟩
    case recvStateBad d r hpc hd hp hs =>
      exact skip ih rfl fun _ => Or.inr ⟨.rx d, by simp, Or.inr (Or.inr (Or.inr ⟨d, rfl, hd, Or.inr ⟨r, parse_seen hp, hs⟩⟩))⟩
    case recvIoErr => exact skip ih rfl fun _ => Or.inr ⟨.rxErr, by simp, Or.inl rfl⟩
    case ackReqFail ch sq raw hpc => exact skip ih rfl fun _ => Or.inr ⟨_, by simp; rfl, Or.inr (Or.inl ⟨_, rfl⟩)⟩
    case ackFeatFail ch sq hpc => exact skip ih rfl fun _ => Or.inr ⟨_, by simp; rfl, Or.inr (Or.inl ⟨_, rfl⟩)⟩
    case hbFail ch ep hpc => exact skip ih rfl fun _ => Or.inr ⟨_, by simp; rfl, Or.inr (Or.inl ⟨_, rfl⟩)⟩
    case pushClosed => exact skip ih rfl fun _ => Or.inr ⟨.closed, by simp, Or.inr (Or.inr (Or.inl rfl))⟩
    case tickIdleNone hpc _ hc => rw [hpc, hc] at hci; simp [pcUp] at hci
    case tickBusyNone hb _ hc =>
      exfalso
      have := hci.1
      rw [hc] at this
      revert hb this
      cases s.pc <;> simp [busy, pcUp]
    case recvEmpty => exact skip ih rfl fun h => Or.inl (by simpa using h)
    case recvAck => exact skip ih rfl fun h => Or.inl (by simpa using h)
    case recvStateOk => exact skip ih rfl fun h => Or.inl (by simpa using h)
    all_goals exact skip ih rfl fun h => by simp at h
  | @env s s' tr o hx he ih =>
    have f := he.facts
    exact skip ih f.noUp fun h => by
      rcases h with h | h
      · exact Or.inl (f.pc ▸ h)
      · exact absurd h f.noDown

theorem upNow_append (tr o : List Obs) : upNow (tr ++ o) =
    o.foldl upStep (upNow tr) := by
  simp [upNow, List.foldl_append]

theorem fold_still {o : List Obs} (h1 : o.any isUp = false) (h2 : Obs.down ∉ o) (b : Bool) :
    o.foldl upStep b = b := by
  induction o generalizing b with
  | nil => rfl
  | cons x o ih =>
    rw [List.any_cons, Bool.or_eq_false_iff] at h1
    rw [List.mem_cons, not_or] at h2
    rw [List.foldl_cons]
    cases x <;> first | exact ih h1.2 h2.2 _ | exact absurd rfl h2.1 | simp [isUp] at h1

theorem GExec.upNow {k : Kind} {m : Mode} {s : Bg} {tr : List Obs} (h : GExec k m s tr) : s.conn.isSome = upNow tr := by
  induction h with
  | init => rfl
  | @task s s' tr o hx ht ih =>
    cases ht
    all_goals rw [upNow_append]
    all_goals first | rfl | exact ih
  | @env s s' tr o hx he ih =>
    have f := he.facts
    have hc : s'.conn.isSome = s.conn.isSome := by
      have := congrArg Option.isSome f.conn
      simpa using this
    rw [upNow_append, fold_still f.noUp f.noDown, hc, ih]

/-- The state of a task that has just connected with the response `r` (client), or connected and notified
nobody (monitor). -/
def linkUp (k : Kind) (r : ConnectionResponse) : Bg := { Bg.init with conn := some (Conn.ofResponse k r), pc := .recv }

/-- What is observed until then. -/
def linkTrace (k : Kind) (d : Bytes) (r : ConnectionResponse) : List Obs :=
  match k with
  | .client => [.tx .task connReqPacket, .rxConn d, .up r]
  | .monitor => [.tx .task connReqPacket, .rxConn d, .tx .task (enablePacket r.channel), .up r]

theorem reaches_init (m : Mode) (k : Kind) : Reaches m k Bg.init [] := by
  cases k
  · exact .client (s := Sys.init) .init
  · exact .monitor (s := MSys.init) .init

theorem linkUp_run (m : Mode) (k : Kind) {d : Bytes} {r : ConnectionResponse} (h : Grants d r) :
    ∃ evs, bgRun k m Bg.init evs = some (linkUp k r, linkTrace k d r) := by
  have hc := (tryConnect_iff d r).2 h
  cases k
  · refine ⟨[.run, .sendOk, .dgram d, .run], ?_⟩
    simp [bgRun, bgStep, Bg.init, hc, connected, linkUp, linkTrace]
  · refine ⟨[.run, .sendOk, .dgram d, .sendOk, .run, .run], ?_⟩
    simp [bgRun, bgStep, Bg.init, hc, connected, linkUp, linkTrace]

/-- Every granting response leads to an established connection. -/
theorem reaches_link (m : Mode) (k : Kind) {d : Bytes} {r : ConnectionResponse} (h : Grants d r) :
    Reaches m k (linkUp k r) (linkTrace k d r) := by
  obtain ⟨evs, he⟩ := linkUp_run m k h
  exact (reaches_init m k).append he

theorem exec_link (m : Mode) {d : Bytes} {r : ConnectionResponse} (h : Grants d r) :
    Exec m ⟨linkUp .client r, .idle⟩ (linkTrace .client d r) := by
  obtain ⟨evs, he⟩ := linkUp_run m .client h
  exact Exec.init.append (bgRun_run (s := Sys.init) he)

theorem mexec_link (m : Mode) {d : Bytes} {r : ConnectionResponse} (h : Grants d r) :
    MExec m ⟨linkUp .monitor r, .idle, []⟩ (linkTrace .monitor d r) := by
  obtain ⟨evs, he⟩ := linkUp_run m .monitor h
  exact MExec.init.append (bgRun_mrun (s := MSys.init) he)

/-- A granting response: channel 7, endpoint 192.168.1.2:3671, address 1.1.1. -/
def grant7 : Bytes := [6, 0x10, 2, 6, 0, 20, 7, 0, 8, 1, 192, 168, 1, 2, 0x0e, 0x57, 4, 4, 0x11, 1]

def conn7 : ConnectionResponse := ⟨7, 0, ⟨1, ⟨⟨192, 168, 1, 2⟩, 3671⟩⟩, ⟨⟨1, 1, 1⟩⟩⟩

theorem grants7 : Grants grant7 conn7 := by
  refine ⟨rfl, 20, List.replicate 80 0, by omega, by omega, by unfold IndInRange; decide, ?_⟩
  decide +kernel

end Knx
