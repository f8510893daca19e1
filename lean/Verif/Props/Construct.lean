import Verif.Spec.Construct
import Verif.Props.Client
import Verif.Props.Turns
import Verif.Props.Calls
import Verif.Props.Recovery

/-!
# Property of the constructors (C98)
-/

namespace Knx
open Spec

/-- What has been observed, by state; `R` relates the states of the object to what it has done. -/
def MadeShape {α σ : Type} (R : σ → List Obs → Prop) : Made α σ → List (MadeObs α) → Prop
  | .binding, T => T = []
  | .resolving, T => T = [.bound]
  | .trying as, T => as ≠ [] ∧ ∃ rej, T = [.bound, .target (rej ++ as)] ++ rej.map .rejected
  | .failed, T => Refusal T
  | .running p s, T => ∃ rej rest tr, T = opening rej p rest ++ tr.map .run ∧ R s tr

theorem made_shape {α σ ε : Type} {init : σ} {stp : σ → ε → Option (σ × List Obs)} {R : σ → List Obs → Prop} (h0 : R init [])
    (h1 : ∀ {s s' tr o} (e : ε), R s tr → stp s e = some (s', o) → R s' (tr ++ o)) {w : Made α σ} {T : List (MadeObs α)}
    (h : MadeExec (madeStep init stp) w T) : MadeShape R w T := by
  induction h with
  | init => rfl
  | @step w w' T o e hx hs ih =>
    clear hx
    revert ih hs
    unfold madeStep
    split
    · intro hs ih
      cases hs
      change T = [] at ih
      subst ih
      rfl
    · intro hs ih
      cases hs
      change T = [] at ih
      subst ih
      exact Or.inl rfl
    · intro hs ih
      cases hs
      change T = [.bound] at ih
      subst ih
      exact Or.inr (Or.inr ⟨[], rfl⟩)
    · intro hs ih
      cases hs
      change T = [.bound] at ih
      subst ih
      exact ⟨by simp, [], rfl⟩
    · intro hs ih
      cases hs
      change T = [.bound] at ih
      subst ih
      exact Or.inr (Or.inl rfl)
    · rename_i a b as
      intro hs ih
      cases hs
      obtain ⟨_, rej, rfl⟩ := ih
      exact ⟨by simp, rej ++ [a], by simp⟩
    · rename_i a
      intro hs ih
      cases hs
      obtain ⟨_, rej, rfl⟩ := ih
      exact Or.inr (Or.inr ⟨rej ++ [a], by simp⟩)
    · rename_i a as
      intro hs ih
      cases hs
      obtain ⟨_, rej, rfl⟩ := ih
      exact ⟨rej, as, [], by simp [opening], h0⟩
    · rename_i a s e
      intro hs ih
      simp only [Option.map_eq_some_iff, Prod.mk.injEq, Prod.exists] at hs
      obtain ⟨s', o', hs, rfl, rfl⟩ := hs
      obtain ⟨rej, rest, tr, rfl, hr⟩ := ih
      exact ⟨rej, rest, tr ++ o', by simp, h1 e hr hs⟩
    · intro hs
      cases hs

theorem opening_built {α : Type} (rej : List α) (p : α) (rest : List α) (x : List (MadeObs α)) : Built (opening rej p rest ++ x) := by
  simp [Built, opening]

theorem opening_not_failed {α : Type} (rej : List α) (p : α) (rest : List α) (tr : List Obs) : ¬ Failed (opening rej p rest ++ tr.map .run) := by
  simp [Failed, opening]

theorem ran_opening {α : Type} (rej : List α) (p : α) (rest : List α) (tr : List Obs) : ran (opening rej p rest ++ tr.map .run) = tr := by
  have h1 : ran (rej.map MadeObs.rejected) = [] := by simp [ran]
  have h2 : ran (tr.map (MadeObs.run (α := α))) = tr := by
    induction tr with
    | nil => rfl
    | cons x tr ih => simpa [ran] using ih
  unfold ran at *
  simp only [opening, List.filterMap_append, h1, h2]
  simp

theorem refusal_ran {α : Type} {T : List (MadeObs α)} (h : Refusal T) : ran T = [] ∧ ¬ Built T ∧ Failed T := by
  rcases h with rfl | rfl | ⟨rej, rfl⟩ <;> simp [ran, Built, Failed]

theorem client_shape {α : Type} {m : Mode} {w : Made α Sys} {T : List (MadeObs α)} (h : MadeExec (clientStep m) w T) :
    MadeShape (Exec m) w T := made_shape .init (fun e h hs => .step e h hs) h

theorem monitor_shape {α : Type} {m : Mode} {w : Made α MSys} {T : List (MadeObs α)} (h : MadeExec (monitorStep m) w T) :
    MadeShape (MExec m) w T := made_shape .init (fun e h hs => .step e h hs) h

theorem shape_result {α σ : Type} {R : σ → List Obs → Prop} {w : Made α σ} {T : List (MadeObs α)} (h : MadeShape R w T) :
    (Built T ↔ ∃ p s, w = .running p s) ∧ (Failed T ↔ w = .failed) ∧ (Failed T → Refusal T ∧ ran T = []) := by
  cases w with
  | binding => cases h; simp [Built, Failed]
  | resolving => cases h; simp [Built, Failed]
  | trying as => obtain ⟨-, rej, rfl⟩ := h; simp [Built, Failed]
  | failed =>
    obtain ⟨h1, h2, h3⟩ := refusal_ran h
    exact ⟨by simp [h2], by simp [h3], fun _ => ⟨h, h1⟩⟩
  | running p s =>
    obtain ⟨rej, rest, tr, rfl, -⟩ := h
    refine ⟨by simp [opening_built], ?_, ?_⟩
    · simp [opening_not_failed]
    · simp [opening_not_failed]

/-- C98, the part that holds, for the client: its constructor fails only if there is no socket, the target is unknown, or the operating system rejects all
addresses of the target; nothing was sent then, and nothing happens afterwards. -/
theorem C98_failed_partial {α : Type} {m : Mode} {w w' : Made α Sys} {T o : List (MadeObs α)} (h : MadeExec (clientStep m) w T)
    (hf : Failed T) : Refusal T ∧ ran T = [] ∧ ∀ e, clientStep m w e ≠ some (w', o) := by
  obtain ⟨-, h2, h3⟩ := shape_result (client_shape h)
  rw [h2.1 hf]
  exact ⟨(h3 hf).1, (h3 hf).2, fun e => by cases e <;> simp [clientStep, madeStep]⟩

/-- C98, the same for the monitor. -/
theorem C98_monitor_failed_partial {α : Type} {m : Mode} {w w' : Made α MSys} {T o : List (MadeObs α)} (h : MadeExec (monitorStep m) w T)
    (hf : Failed T) : Refusal T ∧ ran T = [] ∧ ∀ e, monitorStep m w e ≠ some (w', o) := by
  obtain ⟨-, h2, h3⟩ := shape_result (monitor_shape h)
  rw [h2.1 hf]
  exact ⟨(h3 hf).1, (h3 hf).2, fun e => by cases e <;> simp [monitorStep, madeStep]⟩

/-- C98: what a client does after its constructor returned is an execution of the client, whatever the target is; the socket stays connected to the first address
accepted by the operating system. -/
theorem C98_built {α : Type} {m : Mode} {w : Made α Sys} {T : List (MadeObs α)} (h : MadeExec (clientStep m) w T) (hb : Built T) :
    ∃ p s rej rest, w = .running p s ∧ T = opening rej p rest ++ (ran T).map .run ∧ Exec m s (ran T) := by
  have hs := client_shape h
  obtain ⟨p, s, rfl⟩ := (shape_result hs).1.1 hb
  obtain ⟨rej, rest, tr, rfl, hr⟩ := hs
  rw [ran_opening]
  exact ⟨p, s, rej, rest, rfl, rfl, hr⟩

/-- C98, the same for the monitor. -/
theorem C98_monitor_built {α : Type} {m : Mode} {w : Made α MSys} {T : List (MadeObs α)} (h : MadeExec (monitorStep m) w T) (hb : Built T) :
    ∃ p s rej rest, w = .running p s ∧ T = opening rej p rest ++ (ran T).map .run ∧ MExec m s (ran T) := by
  have hs := monitor_shape h
  obtain ⟨p, s, rfl⟩ := (shape_result hs).1.1 hb
  obtain ⟨rej, rest, tr, rfl, hr⟩ := hs
  rw [ran_opening]
  exact ⟨p, s, rej, rest, rfl, rfl, hr⟩

/-- Every execution can follow a constructor, with every target. -/
theorem made_trying {α σ ε : Type} (init : σ) (stp : σ → ε → Option (σ × List Obs)) (rej as : List α) (h : as ≠ []) :
    MadeExec (madeStep init stp) (.trying as) ([.bound, .target (rej ++ as)] ++ rej.map .rejected) := by
  induction rej using List.reverseRecOn generalizing as with
  | nil =>
    obtain ⟨a, as, rfl⟩ := List.exists_cons_of_ne_nil h
    have h1 : MadeExec (madeStep init stp) (.resolving : Made α σ) ([] ++ [.bound]) := .step .bindOk .init rfl
    have h2 : MadeExec (madeStep init stp) (.trying (a :: as)) (([] ++ [.bound]) ++ [.target (a :: as)]) :=
      .step (.resolved (a :: as)) h1 rfl
    simpa using h2
  | append_singleton rej a ih =>
    obtain ⟨b, as, rfl⟩ := List.exists_cons_of_ne_nil h
    have h1 := ih (a :: b :: as) (by simp)
    have h2 : MadeExec (madeStep init stp) (.trying (b :: as)) (([.bound, .target (rej ++ a :: b :: as)] ++ rej.map .rejected) ++ [.rejected a]) :=
      .step .reject h1 rfl
    simpa using h2

theorem made_opening {α σ ε : Type} (init : σ) (stp : σ → ε → Option (σ × List Obs)) (rej rest : List α) (p : α) :
    MadeExec (madeStep init stp) (.running p init) (opening rej p rest) :=
  .step .accept (made_trying init stp rej (p :: rest) (by simp)) (by cases rest <;> rfl)

theorem made_client {α : Type} {m : Mode} {s : Sys} {tr : List Obs} (h : Exec m s tr) (rej rest : List α) (p : α) :
    MadeExec (clientStep m) (.running p s) (opening rej p rest ++ tr.map .run) := by
  induction h with
  | init => rw [List.map_nil, List.append_nil]; exact made_opening Sys.init (Knx.step m) rej rest p
  | step e _ hs ih =>
    rw [List.map_append, ← List.append_assoc]
    exact .step (.ev e) ih (by simp [clientStep, madeStep, hs])

theorem made_monitor {α : Type} {m : Mode} {s : MSys} {tr : List Obs} (h : MExec m s tr) (rej rest : List α) (p : α) :
    MadeExec (monitorStep m) (.running p s) (opening rej p rest ++ tr.map .run) := by
  induction h with
  | init => rw [List.map_nil, List.append_nil]; exact made_opening MSys.init (Knx.mstep m) rej rest p
  | step e _ hs ih =>
    rw [List.map_append, ← List.append_assoc]
    exact .step (.ev e) ih (by simp [monitorStep, madeStep, hs])

/-- No datagram received in answer to a connect request grants a connection. -/
def Ungranted (tr : List Obs) : Prop := ∀ d ∈ connAnswers tr, ∀ r, ¬ Grants d r

theorem Ungranted.left {a b : List Obs} (h : Ungranted (a ++ b)) : Ungranted a :=
  fun d hd => h d (by rw [connAnswers, List.filterMap_append]; exact List.mem_append_left _ hd)

theorem Ungranted.none {m : Mode} {k : Kind} {s : Bg} {tr : List Obs} (h : Reaches m k s tr) (hu : Ungranted tr) : s.conn = none := by
  cases hc : s.conn with
  | none => rfl
  | some c =>
    obtain ⟨r, d, -, h2, h3, -⟩ := C48_granted h hc
    exact absurd h3 (hu d h2 r)

theorem Exec.ungranted {m : Mode} {s : Sys} {tr : List Obs} (h : Exec m s tr) : Ungranted tr →
    (s.api = .idle ∨ (∃ c cemi, s.api = .seqNr c cemi) ∨ s.api = .stChan ∨ s.api = .dcChan) ∧
    apiSent tr = [] ∧ ∀ r ∈ returned tr, r = .err ∨ r = .panic := by
  induction h with
  | init => intro _; exact ⟨Or.inl rfl, rfl, by simp [returned]⟩
  | @step s s' tr o e hx hs ih =>
    intro hu
    obtain ⟨h1, h2, h3⟩ := ih hu.left
    have hc := hu.left.none (.client hx)
    have keep : ∀ a : Api, apiSent o = [] → (∀ r ∈ returned o, r = .err ∨ r = .panic) →
        (a = .idle ∨ (∃ c cemi, a = .seqNr c cemi) ∨ a = .stChan ∨ a = .dcChan) →
        (a = .idle ∨ (∃ c cemi, a = .seqNr c cemi) ∨ a = .stChan ∨ a = .dcChan) ∧
          apiSent (tr ++ o) = [] ∧ ∀ r ∈ returned (tr ++ o), r = .err ∨ r = .panic := by
      intro a g1 g2 g3
      refine ⟨g3, by rw [apiSent_append, g1, h2]; rfl, ?_⟩
      rw [returned_append]
      intro r hr
      rcases List.mem_append.1 hr with hr | hr
      · exact h3 r hr
      · exact g2 r hr
    cases e with
    | bg e =>
      simp only [Knx.step, Option.map_eq_some_iff, Prod.exists, Prod.mk.injEq] at hs
      obtain ⟨b, o', hb, rfl, rfl⟩ := hs
      have f := (bgStep_tr hb).facts
      exact keep _ f.sent (by rw [f.returned]; simp) h1
    | delay d => cases hs; exact keep _ rfl (by simp [returned]) h1
    | api e =>
      have ht := apiStep_tr hs
      cases ht <;> first
        | (exfalso; simp_all; done)
        | (refine keep _ rfl ?_ h1; simp [returned]; done)
        | (refine keep _ rfl ?_ ?_ <;> simp [returned])

theorem MExec.ungranted {m : Mode} {s : MSys} {tr : List Obs} (h : MExec m s tr) : Ungranted tr →
    (s.api = .idle ∨ (∃ cemi, s.api = .seqNr cemi) ∨ s.api = .dcChan ∨ s.api = .isConn ∨ ∃ i, s.api = .subscribe i) ∧ s.bg.queue = [] ∧
    apiSent tr = [] ∧ nexts tr = [] ∧ ∀ r ∈ returned tr, r = .err ∨ r = .panic ∨ r = .bool false ∨ r = .unit := by
  induction h with
  | init => intro _; exact ⟨Or.inl rfl, rfl, rfl, rfl, by simp [returned]⟩
  | @step s s' tr o e hx hs ih =>
    intro hu
    obtain ⟨h1, h0, h2, h4, h3⟩ := ih hu.left
    have hc := hu.left.none (.monitor hx)
    have hpc := hx.gexec.conn_iff.1
    rw [hc] at hpc
    have hgone : sendersGone s.bg = false := by
      unfold sendersGone
      split
      · rename_i h; rw [h] at hpc; cases hpc
      · rename_i h; rw [h] at hpc; cases hpc
      · rfl
    have keep : ∀ (a : MApi) q, apiSent o = [] → (∀ r ∈ returned o, r = .err ∨ r = .panic ∨ r = .bool false ∨ r = .unit) → nexts o = [] → q = [] →
        (a = .idle ∨ (∃ cemi, a = .seqNr cemi) ∨ a = .dcChan ∨ a = .isConn ∨ ∃ i, a = .subscribe i) →
        (a = .idle ∨ (∃ cemi, a = .seqNr cemi) ∨ a = .dcChan ∨ a = .isConn ∨ ∃ i, a = .subscribe i) ∧ q = ([] : List Cemi) ∧
          apiSent (tr ++ o) = [] ∧ nexts (tr ++ o) = [] ∧
          ∀ r ∈ returned (tr ++ o), r = .err ∨ r = .panic ∨ r = .bool false ∨ r = .unit := by
      intro a q g1 g2 g4 g0 g3
      refine ⟨g3, g0, by rw [apiSent_append, g1, h2]; rfl, by rw [nexts, List.filterMap_append]; change nexts tr ++ nexts o = []; rw [g4, h4]; rfl, ?_⟩
      rw [returned_append]
      intro r hr
      rcases List.mem_append.1 hr with hr | hr
      · exact h3 r hr
      · exact g2 r hr
    cases e with
    | bg e =>
      simp only [Knx.mstep, Option.map_eq_some_iff, Prod.exists, Prod.mk.injEq] at hs
      obtain ⟨b, o', hb, rfl, rfl⟩ := hs
      have ht := bgStep_tr hb
      have f := ht.facts
      refine keep _ _ f.sent (by rw [f.returned]; simp) ?_ ?_ h1
      · cases ht <;> rfl
      · cases ht <;> first | exact h0 | (exfalso; simp_all [pcUp])
    | delay d => cases hs; exact keep _ _ rfl (by simp [returned]) rfl h0 h1
    | api e =>
      have ht := mapiStep_tr hs
      cases ht <;> first
        | (exfalso; simp_all; done)
        | (refine keep _ _ rfl ?_ rfl h0 h1; simp [returned]; done)
        | (refine keep _ _ rfl ?_ rfl rfl h1; simp [returned]; done)
        | (refine keep _ _ rfl ?_ rfl h0 ?_ <;> simp [returned, hc])

/-- C98 is refuted: constructor and task do not need a server. Whatever the target is, the constructor has returned a client, and as long as no server grants a
connection, every call fails, nothing that calls ask for is sent, and the other addresses of the target are not tried. -/
theorem C98_violated {α : Type} {m : Mode} {w : Made α Sys} {T : List (MadeObs α)} (h : MadeExec (clientStep m) w T)
    (hu : ∀ d ∈ connAnswers (ran T), ∀ r, ¬ Grants d r) :
    apiSent (ran T) = [] ∧ ∀ r ∈ returned (ran T), r = .err ∨ r = .panic := by
  by_cases hb : Built T
  · obtain ⟨p, s, rej, rest, -, -, hx⟩ := C98_built h hb
    exact (hx.ungranted hu).2
  · have : ran T = [] := by
      have hs := client_shape h
      cases w with
      | binding => cases hs; rfl
      | resolving => cases hs; rfl
      | trying as => obtain ⟨-, rej, rfl⟩ := hs; simp [ran]
      | failed => exact (refusal_ran hs).1
      | running p s => exact absurd ((shape_result hs).1.2 ⟨_, _, rfl⟩) hb
    rw [this]
    simp [apiSent, returned]

/-- C98, the same for the monitor: no message is ever returned, `is_connected` returns false, and only the registration of a subscriber succeeds. -/
theorem C98_violated_monitor {α : Type} {m : Mode} {w : Made α MSys} {T : List (MadeObs α)} (h : MadeExec (monitorStep m) w T)
    (hu : ∀ d ∈ connAnswers (ran T), ∀ r, ¬ Grants d r) :
    apiSent (ran T) = [] ∧ nexts (ran T) = [] ∧ ∀ r ∈ returned (ran T), r = .err ∨ r = .panic ∨ r = .bool false ∨ r = .unit := by
  by_cases hb : Built T
  · obtain ⟨p, s, rej, rest, -, -, hx⟩ := C98_monitor_built h hb
    exact (hx.ungranted hu).2.2
  · have : ran T = [] := by
      have hs := monitor_shape h
      cases w with
      | binding => cases hs; rfl
      | resolving => cases hs; rfl
      | trying as => obtain ⟨-, rej, rfl⟩ := hs; simp [ran]
      | failed => exact (refusal_ran hs).1
      | running p s => exact absurd ((shape_result hs).1.2 ⟨_, _, rfl⟩) hb
    rw [this]
    simp [apiSent, returned, nexts]

/-- A try to connect that nobody answers takes forty seconds. -/
theorem try_run (m : Mode) (T : Nat) : PromptRun m ⟨{ Bg.init with now := T, pc := .connSend }, .idle⟩ [.tx .task connReqPacket]
    ⟨{ Bg.init with now := T + 40000, pc := .connSend }, .idle⟩ := by
  have h1 : OnTime .client m { Bg.init with now := T, pc := .connSend } [.tx .task connReqPacket] { Bg.init with now := T, pc := .connWait (T + 30000) } :=
    .steps (o := [.tx .task connReqPacket]) [.sendOk] rfl (.nil _)
  have h2 := (h1.trans (late_run m .client T)).trans (sleep_run m .client (T + 30000))
  have e : T + 40000 = T + 30000 + 10000 := by omega
  rw [e]
  exact h2.client

theorem tries_run (m : Mode) (T n : Nat) : PromptRun m ⟨{ Bg.init with now := T, pc := .connSend }, .idle⟩
    (List.replicate n (.tx .task connReqPacket)) ⟨{ Bg.init with now := T + 40000 * n, pc := .connSend }, .idle⟩ := by
  induction n with
  | zero => exact .nil _
  | succ n ih =>
    rw [List.replicate_succ']
    have e : T + 40000 * (n + 1) = (T + 40000 * n) + 40000 := by omega
    rw [e]
    exact ih.trans (try_run m _)

theorem call_starts {m : Mode} {c : Call} {s1 : Sys} (h : step m Sys.init (.api (.call c)) = some (s1, [.call c])) (s : Sys)
    (hi : s.api = .idle) (hr : s.bg.rxOpen = true) : step m s (.api (.call c)) = some ({ s with api := s1.api }, [.call c]) := by
  simp only [step, apiStep, reduceCtorEq, if_false, hi, hr, if_true, Sys.init, Bg.init] at h ⊢
  cases c <;> simp only [apiCall, startTunnel, reduceCtorEq] at h ⊢ <;> first | (cases h; rfl) | (split at h <;> simp_all) | skip
  all_goals cases h; rfl

/-- C98 is refuted: whatever the target is, nobody need ever answer: after any number `n` of tries to connect, and at the very start, a call that gets as far as
looking at the connection returns an error. Timers fire on time. -/
theorem C98_violated_forever {α : Type} (m : Mode) (rej rest : List α) (p : α) (n : Nat) (c : Call) {s1 : Sys}
    (hc : step m Sys.init (.api (.call c)) = some (s1, [.call c])) :
    ∃ s, PromptRun m Sys.init (List.replicate n (.tx .task connReqPacket) ++ [.call c, .ret .err]) s ∧
      MadeExec (clientStep m) (.running p s)
        (opening rej p rest ++ (List.replicate n (Obs.tx .task connReqPacket) ++ [Obs.call c, .ret .err]).map .run) := by
  have h1 : PromptRun m Sys.init [] ⟨{ Bg.init with now := 0, pc := .connSend }, .idle⟩ :=
    bgRun_prompt (s := Sys.init) (evs := [.run]) rfl
  have h2 := h1.trans (tries_run m 0 n)
  rw [List.nil_append] at h2
  have hx := Exec.init.append h2.run
  generalize 0 + 40000 * n = N at h2 hx
  have h3 := call_starts hc ⟨{ Bg.init with now := N, pc := .connSend }, .idle⟩ rfl rfl
  have hup : upNow (List.replicate n (Obs.tx .task connReqPacket)) = false := by
    have := hx.gexec.upNow
    simpa [Bg.init] using this.symm
  rw [List.nil_append] at hx
  have h4 := C59_returns hx hup h3
  have h5 := h2.trans ((PromptRun.one (.api (.call c)) trivial h3).trans (PromptRun.one (.api .run) trivial h4))
  exact ⟨_, h5, by simpa using made_client (Exec.init.append h5.run) rej rest p⟩

/-- The calls that get as far as looking at the connection: all that the client has, unless the request cannot be built. -/
example (m : Mode) (addr : KnxAddress) : (∃ s1, step m Sys.init (.api (.call .status)) = some (s1, [.call .status])) ∧
    (∃ s1, step m Sys.init (.api (.call .disconnect)) = some (s1, [.call .disconnect])) ∧
    (∃ s1, step m Sys.init (.api (.call (.read addr))) = some (s1, [.call (.read addr)])) ∧
    ∃ s1, step m Sys.init (.api (.call (.write addr [1, 2] false))) = some (s1, [.call (.write addr [1, 2] false)]) := by
  cases m <;> exact ⟨⟨_, rfl⟩, ⟨_, rfl⟩, ⟨_, rfl⟩, ⟨_, rfl⟩⟩

/-- A target with three addresses, the first rejected: the second is used, a read fails. -/
example (m : Mode) : ∃ s, MadeExec (clientStep m) (.running 2 s) [.bound, .target [1, 2, 3], .rejected 1, .accepted 2, .built,
    .run (.tx .task connReqPacket), .run (.call .status), .run (.ret .err)] := by
  obtain ⟨s, _, h⟩ := C98_violated_forever m [1] [3] 2 1 .status (s1 := ⟨Bg.init, .stChan⟩) rfl
  exact ⟨s, h⟩

/-- Failures. -/
example (m : Mode) : MadeExec (clientStep m) (.failed : Made Nat Sys) [.error] ∧
    MadeExec (clientStep m) (.failed : Made Nat Sys) [.bound, .error] ∧
    MadeExec (monitorStep m) (.failed : Made Nat MSys) [.bound, .target [1, 2], .rejected 1, .rejected 2, .error] :=
  ⟨.step (o := [.error]) .bindFail .init rfl, .step (o := [.error]) .unresolved (.step (o := [.bound]) .bindOk .init rfl) rfl,
    .step (o := [.rejected 2, .error]) .reject (made_trying MSys.init (mstep m) [1] [2] (by simp)) rfl⟩

/-- A monitor without a server. -/
example (m : Mode) : ∃ s tr, MadeExec (monitorStep m) (.running 5 s) (opening [] 5 [] ++ tr.map .run) ∧ connAnswers tr = [[0]] ∧
    returned tr = [.bool false, .unit, .err] := by
  obtain ⟨s, tr, h1, h2⟩ := mexec_of_evs (m := m) (evs := [.bg .run, .bg .sendOk, .api (.call .isConnected), .api .run, .bg (.dgram [0]),
      .api (.mkChan 3 1), .api (.call (.subscribe 3)), .api .run, .api (.call .disconnect), .api .run])
    (f := fun x => (connAnswers x.2, returned x.2)) (y := ([[0]], [.bool false, .unit, .err])) (by cases m <;> decide +kernel)
  simp only [Prod.mk.injEq] at h2
  exact ⟨s, tr, made_monitor h1 [] [] 5, h2.1, h2.2⟩

end Knx
