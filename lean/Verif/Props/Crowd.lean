import Verif.Spec.Crowd
import Verif.Props.Conversations
import Verif.Props.Callers

/-!
# C117: Every one of any number of concurrent callers gets the right result, in time
-/

namespace Knx
open Spec

variable {m : Mode} {R : Nat} {Pa : Cemi → Prop} {ans : ClientReq → Cemi × Ret}

theorem outcomes_append {V : Server} (a b : List (PObs V)) : outcomes (a ++ b) = outcomes a ++ outcomes b := by simp [outcomes]

theorem outcomes_own {V : Server} (i : Nat) (o : List Obs) : outcomes (o.map (tag (V := V) true (some i))) = (returned o).map (fun v => (i, v)) := by
  induction o with
  | nil => rfl
  | cons x o ih =>
    rw [List.map_cons, ← List.singleton_append, outcomes_append, ih]
    cases x <;> rfl

theorem outcomes_other {V : Server} (b : Bool) (j : Option Nat) (o : List Obs) (h : b = false ∨ j = none ∨ returned o = []) :
    outcomes (o.map (tag (V := V) b j)) = [] := by
  cases b with
  | false => 
    induction o with
    | nil => rfl
    | cons x o ih => rw [List.map_cons, ← List.singleton_append, outcomes_append, ih (.inl rfl)]; rfl
  | true =>
    cases j with
    | none =>
      induction o with
      | nil => rfl
      | cons x o ih => rw [List.map_cons, ← List.singleton_append, outcomes_append, ih (.inr (.inl rfl))]; rfl
    | some i =>
      rcases h with h | h | h
      · cases h
      · cases h
      · rw [outcomes_own, h]; rfl

/-- What holds throughout: nobody holds the lock and the client is at rest, or the call that holds it is on its way to its result. `t` is when it began. -/
structure CInv (m : Mode) (R : Nat) (Pa : Cemi → Prop) (ans : ClientReq → Cemi × Ret) (t : Nat) (x : Crowd m) : Prop where
  line : ∀ y ∈ x.pool.line, GoodReq m Pa ans y.2
  state : (x.pool.owner = none ∧ x.sent = none ∧ AtRest m Pa x.pool.sys) ∨
    ∃ i r, x.pool.owner = some i ∧ x.cur = some r ∧ GoodReq m Pa ans r ∧ Replying m R Pa (Spec.clientCall r) (ans r).1 t x.pool.sys x.sent

/-- What a step can be. -/
inductive Shape (m : Mode) (ans : ClientReq → Cemi × Ret) (t : Nat) (x : Crowd m) (o : List (PObs (clientServer m))) (t' : Nat) (x' : Crowd m) : Prop
  | keep : x'.pool.owner = x.pool.owner → x'.cur = x.cur → t' = t → outcomes o = [] → began o = [] →
      (x'.pool.line = x.pool.line ∨ (∃ y, x'.pool.line = x.pool.line ++ [y]) ∨
        ∃ j, PObs.left j ∈ o ∧ x'.pool.line = x.pool.line.filter (·.1 ≠ j)) →
      (x.pool.owner = none → x.pool.line ≠ [] → x'.pool.sys.bg.now = x.pool.sys.bg.now) → Shape m ans t x o t' x'
  | grant (i : Nat) (r : ClientReq) : x.pool.owner = none → x.pool.line = (i, r) :: x'.pool.line → x'.pool.owner = some i → x'.cur = some r →
      t' = x.pool.sys.bg.now → outcomes o = [] → began o = [(i, r)] → Shape m ans t x o t' x'
  | finish (i : Nat) (r : ClientReq) : x.pool.owner = some i → x.cur = some r → x'.pool.owner = none → x'.cur = x.cur →
      x'.pool.line = x.pool.line → outcomes o = [(i, (ans r).2)] → began o = [] → x'.pool.sys.bg.now ≤ t + R → Shape m ans t x o t' x'

theorem GoodReq.suits {r : ClientReq} (h : GoodReq m Pa ans r) : Suits Pa (Spec.clientCall r) (ans r).1 (ans r).2 := Item.Good.suits h

theorem holder_idle {s : Sys} (i : Option Nat) (h : s.api = .idle) : holder (clientServer m) s i = none := by
  simp [holder, clientServer, h]

theorem holder_busy {s : Sys} (i : Option Nat) (h : s.api ≠ .idle) : holder (clientServer m) s i = i := by
  simp [holder, clientServer, h]

theorem Pool.sys_cases {V : Server} {p p' : Pool V} {e : V.E} {o : List (PObs V)} (hs : p.step (.sys e) = some (p', o)) :
    ∃ s' o', V.step p.sys e = some (s', o') ∧ p' = ⟨s', holder V s' p.owner, p.line⟩ ∧ o = o'.map (tag (V.own e) p.owner) := by
  simp only [Pool.step] at hs
  split at hs
  · cases hs
  · split at hs
    · cases hs
    · rename_i s' o' h
      simp only [Option.some.injEq, Prod.mk.injEq] at hs
      exact ⟨s', o', h, hs.1.symm, hs.2.symm⟩

theorem Pool.grant_cases {V : Server} {p p' : Pool V} {i : Nat} {r : V.Req} {rest : List (Nat × V.Req)} {o : List (PObs V)}
    (hl : p.line = (i, r) :: rest) (hs : p.step .grant = some (p', o)) :
    V.free p.sys = true ∧ ∃ s' o', V.step p.sys (V.start i r) = some (s', o') ∧ p' = ⟨s', holder V s' (some i), rest⟩ ∧
      o = .began i r :: o'.map (tag true (some i)) := by
  simp only [Pool.step, hl] at hs
  split at hs
  · rename_i hf
    refine ⟨hf, ?_⟩
    split at hs
    · cases hs
    · rename_i s' o' h
      simp only [Option.some.injEq, Prod.mk.injEq] at hs
      exact ⟨s', o', h, hs.1.symm, hs.2.symm⟩
  · cases hs

theorem Replying.wait {cl : Call} {reply : Cemi} {t : Nat} {v : Ret} {s : Sys} {w : Option Nat} {d : Nat} (h : Replying m R Pa cl reply t s w)
    (ha : IsAnswer cl reply v) (h1 : acting .client m s.bg = false) (h2 : callActing m s = false) (h3 : ∀ t ∈ w, s.bg.now + d ≤ t + R) :
    Replying m R Pa cl reply t { s with bg := { s.bg with now := s.bg.now + d } } w := by
  rcases h with ⟨rfl, h⟩ | ⟨rfl, h⟩ | ⟨rfl, h⟩
  · rcases h.notWait with h | h
    · rw [h1] at h; cases h
    · rw [h2] at h; cases h
  · have := h3 t rfl
    exact .inr (.inl ⟨rfl, h.task, h.queue, h.conn, h.rxOpen, ⟨Nat.le_add_right_of_le h.now.1, this⟩, h.api⟩)
  · rcases h.notWait ha with h | h
    · rw [h1] at h; cases h
    · rw [h2] at h; cases h

/-- A good call can be started. -/
theorem AtRest.starts {i : Item} {s : Sys} (hs : AtRest m Pa s) (gi : i.Good m Pa) :
    ∃ cemi, Knx.step m s (.api (.call i.call)) = some (⟨s.bg, .seqNr i.call cemi⟩, [.call i.call]) := by
  obtain ⟨cemi, hc⟩ := gi.encodes
  have := hs.api
  have := hs.rxOpen
  exact ⟨cemi, by cases hcl : i.call <;> simp_all [Knx.step, apiStep, apiCall, tunnelCemi, startTunnel]⟩

theorem start_eq (i : Nat) (r : ClientReq) : (clientServer m).start i r = .api (.call (Spec.clientCall r)) := by
  show Ev.api (.call (ClientReq.call r)) = _
  rw [ClientReq.call_eq]

theorem step_now {s s' : Sys} {e : Ev} {o : List Obs} (he : ∀ d, e ≠ .delay d) (hs : Knx.step m s e = some (s', o)) : s'.bg.now = s.bg.now := by
  cases e with
  | delay d => exact absurd rfl (he d)
  | bg e =>
    simp only [Knx.step, Option.map_eq_some_iff, Prod.exists, Prod.mk.injEq] at hs
    obtain ⟨b, o', hb, rfl, rfl⟩ := hs
    cases bgStep_tr hb <;> rfl
  | api e => exact apiStep_now (apiStep_tr hs)

theorem CrowdStep.inv {t : Nat} {x x' : Crowd m} {o : List (PObs (clientServer m))} (hR : R < 10000) (h : CrowdStep m R Pa ans x o x')
    (hi : CInv m R Pa ans t x) (hg : ∀ y ∈ Spec.asked o, GoodReq m Pa ans y.2) : ∃ t', CInv m R Pa ans t' x' ∧ Shape (R := R) m ans t x o t' x' := by
  obtain ⟨hl, hst⟩ := hi
  cases h with
  | @wait p cur w d h1 h2 h3 h4 =>
    refine ⟨t, ⟨hl, ?_⟩, .keep rfl rfl rfl rfl rfl (.inl rfl) ?_⟩
    · rcases hst with ⟨g1, g2, g3⟩ | ⟨i, r, g1, g2, g3, g4⟩
      · exact .inl ⟨g1, g2, g3.task, g3.queue, g3.conn, g3.rxOpen, g3.api⟩
      · exact .inr ⟨i, r, g1, g2, g3, g4.wait g3.answer h1 h2 h4⟩
    · intro h5 h6
      rcases hst with ⟨g1, g2, g3⟩ | ⟨i, r, g1, g2, g3, g4⟩
      · rcases h3 with h3 | h3
        · exact absurd h3 h6
        · exact absurd g3.api h3
      · simp only at g1 h5; rw [g1] at h5; cases h5
  | @reply p p' r t0 o d h1 h2 =>
    obtain ⟨s', o', h3, rfl, rfl⟩ := Pool.sys_cases h2
    rcases hst with ⟨g1, g2, g3⟩ | ⟨i, r', g1, g2, g3, g4⟩
    · cases g2
    · cases g2
      rcases g4 with ⟨g4, -⟩ | ⟨-, g4⟩ | ⟨g4, -⟩
      · cases g4
      · obtain ⟨g5, g6⟩ := g4.reply h1 h3
        have g7 : Replying m R Pa (Spec.clientCall r) (ans r).1 t s' none := .inr (.inr ⟨rfl, g5⟩)
        have g8 : holder (clientServer m) s' p.owner = p.owner := holder_busy _ g7.busy
        exact ⟨t, ⟨hl, .inr ⟨i, r, by simp only [g8]; exact g1, rfl, g3, g7⟩⟩,
          .keep g8 rfl rfl (outcomes_other _ _ _ (.inr (.inr g6))) (began_tag _ _ _) (.inl rfl) (fun h5 => by
            simp only at g1 h5; rw [g1] at h5; cases h5)⟩
      · cases g4
  | @grant p p' cur w i r rest o h1 h2 =>
    obtain ⟨hf, s', o', h3, rfl, rfl⟩ := Pool.grant_cases h1 h2
    have hf' : p.sys.api = .idle := by simpa [clientServer] using hf
    rcases hst with ⟨g1, g2, g3⟩ | ⟨i, r', g1, g2, g3, g4⟩
    · have gr : GoodReq m Pa ans r := hl (i, r) (by simp only [h1]; exact List.mem_cons_self)
      obtain ⟨cemi, g4⟩ := g3.starts gr
      have h3' : Knx.step m p.sys (.api (.call (Spec.clientCall r))) = some (s', o') := by
        have e : (clientServer m).start i r = .api (.call (Spec.clientCall r)) := start_eq i r
        rw [e] at h3; exact h3
      rw [g4] at h3'
      simp only [Option.some.injEq, Prod.mk.injEq] at h3'
      obtain ⟨rfl, rfl⟩ := h3'
      have e1 := g3.early gr g4
      have g8 : holder (clientServer m) ⟨p.sys.bg, .seqNr (Spec.clientCall r) cemi⟩ (some i) = some i := holder_busy _ (by simp)
      refine ⟨p.sys.bg.now, ⟨fun y hy => hl y (by simp only [h1]; exact List.mem_cons_of_mem _ hy), .inr ⟨i, r, g8, rfl, gr, .inl ⟨g2, e1⟩⟩⟩, ?_⟩
      exact .grant i r g1 h1 g8 rfl rfl rfl rfl
    · exact absurd hf' g4.busy
  | @step p p' cur w o e h1 h2 h3 h4 =>
    cases e with
    | grant => exact absurd rfl h1
    | ask i r =>
      rcases Pool.ask_cases h3 with ⟨-, rfl, rfl⟩ | ⟨-, rfl, rfl⟩
      · exact ⟨t, ⟨hl, hst⟩, .keep rfl rfl rfl rfl rfl (.inl rfl) (fun _ _ => rfl)⟩
      · refine ⟨t, ⟨fun y hy => ?_, hst⟩, .keep rfl rfl rfl rfl rfl (.inr (.inl ⟨_, rfl⟩)) (fun _ _ => rfl)⟩
        rcases List.mem_append.1 hy with hy | hy
        · exact hl y hy
        · exact hg y hy
    | leave j =>
      simp only [Pool.step] at h3
      split at h3
      · simp only [Option.some.injEq, Prod.mk.injEq] at h3
        obtain ⟨rfl, rfl⟩ := h3
        exact ⟨t, ⟨fun y hy => hl y (List.mem_of_mem_filter hy), hst⟩,
          .keep rfl rfl rfl rfl rfl (.inr (.inr ⟨j, by simp, rfl⟩)) (fun _ _ => rfl)⟩
      · cases h3
    | sys e =>
      obtain ⟨s', o', h5, rfl, rfl⟩ := Pool.sys_cases h3
      rw [inner_tag] at h4
      have he : ∀ d, e ≠ .delay d := fun d h => h2 d (by rw [h])
      rw [inner_tag]
      rcases hst with ⟨g1, g2, g3⟩ | ⟨i, r, g1, g2, g3, g4⟩
      · obtain ⟨g4, g5, g6⟩ := g3.step he h5 h4
        have g7 : holder (clientServer m) s' p.owner = none := holder_idle _ g4.api
        refine ⟨t, ⟨hl, .inl ⟨g7, by rw [if_pos g5]; exact g2, g4⟩⟩, .keep (g7.trans g1.symm) rfl rfl
          (outcomes_other _ _ _ (.inr (.inr g6))) (began_tag _ _ _) (.inl rfl) ?_⟩
        intro _ _
        exact step_now he h5
      · rcases g4.step hR g3.suits he h5 h4 with ⟨g5, g6⟩ | ⟨y, rfl, g6, g7, g8⟩
        · have g9 : holder (clientServer m) s' p.owner = p.owner := holder_busy _ g5.busy
          exact ⟨t, ⟨hl, .inr ⟨i, r, by simp only [g9]; exact g1, g2, g3, g5⟩⟩,
            .keep g9 rfl rfl (outcomes_other _ _ _ (.inr (.inr g6))) (began_tag _ _ _) (.inl rfl) (fun _ _ => step_now he h5)⟩
        · have g9 : holder (clientServer m) s' p.owner = none := holder_idle _ g8.api
          refine ⟨t, ⟨hl, .inl ⟨g9, g7, g8⟩⟩, .finish i r g1 g2 g9 rfl rfl ?_ (began_tag _ _ _) ?_⟩
          · have ho : (clientServer m).own e = true := by
              cases e with
              | api e => rfl
              | delay d => exact absurd rfl (he d)
              | bg e =>
                have h6 : Knx.step m p.sys (.bg e) = some (s', y ++ [.ret (ans r).2]) := h5
                simp only [Knx.step] at h6
                obtain ⟨⟨b, o'⟩, hb, h7⟩ := Option.map_eq_some_iff.1 h6
                simp only [Prod.mk.injEq] at h7
                obtain ⟨rfl, rfl⟩ := h7
                have := (bgStep_tr hb).facts.returned
                simp [returned] at this
            simp only at g1
            rw [ho, g1, outcomes_own, returned_app, g6]
            rfl
          · have := g4.now
            have h6 : s'.bg.now = p.sys.bg.now := step_now he h5
            simp only at this ⊢
            omega

/-- The result that is still to come. -/
def due (ans : ClientReq → Cemi × Ret) (x : Crowd m) : List (Nat × Ret) :=
  match x.pool.owner, x.cur with
  | some i, some r => [(i, (ans r).2)]
  | _, _ => []

theorem CrowdRun.inv {x x' : Crowd m} {tr : List (PObs (clientServer m))} (hR : R < 10000) (h : CrowdRun m R Pa ans x tr x') : ∀ {t : Nat},
    CInv m R Pa ans t x → (∀ y ∈ Spec.asked tr, GoodReq m Pa ans y.2) →
    (∃ t', CInv m R Pa ans t' x') ∧ due ans x ++ (began tr).map (fun y => (y.1, (ans y.2).2)) = outcomes tr ++ due ans x' := by
  induction h with
  | nil x => intro t hi _; exact ⟨⟨t, hi⟩, by simp [began, outcomes]⟩
  | @cons x x1 x2 o tr h1 _ ih =>
    intro t hi hg
    rw [asked_append] at hg
    obtain ⟨t1, hi1, hs⟩ := h1.inv hR hi (fun y hy => hg y (by simp [hy]))
    obtain ⟨g1, g2⟩ := ih hi1 (fun y hy => hg y (by simp [hy]))
    refine ⟨g1, ?_⟩
    rw [outcomes_append, began_append, List.map_append, List.append_assoc, ← g2]
    cases hs with
    | keep k1 k2 _ k4 k5 => rw [k4, k5]; simp [due, k1, k2]
    | grant i r k1 k2 k3 k4 k5 k6 k7 =>
      have e1 : due ans x = [] := by simp [due, k1]
      have e2 : due ans x1 = [(i, (ans r).2)] := by simp [due, k3, k4]
      rw [k6, k7, e1, e2]; rfl
    | finish i r k1 k2 k3 k4 k5 k6 k7 => rw [k6, k7]; simp [due, k1, k2, k3]

theorem cinv_start {p : Pool (clientServer m)} {tr : List (PObs (clientServer m))} (h : PExec (clientServer m) p tr) (hpc : p.sys.bg.pc = .recv)
    (hc : p.sys.bg.conn ≠ none) (ho : p.sys.bg.rxOpen = true) (hi : p.sys.api = .idle) (hq : ∀ c ∈ p.sys.bg.queue, Pa c) (hl : p.line = []) :
    CInv m R Pa ans 0 ⟨p, none, none⟩ ∧ p.owner = none := by
  have h1 : p.owner = none := ((h.turn (clientServer_lawful m)).2.1.2 (by simp [clientServer, hi]))
  exact ⟨⟨by simp [hl], .inl ⟨h1, rfl, .inl hpc, hq, hc, ho, hi⟩⟩, h1⟩

/-- C117: in every schedule, the callers get the right results, in the order in which their calls got their turn; at most the result of the call in
progress is missing. -/
theorem C117_results {p : Pool (clientServer m)} {x : Crowd m} {tr tr' : List (PObs (clientServer m))} (h : PExec (clientServer m) p tr)
    (hR : R < 10000) (hpc : p.sys.bg.pc = .recv) (hc : p.sys.bg.conn ≠ none) (ho : p.sys.bg.rxOpen = true) (hi : p.sys.api = .idle)
    (hq : ∀ c ∈ p.sys.bg.queue, Pa c) (hl : p.line = []) (hg : ∀ y ∈ Spec.asked tr', GoodReq m Pa ans y.2)
    (hr : CrowdRun m R Pa ans ⟨p, none, none⟩ tr' x) :
    ∃ l, (began tr').map (fun y => (y.1, (ans y.2).2)) = outcomes tr' ++ l ∧ l.length ≤ 1 ∧ (x.pool.sys.api = .idle → l = []) := by
  obtain ⟨h1, h2⟩ := cinv_start (R := R) (ans := ans) h hpc hc ho hi hq hl
  obtain ⟨⟨t', h3⟩, h4⟩ := hr.inv hR h1 hg
  refine ⟨due ans x, by simpa [due, h2] using h4, by unfold due; split <;> simp, fun h5 => ?_⟩
  rcases h3.state with ⟨g, -⟩ | ⟨i, r, -, -, -, g⟩
  · simp [due, g]
  · exact absurd h5 g.busy

theorem Replying.since {cl : Call} {reply : Cemi} {t : Nat} {s : Sys} {w : Option Nat} (h : Replying m R Pa cl reply t s w) : t ≤ s.bg.now := by
  rcases h with ⟨-, h⟩ | ⟨-, h⟩ | ⟨-, h⟩
  · rw [h.now]
  · exact h.now.1
  · exact h.now.1

/-- The call in progress is over at most `R` milliseconds after it began. -/
theorem CrowdRun.owner_time {x x' : Crowd m} {tr : List (PObs (clientServer m))} (hR : R < 10000) (h : CrowdRun m R Pa ans x tr x') :
    ∀ {t i : Nat} {r : ClientReq}, CInv m R Pa ans t x → (∀ y ∈ Spec.asked tr, GoodReq m Pa ans y.2) → x.pool.owner = some i → x.cur = some r →
      (i, (ans r).2) ∉ outcomes tr → x'.pool.sys.bg.now ≤ t + R := by
  induction h with
  | nil x =>
    intro t i r hi _ h1 h2 _
    rcases hi.state with ⟨g, -⟩ | ⟨i', r', -, -, -, g⟩
    · rw [g] at h1; cases h1
    · exact g.now
  | @cons x x1 x2 o tr h1 _ ih =>
    intro t i r hi hg h2 h3 h4
    rw [asked_append] at hg
    rw [outcomes_append, List.mem_append, not_or] at h4
    obtain ⟨t1, hi1, hs⟩ := h1.inv hR hi (fun y hy => hg y (by simp [hy]))
    cases hs with
    | keep k1 k2 k3 k4 k5 => subst k3; exact ih hi1 (fun y hy => hg y (by simp [hy])) (by rw [k1, h2]) (by rw [k2, h3]) h4.2
    | grant i r k1 => rw [k1] at h2; cases h2
    | finish i' r' k1 k2 k3 k4 k5 k6 =>
      rw [k1] at h2; cases h2
      rw [k2] at h3; cases h3
      exact absurd (by rw [k6]; simp) h4.1

/-- And everybody in the line has their turn. -/
theorem CrowdRun.line_time {x x' : Crowd m} {tr : List (PObs (clientServer m))} (hR : R < 10000) (h : CrowdRun m R Pa ans x tr x') :
    ∀ {t i : Nat} {r : (clientServer m).Req} {pre post : List (Nat × (clientServer m).Req)}, CInv m R Pa ans t x → (∀ y ∈ Spec.asked tr, GoodReq m Pa ans y.2) →
      x.pool.line = pre ++ (i, r) :: post → PObs.left i ∉ tr → (i, (ans r).2) ∉ outcomes tr →
      (x.pool.owner = none → x'.pool.sys.bg.now ≤ x.pool.sys.bg.now + (pre.length + 1) * R) ∧
        (x.pool.owner ≠ none → x'.pool.sys.bg.now ≤ t + (pre.length + 2) * R) := by
  induction h with
  | nil x =>
    intro t i r pre post hi _ h1 _ _
    refine ⟨fun _ => by omega, fun h => ?_⟩
    rcases hi.state with ⟨g, -⟩ | ⟨i', r', -, -, -, g⟩
    · exact absurd g h
    · have := g.now
      have e : (pre.length + 2) * R = (pre.length + 1) * R + R := by rw [Nat.add_mul pre.length 2, Nat.add_mul pre.length 1]; omega
      omega
  | @cons x x1 x2 o tr h1 hrest ih =>
    intro t i r pre post hi hg h2 h3 h4
    rw [asked_append] at hg
    rw [outcomes_append, List.mem_append, not_or] at h4
    rw [List.mem_append, not_or] at h3
    obtain ⟨t1, hi1, hs⟩ := h1.inv hR hi (fun y hy => hg y (by simp [hy]))
    have hg1 : ∀ y ∈ Spec.asked tr, GoodReq m Pa ans y.2 := fun y hy => hg y (by simp [hy])
    cases hs with
    | keep k1 k2 k3 k4 k5 k6 k7 =>
      subst k3
      have key : ∃ pre' post', x1.pool.line = pre' ++ (i, r) :: post' ∧ pre'.length ≤ pre.length := by
        rcases k6 with k6 | ⟨y, k6⟩ | ⟨j, k8, k6⟩
        · exact ⟨pre, post, by rw [k6, h2], Nat.le_refl _⟩
        · exact ⟨pre, post ++ [y], by rw [k6, h2]; simp, Nat.le_refl _⟩
        · have hij : i ≠ j := by rintro rfl; exact h3.1 k8
          refine ⟨pre.filter (·.1 ≠ j), post.filter (·.1 ≠ j), ?_, List.length_filter_le _ _⟩
          rw [k6, h2, List.filter_append, List.filter_cons_of_pos (by simpa using hij)]
      obtain ⟨pre', post', k8, k9⟩ := key
      obtain ⟨g1, g2⟩ := ih hi1 hg1 k8 h3.2 h4.2
      have m1 := Nat.mul_le_mul_right R (Nat.add_le_add_right k9 1)
      have m2 := Nat.mul_le_mul_right R (Nat.add_le_add_right k9 2)
      refine ⟨fun h => ?_, fun h => ?_⟩
      · have := g1 (by rw [k1, h])
        rw [k7 h (by rw [h2]; simp)] at this
        omega
      · have := g2 (by rw [k1]; exact h)
        omega
    | grant i' r' k1 k2 k3 k4 k5 k6 k7 =>
      refine ⟨fun _ => ?_, fun h => absurd k1 h⟩
      subst k5
      rw [h2] at k2
      cases pre with
      | nil =>
        obtain ⟨k2, -⟩ := List.cons.inj k2
        cases k2
        have := hrest.owner_time hR hi1 hg1 k3 k4 h4.2
        simpa using this
      | cons a pre =>
        have := (ih hi1 hg1 (List.cons.inj k2).2.symm h3.2 h4.2).2 (by rw [k3]; simp)
        simpa using this
    | finish i' r' k1 k2 k3 k4 k5 k6 k7 k8 =>
      refine ⟨fun h => (by rw [k1] at h; cases h), fun _ => ?_⟩
      have := (ih hi1 hg1 (by rw [k5, h2]) h3.2 h4.2).1 k3
      have e : (pre.length + 2) * R = (pre.length + 1) * R + R := by rw [Nat.add_mul pre.length 2, Nat.add_mul pre.length 1]; omega
      omega

/-- C117: a caller before whom `n` others are waiting gets its result within (`n` + 2)·`R` milliseconds: `R` for the call in progress, for each of the
others, and for its own. -/
theorem C117_in_time {p : Pool (clientServer m)} {x x' : Crowd m} {tr tr' tr'' : List (PObs (clientServer m))} (h : PExec (clientServer m) p tr)
    (hR : R < 10000) (hpc : p.sys.bg.pc = .recv) (hc : p.sys.bg.conn ≠ none) (ho : p.sys.bg.rxOpen = true) (hi : p.sys.api = .idle)
    (hq : ∀ c ∈ p.sys.bg.queue, Pa c) (hl : p.line = []) (hg : ∀ y ∈ Spec.asked (tr' ++ tr''), GoodReq m Pa ans y.2)
    (hr : CrowdRun m R Pa ans ⟨p, none, none⟩ tr' x) {i : Nat} {r : (clientServer m).Req} {pre post : List (Nat × (clientServer m).Req)}
    (hx : x.pool.line = pre ++ (i, r) :: post) (hr' : CrowdRun m R Pa ans x tr'' x') (hn : PObs.left i ∉ tr'')
    (ht : x.pool.sys.bg.now + (pre.length + 2) * R < x'.pool.sys.bg.now) : (i, (ans r).2) ∈ outcomes tr'' := by
  rw [asked_append] at hg
  obtain ⟨h1, h2⟩ := cinv_start (R := R) (ans := ans) h hpc hc ho hi hq hl
  obtain ⟨⟨t', h3⟩, -⟩ := hr.inv hR h1 (fun y hy => hg y (by simp [hy]))
  refine Decidable.byContradiction fun h4 => ?_
  obtain ⟨g1, g2⟩ := hr'.line_time hR h3 (fun y hy => hg y (by simp [hy])) hx hn h4
  have e : (pre.length + 2) * R = (pre.length + 1) * R + R := by rw [Nat.add_mul pre.length 2, Nat.add_mul pre.length 1]; omega
  rcases h3.state with ⟨g, -⟩ | ⟨i, r, g, -, -, g3⟩
  · have := g1 g; omega
  · have := g2 (by rw [g]; simp)
    have := g3.since
    omega

theorem Pool.sys_step {V : Server} {p : Pool V} {e : V.E} {s' : V.S} {o : List Obs} (h1 : V.begins e = false) (h2 : V.drops e = false)
    (h : V.step p.sys e = some (s', o)) : p.step (.sys e) = some (⟨s', holder V s' p.owner, p.line⟩, o.map (tag (V.own e) p.owner)) := by
  simp [Pool.step, h1, h2, h]

theorem CrowdRun.append {x x' x'' : Crowd m} {a b : List (PObs (clientServer m))} (h1 : CrowdRun m R Pa ans x a x') (h2 : CrowdRun m R Pa ans x' b x'') :
    CrowdRun m R Pa ans x (a ++ b) x'' := by
  induction h1 with
  | nil => exact h2
  | cons h _ ih => rw [List.append_assoc]; exact .cons h (ih h2)

/-- Nobody calls and nobody gives up, and these get the lock. -/
def Inside (l : List (Nat × (clientServer m).Req)) (tr : List (PObs (clientServer m))) : Prop :=
  Spec.asked tr = [] ∧ (∀ i, PObs.left i ∉ tr) ∧ began tr = l

theorem inside_tag (b : Bool) (i : Option Nat) (o : List Obs) : Inside (m := m) [] (o.map (tag b i)) := by
  have : ∀ y ∈ o.map (tag (V := clientServer m) b i), (∃ j x, y = .own j x) ∨ ∃ x, y = .other x := by
    intro y hy
    obtain ⟨x, -, rfl⟩ := List.mem_map.1 hy
    cases b <;> cases i <;> simp [tag]
  refine ⟨?_, fun j hj => ?_, ?_⟩
  · simp only [Spec.asked, List.filterMap_eq_nil_iff]
    intro y hy
    rcases this y hy with ⟨j, x, rfl⟩ | ⟨x, rfl⟩ <;> rfl
  · rcases this _ hj with ⟨j, x, h⟩ | ⟨x, h⟩ <;> cases h
  · simp only [Spec.began, List.filterMap_eq_nil_iff]
    intro y hy
    rcases this y hy with ⟨j, x, rfl⟩ | ⟨x, rfl⟩ <;> rfl

theorem Inside.append {l l' : List (Nat × (clientServer m).Req)} {a b : List (PObs (clientServer m))} (h1 : Inside l a) (h2 : Inside l' b) :
    Inside (l ++ l') (a ++ b) :=
  ⟨by rw [asked_append, h1.1, h2.1]; rfl, fun i h => (List.mem_append.1 h).elim (h1.2.1 i) (h2.2.1 i), by rw [began_append, h1.2.2, h2.2.2]⟩

theorem call_only {s s' : Sys} {e : ApiEv} {o : List Obs} (h : Knx.step m s (.api e) = some (s', o)) (he : (∃ c, e = .call c) ∨ e = .drop) :
    s.api = .idle := by
  cases ha : s.api
  case idle => rfl
  all_goals (exfalso; rcases he with ⟨c, rfl⟩ | rfl <;> simp [Knx.step, apiStep, ha] at h)

/-- A run of the client to the end of a call is a run with the callers. -/
theorem Replied.lift {reply : Cemi} {s s' : Sys} {w w' : Option Nat} {tr : List Obs} (hR : R < 10000) (h : Replied m R Pa reply s w tr s' w') :
    ∀ {t i : Nat} {r : ClientReq} {l : List (Nat × ClientReq)}, (ans r).1 = reply → GoodReq m Pa ans r → Replying m R Pa (Spec.clientCall r) reply t s w →
      returned tr ≠ [] → ∃ tr' x', CrowdRun m R Pa ans ⟨⟨s, some i, l⟩, some r, w⟩ tr' x' ∧ x'.pool.owner = none ∧ x'.pool.line = l ∧ Inside [] tr' := by
  induction h with
  | nil => intro t i r l _ _ _ h; exact absurd rfl h
  | wait d h1 h2 h3 _ ih =>
    intro t i r l hr hg hp hn
    subst hr
    obtain ⟨tr', x', g1, g2⟩ := ih (i := i) (l := l) rfl hg (hp.wait hg.answer h1 h2 h3) hn
    exact ⟨_, x', .cons (.wait d h1 h2 (.inr hp.busy) h3) g1, g2⟩
  | @reply s s1 s2 t0 w' o tr d h1 h2 _ ih =>
    intro t i r l hr hg hp hn
    subst hr
    rcases hp with ⟨hp, -⟩ | ⟨-, hp⟩ | ⟨hp, -⟩
    · cases hp
    · obtain ⟨g5, g6⟩ := hp.reply h1 h2
      have g7 : Replying m R Pa (Spec.clientCall r) (ans r).1 t s1 none := .inr (.inr ⟨rfl, g5⟩)
      obtain ⟨tr', x', k1, k2, k3, k4⟩ := ih (i := i) (l := l) rfl hg g7 (by rw [returned_app, g6] at hn; exact hn)
      have st := Pool.sys_step (V := clientServer m) (p := ⟨s, some i, l⟩) (e := .bg (.dgram d)) rfl rfl h2
      rw [holder_busy _ g7.busy] at st
      exact ⟨_, x', .cons (.reply d h1 st) k1, k2, k3, (inside_tag _ _ _).append k4⟩
    · cases hp
  | @step s s1 s2 w w' o tr e h1 h2 h3 _ ih =>
    intro t i r l hr hg hp hn
    subst hr
    have hb : (clientServer m).begins e = false ∧ (clientServer m).drops e = false := by
      cases e with
      | api e =>
        cases e with
        | call c => exact absurd (call_only h2 (.inl ⟨c, rfl⟩)) hp.busy
        | drop => exact absurd (call_only h2 (.inr rfl)) hp.busy
        | _ => simp [clientServer]
      | _ => simp [clientServer]
    have st := Pool.sys_step (V := clientServer m) (p := ⟨s, some i, l⟩) hb.1 hb.2 h2
    have cs := CrowdStep.step (R := R) (ans := ans) (cur := some r) (w := w) (.sys e) (by simp) (by rintro d h; cases h; exact h1 d rfl) st (by rw [inner_tag]; exact h3)
    rw [inner_tag] at cs
    rcases hp.step hR hg.suits h1 h2 h3 with ⟨g5, g6⟩ | ⟨y, rfl, g6, g7, g8⟩
    · rw [holder_busy _ g5.busy] at cs
      obtain ⟨tr', x', k1, k2, k3, k4⟩ := ih (i := i) (l := l) rfl hg g5 (by rw [returned_app, g6] at hn; exact hn)
      exact ⟨_, x', .cons cs k1, k2, k3, (inside_tag _ _ _).append k4⟩
    · exact ⟨_, _, .cons cs (.nil _), holder_idle _ g8.api, rfl, by rw [List.append_nil]; exact inside_tag _ _ _⟩

/-- The call in progress can be brought to its end. -/
theorem CInv.over {t : Nat} {x : Crowd m} (hR : R < 10000) (h : CInv m R Pa ans t x) :
    ∃ tr x', CrowdRun m R Pa ans x tr x' ∧ x'.pool.owner = none ∧ x'.pool.line = x.pool.line ∧ Inside [] tr := by
  rcases h.state with ⟨g, -⟩ | ⟨i, r, g1, g2, g3, g4⟩
  · exact ⟨[], x, .nil _, g, rfl, rfl, by simp, rfl⟩
  · obtain ⟨d, hd⟩ := g3.sendable
    obtain ⟨y, s', w', h1, h2⟩ : Finishes m R Pa (ans r).1 (ans r).2 x.pool.sys x.sent := by
      have g4' := g4
      rcases g4' with ⟨e, g⟩ | ⟨e, g⟩ | ⟨e, g⟩
      · rw [e]; exact g.finishes hR g3.suits hd
      · rw [e]; exact g.finishes hR g3.suits hd _ _ (Nat.le_refl _)
      · rw [e]; exact g.finishes hR g3.suits
    obtain ⟨tr', x', k1, k2, k3, k4⟩ := h1.lift hR (i := i) (l := x.pool.line) rfl g3 g4 (by simp [returned])
    refine ⟨tr', x', ?_, k2, k3, k4⟩
    obtain ⟨⟨s, ow, l⟩, cur, w⟩ := x
    simp only at g1 g2 k1
    subst g1 g2
    exact k1

theorem crowd_all (hR : R < 10000) : ∀ (n : Nat) {t : Nat} {x : Crowd m}, x.pool.line.length = n → CInv m R Pa ans t x →
    ∃ tr x', CrowdRun m R Pa ans x tr x' ∧ x'.pool.owner = none ∧ x'.pool.line = [] ∧ Inside x.pool.line tr := by
  intro n
  induction n with
  | zero =>
    intro t x hn h
    obtain ⟨tr, x', k1, k2, k3, k4⟩ := h.over hR
    have hn := List.eq_nil_of_length_eq_zero hn
    exact ⟨tr, x', k1, k2, by rw [k3, hn], by rw [hn]; exact k4⟩
  | succ n ih =>
    intro t x hn h
    obtain ⟨tr, x1, k1, k2, k3, k4⟩ := h.over hR
    obtain ⟨⟨t1, h1⟩, -⟩ := k1.inv hR h (by rw [k4.1]; simp)
    obtain ⟨⟨i, r⟩, rest, hl⟩ := List.exists_cons_of_length_eq_add_one (k3 ▸ hn : x1.pool.line.length = n + 1)
    have hs : AtRest m Pa x1.pool.sys := by
      rcases h1.state with ⟨-, -, g⟩ | ⟨_, _, g, _⟩
      · exact g
      · rw [k2] at g; cases g
    have gr : GoodReq m Pa ans r := h1.line (i, r) (by rw [hl]; exact List.mem_cons_self)
    obtain ⟨cemi, g4⟩ := hs.starts gr
    have hf : (clientServer m).free x1.pool.sys = true := by simp [clientServer, hs.api]
    have st : x1.pool.step .grant = some (⟨⟨x1.pool.sys.bg, .seqNr (Spec.clientCall r) cemi⟩, some i, rest⟩,
        [.began i r, .own i (.call (Spec.clientCall r))]) := by
      have g5 : (clientServer m).step x1.pool.sys ((clientServer m).start i r) =
          some (⟨x1.pool.sys.bg, .seqNr (Spec.clientCall r) cemi⟩, [.call (Spec.clientCall r)]) := by
        have e : (clientServer m).start i r = .api (.call (Spec.clientCall r)) := start_eq i r
        rw [e]; exact g4
      have g8 : holder (clientServer m) ⟨x1.pool.sys.bg, .seqNr (Spec.clientCall r) cemi⟩ (some i) = some i := holder_busy _ (by simp)
      simp only [Pool.step, hl, hf, if_true]
      rw [g5]
      simp [g8, tag]
    have cs := CrowdStep.grant (R := R) (Pa := Pa) (ans := ans) (cur := x1.cur) (w := x1.sent) hl st
    obtain ⟨t2, h2, -⟩ := cs.inv hR h1 (by simp [Spec.asked])
    obtain ⟨tr2, x2, q1, q2, q3, q4⟩ := ih (by rw [k3] at hl; rw [hl] at hn; simpa using hn) h2
    refine ⟨_, x2, k1.append (.cons cs q1), q2, q3, ?_⟩
    rw [← k3, hl]
    have ig : Inside (m := m) [(i, r)] [.began i r, .own i (.call (Spec.clientCall r))] :=
      ⟨rfl, fun j h => (by simp only [List.mem_cons, List.not_mem_nil, or_false] at h; rcases h with h | h <;> cases h), rfl⟩
    have := k4.append (ig.append q4)
    exact this

/-- C117: and nothing ever stands in their way: every run can go on, without further calls, until everybody in the line has had
their turn and the lock is free. -/
theorem C117_goes_on {p : Pool (clientServer m)} {x : Crowd m} {tr tr' : List (PObs (clientServer m))} (h : PExec (clientServer m) p tr)
    (hR : R < 10000) (hpc : p.sys.bg.pc = .recv) (hc : p.sys.bg.conn ≠ none) (ho : p.sys.bg.rxOpen = true) (hi : p.sys.api = .idle)
    (hq : ∀ c ∈ p.sys.bg.queue, Pa c) (hl : p.line = []) (hg : ∀ y ∈ Spec.asked tr', GoodReq m Pa ans y.2)
    (hr : CrowdRun m R Pa ans ⟨p, none, none⟩ tr' x) :
    ∃ tr'' x', CrowdRun m R Pa ans x tr'' x' ∧ x'.pool.owner = none ∧ x'.pool.line = [] ∧ Spec.asked tr'' = [] ∧ (∀ i, PObs.left i ∉ tr'') ∧
      began tr'' = x.pool.line := by
  obtain ⟨h1, -⟩ := cinv_start (R := R) (ans := ans) h hpc hc ho hi hq hl
  obtain ⟨⟨t', h3⟩, -⟩ := hr.inv hR h1 hg
  exact crowd_all hR _ rfl h3

theorem ask_line {V : Server} {s : V.S} {l : List (Nat × V.Req)} (i : Nat) (q : V.Req) (ha : V.alive s = true) (hw : V.away s i = false)
    (he : V.early q = false) (hl : ∀ x ∈ l, x.1 ≠ i) :
    Pool.step (V := V) ⟨s, none, l⟩ (.ask i q) = some (⟨s, none, l ++ [(i, q)]⟩, [.asked i q]) := by
  simp only [Pool.step, ha, hw, he]
  rw [if_pos ⟨trivial, by simp, hl, trivial⟩]
  rfl

/-- With which telegram the server replies in the example: 1/0/1 has the value 1, and writes are confirmed. -/
def replies7 : ClientReq → Cemi × Ret
  | .read _ => (tel7, .value [1])
  | _ => (confirmCemi 0x0801, .unit)

/-- The case of C117: one caller reads 1/0/1, the second writes to it; both get their results. -/
example (m : Mode) : ∃ p tr, PExec (clientServer m) p tr ∧ p.sys.bg.pc = .recv ∧ p.sys.bg.conn ≠ none ∧ p.sys.bg.rxOpen = true ∧ p.sys.api = .idle ∧
    p.sys.bg.queue = [] ∧ p.line = [] ∧ ∃ tr' x, CrowdRun m 9000 (fun _ => False) replies7 ⟨p, none, none⟩ tr' x ∧
    Spec.asked tr' = [(1, ClientReq.read (.group3 ⟨1, 0, 1⟩)), (2, ClientReq.write (.group3 ⟨1, 0, 1⟩) [1] true)] ∧
    (∀ y ∈ Spec.asked tr', GoodReq m (fun _ => False) replies7 y.2) ∧ x.pool.sys.api = .idle ∧ outcomes tr' = [(1, .value [1]), (2, .unit)] := by
  obtain ⟨p, tr, h1, h2⟩ := pexec_of_evs (V := clientServer m)
    (evs := [.sys (.bg .run), .sys (.bg .sendOk), .sys (.bg (.dgram grant7)), .sys (.bg .run)])
    (f := fun x => (x.1.sys.bg.pc, x.1.sys.bg.conn.isSome, x.1.sys.bg.rxOpen, x.1.sys.api, x.1.sys.bg.queue, x.1.line.length))
    (y := (.recv, true, true, .idle, [], 0)) (by cases m <;> rfl)
  simp only [Prod.mk.injEq] at h2
  obtain ⟨g1, g2, g3, g4, g5, g6⟩ := h2
  replace g6 := List.eq_nil_of_length_eq_zero g6
  have g2' : p.sys.bg.conn ≠ none := by intro h; rw [h] at g2; cases g2
  obtain ⟨s, ow, l⟩ := p
  simp only at g1 g2 g2' g3 g4 g5 g6
  subst g6
  obtain ⟨-, g7⟩ := cinv_start (R := 9000) (Pa := fun _ => False) (ans := replies7) h1 g1 g2' g3 g4 (by simp [g5]) rfl
  simp only at g7
  subst g7
  have cf : Carries m (confirmation 7 0 0x0801) (confirmCemi 0x0801) :=
    ⟨_, decodes_request 7 0 0 _ (by simp [word]), by cases m <;> decide +kernel⟩
  have good1 : GoodReq m (fun _ => False) replies7 (.read (.group3 ⟨1, 0, 1⟩)) :=
    ⟨⟨rfl, ind7, by decide +kernel, rfl, rfl⟩, fun _ h => h.elim, fun _ _ h => (by cases h), fun _ _ h => (by cases h), _, carries7 m⟩
  have good2 : GoodReq m (fun _ => False) replies7 (.write (.group3 ⟨1, 0, 1⟩) [1] true) :=
    ⟨⟨rfl, rfl⟩, fun _ h => h.elim, fun _ _ h => (by cases h), fun _ _ h => (by cases h; simp), _, cf⟩
  have e1 := ask_line (V := clientServer m) (s := s) (l := []) 1 (ClientReq.read (.group3 ⟨1, 0, 1⟩)) g3 rfl rfl (by simp)
  have e2 := ask_line (V := clientServer m) (s := s) (l := [(1, ClientReq.read (.group3 ⟨1, 0, 1⟩))]) 2
    (ClientReq.write (.group3 ⟨1, 0, 1⟩) [1] true) g3 rfl rfl (by intro x hx; rcases List.mem_singleton.1 hx with rfl; simp)
  have r1 := CrowdStep.step (R := 9000) (Pa := fun _ => False) (ans := replies7) (cur := none) (w := none) _ (by simp) (by simp) e1 (fine_nil m _)
  have r2 := CrowdStep.step (R := 9000) (Pa := fun _ => False) (ans := replies7) (cur := none) (w := none) _ (by simp) (by simp) e2 (fine_nil m _)
  have r3 := CrowdRun.cons r1 (.cons r2 (.nil _))
  have ha : ∀ y ∈ [((1, ClientReq.read (.group3 ⟨1, 0, 1⟩)) : Nat × ClientReq), (2, ClientReq.write (.group3 ⟨1, 0, 1⟩) [1] true)],
      GoodReq m (fun _ => False) replies7 y.2 := by
    intro y hy
    simp only [List.mem_cons, List.not_mem_nil, or_false] at hy
    rcases hy with rfl | rfl
    · exact good1
    · exact good2
  obtain ⟨tr'', x', k1, k2, k3, k4, k5, k6⟩ := C117_goes_on h1 (by omega) g1 g2' g3 g4 (by simp [g5]) rfl (by exact fun y hy => ha y hy) r3
  have r4 := r3.append k1
  have ea : Spec.asked ([PObs.asked 1 (ClientReq.read (.group3 ⟨1, 0, 1⟩))] ++ ([.asked 2 (ClientReq.write (.group3 ⟨1, 0, 1⟩) [1] true)] ++ []) ++ tr'') =
      ([(1, ClientReq.read (.group3 ⟨1, 0, 1⟩)), (2, ClientReq.write (.group3 ⟨1, 0, 1⟩) [1] true)] : List (Nat × (clientServer m).Req)) := by
    rw [asked_append, k4]; rfl
  have eb : began ([PObs.asked 1 (ClientReq.read (.group3 ⟨1, 0, 1⟩))] ++ ([.asked 2 (ClientReq.write (.group3 ⟨1, 0, 1⟩) [1] true)] ++ []) ++ tr'') =
      ([(1, ClientReq.read (.group3 ⟨1, 0, 1⟩)), (2, ClientReq.write (.group3 ⟨1, 0, 1⟩) [1] true)] : List (Nat × (clientServer m).Req)) := by
    rw [began_append, k6]; rfl
  have ga := fun y hy => ha y (ea ▸ hy)
  obtain ⟨⟨t, hv⟩, -⟩ := r4.inv (by omega) (cinv_start (R := 9000) (ans := replies7) h1 g1 g2' g3 g4 (by simp [g5]) rfl).1 ga
  have hx : x'.pool.sys.api = .idle := by
    rcases hv.state with ⟨-, -, g⟩ | ⟨_, _, g, _⟩
    · exact g.api
    · rw [k2] at g; cases g
  obtain ⟨l, l1, -, l3⟩ := C117_results h1 (by omega) g1 g2' g3 g4 (by simp [g5]) rfl ga r4
  rw [l3 hx, eb, List.append_nil] at l1
  exact ⟨_, tr, h1, g1, g2', g3, g4, g5, rfl, _, x', r4, ea, ga, hx, l1.symm⟩

end Knx
