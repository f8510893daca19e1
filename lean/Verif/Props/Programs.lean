import Mathlib.Data.List.Induction
import Verif.Spec.Programs
import Verif.Props.Calls

/-!
# Properties of programs that use a client, and of the sample program (C86, C87)
-/

namespace Knx
open Spec

/-! ## What each call sends -/

theorem sentBy_snoc (tr : List Obs) (x : Obs) : sentBy (tr ++ [x]) = sentStep (sentBy tr) x := by simp [sentBy]

theorem sentBy_getLast (tr : List Obs) : (sentBy tr).getLast? = (lastCall tr).map fun c => (c, apiSent (since isCall tr)) := by
  induction tr using List.reverseRecOn with
  | nil => rfl
  | append_singleton tr x ih =>
    rw [sentBy_snoc]
    by_cases hx : isCall x = true
    · cases x <;> simp [isCall] at hx
      rename_i c
      rw [lastCall_call, since_call tr c [] rfl]
      simp [sentStep, apiSent]
    · have hx' : [x].any isCall = false := by simpa using hx
      rw [lastCall_same _ _ hx', since_task _ hx', apiSent_append]
      cases x <;> try (simp [sentStep, apiSent, ih]; done)
      case call => exact absurd rfl hx
      case tx w p =>
        cases w
        · simp [sentStep, apiSent, ih]
        · have e : apiSent [Obs.tx .api p] = [p] := rfl
          rw [e]
          cases hl : lastCall tr with
          | none => rw [hl] at ih; simp only [sentStep, ih]; simpa using ih
          | some c => rw [hl] at ih; simp only [sentStep, ih, Option.map_some, List.getLast?_concat]

theorem sentBy_fst (tr : List Obs) : (sentBy tr).map (·.1) = calls tr := by
  induction tr using List.reverseRecOn with
  | nil => rfl
  | append_singleton tr x ih =>
    rw [sentBy_snoc, calls_append, ← ih]
    cases x <;> try (simp [sentStep, calls]; done)
    rename_i w p
    cases w
    · simp [sentStep, calls]
    · simp only [sentStep]
      split
      · rename_i y hy
        rw [List.map_append]
        conv_rhs => rw [← List.dropLast_append_getLast? _ hy]
        simp [calls]
      · simp [calls]

/-- A step either sends nothing for a call, or nothing but one datagram. -/
theorem step_sends {m : Mode} {s s' : Sys} {e : Ev} {o : List Obs} (hs : Knx.step m s e = some (s', o)) :
    (∀ p, Obs.tx .api p ∉ o) ∨ ∃ p, o = [.tx .api p] := by
  by_cases h : ∃ p, Obs.tx .api p ∈ o
  · obtain ⟨p, hp⟩ := h
    right
    have ht := step_api hs (Or.inr (Or.inl (apiSent_ne hp)))
    cases ht
    all_goals first | exact ⟨_, rfl⟩ | (simp at hp; done)
  · left; intro p hp; exact h ⟨p, hp⟩

theorem sentBy_quiet (tr o : List Obs) (h : ∀ p, Obs.tx .api p ∉ o) : sentBy (tr ++ o) = sentBy tr ++ (calls o).map fun c => (c, []) := by
  induction o generalizing tr with
  | nil => simp [calls]
  | cons x o ih =>
    have := ih (tr ++ [x]) (fun p hp => h p (List.mem_cons_of_mem _ hp))
    rw [List.append_assoc, List.singleton_append] at this
    rw [this, sentBy_snoc]
    cases x <;> try (simp [sentStep, calls]; done)
    rename_i w p
    cases w
    · simp [sentStep, calls]
    · exact absurd List.mem_cons_self (h p)

theorem own_of_telegram {c : Call} {cemi : Bytes} {ch n : U8} {p : Bytes} (h : TelegramOf c cemi) (hp : RequestPacket ch n cemi p) :
    OwnRequest c p := by
  cases c <;> simp only [TelegramOf] at h
  case read addr => subst h; exact ⟨ch, n, hp⟩
  case write addr v small =>
    cases small
    · simp only [TelegramOf] at h; rw [h] at hp; exact ⟨ch, n, hp⟩
    · simp only [TelegramOf] at h; rw [h.2] at hp; exact ⟨h.1, ch, n, hp⟩
  case solicit addr => subst h; exact ⟨ch, n, hp⟩

/-- C86: in every execution each call of the client sends nothing, or one datagram, the request the call is about, and nothing is
sent by the calling code outside of calls. -/
theorem C86_per_call {m : Mode} {s : Sys} {tr : List Obs} (h : Exec m s tr) :
    (sentBy tr).map (·.1) = calls tr ∧ (sentBy tr).flatMap (·.2) = apiSent tr ∧
      ∀ x ∈ sentBy tr, x.2 = [] ∨ ∃ p, x.2 = [p] ∧ OwnRequest x.1 p := by
  refine ⟨sentBy_fst tr, ?_, ?_⟩
  · induction h with
    | init => rfl
    | @step s s' tr o e hx hs ih =>
      rcases step_sends hs with hq | ⟨p, rfl⟩
      · rw [sentBy_quiet _ _ hq, apiSent_append, ← ih]
        have : apiSent o = [] := by
          unfold apiSent
          rw [List.filterMap_eq_nil_iff]
          intro x hx
          cases x <;> try rfl
          rename_i w p
          cases w
          · rfl
          · exact absurd hx (hq p)
        rw [this, List.flatMap_append]
        simp [List.flatMap_map]
      · obtain ⟨c, h1, h2, _⟩ := C70_client hx hs (List.mem_singleton.2 rfl)
        have hl := sentBy_getLast tr
        rw [h1] at hl
        simp only [Option.map_some] at hl
        rw [sentBy_snoc, apiSent_append, ← ih]
        simp only [sentStep, hl]
        conv_rhs => rw [← List.dropLast_append_getLast? _ hl]
        simp [apiSent]
  · induction h with
    | init => intro x hx; cases hx
    | @step s s' tr o e hx hs ih =>
      rcases step_sends hs with hq | ⟨p, rfl⟩
      · rw [sentBy_quiet _ _ hq]
        intro x hx
        rw [List.mem_append, List.mem_map] at hx
        rcases hx with hx | ⟨c, _, rfl⟩
        · exact ih x hx
        · exact Or.inl rfl
      · obtain ⟨c, h1, h2, h3⟩ := C70_client hx hs (List.mem_singleton.2 rfl)
        have hl := sentBy_getLast tr
        rw [h1] at hl
        simp only [Option.map_some] at hl
        intro x hx'
        rw [sentBy_snoc] at hx'
        simp only [sentStep, hl, List.mem_append, List.mem_singleton] at hx'
        rcases hx' with hx' | rfl
        · exact ih x (List.dropLast_subset _ hx')
        · right
          refine ⟨p, by simp [h2], ?_⟩
          simp only
          rcases h3 with ⟨ch, n, cemi, _, h5, h6⟩ | ⟨rfl, h5⟩ | ⟨rfl, h5⟩
          · exact own_of_telegram h5 h6
          · exact h5
          · exact h5

theorem mstep_sends {m : Mode} {s s' : MSys} {e : MEv} {o : List Obs} (hs : Knx.mstep m s e = some (s', o)) :
    (∀ p, Obs.tx .api p ∉ o) ∨ ∃ p o', o = .tx .api p :: o' ∧ (∀ q, Obs.tx .api q ∉ o') ∧ calls o' = [] := by
  by_cases h : ∃ p, Obs.tx .api p ∈ o
  · obtain ⟨p, hp⟩ := h
    right
    have ht := mstep_api hs (Or.inr (Or.inl (apiSent_ne hp)))
    cases ht
    all_goals first | (simp at hp; done) | exact ⟨_, _, rfl, by simp, rfl⟩
  · left; intro p hp; exact h ⟨p, hp⟩

theorem apiSent_none {o : List Obs} (hq : ∀ p, Obs.tx .api p ∉ o) : apiSent o = [] := by
  unfold apiSent
  rw [List.filterMap_eq_nil_iff]
  intro x hx
  cases x <;> try rfl
  rename_i w p
  cases w
  · rfl
  · exact absurd hx (hq p)

/-- C86 for the monitor: each call sends nothing, or one datagram, the request the call is about. -/
theorem C86_monitor {m : Mode} {s : MSys} {tr : List Obs} (h : MExec m s tr) :
    (sentBy tr).map (·.1) = calls tr ∧ (sentBy tr).flatMap (·.2) = apiSent tr ∧
      ∀ x ∈ sentBy tr, x.2 = [] ∨ ∃ p, x.2 = [p] ∧ OwnRequest x.1 p := by
  refine ⟨sentBy_fst tr, ?_, ?_⟩
  · induction h with
    | init => rfl
    | @step s s' tr o e hx hs ih =>
      rcases mstep_sends hs with hq | ⟨p, o', rfl, hq, hc⟩
      · rw [sentBy_quiet _ _ hq, apiSent_append, ← ih, apiSent_none hq, List.flatMap_append]
        simp [List.flatMap_map]
      · obtain ⟨c, h1, h2, _⟩ := C70_monitor hx hs List.mem_cons_self
        have hl := sentBy_getLast tr
        rw [h1] at hl
        simp only [Option.map_some] at hl
        rw [← List.singleton_append, ← List.append_assoc, sentBy_quiet _ _ hq, hc, sentBy_snoc, apiSent_append, apiSent_append,
          apiSent_none hq, ← ih]
        simp only [sentStep, hl]
        conv_rhs => rw [← List.dropLast_append_getLast? _ hl]
        simp [apiSent]
  · induction h with
    | init => intro x hx; cases hx
    | @step s s' tr o e hx hs ih =>
      rcases mstep_sends hs with hq | ⟨p, o', rfl, hq, hc⟩
      · rw [sentBy_quiet _ _ hq]
        intro x hx
        rw [List.mem_append, List.mem_map] at hx
        rcases hx with hx | ⟨c, _, rfl⟩
        · exact ih x hx
        · exact Or.inl rfl
      · obtain ⟨c, h1, h2, h3⟩ := C70_monitor hx hs List.mem_cons_self
        have hl := sentBy_getLast tr
        rw [h1] at hl
        simp only [Option.map_some] at hl
        intro x hx'
        rw [← List.singleton_append, ← List.append_assoc, sentBy_quiet _ _ hq, hc, sentBy_snoc] at hx'
        simp only [sentStep, hl, List.map_nil, List.append_nil, List.mem_append, List.mem_singleton] at hx'
        rcases hx' with hx' | rfl
        · exact ih x (List.dropLast_subset _ hx')
        · right
          refine ⟨p, by simp [h2], ?_⟩
          simp only
          rcases h3 with ⟨ch, n, cemi, _, h5, h6⟩ | ⟨rfl, h5⟩
          · exact own_of_telegram h5 h6
          · exact h5

/-- A monitor asks for a value and disconnects: the calls, and what each of them sends. -/
example (m : Mode) : ∃ s tr, MExec m s tr ∧ sentBy tr = [(.solicit (.group3 ⟨1, 1, 2⟩),
    [[6, 0x10, 4, 0x20, 0, 21, 4, 7, 1, 0, 0x11, 0, 0xbc, 0xe0, 0, 0, 9, 2, 1, 0, 0]]), (.isConnected, []),
    (.disconnect, [[6, 0x10, 2, 9, 0, 16, 7, 0, 8, 1, 192, 168, 1, 2, 0x0e, 0x57]])] :=
  mexec_of_evs (m := m) (evs := [.bg .run, .bg .sendOk, .bg (.dgram grant7), .bg .sendOk, .bg .run, .bg .run,
      .api (.call (.solicit (.group3 ⟨1, 1, 2⟩))), .api .run, .api .run, .api .sendOk, .api (.call .isConnected), .api .run,
      .api (.call .disconnect), .api .run, .api .run, .api .sendOk])
    (f := fun x => sentBy x.2) (by cases m <;> decide +kernel)

/-! ## Programs -/

theorem resultOf_eq (o : List Obs) : resultOf o = (returned o).head? := by
  induction o with
  | nil => rfl
  | cons x o ih => cases x <;> simp_all [resultOf, returned]

/-- The end of a call shows: a step of a call either returns and leaves no call, or returns nothing and leaves the call. -/
theorem ApiTr.ends {m : Mode} {s s' : Sys} {o : List Obs} (h : ApiTr m s s' o) (hc : Obs.cancelled ∉ o) (hd : Obs.dropped ∉ o) :
    (returned o = [] ∧ s'.api ≠ .idle) ∨ ∃ r, returned o = [r] ∧ s'.api = .idle := by
  cases h <;> simp_all [returned]

theorem apiStep_cancelled {m : Mode} {s s' : Sys} {e : ApiEv} {o : List Obs} (h : apiStep m s e = some (s', o)) (he : e ≠ .cancel) :
    Obs.cancelled ∉ o := by
  unfold apiStep at h
  rw [if_neg he] at h
  simp only [withConn, chanRecv, readMsg, writeMsg, finish, apiCall, startTunnel] at h
  repeat' split at h
  all_goals first | (cases h; done) | (simp only [Option.some.injEq, Prod.mk.injEq] at h; obtain ⟨-, rfl⟩ := h; simp)

/-- What an execution of a program has come to: the statements `done` are behind it. -/
def Outcome (done rest : List Stmt) (ph : Phase) (api : Api) (rs : List Ret) : Prop :=
  match ph with
  | .ready => api = .idle ∧ List.Forall₂ GoesOn (stmtCalls done) rs
  | .asleep _ => api = .idle ∧ List.Forall₂ GoesOn (stmtCalls done) rs ∧ ∃ d ms, done = d ++ [.sleep ms]
  | .calling q => api ≠ .idle ∧ ∃ d c, done = d ++ [.call c q] ∧ List.Forall₂ GoesOn (stmtCalls d) rs
  | .over (.ok _) => api = .idle ∧ rest = [] ∧ List.Forall₂ GoesOn (stmtCalls done) rs
  | .over .err => api = .idle ∧ ∃ d c rs', done = d ++ [.call c true] ∧ rs = rs' ++ [.err] ∧ List.Forall₂ GoesOn (stmtCalls d) rs'
  | .over .panic => api = .idle ∧ ∃ d c q rs', done = d ++ [.call c q] ∧ rs = rs' ++ [.panic] ∧ List.Forall₂ GoesOn (stmtCalls d) rs'

theorem stmtCalls_append (a b : List Stmt) : stmtCalls (a ++ b) = stmtCalls a ++ stmtCalls b := by simp [stmtCalls]

theorem slept_append (a b : List Stmt) : slept (a ++ b) = slept a + slept b := by simp [slept]

theorem forall₂_snoc {α β : Type} {R : α → β → Prop} {a : List α} {b : List β} {x : α} {y : β} (h : List.Forall₂ R a b) (hx : R x y) :
    List.Forall₂ R (a ++ [x]) (b ++ [y]) := by
  induction h with
  | nil => exact .cons hx .nil
  | cons h1 _ ih => exact .cons h1 ih

/-- The state of a program after a step of a call. -/
theorem outcome_after {m : Mode} {s s' : Sys} {o : List Obs} {d rest : List Stmt} {c : Call} {q : Bool} {rs : List Ret}
    (h : ApiTr m s s' o) (hc : Obs.cancelled ∉ o) (hd : Obs.dropped ∉ o) (hr : List.Forall₂ GoesOn (stmtCalls d) rs) :
    Outcome (d ++ [.call c q]) rest (afterStep q o) s'.api (rs ++ returned o) := by
  unfold afterStep
  rw [resultOf_eq]
  rcases h.ends hc hd with ⟨h1, h2⟩ | ⟨r, h1, h2⟩
  · rw [h1]
    exact ⟨h2, d, c, rfl, by simpa using hr⟩
  · rw [h1]
    have hcall : stmtCalls (d ++ [.call c q]) = stmtCalls d ++ [(c, q)] := by rw [stmtCalls_append]; rfl
    have good : (r ≠ .panic) → (q = true → r ≠ .err) → List.Forall₂ GoesOn (stmtCalls (d ++ [.call c q])) (rs ++ [r]) := by
      intro g1 g2
      rw [hcall]
      exact forall₂_snoc hr ⟨g1, g2⟩
    simp only [List.head?_cons]
    split
    · rename_i e; cases e
    · rename_i e; cases e; exact ⟨h2, d, c, q, rs, rfl, rfl, hr⟩
    · rename_i e
      cases e
      cases q with
      | true => exact ⟨h2, d, c, rs, rfl, rfl, hr⟩
      | false => exact ⟨h2, good (by simp) (by simp)⟩
    · rename_i r' n1 n2 e
      cases e
      exact ⟨h2, good n1 (fun _ => n2)⟩

theorem afterStep_now (q : Bool) (o : List Obs) (n : Nat) : (match afterStep q o with | .asleep till => till | _ => n) = n := by
  have : ∀ t, afterStep q o ≠ .asleep t := by
    intro t h
    unfold afterStep at h
    repeat' split at h
    all_goals cases h
  split
  · rename_i h; exact absurd h (this _)
  · rfl

/-- The invariant of the executions of a program. -/
structure ProgInv (m : Mode) (ss : List Stmt) (p : Prog) (tr : List Obs) : Prop where
  exec : Exec m p.sys tr
  alive : Obs.dropped ∉ tr
  whole : Obs.cancelled ∉ tr
  outcome : ∃ done, ss = done ++ p.rest ∧ calls tr = (stmtCalls done).map (·.1) ∧ Outcome done p.rest p.phase p.sys.api (returned tr)
    ∧ slept done ≤ (match p.phase with | .asleep till => till | _ => p.sys.bg.now)

theorem ProgExec.inv {m : Mode} {ss : List Stmt} {p : Prog} {tr : List Obs} (h : ProgExec m ss p tr) : ProgInv m ss p tr := by
  induction h with
  | init => exact ⟨.init, by simp, by simp, [], rfl, rfl, ⟨rfl, .nil⟩, Nat.zero_le _⟩
  | @step p p' tr o e hx hs ih =>
    obtain ⟨hex, hal, hwh, done, h1, h2, h3, h4⟩ := ih
    obtain ⟨sys, ph, rest⟩ := p
    simp only at hex h1 h3 h4
    -- steps that are none of a call
    have other : ∀ ev, (∀ x, ev ≠ .api x) → ∀ s' o', Knx.step m sys ev = some (s', o') → ∀ (_ : p' = ⟨s', ph, rest⟩) (_ : o = o'),
        ProgInv m ss p' (tr ++ o) := by
      rintro ev hev s' o' hst rfl rfl
      have ⟨f, hapi, hnow, hdr, hcn⟩ : TaskFacts o ∧ s'.api = sys.api ∧ sys.bg.now ≤ s'.bg.now ∧ Obs.dropped ∉ o ∧ Obs.cancelled ∉ o := by
        cases ev with
        | bg e =>
          simp only [Knx.step, Option.map_eq_some_iff, Prod.exists, Prod.mk.injEq] at hst
          obtain ⟨b, o', hb, rfl, rfl⟩ := hst
          have ht := bgStep_tr hb
          refine ⟨ht.facts, rfl, ?_, ?_, ?_⟩
          · cases ht <;> simp
          · cases ht <;> simp
          · cases ht <;> simp
        | delay d => cases hst; exact ⟨TaskFacts.nil, rfl, by simp, by simp, by simp⟩
        | api e => exact absurd rfl (hev e)
      have hcalls : calls o = [] := by
        unfold calls
        rw [List.filterMap_eq_nil_iff]
        intro x hx
        have := List.any_eq_false.1 f.noCall x hx
        cases x <;> simp_all [isCall]
      refine ⟨.step ev hex hst, by simp [hal, hdr], by simp [hwh, hcn], done, h1, by rw [calls_append, hcalls, List.append_nil, h2], ?_, ?_⟩
      · rw [returned_append, f.returned, List.append_nil]
        simp only [hapi]
        exact h3
      · simp only
        cases ph <;> simp only at h4 ⊢ <;> omega
    cases e with
    | sys ev =>
      cases ev with
      | bg e =>
        cases ph <;> simp only [Prog.step, Option.map_eq_some_iff, Prod.exists, Prod.mk.injEq, reduceCtorEq] at hs
        all_goals
          obtain ⟨s', o', hst, rfl, rfl⟩ := hs
          exact other (.bg e) (by simp) s' o' hst rfl rfl
      | delay d =>
        cases ph <;> simp only [Prog.step, Option.map_eq_some_iff, Prod.exists, Prod.mk.injEq, reduceCtorEq] at hs
        all_goals
          obtain ⟨s', o', hst, rfl, rfl⟩ := hs
          exact other (.delay d) (by simp) s' o' hst rfl rfl
      | api e =>
        cases ph with
        | calling q =>
          simp only [Prog.step] at hs
          split at hs
          · cases hs
          · rename_i hc
            simp only [Option.map_eq_some_iff, Prod.exists, Prod.mk.injEq] at hs
            obtain ⟨s', o', hst, rfl, rfl⟩ := hs
            obtain ⟨g1, d, c, rfl, g2⟩ := h3
            have ht := apiStep_tr hst
            have hcan := apiStep_cancelled hst hc
            have hdr : Obs.dropped ∉ o' := by cases ht <;> simp_all
            have hcalls : calls o' = [] := by cases ht <;> simp_all [calls]
            refine ⟨.step (.api e) hex hst, by simp [hal, hdr], by simp [hwh, hcan], d ++ [.call c q], h1, by rw [calls_append, hcalls, List.append_nil, h2], ?_, ?_⟩
            · rw [returned_append]
              exact outcome_after ht hcan hdr g2
            · have hnow : s'.bg.now = sys.bg.now := by cases ht <;> rfl
              simp only [hnow]
              rw [afterStep_now]
              exact h4
        | ready => simp [Prog.step] at hs
        | asleep t => simp [Prog.step] at hs
        | over r => simp [Prog.step] at hs
    | go =>
      cases ph with
      | over r => simp [Prog.step] at hs
      | calling q => simp [Prog.step] at hs
      | asleep t =>
        simp only [Prog.step] at hs
        split at hs
        · rename_i ht
          cases hs
          exact ⟨by simpa using hex, by simpa using hal, by simpa using hwh, done, h1, by simpa using h2, ⟨h3.1, by simpa using h3.2.1⟩,
            by simp only at h4 ⊢; omega⟩
        · cases hs
      | ready =>
        simp only [Prog.step] at hs
        split at hs
        · cases hs
          refine ⟨by simpa using hex, by simpa using hal, by simpa using hwh, done, h1, by simpa using h2, ?_, h4⟩
          exact ⟨h3.1, rfl, by simpa using h3.2⟩
        · rename_i ms rest'
          cases hs
          refine ⟨by simpa using hex, by simpa using hal, by simpa using hwh, done ++ [.sleep ms], by rw [h1]; simp, ?_, ?_, ?_⟩
          · rw [stmtCalls_append]; simpa [stmtCalls] using h2
          · refine ⟨h3.1, ?_, done, ms, rfl⟩; rw [stmtCalls_append]; simpa [stmtCalls] using h3.2
          · rw [slept_append]; simp only [slept] at h4 ⊢; simp; omega
        · rename_i c q rest'
          simp only [Option.map_eq_some_iff, Prod.exists, Prod.mk.injEq] at hs
          obtain ⟨s', o', hst, rfl, rfl⟩ := hs
          have ht := apiStep_tr hst
          have hcan := apiStep_cancelled hst (by simp)
          obtain ⟨g1, g2⟩ := h3
          have ⟨hdr, hcalls⟩ : Obs.dropped ∉ o' ∧ calls o' = [c] := by
            simp only [apiStep, g1, reduceCtorEq, if_false] at hst
            split at hst
            · cases c <;> simp only [apiCall, reduceCtorEq, Option.some.injEq, Prod.mk.injEq] at hst
              · cases hr : readCemi m _ <;> rw [hr] at hst <;> cases hst <;> simp [calls]
              · cases hr : writeCemi m _ _ _ <;> rw [hr] at hst <;> cases hst <;> simp [calls]
              · obtain ⟨-, rfl⟩ := hst; simp [calls]
              · obtain ⟨-, rfl⟩ := hst; simp [calls]
            · cases hst
          refine ⟨.step (.api (.call c)) hex hst, by simp [hal, hdr], by simp [hwh, hcan], done ++ [.call c q], by rw [h1]; simp, ?_, ?_, ?_⟩
          · rw [calls_append, hcalls, stmtCalls_append, List.map_append, h2]; rfl
          · rw [returned_append]
            exact outcome_after ht hcan hdr g2
          · have hnow : s'.bg.now = sys.bg.now := by cases ht <;> rfl
            rw [slept_append]
            simp only [hnow]
            simp only at h4
            have : slept [Stmt.call c q] = 0 := rfl
            rw [this, afterStep_now]
            exact h4

/-- C87: a program makes its calls in the order of its statements, one after the other and to their end; it ends without an error only
after the last statement, with no error passed on by `?` on the way; with an error only by a call with `?` that returns one; and with a
panic only by a call that panics. -/
theorem C87_outcome {m : Mode} {ss : List Stmt} {p : Prog} {tr : List Obs} (h : ProgExec m ss p tr) :
    Exec m p.sys tr ∧ Obs.dropped ∉ tr ∧ Obs.cancelled ∉ tr ∧ ∃ done, ss = done ++ p.rest ∧ calls tr = (stmtCalls done).map (·.1) ∧
      match p.phase with
      | .over (.ok _) => done = ss ∧ List.Forall₂ GoesOn (stmtCalls ss) (returned tr)
      | .over .err => ∃ d c rs, done = d ++ [.call c true] ∧ returned tr = rs ++ [.err] ∧ List.Forall₂ GoesOn (stmtCalls d) rs
      | .over .panic => ∃ d c q rs, done = d ++ [.call c q] ∧ returned tr = rs ++ [.panic] ∧ List.Forall₂ GoesOn (stmtCalls d) rs
      | .calling q => ∃ d c, done = d ++ [.call c q] ∧ List.Forall₂ GoesOn (stmtCalls d) (returned tr)
      | _ => List.Forall₂ GoesOn (stmtCalls done) (returned tr) := by
  obtain ⟨h1, h2, h7, done, h3, h4, h5, _⟩ := h.inv
  refine ⟨h1, h2, h7, done, h3, h4, ?_⟩
  unfold Outcome at h5
  split at h5
  · rename_i e; rw [e]; exact h5.2
  · rename_i e; rw [e]; exact h5.2.1
  · rename_i e; rw [e]; exact h5.2
  · rename_i e
    rw [e]
    rw [h5.2.1, List.append_nil] at h3
    exact ⟨h3.symm, h3 ▸ h5.2.2⟩
  · rename_i e; rw [e]; exact h5.2
  · rename_i e; rw [e]; exact h5.2

/-- C87: a program makes a call no sooner than the sleeps before it have passed. -/
theorem C87_sleeps {m : Mode} {ss : List Stmt} {p p' : Prog} {tr o : List Obs} {e : ProgEv} {c : Call} (h : ProgExec m ss p tr)
    (hs : p.step m e = some (p', o)) (hc : Obs.call c ∈ o) :
    ∃ before q, ss = before ++ .call c q :: p'.rest ∧ slept before ≤ p.sys.bg.now := by
  obtain ⟨hex, hal, -, done, h1, h2, h3, h4⟩ := h.inv
  have h' := ProgExec.step e h hs
  obtain ⟨-, -, -, done', g1, g2, -, -⟩ := h'.inv
  obtain ⟨sys, ph, rest⟩ := p
  simp only at hex h1 h3 h4
  have task : ∀ ev, (∀ x, ev ≠ .api x) → ∀ s' o', Knx.step m sys ev = some (s', o') → Obs.call c ∉ o' := by
    intro ev hev s' o' hst
    cases ev with
    | bg e =>
      simp only [Knx.step, Option.map_eq_some_iff, Prod.exists, Prod.mk.injEq] at hst
      obtain ⟨b, o', hb, rfl, rfl⟩ := hst
      intro hm
      have := List.any_eq_false.1 (bgStep_tr hb).facts.noCall _ hm
      exact this rfl
    | delay d => cases hst; simp
    | api e => exact absurd rfl (hev e)
  cases e with
  | sys ev =>
    cases ev with
    | bg e =>
      cases ph <;> simp only [Prog.step, Option.map_eq_some_iff, Prod.exists, Prod.mk.injEq, reduceCtorEq] at hs
      all_goals
        obtain ⟨s', o', hst, rfl, rfl⟩ := hs
        exact absurd hc (task (.bg e) (by simp) s' o' hst)
    | delay d =>
      cases ph <;> simp only [Prog.step, Option.map_eq_some_iff, Prod.exists, Prod.mk.injEq, reduceCtorEq] at hs
      all_goals
        obtain ⟨s', o', hst, rfl, rfl⟩ := hs
        exact absurd hc (task (.delay d) (by simp) s' o' hst)
    | api e =>
      cases ph with
      | calling q =>
        simp only [Prog.step] at hs
        split at hs
        · cases hs
        · simp only [Option.map_eq_some_iff, Prod.exists, Prod.mk.injEq] at hs
          obtain ⟨s', o', hst, rfl, rfl⟩ := hs
          obtain ⟨k1, -⟩ := h3
          have ht := apiStep_tr hst
          cases ht <;> simp_all
      | ready => simp [Prog.step] at hs
      | asleep t => simp [Prog.step] at hs
      | over r => simp [Prog.step] at hs
  | go =>
    cases ph with
    | over r => simp [Prog.step] at hs
    | calling q => simp [Prog.step] at hs
    | asleep t =>
      simp only [Prog.step] at hs
      split at hs
      · cases hs; simp at hc
      · cases hs
    | ready =>
      simp only [Prog.step] at hs
      split at hs
      · cases hs; simp at hc
      · cases hs; simp at hc
      · rename_i c' q rest'
        simp only [Option.map_eq_some_iff, Prod.exists, Prod.mk.injEq] at hs
        obtain ⟨s', o', hst, rfl, rfl⟩ := hs
        have : c' = c := by
          have ht := apiStep_tr hst
          simp only [apiStep, h3.1, reduceCtorEq, if_false] at hst
          split at hst
          · cases c' <;> simp only [apiCall, reduceCtorEq, Option.some.injEq, Prod.mk.injEq] at hst
            · cases hr : readCemi m _ <;> rw [hr] at hst <;> cases hst <;> simp_all
            · cases hr : writeCemi m _ _ _ <;> rw [hr] at hst <;> cases hst <;> simp_all
            · obtain ⟨-, rfl⟩ := hst; simp_all
            · obtain ⟨-, rfl⟩ := hst; simp_all
          · cases hst
        subst this
        exact ⟨done, q, h1, h4⟩

/-! ## The sample program -/

theorem sample_eq : sampleMain = [.sleep 2000, .sleep 2000, .call (.write (.group3 ⟨1, 1, 2⟩) [3] true) false, .call .disconnect true] := by
  decide +kernel

/-- C87: the sample program sends, no sooner than four seconds after its start, at most one write of 3 to 1/1/2, and after that at most
one disconnect request; and nothing else. -/
theorem C87_sample_sends {m : Mode} {p : Prog} {tr : List Obs} (h : ProgExec m sampleMain p tr) :
    (apiSent tr ≠ [] → 4000 ≤ p.sys.bg.now) ∧ ∃ a b, apiSent tr = a ++ b ∧
      (a = [] ∨ ∃ q ch n, a = [q] ∧ RequestPacket ch n [0x11, 0, 0xbc, 0xe0, 0, 0, 9, 2, 1, 0, 0x83] q) ∧
      (b = [] ∨ ∃ ch ep, b = [frame DISCONNECT_REQUEST ([ch, 0] ++ hpai ep)]) := by
  obtain ⟨h1, h2, -, done, h3, h4, h5, h6⟩ := h.inv
  obtain ⟨k1, k2, k3⟩ := C86_per_call h1
  rw [sample_eq] at h3
  have hw : ∀ x ∈ sentBy tr, x.1 = .write (.group3 ⟨1, 1, 2⟩) [3] true →
      x.2 = [] ∨ ∃ q ch n, x.2 = [q] ∧ RequestPacket ch n [0x11, 0, 0xbc, 0xe0, 0, 0, 9, 2, 1, 0, 0x83] q := by
    intro x hx e
    rcases k3 x hx with g | ⟨q, g1, g2⟩
    · exact Or.inl g
    · rw [e] at g2
      obtain ⟨-, ch, n, g3⟩ := g2
      rw [show lDataReqFrame 3 (KnxAddress.group3 ⟨1, 1, 2⟩).toU16.toNat (apduWriteSmall (([3] : Bytes).headD 0)) =
        [0x11, 0, 0xbc, 0xe0, 0, 0, 9, 2, 1, 0, 0x83] by decide +kernel] at g3
      exact Or.inr ⟨q, ch, n, g1, g3⟩
  have hd : ∀ x ∈ sentBy tr, x.1 = .disconnect → x.2 = [] ∨ ∃ ch ep, x.2 = [frame DISCONNECT_REQUEST ([ch, 0] ++ hpai ep)] := by
    intro x hx e
    rcases k3 x hx with g | ⟨q, g1, g2⟩
    · exact Or.inl g
    · rw [e] at g2
      obtain ⟨ch, ep, rfl⟩ := g2
      exact Or.inr ⟨ch, ep, g1⟩
  rw [h4] at k1
  -- how far the program has come
  have none : stmtCalls done = [] → ((apiSent tr ≠ [] → 4000 ≤ p.sys.bg.now) ∧ ∃ a b, apiSent tr = a ++ b ∧
      (a = [] ∨ ∃ q ch n, a = [q] ∧ RequestPacket ch n [0x11, 0, 0xbc, 0xe0, 0, 0, 9, 2, 1, 0, 0x83] q) ∧
      (b = [] ∨ ∃ ch ep, b = [frame DISCONNECT_REQUEST ([ch, 0] ++ hpai ep)])) := by
    intro e
    rw [e, List.map_nil, List.map_eq_nil_iff] at k1
    rw [k1] at k2
    rw [← k2]
    exact ⟨fun g => absurd rfl g, [], [], rfl, Or.inl rfl, Or.inl rfl⟩
  have late : stmtCalls done ≠ [] → slept done ≤ p.sys.bg.now := by
    intro e
    cases hp : p.phase with
    | asleep till =>
      rw [hp] at h5
      obtain ⟨-, -, d, ms, rfl⟩ := h5
      exfalso
      have : d = [] ∨ d = [.sleep 2000] := by
        rcases d with _ | ⟨x, _ | ⟨y, _ | ⟨z, _ | ⟨w, d⟩⟩⟩⟩ <;> simp at h3
        · exact Or.inl rfl
        · exact Or.inr (by rw [← h3.1])
      rcases this with rfl | rfl <;> exact e rfl
    | _ => rw [hp] at h6; exact h6
  rcases done with _ | ⟨x1, _ | ⟨x2, _ | ⟨x3, _ | ⟨x4, _ | ⟨x5, d⟩⟩⟩⟩⟩ <;> simp only [List.nil_append, List.cons_append, List.cons.injEq] at h3
  · exact none rfl
  · obtain ⟨rfl, -⟩ := h3; exact none rfl
  · obtain ⟨rfl, rfl, -⟩ := h3; exact none rfl
  · obtain ⟨rfl, rfl, rfl, -⟩ := h3
    refine ⟨fun _ => late (by simp [stmtCalls]), ?_⟩
    simp only [stmtCalls, List.filterMap_cons, List.filterMap_nil, List.map_cons, List.map_nil, List.map_eq_cons_iff, List.map_eq_nil_iff] at k1
    obtain ⟨x, l, e, e1, rfl⟩ := k1
    rw [e] at k2 hw
    refine ⟨x.2, [], by rw [← k2]; simp, hw x (by simp) e1, Or.inl rfl⟩
  · obtain ⟨rfl, rfl, rfl, rfl, -⟩ := h3
    refine ⟨fun _ => late (by simp [stmtCalls]), ?_⟩
    simp only [stmtCalls, List.filterMap_cons, List.filterMap_nil, List.map_cons, List.map_nil, List.map_eq_cons_iff, List.map_eq_nil_iff] at k1
    obtain ⟨x, l, e, e1, y, l', rfl, e2, rfl⟩ := k1
    rw [e] at k2 hw hd
    exact ⟨x.2, y.2, by rw [← k2]; simp, hw x (by simp) e1, hd y (by simp) e2⟩
  · simp at h3

theorem ApiTr.shape {m : Mode} {s s' : Sys} {o : List Obs} (h : ApiTr m s s' o) :
    (∃ c o', o = .call c :: o' ∧ o'.any isCall = false ∧ returned o' ≠ [.unit] ∧
      ((s'.api ≠ .idle ∧ returned o' = []) ∨ (s'.api = .idle ∧ ∃ r, returned o' = [r]))) ∨
    (o = [.dropped] ∧ s.api = .idle ∧ s'.api = .idle) ∨
    (o.any isCall = false ∧ s.api ≠ .idle ∧
      ((s'.api ≠ .idle ∧ returned o = []) ∨ (s'.api = .idle ∧ ∃ r, returned o = [r]) ∨ o = [.cancelled] ∧ s'.api = .idle)) := by
  cases h
  case drop h _ => exact Or.inr (Or.inl ⟨rfl, h, h⟩)
  case callErr h _ _ => exact Or.inl ⟨_, _, rfl, rfl, by simp [returned], Or.inr ⟨h, _, rfl⟩⟩
  case callPanic h _ _ => exact Or.inl ⟨_, _, rfl, rfl, by simp [returned], Or.inr ⟨h, _, rfl⟩⟩
  case callTunnel => exact Or.inl ⟨_, _, rfl, rfl, by simp [returned], Or.inl ⟨by simp, rfl⟩⟩
  case callStatus => exact Or.inl ⟨_, _, rfl, rfl, by simp [returned], Or.inl ⟨by simp, rfl⟩⟩
  case callDisc => exact Or.inl ⟨_, _, rfl, rfl, by simp [returned], Or.inl ⟨by simp, rfl⟩⟩
  case noConn h _ _ => exact Or.inr (Or.inr ⟨rfl, (fun g => by rw [g] at h; cases h), Or.inr (Or.inl ⟨rfl, _, rfl⟩)⟩)
  case cancel h => exact Or.inr (Or.inr ⟨rfl, h, Or.inr (Or.inr ⟨rfl, rfl⟩)⟩)
  all_goals
    refine Or.inr (Or.inr ⟨rfl, ?_, ?_⟩)
    · simp_all
    · first | exact Or.inl ⟨by simp, rfl⟩ | exact Or.inr (Or.inl ⟨rfl, _, rfl⟩)

/-- What has been returned since the last call. -/
theorem Exec.lastRet {m : Mode} {s : Sys} {tr : List Obs} (h : Exec m s tr) :
    (s.api ≠ .idle → returned (since isCall tr) = []) ∧
    (s.api = .idle → Obs.cancelled ∉ tr → lastCall tr ≠ none → ∃ r, returned (since isCall tr) = [r]) := by
  induction h with
  | init => exact ⟨fun h => absurd rfl h, fun _ _ h => absurd rfl h⟩
  | @step s s' tr o e hx hs ih =>
    have quiet : TaskFacts o → s'.api = s.api → (s'.api ≠ .idle → returned (since isCall (tr ++ o)) = []) ∧
        (s'.api = .idle → Obs.cancelled ∉ tr ++ o → lastCall (tr ++ o) ≠ none → ∃ r, returned (since isCall (tr ++ o)) = [r]) := by
      intro f ha
      rw [since_task _ f.noCall, returned_append, f.returned, f.lastCall, ha, List.append_nil]
      exact ⟨ih.1, fun g1 g2 g3 => ih.2 g1 (fun g => g2 (by simp [g])) g3⟩
    cases e with
    | bg e =>
      simp only [Knx.step, Option.map_eq_some_iff, Prod.exists, Prod.mk.injEq] at hs
      obtain ⟨b, o', hb, rfl, rfl⟩ := hs
      exact quiet (bgStep_tr hb).facts rfl
    | delay d => cases hs; exact quiet TaskFacts.nil rfl
    | api e =>
      rcases (apiStep_tr hs).shape with ⟨c, o', rfl, h1, h2, h3⟩ | ⟨rfl, h0, h1⟩ | ⟨h1, h2, h3⟩
      · rw [since_call _ _ _ h1]
        rcases h3 with ⟨g1, g2⟩ | ⟨g1, g2⟩
        · exact ⟨fun _ => g2, fun g => absurd g g1⟩
        · exact ⟨fun g => absurd g1 g, fun _ _ _ => g2⟩
      · rw [since_task _ rfl, returned_append, lastCall_same _ _ rfl]
        refine ⟨fun g => absurd h1 g, fun _ g2 g3 => ?_⟩
        simpa [returned] using ih.2 h0 (fun g => g2 (by simp [g])) g3
      · rw [since_task _ h1, returned_append, ih.1 h2, List.nil_append]
        rcases h3 with ⟨g1, g2⟩ | ⟨g1, g2⟩ | ⟨rfl, g1⟩
        · exact ⟨fun _ => g2, fun g => absurd g g1⟩
        · exact ⟨fun g => absurd g1 g, fun _ _ _ => g2⟩
        · exact ⟨fun g => absurd g1 g, fun _ g => absurd (by simp) g⟩

/-- What a disconnect that returned has done, at any time until the next call. -/
theorem Exec.discInv {m : Mode} {s : Sys} {tr : List Obs} (h : Exec m s tr) :
    lastCall tr = some .disconnect → returned (since isCall tr) = [.unit] →
      (∃ ch ep, apiSent (since isCall tr) = [frame DISCONNECT_REQUEST ([ch, 0] ++ hpai ep)]) ∧ ∃ c, taken (since isCall tr) = [c] := by
  induction h with
  | init => intro h; cases h
  | @step s s' tr o e hx hs ih =>
    have quiet : TaskFacts o →
        (lastCall (tr ++ o) = some .disconnect → returned (since isCall (tr ++ o)) = [.unit] →
        (∃ ch ep, apiSent (since isCall (tr ++ o)) = [frame DISCONNECT_REQUEST ([ch, 0] ++ hpai ep)]) ∧
          ∃ c, taken (since isCall (tr ++ o)) = [c]) := by
      intro f
      rw [since_task _ f.noCall, returned_append, f.returned, apiSent_append, f.sent, taken_append, f.taken, f.lastCall]
      simpa using ih
    cases e with
    | bg e =>
      simp only [Knx.step, Option.map_eq_some_iff, Prod.exists, Prod.mk.injEq] at hs
      obtain ⟨b, o', hb, rfl, rfl⟩ := hs
      exact quiet (bgStep_tr hb).facts
    | delay d => cases hs; exact quiet TaskFacts.nil
    | api e =>
      rcases (apiStep_tr hs).shape with ⟨c, o', rfl, h1, h2, h3⟩ | ⟨rfl, -, h1⟩ | ⟨h1, h2, h3⟩
      · rw [since_call _ _ _ h1]
        exact fun _ g => absurd g h2
      · rw [since_task _ rfl, returned_append, apiSent_append, taken_append, lastCall_same _ _ rfl]
        simpa [returned, apiSent, taken] using ih
      · rw [since_task _ h1, returned_append, hx.lastRet.1 h2, List.nil_append, lastCall_same _ _ h1]
        intro g1 g2
        have hm : Obs.ret .unit ∈ o := by
          have : Ret.unit ∈ returned o := by rw [g2]; simp
          unfold returned at this
          rw [List.mem_filterMap] at this
          obtain ⟨x, k1, k2⟩ := this
          cases x <;> simp at k2
          exact k2 ▸ k1
        obtain ⟨⟨ch, ep, k1⟩, c, k2, k3⟩ := C57_ok_partial hx hs g1 hm
        rw [since_task _ h1] at k2
        exact ⟨⟨ch, ep, by rw [apiSent_append, k1, k3]; rfl⟩, c, k2⟩

/-- Where the panics of the sample program come from. -/
theorem Exec.sample_panic {m : Mode} {s : Sys} {tr : List Obs} (h : Exec m s tr)
    (hc : ∀ c ∈ calls tr, c = .write (.group3 ⟨1, 1, 2⟩) [3] true ∨ c = .disconnect) (hp : .panic ∈ returned tr) :
    (∃ q, Obs.txFail .api q ∈ tr) ∧ .disconnect ∈ calls tr := by
  induction h with
  | init => cases hp
  | @step s s' tr o e hx hs ih =>
    rw [returned_append, List.mem_append] at hp
    rcases hp with hp | hp
    · obtain ⟨⟨q, hq⟩, hd⟩ := ih (fun c hcc => hc c (by rw [calls_append]; simp [hcc])) hp
      exact ⟨⟨q, by simp [hq]⟩, by rw [calls_append]; simp [hd]⟩
    · have hm : Obs.ret .panic ∈ o := by
        unfold returned at hp
        rw [List.mem_filterMap] at hp
        obtain ⟨x, k1, k2⟩ := hp
        cases x <;> simp at k2
        exact k2 ▸ k1
      rcases C76_client hx hs hm with ⟨addr, v, small, rfl, g⟩ | ⟨addr, v, rfl, g, _⟩ | ⟨q, rfl, hd⟩
      · have := hc (.write addr v small) (by rw [calls_append]; simp [calls])
        simp only [Call.write.injEq, reduceCtorEq, or_false] at this
        obtain ⟨rfl, rfl, rfl⟩ := this
        simp at g
      · have := hc (.write addr v false) (by rw [calls_append, List.mem_append]; exact Or.inl (List.mem_of_getLast? g))
        simp at this
      · exact ⟨⟨q, by simp⟩, by rw [calls_append, List.mem_append]; exact Or.inl (List.mem_of_getLast? hd)⟩

/-- Calls that do not read return no values. -/
theorem Exec.plain {m : Mode} {s : Sys} {tr : List Obs} (h : Exec m s tr)
    (hc : ∀ c ∈ calls tr, (∃ addr v small, c = .write addr v small) ∨ c = .disconnect) :
    ∀ r ∈ returned tr, r = .unit ∨ r = .err ∨ r = .panic := by
  induction h with
  | init => intro r h; cases h
  | @step s s' tr o e hx hs ih =>
    intro r hr
    rw [returned_append, List.mem_append] at hr
    have hc' : ∀ c ∈ calls tr, (∃ addr v small, c = .write addr v small) ∨ c = .disconnect :=
      fun c hcc => hc c (by rw [calls_append]; simp [hcc])
    rcases hr with hr | hr
    · exact ih hc' r hr
    · have hi := hx.callInv
      have ht := step_api hs (Or.inl (List.ne_nil_of_mem hr))
      have last : ∀ c, lastCall tr = some c → (∃ addr v small, c = .write addr v small) ∨ c = .disconnect :=
        fun c g => hc' c (List.mem_of_getLast? g)
      cases ht
      case readValue addr dl c rest i h1 h2 h3 h4 h5 =>
        rw [h1] at hi
        obtain ⟨a, _, g, _⟩ := hi
        exfalso
        have := last _ g
        simp at this
      case stOk d r' h1 h2 =>
        rw [h1] at hi
        have := last _ hi.1
        simp at this
      all_goals simp [returned] at hr
      all_goals simp [hr]

/-- C87, what the end of the sample program says: without an error, that it has sent the disconnect request and taken a telegram, any
telegram, from the message channel; with an error, that the disconnect has returned one, whatever the write has done; with a panic, that
the socket has refused to send the disconnect request. -/
theorem C87_sample_result_partial {m : Mode} {p : Prog} {tr : List Obs} {r : Res Unit} (h : ProgExec m sampleMain p tr)
    (hr : p.phase = .over r) :
    calls tr = [.write (.group3 ⟨1, 1, 2⟩) [3] true, .disconnect] ∧ ∃ w, (w = .unit ∨ w = .err) ∧
    match (generalizing := false) r with
    | .ok _ => returned tr = [w, .unit] ∧
      (∃ ch ep, apiSent (since isCall tr) = [frame DISCONNECT_REQUEST ([ch, 0] ++ hpai ep)]) ∧ ∃ c, taken (since isCall tr) = [c]
    | .err => returned tr = [w, .err]
    | .panic => returned tr = [w, .panic] ∧ ∃ q, Obs.txFail .api q ∈ tr := by
  obtain ⟨h1, h2, hwh, done, h3, h4, h5, -⟩ := h.inv
  rw [sample_eq] at h3
  rw [hr] at h5
  have two : List.map (·.1) (stmtCalls [.sleep 2000, .sleep 2000, .call (.write (.group3 ⟨1, 1, 2⟩) [3] true) false, .call .disconnect true])
      = [.write (.group3 ⟨1, 1, 2⟩) [3] true, .disconnect] := rfl
  -- the program does not end before its last statement
  have ends : ∀ d c q, done = d ++ [Stmt.call c q] → p.rest ≠ [] → c = .write (.group3 ⟨1, 1, 2⟩) [3] true ∧ q = false := by
    rintro d c q rfl hne
    rcases d with _ | ⟨x, _ | ⟨y, _ | ⟨z, _ | ⟨w, d⟩⟩⟩⟩ <;> simp at h3
    · obtain ⟨-, -, ⟨rfl, rfl⟩, -⟩ := h3; exact ⟨rfl, rfl⟩
    · exact absurd h3.2.2.2.2 hne
  have whole : p.rest = [] → done = [.sleep 2000, .sleep 2000, .call (.write (.group3 ⟨1, 1, 2⟩) [3] true) false, .call .disconnect true] := by
    intro e; rw [e, List.append_nil] at h3; exact h3.symm
  have plain := h1.plain
  have first : ∀ d c q rs, done = d ++ [Stmt.call c q] → p.rest = [] → List.Forall₂ GoesOn (stmtCalls d) rs →
      ∃ w, w ≠ .panic ∧ rs = [w] := by
    intro d c q rs e1 e2 e3
    have e4 := e1.symm.trans (whole e2)
    have : d = [.sleep 2000, .sleep 2000, .call (.write (.group3 ⟨1, 1, 2⟩) [3] true) false] := by
      have := congrArg List.dropLast e4
      simpa using this
    subst this
    cases e3 with
    | cons g1 g2 => cases g2; exact ⟨_, g1.1, rfl⟩
  have wk : ∀ w, p.rest = [] → w ∈ returned tr → w ≠ .panic → w = .unit ∨ w = .err := by
    intro w e1 e2 e3
    rw [h4, whole e1, two] at plain
    rcases plain (by simp) w e2 with g | g | g
    · exact Or.inl g
    · exact Or.inr g
    · exact absurd g e3
  cases r with
  | ok u =>
    obtain ⟨g0, g1, g2⟩ := h5
    have e := whole g1
    have hcalls : calls tr = [.write (.group3 ⟨1, 1, 2⟩) [3] true, .disconnect] := by rw [h4, e, two]
    have hl : lastCall tr = some .disconnect := by unfold lastCall; rw [hcalls]; rfl
    rw [e] at g2
    generalize hrt : returned tr = rt at g2 wk
    cases g2 with
    | cons k1 k2 =>
      cases k2 with
      | @cons _ x _ _ k3 k4 =>
        cases k4
        rename_i w
        have hx : x = .unit := by
          rcases wk x g1 (by simp) k3.1 with g | g
          · exact g
          · exact absurd g (k3.2 rfl)
        subst hx
        obtain ⟨r, hr1⟩ := h1.lastRet.2 g0 hwh (by rw [hl]; simp)
        have hs := congrArg returned (upto_since isCall tr)
        rw [returned_append, hr1, hrt] at hs
        have : r = .unit := by
          have := congrArg List.getLast? hs
          simpa using this
        subst this
        exact ⟨hcalls, w, wk w g1 (by simp) k1.1, rfl, h1.discInv hl hr1⟩
  | err =>
    obtain ⟨g0, d, c, rs, g1, g2, g3⟩ := h5
    have e : p.rest = [] := by
      by_contra hne
      exact absurd (ends d c true g1 hne).2 (by simp)
    obtain ⟨w, k1, rfl⟩ := first d c true rs g1 e g3
    exact ⟨by rw [h4, whole e, two], w, wk w e (by rw [g2]; simp) k1, g2⟩
  | panic =>
    obtain ⟨g0, d, c, q, rs, g1, g2, g3⟩ := h5
    have hmem : ∀ c ∈ calls tr, c = .write (.group3 ⟨1, 1, 2⟩) [3] true ∨ c = .disconnect := by
      intro c hcc
      have : c ∈ List.map (·.1) (stmtCalls (done ++ p.rest)) := by
        rw [stmtCalls_append, List.map_append, ← h4]; simp [hcc]
      rw [← h3, two] at this
      simpa using this
    obtain ⟨hq, hd⟩ := h1.sample_panic hmem (by rw [g2]; simp)
    have e : p.rest = [] := by
      by_contra hne
      obtain ⟨rfl, rfl⟩ := ends d c q g1 hne
      subst g1
      rcases d with _ | ⟨x, _ | ⟨y, _ | ⟨z, _ | ⟨w, d⟩⟩⟩⟩ <;> simp at h3
      obtain ⟨rfl, rfl, -⟩ := h3
      rw [h4] at hd
      simp [stmtCalls] at hd
    obtain ⟨w, k1, rfl⟩ := first d c q rs g1 e g3
    exact ⟨by rw [h4, whole e, two], w, wk w e (by rw [g2]; simp) k1, g2, hq⟩

/-! ### Executions of programs -/

/-- `Prog.prompt`, computed. -/
def Prog.promptB (p : Prog) : ProgEv → Bool
  | .sys (.delay d) => Knx.promptB p.sys (.delay d) &&
    (match p.phase with | .ready => d == 0 | .asleep till => decide (p.sys.bg.now + d ≤ till) | _ => true)
  | _ => true

theorem Prog.promptB_prompt {p : Prog} {e : ProgEv} (h : p.promptB e = true) : p.prompt e := by
  unfold Prog.promptB at h
  unfold Prog.prompt
  split at h
  · rw [Bool.and_eq_true] at h
    refine ⟨Knx.promptB_prompt h.1, ?_⟩
    cases hp : p.phase <;> simp_all
  · split
    · rename_i g; exact absurd rfl (g _)
    · trivial

/-- A sequence of events of a program, with timers on time. -/
def Prog.runs (m : Mode) : Prog → List ProgEv → Option (Prog × List Obs)
  | p, [] => some (p, [])
  | p, e :: es => if p.promptB e = true then (p.step m e).bind fun x => (Prog.runs m x.1 es).map fun y => (y.1, x.2 ++ y.2) else none

theorem ProgPrompt.runs {m : Mode} {ss : List Stmt} {p p' : Prog} {tr tr' : List Obs} {evs : List ProgEv} (h : ProgPrompt m ss p tr)
    (he : Prog.runs m p evs = some (p', tr')) : ProgPrompt m ss p' (tr ++ tr') := by
  induction evs generalizing p tr tr' with
  | nil => simp only [Prog.runs, Option.some.injEq, Prod.mk.injEq] at he; obtain ⟨rfl, rfl⟩ := he; simpa using h
  | cons e es ih =>
    simp only [Prog.runs] at he
    split at he
    · rename_i hp
      simp only [Option.bind_eq_some_iff, Option.map_eq_some_iff, Prod.exists, Prod.mk.injEq] at he
      obtain ⟨p1, o, h1, p2, o2, h2, rfl, rfl⟩ := he
      have := ih (.step e h (Prog.promptB_prompt hp) h1) h2
      simpa using this
    · cases he

theorem ProgPrompt.prog {m : Mode} {ss : List Stmt} {p : Prog} {tr : List Obs} (h : ProgPrompt m ss p tr) : ProgExec m ss p tr := by
  induction h with
  | init => exact .init
  | step e _ _ hs ih => exact .step e ih hs

theorem prog_of_evs {m : Mode} {ss : List Stmt} {evs : List ProgEv} {α : Type} {f : Prog × List Obs → α} {y : α}
    (h : (Prog.runs m (Prog.init ss) evs).map f = some y) : ∃ p tr, ProgPrompt m ss p tr ∧ f (p, tr) = y := by
  rw [Option.map_eq_some_iff] at h
  obtain ⟨⟨p, tr⟩, h1, h2⟩ := h
  exact ⟨p, tr, by simpa using ProgPrompt.init.runs h1, h2⟩

/-- A positive confirmation, on channel 7, of the write of the sample program. -/
def confirm7 : Bytes := [6, 0x10, 4, 0x20, 0, 21, 4, 7, 0, 0, 0x2e, 0, 0xbc, 0xe0, 0x11, 1, 9, 2, 1, 0, 0x83]

/-- The sample program up to its disconnect request, with a gateway that grants the connection at once and confirms the write. -/
def sampleEvs : List ProgEv := [.go, .sys (.bg .run), .sys (.bg .sendOk), .sys (.bg (.dgram grant7)), .sys (.bg .run),
  .sys (.bg .tick), .sys (.bg .sendOk),
  .sys (.delay 2000), .go, .go, .sys (.delay 2000), .go, .go, .sys (.api .run), .sys (.api .run), .sys (.api .sendOk),
  .sys (.bg (.dgram confirm7)), .sys (.bg .sendOk), .sys (.bg .run), .sys (.api .run),
  .go, .sys (.api .run), .sys (.api .run), .sys (.api .run), .sys (.api .sendOk)]

/-- C87 is refuted: with a gateway that grants the connection, confirms the write and answers the disconnect request, the sample program
ends with an error. -/
theorem C87_violated_error (m : Mode) : ∃ p tr, ProgPrompt m sampleMain p tr ∧ p.phase = .over .err ∧ p.rest = [] ∧
    received tr = [confirm7, bye7] ∧ returned tr = [.unit, .err] ∧ Decodes (seen bye7) (.disconnectResponse ⟨7, 0⟩) := by
  obtain ⟨p, tr, h1, h2⟩ := prog_of_evs (m := m) (ss := sampleMain) (evs := sampleEvs ++ [.sys (.bg (.dgram bye7)), .sys (.api .run)])
    (f := fun x => (x.1.phase, x.1.rest, received x.2, returned x.2)) (y := (.over .err, [], [confirm7, bye7], [.unit, .err]))
    (by cases m <;> decide +kernel)
  simp only [Prod.mk.injEq] at h2
  refine ⟨p, tr, h1, h2.1, h2.2.1, h2.2.2.1, h2.2.2.2, ?_⟩
  rw [show seen bye7 = frame DISCONNECT_RESPONSE [7, 0] ++ List.replicate 92 0 by decide +kernel]
  exact .disconnectResponse 7 0 _

/-- `n` heart beats, a minute apart, while a program waits for the end of a disconnect. -/
theorem prog_beats {m : Mode} {ss : List Stmt} {b : Bg} {c : Conn} {q : Bool} {rest : List Stmt} {tr : List Obs}
    (h : ProgPrompt m ss ⟨⟨b, .dcRecv⟩, .calling q, rest⟩ tr) (hpc : b.pc = .recv) (hc : b.conn = some c) (hd : b.hbDue = b.now) (n : Nat) :
    ProgPrompt m ss ⟨⟨{ b with now := b.now + 60000 * n, hbDue := b.now + 60000 * n }, .dcRecv⟩, .calling q, rest⟩
      (tr ++ times n [.tick, .tx .task (ConnectionstateRequest.mk c.channel c.endpoint).packet]) := by
  induction n with
  | zero =>
    have : ({ b with now := b.now + 60000 * 0, hbDue := b.now + 60000 * 0 } : Bg) = b := by
      cases b; simp only at hd; simp [hd]
    simp only [this]
    simpa [times] using h
  | succ n ih =>
    rw [times_succ, ← List.append_assoc]
    have h1 : Prog.step m ⟨⟨{ b with now := b.now + 60000 * n, hbDue := b.now + 60000 * n }, .dcRecv⟩, .calling q, rest⟩ (.sys (.bg .tick))
        = some (⟨⟨{ b with now := b.now + 60000 * n, hbDue := b.now + 60000 * (n + 1), pc := .hb c.channel c.endpoint }, .dcRecv⟩,
          .calling q, rest⟩, [.tick]) := by
      simp [Prog.step, Knx.step, bgStep, tickStep, hpc, inSelect, busy, hc, nextTick_self]
      omega
    have h2 : Prog.step m ⟨⟨{ b with now := b.now + 60000 * n, hbDue := b.now + 60000 * (n + 1), pc := .hb c.channel c.endpoint }, .dcRecv⟩,
          .calling q, rest⟩ (.sys (.bg .sendOk))
        = some (⟨⟨{ b with now := b.now + 60000 * n, hbDue := b.now + 60000 * (n + 1) }, .dcRecv⟩, .calling q, rest⟩,
          [.tx .task (ConnectionstateRequest.mk c.channel c.endpoint).packet]) := by
      simp [Prog.step, Knx.step, bgStep, hpc]
    have h3 : Prog.step m ⟨⟨{ b with now := b.now + 60000 * n, hbDue := b.now + 60000 * (n + 1) }, .dcRecv⟩, .calling q, rest⟩ (.sys (.delay 60000))
        = some (⟨⟨{ b with now := b.now + 60000 * (n + 1), hbDue := b.now + 60000 * (n + 1) }, .dcRecv⟩, .calling q, rest⟩, []) := by
      simp [Prog.step, Knx.step]; omega
    have g := ((ih.step (.sys (.bg .tick)) trivial h1).step (.sys (.bg .sendOk)) trivial h2).step (.sys (.delay 60000)) ?_ h3
    · simpa using g
    · refine ⟨⟨?_, ?_⟩, trivial⟩
      · intro t ht
        simp [bgDeadline, hpc, inSelect] at ht
        simp only
        omega
      · intro t ht
        cases ht

theorem received_beats (n : Nat) (p : Bytes) : received (times n [.tick, .tx .task p]) = [] ∧ returned (times n [.tick, .tx .task p]) = []
    ∧ apiSent (times n [.tick, .tx .task p]) = [] := by
  induction n with
  | zero => exact ⟨rfl, rfl, rfl⟩
  | succ n ih =>
    rw [times_succ, returned_append, apiSent_append, ih.2.1, ih.2.2,
      show ∀ a b : List Obs, received (a ++ b) = received a ++ received b from fun a b => by simp [received], ih.1]
    exact ⟨rfl, rfl, rfl⟩

set_option synthInstance.maxSize 1000 in
/-- C87 is refuted: with a gateway that grants the connection and confirms the write, but is silent from then on, the sample program does
not end: it still waits after any number of minutes. -/
theorem C87_violated_hangs (m : Mode) (n : Nat) : ∃ p tr q1 q2, ProgPrompt m sampleMain p tr ∧ p.phase = .calling true ∧
    4000 + 60000 * n ≤ p.sys.bg.now ∧ received tr = [confirm7] ∧ returned tr = [.unit] ∧ apiSent tr = [q1, q2] := by
  obtain ⟨⟨⟨b, api⟩, ph, rest⟩, tr, h1, h2⟩ := prog_of_evs (m := m) (ss := sampleMain) (evs := sampleEvs ++ [.sys (.delay 56000)])
    (f := fun x => (x.1.phase, x.1.sys.api, x.1.sys.bg.pc, received x.2, returned x.2,
      [x.1.sys.bg.conn.toList.length, x.1.sys.bg.hbDue, x.1.sys.bg.now, (apiSent x.2).length]))
    (y := (.calling true, .dcRecv, .recv, [confirm7], [.unit], [1, 60000, 60000, 2])) (by cases m <;> decide +kernel)
  simp only [Prod.mk.injEq, List.cons.injEq] at h2
  obtain ⟨rfl, rfl, e1, e5, e6, e2, e3, e4, e7, -⟩ := h2
  obtain ⟨c, hc⟩ : ∃ c, b.conn = some c := by
    cases hb : b.conn with
    | none => rw [hb] at e2; cases e2
    | some c => exact ⟨c, rfl⟩
  have h := prog_beats h1 e1 hc (e3.trans e4.symm) n
  obtain ⟨k1, k2, k3⟩ := received_beats n (ConnectionstateRequest.mk c.channel c.endpoint).packet
  obtain ⟨q1, q2, e8⟩ := List.length_eq_two.1 e7
  refine ⟨_, _, q1, q2, h, rfl, ?_, ?_, ?_, ?_⟩
  · simp only [e4]; omega
  · rw [show ∀ a b : List Obs, received (a ++ b) = received a ++ received b from fun a b => by simp [received], e5, k1]; rfl
  · rw [returned_append, e6, k2]; rfl
  · rw [apiSent_append, e8, k3]; rfl

/-- The sample program run to its end without an error: an unrelated telegram takes the place of the answer to the disconnect request. -/
example (m : Mode) : ∃ p tr, ProgExec m sampleMain p tr ∧ p.phase = .over (.ok ()) ∧ returned tr = [.unit, .unit] ∧
    p.sys.bg.now = 4000 ∧ (sentBy tr).map (fun x => (x.1, x.2.length)) = [(.write (.group3 ⟨1, 1, 2⟩) [3] true, 1), (.disconnect, 1)] := by
  obtain ⟨p, tr, h1, h2⟩ := prog_of_evs (m := m) (ss := sampleMain)
    (evs := sampleEvs ++ [.sys (.bg (.dgram other7)), .sys (.bg .sendOk), .sys (.bg .run), .sys (.api .run), .go])
    (f := fun x => (x.1.phase, returned x.2, x.1.sys.bg.now, (sentBy x.2).map (fun x => (x.1, x.2.length))))
    (y := (.over (.ok ()), [.unit, .unit], 4000, [(.write (.group3 ⟨1, 1, 2⟩) [3] true, 1), (.disconnect, 1)]))
    (by cases m <;> decide +kernel)
  simp only [Prod.mk.injEq] at h2
  exact ⟨p, tr, h1.prog, h2.1, h2.2.1, h2.2.2.1, h2.2.2.2⟩

/-- It ends with a panic when the socket refuses the disconnect request. -/
example (m : Mode) : ∃ p tr, ProgExec m sampleMain p tr ∧ p.phase = .over .panic ∧ returned tr = [.unit, .panic] := by
  obtain ⟨p, tr, h1, h2⟩ := prog_of_evs (m := m) (ss := sampleMain) (evs := sampleEvs.dropLast ++ [.sys (.api .sendFail)])
    (f := fun x => (x.1.phase, returned x.2)) (y := (.over .panic, [.unit, .panic])) (by cases m <;> decide +kernel)
  simp only [Prod.mk.injEq] at h2
  exact ⟨p, tr, h1.prog, h2.1, h2.2⟩

/-- A program with a `?` that ends before its last statement. -/
example (m : Mode) : ∃ p tr, ProgExec m [.call (.write (.group3 ⟨1, 0, 1⟩) [] false) true, .call .disconnect true] p tr ∧
    p.phase = .over .err ∧ p.rest = [.call .disconnect true] := by
  obtain ⟨p, tr, h1, h2⟩ := prog_of_evs (m := m) (ss := [.call (.write (.group3 ⟨1, 0, 1⟩) [] false) true, .call .disconnect true])
    (evs := [.go, .sys (.bg .run), .sys (.bg .sendFail), .sys (.api .run)])
    (f := fun x => (x.1.phase, x.1.rest)) (y := (.over .err, [.call .disconnect true])) (by cases m <;> decide +kernel)
  simp only [Prod.mk.injEq] at h2
  exact ⟨p, tr, h1.prog, h2.1, h2.2⟩

end Knx
