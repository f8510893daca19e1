import Verif.Lemmas.Callers
import Verif.Props.Timing

/-!
# C77, C78: several callers of one client or monitor
-/

namespace Knx
open Spec

/-! ## C77 -/

theorem Server.Exec.client {m : Mode} {s : (clientServer m).S} {tr : List Obs} (h : Server.Exec (clientServer m) s tr) : Knx.Exec m s tr := by
  induction h with
  | init => exact Knx.Exec.init
  | step e _ hs ih => exact Knx.Exec.step e ih hs

theorem Server.Exec.monitor {m : Mode} {s : (monitorServer m).S} {tr : List Obs} (h : Server.Exec (monitorServer m) s tr) : MExec m s tr := by
  induction h with
  | init => exact .init
  | step e _ hs ih => exact ih.step e hs

/-- C77: whatever several callers do at the same time, the client behaves as if it had one caller, so that everything shown about
`Exec` holds of it. -/
theorem C77_client_as_one {m : Mode} {p : Pool (clientServer m)} {tr : List (PObs (clientServer m))} (h : PExec (clientServer m) p tr) :
    Exec m p.sys (inner tr) := h.inner.client

/-- C77: the same for the monitor. -/
theorem C77_monitor_as_one {m : Mode} {p : Pool (monitorServer m)} {tr : List (PObs (monitorServer m))}
    (h : PExec (monitorServer m) p tr) : MExec m p.sys (inner tr) := h.inner.monitor

/-- What the proofs about several callers need to know about client and monitor. -/
theorem lawful_cases {m : Mode} {V : Server} (hV : V = clientServer m ∨ V = monitorServer m) : V.Lawful := by
  rcases hV with rfl | rfl
  · exact clientServer_lawful m
  · exact monitorServer_lawful m

/-- C77: calls get the lock in the order in which they were made, one at a time; nothing is done on behalf of a call except by
the call whose turn it is, which ends its turn with its result (or when it is dropped, or, for `next_msg`, at once); the calls
and results of each caller alternate; and when it is nobody's turn, the first in the line can go on. -/
theorem C77_turns {m : Mode} {V : Server} (hV : V = clientServer m ∨ V = monitorServer m) {p : Pool V} {tr : List (PObs V)}
    (h : PExec V p tr) :
    ∃ l t, Line tr l ∧ Turn tr t ∧ (∀ o, PObs.other o ∈ tr → byCall o = false) ∧
      (∀ i, bracket (mine i tr) = some (decide (t = some i))) ∧
      (t = none → ∀ i r rest, l = (i, r) :: rest → ∃ p' o, p.step .grant = some (p', .began i r :: o)) := by
  have hl := lawful_cases hV
  refine ⟨p.line, p.owner, h.line, (h.turn hl).1, (h.turn hl).2.2, h.mine hl, fun h1 i r rest h2 => ?_⟩
  obtain ⟨p', o, h3, _⟩ := h.next hl h1 h2
  exact ⟨p', o, h3⟩

theorem Spec.Line.order {V : Server} {tr : List (PObs V)} {l : List (Nat × V.Req)} (h : Line tr l) (hp : patient tr) :
    Spec.asked tr = Spec.began tr ++ l := by
  induction h with
  | nil => rfl
  | @asked tr l i r _ ih =>
    have := ih fun j => ⟨fun h => (hp j).1 (List.mem_append_left _ h), fun h => (hp j).2 (List.mem_append_left _ h)⟩
    simp only [Spec.asked, Spec.began, List.filterMap_append] at this ⊢
    rw [this]; simp
  | early i r _ ih => exact absurd (by simp) (hp i).2
  | left i _ ih => exact absurd (by simp) (hp i).1
  | @began tr l i r _ ih =>
    have := ih fun j => ⟨fun h => (hp j).1 (List.mem_append_left _ h), fun h => (hp j).2 (List.mem_append_left _ h)⟩
    simp only [Spec.asked, Spec.began, List.filterMap_append] at this ⊢
    rw [this]; simp
  | @own tr l i o _ ih =>
    have := ih fun j => ⟨fun h => (hp j).1 (List.mem_append_left _ h), fun h => (hp j).2 (List.mem_append_left _ h)⟩
    simp only [Spec.asked, Spec.began, List.filterMap_append] at this ⊢
    rw [this]; simp
  | @other tr l o _ ih =>
    have := ih fun j => ⟨fun h => (hp j).1 (List.mem_append_left _ h), fun h => (hp j).2 (List.mem_append_left _ h)⟩
    simp only [Spec.asked, Spec.began, List.filterMap_append] at this ⊢
    rw [this]; simp

/-- C77: as long as nobody gives up (or panics before waiting), the calls that have been served are the first ones made, in order. -/
theorem C77_order {m : Mode} {V : Server} (_hV : V = clientServer m ∨ V = monitorServer m) {p : Pool V} {tr : List (PObs V)}
    (h : PExec V p tr) (hp : patient tr) : began tr <+: asked tr := ⟨_, (h.line.order hp).symm⟩

theorem ClientReq.call_eq (r : ClientReq) : r.call = clientCall r := by cases r <;> rfl

theorem began_append {V : Server} (a b : List (PObs V)) : began (a ++ b) = began a ++ began b := by simp [began]

theorem began_tag {V : Server} (b : Bool) (i : Option Nat) (o : List Obs) : began (o.map (tag (V := V) b i)) = [] := by
  simp only [began, List.filterMap_eq_nil_iff, List.mem_map]
  rintro x ⟨y, _, rfl⟩
  cases b <;> cases i <;> rfl

theorem PExec.calls {V : Server} (f : V.Req → Option Call)
    (h1 : ∀ s i r s' o, V.free s = true → V.step s (V.start i r) = some (s', o) → calls o = (f r).toList)
    (h2 : ∀ s e s' o, V.begins e = false → V.step s e = some (s', o) → calls o = [])
    {p : Pool V} {tr : List (PObs V)} (h : PExec V p tr) :
    Spec.calls (Spec.inner tr) = (began tr).filterMap (fun x => f x.2) ∧ ∀ i, p.owner = some i → ∃ r, (began tr).getLast? = some (i, r) := by
  induction h with
  | init => exact ⟨rfl, by simp [Pool.init]⟩
  | @step p p' tr o e hx hs ih =>
    obtain ⟨ih1, ih2⟩ := ih
    rw [inner_append, calls_append, ih1, began_append, List.filterMap_append]
    cases e with
    | ask j r =>
      simp only [Pool.step] at hs
      split at hs
      · split at hs <;> (cases hs; exact ⟨by simp [Spec.inner, Spec.calls, began], (List.append_nil (began tr)).symm ▸ ih2⟩)
      · cases hs
    | grant =>
      simp only [Pool.step] at hs
      split at hs
      · cases hs
      · rename_i j r rest hl
        split at hs
        · rename_i hfr
          split at hs
          · cases hs
          · rename_i s o' ho
            cases hs
            have e1 : began (PObs.began j r :: o'.map (tag true (some j))) = [(j, r)] := by
              rw [show PObs.began j r :: o'.map (tag true (some j)) = [PObs.began j r] ++ o'.map (tag true (some j)) from rfl, began_append, began_tag]
              rfl
            have e2 : Spec.inner (PObs.began j r :: o'.map (tag (V := V) true (some j))) = o' := by
              have := inner_tag (V := V) true (some j) o'
              simpa [Spec.inner] using this
            rw [e1, e2, h1 _ _ _ _ _ hfr ho]
            refine ⟨by simp [List.filterMap_cons]; cases f r <;> rfl, ?_⟩
            intro i hi
            simp only [holder] at hi
            split at hi
            · cases hi
            · cases hi; exact ⟨r, by simp⟩
        · cases hs
    | leave j =>
      simp only [Pool.step] at hs
      split at hs
      · cases hs; exact ⟨by simp [Spec.inner, Spec.calls, began], (List.append_nil (began tr)).symm ▸ ih2⟩
      · cases hs
    | sys e =>
      simp only [Pool.step] at hs
      split at hs
      · cases hs
      · rename_i hne
        have hbe : V.begins e = false := by
          cases hbe : V.begins e
          · rfl
          · exact absurd (Or.inl hbe) hne
        split at hs
        · cases hs
        · rename_i s o' ho
          cases hs
          rw [inner_tag, began_tag, h2 _ _ _ _ hbe ho]
          refine ⟨by simp, fun i hi => ?_⟩
          simp only [holder] at hi
          split at hi
          · cases hi
          · simpa using ih2 i hi

theorem PExec.clientCalls {m : Mode} {p : Pool (clientServer m)} {tr : List (PObs (clientServer m))} (h : PExec (clientServer m) p tr) :
    Spec.calls (Spec.inner tr) = (began tr).filterMap (fun x => some (clientCall x.2)) ∧
      ∀ i, p.owner = some i → ∃ r, (began tr).getLast? = some (i, r) := by
  refine h.calls (fun r => some (clientCall r)) ?_ ?_
  · intro s i r s' o hf hs
    have hf : s.api = .idle := of_decide_eq_true hf
    have hs : apiStep m s (.call r.call) = some (s', o) := hs
    cases r <;> simp only [ClientReq.call, apiStep, hf, reduceCtorEq, if_false, apiCall, startTunnel] at hs
    all_goals
      split at hs
      · first
          | (split at hs <;> cases hs <;> rfl)
          | (cases hs; rfl)
      · cases hs
  · intro s e s' o hb hs
    cases e with
    | bg e =>
      simp only [clientServer, Knx.step, Option.map_eq_some_iff, Prod.exists] at hs
      obtain ⟨b, o', hb, h⟩ := hs
      cases h
      simp only [Spec.calls, List.filterMap_eq_nil_iff]
      intro x hx
      have := bgStep_byCall hb x hx
      cases x <;> first | rfl | cases this
    | delay d => cases hs; rfl
    | api e =>
      have hs : apiStep m s e = some (s', o) := hs
      by_cases hi : s.api = .idle
      · cases e
        case call c => cases hb
        case drop =>
          simp only [apiStep, hi] at hs
          repeat' split at hs
          all_goals first | (cases hs; done) | (cases hs; rfl)
        all_goals simp [apiStep, hi] at hs
      · have ht := apiStep_tr hs
        cases ht <;> first | rfl | exact absurd (by assumption) hi

theorem PExec.monitorCalls {m : Mode} {p : Pool (monitorServer m)} {tr : List (PObs (monitorServer m))} (h : PExec (monitorServer m) p tr) :
    Spec.calls (Spec.inner tr) = (began tr).filterMap (fun x => monitorCall x.2) ∧
      ∀ i, p.owner = some i → ∃ r, (began tr).getLast? = some (i, r) := by
  refine h.calls monitorCall ?_ ?_
  · intro s i r s' o hf hs
    have hf : s.api = .idle := of_decide_eq_true hf
    have hs : mapiStep m s (r.event i) = some (s', o) := hs
    cases r <;> simp only [MonitorReq.event, mapiStep, mcallStep, hf, mapiCall, mstartTunnel] at hs
    all_goals
      split at hs
      · first
          | (split at hs <;> cases hs <;> rfl)
          | (cases hs; rfl)
      · cases hs
  · intro s e s' o hb hs
    have key : ∀ o : List Obs, (∀ x ∈ o, byCall x = false) → Spec.calls o = [] := by
      intro o ho
      simp only [Spec.calls, List.filterMap_eq_nil_iff]
      intro x hx
      have := ho x hx
      cases x <;> first | rfl | cases this
    cases e with
    | bg e =>
      simp only [monitorServer, Knx.mstep, Option.map_eq_some_iff, Prod.exists] at hs
      obtain ⟨b, o', hb, h⟩ := hs
      cases h
      exact key _ (bgStep_byCall hb)
    | delay d => cases hs; rfl
    | api e =>
      have hs : mapiStep m s e = some (s', o) := hs
      by_cases hi : s.api = .idle
      · exact key _ (mapiStep_idle hi hs (fun c h => by subst h; cases hb) (fun i h => by subst h; cases hb)).2
      · have ht := mapiStep_tr hs
        cases ht <;> first | rfl | exact absurd (by assumption) hi

/-- A step that yields an observation of caller `i` is either the start of the call of `i` or a step of it. -/
theorem Pool.own_mem {V : Server} {p p' : Pool V} {e : PEv V} {o : List (PObs V)} {i : Nat} {x : Obs} (hs : p.step e = some (p', o))
    (hx : PObs.own i x ∈ o) : (∃ r, PObs.began i r ∈ o ∧ began o = [(i, r)]) ∨ (p.owner = some i ∧ began o = []) := by
  cases e with
  | ask j r =>
    simp only [Pool.step] at hs
    split at hs
    · split at hs <;> (cases hs; simp at hx)
    · cases hs
  | grant =>
    simp only [Pool.step] at hs
    split at hs
    · cases hs
    · rename_i j r rest hl
      split at hs
      · split at hs
        · cases hs
        · rename_i s o' ho
          cases hs
          left
          simp only [List.mem_cons, reduceCtorEq, List.mem_map, false_or] at hx
          obtain ⟨y, _, hy⟩ := hx
          cases hy
          refine ⟨r, by simp, ?_⟩
          rw [show PObs.began i r :: o'.map (tag true (some i)) = [PObs.began i r] ++ o'.map (tag true (some i)) from rfl, began_append, began_tag]
          rfl
      · cases hs
  | leave j =>
    simp only [Pool.step] at hs
    split at hs
    · cases hs; simp at hx
    · cases hs
  | sys e =>
    simp only [Pool.step] at hs
    split at hs
    · cases hs
    · split at hs
      · cases hs
      · rename_i s o' ho
        cases hs
        right
        obtain ⟨y, _, hy⟩ := List.mem_map.1 hx
        refine ⟨?_, began_tag _ _ _⟩
        cases hw : V.own e <;> cases hp : p.owner <;> rw [hw, hp] at hy <;> cases hy
        rfl

/-- It is made by a step of the object. -/
theorem Pool.own_step {V : Server} {p p' : Pool V} {e : PEv V} {o : List (PObs V)} {i : Nat} {x : Obs} (hs : p.step e = some (p', o))
    (hx : PObs.own i x ∈ o) : ∃ e', V.step p.sys e' = some (p'.sys, inner o) ∧ x ∈ inner o := by
  have hm : x ∈ Spec.inner o := by
    simp only [Spec.inner, List.mem_filterMap]
    exact ⟨_, hx, rfl⟩
  cases e with
  | ask j r =>
    simp only [Pool.step] at hs
    split at hs
    · split at hs <;> (cases hs; simp at hx)
    · cases hs
  | grant =>
    simp only [Pool.step] at hs
    split at hs
    · cases hs
    · rename_i j r rest hl
      split at hs
      · split at hs
        · cases hs
        · rename_i s o' ho
          cases hs
          have e2 : Spec.inner (PObs.began j r :: o'.map (tag (V := V) true (some j))) = o' := by
            have := inner_tag (V := V) true (some j) o'
            simpa [Spec.inner] using this
          exact ⟨_, by rw [e2]; exact ho, hm⟩
      · cases hs
  | leave j =>
    simp only [Pool.step] at hs
    split at hs
    · cases hs; simp at hx
    · cases hs
  | sys e =>
    simp only [Pool.step] at hs
    split at hs
    · cases hs
    · split at hs
      · cases hs
      · rename_i s o' ho
        cases hs
        exact ⟨_, by rw [inner_tag]; exact ho, hm⟩

/-- C77: whatever a call of the client does or returns belongs to the request that was served last, which is one of the caller's own;
so what is known about results in terms of the last call (C53, C56, C58, ...) holds for each caller. -/
theorem C77_client_own {m : Mode} {p p' : Pool (clientServer m)} {tr o : List (PObs (clientServer m))} {e : PEv (clientServer m)} {i : Nat}
    {x : Obs} (h : PExec (clientServer m) p tr) (hs : p.step e = some (p', o)) (hx : PObs.own i x ∈ o) :
    ∃ r : ClientReq, (began (tr ++ o)).getLast? = some (i, r) ∧ lastCall (inner (tr ++ o)) = some (clientCall r) := by
  have h1 := (h.step e hs).clientCalls.1
  have h2 : ∃ r, (began (tr ++ o)).getLast? = some (i, r) := by
    rw [began_append]
    rcases Pool.own_mem hs hx with ⟨r, _, hr⟩ | ⟨ho, hr⟩
    · exact ⟨r, by rw [hr]; simp⟩
    · obtain ⟨r, hl⟩ := h.clientCalls.2 i ho
      exact ⟨r, by rw [hr]; simpa using hl⟩
  obtain ⟨r, hr⟩ := h2
  refine ⟨r, hr, ?_⟩
  obtain ⟨ys, hy⟩ := List.getLast?_eq_some_iff.1 hr
  rw [lastCall, h1, hy]
  simp

/-- C77: the same for the monitor (`next_msg` is not a call that holds the lock). -/
theorem C77_monitor_own {m : Mode} {p p' : Pool (monitorServer m)} {tr o : List (PObs (monitorServer m))} {e : PEv (monitorServer m)}
    {i : Nat} {x : Obs} (h : PExec (monitorServer m) p tr) (hs : p.step e = some (p', o)) (hx : PObs.own i x ∈ o) :
    ∃ r : MonitorReq, (began (tr ++ o)).getLast? = some (i, r) ∧ ∀ c, monitorCall r = some c → lastCall (inner (tr ++ o)) = some c := by
  have h1 := (h.step e hs).monitorCalls.1
  have h2 : ∃ r, (began (tr ++ o)).getLast? = some (i, r) := by
    rw [began_append]
    rcases Pool.own_mem hs hx with ⟨r, _, hr⟩ | ⟨ho, hr⟩
    · exact ⟨r, by rw [hr]; simp⟩
    · obtain ⟨r, hl⟩ := h.monitorCalls.2 i ho
      exact ⟨r, by rw [hr]; simpa using hl⟩
  obtain ⟨r, hr⟩ := h2
  refine ⟨r, hr, fun c hc => ?_⟩
  obtain ⟨ys, hy⟩ := List.getLast?_eq_some_iff.1 hr
  rw [lastCall, h1, hy]
  simp [hc]

/-- Steps of the object with its callers, one after the other. -/
def Pool.runEvs {V : Server} (p : Pool V) : List (PEv V) → Option (Pool V × List (PObs V))
  | [] => some (p, [])
  | e :: es => match p.step e with
    | none => none
    | some (p', o) => match p'.runEvs es with
      | none => none
      | some (p'', o') => some (p'', o ++ o')

theorem Pool.runEvs_run {V : Server} {es : List (PEv V)} : ∀ {p p' : Pool V} {tr : List (PObs V)}, p.runEvs es = some (p', tr) → PRun V p tr p' := by
  induction es with
  | nil => intro p p' tr h; cases h; exact .nil _
  | cons e es ih =>
    intro p p' tr h
    simp only [Pool.runEvs] at h
    split at h
    · cases h
    · split at h
      · cases h
      · rename_i h1 _ _ _ h2
        cases h; exact .step e h1 (ih h2)

theorem PExec.append {V : Server} {p p' : Pool V} {tr o : List (PObs V)} (h : PExec V p tr) (hr : PRun V p o p') : PExec V p' (tr ++ o) := by
  induction hr generalizing tr with
  | nil p => simpa using h
  | step e hs _ ih => rw [← List.append_assoc]; exact ih (h.step e hs)

theorem pexec_of_evs {V : Server} {evs : List (PEv V)} {α : Type} {f : Pool V × List (PObs V) → α} {y : α}
    (h : ((Pool.init V).runEvs evs).map f = some y) : ∃ p tr, PExec V p tr ∧ f (p, tr) = y := by
  simp only [Option.map_eq_some_iff] at h
  obtain ⟨⟨p, tr⟩, h1, h2⟩ := h
  exact ⟨p, tr, by simpa using PExec.append .init (Pool.runEvs_run h1), h2⟩

/-- C77, put together for a read: the value a caller gets is that of a telegram for the address this caller asked for. -/
theorem C77_read {m : Mode} {p p' : Pool (clientServer m)} {tr o : List (PObs (clientServer m))} {e : PEv (clientServer m)} {i : Nat}
    {v : Bytes} (h : PExec (clientServer m) p tr) (hs : p.step e = some (p', o)) (hv : PObs.own i (.ret (.value v)) ∈ o) :
    ∃ addr, (began (tr ++ o)).getLast? = some (i, ClientReq.read addr) ∧
      ∃ c ∈ taken (since isCall (inner (tr ++ o))), IndicationFor addr.toU16 c v := by
  obtain ⟨r, h1, h2⟩ := C77_client_own h hs hv
  obtain ⟨e', hs', hv'⟩ := Pool.own_step hs hv
  rw [inner_append] at h2 ⊢
  obtain ⟨addr, _, _, _, cs, c, g1, _, _, g2, g3, _⟩ := C53_value (C77_client_as_one h) hs' hv'
  rw [h2] at g1
  refine ⟨addr, ?_, c, by rw [g2]; simp, g3⟩
  cases r <;> cases g1
  exact h1

def clientReqs {m : Mode} (l : List (Nat × (clientServer m).Req)) : List (Nat × ClientReq) := l

def monitorReqs {m : Mode} (l : List (Nat × (monitorServer m).Req)) : List (Nat × MonitorReq) := l

/-- Three callers: the first reads 1/0/1, the second writes and the third asks for the status while the first is still reading; the third
gives up. The first gets its value, then it is the second's turn. -/
def threeCallers (m : Mode) : List (PEv (clientServer m)) :=
  [.sys (.bg .run), .sys (.bg .sendOk), .sys (.bg (.dgram grant7)), .sys (.bg .run), .ask 1 (ClientReq.read (.group3 ⟨1, 0, 1⟩)), .grant,
    .ask 2 (ClientReq.write (.group3 ⟨1, 0, 2⟩) [1] true), .ask 3 ClientReq.status, .sys (.api .run), .sys (.api .run), .sys (.api .sendOk),
    .sys (.bg (.dgram req7)), .sys (.bg .sendOk), .sys (.bg .run), .sys (.api .run), .leave 3, .grant, .sys (.api .run), .sys (.api .run),
    .sys (.api .sendOk)]

set_option synthInstance.maxSize 1000 in
example (m : Mode) : ∃ p tr, PExec (clientServer m) p tr ∧
    asked tr = [(1, ClientReq.read (.group3 ⟨1, 0, 1⟩)), (2, ClientReq.write (.group3 ⟨1, 0, 2⟩) [1] true), (3, ClientReq.status)] ∧
    began tr = [(1, ClientReq.read (.group3 ⟨1, 0, 1⟩)), (2, ClientReq.write (.group3 ⟨1, 0, 2⟩) [1] true)] ∧
    returned (mine 1 tr) = [.value [1]] ∧ returned (mine 2 tr) = [] ∧ (apiSent (mine 2 tr)).length = 1 ∧ mine 3 tr = [] ∧ p.owner = some 2 := by
  obtain ⟨p, tr, h1, h2⟩ := pexec_of_evs (V := clientServer m) (evs := threeCallers m)
    (f := fun x => (clientReqs (asked x.2), clientReqs (began x.2), returned (mine 1 x.2), returned (mine 2 x.2), (apiSent (mine 2 x.2)).length, (mine 3 x.2).length, x.1.owner))
    (y := ([(1, ClientReq.read (.group3 ⟨1, 0, 1⟩)), (2, ClientReq.write (.group3 ⟨1, 0, 2⟩) [1] true), (3, ClientReq.status)],
      [(1, ClientReq.read (.group3 ⟨1, 0, 1⟩)), (2, ClientReq.write (.group3 ⟨1, 0, 2⟩) [1] true)], [.value [1]], [], 1, 0, some 2))
    (by cases m <;> decide +kernel)
  simp only [Prod.mk.injEq] at h2
  obtain ⟨a1, a2, a3, a4, a5, a6, a7⟩ := h2
  exact ⟨p, tr, h1, a1, a2, a3, a4, a5, List.eq_nil_of_length_eq_zero a6, a7⟩

/-- Nobody gives up: the calls served are the first two of three. -/
example (m : Mode) : ∃ p tr, PExec (clientServer m) p tr ∧ patient tr ∧ (began tr).length = 2 ∧ (asked tr).length = 3 := by
  obtain ⟨p, tr, h1, h2⟩ := pexec_of_evs (V := clientServer m) (evs := (threeCallers m).eraseIdx 15)
    (f := fun x => (x.2.all fun | .left _ => false | .early _ => false | _ => true, (began x.2).length, (asked x.2).length))
    (y := (true, 2, 3)) (by cases m <;> decide +kernel)
  simp only [Prod.mk.injEq, List.all_eq_true] at h2
  exact ⟨p, tr, h1, fun i => ⟨fun h => by have := h2.1 _ h; simp at this, fun h => by have := h2.1 _ h; simp at this⟩, h2.2⟩

/-- The step in which the first caller gets its value, as in `C77_read`. -/
example (m : Mode) : ∃ p tr, PExec (clientServer m) p tr ∧ p.line.length = 2 ∧
    ((p.step (.sys (.api .run))).map fun x => x.2.any fun | .own 1 (.ret (.value [1])) => true | _ => false) = some true := by
  obtain ⟨p, tr, h1, h2⟩ := pexec_of_evs (V := clientServer m) (evs := (threeCallers m).take 14)
    (f := fun x => (x.1.line.length, (x.1.step (.sys (.api .run))).map fun x => x.2.any fun | .own 1 (.ret (.value [1])) => true | _ => false))
    (y := (2, some true)) (by cases m <;> decide +kernel)
  simp only [Prod.mk.injEq] at h2
  exact ⟨p, tr, h1, h2⟩

set_option synthInstance.maxSize 1000 in
/-- Callers of the monitor: two wait for a message at the same time as a third
writes; one of them gets a telegram; a fourth asks whether the monitor is connected. -/
example (m : Mode) : ∃ p tr, PExec (monitorServer m) p tr ∧
    began tr = [(1, MonitorReq.next), (2, MonitorReq.next), (3, MonitorReq.write (.group3 ⟨1, 0, 2⟩) [1] true)] ∧
    (asked tr).length = 4 ∧ (nexts (inner tr)).length = 1 ∧ (drawn (mine 3 tr)).length = 1 ∧ returned (mine 3 tr) = [] ∧ mine 4 tr = [] ∧
    p.owner = some 3 := by
  obtain ⟨p, tr, h1, h2⟩ := pexec_of_evs (V := monitorServer m) (evs := [.sys (.bg .run), .sys (.bg .sendOk), .sys (.bg (.dgram grant7)),
      .sys (.bg .sendOk), .sys (.bg .run), .sys (.bg .run), .ask 1 MonitorReq.next, .grant, .ask 2 MonitorReq.next, .grant,
      .ask 3 (MonitorReq.write (.group3 ⟨1, 0, 2⟩) [1] true), .grant, .ask 4 MonitorReq.isConnected, .sys (.api .run), .sys (.api .run),
      .sys (.bg (.dgram req7)), .sys (.bg .sendOk), .sys (.bg .run), .sys (.api (.nrun 2))])
    (f := fun x => (monitorReqs (began x.2), (asked x.2).length, (nexts (inner x.2)).length, (drawn (mine 3 x.2)).length, returned (mine 3 x.2), (mine 4 x.2).length, x.1.owner))
    (y := ([(1, MonitorReq.next), (2, MonitorReq.next), (3, MonitorReq.write (.group3 ⟨1, 0, 2⟩) [1] true)], 4, 1, 1, [], 0, some 3))
    (by cases m <;> decide +kernel)
  simp only [Prod.mk.injEq] at h2
  obtain ⟨a1, a2, a3, a4, a5, a6, a7⟩ := h2
  exact ⟨p, tr, h1, a1, a2, a3, a4, a5, List.eq_nil_of_length_eq_zero a6, a7⟩

/-! ## C78 -/

theorem PRun.append {V : Server} {p p' p'' : Pool V} {a b : List (PObs V)} (h1 : PRun V p a p') (h2 : PRun V p' b p'') : PRun V p (a ++ b) p'' := by
  induction h1 with
  | nil => exact h2
  | step e hs _ ih => rw [List.append_assoc]; exact .step e hs (ih h2)

theorem PPromptRun.run {V : Server} {p p' : Pool V} {tr : List (PObs V)} (h : PPromptRun V p tr p') : PRun V p tr p' := by
  induction h with
  | nil p => exact .nil p
  | step e _ hs _ ih => exact .step e hs ih

/-- C78, what does hold (1): while a caller waits, nobody is served but callers that were in the line before it, each at most once
per place in the line and in their order. -/
theorem C78_ahead_partial {V : Server} {p p' : Pool V} {tr : List (PObs V)} (h : PRun V p tr p') {i : Nat} {r : V.Req}
    {pre post : List (Nat × V.Req)} (hl : p.line = pre ++ (i, r) :: post) (h1 : PObs.left i ∉ tr) (h2 : ∀ q, PObs.began i q ∉ tr) :
    ∃ pre' post', p'.line = pre' ++ (i, r) :: post' ∧ List.Sublist (began tr ++ pre') pre := by
  induction h generalizing pre post with
  | nil p => exact ⟨pre, post, hl, by simp [began]⟩
  | @step p p1 p2 o tr e hs hr ih =>
    simp only [List.mem_append, not_or] at h1 h2
    have key : ∀ pre1 post1, p1.line = pre1 ++ (i, r) :: post1 → List.Sublist (began o ++ pre1) pre →
        ∃ pre' post', p2.line = pre' ++ (i, r) :: post' ∧ List.Sublist (began (o ++ tr) ++ pre') pre := by
      intro pre1 post1 g1 g2
      obtain ⟨pre', post', g3, g4⟩ := ih g1 h1.2 fun q => (h2 q).2
      refine ⟨pre', post', g3, ?_⟩
      rw [began_append, List.append_assoc]
      exact (List.Sublist.append_left g4 _).trans g2
    cases e with
    | ask j q =>
      simp only [Pool.step] at hs
      split at hs
      · split at hs
        · cases hs; exact key pre post hl (by simp [began])
        · cases hs; exact key pre (post ++ [(j, q)]) (by simp [hl]) (by simp [began])
      · cases hs
    | grant =>
      simp only [Pool.step, hl] at hs
      cases pre with
      | nil =>
        simp only [List.nil_append] at hs
        split at hs
        · split at hs
          · cases hs
          · cases hs; exact absurd (by simp) (h2 r).1
        · cases hs
      | cons x pre =>
        obtain ⟨j, q⟩ := x
        simp only [List.cons_append] at hs
        split at hs
        · split at hs
          · cases hs
          · cases hs
            refine key pre post rfl ?_
            rw [show ∀ l : List (PObs V), PObs.began j q :: l = [PObs.began j q] ++ l from fun _ => rfl, began_append, began_tag]
            simp [began]
        · cases hs
    | leave j =>
      simp only [Pool.step] at hs
      split at hs
      · cases hs
        have hij : i ≠ j := by rintro rfl; exact h1.1 (by simp)
        refine key (pre.filter (·.1 ≠ j)) (post.filter (·.1 ≠ j)) ?_ ?_
        · simp [hl, List.filter_append, hij]
        · simp [began]
      · cases hs
    | sys e =>
      simp only [Pool.step] at hs
      split at hs
      · cases hs
      · split at hs
        · cases hs
        · cases hs
          exact key pre post hl (by rw [began_tag]; simp)

/-- The first in the line is served, the second gives up, the third stays. -/
example (m : Mode) : ∃ p p' tr, PRun (clientServer m) p tr p' ∧
    p.line = [(1, ClientReq.status), (2, ClientReq.disconnect)] ++ (3, ClientReq.status) :: [] ∧ PObs.left 3 ∉ tr ∧
    (∀ q, PObs.began 3 q ∉ tr) ∧ began tr = [(1, ClientReq.status)] ∧ p'.line = [(3, ClientReq.status)] := by
  refine ⟨⟨Sys.init, none, [(1, ClientReq.status), (2, ClientReq.disconnect), (3, ClientReq.status)]⟩, _, _,
    Pool.runEvs_run (es := [.grant, .leave 2]) rfl, rfl, ?_, ?_, rfl, rfl⟩
  · simp [tag]
  · intro q hq
    simp only [List.mem_append, List.mem_cons, List.mem_map, List.not_mem_nil, or_false, reduceCtorEq] at hq
    rcases hq with hq | ⟨_, _, hq⟩
    · injection hq with h; cases h
    · cases hq

/-- C78, what does hold (2): as soon as the call that holds the lock is dropped by its caller, the first in the line can go on. -/
theorem C78_cancel_partial {m : Mode} {V : Server} (hV : V = clientServer m ∨ V = monitorServer m) {p : Pool V} {tr : List (PObs V)} {i j : Nat}
    {r : V.Req} {rest : List (Nat × V.Req)} (h : PExec V p tr) (ho : p.owner = some i) (hl : p.line = (j, r) :: rest) :
    ∃ p' o, PRun V p ([.own i .cancelled, .began j r] ++ o) p' ∧ p'.line = rest := by
  have hlaw := lawful_cases hV
  have hfree : ¬ V.free p.sys = true := fun hf => by
    have := (h.turn hlaw).2.1.2 hf
    rw [ho] at this; cases this
  have : ∃ p1, ∃ e, p.step e = some (p1, [.own i .cancelled]) ∧ p1.owner = none ∧ p1.line = (j, r) :: rest := by
    rcases hV with rfl | rfl
    · have hfree : ¬ p.sys.api = .idle := fun h => hfree (decide_eq_true h)
      refine ⟨⟨{ p.sys with api := .idle }, none, p.line⟩, .sys (.api .cancel), ?_, rfl, hl⟩
      simp [Pool.step, clientServer, step, apiStep, hfree, ho, tag, holder]
    · have hfree : ¬ p.sys.api = .idle := fun h => hfree (decide_eq_true h)
      refine ⟨⟨{ p.sys with api := .idle }, none, p.line⟩, .sys (.api .cancel), ?_, rfl, hl⟩
      simp [Pool.step, monitorServer, mstep, mapiStep, hfree, ho, tag, holder]
  obtain ⟨p1, e, h1, h2, h3⟩ := this
  obtain ⟨p2, o, h4, h5⟩ := (h.step e h1).next hlaw h2 h3
  refine ⟨p2, o, ?_, h5⟩
  have := PRun.step e h1 (.step .grant h4 (.nil p2))
  simpa using this

/-- A step of the object while the call of `i` holds the lock and keeps it. -/
theorem Pool.step_held {V : Server} (hV : V.Lawful) {s s' : V.S} {e : V.E} {o : List Obs} (i : Nat) (l : List (Nat × V.Req))
    (hs : V.step s e = some (s', o)) (hf : V.free s = false) (hb : V.begins e = false) (hd : V.drops e = false)
    (ho : ∀ x ∈ o, lets x = false) :
    Pool.step ⟨s, some i, l⟩ (.sys e) = some (⟨s', some i, l⟩, o.map (tag (V.own e) (some i))) ∧ V.free s' = false := by
  have hf' : V.free s' = false := by
    cases he : V.own e
    · rw [(hV.other s e s' o he hb hs).1, hf]
    · have h1 := hV.own s e s' o hf he hb hs
      have h2 : ∀ o : List Obs, (∀ x ∈ o, lets x = false) → o.foldl heldStep (some true) = some true := by
        intro o ho
        induction o with
        | nil => rfl
        | cons x o ih =>
          have := ho x (by simp)
          rw [List.foldl_cons, show heldStep (some true) x = some true by simp [heldStep, this]]
          exact ih fun y hy => ho y (by simp [hy])
      rw [h2 o ho] at h1
      simpa using h1
  refine ⟨?_, hf'⟩
  simp [Pool.step, hb, hd, hs, holder, hf']

/-- A step of the object while nobody calls. -/
theorem Pool.step_quiet {V : Server} (hV : V.Lawful) {s s' : V.S} {e : V.E} {o : List Obs} (hs : V.step s e = some (s', o))
    (hf : V.free s = true) (hb : V.begins e = false) :
    Pool.step ⟨s, none, []⟩ (.sys e) = some (⟨s', none, []⟩, o.map .other) ∧ V.free s' = true := by
  refine ⟨?_, (hV.idle s e s' o hf hb hs).1⟩
  have : (tag (V.own e) none : Obs → PObs V) = .other := by
    funext x; cases V.own e <;> rfl
  simp [Pool.step, hb, hs, holder, this]

theorem over_lets {o : List Obs} (h : ¬ Over o) (hn : ∀ i, Obs.ncall i ∉ o) : ∀ x ∈ o, lets x = false := by
  intro x hx
  cases x <;> first | rfl | skip
  case ret r => exact absurd (Or.inl (returned_ne hx)) h
  case cancelled => exact absurd (Or.inr hx) h
  case ncall i => exact absurd hx (hn i)

theorem not_over_append {a b : List Obs} (h : ¬ Over (a ++ b)) : ¬ Over a ∧ ¬ Over b := by
  refine ⟨fun g => h ?_, fun g => h ?_⟩
  · rcases g with g | g
    · exact Or.inl (by simp [returned] at g ⊢; tauto)
    · exact Or.inr (List.mem_append_left _ g)
  · rcases g with g | g
    · exact Or.inl (by simp [returned] at g ⊢; tauto)
    · exact Or.inr (List.mem_append_right _ g)

/-- A run of the client during which its call goes on is a run of the client with its callers in which nobody else is served. -/
theorem PromptRun.lift {m : Mode} {s s' : Sys} {tr : List Obs} (h : PromptRun m s tr s') (hi : s.api ≠ .idle) (ho : ¬ Over tr)
    (i : Nat) (l : List (Nat × ClientReq)) :
    ∃ tr' : List (PObs (clientServer m)), PPromptRun (clientServer m) ⟨s, some i, l⟩ tr' ⟨s', some i, l⟩ ∧ inner tr' = tr ∧
      ∀ x ∈ tr', (∃ o, x = .own i o) ∨ ∃ o, x = .other o := by
  induction h with
  | nil s => exact ⟨[], .nil _, rfl, by simp⟩
  | @step s s1 s2 o tr e hp hs _ ih =>
    obtain ⟨ho1, ho2⟩ := not_over_append ho
    have hn : ∀ j, Obs.ncall j ∉ o := by
      intro j hj
      cases e with
      | bg e =>
        simp only [Knx.step, Option.map_eq_some_iff, Prod.exists] at hs
        obtain ⟨b, o', hb, h⟩ := hs
        cases h
        have := bgStep_tr hb
        cases this <;> simp at hj
      | delay d => cases hs; cases hj
      | api e =>
        have := apiStep_tr (show apiStep m s e = some (s1, o) from hs)
        cases this <;> simp at hj
    have hb : (clientServer m).begins e = false := by
      cases e with
      | api e =>
        cases e <;> first | rfl | skip
        rename_i c
        have hs : apiStep m s (.call c) = some (s1, o) := hs
        rw [apiStep, if_neg (by simp)] at hs
        cases h : s.api <;> simp [h] at hs hi
      | _ => rfl
    have hd : (clientServer m).drops e = false := by
      refine decide_eq_false ?_
      rintro rfl
      have hs : apiStep m s .drop = some (s1, o) := hs
      rw [apiStep, if_neg (by simp)] at hs
      cases h : s.api <;> simp [h] at hs hi
    obtain ⟨k1, k2⟩ := Pool.step_held (clientServer_lawful m) i l hs (decide_eq_false hi) hb hd (over_lets ho1 hn)
    have hi1 : s1.api ≠ .idle := of_decide_eq_false k2
    obtain ⟨tr', g1, g2, g3⟩ := ih hi1 ho2
    refine ⟨_, .step (.sys e) ?_ k1 g1, ?_, ?_⟩
    · intro x hx
      cases hx
      exact ⟨hp, fun _ => Or.inr (decide_eq_false hi)⟩
    · rw [inner_append, inner_tag, g2]
    · intro x hx
      rcases List.mem_append.1 hx with hx | hx
      · obtain ⟨y, _, rfl⟩ := List.mem_map.1 hx
        cases (clientServer m).own e
        · exact Or.inr ⟨y, rfl⟩
        · exact Or.inl ⟨y, rfl⟩
      · exact g3 x hx

/-- A run of the monitor during which its call goes on is a run of the monitor with its callers in which nobody else is served. -/
theorem MPromptRun.lift {m : Mode} {s s' : MSys} {tr : List Obs} (h : MPromptRun m s tr s') (hi : s.api ≠ .idle) (ho : ¬ Over tr)
    (i : Nat) (l : List (Nat × MonitorReq)) :
    ∃ tr' : List (PObs (monitorServer m)), PPromptRun (monitorServer m) ⟨s, some i, l⟩ tr' ⟨s', some i, l⟩ ∧ inner tr' = tr ∧
      ∀ x ∈ tr', (∃ o, x = .own i o) ∨ ∃ o, x = .other o := by
  induction h with
  | nil s => exact ⟨[], .nil _, rfl, by simp⟩
  | @step s s1 s2 o tr e hp hs _ ih =>
    obtain ⟨ho1, ho2⟩ := not_over_append ho
    have hn : ∀ j, Obs.ncall j ∉ o := by
      intro j hj
      cases e with
      | bg e =>
        simp only [Knx.mstep, Option.map_eq_some_iff, Prod.exists] at hs
        obtain ⟨b, o', hb, h⟩ := hs
        cases h
        have := bgStep_tr hb
        cases this <;> simp at hj
      | delay d => cases hs; cases hj
      | api e =>
        have := mapiStep_tr (show mapiStep m s e = some (s1, o) from hs)
        cases this <;> first | exact absurd (by assumption) hi | simp at hj
    have hb : (monitorServer m).begins e = false := by
      cases e with
      | api e =>
        cases e <;> first | rfl | skip
        all_goals
          rename_i c
          simp only [mstep, mapiStep, mcallStep] at hs
          cases h : s.api <;> simp [h] at hs hi
      | _ => rfl
    have hd : (monitorServer m).drops e = false := by
      refine decide_eq_false ?_
      rintro rfl
      simp only [mstep, mapiStep, mcallStep] at hs
      cases h : s.api <;> simp [h] at hs hi
    obtain ⟨k1, k2⟩ := Pool.step_held (monitorServer_lawful m) i l hs (decide_eq_false hi) hb hd (over_lets ho1 hn)
    have hi1 : s1.api ≠ .idle := of_decide_eq_false k2
    obtain ⟨tr', g1, g2, g3⟩ := ih hi1 ho2
    refine ⟨_, .step (.sys e) ?_ k1 g1, ?_, ?_⟩
    · intro x hx
      cases hx
      exact ⟨hp, fun _ => Or.inr (decide_eq_false hi)⟩
    · rw [inner_append, inner_tag, g2]
    · intro x hx
      rcases List.mem_append.1 hx with hx | hx
      · obtain ⟨y, _, rfl⟩ := List.mem_map.1 hx
        cases (monitorServer m).own e
        · exact Or.inr ⟨y, rfl⟩
        · exact Or.inl ⟨y, rfl⟩
      · exact g3 x hx

/-- What happens before the first call. -/
theorem Exec.lift {m : Mode} {s : Sys} {tr : List Obs} (h : Exec m s tr) (hc : calls tr = []) :
    PExec (clientServer m) ⟨s, none, []⟩ (tr.map .other) ∧ s.api = .idle := by
  induction h with
  | init => exact ⟨.init, rfl⟩
  | @step s s' tr o e _ hs ih =>
    rw [calls_append, List.append_eq_nil_iff] at hc
    obtain ⟨h1, h2⟩ := ih hc.1
    have hb : (clientServer m).begins e = false := by
      cases e with
      | api e =>
        cases e <;> first | rfl | skip
        rename_i c
        have hs : apiStep m s (.call c) = some (s', o) := hs
        rw [apiStep, if_neg (by simp)] at hs
        simp only [h2] at hs
        split at hs
        · have : c ∈ calls o := by
            cases c <;> simp only [apiCall, startTunnel, reduceCtorEq] at hs
            all_goals first
              | (split at hs <;> cases hs <;> simp [calls])
              | (cases hs; simp [calls])
          rw [hc.2] at this; cases this
        · cases hs
      | _ => rfl
    obtain ⟨h3, h4⟩ := Pool.step_quiet (clientServer_lawful m) hs (decide_eq_true h2) hb
    rw [List.map_append]
    exact ⟨h1.step _ h3, of_decide_eq_true h4⟩

theorem MExec.lift {m : Mode} {s : MSys} {tr : List Obs} (h : MExec m s tr) (hc : calls tr = []) (hn : ∀ i, Obs.ncall i ∉ tr) :
    PExec (monitorServer m) ⟨s, none, []⟩ (tr.map .other) ∧ s.api = .idle := by
  induction h with
  | init => exact ⟨.init, rfl⟩
  | @step s s' tr o e _ hs ih =>
    rw [calls_append, List.append_eq_nil_iff] at hc
    simp only [List.mem_append, not_or] at hn
    obtain ⟨h1, h2⟩ := ih hc.1 fun i => (hn i).1
    have hb : (monitorServer m).begins e = false := by
      cases e with
      | api e =>
        cases e <;> first | rfl | skip
        · rename_i c
          simp only [mstep, mapiStep, mcallStep, h2] at hs
          split at hs
          · have : c ∈ calls o := by
              cases c <;> simp only [mapiCall, mstartTunnel, reduceCtorEq] at hs
              all_goals first
                | (split at hs <;> cases hs <;> simp [calls])
                | (cases hs; simp [calls])
            rw [hc.2] at this; cases this
          · cases hs
        · rename_i i
          simp only [mstep, mapiStep, mcallStep, h2] at hs
          split at hs
          · cases hs; exact absurd (by simp) (hn i).2
          · cases hs
      | _ => rfl
    obtain ⟨h3, h4⟩ := Pool.step_quiet (monitorServer_lawful m) hs (decide_eq_true h2) hb
    rw [List.map_append]
    exact ⟨h1.step _ h3, of_decide_eq_true h4⟩

theorem began_nil {V : Server} {tr : List (PObs V)} {i : Nat} (h : ∀ x ∈ tr, (∃ o, x = .own i o) ∨ ∃ o, x = .other o) :
    began tr = [] ∧ asked tr = [] ∧ ∀ j, PObs.left j ∉ tr := by
  refine ⟨?_, ?_, ?_⟩
  · simp only [began, List.filterMap_eq_nil_iff]
    intro x hx
    rcases h x hx with ⟨o, rfl⟩ | ⟨o, rfl⟩ <;> rfl
  · simp only [asked, List.filterMap_eq_nil_iff]
    intro x hx
    rcases h x hx with ⟨o, rfl⟩ | ⟨o, rfl⟩ <;> rfl
  · intro j hj
    rcases h _ hj with ⟨o, h⟩ | ⟨o, h⟩ <;> cases h

/-- The start of a call by a caller nobody is before. -/
theorem PExec.serve {V : Server} {s s' : V.S} {tr : List (PObs V)} {o : List Obs} (h : PExec V ⟨s, none, []⟩ tr) (i : Nat) (q : V.Req)
    (ha : V.alive s = true) (hw : V.away s i = false) (he : V.early q = false) (hf : V.free s = true)
    (hs : V.step s (V.start i q) = some (s', o)) (hf' : V.free s' = false) :
    PExec V ⟨s', some i, []⟩ (tr ++ [.asked i q] ++ .began i q :: o.map (.own i)) := by
  have h1 : Pool.step (V := V) ⟨s, none, []⟩ (.ask i q) = some (⟨s, none, [(i, q)]⟩, [.asked i q]) := by
    simp [Pool.step, ha, hw, he]
  have h2 : Pool.step (V := V) ⟨s, none, [(i, q)]⟩ .grant = some (⟨s', some i, []⟩, .began i q :: o.map (.own i)) := by
    simp [Pool.step, hf, hs, holder, hf', tag]
  exact (h.step _ h1).step _ h2

theorem PExec.queue {V : Server} {s : V.S} {tr : List (PObs V)} {i : Nat} (h : PExec V ⟨s, some i, []⟩ tr) (j : Nat) (hij : i ≠ j) (q : V.Req)
    (ha : V.alive s = true) (hw : V.away s j = false) (he : V.early q = false) :
    PExec V ⟨s, some i, [(j, q)]⟩ (tr ++ [.asked j q]) := by
  refine h.step (.ask j q) ?_
  simp [Pool.step, ha, hw, he, hij]

theorem asked_append {V : Server} (a b : List (PObs V)) : asked (a ++ b) = asked a ++ asked b := by simp [asked]

theorem client_early (m : Mode) (q : ClientReq) : (clientServer m).early q = true ↔ ∃ a, q = .write a [] true := by
  cases q with
  | write a v small => cases small <;> cases v <;> simp [clientServer, Apdu.groupValueWrite]
  | _ => simp [clientServer]

theorem monitor_early (m : Mode) (q : MonitorReq) : (monitorServer m).early q = true ↔ ∃ a, q = .write a [] true := by
  cases q with
  | write a v small => cases small <;> cases v <;> simp [monitorServer, Apdu.groupValueWrite]
  | _ => simp [monitorServer]

theorem Pool.ask_cases {V : Server} {p p' : Pool V} {o : List (PObs V)} {i : Nat} {q : V.Req} (hs : p.step (.ask i q) = some (p', o)) :
    (V.early q = true ∧ p' = p ∧ o = [.asked i q, .early i]) ∨
      (V.early q = false ∧ p' = { p with line := p.line ++ [(i, q)] } ∧ o = [.asked i q]) := by
  simp only [Pool.step] at hs
  split at hs
  · split at hs <;> cases hs
    · exact Or.inl ⟨by assumption, rfl, rfl⟩
    · exact Or.inr ⟨Bool.eq_false_iff.2 (by assumption), rfl, rfl⟩
  · cases hs

/-- C78, what does hold (3): a call of the client panics before it has waited exactly if it is a write of an empty value marked as small; any
other call takes its place at the end of the line. -/
theorem C78_early_partial {m : Mode} {p p' : Pool (clientServer m)} {o : List (PObs (clientServer m))} {i : Nat} {q : ClientReq}
    (hs : p.step (.ask i q) = some (p', o)) :
    (∃ a, q = .write a [] true ∧ p' = p ∧ o = [.asked i q, .early i]) ∨
      ((∀ a, q ≠ .write a [] true) ∧ p'.sys = p.sys ∧ p'.owner = p.owner ∧ p'.line = p.line ++ [((i, q) : Nat × (clientServer m).Req)] ∧ o = [.asked i q]) := by
  rcases Pool.ask_cases hs with ⟨h1, h2, h3⟩ | ⟨h1, h2, h3⟩
  · obtain ⟨a, ha⟩ := (client_early m q).1 h1
    exact Or.inl ⟨a, ha, h2, h3⟩
  · refine Or.inr ⟨fun a ha => ?_, by rw [h2], by rw [h2], by rw [h2], h3⟩
    rw [(client_early m q).2 ⟨a, ha⟩] at h1; cases h1

/-- C78: the same for the monitor. -/
theorem C78_early_monitor_partial {m : Mode} {p p' : Pool (monitorServer m)} {o : List (PObs (monitorServer m))} {i : Nat} {q : MonitorReq}
    (hs : p.step (.ask i q) = some (p', o)) :
    (∃ a, q = .write a [] true ∧ p' = p ∧ o = [.asked i q, .early i]) ∨
      ((∀ a, q ≠ .write a [] true) ∧ p'.sys = p.sys ∧ p'.owner = p.owner ∧ p'.line = p.line ++ [((i, q) : Nat × (monitorServer m).Req)] ∧ o = [.asked i q]) := by
  rcases Pool.ask_cases hs with ⟨h1, h2, h3⟩ | ⟨h1, h2, h3⟩
  · obtain ⟨a, ha⟩ := (monitor_early m q).1 h1
    exact Or.inl ⟨a, ha, h2, h3⟩
  · refine Or.inr ⟨fun a ha => ?_, by rw [h2], by rw [h2], by rw [h2], h3⟩
    rw [(monitor_early m q).2 ⟨a, ha⟩] at h1; cases h1

/-- C78 is refuted for the client: caller `i` asks for the status and gets no answer; whatever caller `j` then asks for (short of a value to
write that panics), it is still waiting for its turn after `n` minutes, for every `n`, though every heart beat was sent on time and
the client let no time pass while it could do something. -/
theorem C78_violated (m : Mode) (d : Bytes) (r : ConnectionResponse) (h : Grants d r) (i j : Nat) (hij : i ≠ j) (q : ClientReq)
    (hq : ∀ a, q ≠ .write a [] true) (n : Nat) :
    ∃ p p' tr tr', PExec (clientServer m) p tr ∧ asked tr = [(i, ClientReq.status), (j, q)] ∧ PPromptRun (clientServer m) p tr' p' ∧
      p'.sys.bg.now = p.sys.bg.now + 60000 * n ∧
      taskSent (inner tr') = List.replicate n (frame CONNECTIONSTATE_REQUEST ([r.channel, 0] ++ hpai r.dataEndpoint)) ∧
      Line (tr ++ tr') [(j, q)] ∧ ∀ k, PObs.left k ∉ tr ++ tr' := by
  have h1 := (Exec.lift (exec_link m h) rfl).1
  have h2 := h1.serve (s' := (⟨linkUp .client r, .stChan⟩ : Sys)) i ClientReq.status rfl rfl rfl rfl rfl rfl
  have h3 : PromptRun m ⟨linkUp .client r, .stChan⟩ _ ⟨linkUp .client r, .stRecv⟩ :=
    .step (.api .run) trivial rfl (.step (.api .run) trivial rfl (.step (.api .sendOk) trivial rfl (.nil _)))
  obtain ⟨tr1, g1, g2, g3⟩ := h3.lift (by simp) (by simp [Over, returned]) i []
  have h4 := (h2.append g1.run).queue j hij q rfl rfl (by simpa using (not_congr (client_early m q)).2 (by simpa using hq))
  obtain ⟨tr', k1, k2, k3⟩ := (beatsRun m ⟨linkUp .client r, .stRecv⟩ _ rfl rfl rfl rfl n).lift (by simp) (not_over_beats _ _) i [(j, q)]
  refine ⟨_, _, _, tr', h4, ?_, k1, rfl, ?_, (h4.append k1.run).line, ?_⟩
  · rw [asked_append, asked_append, (began_nil g3).2.1]
    rfl
  · rw [k2, taskSent_beats, C19_bodies.1]; rfl
  · intro k
    simp only [List.mem_append, not_or]
    exact ⟨⟨⟨by simp [linkTrace], (began_nil g3).2.2 k⟩, by simp⟩, (began_nil k3).2.2 k⟩

/-- C78 is refuted for the monitor: a disconnect that gets no answer keeps `next_msg`, `is_connected` and everything else waiting. -/
theorem C78_violated_monitor (m : Mode) (d : Bytes) (r : ConnectionResponse) (h : Grants d r) (i j : Nat) (hij : i ≠ j) (q : MonitorReq)
    (hq : ∀ a, q ≠ .write a [] true) (n : Nat) :
    ∃ p p' tr tr', PExec (monitorServer m) p tr ∧ asked tr = [(i, MonitorReq.disconnect), (j, q)] ∧ PPromptRun (monitorServer m) p tr' p' ∧
      p'.sys.bg.now = p.sys.bg.now + 60000 * n ∧
      taskSent (inner tr') = List.replicate n (frame CONNECTIONSTATE_REQUEST ([r.channel, 0] ++ hpai r.dataEndpoint)) ∧
      Line (tr ++ tr') [(j, q)] ∧ ∀ k, PObs.left k ∉ tr ++ tr' := by
  have h1 := (MExec.lift (mexec_link m h) rfl (by simp [linkTrace])).1
  have h2 := h1.serve (s' := (⟨linkUp .monitor r, .dcChan, []⟩ : MSys)) i MonitorReq.disconnect rfl rfl rfl rfl rfl rfl
  have h3 : MPromptRun m ⟨linkUp .monitor r, .dcChan, []⟩ _ ⟨linkUp .monitor r, .dcRecv, []⟩ :=
    .step (.api .run) trivial rfl (.step (.api .run) trivial rfl (.step (.api .sendOk) trivial rfl (.nil _)))
  obtain ⟨tr1, g1, g2, g3⟩ := h3.lift (by simp) (by simp [Over, returned]) i []
  have h4 := (h2.append g1.run).queue j hij q rfl rfl (by simpa using (not_congr (monitor_early m q)).2 (by simpa using hq))
  obtain ⟨tr', k1, k2, k3⟩ := (mbeatsRun m ⟨linkUp .monitor r, .dcRecv, []⟩ _ rfl rfl rfl n).lift (by simp) (not_over_beats _ _) i [(j, q)]
  refine ⟨_, _, _, tr', h4, ?_, k1, rfl, ?_, (h4.append k1.run).line, ?_⟩
  · rw [asked_append, asked_append, (began_nil g3).2.1]
    rfl
  · rw [k2, taskSent_beats, C19_bodies.1]; rfl
  · intro k
    simp only [List.mem_append, not_or]
    exact ⟨⟨⟨by simp [linkTrace], (began_nil g3).2.2 k⟩, by simp⟩, (began_nil k3).2.2 k⟩

end Knx
