import Verif.Spec.Callers
import Verif.Lemmas.Brackets

/-!
# Lemmas: several callers of one object
-/

namespace Knx
open Spec

variable {V : Server}

/-- Whether the lock is still held after some observations of the call holding it (`none`: something came after the end). -/
def heldStep (x : Option Bool) (o : Obs) : Option Bool :=
  match x with
  | some true => some (!lets o)
  | _ => none

/-- What `Pool` relies on. -/
structure Server.Lawful (V : Server) : Prop where
  begin_ : ∀ s i r s' o, V.free s = true → V.step s (V.start i r) = some (s', o) →
    o.foldl heldStep (some true) = some (!V.free s')
  own : ∀ s e s' o, V.free s = false → V.own e = true → V.begins e = false → V.step s e = some (s', o) →
    o.foldl heldStep (some true) = some (!V.free s')
  idle : ∀ s e s' o, V.free s = true → V.begins e = false → V.step s e = some (s', o) → V.free s' = true ∧ ∀ x ∈ o, byCall x = false
  other : ∀ s e s' o, V.own e = false → V.begins e = false → V.step s e = some (s', o) → V.free s' = V.free s ∧ ∀ x ∈ o, byCall x = false
  started : V.free V.init = true
  beginBracket : ∀ s i r s' o, V.free s = true → V.step s (V.start i r) = some (s', o) →
    o.foldl bracketStep (some false) = some (!V.free s')
  ownBracket : ∀ s e s' o, V.free s = false → V.own e = true → V.begins e = false → V.step s e = some (s', o) →
    o.foldl bracketStep (some true) = some (!V.free s')
  alive : ∀ s e s' o, V.drops e = false → V.step s e = some (s', o) → V.alive s' = V.alive s
  startAlive : ∀ i r, V.drops (V.start i r) = false
  away : ∀ s e s' o j, V.begins e = false → V.step s e = some (s', o) → V.away s' j = true → V.away s j = true
  startAway : ∀ s i r s' o j, V.step s (V.start i r) = some (s', o) → j ≠ i → V.away s' j = true → V.away s j = true
  starts : ∀ s i r, V.free s = true → V.alive s = true → V.away s i = false → ∃ s' o, V.step s (V.start i r) = some (s', o)

theorem inner_append (a b : List (PObs V)) : inner (a ++ b) = inner a ++ inner b := by simp [inner]

theorem inner_tag (b : Bool) (i : Option Nat) (o : List Obs) : inner (o.map (tag (V := V) b i)) = o := by
  induction o with
  | nil => rfl
  | cons x o ih =>
    have : inner (tag (V := V) b i x :: o.map (tag b i)) = x :: inner (o.map (tag (V := V) b i)) := by
      cases b <;> cases i <;> rfl
    rw [List.map_cons, this, ih]

/-- The states of the object reached, with what it was observed to do. -/
inductive Server.Exec (V : Server) : V.S → List Obs → Prop
  | init : Exec V V.init []
  | step {s s' : V.S} {tr o : List Obs} (e : V.E) : Exec V s tr → V.step s e = some (s', o) → Exec V s' (tr ++ o)

theorem PExec.inner {p : Pool V} {tr : List (PObs V)} (h : PExec V p tr) : Server.Exec V p.sys (inner tr) := by
  induction h with
  | init => exact .init
  | @step p p' tr o e _ hs ih =>
    rw [inner_append]
    cases e with
    | ask i r =>
      simp only [Pool.step] at hs
      split at hs
      · split at hs <;> (cases hs; simpa [Spec.inner] using ih)
      · cases hs
    | grant =>
      simp only [Pool.step] at hs
      split at hs
      · cases hs
      · rename_i i r rest hl
        split at hs
        · split at hs
          · cases hs
          · rename_i s o' ho
            cases hs
            have : Spec.inner (PObs.began i r :: o'.map (tag (V := V) true (some i))) = o' := by
              have := inner_tag (V := V) true (some i) o'
              simpa [Spec.inner] using this
            rw [this]
            exact ih.step _ ho
        · cases hs
    | leave i =>
      simp only [Pool.step] at hs
      split at hs
      · cases hs; simpa [Spec.inner] using ih
      · cases hs
    | sys e =>
      simp only [Pool.step] at hs
      split at hs
      · cases hs
      · split at hs
        · cases hs
        · rename_i s o' ho
          cases hs
          rw [inner_tag]
          exact ih.step _ ho

theorem Spec.Line.map_tag {tr : List (PObs V)} {l : List (Nat × V.Req)} (b : Bool) (i : Option Nat) (o : List Obs) :
    Line tr l → Line (tr ++ o.map (tag b i)) l := by
  induction o generalizing tr with
  | nil => intro h; simpa using h
  | cons x o ih =>
    intro h
    have h1 : Line (tr ++ [tag b i x]) l := by
      cases b <;> cases i <;> first | exact .other _ h | exact .own _ _ h
    have := ih h1
    simpa using this

theorem PExec.line {p : Pool V} {tr : List (PObs V)} (h : PExec V p tr) : Line tr p.line := by
  induction h with
  | init => exact .nil
  | @step p p' tr o e _ hs ih =>
    cases e with
    | ask i r =>
      simp only [Pool.step] at hs
      split at hs
      · split at hs
        · cases hs; exact .early _ _ ih
        · cases hs; exact .asked _ _ ih
      · cases hs
    | grant =>
      simp only [Pool.step] at hs
      split at hs
      · cases hs
      · rename_i i r rest hl
        split at hs
        · split at hs
          · cases hs
          · rename_i s o' ho
            cases hs
            rw [show PObs.began i r :: o'.map (tag true (some i)) = [PObs.began i r] ++ o'.map (tag true (some i)) from rfl,
              ← List.append_assoc]
            rw [hl] at ih
            exact (Line.began _ _ ih).map_tag _ _ _
        · cases hs
    | leave i =>
      simp only [Pool.step] at hs
      split at hs
      · cases hs; exact .left _ ih
      · cases hs
    | sys e =>
      simp only [Pool.step] at hs
      split at hs
      · cases hs
      · split at hs
        · cases hs
        · rename_i s o' ho
          cases hs
          exact ih.map_tag _ _ _

theorem foldl_held_none (o : List Obs) : o.foldl heldStep none = none := by
  induction o with
  | nil => rfl
  | cons x o ih => exact ih

theorem foldl_held_false (o : List Obs) (b : Bool) (h : o.foldl heldStep (some false) = some b) : o = [] ∧ b = false := by
  cases o with
  | nil => simp at h; exact ⟨rfl, h⟩
  | cons x o =>
    simp only [List.foldl_cons, heldStep, foldl_held_none] at h; cases h

theorem Spec.Turn.map_own {tr : List (PObs V)} {i : Nat} (o : List Obs) (b : Bool) (ho : o.foldl heldStep (some true) = some b) :
    Turn tr (some i) → Turn (tr ++ o.map (tag true (some i))) (if b then some i else none) := by
  induction o generalizing tr with
  | nil => intro h; cases ho; simpa using h
  | cons x o ih =>
    intro h
    have h1 := Turn.own (V := V) i x h
    rw [List.map_cons, show tr ++ tag true (some i) x :: o.map (tag true (some i)) = (tr ++ [PObs.own i x]) ++ o.map (tag true (some i)) by
      simp [tag]]
    simp only [List.foldl_cons, heldStep] at ho
    cases hl : lets x with
    | false =>
      rw [hl] at ho h1
      exact ih ho h1
    | true =>
      rw [hl] at ho h1
      obtain ⟨rfl, rfl⟩ := foldl_held_false _ _ ho
      simpa using h1

theorem Spec.Turn.map_other {tr : List (PObs V)} {t : Option Nat} (b : Bool) (i : Option Nat) (hb : b = false ∨ i = none) (o : List Obs) :
    Turn tr t → Turn (tr ++ o.map (tag b i)) t := by
  induction o generalizing tr with
  | nil => intro h; simpa using h
  | cons x o ih =>
    intro h
    have h1 : Turn (tr ++ [tag b i x]) t := by
      rcases hb with rfl | rfl
      · exact .other _ h
      · cases b <;> exact .other _ h
    simpa using ih h1

theorem PExec.turn (hV : V.Lawful) {p : Pool V} {tr : List (PObs V)} (h : PExec V p tr) :
    Turn tr p.owner ∧ (p.owner = none ↔ V.free p.sys = true) ∧ ∀ o, PObs.other o ∈ tr → byCall o = false := by
  induction h with
  | init => exact ⟨.nil, by simp [Pool.init, hV.started], by simp⟩
  | @step p p' tr o e _ hs ih =>
    obtain ⟨ih, hf, hb⟩ := ih
    cases e with
    | ask i r =>
      simp only [Pool.step] at hs
      split at hs
      · split at hs
        · cases hs
          refine ⟨?_, hf, by simpa using hb⟩
          have := Turn.early i (Turn.asked i r ih)
          simpa using this
        · cases hs; exact ⟨.asked _ _ ih, hf, by simpa using hb⟩
      · cases hs
    | grant =>
      simp only [Pool.step] at hs
      split at hs
      · cases hs
      · rename_i i r rest hl
        split at hs
        · rename_i hfr
          split at hs
          · cases hs
          · rename_i s o' ho
            cases hs
            have h1 := hV.begin_ _ _ _ _ _ hfr ho
            rw [hf.2 hfr] at ih
            have h2 := (Turn.began i r ih).map_own o' _ h1
            refine ⟨?_, ?_, ?_⟩
            · simp only [holder]
              cases hs' : V.free s <;> simpa [hs'] using h2
            · simp only [holder]; cases V.free s <;> simp
            · intro o ho
              simp only [List.mem_append, List.mem_cons, reduceCtorEq, List.mem_map, false_or] at ho
              rcases ho with ho | ⟨x, _, hx⟩
              · exact hb o ho
              · cases hx
        · cases hs
    | leave i =>
      simp only [Pool.step] at hs
      split at hs
      · cases hs; exact ⟨.left _ ih, hf, by simpa using hb⟩
      · cases hs
    | sys e =>
      simp only [Pool.step] at hs
      split at hs
      · cases hs
      · rename_i hne
        have hbe : V.begins e = false := by
          cases hbe : V.begins e
          · rfl
          · exact absurd (Or.inl hbe) hne
        split at hs
        · cases hs
        · rename_i s o' ho
          cases hs
          cases hfr : V.free p.sys with
          | true =>
            obtain ⟨h1, h2⟩ := hV.idle _ _ _ _ hfr hbe ho
            have hn := hf.2 hfr
            rw [hn] at ih ⊢
            refine ⟨?_, by simp [holder, h1], ?_⟩
            · have := ih.map_other (V.own e) none (Or.inr rfl) o'
              simpa [holder, h1] using this
            · intro o ho
              rcases List.mem_append.1 ho with ho | ho
              · exact hb o ho
              · obtain ⟨x, hx, he⟩ := List.mem_map.1 ho
                cases hw : V.own e <;> rw [hw] at he <;> cases he <;> exact h2 _ hx
          | false =>
            cases how : V.own e with
            | true =>
              have h1 := hV.own _ _ _ _ hfr how hbe ho
              obtain ⟨i, hi⟩ : ∃ i, p.owner = some i := by
                cases hp : p.owner with
                | some i => exact ⟨i, rfl⟩
                | none => rw [hf.1 hp] at hfr; cases hfr
              rw [hi] at ih ⊢
              refine ⟨?_, ?_, ?_⟩
              · have := ih.map_own o' _ h1
                simp only [holder]
                cases hs' : V.free s <;> simpa [hs'] using this
              · simp only [holder]; cases V.free s <;> simp
              · intro o ho
                rcases List.mem_append.1 ho with ho | ho
                · exact hb o ho
                · obtain ⟨x, hx, he⟩ := List.mem_map.1 ho
                  cases he
            | false =>
              obtain ⟨h1, h2⟩ := hV.other _ _ _ _ how hbe ho
              have hne : p.owner ≠ none := fun h => by rw [hf.1 h] at hfr; cases hfr
              refine ⟨?_, ?_, ?_⟩
              · have := ih.map_other false p.owner (Or.inl rfl) o'
                simpa [holder, h1, hfr] using this
              · simp [holder, h1, hfr, hne]
              · intro o ho
                rcases List.mem_append.1 ho with ho | ho
                · exact hb o ho
                · obtain ⟨x, hx, he⟩ := List.mem_map.1 ho
                  cases he; exact h2 _ hx

/-- What the calls of `i` were observed to do, as the steps go. -/
theorem mine_append (i : Nat) (a b : List (PObs V)) : mine i (a ++ b) = mine i a ++ mine i b := by simp [mine]

theorem mine_other (i : Nat) (b : Bool) (j : Option Nat) (h : b = false ∨ j ≠ some i) (o : List Obs) :
    mine i (o.map (tag (V := V) b j)) = [] := by
  simp only [mine, List.filterMap_eq_nil_iff, List.mem_map]
  rintro x ⟨y, _, rfl⟩
  cases b <;> cases j <;> simp_all [tag]

theorem mine_own (i : Nat) (o : List Obs) : mine i (o.map (tag (V := V) true (some i))) = o := by
  induction o with
  | nil => rfl
  | cons x o ih =>
    rw [List.map_cons, show mine i (tag (V := V) true (some i) x :: o.map (tag true (some i)))
      = x :: mine i (o.map (tag (V := V) true (some i))) by simp [mine, tag], ih]

theorem PExec.mine (hV : V.Lawful) {p : Pool V} {tr : List (PObs V)} (h : PExec V p tr) (i : Nat) :
    bracket (mine i tr) = some (decide (p.owner = some i)) := by
  induction h with
  | init => rfl
  | @step p p' tr o e hx hs ih =>
    rw [mine_append, bracket_append, ih]
    have hf := (hx.turn hV).2.1
    cases e with
    | ask j r =>
      simp only [Pool.step] at hs
      split at hs
      · split at hs <;> (cases hs; rfl)
      · cases hs
    | grant =>
      simp only [Pool.step] at hs
      split at hs
      · cases hs
      · rename_i j r rest hl
        split at hs
        · rename_i hfr
          split at hs
          · cases hs
          · rename_i s o' ho
            cases hs
            rw [show PObs.began j r :: o'.map (tag true (some j)) = [PObs.began j r] ++ o'.map (tag true (some j)) from rfl, mine_append,
              show Spec.mine i [PObs.began (V := V) j r] = [] from rfl, List.nil_append, hf.2 hfr]
            by_cases hj : j = i
            · subst hj
              rw [mine_own]
              simp only [reduceCtorEq, decide_false]
              rw [hV.beginBracket _ _ _ _ _ hfr ho]
              by_cases hfs : V.free s = true <;> simp [holder, hfs]
            · rw [mine_other i true (some j) (Or.inr (by simpa using hj))]
              by_cases hfs : V.free s = true <;> simp [holder, hfs, hj]
        · cases hs
    | leave j =>
      simp only [Pool.step] at hs
      split at hs
      · cases hs; rfl
      · cases hs
    | sys e =>
      simp only [Pool.step] at hs
      split at hs
      · cases hs
      · rename_i hne
        have hbe : V.begins e = false := by
          cases hbe : V.begins e
          · rfl
          · exact absurd (Or.inl hbe) hne
        split at hs
        · cases hs
        · rename_i s o' ho
          cases hs
          cases hfr : V.free p.sys with
          | true =>
            obtain ⟨h1, h2⟩ := hV.idle _ _ _ _ hfr hbe ho
            rw [hf.2 hfr, mine_other i _ none (Or.inr (by simp))]
            simp [holder]
          | false =>
            cases how : V.own e with
            | false =>
              obtain ⟨h1, h2⟩ := hV.other _ _ _ _ how hbe ho
              rw [mine_other i _ _ (Or.inl rfl)]
              simp [holder, h1, hfr]
            | true =>
              by_cases hj : p.owner = some i
              · rw [hj, mine_own]
                simp only [decide_true]
                rw [hV.ownBracket _ _ _ _ hfr how hbe ho]
                by_cases hfs : V.free s = true <;> simp [holder, hfs]
              · rw [mine_other i _ _ (Or.inr hj)]
                by_cases hfs : V.free s = true <;> simp [holder, hfs, hj]

theorem PExec.waiting (hV : V.Lawful) {p : Pool V} {tr : List (PObs V)} (h : PExec V p tr) :
    (p.line.map (·.1)).Nodup ∧ ∀ x ∈ p.line, V.alive p.sys = true ∧ V.away p.sys x.1 = false := by
  induction h with
  | init => simp [Pool.init]
  | @step p p' tr o e hx hs ih =>
    obtain ⟨ih1, ih2⟩ := ih
    cases e with
    | ask j r =>
      simp only [Pool.step] at hs
      split at hs
      · rename_i hc
        split at hs
        · cases hs; exact ⟨ih1, ih2⟩
        · cases hs
          refine ⟨?_, ?_⟩
          · simp only [List.map_append, List.map_cons, List.map_nil]
            rw [List.nodup_append]
            refine ⟨ih1, by simp, ?_⟩
            intro a ha b hb hab
            obtain ⟨x, hx, rfl⟩ := List.mem_map.1 ha
            simp only [List.mem_singleton] at hb
            exact hc.2.2.1 x hx (hab.trans hb)
          · intro x hx
            rcases List.mem_append.1 hx with hx | hx
            · exact ih2 x hx
            · simp only [List.mem_singleton] at hx; subst hx; exact ⟨hc.1, hc.2.2.2⟩
      · cases hs
    | grant =>
      simp only [Pool.step] at hs
      split at hs
      · cases hs
      · rename_i j r rest hl
        split at hs
        · rename_i hfr
          split at hs
          · cases hs
          · rename_i s o' ho
            cases hs
            rw [hl] at ih1 ih2
            simp only [List.map_cons, List.nodup_cons] at ih1
            refine ⟨ih1.2, fun x hx => ?_⟩
            obtain ⟨h1, h2⟩ := ih2 x (List.mem_cons_of_mem _ hx)
            refine ⟨by rw [hV.alive _ _ _ _ (hV.startAlive j r) ho]; exact h1, ?_⟩
            have hne : x.1 ≠ j := fun h => ih1.1 (by rw [← h]; exact List.mem_map.2 ⟨x, hx, rfl⟩)
            cases ha : V.away s x.1 with
            | false => rfl
            | true => rw [hV.startAway _ _ _ _ _ _ ho hne ha] at h2; cases h2
        · cases hs
    | leave j =>
      simp only [Pool.step] at hs
      split at hs
      · cases hs
        refine ⟨?_, fun x hx => ih2 x (List.mem_filter.1 hx).1⟩
        exact List.Nodup.sublist (List.Sublist.map _ List.filter_sublist) ih1
      · cases hs
    | sys e =>
      simp only [Pool.step] at hs
      split at hs
      · cases hs
      · rename_i hne
        split at hs
        · cases hs
        · rename_i s o' ho
          cases hs
          refine ⟨ih1, fun x hx => ?_⟩
          obtain ⟨h1, h2⟩ := ih2 x hx
          have hbe : V.begins e = false := by
            cases hbe : V.begins e
            · rfl
            · exact absurd (Or.inl hbe) hne
          have hd : V.drops e = false := by
            cases hd : V.drops e
            · rfl
            · exact absurd (Or.inr ⟨hd, fun h => by rw [h] at hx; cases hx⟩) hne
          refine ⟨by rw [hV.alive _ _ _ _ hd ho]; exact h1, ?_⟩
          cases ha : V.away s x.1 with
          | false => rfl
          | true => rw [hV.away _ _ _ _ _ hbe ho ha] at h2; cases h2

/-- Whoever is first gets the lock as soon as it is free. -/
theorem PExec.next (hV : V.Lawful) {p : Pool V} {tr : List (PObs V)} {i : Nat} {r : V.Req} {rest : List (Nat × V.Req)} (h : PExec V p tr)
    (h1 : p.owner = none) (h2 : p.line = (i, r) :: rest) : ∃ p' o, p.step .grant = some (p', .began i r :: o) ∧ p'.line = rest := by
  obtain ⟨h3, h4⟩ := (h.waiting hV).2 (i, r) (by rw [h2]; simp)
  have h5 := (h.turn hV).2.1.1 h1
  obtain ⟨s, o, ho⟩ := hV.starts _ _ r h5 h3 h4
  refine ⟨⟨s, holder V s (some i), rest⟩, o.map (tag true (some i)), ?_, rfl⟩
  simp [Pool.step, h2, h5, ho]

theorem bgStep_rxOpen {k : Kind} {m : Mode} {s s' : Bg} {o : List Obs} {e : BgEv} (h : bgStep k m s e = some (s', o)) :
    s'.rxOpen = s.rxOpen := by
  have := bgStep_tr h
  cases this <;> rfl

theorem bgStep_byCall {k : Kind} {m : Mode} {s s' : Bg} {o : List Obs} {e : BgEv} (h : bgStep k m s e = some (s', o)) :
    ∀ x ∈ o, byCall x = false := by
  have := bgStep_tr h
  intro x hx
  cases this <;> simp only [List.mem_cons, List.not_mem_nil, or_false] at hx
  all_goals first | (cases hx; done) | (subst hx; rfl) | (rcases hx with rfl | rfl <;> rfl)

theorem apiCall_bg {m : Mode} {s s' : Sys} {c : Call} {o : List Obs} (h : apiCall m s c = some (s', o)) : s'.bg = s.bg := by
  cases c <;> simp only [apiCall, startTunnel, reduceCtorEq] at h
  all_goals first | (split at h <;> cases h <;> rfl) | (cases h; rfl)

theorem apiStep_rxOpen {m : Mode} {s s' : Sys} {e : ApiEv} {o : List Obs} (hs : apiStep m s e = some (s', o)) (hne : e ≠ .drop) :
    s'.bg.rxOpen = s.bg.rxOpen := by
  by_cases hi : s.api = .idle
  · cases e
    case call c =>
      rw [apiStep, if_neg (by simp)] at hs
      simp only [hi] at hs
      split at hs
      · rw [apiCall_bg hs]
      · cases hs
    case drop => exact absurd rfl hne
    all_goals simp [apiStep, hi] at hs
  · have ht := apiStep_tr hs
    cases ht <;> first | rfl | (exact absurd (by assumption) hi)

theorem clientServer_lawful (m : Mode) : (clientServer m).Lawful where
  begin_ s i r s' o hf hs := by
    have hf : s.api = .idle := of_decide_eq_true hf
    have hs : apiStep m s (.call r.call) = some (s', o) := hs
    change o.foldl heldStep (some true) = some (!decide (s'.api = .idle))
    cases r <;> simp only [ClientReq.call, apiStep, hf, reduceCtorEq, if_false, apiCall, startTunnel] at hs
    all_goals
      split at hs
      · first
          | (split at hs <;> cases hs <;> simp [heldStep, lets, hf]; done)
          | (cases hs; simp [heldStep, lets])
      · cases hs
  own s e s' o hf hw hb hs := by
    have hf : s.api ≠ .idle := of_decide_eq_false hf
    change o.foldl heldStep (some true) = some (!decide (s'.api = .idle))
    cases e with
    | bg e => cases hw
    | delay d => cases hw
    | api e =>
      have ht := apiStep_tr (show apiStep m s e = some (s', o) from hs)
      cases ht <;> simp_all [heldStep, lets]
  idle s e s' o hf hb hs := by
    have hf : s.api = .idle := of_decide_eq_true hf
    change decide (s'.api = .idle) = true ∧ _
    cases e with
    | bg e =>
      simp only [clientServer, Knx.step, Option.map_eq_some_iff, Prod.exists] at hs
      obtain ⟨b, o', hb, rfl, rfl⟩ := hs
      exact ⟨by simpa using hf, bgStep_byCall hb⟩
    | delay d => cases hs; simpa using hf
    | api e =>
      have ht := (show apiStep m s e = some (s', o) from hs)
      cases e <;> simp [apiStep, hf] at ht
      case call => cases hb
      case drop =>
        split at ht <;> cases ht
        simp [byCall]
  other s e s' o hw hb hs := by
    change decide (s'.api = .idle) = decide (s.api = .idle) ∧ _
    cases e with
    | bg e =>
      simp only [clientServer, Knx.step, Option.map_eq_some_iff, Prod.exists] at hs
      obtain ⟨b, o', hb, rfl, rfl⟩ := hs
      exact ⟨rfl, bgStep_byCall hb⟩
    | delay d => cases hs; simp
    | api e => cases hw
  started := rfl
  beginBracket s i r s' o hf hs := by
    have hf : s.api = .idle := of_decide_eq_true hf
    have ht := (apiStep_tr (m := m) (show apiStep m s (.call r.call) = some (s', o) from hs)).bracket
    change o.foldl bracketStep (some false) = some (!decide (s'.api = .idle))
    simpa [hf] using ht
  ownBracket s e s' o hf hw hb hs := by
    have hf : s.api ≠ .idle := of_decide_eq_false hf
    change o.foldl bracketStep (some true) = some (!decide (s'.api = .idle))
    cases e with
    | bg e => cases hw
    | delay d => cases hw
    | api e =>
      have ht := (apiStep_tr (show apiStep m s e = some (s', o) from hs)).bracket
      simpa [hf] using ht
  alive s e s' o hd hs := by
    change s'.bg.rxOpen = s.bg.rxOpen
    cases e with
    | bg e =>
      simp only [clientServer, Knx.step, Option.map_eq_some_iff, Prod.exists] at hs
      obtain ⟨b, o', hb, h⟩ := hs
      cases h; exact bgStep_rxOpen hb
    | delay d => cases hs; rfl
    | api e =>
      have hs : apiStep m s e = some (s', o) := hs
      have hne : e ≠ .drop := by rintro rfl; cases hd
      exact apiStep_rxOpen hs hne
  startAlive i r := rfl
  away s e s' o j _ _ h := by cases h
  startAway s i r s' o j _ _ h := by cases h
  starts s i r hf ha _ := by
    have hf : s.api = .idle := of_decide_eq_true hf
    have ha : s.bg.rxOpen = true := ha
    change ∃ s' o, apiStep m s (.call r.call) = some (s', o)
    cases r <;> simp only [ClientReq.call, apiStep, hf, ha, reduceCtorEq, if_false, if_true, apiCall]
    · cases readCemi m _ <;> exact ⟨_, _, rfl⟩
    · cases writeCemi m _ _ _ <;> exact ⟨_, _, rfl⟩
    · exact ⟨_, _, rfl⟩
    · exact ⟨_, _, rfl⟩

theorem nextMsg_other {s s' : MSys} {i : Nat} {c : Cemi} {o : List Obs} (h : nextMsg s i c = some (s', o)) :
    s'.api = s.api ∧ (∀ x ∈ o, byCall x = false) ∧ s'.bg.rxOpen = s.bg.rxOpen ∧ ∀ j ∈ s'.waiting, j ∈ s.waiting := by
  unfold nextMsg nfinish at h
  repeat' split at h
  all_goals (cases h; simp +contextual [byCall])

theorem mapiStep_free {m : Mode} {s s' : MSys} {e : MApiEv} {o : List Obs} (hs : mapiStep m s e = some (s', o))
    (he : (∃ i, e = .nrun i) ∨ (∃ i, e = .ncancel i) ∨ (∃ i n, e = .mkChan i n) ∨ (∃ i, e = .drain i) ∨ (∃ i, e = .fill i) ∨
      ∃ i, e = .closeChan i) :
    s'.api = s.api ∧ (∀ x ∈ o, byCall x = false) ∧ s'.bg.rxOpen = s.bg.rxOpen ∧ ∀ j ∈ s'.waiting, j ∈ s.waiting := by
  rcases he with ⟨i, rfl⟩ | ⟨i, rfl⟩ | ⟨i, n, rfl⟩ | ⟨i, rfl⟩ | ⟨i, rfl⟩ | ⟨i, rfl⟩
  · simp only [mapiStep] at hs
    split at hs
    · split at hs
      · have := nextMsg_other hs; exact this
      · split at hs
        · cases hs; simp +contextual [byCall]
        · cases hs
    · cases hs
  · simp only [mapiStep] at hs
    split at hs
    · cases hs; simp +contextual [byCall]
    · cases hs
  all_goals
    simp only [mapiStep] at hs
    first | (split at hs <;> cases hs <;> simp [setChan]) | (cases hs; simp [setChan])

theorem mapiCall_same {m : Mode} {s s' : MSys} {c : Call} {o : List Obs} (h : mapiCall m s c = some (s', o)) :
    s'.bg = s.bg ∧ s'.waiting = s.waiting := by
  cases c <;> simp only [mapiCall, mstartTunnel, reduceCtorEq] at h
  all_goals first | (split at h <;> cases h <;> exact ⟨rfl, rfl⟩) | (cases h; exact ⟨rfl, rfl⟩)

/-- What a step of the monitor's API does to the object's life and to the callers of `next_msg`. -/
theorem mapiStep_keeps {m : Mode} {s s' : MSys} {e : MApiEv} {o : List Obs} (hs : mapiStep m s e = some (s', o)) :
    (e ≠ .drop → s'.bg.rxOpen = s.bg.rxOpen) ∧ ∀ j, e ≠ .ncall j → j ∈ s'.waiting → j ∈ s.waiting := by
  by_cases hi : s.api = .idle
  · cases e
    case call c =>
      simp only [mapiStep, mcallStep, hi] at hs
      split at hs
      · have := mapiCall_same hs; exact ⟨fun _ => by rw [this.1], fun j _ => by rw [this.2]; exact id⟩
      · cases hs
    case ncall i =>
      simp only [mapiStep, mcallStep, hi] at hs
      split at hs
      · cases hs
        refine ⟨fun _ => rfl, fun j hj hm => ?_⟩
        rcases List.mem_cons.1 hm with rfl | hm
        · exact absurd rfl hj
        · exact hm
      · cases hs
    case drop =>
      simp only [mapiStep, mcallStep, hi] at hs
      split at hs
      · cases hs; exact ⟨fun h => absurd rfl h, fun _ _ => id⟩
      · cases hs
    case nrun i => have := mapiStep_free hs (by simp); exact ⟨fun _ => this.2.2.1, fun j _ => this.2.2.2 j⟩
    case ncancel i => have := mapiStep_free hs (by simp); exact ⟨fun _ => this.2.2.1, fun j _ => this.2.2.2 j⟩
    case mkChan i => have := mapiStep_free hs (by simp); exact ⟨fun _ => this.2.2.1, fun j _ => this.2.2.2 j⟩
    case drain i => have := mapiStep_free hs (by simp); exact ⟨fun _ => this.2.2.1, fun j _ => this.2.2.2 j⟩
    case fill i => have := mapiStep_free hs (by simp); exact ⟨fun _ => this.2.2.1, fun j _ => this.2.2.2 j⟩
    case closeChan i => have := mapiStep_free hs (by simp); exact ⟨fun _ => this.2.2.1, fun j _ => this.2.2.2 j⟩
    all_goals simp [mapiStep, mcallStep, hi] at hs
  · have ht := mapiStep_tr hs
    cases ht
    case drop h _ _ => exact absurd h hi
    case ncall h _ _ => exact absurd h hi
    all_goals refine ⟨fun _ => rfl, fun j _ hm => ?_⟩
    all_goals first | exact hm | exact (List.mem_filter.1 hm).1

theorem mapiStep_idle {m : Mode} {s s' : MSys} {e : MApiEv} {o : List Obs} (hf : s.api = .idle) (hs : mapiStep m s e = some (s', o))
    (h1 : ∀ c, e ≠ .call c) (h2 : ∀ i, e ≠ .ncall i) : decide (s'.api = .idle) = true ∧ ∀ x ∈ o, byCall x = false := by
  cases e
  case call c => exact absurd rfl (h1 c)
  case ncall c => exact absurd rfl (h2 c)
  case drop =>
    simp only [mapiStep, mcallStep, hf] at hs
    split at hs <;> cases hs
    simp [byCall]
  case nrun i => have := mapiStep_free hs (by simp); exact ⟨by simp [this.1, hf], this.2.1⟩
  case ncancel i => have := mapiStep_free hs (by simp); exact ⟨by simp [this.1, hf], this.2.1⟩
  case mkChan i => have := mapiStep_free hs (by simp); exact ⟨by simp [this.1, hf], this.2.1⟩
  case drain i => have := mapiStep_free hs (by simp); exact ⟨by simp [this.1, hf], this.2.1⟩
  case fill i => have := mapiStep_free hs (by simp); exact ⟨by simp [this.1, hf], this.2.1⟩
  case closeChan i => have := mapiStep_free hs (by simp); exact ⟨by simp [this.1, hf], this.2.1⟩
  all_goals simp [mapiStep, mcallStep, hf] at hs

theorem mapiStep_other {m : Mode} {s s' : MSys} {e : MApiEv} {o : List Obs} (hs : mapiStep m s e = some (s', o))
    (h1 : (monitorServer m).own (.api e) = false) (h2 : (monitorServer m).begins (.api e) = false) :
    decide (s'.api = .idle) = decide (s.api = .idle) ∧ ∀ x ∈ o, byCall x = false := by
  cases e
  case call c => cases h2
  case ncall c => cases h2
  case drop =>
    simp only [mapiStep, mcallStep] at hs
    split at hs
    · split at hs <;> cases hs
      simp [byCall]
    all_goals cases hs
  case nrun i => have := mapiStep_free hs (by simp); exact ⟨by simp [this.1], this.2.1⟩
  case ncancel i => have := mapiStep_free hs (by simp); exact ⟨by simp [this.1], this.2.1⟩
  case mkChan i => have := mapiStep_free hs (by simp); exact ⟨by simp [this.1], this.2.1⟩
  case drain i => have := mapiStep_free hs (by simp); exact ⟨by simp [this.1], this.2.1⟩
  case fill i => have := mapiStep_free hs (by simp); exact ⟨by simp [this.1], this.2.1⟩
  case closeChan i => have := mapiStep_free hs (by simp); exact ⟨by simp [this.1], this.2.1⟩
  all_goals cases h1

theorem monitorServer_lawful (m : Mode) : (monitorServer m).Lawful where
  begin_ s i r s' o hf hs := by
    have hf : s.api = .idle := of_decide_eq_true hf
    have ht := mapiStep_tr (m := m) (show mapiStep m s (r.event i) = some (s', o) from hs)
    change o.foldl heldStep (some true) = some (!decide (s'.api = .idle))
    have hs : mapiStep m s (r.event i) = some (s', o) := hs
    cases r
    case next =>
      simp only [MonitorReq.event, mapiStep, mcallStep, hf] at hs
      split at hs <;> cases hs
      simp [heldStep, lets]
    all_goals
      simp only [MonitorReq.event, mapiStep, mcallStep, hf, mapiCall, mstartTunnel] at hs
      split at hs
      · first
          | (split at hs <;> cases hs <;> simp [heldStep, lets, hf]; done)
          | (cases hs; simp [heldStep, lets])
      · cases hs
  own s e s' o hf hw hb hs := by
    have hf : s.api ≠ .idle := of_decide_eq_false hf
    change o.foldl heldStep (some true) = some (!decide (s'.api = .idle))
    cases e with
    | bg e => cases hw
    | delay d => cases hw
    | api e =>
      have hs : mapiStep m s e = some (s', o) := hs
      have ht := mapiStep_tr hs
      cases ht
      all_goals simp_all [heldStep, lets, setChan]
  idle s e s' o hf hb hs := by
    have hf : s.api = .idle := of_decide_eq_true hf
    change decide (s'.api = .idle) = true ∧ _
    cases e with
    | bg e =>
      simp only [monitorServer, Knx.mstep, Option.map_eq_some_iff, Prod.exists] at hs
      obtain ⟨b, o', hb, rfl, rfl⟩ := hs
      exact ⟨by simpa using hf, bgStep_byCall hb⟩
    | delay d => cases hs; simpa using hf
    | api e =>
      have hs : mapiStep m s e = some (s', o) := hs
      exact mapiStep_idle hf hs (fun c h => by subst h; cases hb) (fun i h => by subst h; cases hb)
  other s e s' o hw hb hs := by
    change decide (s'.api = .idle) = decide (s.api = .idle) ∧ _
    cases e with
    | bg e =>
      simp only [monitorServer, Knx.mstep, Option.map_eq_some_iff, Prod.exists] at hs
      obtain ⟨b, o', hb, rfl, rfl⟩ := hs
      exact ⟨rfl, bgStep_byCall hb⟩
    | delay d => cases hs; simp
    | api e =>
      have hs : mapiStep m s e = some (s', o) := hs
      exact mapiStep_other hs hw hb
  started := rfl
  beginBracket s i r s' o hf hs := by
    have hf : s.api = .idle := of_decide_eq_true hf
    have ht := (mapiStep_tr (m := m) (show mapiStep m s (r.event i) = some (s', o) from hs)).bracket
    change o.foldl bracketStep (some false) = some (!decide (s'.api = .idle))
    simpa [hf] using ht
  ownBracket s e s' o hf hw hb hs := by
    have hf : s.api ≠ .idle := of_decide_eq_false hf
    change o.foldl bracketStep (some true) = some (!decide (s'.api = .idle))
    cases e with
    | bg e => cases hw
    | delay d => cases hw
    | api e =>
      have ht := (mapiStep_tr (show mapiStep m s e = some (s', o) from hs)).bracket
      simpa [hf] using ht
  alive s e s' o hd hs := by
    change s'.bg.rxOpen = s.bg.rxOpen
    cases e with
    | bg e =>
      simp only [monitorServer, Knx.mstep, Option.map_eq_some_iff, Prod.exists] at hs
      obtain ⟨b, o', hb, h⟩ := hs
      cases h; exact bgStep_rxOpen hb
    | delay d => cases hs; rfl
    | api e =>
      have hs : mapiStep m s e = some (s', o) := hs
      have hne : e ≠ .drop := by rintro rfl; cases hd
      exact (mapiStep_keeps hs).1 hne
  startAlive i r := by cases r <;> rfl
  away s e s' o j hb hs h := by
    have h : decide (j ∈ s'.waiting) = true := h
    change decide (j ∈ s.waiting) = true
    cases e with
    | bg e =>
      simp only [monitorServer, Knx.mstep, Option.map_eq_some_iff, Prod.exists] at hs
      obtain ⟨b, o', hb, h'⟩ := hs
      cases h'; exact h
    | delay d => cases hs; exact h
    | api e =>
      have hs : mapiStep m s e = some (s', o) := hs
      have hne : e ≠ .ncall j := by rintro rfl; cases hb
      exact decide_eq_true ((mapiStep_keeps hs).2 j hne (of_decide_eq_true h))
  startAway s i r s' o j hs hj h := by
    have h : decide (j ∈ s'.waiting) = true := h
    change decide (j ∈ s.waiting) = true
    have hs : mapiStep m s (r.event i) = some (s', o) := hs
    have hne : r.event i ≠ .ncall j := by
      intro h
      cases r <;> simp [MonitorReq.event] at h
      exact hj h.symm
    exact decide_eq_true ((mapiStep_keeps hs).2 j hne (of_decide_eq_true h))
  starts s i r hf ha hw := by
    have hf : s.api = .idle := of_decide_eq_true hf
    have ha : s.bg.rxOpen = true := ha
    have hw : i ∉ s.waiting := of_decide_eq_false hw
    change ∃ s' o, mapiStep m s (r.event i) = some (s', o)
    cases r <;> simp only [MonitorReq.event, mapiStep, mcallStep, hf, ha, if_true, mapiCall]
    · cases readCemi m _ <;> exact ⟨_, _, rfl⟩
    · cases writeCemi m _ _ _ <;> exact ⟨_, _, rfl⟩
    · exact ⟨_, _, rfl⟩
    · exact ⟨_, _, rfl⟩
    · exact ⟨_, _, rfl⟩
    · simp [hw]

end Knx
