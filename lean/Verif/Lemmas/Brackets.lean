import Verif.Lemmas.Timing
import Verif.Lemmas.MonitorInv

/-!
# Calls and their ends alternate
-/

namespace Knx

open Spec

theorem bracket_append (a b : List Obs) : bracket (a ++ b) = b.foldl bracketStep (bracket a) := by simp [bracket]

theorem nbracket_append (i : Nat) (a b : List Obs) : nbracket i (a ++ b) = b.foldl (nbracketStep i) (nbracket i a) := by simp [nbracket]

theorem BgTr.bracket {k : Kind} {m : Mode} {s s' : Bg} {o : List Obs} (h : BgTr k m s s' o) (x : Option Bool) :
    o.foldl bracketStep x = x := by
  cases h <;> rfl

theorem BgTr.nbracket {k : Kind} {m : Mode} {s s' : Bg} {o : List Obs} (h : BgTr k m s s' o) (i : Nat) (x : Option Bool) :
    o.foldl (nbracketStep i) x = x := by
  cases h <;> rfl

theorem ApiTr.bracket {m : Mode} {s s' : Sys} {o : List Obs} (h : ApiTr m s s' o) :
    o.foldl bracketStep (some (decide (s.api ≠ .idle))) = some (decide (s'.api ≠ .idle)) := by
  cases h
  case noConn h1 h2 h3 =>
    have : s.api ≠ .idle := by intro h; rw [h] at h1; cases h1
    simp [this, bracketStep]
  all_goals simp_all [bracketStep]

theorem Exec.bracket {m : Mode} {s : Sys} {tr : List Obs} (h : Exec m s tr) : bracket tr = some (decide (s.api ≠ .idle)) := by
  induction h with
  | init => rfl
  | @step s s' tr o e hx hs ih =>
    rw [bracket_append, ih]
    cases e with
    | bg e =>
      simp only [Knx.step, Option.map_eq_some_iff, Prod.exists, Prod.mk.injEq] at hs
      obtain ⟨b, o', hb, rfl, rfl⟩ := hs
      exact (bgStep_tr hb).bracket _
    | delay d => cases hs; rfl
    | api e => exact (apiStep_tr hs).bracket

theorem MApiTr.bracket {m : Mode} {s s' : MSys} {o : List Obs} (h : MApiTr m s s' o) :
    o.foldl bracketStep (some (decide (s.api ≠ .idle))) = some (decide (s'.api ≠ .idle)) := by
  cases h
  case noConn h1 h2 h3 =>
    have : s.api ≠ .idle := by intro h; rw [h] at h1; cases h1
    simp [this, bracketStep]
  all_goals first | (simp_all [bracketStep]; done) | rfl

theorem MApiTr.nbracket {m : Mode} {s s' : MSys} {o : List Obs} (h : MApiTr m s s' o) (i : Nat) :
    o.foldl (nbracketStep i) (some (decide (i ∈ s.waiting))) = some (decide (i ∈ s'.waiting)) := by
  cases h
  case ncall j _ _ h => rcases eq_or_ne j i with rfl | hj <;> [simp [nbracketStep, h]; simp [nbracketStep, hj, hj.symm]]
  case nind j _ _ _ h _ _ _ => rcases eq_or_ne j i with rfl | hj <;> [simp [nbracketStep, h]; simp [nbracketStep, hj, hj.symm]]
  case nbad j _ _ h _ _ _ => rcases eq_or_ne j i with rfl | hj <;> [simp [nbracketStep, h]; simp [nbracketStep, hj, hj.symm]]
  case nend j h _ _ => rcases eq_or_ne j i with rfl | hj <;> [simp [nbracketStep, h]; simp [nbracketStep, hj, hj.symm]]
  case ncancel j h => rcases eq_or_ne j i with rfl | hj <;> [simp [nbracketStep, h]; simp [nbracketStep, hj, hj.symm]]
  all_goals rfl

theorem MExec.bracket {m : Mode} {s : MSys} {tr : List Obs} (h : MExec m s tr) : bracket tr = some (decide (s.api ≠ .idle)) := by
  induction h with
  | init => rfl
  | @step s s' tr o e hx hs ih =>
    rw [bracket_append, ih]
    cases e with
    | bg e =>
      simp only [Knx.mstep, Option.map_eq_some_iff, Prod.exists, Prod.mk.injEq] at hs
      obtain ⟨b, o', hb, rfl, rfl⟩ := hs
      exact (bgStep_tr hb).bracket _
    | delay d => cases hs; rfl
    | api e => exact (mapiStep_tr hs).bracket

theorem MExec.nbracket {m : Mode} {s : MSys} {tr : List Obs} (h : MExec m s tr) (i : Nat) :
    nbracket i tr = some (decide (i ∈ s.waiting)) := by
  induction h with
  | init => rfl
  | @step s s' tr o e hx hs ih =>
    rw [nbracket_append, ih]
    cases e with
    | bg e =>
      simp only [Knx.mstep, Option.map_eq_some_iff, Prod.exists, Prod.mk.injEq] at hs
      obtain ⟨b, o', hb, rfl, rfl⟩ := hs
      exact (bgStep_tr hb).nbracket i _
    | delay d => cases hs; rfl
    | api e => exact (mapiStep_tr hs).nbracket i

end Knx
