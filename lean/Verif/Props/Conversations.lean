import Verif.Spec.Conversations
import Verif.Props.Replied

/-!
# C116: Every program of reads and writes gets the right results from a server that replies

-/

namespace Knx
open Spec

theorem Item.Good.suits {m : Mode} {Pa : Cemi → Prop} {i : Item} (h : i.Good m Pa) : Suits Pa i.call i.reply i.result := ⟨h.answer, h.passes⟩

theorem Item.Good.encodes {m : Mode} {Pa : Cemi → Prop} {i : Item} (h : i.Good m Pa) : ∃ cemi, tunnelCemi m i.call = some (.ok cemi) := by
  have ha := h.answer
  have h1 := h.short
  have h2 := h.nonempty
  cases hc : i.call with
  | read addr => exact ⟨_, by rw [tunnelCemi, readCemi_eq]⟩
  | write addr x small =>
    refine ⟨_, by rw [tunnelCemi, writeCemi_eq m addr x small]; (rintro rfl; exact h2 addr x hc); (rintro rfl; exact h1 addr x hc)⟩
  | _ => rw [hc] at ha; exact ha.elim

theorem AtRest.early {m : Mode} {Pa : Cemi → Prop} {i : Item} {s s1 : Sys} (h : AtRest m Pa s) (hi : i.Good m Pa)
    (h1 : Knx.step m s (.api (.call i.call)) = some (s1, [.call i.call])) : Early m Pa i.call s.bg.now s1 := early_start h hi.answer hi.short h1

theorem Replying.busy {m : Mode} {R : Nat} {Pa : Cemi → Prop} {cl : Call} {reply : Cemi} {t : Nat} {s : Sys} {w : Option Nat}
    (h : Replying m R Pa cl reply t s w) : s.api ≠ .idle := by
  have aw : ∀ {dl : Nat} {a : Api}, Awaits cl dl a → a ≠ .idle := by
    intro dl a h ha
    unfold Awaits at h
    split at h
    · rw [h] at ha; cases ha
    · rw [h] at ha; cases ha
  rcases h with ⟨-, h⟩ | ⟨-, h⟩ | ⟨-, h⟩
  · intro ha
    rcases h.api with ⟨cemi, -, h | ⟨n, h⟩⟩ | ⟨p, h⟩ <;> (rw [h] at ha; cases ha)
  · obtain ⟨dl, -, h⟩ := h.api; exact aw h
  · obtain ⟨dl, -, h⟩ := h.api; exact aw h

theorem returned_call (c : Call) (tr : List Obs) : returned (.call c :: tr) = returned tr := rfl

theorem returned_ret (v : Ret) (tr : List Obs) : returned (.ret v :: tr) = v :: returned tr := rfl

/-- What a run leaves: the results so far, and the caller at rest or in the first of the calls left. -/
theorem Convo.inv {m : Mode} {R : Nat} {Pa : Cemi → Prop} {s s' : Sys} {prog left : List Item} {tr : List Obs} (h : Convo m R Pa s prog left tr s')
    (hR : R < 10000) (hs : AtRest m Pa s) (hg : ∀ i ∈ prog, i.Good m Pa) :
    prog.map Item.result = returned tr ++ left.map Item.result := by
  induction h with
  | stop => rfl
  | pause d _ ih => exact ih ⟨hs.task, hs.queue, hs.conn, hs.rxOpen, hs.api⟩ hg
  | between e he h hf _ ih =>
    obtain ⟨h1, -, h3⟩ := hs.step he h hf
    rw [ih h1 hg, returned_app, h3]; rfl
  | call i h1 h2 h3 _ ih =>
    have gi := hg i (by simp)
    rcases Replying.run h2 (.inl ⟨rfl, hs.early gi h1⟩) hR gi.suits with ⟨-, h⟩ | ⟨⟨x, y, rfl, g1, g2⟩, g3, -⟩
    · exact absurd h3 h.busy
    · rw [List.map_cons, ih g3 (fun j hj => hg j (by simp [hj])), returned_call, returned_app, returned_app, g1, returned_ret, g2]
      rfl
  | «open» i h1 h2 h3 =>
    have gi := hg i (by simp)
    rcases Replying.run h2 (.inl ⟨rfl, hs.early gi h1⟩) hR gi.suits with ⟨h, -⟩ | ⟨-, g3, -⟩
    · rw [returned_call, h]; rfl
    · exact absurd g3.api h3

/-- C116: in every schedule, the calls of the program return what they should, in the order in which they are made; the results still missing are those
of the calls that have not returned. -/
theorem C116_results {m : Mode} {R : Nat} {Pa : Cemi → Prop} {s s' : Sys} {prog left : List Item} {tr tr' : List Obs} (_h : Exec m s tr)
    (hR : R < 10000) (hpc : s.bg.pc = .recv) (hc : s.bg.conn ≠ none) (ho : s.bg.rxOpen = true) (hi : s.api = .idle) (hq : ∀ c ∈ s.bg.queue, Pa c)
    (hg : ∀ i ∈ prog, i.Good m Pa) (hr : Convo m R Pa s prog left tr' s') : prog.map Item.result = returned tr' ++ left.map Item.result :=
  hr.inv hR ⟨.inl hpc, hq, hc, ho, hi⟩ hg

theorem Replied.trans {m : Mode} {R : Nat} {Pa : Cemi → Prop} {reply : Cemi} {s s' s'' : Sys} {w w' w'' : Option Nat} {tr tr' : List Obs}
    (h : Replied m R Pa reply s w tr s' w') (h' : Replied m R Pa reply s' w' tr' s'' w'') : Replied m R Pa reply s w (tr ++ tr') s'' w'' := by
  induction h with
  | nil => exact h'
  | wait d h1 h2 h3 _ ih => exact .wait d h1 h2 h3 (ih h')
  | reply d h1 h2 _ ih => rw [List.append_assoc]; exact .reply d h1 h2 (ih h')
  | step e h1 h2 h3 _ ih => rw [List.append_assoc]; exact .step e h1 h2 h3 (ih h')

/-- From rest, the program can be run to its end. -/
theorem convo_all {m : Mode} {R : Nat} {Pa : Cemi → Prop} (hR : R < 10000) : ∀ (prog : List Item) (s : Sys), AtRest m Pa s → (∀ i ∈ prog, i.Good m Pa) →
    ∃ tr s', Convo m R Pa s prog [] tr s' := by
  intro prog
  induction prog with
  | nil => intro s _ _; exact ⟨[], s, .stop _ _⟩
  | cons i l ih =>
    intro s hs hg
    have gi := hg i (by simp)
    obtain ⟨cemi, hc⟩ := gi.encodes
    obtain ⟨d, hd⟩ := gi.sendable
    have h1 : Knx.step m s (.api (.call i.call)) = some (⟨s.bg, .seqNr i.call cemi⟩, [.call i.call]) := by
      have := hs.api
      have := hs.rxOpen
      cases hcl : i.call <;> simp_all [Knx.step, apiStep, apiCall, tunnelCemi, startTunnel]
    obtain ⟨x, s2, w, h2, h3⟩ := (hs.early gi h1).finishes hR gi.suits hd
    rcases Replying.run h2 (.inl ⟨rfl, hs.early gi h1⟩) hR gi.suits with ⟨h, -⟩ | ⟨-, g3, -⟩
    · simp [returned] at h
    · obtain ⟨tr, s3, h4⟩ := ih s2 g3 (fun j hj => hg j (by simp [hj]))
      exact ⟨_, s3, .call i h1 h2 g3.api h4⟩

/-- C116: and nothing ever stands in its way: every run of the program can go on to its end. -/
theorem C116_goes_on {m : Mode} {R : Nat} {Pa : Cemi → Prop} {s s' : Sys} {prog left : List Item} {tr tr' : List Obs} (_h : Exec m s tr)
    (hR : R < 10000) (hpc : s.bg.pc = .recv) (hc : s.bg.conn ≠ none) (ho : s.bg.rxOpen = true) (hi : s.api = .idle) (hq : ∀ c ∈ s.bg.queue, Pa c)
    (hg : ∀ i ∈ prog, i.Good m Pa) (hr : Convo m R Pa s prog left tr' s') :
    ∃ tr'' s'', Convo m R Pa s prog [] (tr' ++ tr'') s'' := by
  have hs : AtRest m Pa s := ⟨.inl hpc, hq, hc, ho, hi⟩
  clear hpc hc ho hi hq _h
  induction hr with
  | stop => exact convo_all hR _ _ hs hg
  | pause d _ ih =>
    obtain ⟨t, u, h⟩ := ih hg ⟨hs.task, hs.queue, hs.conn, hs.rxOpen, hs.api⟩
    exact ⟨t, u, .pause d h⟩
  | between e he h hf _ ih =>
    obtain ⟨t, u, h'⟩ := ih hg (hs.step he h hf).1
    exact ⟨t, u, by rw [List.append_assoc]; exact .between e he h hf h'⟩
  | call i h1 h2 h3 _ ih =>
    have gi := hg i (by simp)
    rcases Replying.run h2 (.inl ⟨rfl, hs.early gi h1⟩) hR gi.suits with ⟨-, h⟩ | ⟨-, g3, -⟩
    · exact absurd h3 h.busy
    · obtain ⟨t, u, h'⟩ := ih (fun j hj => hg j (by simp [hj])) g3
      refine ⟨t, u, ?_⟩
      rw [List.cons_append, List.append_assoc]
      exact .call i h1 h2 h3 h'
  | @«open» s s1 s2 w prog tr i h1 h2 h3 =>
    have gi := hg i (by simp)
    obtain ⟨d, hd⟩ := gi.sendable
    rcases Replying.run h2 (.inl ⟨rfl, hs.early gi h1⟩) hR gi.suits with ⟨h, g⟩ | ⟨-, g3, -⟩
    · obtain ⟨x, s3, w3, h4, h5⟩ : Finishes m R Pa i.reply i.result s2 w := by
        rcases g with ⟨rfl, g⟩ | ⟨rfl, g⟩ | ⟨rfl, g⟩
        · exact g.finishes hR gi.suits hd
        · exact g.finishes hR gi.suits hd _ _ (Nat.le_refl _)
        · exact g.finishes hR gi.suits
      rcases Replying.run (h2.trans h4) (.inl ⟨rfl, hs.early gi h1⟩) hR gi.suits with ⟨h, -⟩ | ⟨-, g3, -⟩
      · simp [returned] at h
      · obtain ⟨t, u, h6⟩ := convo_all hR prog _ g3 (fun j hj => hg j (by simp [hj]))
        have := Convo.call i h1 (h2.trans h4) g3.api h6
        exact ⟨_, u, by simpa using this⟩
    · exact absurd g3.api h3

/-- The case of C116: a write to 1/0/1 that is confirmed, a read of 1/0/1 that is answered with 1, and the write again. -/
example (m : Mode) : ∃ s tr, Exec m s tr ∧ s.bg.pc = .recv ∧ s.bg.conn ≠ none ∧ s.bg.rxOpen = true ∧ s.api = .idle ∧ s.bg.queue = [] ∧
    (∀ i ∈ [Item.mk (.write (.group3 ⟨1, 0, 1⟩) [1] true) (confirmCemi 0x0801) .unit, ⟨.read (.group3 ⟨1, 0, 1⟩), tel7, .value [1]⟩,
      ⟨.write (.group3 ⟨1, 0, 1⟩) [0, 5] false, confirmCemi 0x0801, .unit⟩], i.Good m (fun _ => False)) ∧
    ∃ tr' s', Convo m 9000 (fun _ => False) s [Item.mk (.write (.group3 ⟨1, 0, 1⟩) [1] true) (confirmCemi 0x0801) .unit,
      ⟨.read (.group3 ⟨1, 0, 1⟩), tel7, .value [1]⟩, ⟨.write (.group3 ⟨1, 0, 1⟩) [0, 5] false, confirmCemi 0x0801, .unit⟩] [] tr' s' ∧
      returned tr' = [.unit, .value [1], .unit] := by
  obtain ⟨s, tr, h1, h2⟩ := exec_of_evs (m := m) (evs := [.bg .run, .bg .sendOk, .bg (.dgram grant7), .bg .run])
    (f := fun x => (x.1.bg.pc, x.1.bg.conn.isSome, x.1.bg.rxOpen, x.1.api, x.1.bg.queue))
    (y := (.recv, true, true, .idle, [])) (by cases m <;> decide +kernel)
  simp only [Prod.mk.injEq] at h2
  obtain ⟨g1, g2, g3, g4, g5⟩ := h2
  have g2' : s.bg.conn ≠ none := by intro h; rw [h] at g2; cases g2
  have good : ∀ i ∈ [Item.mk (.write (.group3 ⟨1, 0, 1⟩) [1] true) (confirmCemi 0x0801) .unit, ⟨.read (.group3 ⟨1, 0, 1⟩), tel7, .value [1]⟩,
      ⟨.write (.group3 ⟨1, 0, 1⟩) [0, 5] false, confirmCemi 0x0801, .unit⟩], i.Good m (fun _ => False) := ?good
  · obtain ⟨tr', s', h3⟩ := C116_goes_on (R := 9000) h1 (by omega) g1 g2' g3 g4 (by simp [g5]) good (.stop _ _)
    refine ⟨s, tr, h1, g1, g2', g3, g4, g5, good, _, s', h3, ?_⟩
    simpa using (C116_results h1 (by omega) g1 g2' g3 g4 (by simp [g5]) good h3).symm
  have cf : Carries m (confirmation 7 0 0x0801) (confirmCemi 0x0801) :=
    ⟨_, decodes_request 7 0 0 _ (by simp [word]), by cases m <;> decide +kernel⟩
  intro i hi
  simp only [List.mem_cons, List.not_mem_nil, or_false] at hi
  rcases hi with rfl | rfl | rfl
  · exact ⟨⟨rfl, rfl⟩, fun _ h => h.elim, by simp, by simp, _, cf⟩
  · exact ⟨⟨rfl, ind7, by decide +kernel, rfl, rfl⟩, fun _ h => h.elim, by simp, by simp, _, carries7 m⟩
  · exact ⟨⟨rfl, rfl⟩, fun _ h => h.elim, by simp, by simp, _, cf⟩

end Knx
