import Verif.Props.Reasons

/-!
# What the messages of failed calls of monitors say (C112)
-/

namespace Knx

open Spec

/-! ## The monitor -/

/-- What the monitor says when a call fails because of `k`. -/
def MUtters (x : StdText) (t : Text) : Cause → Prop
  | .unconnected => ∃ w ∈ ["NR", "ID", "HPAI"], t = "Disconnected from knx device, ".toList ++ w.toList
  | .unsent => t = "Unable to send request ".toList ++ x.sock
  | .rejected f => ∃ ch : U8, t = "Unable to request disconnection for id ".toList ++ decimal ch.toNat ++ ", ".toList ++
      x.whatever (shortText disconnectService f)
  | _ => False

theorem mwithConn_err {s s' : MSys} {o : List Obs} {f : Conn → Option (MSys × List Obs)} (h : mwithConn s f = some (s', o))
    (hf : ∀ d, f d = some (s', o) → Obs.ret .err ∉ o) (ho : Obs.ret .err ∈ o) : s.bg.conn = none ∧ o = [.ret .err] := by
  obtain ⟨_, ⟨h1, h2⟩ | ⟨d, h1, h2⟩⟩ := mwithConn_cases h
  · cases h2; exact ⟨h1, rfl⟩
  · exact absurd ho (hf d h2)

theorem mupNow_none {m : Mode} {s : MSys} {tr : List Obs} (h : MExec m s tr) (hc : s.bg.conn = none) : upNow tr = false := by
  have := h.gexec.upNow
  rw [hc] at this
  simpa using this

theorem telegramText_disconnect (x : StdText) (t : Text) : telegramText x .disconnect t = t := rfl

/-- Every error a call of the monitor returns has a text; a `solecitate_group_read` puts another one before it. -/
theorem mfails_because {m : Mode} {s s' : MSys} {tr o : List Obs} {e : MEv} (x : StdText) (ch : U8) (h : MExec m s tr)
    (hs : mstep m s e = some (s', o)) (ho : Obs.ret .err ∈ o) :
    ∃ e' c k t, e = .api e' ∧ lastCall tr = some c ∧ MBecause tr o k ∧ MUtters x t k ∧ mapiText x c ch s e' = some (telegramText x c t) := by
  obtain ⟨e', rfl⟩ : ∃ e', e = .api e' := by
    cases e with
    | api e' => exact ⟨e', rfl⟩
    | delay d => cases hs; simp at ho
    | bg e =>
      simp only [mstep, Option.map_eq_some_iff, Prod.exists, Prod.mk.injEq] at hs
      obtain ⟨b, o', hb, rfl, rfl⟩ := hs
      exact absurd (bgStep_tr hb).facts.returned (returned_ne ho)
  refine ⟨e', ?_⟩
  have ht := mapiStep_tr hs
  have hi := h.callInv
  have hlook : ∀ c, lastCall tr = some c → s.bg.conn = none → apiSent (since isCall tr) = [] → o = [.ret .err] →
      ∀ w ∈ ["NR", "ID", "HPAI"], mapiText x c ch s e' = some (telegramText x c (noConn w)) →
      ∃ c k t, MEv.api e' = .api e' ∧ lastCall tr = some c ∧ MBecause tr o k ∧ MUtters x t k ∧ mapiText x c ch s e' = some (telegramText x c t) := by
    rintro c i1 hc i2 rfl w hw i3
    exact ⟨c, .unconnected, noConn w, rfl, i1, .unconnected (mupNow_none h hc) i2, ⟨w, hw, rfl⟩, i3⟩
  have hm : mcallStep m s e' = some (s', o) := by
    have hs' : mapiStep m s e' = some (s', o) := hs
    unfold mapiStep at hs'
    cases e' <;> dsimp only at hs'
    case cancel => split at hs' <;> cases hs'; simp at ho
    case nrun i =>
      unfold nextMsg nfinish at hs'
      repeat' split at hs'
      all_goals first | (cases hs'; done) | (cases hs'; simp at ho)
    case ncancel => split at hs' <;> cases hs'; simp at ho
    case mkChan => split at hs' <;> cases hs'; simp at ho
    case drain => split at hs' <;> cases hs'; simp at ho
    case fill => split at hs' <;> cases hs'; simp at ho
    case closeChan => cases hs'; simp at ho
    all_goals exact hs'
  unfold mcallStep at hm
  cases ha : s.api <;> rw [ha] at hi <;> simp only [ha] at hm
  case idle =>
    exfalso
    clear hlook hm
    cases ht <;> try (simp at ho; done)
    case noConn h1 h2 h3 => rw [ha] at h1; simp [mlooksUp] at h1
    case callErr c h1 h2 h3 =>
      cases c <;> simp [mtunnelCemi] at h3
      · exact writeCemi_ne_err _ _ _ _ h3
      · rw [readCemi_eq] at h3; cases h3
    all_goals (rw [ha] at *; simp_all)
  case seqNr cemi =>
    obtain ⟨c, i1, i2, i3, i4⟩ := hi
    split at hm <;> [skip; cases hm]
    obtain ⟨h1, h2⟩ := mwithConn_err hm (by intro d hd; cases hd; simp) ho
    exact hlook c i1 h1 i3 h2 "NR" (by simp) (by simp only [mapiText, ha])
  case chanId n cemi =>
    obtain ⟨c, i1, i2, i3, i4⟩ := hi
    split at hm <;> [skip; cases hm]
    obtain ⟨h1, h2⟩ := mwithConn_err hm (by
      intro d hd
      split at hd
      · cases hd; simp
      · exact absurd ‹_› packet_ne_err
      · unfold mfinish at hd; cases hd; simp) ho
    exact hlook c i1 h1 i3 h2 "ID" (by simp) (by simp only [mapiText, ha])
  case sendReq p =>
    obtain ⟨c, i1, i2, i3⟩ := hi
    split at hm
    · unfold mfinish at hm; cases hm; simp at ho
    · unfold mfinish at hm; cases hm
      exact ⟨c, .unsent, _, rfl, i1, .unsent p i2, rfl, by simp only [mapiText, ha]⟩
    · cases hm
  case dcChan =>
    split at hm <;> [skip; cases hm]
    obtain ⟨h1, h2⟩ := mwithConn_err hm (by intro d hd; cases hd; simp) ho
    exact hlook .disconnect hi.1 h1 hi.2.1 h2 "ID" (by simp) (by rw [telegramText_disconnect]; simp only [mapiText, ha])
  case dcEp ch' =>
    split at hm <;> [skip; cases hm]
    obtain ⟨h1, h2⟩ := mwithConn_err hm (by intro d hd; cases hd; simp) ho
    exact hlook .disconnect hi.1 h1 hi.2.1 h2 "HPAI" (by simp) (by rw [telegramText_disconnect]; simp only [mapiText, ha])
  case dcSend p =>
    split at hm
    · cases hm; simp at ho
    · unfold mfinish at hm; cases hm; simp at ho
    · cases hm
  case dcRecv =>
    obtain ⟨i1, i2, ch', ep, i3⟩ := hi
    split at hm
    · rename_i d
      obtain ⟨f, hf, hr⟩ : ∃ f, misfit DISCONNECT_RESPONSE d = some f ∧
          runTRd (DisconnectResponse.read x) (buffer d) = .err (shortText disconnectService f) := by
        rcases disconnect_text x d with ⟨⟨r, hr⟩, hf⟩ | h
        · exfalso
          have hx := runTRd_erase (DisconnectResponse.read x) (buffer d)
          rw [DisconnectResponse.read_erase, hr] at hx
          rw [← hx] at hm
          simp only [TRes.erase, mfinish, Option.some.injEq, Prod.mk.injEq] at hm
          rw [← hm.2] at ho
          simp at ho
        · exact h
      have : o = [.rxApi d, .ret .err] := by
        split at hm <;> unfold mfinish at hm <;> cases hm <;> simp at ho ⊢
      subst this
      refine ⟨.disconnect, .rejected f, _, rfl, i1, .rejected d f i1 hf, ⟨ch, rfl⟩, ?_⟩
      rw [telegramText_disconnect]
      simp only [mapiText, ha, hr, showU_decimal]
    · unfold mfinish at hm; cases hm; simp at ho
    · cases hm
  case isConn =>
    split at hm <;> [skip; cases hm]
    split at hm
    · cases hm
    · unfold mfinish at hm; cases hm; simp at ho
  case subscribe id =>
    exfalso
    clear hlook hm
    cases ht <;> try (simp at ho; done)
    case noConn h1 h2 h3 => rw [ha] at h1; simp [mlooksUp] at h1
    all_goals (rw [ha] at *; simp_all)

/-- A number for every cause. -/
def mcauseTag : Cause → Fin 3
  | .unconnected => 0
  | .unsent => 1
  | _ => 2

/-- The first sixteen characters of the texts. -/
def mopenings (i : Fin 3) : Text :=
  match i.val with
  | 0 => "Disconnected fro".toList
  | 1 => "Unable to send r".toList
  | _ => "Unable to reques".toList

theorem mopenings_inj : ∀ i j, mopenings i = mopenings j → i = j := by decide +kernel

theorem takes {l r t : Text} (h : (decide (16 ≤ l.length) && decide (l.take 16 = t)) = true) : (l ++ r).take 16 = t := by
  simp only [Bool.and_eq_true, decide_eq_true_eq] at h
  rw [take_app h.1]
  exact h.2

theorem mutters_opens {x : StdText} {t : Text} {k : Cause} (h : MUtters x t k) : t.take 16 = mopenings (mcauseTag k) := by
  cases k with
  | unconnected => obtain ⟨w, -, rfl⟩ := h; exact takes (by decide +kernel)
  | unsent => unfold MUtters at h; subst h; exact takes (by decide +kernel)
  | rejected f =>
    obtain ⟨ch, rfl⟩ := h
    rw [List.append_assoc, List.append_assoc]
    show _ = mopenings 2
    exact takes (by decide +kernel)
  | _ => exact h.elim

theorem mutters_told {x : StdText} {t : Text} {k k' : Cause} (h : MUtters x t k) (h' : MUtters x t k') : k = k' ∨ k.rejections k' := by
  have e := mopenings_inj _ _ ((mutters_opens h).symm.trans (mutters_opens h'))
  cases k with
  | unconnected =>
    cases k' with
    | unconnected => exact .inl rfl
    | _ => simp [mcauseTag] at e
  | unsent =>
    cases k' with
    | unsent => exact .inl rfl
    | _ => simp [mcauseTag] at e
  | rejected f =>
    cases k' with
    | rejected f => exact .inr trivial
    | unconnected => simp [mcauseTag] at e
    | unsent => simp [mcauseTag] at e
    | _ => exact h'.elim
  | _ => exact h.elim

/-! ## C112 -/

/-- C112 for the monitor: there is a reading of the messages such that, whenever a write or a `disconnect` returns an error, the cause
its message names can be observed. (What is wrong with a rejected response: `C111_disconnect_iff`.) -/
theorem C112_monitor_partial (x : StdText) : ∃ why : Text → Cause, ∀ {m : Mode} {s s' : MSys} {tr o : List Obs} {e : MEv} {c : Call} (ch : U8),
    MExec m s tr → mstep m s e = some (s', o) → Obs.ret .err ∈ o → lastCall tr = some c → (∀ addr, c ≠ .solicit addr) →
    ∃ e' t k, e = .api e' ∧ mapiText x c ch s e' = some t ∧ MBecause tr o k ∧ (k = why t ∨ k.rejections (why t)) := by
  classical
  refine ⟨fun t => if h : ∃ k, MUtters x t k then h.choose else .late, ?_⟩
  intro m s s' tr o e c ch h hs ho hc hne
  obtain ⟨e', c', k, t, h1, h2, h3, h4, h5⟩ := mfails_because x ch h hs ho
  rw [hc] at h2
  cases h2
  have ht : telegramText x c t = t := by
    cases c with
    | solicit addr => exact absurd rfl (hne addr)
    | _ => rfl
  rw [ht] at h5
  refine ⟨e', t, k, h1, h5, h3, ?_⟩
  have hex : ∃ k, MUtters x t k := ⟨k, h4⟩
  simp only [hex, dif_pos]
  exact mutters_told h4 hex.choose_spec

/-- C112 is refuted for `solecitate_group_read`: whatever it fails for, its message says that a connection state request could not be
sent (the words with which the client reports that of a status query). In particular if the monitor is not connected and the call tries to
send nothing at all. -/
theorem C112_monitor_violated {m : Mode} {s s' : MSys} {tr o : List Obs} {e : MEv} {addr : KnxAddress} (x : StdText) (ch : U8)
    (h : MExec m s tr) (hs : mstep m s e = some (s', o)) (ho : Obs.ret .err ∈ o) (hc : lastCall tr = some (.solicit addr)) :
    ∃ e' t, e = .api e' ∧ mapiText x (.solicit addr) ch s e' = some ("Unable to send connection state request ".toList ++ x.whatever t) ∧
      (upNow tr = false ∧ o = [.ret .err] ∧ apiSent (since isCall tr) = [] ∨ ∃ p, o = [.txFail .api p, .ret .err]) := by
  obtain ⟨e', c', k, t, h1, h2, h3, h4, h5⟩ := mfails_because x ch h hs ho
  rw [hc] at h2
  cases h2
  refine ⟨e', t, h1, h5, ?_⟩
  cases h3
  case unconnected h6 h7 => exact .inl ⟨h6, rfl, h7⟩
  case unsent p h6 => exact .inr ⟨p, rfl⟩
  case rejected d f h6 h7 => rw [hc] at h6; cases h6

/-- A group read of a monitor that is not connected. -/
example (m : Mode) : ∃ s s' tr, MExec m s tr ∧ mstep m s (.api .run) = some (s', [.ret .err]) ∧ upNow tr = false ∧ 
    mapiText sampleText (.solicit (.group3 ⟨1, 0, 1⟩)) 0 s .run =
      some "Unable to send connection state request W(Disconnected from knx device, NR)".toList := by
  obtain ⟨s, tr, h1, h2⟩ := mexec_of_evs (m := m) (evs := [.api (.call (.solicit (.group3 ⟨1, 0, 1⟩)))])
    (f := fun x => ((mstep m x.1 (.api .run)).map Prod.snd, upNow x.2, mapiText sampleText (.solicit (.group3 ⟨1, 0, 1⟩)) 0 x.1 .run))
    (y := (some [.ret .err], false, some "Unable to send connection state request W(Disconnected from knx device, NR)".toList))
    (by cases m <;> decide +kernel)
  simp only [Prod.mk.injEq, Option.map_eq_some_iff, Prod.exists, exists_eq_right] at h2
  obtain ⟨⟨s', h2⟩, h3, h4⟩ := h2
  exact ⟨s, s', tr, h1, h2, h3, h4⟩

/-- A write of it. -/
example (m : Mode) : ∃ s s' tr, MExec m s tr ∧ mstep m s (.api .run) = some (s', [.ret .err]) ∧ upNow tr = false ∧ 
    mapiText sampleText (.write (.group3 ⟨1, 0, 1⟩) [1] true) 0 s .run = some "Disconnected from knx device, NR".toList := by
  obtain ⟨s, tr, h1, h2⟩ := mexec_of_evs (m := m) (evs := [.api (.call (.write (.group3 ⟨1, 0, 1⟩) [1] true))])
    (f := fun x => ((mstep m x.1 (.api .run)).map Prod.snd, upNow x.2, mapiText sampleText (.write (.group3 ⟨1, 0, 1⟩) [1] true) 0 x.1 .run))
    (y := (some [.ret .err], false, some "Disconnected from knx device, NR".toList)) (by cases m <;> decide +kernel)
  simp only [Prod.mk.injEq, Option.map_eq_some_iff, Prod.exists, exists_eq_right] at h2
  obtain ⟨⟨s', h2⟩, h3, h4⟩ := h2
  exact ⟨s, s', tr, h1, h2, h3, h4⟩

theorem MExec.ended {m : Mode} {s : MSys} {tr : List Obs} (h : MExec m s tr) (hg : sendersGone s.bg = true) :
    Obs.exit ∈ tr ∨ Obs.crash ∈ tr := by
  rw [h.gexec.ending.exit, h.gexec.ending.crash]
  unfold sendersGone at hg
  split at hg
  · exact Or.inl ‹_›
  · exact Or.inr ‹_›
  · cases hg

/-- C112 for `next_msg`: there is a reading of the messages such that, whenever it returns an error, the cause its message names can be
observed: the task has ended, or the telegram is too short, and which part of it is missing. -/
theorem C112_next (x : StdText) : ∃ why : Text → Cause, ∀ {m : Mode} {s s' : MSys} {tr o : List Obs} {e : MEv} {i : Nat},
    MExec m s tr → mstep m s e = some (s', o) → Obs.nret i .err ∈ o →
    ∃ t, nextText x s = some t ∧ NBecause tr i o (why t) := by
  classical
  have hne : ∀ p, "Transport is closed".toList ≠ shortOf x p := by
    intro p hp
    have := congrArg (List.take 16) hp
    unfold shortOf at this
    cases p <;> dsimp only at this <;> rw [take_app (by decide +kernel)] at this <;> exact absurd this (by decide +kernel)
  refine ⟨fun t => if h : ∃ p, t = shortOf x p then .short h.choose else .ended, ?_⟩
  intro m s s' tr o e i h hs ho
  cases e with
  | delay d => cases hs; simp at ho
  | bg e =>
    simp only [mstep, Option.map_eq_some_iff, Prod.exists, Prod.mk.injEq] at hs
    obtain ⟨b, o', hb, rfl, rfl⟩ := hs
    exfalso
    cases bgStep_tr hb <;> simp at ho
  | api e =>
    have ht := mapiStep_tr hs
    cases ht <;> simp only [List.mem_cons, List.not_mem_nil, or_false, reduceCtorEq, or_self, false_or, Obs.nret.injEq, and_true, and_false] at ho
    case nbad i' c rest h1 h2 h3 h4 =>
      subst ho
      have hl := ind_err h4
      refine ⟨shortOf x (missing c.serviceInfo.length), by simp only [nextText, h2, ind_text x hl], ?_⟩
      have hex : ∃ p, shortOf x (missing c.serviceInfo.length) = shortOf x p := ⟨_, rfl⟩
      simp only [hex, dif_pos]
      have : missing c.serviceInfo.length = hex.choose := by
        rcases utters_told (x := x) (c := .status) (c' := .status) (k := .short _) (k' := .short _) rfl hex.choose_spec with h | h
        · exact Cause.short.inj h
        · exact h.elim
      rw [← this]
      exact .short c h3 hl
    case nend i' h1 h2 h3 =>
      subst ho
      refine ⟨"Transport is closed".toList, by simp only [nextText, h2], ?_⟩
      dsimp only
      rw [dif_neg (by rintro ⟨p, hp⟩; exact hne p hp)]
      exact .ended (h.ended h3)

/-- A telegram that ends after its header. -/
example (m : Mode) : ∃ s s' tr c, MExec m s tr ∧ mstep m s (.api (.nrun 4)) = some (s', [.taken 4 c, .nret 4 .err]) ∧
    nextText sampleText s = some "Unable to read control 1 byte eof".toList := by
  obtain ⟨s, tr, h1, h2⟩ := mexec_of_evs (m := m) (evs := mconnEvs ++ [.api (.ncall 4),
      .bg (.dgram [6, 0x10, 4, 0x20, 0, 12, 4, 7, 0, 0, 0x2b, 0]), .bg .sendOk, .bg .run])
    (f := fun x => ((mstep m x.1 (.api (.nrun 4))).map Prod.snd, nextText sampleText x.1))
    (y := (some [.taken 4 ⟨0x2b, [], []⟩, .nret 4 .err], some "Unable to read control 1 byte eof".toList)) (by cases m <;> decide +kernel)
  simp only [Prod.mk.injEq, Option.map_eq_some_iff, Prod.exists, exists_eq_right] at h2
  obtain ⟨⟨s', h2⟩, h3⟩ := h2
  exact ⟨s, s', tr, _, h1, h2, h3⟩

end Knx
