import Verif.Props.Messages
import Verif.Props.Calls
import Verif.Props.Programs
import Verif.Props.Stall

/-!
# What the messages of failed calls say (C112)
-/

namespace Knx

open Spec

/-! ## Short telegrams -/

/-- What the library says of a telegram that is too short. -/
def shortOf (x : StdText) : Part → Text
  | .control1 => "Unable to read control 1 byte ".toList ++ x.eof
  | .control2 => "Unable to read control 2 byte ".toList ++ x.eof
  | .source => "Unable to read source address ".toList ++ x.eof
  | .destination => "Unable to read destination address ".toList ++ x.eof
  | .length => "Unable to read length ".toList ++ x.eof
  | .octets => "Unable to read octets 6 and 7 ".toList ++ x.eof

theorem ind_err {c : Cemi} (h : LDataInd.fromCemi c = .err) : c.serviceInfo.length < 9 := by
  rcases Nat.lt_or_ge c.serviceInfo.length 9 with hl | hl
  · exact hl
  · obtain ⟨i, hi⟩ := (C14_lDataInd_total c).2.1.2 hl
    rw [hi] at h; cases h

theorem ind_text (x : StdText) {c : Cemi} (h : c.serviceInfo.length < 9) :
    LDataInd.read x c = .err (shortOf x (missing c.serviceInfo.length)) := by
  unfold LDataInd.read shortOf
  generalize "Unable to read control 1 byte ".toList ++ x.eof = t1
  generalize "Unable to read control 2 byte ".toList ++ x.eof = t2
  generalize "Unable to read source address ".toList ++ x.eof = t3
  generalize "Unable to read destination address ".toList ++ x.eof = t4
  generalize "Unable to read length ".toList ++ x.eof = t5
  generalize "Unable to read octets 6 and 7 ".toList ++ x.eof = t6
  match hs : c.serviceInfo with
  | [] => rfl
  | [_] => rfl
  | [_, _] => rfl
  | [_, _, _] => rfl
  | [_, _, _, _] => rfl
  | [_, _, _, _, _] => rfl
  | [_, _, _, _, _, _] => rfl
  | [_, _, _, _, _, _, _] => rfl
  | [_, _, _, _, _, _, _, _] => rfl
  | _ :: _ :: _ :: _ :: _ :: _ :: _ :: _ :: _ :: _ => rw [hs] at h; simp at h; omega

/-! ## Failed calls -/

/-- What the client says when call `c` fails because of `k`. -/
def Utters (x : StdText) (c : Call) (t : Text) : Cause → Prop
  | .unconnected => ∃ w ∈ ["NR", "ID", "HPAI"], t = "Disconnected from knx device, ".toList ++ w.toList
  | .unsent =>
    if c = .status then t = "Unable to send connection state request ".toList ++ x.sock else t = "Unable to send request ".toList ++ x.sock
  | .late => (∃ addr, c = .read addr) ∧ t = "Request timed out".toList ∨ (∃ addr v small, c = .write addr v small) ∧ t = "Write request timed out".toList
  | .ended =>
    if c = .disconnect then t = "Transport closed before disconnection response".toList else t = "No more data will be received from client".toList
  | .short p => t = shortOf x p
  | .unexpected code => t = "Unknown cEMI message code ".toList ++ decimal code.toNat
  | .unanswered => t = "Connectionstate not responded ".toList ++ x.sock
  | .rejected f => t = shortText statusService f

theorem Exec.ended {m : Mode} {s : Sys} {tr : List Obs} (h : Exec m s tr) (hg : sendersGone s.bg = true) :
    Obs.exit ∈ tr ∨ Obs.crash ∈ tr := by
  rw [h.gexec.ending.exit, h.gexec.ending.crash]
  unfold sendersGone at hg
  split at hg
  · exact Or.inl ‹_›
  · exact Or.inr ‹_›
  · cases hg

theorem withConn_err {s s' : Sys} {o : List Obs} {f : Conn → Option (Sys × List Obs)} (h : withConn s f = some (s', o))
    (hf : ∀ d, f d = some (s', o) → Obs.ret .err ∉ o) (ho : Obs.ret .err ∈ o) : s.bg.conn = none ∧ o = [.ret .err] := by
  obtain ⟨_, ⟨h1, h2⟩ | ⟨d, h1, h2⟩⟩ := withConn_cases h
  · cases h2; exact ⟨h1, rfl⟩
  · exact absurd ho (hf d h2)

theorem upNow_none {m : Mode} {s : Sys} {tr : List Obs} (h : Exec m s tr) (hc : s.bg.conn = none) : upNow tr = false := by
  have := h.gexec.upNow
  rw [hc] at this
  simpa using this

/-- Every error a call of the client returns has a text, which tells a cause that can be observed. -/
theorem fails_because {m : Mode} {s s' : Sys} {tr o : List Obs} {e : Ev} (x : StdText) (h : Exec m s tr)
    (hs : step m s e = some (s', o)) (ho : Obs.ret .err ∈ o) :
    ∃ e' c k t, e = .api e' ∧ lastCall tr = some c ∧ Because tr o k ∧ apiText x s e' = some t ∧ Utters x c t k := by
  obtain ⟨e', rfl⟩ : ∃ e', e = .api e' := by
    cases e with
    | api e' => exact ⟨e', rfl⟩
    | delay d => cases hs; simp at ho
    | bg e =>
      simp only [step, Option.map_eq_some_iff, Prod.exists, Prod.mk.injEq] at hs
      obtain ⟨b, o', hb, rfl, rfl⟩ := hs
      exact absurd (bgStep_tr hb).facts.returned (returned_ne ho)
  refine ⟨e', ?_⟩
  have hcan : e' ≠ .cancel := by
    rintro rfl
    simp only [step, apiStep, if_true] at hs
    split at hs
    · cases hs
    · simp only [Option.some.injEq, Prod.mk.injEq] at hs; rw [← hs.2] at ho; simp at ho
  have hs' : apiStep m s e' = some (s', o) := hs
  have hi := h.callInv
  simp only [apiStep, if_neg hcan] at hs'
  cases ha : s.api <;> rw [ha] at hi <;> simp only [ha] at hs'
  case idle =>
    exfalso
    have ht := apiStep_tr hs
    cases ht <;> rename_i h3 <;> try (simp at ho; done)
    case noConn h1 h2 => rw [ha] at h1; simp [looksUp] at h1
    case callErr c _ _ =>
      cases c <;> simp [tunnelCemi] at h3
      · simp [readCemi_eq] at h3
      · exact writeCemi_ne_err _ _ _ _ h3
    all_goals (rw [ha] at *; simp_all)
  case seqNr c cemi =>
    split at hs' <;> [skip; cases hs']
    obtain ⟨h1, rfl⟩ := withConn_err hs' (by intro d hd; cases hd; simp) ho
    exact ⟨c, .unconnected, noConn "NR", rfl, hi.1, .unconnected (upNow_none h h1) hi.2.2.2.1, by simp [apiText, ha], "NR", by simp, rfl⟩
  case chanId c n cemi =>
    split at hs' <;> [skip; cases hs']
    obtain ⟨h1, rfl⟩ := withConn_err hs' (by
      intro d hd
      split at hd
      · simp only [Option.some.injEq, Prod.mk.injEq] at hd; rw [← hd.2]; simp
      · exact absurd ‹_› packet_ne_err
      · simp only [finish, Option.some.injEq, Prod.mk.injEq] at hd; rw [← hd.2]; simp) ho
    exact ⟨c, .unconnected, noConn "ID", rfl, hi.1, .unconnected (upNow_none h h1) hi.2.2.2.1, by simp [apiText, ha], "ID", by simp, rfl⟩
  case sendReq c p =>
    split at hs'
    · exfalso
      split at hs' <;> (simp at hs'; rw [← hs'.2] at ho; simp at ho)
    · simp [finish] at hs'
      obtain ⟨rfl, rfl⟩ := hs'
      refine ⟨c, .unsent, "Unable to send request ".toList ++ x.sock, rfl, hi.1, .unsent p hi.2.2.1, by simp [apiText, ha], ?_⟩
      obtain ⟨_, _, _, hc, _⟩ := hi.2.2.2
      have : c ≠ .status := by rintro rfl; simp [tunnelCemi] at hc
      simp [Utters, this]
    · cases hs'
  case reading a dl =>
    obtain ⟨addr, p, i1, i2, i3, i4, -⟩ := hi
    split at hs'
    · rcases chanRecv_cases hs' with ⟨c, rest, hq, hr⟩ | ⟨hq, hg, heq⟩
      · unfold readMsg at hr
        dsimp only at hr
        split at hr
        · split at hr <;> (simp [finish] at hr; rw [← hr.2] at ho; simp at ho)
        · split at hr
          · rename_i hcode
            split at hr
            · split at hr <;> (simp [finish] at hr; rw [← hr.2] at ho; simp at ho)
            · rename_i hbad
              simp [finish] at hr
              obtain ⟨rfl, rfl⟩ := hr
              have hl := ind_err hbad
              exact ⟨_, .short (missing c.serviceInfo.length), _, rfl, i1, .short c ⟨_, i1⟩ hcode hl,
                by simp only [apiText, ha, hq, ind_text x hl], rfl⟩
            · simp [finish] at hr; rw [← hr.2] at ho; simp at ho
          · simp at hr; rw [← hr.2] at ho; simp at ho
      · cases heq
        exact ⟨_, .ended, _, rfl, i1, .ended p i4 (h.ended hg), by simp only [apiText, ha, hq]; rfl, by rw [Utters, if_neg (by simp)]⟩
    · split at hs' <;> [skip; cases hs']
      simp [finish] at hs'
      obtain ⟨rfl, rfl⟩ := hs'
      exact ⟨_, .late, "Request timed out".toList, rfl, i1, .late p i4, by simp [apiText, ha], .inl ⟨⟨_, rfl⟩, rfl⟩⟩
    · cases hs'
  case writing dl =>
    obtain ⟨addr, v, small, p, i1, i3, i4, -⟩ := hi
    split at hs'
    · rcases chanRecv_cases hs' with ⟨c, rest, hq, hr⟩ | ⟨hq, hg, heq⟩
      · unfold writeMsg at hr
        split at hr
        · split at hr <;> (simp [finish] at hr; rw [← hr.2] at ho; simp at ho)
        · rename_i hne
          simp [finish] at hr
          obtain ⟨rfl, rfl⟩ := hr
          exact ⟨_, .unexpected c.msgCode, _, rfl, i1, .unexpected c ⟨_, _, _, i1⟩ hne, by simp only [apiText, ha, hq]; rfl,
            by rw [Utters, ← showU_decimal]⟩
      · cases heq
        exact ⟨_, .ended, _, rfl, i1, .ended p i4 (h.ended hg), by simp only [apiText, ha, hq]; rfl, by rw [Utters, if_neg (by simp)]⟩
    · split at hs' <;> [skip; cases hs']
      simp [finish] at hs'
      obtain ⟨rfl, rfl⟩ := hs'
      exact ⟨_, .late, "Write request timed out".toList, rfl, i1, .late p i4, by simp [apiText, ha], .inr ⟨⟨_, _, _, rfl⟩, rfl⟩⟩
    · cases hs'
  case stChan =>
    split at hs' <;> [skip; cases hs']
    obtain ⟨h1, rfl⟩ := withConn_err hs' (by intro d hd; cases hd; simp) ho
    exact ⟨_, .unconnected, noConn "ID", rfl, hi.1, .unconnected (upNow_none h h1) hi.2.2, by simp [apiText, ha], "ID", by simp, rfl⟩
  case stEp ch =>
    split at hs' <;> [skip; cases hs']
    obtain ⟨h1, rfl⟩ := withConn_err hs' (by intro d hd; cases hd; simp) ho
    exact ⟨_, .unconnected, noConn "HPAI", rfl, hi.1, .unconnected (upNow_none h h1) hi.2.2, by simp [apiText, ha], "HPAI", by simp, rfl⟩
  case stSend p =>
    split at hs'
    · simp at hs'; rw [← hs'.2] at ho; simp at ho
    · simp [finish] at hs'
      obtain ⟨rfl, rfl⟩ := hs'
      exact ⟨_, .unsent, "Unable to send connection state request ".toList ++ x.sock, rfl, hi.1, .unsent p hi.2.2.1, by simp [apiText, ha], by simp [Utters]⟩
    · cases hs'
  case stRecv =>
    obtain ⟨i1, i2, ch, ep, i3⟩ := hi
    split at hs'
    · rename_i d
      split at hs' <;> simp [finish] at hs' <;> obtain ⟨rfl, rfl⟩ := hs' <;> try (simp at ho; done)
      obtain ⟨f, hf, ht⟩ := C111_status_exact x h hs ho
      exact ⟨_, .rejected f, _, rfl, i1, .rejected d f i1 hf, ht, rfl⟩
    · simp [finish] at hs'
      obtain ⟨rfl, rfl⟩ := hs'
      exact ⟨_, .unanswered, "Connectionstate not responded ".toList ++ x.sock, rfl, i1, .unanswered _ i1 i3, by simp [apiText, ha], rfl⟩
    · cases hs'
  case dcChan =>
    split at hs' <;> [skip; cases hs']
    obtain ⟨h1, rfl⟩ := withConn_err hs' (by intro d hd; cases hd; simp) ho
    exact ⟨_, .unconnected, noConn "ID", rfl, hi.1, .unconnected (upNow_none h h1) hi.2.2, by simp [apiText, ha], "ID", by simp, rfl⟩
  case dcEp ch =>
    split at hs' <;> [skip; cases hs']
    obtain ⟨h1, rfl⟩ := withConn_err hs' (by intro d hd; cases hd; simp) ho
    exact ⟨_, .unconnected, noConn "HPAI", rfl, hi.1, .unconnected (upNow_none h h1) hi.2.2, by simp [apiText, ha], "HPAI", by simp, rfl⟩
  case dcLog p =>
    split at hs'
    · obtain ⟨h1, rfl⟩ := withConn_err hs' (by intro d hd; cases hd; simp) ho
      exact ⟨_, .unconnected, noConn "ID", rfl, hi.1, .unconnected (upNow_none h h1) hi.2.2.1, by simp [apiText, ha], "ID", by simp, rfl⟩
    · cases hs'; simp at ho
    · cases hs'
  case dcSend p =>
    split at hs' <;> [skip; skip; cases hs'] <;> simp [finish] at hs' <;> rw [← hs'.2] at ho <;> simp at ho
  case dcRecv =>
    obtain ⟨i1, i2, ch, ep, i3⟩ := hi
    split at hs' <;> [skip; cases hs']
    rcases chanRecv_cases hs' with ⟨c, rest, hq, hr⟩ | ⟨hq, hg, heq⟩
    · simp [finish] at hr; rw [← hr.2] at ho; simp at ho
    · cases heq
      exact ⟨_, .ended, _, rfl, i1, .ended _ i3 (h.ended hg), by simp only [apiText, ha]; rfl, by rw [Utters, if_pos rfl]⟩

/-! ## Texts tell causes -/

/-- A number for every cause; the two control bytes, and values, are not told apart. -/
def causeTag : Cause → Fin 15
  | .unconnected => 0
  | .unsent => 1
  | .late => 2
  | .ended => 3
  | .short .control1 => 4
  | .short .control2 => 4
  | .short .source => 5
  | .short .destination => 6
  | .short .length => 7
  | .short .octets => 8
  | .unexpected _ => 9
  | .unanswered => 10
  | .rejected (.size _) => 11
  | .rejected (.version _) => 12
  | .rejected (.service _) => 13
  | .rejected (.length _) => 14

/-- The first sixteen characters of the texts. -/
def openings (i : Fin 15) : List Text :=
  match i.val with
  | 0 => ["Disconnected fro".toList]
  | 1 => ["Unable to send c".toList, "Unable to send r".toList]
  | 2 => ["Request timed ou".toList, "Write request ti".toList]
  | 3 => ["Transport closed".toList, "No more data wil".toList]
  | 4 => ["Unable to read c".toList]
  | 5 => ["Unable to read s".toList]
  | 6 => ["Unable to read d".toList]
  | 7 => ["Unable to read l".toList]
  | 8 => ["Unable to read o".toList]
  | 9 => ["Unknown cEMI mes".toList]
  | 10 => ["Connectionstate ".toList]
  | 11 => ["Header size shou".toList]
  | 12 => ["KNXIP version sh".toList]
  | 13 => ["Connect response".toList]
  | 14 => ["Packet size shou".toList]
  | _ => []

theorem openings_disjoint : ∀ i j, ∀ t ∈ openings i, t ∈ openings j → i = j := by decide +kernel

theorem take_app {n : Nat} {l r : Text} (h : n ≤ l.length) : (l ++ r).take n = l.take n := by
  rw [List.take_append_of_le_length h]

theorem opens {l r : Text} {i : Fin 15} (h : (decide (16 ≤ l.length) && decide (l.take 16 ∈ openings i)) = true) :
    (l ++ r).take 16 ∈ openings i := by
  simp only [Bool.and_eq_true, decide_eq_true_eq] at h
  rw [take_app h.1]
  exact h.2

theorem opens' {l : Text} {i : Fin 15} (h : decide (l.take 16 ∈ openings i) = true) : l.take 16 ∈ openings i := by
  simpa using h

theorem utters_opens {x : StdText} {c : Call} {t : Text} {k : Cause} (h : Utters x c t k) : t.take 16 ∈ openings (causeTag k) := by
  cases k with
  | unconnected =>
    obtain ⟨w, -, rfl⟩ := h
    exact opens (by decide +kernel)
  | unsent =>
    simp only [Utters] at h
    split at h <;> subst h <;> exact opens (by decide +kernel)
  | late =>
    rcases h with ⟨_, rfl⟩ | ⟨_, rfl⟩ <;> exact opens' (by decide +kernel)
  | ended =>
    simp only [Utters] at h
    split at h <;> subst h <;> exact opens' (by decide +kernel)
  | short p =>
    unfold Utters shortOf at h
    cases p <;> subst h <;> exact opens (by decide +kernel)
  | unexpected code =>
    unfold Utters at h
    subst h
    show _ ∈ openings 9
    exact opens (by decide +kernel)
  | unanswered =>
    unfold Utters at h
    subst h
    exact opens (by decide +kernel)
  | rejected f =>
    unfold Utters shortText at h
    cases f <;> dsimp only at h <;> subst h
    · show _ ∈ openings 11
      exact opens (by decide +kernel)
    · show _ ∈ openings 12
      exact opens' (by decide +kernel)
    · show _ ∈ openings 13
      exact opens (by decide +kernel)
    · show _ ∈ openings 14
      exact opens (by decide +kernel)

/-- A text tells the cause, but for wrong versions. -/
theorem utters_told {x : StdText} {c c' : Call} {t : Text} {k k' : Cause} (h : Utters x c t k) (h' : Utters x c' t k') :
    k = k' ∨ k.versions k' := by
  have htag := openings_disjoint _ _ _ (utters_opens h) (utters_opens h')
  cases k with
  | short p =>
    cases k' with
    | short p' =>
      have e : shortOf x p = shortOf x p' := h.symm.trans h'
      have e12 : shortOf x .control1 ≠ shortOf x .control2 := by
        intro e
        have e' := congrArg (List.take 24) e
        unfold shortOf at e'
        dsimp only at e'
        rw [take_app (by decide +kernel), take_app (by decide +kernel)] at e'
        exact absurd e' (by decide +kernel)
      cases p <;> cases p'
      case control1.control2 => exact absurd e e12
      case control2.control1 => exact absurd e.symm e12
      all_goals first | exact .inl rfl | exact absurd htag (by simp [causeTag])
    | rejected f => cases p <;> cases f <;> exact absurd htag (by simp [causeTag])
    | _ => cases p <;> exact absurd htag (by simp [causeTag])
  | rejected f =>
    cases k' with
    | rejected f' =>
      have e : shortText statusService f = shortText statusService f' := h.symm.trans h'
      rcases (shortText_iff (.inl (by decide +kernel)) f f').1 e with rfl | hv
      · exact .inl rfl
      · exact .inr hv
    | short p => cases p <;> cases f <;> exact absurd htag (by simp [causeTag])
    | _ => cases f <;> exact absurd htag (by simp [causeTag])
  | unexpected code =>
    cases k' with
    | unexpected code' =>
      have e := List.append_cancel_left (show _ ++ _ = _ ++ _ from h.symm.trans h')
      exact .inl (congrArg _ (BitVec.eq_of_toNat_eq (decimal_inj e)))
    | short p => cases p <;> exact absurd htag (by simp [causeTag])
    | rejected f => cases f <;> exact absurd htag (by simp [causeTag])
    | _ => exact absurd htag (by simp [causeTag])
  | _ =>
    cases k' with
    | short p => cases p <;> exact absurd htag (by simp [causeTag])
    | rejected f => cases f <;> exact absurd htag (by simp [causeTag])
    | _ => first | exact .inl rfl | exact absurd htag (by simp [causeTag])

/-! ## C112 -/

/-- C112 for the client: there is a reading of the messages such that, whenever a call returns an error, the cause its message names can
be observed. Only which wrong version a rejected response has cannot be told. -/
theorem C112_client_partial (x : StdText) : ∃ why : Text → Cause, ∀ {m : Mode} {s s' : Sys} {tr o : List Obs} {e : Ev}, Exec m s tr →
    step m s e = some (s', o) → Obs.ret .err ∈ o →
    ∃ e' t k, e = .api e' ∧ apiText x s e' = some t ∧ Because tr o k ∧ (k = why t ∨ k.versions (why t)) := by
  classical
  refine ⟨fun t => if h : ∃ k c, Utters x c t k then h.choose else .late, ?_⟩
  intro m s s' tr o e h hs ho
  obtain ⟨e', c, k, t, h1, -, h3, h4, h5⟩ := fails_because x h hs ho
  refine ⟨e', t, k, h1, h4, h3, ?_⟩
  have hex : ∃ k c, Utters x c t k := ⟨k, c, h5⟩
  simp only [hex, dif_pos]
  obtain ⟨c', h6⟩ := hex.choose_spec
  exact utters_told h5 h6

/-- What the client says when time is up. -/
def timeUp : List Text := ["Request timed out".toList, "Write request timed out".toList]

theorem timeUp_not {t : Text} {i : Fin 15} (h : t.take 16 ∈ openings i) (hi : i ≠ 2) : t ∉ timeUp := by
  intro ht
  refine hi (openings_disjoint _ _ _ h ?_)
  simp only [timeUp, List.mem_cons, List.not_mem_nil, or_false] at ht
  rcases ht with rfl | rfl <;> exact opens' (by decide +kernel)

theorem timeUp_timer {m : Mode} {s s' : Sys} {tr o : List Obs} {e : ApiEv} {t : Text} (x : StdText) (h : Exec m s tr)
    (hs : step m s (.api e) = some (s', o)) (ho : Obs.ret .err ∈ o) (ht : apiText x s e = some t) (hu : t ∈ timeUp) :
    ∃ dl, dl ≤ s.bg.now ∧ ((∃ a, s.api = .reading a dl) ∨ s.api = .writing dl) := by
  obtain ⟨e', c, k, t', h1, h2, h3, h4, h5⟩ := fails_because x h hs ho
  cases h1
  rw [ht] at h4
  cases h4
  have hk : k = .late := by
    have hop := utters_opens h5
    by_cases hi : causeTag k = 2
    · cases k with
      | late => rfl
      | short p => cases p <;> simp [causeTag] at hi
      | rejected f => cases f <;> simp [causeTag] at hi
      | _ => simp [causeTag] at hi
    · exact absurd hu (timeUp_not hop hi)
  subst hk
  have hg := step_api hs (Or.inl (returned_ne ho))
  obtain ⟨p, hp⟩ : ∃ p, apiSent (since isCall tr) = [p] := by cases h3; exact ⟨_, ‹_›⟩
  have hto : o = [.ret .err] := by cases h3; rfl
  subst hto
  have hi := h.callInv
  cases hg
  case readTimeout a dl g1 g2 => exact ⟨dl, g2, .inl ⟨a, g1⟩⟩
  case writeTimeout dl g1 g2 => exact ⟨dl, g2, .inr g1⟩
  case noConn g1 g2 g3 =>
    exfalso
    cases ha : s.api <;> rw [ha] at g1 hi <;> simp only [looksUp, Bool.false_eq_true] at g1
    case seqNr => rw [hi.2.2.2.1] at hp; cases hp
    case chanId => rw [hi.2.2.2.1] at hp; cases hp
    all_goals (first | rw [hi.2.2.1] at hp | rw [hi.2.2] at hp) <;> cases hp
  case readGone a dl g1 g2 g3 =>
    cases e <;> simp only [step, apiStep, g1] at hs <;> try (simp at hs; done)
    · simp only [apiText, g1, g2, Option.some.injEq] at ht
      subst ht
      exact absurd hu (by decide +kernel)
    · exact ⟨dl, by simpa [finish] using hs, .inl ⟨a, g1⟩⟩
  case writeGone dl g1 g2 g3 =>
    cases e <;> simp only [step, apiStep, g1] at hs <;> try (simp at hs; done)
    · simp only [apiText, g1, g2, Option.some.injEq] at ht
      subst ht
      exact absurd hu (by decide +kernel)
    · exact ⟨dl, by simpa [finish] using hs, .inr g1⟩
  case stErr g1 =>
    cases e <;> simp only [step, apiStep, g1] at hs <;> try (simp at hs; done)
    · simp only [apiText, g1] at ht
      rw [if_neg (by simp)] at hs
      exfalso
      split at hs <;> unfold finish at hs <;> cases hs
    · simp only [apiText, g1, Option.some.injEq] at ht
      subst ht
      exact absurd hu (timeUp_not (i := 10) (opens (by decide +kernel)) (by decide))
  case dcGone g1 g2 g3 =>
    cases e <;> simp only [step, apiStep, g1] at hs <;> try (simp at hs; done)
    simp only [apiText, g1, Option.some.injEq] at ht
    subst ht
    exact absurd hu (by decide +kernel)

/-- C112 for the client: if the message says that the time is up, it is: ten seconds have passed since a write sent its request, or a
read sent its request or took a telegram. -/
theorem C112_late {m : Mode} {s s1 s2 s3 : Sys} {tr0 o1 tr o : List Obs} {c : Call} {e1 : Ev} {e : ApiEv} {t : Text} (x : StdText)
    (h : Exec m s tr0) (hc : lastCall tr0 = some c) (h1 : step m s e1 = some (s1, o1))
    (ho : ((∃ addr, c = .read addr) ∨ ∃ addr v small, c = .write addr v small) ∧ apiSent o1 ≠ [] ∨ (∃ addr, c = .read addr) ∧ taken o1 ≠ [])
    (h2 : Run m s1 tr s2) (h3 : ¬ Over (o1 ++ tr)) (h4 : taken tr = []) (h5 : step m s2 (.api e) = some (s3, o)) (h6 : Obs.ret .err ∈ o)
    (h7 : apiText x s2 e = some t) (h8 : t = "Request timed out".toList ∨ t = "Write request timed out".toList) :
    s.bg.now + 10000 ≤ s2.bg.now := by
  have hi := h.callInv
  have ht := step_api h1 (by rcases ho with ⟨_, h⟩ | ⟨_, h⟩; exacts [.inr (.inl h), .inr (.inr (.inl h))])
  have hw : (∃ a, s1.api = .reading a (s.bg.now + 10000)) ∨ s1.api = .writing (s.bg.now + 10000) := by
    cases ht
    case sendRead => exact Or.inl ⟨_, rfl⟩
    case sendWrite => exact Or.inr rfl
    case readSkip => exact Or.inl ⟨_, rfl⟩
    case stSend hapi =>
      rw [hapi] at hi; have := hi.1; rw [hc] at this; cases this
      rcases ho with ⟨⟨_, h⟩ | ⟨_, _, _, h⟩, _⟩ | ⟨⟨_, h⟩, _⟩ <;> cases h
    case dcSend hapi =>
      rw [hapi] at hi; have := hi.1; rw [hc] at this; cases this
      rcases ho with ⟨⟨_, h⟩ | ⟨_, _, _, h⟩, _⟩ | ⟨⟨_, h⟩, _⟩ <;> cases h
    all_goals first
      | (exfalso; rcases ho with ⟨_, h⟩ | ⟨_, h⟩ <;> simp [apiSent, taken] at h; done)
      | (exfalso; exact h3 (over_append (Or.inl (by left; simp [returned]))))
      | (exfalso; exact h3 (over_append (Or.inl (by right; simp))))
  have hx : Exec m s2 (tr0 ++ o1 ++ tr) := (h.step _ h1).append h2
  have hk := waits_on h2 (fun g => h3 (over_append (Or.inr g))) h4 hw
  rw [← hk] at hw
  obtain ⟨dl, g1, g2⟩ := timeUp_timer x hx h5 h6 h7 (by
    unfold timeUp
    rw [List.mem_cons, List.mem_singleton]
    exact h8)
  rcases hw with ⟨a, hw⟩ | hw <;> rcases g2 with ⟨a', g2⟩ | g2 <;> rw [hw] at g2 <;> cases g2 <;> exact g1

/-- Some texts of the standard library. -/
def sampleText : StdText :=
  ⟨"eof".toList, "broken".toList, fun t => "W(".toList ++ t ++ ")".toList, fun _ => "dib".toList, fun t => t⟩

theorem fails_sample {m : Mode} {evs : List Ev} {e : ApiEv} {t : Text} {o : List Obs}
    (h : (runEvs m Sys.init evs).map (fun x => ((step m x.1 (.api e)).map Prod.snd, apiText sampleText x.1 e)) = some (some o, some t)) :
    ∃ s s' tr, Exec m s tr ∧ step m s (.api e) = some (s', o) ∧ apiText sampleText s e = some t := by
  obtain ⟨s, tr, h1, h2⟩ := exec_of_evs h
  simp only [Prod.mk.injEq, Option.map_eq_some_iff, Prod.exists, exists_eq_right] at h2
  obtain ⟨⟨s', h2⟩, h3⟩ := h2
  exact ⟨s, s', tr, h1, h2, h3⟩

/-- A write to a client that is not connected. -/
example (m : Mode) : ∃ s s' tr, Exec m s tr ∧ step m s (.api .run) = some (s', [.ret .err]) ∧
    apiText sampleText s .run = some "Disconnected from knx device, NR".toList :=
  fails_sample (evs := [.api (.call (.write (.group3 ⟨1, 0, 1⟩) [1] true))]) (by cases m <;> decide +kernel)

/-- A read whose answer is too short: it ends with the source address. -/
example (m : Mode) : ∃ s s' tr c, Exec m s tr ∧ step m s (.api .run) = some (s', [.taken 0 c, .ret .err]) ∧
    apiText sampleText s .run = some "Unable to read destination address eof".toList := by
  obtain ⟨s, s', tr, h⟩ := fails_sample (m := m) (e := .run) (evs := [.bg .run, .bg .sendOk, .bg (.dgram grant7), .bg .run,
      .api (.call (.read (.group3 ⟨1, 0, 1⟩))), .api .run, .api .run, .api .sendOk,
      .bg (.dgram [6, 0x10, 4, 0x20, 0, 16, 4, 7, 0, 0, 0x29, 0, 0xbc, 0xe0, 0x11, 1]), .bg .sendOk, .bg .run])
    (o := [.taken 0 ⟨0x29, [], [0xbc, 0xe0, 0x11, 1]⟩, .ret .err]) (t := "Unable to read destination address eof".toList)
    (by cases m <;> decide +kernel)
  exact ⟨s, s', tr, _, h⟩

/-- A read that waits for ten seconds. -/
example (m : Mode) : ∃ s s' tr, Exec m s tr ∧ step m s (.api .timer) = some (s', [.ret .err]) ∧
    apiText sampleText s .timer = some "Request timed out".toList :=
  fails_sample (evs := [.bg .run, .bg .sendOk, .bg (.dgram grant7), .bg .run,
      .api (.call (.read (.group3 ⟨1, 0, 1⟩))), .api .run, .api .run, .api .sendOk, .delay 10000]) (by cases m <;> decide +kernel)

/-- C112 is refuted for writes: a telegram of another participant is not unknown, but is called so. Whatever telegram a connected client
receives while a write of it waits, unless it is a confirmation, the message says that its code is unknown. -/
theorem C112_write_violated {m : Mode} {s s' : Sys} {tr o : List Obs} {e : ApiEv} {c : Cemi} {addr : KnxAddress} {v : Bytes} {small : Bool}
    (x : StdText) (h : Exec m s tr) (hc : lastCall tr = some (.write addr v small)) (hs : step m s (.api e) = some (s', o))
    (ho : Obs.ret .err ∈ o) (ht : Obs.taken 0 c ∈ o) (hk : c.msgCode = L_DATA_IND) :
    apiText x s e = some "Unknown cEMI message code 41".toList := by
  obtain ⟨e', c', k, t, h1, h2, h3, h4, h5⟩ := fails_because x h hs ho
  cases h1
  rw [hc] at h2
  cases h2
  cases h3 <;> simp only [List.mem_cons, List.not_mem_nil, or_false, reduceCtorEq, or_self, Obs.taken.injEq, true_and] at ht
  case short c' hr _ _ => obtain ⟨_, hr⟩ := hr; rw [hc] at hr; cases hr
  case unexpected c' hr hne =>
    subst ht
    rw [h4, h5, hk]
    decide +kernel

/-- Another participant writes 12 to 1/0/1 while a write waits. -/
example (m : Mode) : ∃ s s' tr c, Exec m s tr ∧ lastCall tr = some (.write (.group3 ⟨1, 0, 2⟩) [1] true) ∧
    step m s (.api .run) = some (s', [.taken 0 c, .ret .err]) ∧ c.msgCode = L_DATA_IND := by
  obtain ⟨s, tr, h1, h2⟩ := exec_of_evs (m := m) (evs := [.bg .run, .bg .sendOk, .bg (.dgram grant7), .bg .run,
      .api (.call (.write (.group3 ⟨1, 0, 2⟩) [1] true)), .api .run, .api .run, .api .sendOk, .bg (.dgram req7), .bg .sendOk, .bg .run])
    (f := fun x => (lastCall x.2, (step m x.1 (.api .run)).map Prod.snd))
    (y := (some (.write (.group3 ⟨1, 0, 2⟩) [1] true), some [.taken 0 tel7, .ret .err])) (by cases m <;> decide +kernel)
  simp only [Prod.mk.injEq, Option.map_eq_some_iff, Prod.exists, exists_eq_right] at h2
  obtain ⟨h2, s', h3⟩ := h2
  exact ⟨s, s', tr, _, h1, h2, h3, by decide +kernel⟩

end Knx
