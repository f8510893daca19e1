import Verif.Model.Search
import Verif.Spec.Search
import Verif.Props.Dib

/-!
# Properties of the gateway search (C60)
-/

namespace Knx
open Spec

theorem visible_length (ds : List Bytes) : (visible ds).length = 100 := by simp [visible]

theorem visible_nil : visible [] = List.replicate 100 0 := by decide +kernel

theorem byteAt_snoc (j : Nat) (ds : List Bytes) (d : Bytes) :
    byteAt j (ds ++ [d]) = if h : j < d.length then d[j] else byteAt j ds := by
  unfold byteAt
  rw [List.filter_append]
  split
  · rename_i h; simp [h]
  · rename_i h; simp [h]

theorem visible_snoc (ds : List Bytes) (d : Bytes) : overwrite (visible ds) d = visible (ds ++ [d]) := by
  unfold overwrite
  rw [visible_length]
  apply List.ext_getElem
  · simp [visible_length]; omega
  · intro j h1 h2
    have h3 := h2
    rw [visible_length] at h3
    have e : (visible (ds ++ [d]))[j] = byteAt j (ds ++ [d]) := by simp [visible]
    refine Eq.trans ?_ e.symm
    rw [byteAt_snoc, List.getElem_append]
    by_cases h : j < d.length
    · rw [dif_pos h, dif_pos (by simp; omega)]; simp
    · rw [dif_neg h, dif_neg (by simp; omega)]
      have hl : (d.take 100).length = d.length := by rw [List.length_take]; omega
      simp only [List.getElem_drop, hl]
      simp only [visible, List.getElem_map, List.getElem_range]
      congr 1
      omega

/-- The datagrams received by a search, with the times of their arrival. -/
def arrivals (ds : List (Nat × Bytes)) : List (Nat × SearchEv) := ds.map fun x => (x.1, .dgram x.2)

/-- What the search makes of the datagrams. -/
def Answers (m : Mode) (ds : List Bytes) (rs : List SearchResponse) : Prop :=
  rs.length = ds.length ∧ ∀ i (h : i < rs.length), (m = .debug → 2 ≤ rs[i].serviceFamilies.structureLength.toNat) ∧
    SearchFrame (visible (ds.take (i + 1))) rs[i]

theorem runRd_search {m : Mode} {b : Bytes} {s : SearchResponse} : runRd (SearchResponse.fromPacket m) id b = .ok s ↔
    (m = .debug → 2 ≤ s.serviceFamilies.structureLength.toNat) ∧ SearchFrame b s := by
  have e : runRd (SearchResponse.fromPacket m) id b = .ok s ↔ ∃ rest, SearchResponse.fromPacket m b = .ok (s, rest) := by
    unfold runRd
    split
    · rename_i a r h; rw [h]; simp
    · rename_i h; rw [h]; simp
    · rename_i h; rw [h]; simp
  rw [e]
  simp only [searchResponse_iff]
  constructor
  · rintro ⟨rest, len, st, h1, h2, h3, h4, h5, h6, h7, h8⟩
    exact ⟨h6, len, st, rest, h1, h2, h3, h4, h5, h7, h8⟩
  · rintro ⟨h6, len, st, rest, h1, h2, h3, h4, h5, h7, h8⟩
    exact ⟨rest, len, st, h1, h2, h3, h4, h5, h6, h7, h8⟩

theorem runRd_panic {α β : Type} {p : Rd α} {f : α → β} {b : Bytes} (h : runRd p f b = .panic) : p b = .panic := by
  unfold runRd at h
  split at h
  · cases h
  · cases h
  · assumption

theorem answers_snoc {m : Mode} {ds : List Bytes} {rs : List SearchResponse} {d : Bytes} {r : SearchResponse}
    (h : Answers m ds rs) (hr : runRd (SearchResponse.fromPacket m) id (visible (ds ++ [d])) = .ok r) :
    Answers m (ds ++ [d]) (rs ++ [r]) := by
  obtain ⟨h1, h2⟩ := h
  refine ⟨by simp [h1], fun i hi => ?_⟩
  by_cases h : i < rs.length
  · rw [List.getElem_append_left h, List.take_append_of_le_length (by omega)]
    exact h2 i h
  · have : i = rs.length := by simp at hi; omega
    have e : (rs ++ [r])[i] = r := by subst this; simp
    rw [e, List.take_of_length_le (by simp; omega)]
    exact runRd_search.1 hr

/-- A run in which the search waits, or has finished well. -/
theorem search_inv {m : Mode} {T : Nat} {evs : List (Nat × SearchEv)} {now : Nat} {ds : List Bytes} {found : List SearchResponse}
    {dl : Nat} {st : SearchSt} (ha : Answers m ds found)
    (h : searchRun m T now (.waiting (visible ds) found dl) evs = some st) :
    (∀ rs, st = .finished (.ok rs) → ∃ new t, evs = arrivals new ++ [(t, .timer)] ∧ Answers m (ds ++ new.map (·.2)) rs ∧
      (match new.getLast? with | some x => x.1 + T | none => dl) ≤ t) := by
  induction evs generalizing now ds found dl with
  | nil => intro rs hrs; simp [searchRun] at h; rw [← h] at hrs; cases hrs
  | cons x evs ih =>
    obtain ⟨t, e⟩ := x
    intro rs hrs
    subst hrs
    simp only [searchRun] at h
    split at h
    · split at h
      · rename_i s' hs
        have stuck : ∀ {r}, searchRun m T t (.finished r) evs = some (.finished (.ok rs)) → evs = [] ∧ r = .ok rs := by
          intro r hr
          cases evs with
          | nil => simp [searchRun] at hr; exact ⟨rfl, hr⟩
          | cons y evs =>
            obtain ⟨t', e'⟩ := y
            simp only [searchRun, searchStep] at hr
            split at hr <;> cases hr
        cases e <;> simp only [searchStep, reduceCtorEq] at hs
        case dgram d =>
          split at hs
          · rename_i r hr
            cases hs
            rw [visible_snoc] at hr h
            obtain ⟨new, t', h1, h2, h3⟩ := ih (answers_snoc ha hr) h rs rfl
            refine ⟨(t, d) :: new, t', by rw [h1]; rfl, by simpa using h2, ?_⟩
            cases hn : new with
            | nil => rw [hn] at h3; simpa using h3
            | cons y ys => rw [hn] at h3; rw [List.getLast?_cons_cons]; exact h3
          · cases hs; exact absurd (stuck h).2 (by simp)
          · cases hs; exact absurd (stuck h).2 (by simp)
        case recvErr => cases hs; exact absurd (stuck h).2 (by simp)
        case timer =>
          split at hs
          · rename_i hd
            cases hs
            obtain ⟨rfl, h2⟩ := stuck h
            cases h2
            exact ⟨[], t, rfl, by simpa using ha, by simpa using hd⟩
          · cases hs
      · cases h
    · cases h

/-- C60, exact behaviour: whenever the search returns a list, it has sent its request, received datagrams, and then heard nothing for
the length of the timeout; the list has one entry per datagram in the order of arrival, and entry `i` is what the receive
buffer denoted after datagram `i`, that is, the bytes of that datagram continued with those of the earlier ones. -/
theorem C60_exact {m : Mode} {T t0 : Nat} {evs : List (Nat × SearchEv)} {rs : List SearchResponse}
    (h : searchRun m T t0 .start evs = some (.finished (.ok rs))) :
    ∃ t ds t', evs = (t, .sendOk) :: arrivals ds ++ [(t', .timer)] ∧ Answers m (ds.map (·.2)) rs ∧
      (match ds.getLast? with | some x => x.1 | none => t) + T ≤ t' := by
  cases evs with
  | nil => simp [searchRun] at h
  | cons x evs =>
    obtain ⟨t, e⟩ := x
    simp only [searchRun] at h
    split at h
    · cases e <;> simp only [searchStep, reduceCtorEq] at h
      case sendOk =>
        rw [← visible_nil] at h
        obtain ⟨new, t', h1, h2, h3⟩ := search_inv (ds := []) ⟨rfl, fun i hi => absurd hi (by simp)⟩ h rs rfl
        refine ⟨t, new, t', by rw [h1]; rfl, by simpa using h2, ?_⟩
        cases hn : new.getLast? with
        | none => rw [hn] at h3; exact h3
        | some y => rw [hn] at h3; exact h3
      case sendFail =>
        cases evs with
        | nil => simp [searchRun] at h
        | cons y evs =>
          obtain ⟨t', e'⟩ := y
          simp only [searchRun, searchStep] at h
          split at h <;> cases h
    · cases h

/-- The entry that belongs to a search response. -/
def entry (x : Hpai × DeviceInfo × List ServiceFamily) : SearchResponse :=
  ⟨x.1, x.2.1, ⟨byte (2 + 2 * x.2.2.length), .supportedServiceFamilies, x.2.2⟩⟩

theorem searchResponse_length (ep : Hpai) (d : DeviceInfo) (fs : List ServiceFamily) :
    (searchResponse ep d fs).length = 70 + 2 * fs.length := by
  simp [searchResponse, frame, header, hpai, dib, deviceInfoBody, familiesBody_length]
  omega

/-- A datagram that fits the buffer stands at its front. -/
theorem overwrite_short {buf d : Bytes} (h : d.length ≤ buf.length) : overwrite buf d = d ++ buf.drop d.length := by
  unfold overwrite; rw [List.take_of_length_le h]

/-- A gateway's answer: a search response with at most 15 service families. -/
def GoodAnswer (x : Hpai × DeviceInfo × List ServiceFamily) : Prop :=
  DeviceInfoOk x.2.1 ∧ x.2.1.structureLength = 54 ∧ x.2.2.length ≤ 15

/-- The answers with their times, as received. -/
def answering (xs : List (Nat × Hpai × DeviceInfo × List ServiceFamily)) : List (Nat × SearchEv) :=
  arrivals (xs.map fun x => (x.1, searchResponse x.2.1 x.2.2.1 x.2.2.2))

/-- The time of the last of them. -/
def lastTime (t : Nat) (xs : List (Nat × Hpai × DeviceInfo × List ServiceFamily)) : Nat := (xs.getLast?.map (·.1)).getD t

theorem lastTime_cons (t : Nat) (x : Nat × Hpai × DeviceInfo × List ServiceFamily) (xs) : lastTime t (x :: xs) = lastTime x.1 xs := by
  cases xs with
  | nil => rfl
  | cons y ys => simp [lastTime, List.getLast?_cons_cons, List.getLast?_cons]

theorem good_run (m : Mode) (T : Nat) (xs : List (Nat × Hpai × DeviceInfo × List ServiceFamily)) (buf : Bytes)
    (found : List SearchResponse) (now : Nat) (hb : buf.length = 100) (hx : ∀ x ∈ xs, GoodAnswer x.2)
    (hp : (now :: xs.map (·.1)).Pairwise (· ≤ ·)) :
    ∃ buf', buf'.length = 100 ∧ (∀ x, xs.getLast? = some x → ∃ rest, buf' = searchResponse x.2.1 x.2.2.1 x.2.2.2 ++ rest) ∧
      ∀ es, searchRun m T now (.waiting buf found (now + T)) (answering xs ++ es)
        = searchRun m T (lastTime now xs) (.waiting buf' (found ++ xs.map fun x => entry x.2) (lastTime now xs + T)) es := by
  induction xs generalizing buf found now with
  | nil => exact ⟨buf, hb, by simp, fun es => by simp [answering, arrivals, lastTime]⟩
  | cons x xs ih =>
    obtain ⟨tx, ep, d, fs⟩ := x
    obtain ⟨h1, h2, h3⟩ := hx _ List.mem_cons_self
    have hlen := searchResponse_length ep d fs
    simp only at h1 h2 h3
    have ho : overwrite buf (searchResponse ep d fs) = searchResponse ep d fs ++ buf.drop (searchResponse ep d fs).length :=
      overwrite_short (by omega)
    have hl : (overwrite buf (searchResponse ep d fs)).length = 100 := by rw [ho]; simp; omega
    have hr : runRd (SearchResponse.fromPacket m) id (overwrite buf (searchResponse ep d fs)) = .ok (entry (ep, d, fs)) := by
      rw [ho]; unfold runRd; rw [C27_search_response m ep d fs _ h1 h2 (by omega)]; rfl
    have hnow : now ≤ tx := (List.pairwise_cons.1 hp).1 tx (by simp)
    obtain ⟨buf', g1, g2, g3⟩ := ih (overwrite buf (searchResponse ep d fs)) (found ++ [entry (ep, d, fs)]) tx hl
      (fun x h => hx x (List.mem_cons_of_mem _ h)) (List.pairwise_cons.1 hp).2
    cases xs with
    | nil =>
      refine ⟨overwrite buf (searchResponse ep d fs), hl, ?_, fun es => ?_⟩
      · rintro x ⟨⟩; exact ⟨_, ho⟩
      · simp [answering, arrivals, searchRun, hnow, searchStep, hr, lastTime]
    | cons y ys =>
      refine ⟨buf', g1, by rw [List.getLast?_cons_cons]; exact g2, fun es => ?_⟩
      rw [lastTime_cons]
      have := g3 es
      simp only [answering, arrivals, List.map_cons, List.cons_append, searchRun, if_pos hnow, searchStep, hr] at this ⊢
      simpa using this

theorem good_start (m : Mode) (T : Nat) (xs : List (Nat × Hpai × DeviceInfo × List ServiceFamily)) (now t : Nat)
    (hx : ∀ x ∈ xs, GoodAnswer x.2) (hp : (now :: t :: xs.map (·.1)).Pairwise (· ≤ ·)) :
    ∃ buf', buf'.length = 100 ∧ (∀ x, xs.getLast? = some x → ∃ rest, buf' = searchResponse x.2.1 x.2.2.1 x.2.2.2 ++ rest) ∧
      ∀ es, searchRun m T now .start ((t, .sendOk) :: answering xs ++ es)
        = searchRun m T (lastTime t xs) (.waiting buf' (xs.map fun x => entry x.2) (lastTime t xs + T)) es := by
  obtain ⟨buf', g1, g2, g3⟩ := good_run m T xs (List.replicate 100 0) [] t List.length_replicate hx (List.pairwise_cons.1 hp).2
  refine ⟨buf', g1, g2, fun es => ?_⟩
  have h0 : now ≤ t := (List.pairwise_cons.1 hp).1 t (by simp)
  simp only [List.cons_append, searchRun, if_pos h0, searchStep]
  simpa using g3 es

/-- C60 where it holds: if the datagrams are search responses with at most 15 service families, they are returned all of them, in
the order of their arrival, once nothing more has come for the length of the timeout. -/
theorem C60_all_partial (m : Mode) (T : Nat) (xs : List (Nat × Hpai × DeviceInfo × List ServiceFamily)) (now t t' : Nat)
    (hx : ∀ x ∈ xs, GoodAnswer x.2) (hp : (now :: t :: xs.map (·.1)).Pairwise (· ≤ ·)) (ht : lastTime t xs + T ≤ t') :
    searchRun m T now .start ((t, .sendOk) :: answering xs ++ [(t', .timer)])
      = some (.finished (.ok (xs.map fun x => entry x.2))) := by
  obtain ⟨buf', _, _, g⟩ := good_start m T xs now t hx hp
  rw [g]
  have : lastTime t xs ≤ t' := by omega
  simp [searchRun, searchStep, this, ht]

/-- Two gateways. -/
def exampleAnswers : List (Nat × Hpai × DeviceInfo × List ServiceFamily) :=
  [(40, ⟨1, ⟨⟨192, 168, 0, 9⟩, 3671⟩⟩, exampleDevice, [⟨2, 1⟩, ⟨3, 1⟩, ⟨4, 2⟩]),
   (90, ⟨1, ⟨⟨192, 168, 0, 10⟩, 3671⟩⟩, { exampleDevice with address := ⟨1, 1, 251⟩ }, [⟨2, 1⟩])]

theorem exampleAnswers_good : ∀ x ∈ exampleAnswers, GoodAnswer x.2 := by
  intro x hx
  simp only [exampleAnswers, List.mem_cons, List.not_mem_nil, or_false] at hx
  rcases hx with rfl | rfl
  · exact ⟨⟨⟨by decide, by decide⟩, by decide, rfl⟩, rfl, by decide⟩
  · exact ⟨⟨⟨by decide, by decide⟩, by decide, rfl⟩, rfl, by decide⟩

example : searchRun .debug 3000 0 .start ((5, .sendOk) :: answering exampleAnswers ++ [(3090, .timer)])
    = some (.finished (.ok (exampleAnswers.map fun x => entry x.2))) :=
  C60_all_partial .debug 3000 exampleAnswers 0 5 3090 exampleAnswers_good (by decide) (by decide)

/-- C60 refuted: whatever was found, one datagram that does not start with the length of a header makes the search fail, and
nothing is returned. -/
theorem C60_violated_discards (m : Mode) (T : Nat) (xs : List (Nat × Hpai × DeviceInfo × List ServiceFamily)) (now t t' : Nat)
    (hx : ∀ x ∈ xs, GoodAnswer x.2) (hp : (now :: t :: xs.map (·.1)).Pairwise (· ≤ ·)) (ht : lastTime t xs ≤ t')
    (b : U8) (rest : Bytes) (hb : b ≠ 6) :
    searchRun m T now .start ((t, .sendOk) :: answering xs ++ [(t', .dgram (b :: rest))]) = some (.finished .err) := by
  obtain ⟨buf', g0, _, g⟩ := good_start m T xs now t hx hp
  rw [g]
  have e : ∃ tl, overwrite buf' (b :: rest) = b :: tl := by
    unfold overwrite; rw [g0]; exact ⟨_, rfl⟩
  obtain ⟨tl, e⟩ := e
  have : runRd (SearchResponse.fromPacket m) id (overwrite buf' (b :: rest)) = .err := by
    rw [e]
    cases h : runRd (SearchResponse.fromPacket m) id (b :: tl) with
    | ok s =>
      obtain ⟨_, len, st, r, _, _, _, _, _, _, h7⟩ := runRd_search.1 h
      simp [header] at h7
      exact absurd h7.1 hb
    | err => rfl
    | panic =>
      obtain ⟨_, len, ep, r, _, h7, _⟩ := (C29_search_panics_iff m _).1 (runRd_panic h)
      simp [header] at h7
      exact absurd h7.1 hb
  simp [searchRun, searchStep, ht, this]

/-- C60 refuted: a datagram that holds only the beginning of the last answer (or nothing) is taken for another answer. -/
theorem C60_violated_leftover (m : Mode) (T : Nat) (xs : List (Nat × Hpai × DeviceInfo × List ServiceFamily)) (now t t' t'' : Nat)
    (hx : ∀ x ∈ xs, GoodAnswer x.2) (hp : (now :: t :: xs.map (·.1)).Pairwise (· ≤ ·)) (ht : lastTime t xs ≤ t')
    (hd : t' + T ≤ t'') (x : Nat × Hpai × DeviceInfo × List ServiceFamily) (hl : xs.getLast? = some x) (n : Nat) :
    searchRun m T now .start ((t, .sendOk) :: answering xs
        ++ [(t', .dgram ((searchResponse x.2.1 x.2.2.1 x.2.2.2).take n)), (t'', .timer)])
      = some (.finished (.ok (xs.map (fun x => entry x.2) ++ [entry x.2]))) := by
  obtain ⟨buf', g0, g1, g⟩ := good_start m T xs now t hx hp
  rw [g]
  obtain ⟨rest, hr⟩ := g1 x hl
  obtain ⟨h1, h2, h3⟩ := hx x (List.mem_of_getLast? hl)
  obtain ⟨tx, ep, d, fs⟩ := x
  simp only at hr h1 h2 h3 ⊢
  have hlen := searchResponse_length ep d fs
  have e : overwrite buf' ((searchResponse ep d fs).take n) = buf' := by
    rw [overwrite_short (by simp; omega), hr]
    simp only [List.length_take]
    rw [List.drop_append_of_le_length (by omega), ← List.append_assoc]
    congr 1
    by_cases hn : n ≤ (searchResponse ep d fs).length
    · rw [Nat.min_eq_left hn, List.take_append_drop]
    · rw [Nat.min_eq_right (by omega), List.take_of_length_le (by omega), List.drop_length, List.append_nil]
  have hr' : runRd (SearchResponse.fromPacket m) id buf' = .ok (entry (ep, d, fs)) := by
    rw [hr]; unfold runRd; rw [C27_search_response m ep d fs _ h1 h2 (by omega)]; rfl
  have : t' ≤ t'' := by omega
  simp [searchRun, searchStep, ht, e, hr', this, hd]

/-- C60 refuted: an answer with more than 15 service families does not fit the buffer, and with it the search returns nothing. -/
theorem C60_violated_long (m : Mode) (T : Nat) (xs : List (Nat × Hpai × DeviceInfo × List ServiceFamily)) (now t t' : Nat)
    (hx : ∀ x ∈ xs, GoodAnswer x.2) (hp : (now :: t :: xs.map (·.1)).Pairwise (· ≤ ·)) (ht : lastTime t xs ≤ t')
    (ep : Hpai) (d : DeviceInfo) (fs : List ServiceFamily) (hf : 15 < fs.length) (hf' : fs.length ≤ 126) :
    searchRun m T now .start ((t, .sendOk) :: answering xs ++ [(t', .dgram (searchResponse ep d fs))]) = some (.finished .err) := by
  obtain ⟨buf', g0, _, g⟩ := good_start m T xs now t hx hp
  rw [g]
  have hlen := searchResponse_length ep d fs
  have e : overwrite buf' (searchResponse ep d fs) = (searchResponse ep d fs).take 100 := by
    unfold overwrite; rw [g0, List.drop_eq_nil_of_le (by omega), List.append_nil]
  have hdrop : ∀ k ≤ 100, ((searchResponse ep d fs).take 100).drop k = ((searchResponse ep d fs).drop k).take (100 - k) := by
    intro k _; rw [List.drop_take]
  have d14 : ∃ tl, (searchResponse ep d fs).drop 14 = 54 :: 1 :: tl := ⟨_, rfl⟩
  have d68 : ∃ tl, (searchResponse ep d fs).drop 68 = byte (2 + 2 * fs.length) :: 2 :: tl := by
    refine ⟨familiesBody fs, ?_⟩
    have : ∃ n, searchResponse ep d fs = (header SEARCH_RESPONSE n ++ hpai ep ++ dib 54 1 (deviceInfoBody d))
        ++ dib (2 + 2 * fs.length) 2 (familiesBody fs) := by
      unfold searchResponse frame
      exact ⟨6 + (hpai ep ++ dib 54 1 (deviceInfoBody d) ++ dib (2 + 2 * fs.length) 2 (familiesBody fs)).length,
        by simp only [header, List.append_assoc]⟩
    obtain ⟨n, this⟩ := this
    rw [this, List.drop_left' (by simp [header, hpai, dib, deviceInfoBody_length])]
    rfl
  obtain ⟨t14, d14⟩ := d14
  obtain ⟨t68, d68⟩ := d68
  have hbyte : (byte (2 + 2 * fs.length)).toNat = 2 + 2 * fs.length := by simp [byte]; omega
  have : runRd (SearchResponse.fromPacket m) id (overwrite buf' (searchResponse ep d fs)) = .err := by
    rw [e]
    cases h : runRd (SearchResponse.fromPacket m) id ((searchResponse ep d fs).take 100) with
    | ok s =>
      obtain ⟨_, len, st, r, _, _, _, _, _, h6, h7⟩ := runRd_search.1 h
      have hl := congrArg List.length h7
      have hd := congrArg (List.drop 68) h7
      rw [hdrop 68 (by omega), d68] at hd
      have hd' : byte (2 + 2 * fs.length) = s.serviceFamilies.structureLength := by
        rw [List.append_assoc, List.append_assoc,
          List.drop_left' (by simp [header, hpai_length, deviceInfoBody_length])] at hd
        have := congrArg List.head? hd
        simpa using this
      rw [← hd'] at h6
      have : (byte (2 + 2 * fs.length) - 2 : U8).toNat = 2 * fs.length := by
        rw [BitVec.toNat_sub_of_le (by rw [BitVec.le_def, hbyte]; simp), hbyte]; simp
      rw [this] at h6
      simp [familiesBody_length, header, hpai, deviceInfoBody] at hl
      omega
    | err => rfl
    | panic =>
      obtain ⟨_, len, ep', r, _, h7, h8⟩ := (C29_search_panics_iff m _).1 (runRd_panic h)
      have hd := congrArg (List.drop 14) h7
      rw [hdrop 14 (by omega), d14] at hd
      have hd' : 54 :: 1 :: t14.take 84 = r := by
        rw [List.drop_left' (by simp [header, hpai_length])] at hd
        exact hd
      rcases h8 with h8 | ⟨l, di, r2, _, h9, h10⟩
      · rw [← hd'] at h8
        rcases h8 with ⟨l, rest, _, h⟩ | ⟨l, rest, _, _, h⟩ <;> · simp at h
      · have h68 := congrArg (List.drop 68) h7
        rw [hdrop 68 (by omega), d68, h9] at h68
        have h68' : byte (2 + 2 * fs.length) :: 2 :: t68.take 30 = r2 := by
          rw [← List.append_assoc, List.drop_left' (by simp [header, hpai_length, deviceInfoBody_length])] at h68
          exact h68
        rw [← h68'] at h10
        rcases h10 with ⟨l, rest, hl, h⟩ | ⟨l, rest, _, _, h⟩
        · simp at h; rw [← h.1, hbyte] at hl; omega
        · simp at h
  simp [searchRun, searchStep, ht, this]

example : searchRun .release 3000 0 .start ((5, .sendOk) :: answering exampleAnswers ++
    [(95, .dgram (searchResponse ⟨1, ⟨⟨192, 168, 0, 9⟩, 3671⟩⟩ exampleDevice (List.replicate 16 ⟨2, 1⟩)))]) = some (.finished .err) :=
  C60_violated_long .release 3000 exampleAnswers 0 5 95 exampleAnswers_good (by decide) (by decide) _ _ _ (by decide) (by decide)

example : searchRun .debug 3000 0 .start ((5, .sendOk) :: answering exampleAnswers ++ [(95, .dgram []), (3095, .timer)])
    = some (.finished (.ok (exampleAnswers.map (fun x => entry x.2) ++ [entry (exampleAnswers[1]'(by decide)).2]))) :=
  C60_violated_leftover .debug 3000 exampleAnswers 0 5 95 3095 exampleAnswers_good (by decide) (by decide) (by decide) _ rfl 0

example : searchRun .release 3000 0 .start ((5, .sendOk) :: answering exampleAnswers ++ [(95, .dgram [0])]) = some (.finished .err) :=
  C60_violated_discards .release 3000 exampleAnswers 0 5 95 exampleAnswers_good (by decide) (by decide) 0 [] (by decide)

/-- C60: the timeout is no bound on the duration. Answers that keep coming keep the search going for any time: after `n + 1`
answers `p` apart it returns no earlier than the timeout after the last one. -/
theorem C60_lasts (m : Mode) (T p n e : Nat) (x : Hpai × DeviceInfo × List ServiceFamily) (h : GoodAnswer x) :
    searchRun m T 0 .start ((0, .sendOk) :: answering ((List.range (n + 1)).map fun k => (k * p, x)) ++ [(e, .timer)])
      = if n * p + T ≤ e then some (.finished (.ok (List.replicate (n + 1) (entry x)))) else none := by
  obtain ⟨buf', _, _, g⟩ := good_start m T ((List.range (n + 1)).map fun k => (k * p, x)) 0 0
    (by intro y hy; simp only [List.mem_map] at hy; obtain ⟨k, _, rfl⟩ := hy; exact h)
    (by
      refine List.pairwise_cons.2 ⟨fun _ _ => Nat.zero_le _, List.pairwise_cons.2 ⟨fun _ _ => Nat.zero_le _, ?_⟩⟩
      rw [List.map_map, List.pairwise_map]
      exact List.pairwise_lt_range.imp fun h => Nat.mul_le_mul_right _ (Nat.le_of_lt h))
  rw [g]
  have hl : lastTime 0 ((List.range (n + 1)).map fun k => (k * p, x)) = n * p := by
    simp [lastTime, List.range_succ]
  have hm : ((List.range (n + 1)).map fun k => (k * p, x)).map (fun x => entry x.2) = List.replicate (n + 1) (entry x) := by
    rw [List.map_map]
    apply List.ext_getElem (by simp)
    intro i h1 h2
    simp
  rw [hl, hm]
  by_cases hd : n * p + T ≤ e
  · have : n * p ≤ e := by omega
    simp [searchRun, searchStep, hd, this]
  · simp only [searchRun, searchStep, if_neg hd, ite_self]

example : searchRun .debug 3000 0 .start ((0, .sendOk) ::
    answering ((List.range 1001).map fun k => (k * 2999, (exampleAnswers[0]'(by decide)).2)) ++ [(3001999, .timer)]) = none :=
  C60_lasts .debug 3000 2999 1000 3001999 _ (exampleAnswers_good _ (by decide))

end Knx
