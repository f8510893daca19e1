import Verif.Spec.Origin
import Verif.Props.EndToEnd
import Verif.Props.Monitor

/-!
# Property of the origin of the values returned (C97)
-/

namespace Knx
open Spec

/-- Consecutive bytes of `d` continued with zeros. -/
def Piece (d x : Bytes) : Prop := ∃ w n, w <:+: d ∧ x = w ++ List.replicate n 0

theorem Piece.take {d x : Bytes} (h : Piece d x) (k : Nat) : Piece d (x.take k) := by
  obtain ⟨w, n, h1, rfl⟩ := h
  exact ⟨w.take k, min (k - w.length) n, (List.take_prefix k w).isInfix.trans h1, by rw [List.take_append, List.take_replicate]⟩

theorem Piece.drop {d x : Bytes} (h : Piece d x) (k : Nat) : Piece d (x.drop k) := by
  obtain ⟨w, n, h1, rfl⟩ := h
  exact ⟨w.drop k, n - (k - w.length), (List.drop_suffix k w).isInfix.trans h1, by rw [List.drop_append, List.drop_replicate]⟩

theorem Piece.pad {d x : Bytes} (h : Piece d x) (k : Nat) : Piece d (x ++ List.replicate k 0) := by
  obtain ⟨w, n, h1, rfl⟩ := h
  exact ⟨w, n + k, h1, by rw [List.append_assoc, List.replicate_append_replicate]⟩

theorem Piece.padded {d x : Bytes} (h : Piece d x) (k : Nat) : Piece d (Spec.padded k x) := (h.pad k).take k

theorem Piece.suffix {d x y : Bytes} (h : Piece d x) (hy : y <:+ x) : Piece d y := by
  rw [List.suffix_iff_eq_drop] at hy
  rw [hy]
  exact h.drop _

theorem Piece.mem {d x : Bytes} (h : Piece d x) {b : U8} (hb : b ∈ x) : b ∈ d ∨ b = 0 := by
  obtain ⟨w, n, h1, rfl⟩ := h
  rcases List.mem_append.1 hb with hb | hb
  · exact Or.inl (h1.subset hb)
  · exact Or.inr (List.eq_of_mem_replicate hb)

theorem piece_self (d : Bytes) : Piece d d := ⟨d, 0, List.infix_refl d, by simp⟩

theorem cemiInfos_suffix {m : Mode} {total pos : U8} {r r' : Bytes} {is : List AddInfo} (h : cemiInfos m total pos r = .ok (is, r')) :
    r' <:+ r := by
  fun_induction cemiInfos m total pos r generalizing is r' <;> simp_all
  rename_i ih
  exact ih.trans ((List.drop_suffix _ _).trans ((List.suffix_cons _ _).trans (List.suffix_cons _ _)))

theorem cemi_suffix {m : Mode} {raw : Bytes} {c : Cemi} (h : runRd (Cemi.fromPacket m) id raw = .ok c) : c.serviceInfo <:+ raw := by
  unfold runRd Cemi.fromPacket at h
  match raw with
  | [] => simp [Rd.bind_eval, Rd.u8] at h
  | [_] => simp [Rd.bind_eval, Rd.u8] at h
  | a :: b :: r =>
    simp only [Rd.bind_eval, Rd.u8, Rd.of_eval] at h
    cases hc : cemiInfos m b 0 r with
    | err => rw [hc] at h; cases h
    | panic => rw [hc] at h; cases h
    | ok x =>
      obtain ⟨is, r'⟩ := x
      have := cemiInfos_suffix hc
      rw [hc] at h
      have e : (⟨a, is, r'⟩ : Cemi) = c := by injection h
      subst e
      exact this.trans ((List.suffix_cons _ _).trans (List.suffix_cons _ _))

theorem carries_piece {m : Mode} {d : Bytes} {c : Cemi} (h : Carries m d c) : Piece d c.serviceInfo := by
  obtain ⟨t, h1, h2⟩ := h
  refine Piece.suffix ?_ (cemi_suffix h2)
  have h3 : Piece d (seen d) := (piece_self d).padded 100
  generalize seen d = r at h1 h3
  cases h1 with
  | tunnelingRequest channel seq pad len rest _ _ =>
    refine Piece.padded ?_ _
    exact h3.suffix (List.suffix_append _ _)

/-- What a telegram delivers: the part that follows its first nine bytes, as long as it says, or six bits of the ninth byte. -/
def ValueOf (c : Cemi) (v : Bytes) : Prop :=
  ∃ c1 c2 s1 s2 d1 d2 l a b rest, c.serviceInfo = [c1, c2, s1, s2, d1, d2, l, a, b] ++ rest ∧
    v = if 2 ≤ l.toNat then padded (l.toNat - 1) rest else [byte (b.toNat % 64)]

theorem carries_made {m : Mode} {d : Bytes} {c : Cemi} {v : Bytes} (h : Carries m d c) (hv : ValueOf c v) : MadeOf d v := by
  obtain ⟨c1, c2, s1, s2, d1, d2, l, a, b, rest, h1, rfl⟩ := hv
  have hp := carries_piece h
  rw [h1] at hp
  split
  · exact Or.inl ((hp.suffix (List.suffix_append _ _)).padded _)
  · rcases hp.mem (b := b) (by simp) with hb | rfl
    · exact Or.inr ⟨b, hb, rfl⟩
    · exact Or.inl ⟨[], 1, List.nil_infix, rfl⟩

theorem carries_delivers {m : Mode} {d : Bytes} {c : Cemi} {v w : Bytes} (h : Carries m d c) (hv : ValueOf c v) (hw : Delivers d w) :
    v = w := by
  obtain ⟨hl, ch, seq, res, c', x1, x2, x3, x4, x5, x6, l', a', b', rest', rfl, hi, hs, hn, rfl⟩ := hw
  have hlen : (cemiFrame c').length ≤ 90 := by
    simp [frame, word] at hl
    omega
  have hcut : cut (cemiFrame c') = cemiFrame c' := by
    rw [cut, List.take_of_length_le hlen, Nat.sub_eq_zero_of_le hlen]
    simp
  obtain ⟨t, h1, h2⟩ := h
  have h3 := decodes_request ch seq res (cemiFrame c') (by omega)
  rw [hcut] at h3
  rw [← C21_dispatch_exact] at h1 h3
  rw [h1] at h3
  cases h3
  have h4 : runRd (Cemi.fromPacket m) id (cemiFrame c') = .ok c' := by
    unfold runRd
    rw [C12_cemi_exact m c' hi]
    rfl
  rw [h4] at h2
  cases h2
  obtain ⟨c1, c2, s1, s2, d1, d2, l, a, b, rest, h5, rfl⟩ := hv
  rw [hs] at h5
  simp only [List.cons_append, List.nil_append, List.cons.injEq] at h5
  obtain ⟨-, -, -, -, -, -, rfl, -, rfl, rfl⟩ := h5
  rw [hn]
  by_cases hr : rest' = []
  · simp [hr]
  · have : 1 ≤ rest'.length := List.length_pos_iff.2 hr
    rw [if_pos (by omega), if_neg hr, Nat.add_sub_cancel, padded_eq, List.take_of_length_le (Nat.le_refl _), Nat.sub_self]
    simp

/-- C97, the part that holds: a value returned by a read is made of what one datagram, received and acknowledged, contains, and zeros; and it is the value
that this datagram delivers if it follows the standard and has at most 100 bytes. -/
theorem C97_read_partial {m : Mode} {s s' : Sys} {tr o : List Obs} {e : Ev} {v : Bytes} (h : Exec m s tr)
    (hs : step m s e = some (s', o)) (hv : Obs.ret (.value v) ∈ o) :
    ∃ d ∈ acked (tr ++ o), d ∈ received (tr ++ o) ∧ MadeOf d v ∧ ∀ w, Delivers d w → v = w := by
  obtain ⟨addr, d, c, _, h2, h3, h4, _, c1, c2, s1, s2, d1, d2, l, a, b, rest, h5, _, h6⟩ := C82_partial h hs hv
  have hv : ValueOf c v := ⟨c1, c2, s1, s2, d1, d2, l, a, b, rest, h5, h6⟩
  exact ⟨d, h3, h2, carries_made h4 hv, fun w hw => carries_delivers h4 hv hw⟩

/-- C97, the same for what the monitor shows. -/
theorem C97_monitor_partial {m : Mode} {s : MSys} {tr : List Obs} (h : MExec m s tr) {i : LDataInd} (hi : Ret.ind i ∈ nexts tr) :
    ∃ d ∈ acked tr, d ∈ received tr ∧ MadeOf d i.value ∧ ∀ w, Delivers d w → i.value = w := by
  obtain ⟨front, k, h1, h2, _⟩ := C61_results h
  rw [h1] at hi
  rcases List.mem_append.1 hi with hi | hi
  · obtain ⟨c, hc, hsh⟩ := forall₂_mem h2 hi
    obtain ⟨g1, _, ds, g2, g3, g4⟩ := C43_fifo (.monitor h)
    obtain ⟨d, hd, hcar⟩ := forall₂_mem g4 (g1.subset (List.mem_filter.1 hc).1)
    rcases hsh with ⟨_, h⟩ | ⟨j, c1, c2, s1, s2, d1, d2, l, a, b, rest, h3, h4, _, _, _, h5⟩
    · cases h
    · cases h3
      have hv : ValueOf c i.value := ⟨c1, c2, s1, s2, d1, d2, l, a, b, rest, h4, h5⟩
      exact ⟨d, g2.subset hd, g3.subset (g2.subset hd), carries_made hcar hv, fun w hw => carries_delivers hcar hv hw⟩
  · have := List.eq_of_mem_replicate hi
    cases this

/-- C97 is refuted: while a read waits, a datagram arrives that ends after the bytes `v` of the value but says that the value has `n` bytes
more. The read returns `v` followed by `n` zeros, which nobody sent. -/
theorem C97_violated_short {m : Mode} {s : Sys} {tr : List Obs} {addr : KnxAddress} {dl : Nat} (_h : Exec m s tr)
    (ha : s.api = .reading addr.toU16 dl) (hpc : s.bg.pc = .recv) (hr : s.bg.rxOpen = true) (hq : s.bg.queue = [])
    (ch seq s1 s2 d1 d2 : U8) (v : Bytes) (n : Nat) (hl : v.length ≤ 79) (hn : 1 ≤ v.length + n) (hn' : v.length + n ≤ 254)
    (hd : [d1, d2] = word addr.toU16.toNat) :
    ∃ s' c, PromptRun m s [.rx (frame TUNNELING_REQUEST ([4, ch, seq, 0] ++ ([0x29, 0, 0xbc, 0xe0, s1, s2, d1, d2, byte (v.length + n + 1),
        0, 0x80] ++ v))), .tx .task (frame TUNNELING_ACK [4, ch, seq, 0]), .queued c, .taken 0 c, .ret (.value (v ++ List.replicate n 0))] s' := by
  obtain ⟨s', h1, _⟩ := delivered m s addr.toU16 dl ch seq 0xbc 0xe0 s1 s2 d1 d2 (byte (v.length + n + 1)) 0 0x80 v ha hpc hr hq (by omega) hd
  have e1 : padded v.length (v.take 79) = v := by
    rw [List.take_of_length_le hl, padded_eq, Nat.sub_self, List.take_of_length_le (Nat.le_refl _)]
    simp
  have e2 : (byte (v.length + n + 1)).toNat = v.length + n + 1 := byte_toNat (by omega)
  rw [e1, e2, if_pos (by omega), Nat.add_sub_cancel, padded_eq, List.take_of_length_le (by omega), Nat.add_sub_cancel_left] at h1
  exact ⟨s', _, h1⟩

/-- C97 is refuted even for datagrams in which all lengths are right: of a value `v` of more than 79 bytes the read returns the first 79 bytes and zeros. -/
theorem C97_violated_long {m : Mode} {s : Sys} {tr : List Obs} {addr : KnxAddress} {dl : Nat} (_h : Exec m s tr)
    (ha : s.api = .reading addr.toU16 dl) (hpc : s.bg.pc = .recv) (hr : s.bg.rxOpen = true) (hq : s.bg.queue = [])
    (ch seq s1 s2 d1 d2 : U8) (v : Bytes) (hn : 79 < v.length) (hn' : v.length ≤ 254) (hd : [d1, d2] = word addr.toU16.toNat) :
    ∃ s' c, PromptRun m s [.rx (frame TUNNELING_REQUEST ([4, ch, seq, 0] ++ ([0x29, 0, 0xbc, 0xe0, s1, s2, d1, d2, byte (v.length + 1),
        0, 0x80] ++ v))), .tx .task (frame TUNNELING_ACK [4, ch, seq, 0]), .queued c, .taken 0 c,
        .ret (.value (v.take 79 ++ List.replicate (v.length - 79) 0))] s' := by
  obtain ⟨s', h1, _⟩ := delivered m s addr.toU16 dl ch seq 0xbc 0xe0 s1 s2 d1 d2 (byte (v.length + 1)) 0 0x80 v ha hpc hr hq (by omega) hd
  have e2 : (byte (v.length + 1)).toNat = v.length + 1 := byte_toNat (by omega)
  have e1 : padded v.length (v.take 79) = v.take 79 ++ List.replicate (v.length - 79) 0 := by
    rw [padded_eq, List.take_take, Nat.min_eq_right (by omega), List.length_take, Nat.min_eq_left (by omega)]
  rw [e1, e2, if_pos (by omega), Nat.add_sub_cancel, padded_eq, List.take_of_length_le (by simp; omega),
    show v.length - (v.take 79 ++ List.replicate (v.length - 79) (0 : U8)).length = 0 by simp; omega, List.replicate_zero, List.append_nil] at h1
  exact ⟨s', _, h1⟩

/-- A read waits for an answer from 1/0/1; one byte arrives, four are returned. -/
example (m : Mode) : ∃ s tr s' c, Exec m s tr ∧ PromptRun m s [.rx [6, 0x10, 4, 0x20, 0, 22, 4, 7, 0, 0, 0x29, 0, 0xbc, 0xe0, 0x11, 2, 8, 1, 5, 0, 0x80, 0x12],
    .tx .task [6, 0x10, 4, 0x21, 0, 10, 4, 7, 0, 0], .queued c, .taken 0 c, .ret (.value [0x12, 0, 0, 0])] s' := by
  obtain ⟨r, tr, dl, h1, h2, h3, h4, h5⟩ := reader7 m
  obtain ⟨s', c, h6⟩ := C97_violated_short h1 h2 h3 h4 h5 7 0 0x11 2 8 1 [0x12] 3 (by decide) (by decide) (by decide) (by decide)
  exact ⟨r, tr, s', c, h1, h6⟩

/-- The hypotheses of the partial theorem are met by the reader that has got a datagram following the standard. -/
example : Delivers [6, 0x10, 4, 0x20, 0, 23, 4, 7, 0, 0, 0x29, 0, 0xbc, 0xe0, 0x11, 2, 8, 1, 3, 0, 0x80, 0x12, 0x34] [0x12, 0x34] ∧
    Delivers [6, 0x10, 4, 0x20, 0, 21, 4, 7, 0, 0, 0x29, 0, 0xbc, 0xe0, 0x11, 2, 8, 1, 1, 0, 0x81] [1] := by
  refine ⟨⟨by decide, 7, 0, 0, ⟨0x29, [], [0xbc, 0xe0, 0x11, 2, 8, 1, 3, 0, 0x80, 0x12, 0x34]⟩, 0xbc, 0xe0, 0x11, 2, 8, 1, 3, 0, 0x80, [0x12, 0x34],
    by decide, by decide, rfl, rfl, rfl⟩, ⟨by decide, 7, 0, 0, ⟨0x29, [], [0xbc, 0xe0, 0x11, 2, 8, 1, 1, 0, 0x81]⟩, 0xbc, 0xe0, 0x11, 2, 8, 1, 1, 0, 0x81, [],
    by decide, by decide, rfl, rfl, by decide⟩⟩

example (m : Mode) : ∃ s s' tr o e d, Exec m s tr ∧ step m s e = some (s', o) ∧ Obs.ret (.value [0x12, 0x34]) ∈ o ∧ received (tr ++ o) = [d] ∧
    d = [6, 0x10, 4, 0x20, 0, 23, 4, 7, 0, 0, 0x29, 0, 0xbc, 0xe0, 0x11, 2, 8, 1, 3, 0, 0x80, 0x12, 0x34] := by
  obtain ⟨s, tr, h1, h2⟩ := exec_of_evs (m := m) (evs := [.bg .run, .bg .sendOk, .bg (.dgram grant7), .bg .run,
      .api (.call (.read (.group3 ⟨1, 0, 1⟩))), .api .run, .api .run, .api .sendOk,
      .bg (.dgram [6, 0x10, 4, 0x20, 0, 23, 4, 7, 0, 0, 0x29, 0, 0xbc, 0xe0, 0x11, 2, 8, 1, 3, 0, 0x80, 0x12, 0x34]), .bg .sendOk, .bg .run])
    (f := fun x => ((step m x.1 (.api .run)).map fun (y : Sys × List Obs) => (decide (Obs.ret (.value [0x12, 0x34]) ∈ y.2), received (x.2 ++ y.2))))
    (y := some (true, [[6, 0x10, 4, 0x20, 0, 23, 4, 7, 0, 0, 0x29, 0, 0xbc, 0xe0, 0x11, 2, 8, 1, 3, 0, 0x80, 0x12, 0x34]]))
    (by cases m <;> decide +kernel)
  simp only [Option.map_eq_some_iff, Prod.mk.injEq, decide_eq_true_eq] at h2
  obtain ⟨⟨s', o⟩, h3, h4, h5⟩ := h2
  exact ⟨s, s', tr, o, _, _, h1, h3, h4, h5, rfl⟩

end Knx
