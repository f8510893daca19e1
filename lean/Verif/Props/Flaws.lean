import Verif.Lemmas.Texts
import Verif.Spec.Flaws
import Verif.Props.Addresses

/-!
# What the messages about rejected addresses say (C113)
-/

namespace Knx

open Spec

/-! ## Numbers -/

/-- The error of the standard library for a reason. -/
def errOf : Reason → IntErr
  | .nothing => .empty
  | .character => .invalidDigit
  | .large => .posOverflow

theorem isDigit_iff (c : Char) : c.isDigit = true ↔ '0' ≤ c ∧ c ≤ '9' := by
  simp only [Char.isDigit, Bool.and_eq_true, decide_eq_true_eq, Char.le_def]

theorem digitVal_isDigit {c : Char} (h : c.isDigit = true) : digitVal c = some (c.toNat - 48) := by
  unfold digitVal
  rw [if_pos ((isDigit_iff c).1 h)]
  rfl

theorem digitVal_not {c : Char} (h : c.isDigit = false) : digitVal c = none := by
  unfold digitVal
  rw [if_neg (by rw [← isDigit_iff, h]; simp)]

/-- The number that the digits `ds` denote after digits that denote `acc`. -/
def digitsFrom (acc : Nat) (ds : List Char) : Nat := ds.foldl (fun a c => 10 * a + (c.toNat - 48)) acc

theorem digitsFrom_ge (acc : Nat) (ds : List Char) : acc ≤ digitsFrom acc ds := by
  induction ds generalizing acc with
  | nil => exact Nat.le_refl _
  | cons c ds ih => exact Nat.le_trans (by omega) (ih (10 * acc + (c.toNat - 48)))

theorem parseDigitsT_error {max acc : Nat} {cs : List Char} {e : IntErr} (h : parseDigitsT max acc cs = .error e) (ha : acc ≤ max) :
    e = if max < digitsFrom acc (cs.takeWhile Char.isDigit) then .posOverflow else .invalidDigit := by
  induction cs generalizing acc with
  | nil => cases h
  | cons c cs ih =>
    cases hd : c.isDigit with
    | false =>
      simp only [parseDigitsT, digitVal_not hd, Except.error.injEq] at h
      subst h
      rw [List.takeWhile_cons_of_neg (by simp [hd]), if_neg (by simp only [digitsFrom, List.foldl_nil]; omega)]
    | true =>
      simp only [parseDigitsT, digitVal_isDigit hd] at h
      rw [List.takeWhile_cons_of_pos hd]
      show e = if max < digitsFrom (10 * acc + (c.toNat - 48)) (cs.takeWhile Char.isDigit) then _ else _
      rw [Nat.mul_comm acc 10] at h
      split at h
      · exact ih h ‹_›
      · rename_i hx
        cases h
        have := digitsFrom_ge (10 * acc + (c.toNat - 48)) (cs.takeWhile Char.isDigit)
        rw [if_pos (by omega)]

theorem parseUIntT_error {max : Nat} {s : List Char} {e : IntErr} (h : parseUIntT max s = .error e) : e = errOf (reason max s) := by
  have key : ∀ t, parseDigitsT max 0 t = .error e → e = errOf (if max < digitsNum (t.takeWhile Char.isDigit) then .large else .character) := by
    intro t ht
    have := parseDigitsT_error ht (Nat.zero_le _)
    rw [this]
    show (if max < digitsNum _ then _ else _) = _
    split <;> rfl
  unfold parseUIntT at h
  split at h
  · cases h; rfl
  · cases h
    have : reason max ['+'] = .character := by
      simp [reason, digitsNum]
    rw [this]; rfl
  · rename_i cs _
    have := key cs h
    simpa [reason] using this
  · rename_i h0 h1 h2
    have := key s h
    have hp : s.head? ≠ some '+' := by
      cases s with
      | nil => simp
      | cons c cs =>
        intro hc
        simp only [List.head?_cons, Option.some.injEq] at hc
        subst hc
        exact h2 cs rfl
    have hn : s ≠ [] := fun hs => h0 hs
    simpa [reason, hp, hn] using this

theorem fits_iff {max : Nat} {s : List Char} : Fits max s ↔ ∃ n, parseUIntT max s = .ok n := by
  have h := parseUIntT_toOption max s
  constructor
  · rintro ⟨n, hn⟩
    rw [parseUInt_iff.2 hn] at h
    cases hp : parseUIntT max s with
    | error e => rw [hp] at h; cases h
    | ok n => exact ⟨n, rfl⟩
  · rintro ⟨n, hn⟩
    rw [hn] at h
    exact ⟨n, parseUInt_iff.1 h.symm⟩

theorem not_fits {max : Nat} {s : List Char} (h : ¬ Fits max s) : parseUIntT max s = .error (errOf (reason max s)) := by
  cases hp : parseUIntT max s with
  | ok n => exact absurd (fits_iff.2 ⟨n, hp⟩) h
  | error e => rw [parseUIntT_error hp]

theorem part_fits {s : List Char} (h : Fits 255 s) (f : IntErr → Text) : ∃ v, partU8 s f = .ok v := by
  obtain ⟨n, hn⟩ := fits_iff.1 h
  exact ⟨_, by unfold partU8; rw [hn]⟩

theorem part_not {s : List Char} (h : ¬ Fits 255 s) (f : IntErr → Text) : partU8 s f = .err (f (errOf (reason 255 s))) := by
  unfold partU8
  rw [not_fits h]

theorem Spec.Fits.no_dot {max : Nat} {s : List Char} (h : Fits max s) : '.' ∉ s := h.choose_spec.1.no_dot

theorem Spec.Fits.no_slash {max : Nat} {s : List Char} (h : Fits max s) : '/' ∉ s := h.choose_spec.1.no_slash

/-! ## Parts -/

theorem splitOn_length (c : Char) (s : List Char) : (splitOn c s).length = s.count c + 1 := by
  induction s with
  | nil => rfl
  | cons x xs ih =>
    simp only [splitOn, List.count_cons]
    split
    · rename_i h; subst h; simp [ih]
    · rename_i h
      have hn := splitOn_ne_nil c xs
      cases hx : splitOn c xs with
      | nil => exact absurd hx hn
      | cons p ps =>
        rw [hx] at ih
        simp only [List.length_cons] at ih ⊢
        simp [h]
        omega

theorem split3 {c : Char} {p q r : List Char} (hp : c ∉ p) (hq : c ∉ q) (hr : c ∉ r) : splitOn c (p ++ [c] ++ q ++ [c] ++ r) = [p, q, r] := by
  have : p ++ [c] ++ q ++ [c] ++ r = p ++ c :: (q ++ c :: r) := by simp
  rw [this, splitOn_append hp, splitOn_append hq, splitOn_no_sep hr]

theorem split2 {c : Char} {p q : List Char} (hp : c ∉ p) (hq : c ∉ q) : splitOn c (p ++ [c] ++ q) = [p, q] := by
  have : p ++ [c] ++ q = p ++ c :: q := by simp
  rw [this, splitOn_append hp, splitOn_no_sep hq]

/-! ## The messages -/

/-- The name of a place. -/
def placeName : Place → String
  | .area => "area"
  | .line => "line"
  | .device => "address"

/-- The name of a place in a group address. -/
def gplaceName : GPlace → String
  | .main => "main"
  | .middle => "mid"
  | .sub => "sub"

/-- What the library says of a flaw. -/
def said (x : StdText) : Flaw → Text
  | .shape s =>
    if '.' ∈ s then "Individial address should be in the format area.line.address instead of ".toList ++ x.quoted s
    else "Unable to parse group address ".toList ++ x.quoted s ++ ", parts should be 1 to 3".toList
  | .individual p a => indText x (placeName p) a (errOf (reason 255 a))
  | .only a => "Unable to parse main address ".toList ++ a ++ " ".toList ++ (errOf (reason 65535 a)).debug
  | .group p a => groupText (gplaceName p) (errOf (reason 255 a))

theorem said_dots {x : StdText} {s : List Char} (h : '.' ∈ s) :
    said x (.shape s) = "Individial address should be in the format area.line.address instead of ".toList ++ x.quoted s := if_pos h

theorem said_slashes {x : StdText} {s : List Char} (h : '.' ∉ s) :
    said x (.shape s) = "Unable to parse group address ".toList ++ x.quoted s ++ ", parts should be 1 to 3".toList := if_neg h

theorem says_ind {x : StdText} {s : List Char} (h : '.' ∈ s) {t : Text} (ht : IndAddr.parseT x s = .err t) : KnxAddress.parseT x s = .err t := by
  unfold KnxAddress.parseT
  rw [if_pos (by simpa using h), ht]

theorem says_group {s : List Char} (h : '.' ∉ s) : s.contains '.' = false := by simpa using h

theorem flawed_says (x : StdText) {s : List Char} {f : Flaw} (h : Flawed s f) : KnxAddress.parseT x s = .err (said x f) := by
  cases h with
  | dots _ h1 h2 =>
    refine says_ind h1 ?_
    unfold IndAddr.parseT
    rw [said_dots h1]
    have hl := splitOn_length '.' s
    generalize splitOn '.' s = l at hl
    match l with
    | [] | [_] | [_, _] | _ :: _ :: _ :: _ :: _ => rfl
    | [_, _, _] => simp at hl; omega
  | area a b c h1 h2 h3 h4 =>
    refine says_ind (by simp) ?_
    unfold IndAddr.parseT
    rw [split3 h1 h2 h3]
    simp only [part_not h4]
    rfl
  | line a b c h2 h3 h4 h5 =>
    refine says_ind (by simp) ?_
    unfold IndAddr.parseT
    rw [split3 h4.no_dot h2 h3]
    obtain ⟨v, hv⟩ := part_fits h4 (indText x "area" a)
    simp only [part_not h5, hv]
    rfl
  | device a b c h3 h4 h5 h6 =>
    refine says_ind (by simp) ?_
    unfold IndAddr.parseT
    rw [split3 h4.no_dot h5.no_dot h3]
    obtain ⟨v, hv⟩ := part_fits h4 (indText x "area" a)
    obtain ⟨w, hw⟩ := part_fits h5 (indText x "line" b)
    simp only [part_not h6, hv, hw]
    rfl
  | slashes _ h1 h2 =>
    unfold KnxAddress.parseT
    rw [says_group h1, said_slashes h1]
    have hl := splitOn_length '/' s
    simp only [Bool.false_eq_true, if_false]
    generalize splitOn '/' s = l at hl
    match l with
    | [] => simp at hl
    | _ :: _ :: _ :: _ :: _ => rfl
    | [_] | [_, _] | [_, _, _] => simp at hl; omega
  | only _ h1 h2 h3 =>
    unfold KnxAddress.parseT
    rw [says_group h1, splitOn_no_sep h2]
    simp only [Bool.false_eq_true, if_false, not_fits h3]
    rfl
  | main2 a b h1 h2 h3 h4 h5 =>
    unfold KnxAddress.parseT
    rw [says_group (by simp [h1, h3]), split2 h2 h4]
    simp only [Bool.false_eq_true, if_false, part_not h5]
    rfl
  | sub2 a b h3 h4 h5 h6 =>
    unfold KnxAddress.parseT
    rw [says_group (by simp [h5.no_dot, h3]), split2 h5.no_slash h4]
    obtain ⟨v, hv⟩ := part_fits h5 (groupText "main")
    simp only [Bool.false_eq_true, if_false, part_not h6, hv]
    rfl
  | main3 a b c h1 h2 h3 h4 h5 h6 h7 =>
    unfold KnxAddress.parseT
    rw [says_group (by simp [h1, h3, h5]), split3 h2 h4 h6]
    simp only [Bool.false_eq_true, if_false, part_not h7]
    rfl
  | middle3 a b c h3 h4 h5 h6 h7 h8 =>
    unfold KnxAddress.parseT
    rw [says_group (by simp [h7.no_dot, h3, h5]), split3 h7.no_slash h4 h6]
    obtain ⟨v, hv⟩ := part_fits h7 (groupText "main")
    simp only [Bool.false_eq_true, if_false, part_not h8, hv]
    rfl
  | sub3 a b c h5 h6 h7 h8 h9 =>
    unfold KnxAddress.parseT
    rw [says_group (by simp [h7.no_dot, h8.no_dot, h5]), split3 h7.no_slash h8.no_slash h6]
    obtain ⟨v, hv⟩ := part_fits h7 (groupText "main")
    obtain ⟨w, hw⟩ := part_fits h8 (groupText "mid")
    simp only [Bool.false_eq_true, if_false, part_not h9, hv, hw]
    rfl

theorem Spec.Fits.u8 {s : List Char} (h : Fits 255 s) : ∃ x : U8, Numeral s x.toNat := by
  obtain ⟨n, h1, h2⟩ := h
  exact ⟨BitVec.ofNat 8 n, by rwa [BitVec.toNat_ofNat, Nat.mod_eq_of_lt (by omega)]⟩

theorem Spec.Fits.u16 {s : List Char} (h : Fits 65535 s) : ∃ x : U16, Numeral s x.toNat := by
  obtain ⟨n, h1, h2⟩ := h
  exact ⟨BitVec.ofNat 16 n, by rwa [BitVec.toNat_ofNat, Nat.mod_eq_of_lt (by omega)]⟩

theorem accepted {s : List Char} {a : KnxAddress} {P : Prop} (h : AddrText s a) (hr : KnxAddress.parse s = .err) : P := by
  rw [(C05_parser_exact.1 s a).2 h] at hr
  cases hr

/-- Whatever is rejected has a flaw. -/
theorem rejected_flawed {s : List Char} (h : KnxAddress.parse s = .err) : ∃ f, Flawed s f := by
  classical
  by_cases hd : '.' ∈ s
  · by_cases hc : s.count '.' = 2
    · obtain ⟨p, q, r, hs⟩ : ∃ p q r, splitOn '.' s = [p, q, r] := by
        have hl := splitOn_length '.' s
        rw [hc] at hl
        match hs : splitOn '.' s with
        | [p, q, r] => exact ⟨p, q, r, rfl⟩
        | [] | [_] | [_, _] | _ :: _ :: _ :: _ :: _ => rw [hs] at hl; simp at hl
      obtain ⟨h1, h2, h3, rfl⟩ := splitOn_three hs
      by_cases f1 : Fits 255 p
      · by_cases f2 : Fits 255 q
        · by_cases f3 : Fits 255 r
          · obtain ⟨x, hx⟩ := f1.u8
            obtain ⟨y, hy⟩ := f2.u8
            obtain ⟨z, hz⟩ := f3.u8
            exact accepted (.individual _ _ _ ⟨x, y, z⟩ hx hy hz) h
          · exact ⟨_, .device _ _ _ h3 f1 f2 f3⟩
        · exact ⟨_, .line _ _ _ h2 h3 f1 f2⟩
      · exact ⟨_, .area _ _ _ h1 h2 h3 f1⟩
    · exact ⟨_, .dots s hd hc⟩
  · match hs : splitOn '/' s with
    | [] => exact absurd hs (splitOn_ne_nil _ _)
    | [p] => 
      obtain ⟨h1, rfl⟩ := splitOn_one hs
      by_cases f1 : Fits 65535 s
      · obtain ⟨x, hx⟩ := f1.u16
        exact accepted (.group1 _ ⟨x⟩ hx) h
      · exact ⟨_, .only _ hd h1 f1⟩
    | [p, q] =>
      obtain ⟨h1, h2, rfl⟩ := splitOn_two hs
      simp only [List.mem_append, not_or] at hd
      by_cases f1 : Fits 255 p
      · by_cases f2 : Fits 255 q
        · obtain ⟨x, hx⟩ := f1.u8
          obtain ⟨y, hy⟩ := f2.u8
          exact accepted (.group2 _ _ ⟨x, y⟩ hx hy) h
        · exact ⟨_, .sub2 _ _ hd.2 h2 f1 f2⟩
      · exact ⟨_, .main2 _ _ hd.1.1 h1 hd.2 h2 f1⟩
    | [p, q, r] =>
      obtain ⟨h1, h2, h3, rfl⟩ := splitOn_three hs
      simp only [List.mem_append, not_or] at hd
      by_cases f1 : Fits 255 p
      · by_cases f2 : Fits 255 q
        · by_cases f3 : Fits 255 r
          · obtain ⟨x, hx⟩ := f1.u8
            obtain ⟨y, hy⟩ := f2.u8
            obtain ⟨z, hz⟩ := f3.u8
            exact accepted (.group3 _ _ _ ⟨x, y, z⟩ hx hy hz) h
          · exact ⟨_, .sub3 _ _ _ hd.2 h3 f1 f2 f3⟩
        · exact ⟨_, .middle3 _ _ _ hd.1.1.2 h2 hd.2 h3 f1 f2⟩
      · exact ⟨_, .main3 _ _ _ hd.1.1.1.1 h1 hd.1.1.2 h2 hd.2 h3 f1⟩
    | _ :: _ :: _ :: _ :: _ =>
      have hl := splitOn_length '/' s
      rw [hs] at hl
      exact ⟨_, .slashes s hd (by simp at hl; omega)⟩

theorem says_flawed {x : StdText} {s : List Char} {t : Text} (h : KnxAddress.parseT x s = .err t) : ∃ f, Flawed s f ∧ t = said x f := by
  have h1 : KnxAddress.parse s = .err := by rw [← KnxAddress.parseT_erase x, h]; rfl
  obtain ⟨f, hf⟩ := rejected_flawed h1
  have := flawed_says x hf
  rw [h] at this
  cases this
  exact ⟨f, hf, rfl⟩

/-! ## Telling the messages apart -/

theorem errOf_inj {r r' : Reason} (h : errOf r = errOf r') : r = r' := by
  cases r <;> cases r' <;> first | rfl | cases h

theorem debug_ends : ∀ e : IntErr, 4 ≤ e.debug.reverse.length := by
  intro e; cases e <;> decide +kernel

theorem debug_tells : ∀ e e' : IntErr, e.debug.reverse.take 4 = e'.debug.reverse.take 4 → e = e' := by
  intro e e'; cases e <;> cases e' <;> decide +kernel

theorem suffix_inj {l l' : Text} {e e' : IntErr} (h : l ++ e.debug = l' ++ e'.debug) : l = l' ∧ e = e' := by
  have h1 : (l ++ e.debug).reverse.take 4 = (l' ++ e'.debug).reverse.take 4 := by rw [h]
  rw [List.reverse_append, List.reverse_append, List.take_append_of_le_length (debug_ends e), List.take_append_of_le_length (debug_ends e')] at h1
  have := debug_tells _ _ h1
  subst this
  exact ⟨List.append_cancel_right h, rfl⟩

/-- A number for each kind of message. -/
def flawTag : Flaw → Fin 8
  | .shape s => if '.' ∈ s then 0 else 1
  | .individual .area _ => 2
  | .individual .line _ => 3
  | .individual .device _ => 4
  | .only _ => 5
  | .group .main _ => 5
  | .group .middle _ => 6
  | .group .sub _ => 7

/-- The first characters of the messages. -/
def flawOpening (i : Fin 8) : Text :=
  match i.val with
  | 0 => "Individial address sh".toList
  | 1 => "Unable to parse group".toList
  | 2 => "Unable to parse area ".toList
  | 3 => "Unable to parse line ".toList
  | 4 => "Unable to parse addre".toList
  | 5 => "Unable to parse main ".toList
  | 6 => "Unable to parse mid a".toList
  | _ => "Unable to parse sub a".toList

theorem flawOpening_inj : ∀ i j, flawOpening i = flawOpening j → i = j := by decide +kernel

theorem opens21 {l r : Text} {i : Fin 8} (h : (decide (21 ≤ l.length) && decide (l.take 21 = flawOpening i)) = true) :
    (l ++ r).take 21 = flawOpening i := by
  simp only [Bool.and_eq_true, decide_eq_true_eq] at h
  rw [List.take_append_of_le_length h.1]
  exact h.2

theorem said_opens (x : StdText) (f : Flaw) : (said x f).take 21 = flawOpening (flawTag f) := by
  cases f with
  | shape s =>
    by_cases h : '.' ∈ s
    · rw [said_dots h, show flawTag (.shape s) = 0 from if_pos h]
      exact opens21 (by decide +kernel)
    · rw [said_slashes h, show flawTag (.shape s) = 1 from if_neg h, List.append_assoc]
      exact opens21 (by decide +kernel)
  | individual p a =>
    show (indText x (placeName p) a (errOf (reason 255 a))).take 21 = _
    unfold indText
    rw [List.append_assoc, List.append_assoc]
    cases p
    · show _ = flawOpening 2
      exact opens21 (by decide +kernel)
    · show _ = flawOpening 3
      exact opens21 (by decide +kernel)
    · show _ = flawOpening 4
      exact opens21 (by decide +kernel)
  | only a =>
    show List.take 21 ("Unable to parse main address ".toList ++ a ++ " ".toList ++ (errOf (reason 65535 a)).debug) = flawOpening 5
    rw [List.append_assoc, List.append_assoc]
    exact opens21 (by decide +kernel)
  | group p a =>
    show (groupText (gplaceName p) (errOf (reason 255 a))).take 21 = _
    unfold groupText
    cases p
    · show _ = flawOpening 5
      exact opens21 (by decide +kernel)
    · show _ = flawOpening 6
      exact opens21 (by decide +kernel)
    · show _ = flawOpening 7
      exact opens21 (by decide +kernel)

theorem only_not_main {x : StdText} {a b : List Char} (h : said x (.only a) = said x (.group .main b)) : False := by
  have h1 : ("Unable to parse main address ".toList ++ a ++ " ".toList) ++ (errOf (reason 65535 a)).debug =
      ("Unable to parse ".toList ++ "main".toList ++ " address ".toList) ++ (errOf (reason 255 b)).debug := h
  have h2 := congrArg List.length (suffix_inj h1).1
  simp only [List.length_append] at h2
  have e1 : "Unable to parse main address ".toList.length = 29 := by decide +kernel
  have e2 : " ".toList.length = 1 := by decide +kernel
  have e3 : "Unable to parse ".toList.length = 16 := by decide +kernel
  have e4 : "main".toList.length = 4 := by decide +kernel
  have e5 : " address ".toList.length = 9 := by decide +kernel
  omega

theorem ind_same {x : StdText} (hx : ∀ u v, x.quoted u = x.quoted v → u = v) {p : Place} {a b : List Char}
    (h : said x (.individual p a) = said x (.individual p b)) : a = b := by
  have h1 : ("Unable to parse ".toList ++ (placeName p).toList ++ " value Some(".toList ++ x.quoted a ++ "), error ".toList) ++ (errOf (reason 255 a)).debug =
      ("Unable to parse ".toList ++ (placeName p).toList ++ " value Some(".toList ++ x.quoted b ++ "), error ".toList) ++ (errOf (reason 255 b)).debug := h
  have h2 := (suffix_inj h1).1
  exact hx _ _ (List.append_cancel_left (List.append_cancel_right h2))

theorem group_same {x : StdText} {p : GPlace} {a b : List Char} :
    said x (.group p a) = said x (.group p b) ↔ reason 255 a = reason 255 b := by
  constructor
  · intro h
    have h1 : ("Unable to parse ".toList ++ (gplaceName p).toList ++ " address ".toList) ++ (errOf (reason 255 a)).debug =
        ("Unable to parse ".toList ++ (gplaceName p).toList ++ " address ".toList) ++ (errOf (reason 255 b)).debug := h
    exact errOf_inj (suffix_inj h1).2
  · intro h
    show groupText _ _ = groupText _ _
    rw [h]

theorem said_iff {x : StdText} (hx : ∀ u v, x.quoted u = x.quoted v → u = v) (f g : Flaw) : said x f = said x g ↔ f.alike g := by
  constructor
  · intro h
    have ht : flawTag f = flawTag g := flawOpening_inj _ _ (by rw [← said_opens x, ← said_opens x, h])
    cases f with
    | shape s =>
      cases g with
      | shape s' =>
        show Flaw.shape s = Flaw.shape s'
        by_cases h1 : '.' ∈ s <;> by_cases h2 : '.' ∈ s' <;> simp only [flawTag, h1, h2, if_true, if_false] at ht
        · rw [said_dots h1, said_dots h2] at h
          rw [hx _ _ (List.append_cancel_left h)]
        · exact absurd ht (by decide)
        · exact absurd ht (by decide)
        · rw [said_slashes h1, said_slashes h2] at h
          rw [hx _ _ (List.append_cancel_left (List.append_cancel_right h))]
      | individual p a => by_cases h1 : '.' ∈ s <;> cases p <;> simp only [flawTag, h1, if_true, if_false] at ht <;> exact absurd ht (by decide)
      | only a => by_cases h1 : '.' ∈ s <;> simp only [flawTag, h1, if_true, if_false] at ht <;> exact absurd ht (by decide)
      | group p a => by_cases h1 : '.' ∈ s <;> cases p <;> simp only [flawTag, h1, if_true, if_false] at ht <;> exact absurd ht (by decide)
    | individual p a =>
      cases g with
      | shape s => by_cases h1 : '.' ∈ s <;> cases p <;> simp only [flawTag, h1, if_true, if_false] at ht <;> exact absurd ht (by decide)
      | individual q b =>
        have hp : p = q := by cases p <;> cases q <;> first | rfl | simp [flawTag] at ht
        subst hp
        show Flaw.individual p a = Flaw.individual p b
        rw [ind_same hx h]
      | only b => cases p <;> simp [flawTag] at ht
      | group q b => cases p <;> cases q <;> simp [flawTag] at ht
    | only a =>
      cases g with
      | shape s => by_cases h1 : '.' ∈ s <;> simp only [flawTag, h1, if_true, if_false] at ht <;> exact absurd ht (by decide)
      | individual q b => cases q <;> simp [flawTag] at ht
      | only b =>
        have h1 : ("Unable to parse main address ".toList ++ a ++ " ".toList) ++ (errOf (reason 65535 a)).debug =
            ("Unable to parse main address ".toList ++ b ++ " ".toList) ++ (errOf (reason 65535 b)).debug := h
        show Flaw.only a = Flaw.only b
        rw [List.append_cancel_left (List.append_cancel_right (suffix_inj h1).1)]
      | group q b =>
        cases q
        · exact (only_not_main h).elim
        · simp [flawTag] at ht
        · simp [flawTag] at ht
    | group p a =>
      cases g with
      | shape s => by_cases h1 : '.' ∈ s <;> cases p <;> simp only [flawTag, h1, if_true, if_false] at ht <;> exact absurd ht (by decide)
      | individual q b => cases p <;> cases q <;> simp [flawTag] at ht
      | only b =>
        cases p
        · exact (only_not_main h.symm).elim
        · simp [flawTag] at ht
        · simp [flawTag] at ht
      | group q b =>
        have hp : p = q := by cases p <;> cases q <;> first | rfl | simp [flawTag] at ht
        subst hp
        exact ⟨rfl, group_same.1 h⟩
  · intro h
    cases f <;> cases g <;> first | (obtain ⟨rfl, h⟩ := h; exact group_same.2 h) | (cases (show _ = _ from h) <;> rfl)

open Classical in
/-- The flaw, computed. -/
noncomputable def flawOf (s : List Char) : Option Flaw :=
  if '.' ∈ s then
    match splitOn '.' s with
    | [a, b, c] => if ¬ Fits 255 a then some (.individual .area a) else if ¬ Fits 255 b then some (.individual .line b) else some (.individual .device c)
    | _ => some (.shape s)
  else
    match splitOn '/' s with
    | [a] => some (.only a)
    | [a, b] => if ¬ Fits 255 a then some (.group .main a) else some (.group .sub b)
    | [a, b, c] => if ¬ Fits 255 a then some (.group .main a) else if ¬ Fits 255 b then some (.group .middle b) else some (.group .sub c)
    | _ => some (.shape s)

theorem flawed_of {s : List Char} {f : Flaw} (h : Flawed s f) : flawOf s = some f := by
  unfold flawOf
  cases h with
  | dots _ h1 h2 =>
    rw [if_pos h1]
    have hl := splitOn_length '.' s
    generalize splitOn '.' s = l at hl
    match l with
    | [] | [_] | [_, _] | _ :: _ :: _ :: _ :: _ => rfl
    | [_, _, _] => simp at hl; omega
  | area a b c h1 h2 h3 h4 => rw [if_pos (by simp), split3 h1 h2 h3]; simp [h4]
  | line a b c h2 h3 h4 h5 => rw [if_pos (by simp), split3 h4.no_dot h2 h3]; simp [h4, h5]
  | device a b c h3 h4 h5 h6 => rw [if_pos (by simp), split3 h4.no_dot h5.no_dot h3]; simp [h4, h5]
  | slashes _ h1 h2 =>
    rw [if_neg h1]
    have hl := splitOn_length '/' s
    generalize splitOn '/' s = l at hl
    match l with
    | [] => simp at hl
    | _ :: _ :: _ :: _ :: _ => rfl
    | [_] | [_, _] | [_, _, _] => simp at hl; omega
  | only _ h1 h2 h3 => rw [if_neg h1, splitOn_no_sep h2]
  | main2 a b h1 h2 h3 h4 h5 => rw [if_neg (by simp [h1, h3]), split2 h2 h4]; simp [h5]
  | sub2 a b h3 h4 h5 h6 => rw [if_neg (by simp [h5.no_dot, h3]), split2 h5.no_slash h4]; simp [h5]
  | main3 a b c h1 h2 h3 h4 h5 h6 h7 => rw [if_neg (by simp [h1, h3, h5]), split3 h2 h4 h6]; simp [h7]
  | middle3 a b c h3 h4 h5 h6 h7 h8 => rw [if_neg (by simp [h7.no_dot, h3, h5]), split3 h7.no_slash h4 h6]; simp [h7, h8]
  | sub3 a b c h5 h6 h7 h8 h9 => rw [if_neg (by simp [h7.no_dot, h8.no_dot, h5]), split3 h7.no_slash h8.no_slash h6]; simp [h7, h8]

/-- C113: a text is rejected as an address iff something is wrong with it, and what is wrong first is unique. -/
theorem C113_flaw (x : StdText) (s : List Char) :
    ((∃ t, KnxAddress.parseT x s = .err t) ↔ ∃ f, Flawed s f) ∧ (∀ f g, Flawed s f → Flawed s g → f = g) := by
  refine ⟨⟨?_, ?_⟩, ?_⟩
  · rintro ⟨t, h⟩
    obtain ⟨f, hf, -⟩ := says_flawed h
    exact ⟨f, hf⟩
  · rintro ⟨f, h⟩
    exact ⟨_, flawed_says x h⟩
  · intro f g hf hg
    exact Option.some.inj ((flawed_of hf).symm.trans (flawed_of hg))

/-- C113: two texts are rejected with the same message iff what is wrong with them is the same, or is at the same place of group addresses of two or
three parts, for the same reason. -/
theorem C113_iff (x : StdText) (hx : ∀ u v, x.quoted u = x.quoted v → u = v) (s s' : List Char) (t t' : Text) (f f' : Flaw)
    (h : KnxAddress.parseT x s = .err t) (h' : KnxAddress.parseT x s' = .err t') (hf : Flawed s f) (hf' : Flawed s' f') :
    t = t' ↔ f.alike f' := by
  rw [flawed_says x hf] at h
  rw [flawed_says x hf'] at h'
  cases h
  cases h'
  exact said_iff hx f f'

/-- C113, partial (refuted for the parts of group addresses of two and three parts): otherwise, the message quotes the part that is wrong (or the
whole text, if the number of parts is wrong), and no text with another flaw is rejected with it. -/
theorem C113_partial (x : StdText) (hx : ∀ u v, x.quoted u = x.quoted v → u = v) (s : List Char) (t : Text) (f : Flaw)
    (h : KnxAddress.parseT x s = .err t) (hf : Flawed s f) (hg : ∀ p a, f ≠ .group p a) :
    (∃ l r, t = l ++ f.quoted x.quoted ++ r) ∧ ∀ s', KnxAddress.parseT x s' = .err t → Flawed s' f := by
  rw [flawed_says x hf] at h
  cases h
  constructor
  · cases f with
    | shape s =>
      show ∃ l r, said x (.shape s) = l ++ x.quoted s ++ r
      by_cases h1 : '.' ∈ s
      · exact ⟨_, [], by rw [said_dots h1, List.append_nil]⟩
      · exact ⟨_, _, said_slashes h1⟩
    | individual p a =>
      show ∃ l r, said x (.individual p a) = l ++ x.quoted a ++ r
      have h1 : said x (.individual p a) =
        "Unable to parse ".toList ++ (placeName p).toList ++ " value Some(".toList ++ x.quoted a ++ "), error ".toList ++ (errOf (reason 255 a)).debug := rfl
      exact ⟨_, _, h1.trans (List.append_assoc _ _ _)⟩
    | only a =>
      show ∃ l r, said x (.only a) = l ++ a ++ r
      have h1 : said x (.only a) = "Unable to parse main address ".toList ++ a ++ " ".toList ++ (errOf (reason 65535 a)).debug := rfl
      exact ⟨_, _, h1.trans (List.append_assoc _ _ _)⟩
    | group p a => exact absurd rfl (hg p a)
  · intro s' h'
    obtain ⟨g, hg1, hg2⟩ := says_flawed h'
    have ha := (said_iff hx f g).1 hg2
    cases f with
    | group p a => exact absurd rfl (hg p a)
    | shape s => cases g <;> cases (show _ = _ from ha) <;> exact hg1
    | individual p a => cases g <;> cases (show _ = _ from ha) <;> exact hg1
    | only a => cases g <;> cases (show _ = _ from ha) <;> exact hg1

theorem one_fits : Fits 255 ['1'] := fits_iff.2 ⟨1, by decide +kernel⟩

theorem no_numeral {s : List Char} (h : parseUIntT 255 s = .error .invalidDigit) : ¬ Fits 255 s := by
  intro hf
  obtain ⟨n, hn⟩ := fits_iff.1 hf
  rw [hn] at h
  cases h

/-- C113 is violated: whatever is written in place of the sub-group, the message is the same; and it does not tell whether the address has two or
three parts. -/
theorem C113_violated (x : StdText) :
    ∃ s s' s'' t, KnxAddress.parseT x s = .err t ∧ KnxAddress.parseT x s' = .err t ∧ KnxAddress.parseT x s'' = .err t ∧
      Flawed s (.group .sub ['x']) ∧ Flawed s' (.group .sub ['y', '2']) ∧ Flawed s'' (.group .sub ['z']) := by
  have h1 : Flawed "1/x".toList (.group .sub ['x']) :=
    .sub2 ['1'] ['x'] (by decide) (by decide) one_fits (no_numeral (by decide +kernel))
  have h2 : Flawed "1/y2".toList (.group .sub ['y', '2']) :=
    .sub2 ['1'] ['y', '2'] (by decide) (by decide) one_fits (no_numeral (by decide +kernel))
  have h3 : Flawed "1/1/z".toList (.group .sub ['z']) :=
    .sub3 ['1'] ['1'] ['z'] (by decide) (by decide) one_fits one_fits (no_numeral (by decide +kernel))
  refine ⟨_, _, _, _, flawed_says x h1, ?_, ?_, h1, h2, h3⟩
  · rw [flawed_says x h2, group_same.2 (show reason 255 ['y', '2'] = reason 255 ['x'] by decide +kernel)]
  · rw [flawed_says x h3, group_same.2 (show reason 255 ['z'] = reason 255 ['x'] by decide +kernel)]

/-- Non-vacuity: of `1.300.7` the message says that the line is too large. -/
example (x : StdText) : Flawed "1.300.7".toList (.individual .line "300".toList) ∧ reason 255 "300".toList = .large ∧
    KnxAddress.parseT x "1.300.7".toList = .err (said x (.individual .line "300".toList)) := by
  have h : Flawed "1.300.7".toList (.individual .line "300".toList) := by
    refine .line ['1'] "300".toList ['7'] (by decide +kernel) (by decide) one_fits ?_
    intro hf
    obtain ⟨n, hn⟩ := fits_iff.1 hf
    have : parseUIntT 255 "300".toList = .error .posOverflow := by decide +kernel
    rw [this] at hn
    cases hn
  exact ⟨h, by decide +kernel, flawed_says x h⟩

/-- Non-vacuity: the message about `1.300.7`. -/
example : KnxAddress.parseT ⟨[], [], id, fun _ => [], id⟩ "1.300.7".toList =
    .err "Unable to parse line value Some(300), error ParseIntError { kind: PosOverflow }".toList := by decide +kernel

/-- Non-vacuity: the messages about `70000`, `1/2/3/4`, `1.2` and `1//3`. -/
example :
    let x : StdText := ⟨[], [], id, fun _ => [], id⟩
    KnxAddress.parseT x "70000".toList = .err "Unable to parse main address 70000 ParseIntError { kind: PosOverflow }".toList ∧
    KnxAddress.parseT x "1/2/3/4".toList = .err "Unable to parse group address 1/2/3/4, parts should be 1 to 3".toList ∧
    KnxAddress.parseT x "1.2".toList = .err "Individial address should be in the format area.line.address instead of 1.2".toList ∧
    KnxAddress.parseT x "1//3".toList = .err "Unable to parse mid address ParseIntError { kind: Empty }".toList := by decide +kernel

end Knx
