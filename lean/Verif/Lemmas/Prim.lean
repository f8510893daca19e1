import Verif.Model.Prim

/-! Helper lemmas about the primitives. -/

namespace Knx

/-- Split an equality of 8-bit vectors into its bits and simplify each. -/
macro "bits8" : tactic => `(tactic| (
  apply BitVec.eq_of_getLsbD_eq
  intro i hi
  have hc : i = 0 ∨ i = 1 ∨ i = 2 ∨ i = 3 ∨ i = 4 ∨ i = 5 ∨ i = 6 ∨ i = 7 := by omega
  rcases hc with h | h | h | h | h | h | h | h <;> subst h <;> simp))

/-- Split an equality of 16-bit vectors into its bits and simplify each. -/
macro "bits16" : tactic => `(tactic| (
  apply BitVec.eq_of_getLsbD_eq
  intro i hi
  have hc : i = 0 ∨ i = 1 ∨ i = 2 ∨ i = 3 ∨ i = 4 ∨ i = 5 ∨ i = 6 ∨ i = 7 ∨ i = 8 ∨ i = 9 ∨ i = 10
    ∨ i = 11 ∨ i = 12 ∨ i = 13 ∨ i = 14 ∨ i = 15 := by omega
  rcases hc with h | h | h | h | h | h | h | h | h | h | h | h | h | h | h | h <;> subst h <;> simp))

theorem ofBe16_be16 (w : U16) : ofBe16 ((w >>> 8).setWidth 8) (w.setWidth 8) = w := by
  unfold ofBe16; bits16

theorem ofBe16_hi (a b : U8) : (ofBe16 a b >>> 8).setWidth 8 = a := by
  unfold ofBe16; bits8

theorem ofBe16_lo (a b : U8) : (ofBe16 a b).setWidth 8 = b := by
  unfold ofBe16; bits8

theorem ofBe16_inj {a b c d : U8} : ofBe16 a b = ofBe16 c d ↔ a = c ∧ b = d := by
  constructor
  · intro h
    exact ⟨by rw [← ofBe16_hi a b, h, ofBe16_hi], by rw [← ofBe16_lo a b, h, ofBe16_lo]⟩
  · rintro ⟨rfl, rfl⟩; rfl

theorem be16_inj {v w : U16} : be16 v = be16 w ↔ v = w := by
  constructor
  · intro h
    simp only [be16, List.cons.injEq, and_true] at h
    rw [← ofBe16_be16 v, h.1, h.2, ofBe16_be16]
  · rintro rfl; rfl

@[simp] theorem be16_length (w : U16) : (be16 w).length = 2 := rfl

/-- The value of two big-endian bytes. -/
theorem ofBe16_toNat (a b : U8) : (ofBe16 a b).toNat = 256 * a.toNat + b.toNat := by
  have h : (ofBe16 a b) = a ++ b := by
    unfold ofBe16
    apply BitVec.eq_of_getLsbD_eq
    intro i hi
    simp only [BitVec.getLsbD_or, BitVec.getLsbD_shiftLeft, BitVec.getLsbD_setWidth, BitVec.getLsbD_append]
    by_cases h1 : i < 8
    · simp [h1]; omega
    · simp [h1, show ¬ i < 8 by omega, show i - 8 < 16 by omega, hi]
      intro hb; have := BitVec.lt_of_getLsbD hb; omega
  rw [h, BitVec.toNat_append, ← Nat.shiftLeft_add_eq_or_of_lt b.isLt, Nat.shiftLeft_eq]
  omega

/-- The value of four big-endian bytes. -/
theorem ofBe32_be32 (w : U32) :
    ofBe32 ((w >>> 24).setWidth 8) ((w >>> 16).setWidth 8) ((w >>> 8).setWidth 8) (w.setWidth 8) = w := by
  unfold ofBe32
  ext i hi
  simp only [BitVec.getElem_or, BitVec.getElem_shiftLeft, BitVec.getLsbD_setWidth, BitVec.getElem_setWidth,
    BitVec.getLsbD_ushiftRight]
  by_cases h1 : i < 8
  · simp [h1, show i < 24 by omega, show i < 16 by omega, BitVec.getLsbD_eq_getElem hi]
  · by_cases h2 : i < 16
    · simp [h1, h2, show i < 24 by omega, show i - 8 < 8 by omega, show 8 + (i - 8) = i by omega,
        BitVec.getLsbD_eq_getElem hi]
    · by_cases h3 : i < 24
      · simp [h1, h2, h3, show ¬ (i - 8 < 8) by omega, show i - 16 < 8 by omega, show 16 + (i - 16) = i by omega, BitVec.getLsbD_eq_getElem hi]
      · simp [h1, h2, h3, show ¬ (i - 8 < 8) by omega, show ¬ (i - 16 < 8) by omega, show i - 24 < 8 by omega,
          show 24 + (i - 24) = i by omega, BitVec.getLsbD_eq_getElem hi]

/-- A vector whose value fits in `k` bits is the zero extension of a `k`-bit vector. -/
theorem exists_setWidth {n : Nat} (k : Nat) (a : BitVec n) (h : a.toNat < 2 ^ k) :
    ∃ b : BitVec k, a = b.setWidth n :=
  ⟨a.setWidth k, by
    apply BitVec.eq_of_toNat_eq
    simp [BitVec.toNat_setWidth, Nat.mod_eq_of_lt h, Nat.mod_eq_of_lt a.isLt]⟩

namespace Rd

variable {α β : Type}

theorem bind_eval (p : Rd α) (f : α → Rd β) (r : Bytes) :
    (p >>= f) r = match p r with
      | .ok (a, r') => f a r'
      | .err => .err
      | .panic => .panic := rfl

@[simp] theorem pure_eval (a : α) (r : Bytes) : (pure a : Rd α) r = .ok (a, r) := rfl

@[simp] theorem of_eval (f : Bytes → Res (α × Bytes)) (r : Bytes) : Rd.of f r = f r := rfl

theorem bind_ok_iff {p : Rd α} {f : α → Rd β} {r : Bytes} {b : β} {r'' : Bytes} :
    (p >>= f) r = .ok (b, r'') ↔ ∃ a r', p r = .ok (a, r') ∧ f a r' = .ok (b, r'') := by
  rw [bind_eval]
  cases h : p r with
  | ok x =>
    obtain ⟨a, r'⟩ := x
    simp only [Res.ok.injEq, Prod.mk.injEq, reduceCtorEq, false_or]
    exact ⟨fun hh => ⟨_, _, ⟨rfl, rfl⟩, hh⟩, by rintro ⟨_, _, ⟨rfl, rfl⟩, hh⟩; exact hh⟩
  | err => simp
  | panic => simp

theorem bind_panic_iff {p : Rd α} {f : α → Rd β} {r : Bytes} :
    (p >>= f) r = .panic ↔ p r = .panic ∨ ∃ a r', p r = .ok (a, r') ∧ f a r' = .panic := by
  rw [bind_eval]
  cases h : p r with
  | ok x =>
    obtain ⟨a, r'⟩ := x
    simp only [Res.ok.injEq, Prod.mk.injEq, reduceCtorEq, false_or]
    exact ⟨fun hh => ⟨_, _, ⟨rfl, rfl⟩, hh⟩, by rintro ⟨_, _, ⟨rfl, rfl⟩, hh⟩; exact hh⟩
  | err => simp
  | panic => simp

theorem bind_of_ok {p : Rd α} {f : α → Rd β} {r r' : Bytes} {a : α} (h : p r = .ok (a, r')) :
    (p >>= f) r = f a r' := by rw [bind_eval, h]

theorem pure_ok_iff {a b : α} {r r' : Bytes} : (pure a : Rd α) r = .ok (b, r') ↔ b = a ∧ r' = r := by
  simp [eq_comm]

theorem pure_panic_iff {a : α} {r : Bytes} : (pure a : Rd α) r = .panic ↔ False := by simp

theorem ensure_ok_iff {c : Bool} {r r' : Bytes} {u : Unit} :
    ensure c r = .ok (u, r') ↔ c = true ∧ r' = r := by
  unfold ensure; cases c <;> simp [eq_comm]

theorem ensure_panic_iff {c : Bool} {r : Bytes} : ensure c r = .panic ↔ False := by
  unfold ensure; cases c <;> simp

theorem lift_ok_iff {x : Res α} {a : α} {r r' : Bytes} : lift x r = .ok (a, r') ↔ x = .ok a ∧ r' = r := by
  unfold lift; cases x <;> simp [eq_comm]

theorem lift_panic_iff {x : Res α} {r : Bytes} : lift x r = .panic ↔ x = .panic := by
  unfold lift; cases x <;> simp

theorem fail_ok_iff {a : α} {r r' : Bytes} : (fail : Rd α) r = .ok (a, r') ↔ False := by simp [fail]
theorem fail_panic_iff {r : Bytes} : (fail : Rd α) r = .panic ↔ False := by simp [fail]

theorem u8_ok_iff {r r' : Bytes} {b : U8} : u8 r = .ok (b, r') ↔ r = b :: r' := by
  cases r <;> simp [u8]

theorem u8_panic_iff {r : Bytes} : u8 r = .panic ↔ False := by cases r <;> simp [u8]

theorem u16_ok_iff {r r' : Bytes} {w : U16} :
    u16 r = .ok (w, r') ↔ ∃ a b, r = a :: b :: r' ∧ w = ofBe16 a b := by
  match r with
  | [] => simp [u16]
  | [a] => simp [u16]
  | a :: b :: r =>
    simp only [u16, Res.ok.injEq, Prod.mk.injEq, List.cons.injEq]
    constructor
    · rintro ⟨rfl, rfl⟩; exact ⟨a, b, ⟨rfl, rfl, rfl⟩, rfl⟩
    · rintro ⟨_, _, ⟨rfl, rfl, rfl⟩, rfl⟩; exact ⟨rfl, rfl⟩

theorem u16_panic_iff {r : Bytes} : u16 r = .panic ↔ False := by
  match r with
  | [] => simp [u16]
  | [a] => simp [u16]
  | a :: b :: r => simp [u16]

theorem fill_ok_iff {n : Nat} {r r' v : Bytes} :
    fill n r = .ok (v, r') ↔ v = r.take n ++ List.replicate (n - r.length) 0 ∧ r' = r.drop n := by
  simp [fill, eq_comm]

theorem fill_panic_iff {n : Nat} {r : Bytes} : fill n r = .panic ↔ False := by simp [fill]

theorem exact_ok_iff {n : Nat} {r r' : Bytes} {v : Vector U8 n} :
    exact n r = .ok (v, r') ↔ r = v.toList ++ r' := by
  unfold exact
  split
  · rename_i h
    simp only [Res.ok.injEq, Prod.mk.injEq]
    constructor
    · rintro ⟨rfl, rfl⟩; simp [Vector.toList]
    · intro hr
      have hl : v.toList.length = n := by simp
      constructor
      · rw [← Vector.toList_inj]
        simp [Vector.toList, hr]
      · rw [hr]; exact List.drop_left' hl
  · rename_i h
    constructor
    · intro hh; cases hh
    · intro hr; exfalso; apply h; rw [hr]; simp

theorem exact_panic_iff {n : Nat} {r : Bytes} : exact n r = .panic ↔ False := by
  unfold exact; split <;> simp

@[simp] theorem exact_append {n : Nat} (v : Vector U8 n) (r : Bytes) :
    exact n (v.toList ++ r) = .ok (v, r) := exact_ok_iff.2 rfl

theorem exactVec_ok_iff {n : Nat} {r r' v : Bytes} :
    exactVec n r = .ok (v, r') ↔ v.length = n ∧ r = v ++ r' := by
  unfold exactVec
  split
  · rename_i h
    simp only [Res.ok.injEq, Prod.mk.injEq]
    constructor
    · rintro ⟨rfl, rfl⟩; simp [Nat.min_eq_left h]
    · rintro ⟨hl, rfl⟩; exact ⟨List.take_left' hl, List.drop_left' hl⟩
  · rename_i h
    constructor
    · intro hh; cases hh
    · rintro ⟨hl, rfl⟩; exfalso; apply h; simp; omega

theorem exactVec_panic_iff {n : Nat} {r : Bytes} : exactVec n r = .panic ↔ False := by
  unfold exactVec; split <;> simp

theorem toEnd_ok_iff {r r' v : Bytes} : toEnd r = .ok (v, r') ↔ v = r ∧ r' = [] := by
  simp [toEnd, eq_comm]

theorem toEnd_panic_iff {r : Bytes} : toEnd r = .panic ↔ False := by simp [toEnd]

end Rd

@[simp] theorem Ipv4.ofVec_octets (v : Vector U8 4) : (Ipv4.ofVec v).octets = v.toList := by
  obtain ⟨⟨l⟩, h⟩ := v
  match l, h with
  | [a, b, c, d], _ => rfl

/-- The four octets as a vector. -/
def Ipv4.toVec (ip : Ipv4) : Vector U8 4 := #v[ip.a, ip.b, ip.c, ip.d]

@[simp] theorem Ipv4.ofVec_toVec (ip : Ipv4) : Ipv4.ofVec ip.toVec = ip := rfl
@[simp] theorem Ipv4.toVec_toList (ip : Ipv4) : ip.toVec.toList = ip.octets := rfl
@[simp] theorem Ipv4.octets_length (ip : Ipv4) : ip.octets.length = 4 := rfl

@[simp] theorem exact_ip (ip : Ipv4) (r : Bytes) : Rd.exact 4 (ip.octets ++ r) = .ok (ip.toVec, r) := by
  rw [← Ipv4.toVec_toList]; exact Rd.exact_append _ _

theorem subU_release {n : Nat} (a b : BitVec n) : subU .release a b = .ok (a - b) := by
  unfold subU; split <;> rfl

theorem addU_release {n : Nat} (a b : BitVec n) : addU .release a b = .ok (a + b) := by
  unfold addU; split <;> rfl

theorem subU_of_le {n : Nat} (m : Mode) (a b : BitVec n) (h : b.toNat ≤ a.toNat) : subU m a b = .ok (a - b) := by
  unfold subU; simp [h]

theorem addU_of_lt {n : Nat} (m : Mode) (a b : BitVec n) (h : a.toNat + b.toNat < 2 ^ n) :
    addU m a b = .ok (a + b) := by
  unfold addU; simp [h]

theorem subU_panic_iff {n : Nat} (m : Mode) (a b : BitVec n) :
    subU m a b = .panic ↔ m = .debug ∧ a.toNat < b.toNat := by
  unfold subU
  split
  · simp; intro _; omega
  · cases m <;> simp; omega

theorem addU_panic_iff {n : Nat} (m : Mode) (a b : BitVec n) :
    addU m a b = .panic ↔ m = .debug ∧ 2 ^ n ≤ a.toNat + b.toNat := by
  unfold addU
  split
  · simp; intro _; omega
  · cases m <;> simp; omega

theorem subU_ne_err {n : Nat} (m : Mode) (a b : BitVec n) : subU m a b ≠ .err := by
  unfold subU; cases m <;> split <;> simp

theorem addU_ne_err {n : Nat} (m : Mode) (a b : BitVec n) : addU m a b ≠ .err := by
  unfold addU; cases m <;> split <;> simp

end Knx
