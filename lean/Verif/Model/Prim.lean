/-!
# Primitives of the model

Rust integers, results with panics, overflow modes, the byte reader and the byte writer.
No code of the repository is modelled here, only the language/library operations it uses
(std, byteorder, snafu).
-/

namespace Knx

/-- Rust `u8`. -/
abbrev U8 := BitVec 8
/-- Rust `u16`. -/
abbrev U16 := BitVec 16
/-- Rust `u32`. -/
abbrev U32 := BitVec 32
/-- Rust `i16` (two's complement; `toInt` is the signed value). -/
abbrev I16 := BitVec 16
/-- Rust `Vec<u8>` / `&[u8]`. -/
abbrev Bytes := List U8

/-- Outcome of a Rust call: `Ok(a)`, `Err(_)` (the message is not modelled), or a panic. -/
inductive Res (α : Type) where
  | ok (a : α)
  | err
  | panic
  deriving DecidableEq, Repr

namespace Res

/-- Sequencing: Rust's `?` together with panic propagation. -/
def bind {α β : Type} (x : Res α) (f : α → Res β) : Res β :=
  match x with
  | .ok a => f a
  | .err => .err
  | .panic => .panic

instance : Monad Res where
  pure := Res.ok
  bind := Res.bind

end Res

/-- Compilation mode: `debug` = overflow checks on (arithmetic overflow panics),
`release` = overflow checks off (arithmetic wraps). -/
inductive Mode where
  | debug
  | release
  deriving DecidableEq, Repr

/-- Rust `a + b` on `uN`. -/
def addU {n : Nat} (m : Mode) (a b : BitVec n) : Res (BitVec n) :=
  if a.toNat + b.toNat < 2 ^ n then .ok (a + b)
  else match m with
    | .debug => .panic
    | .release => .ok (a + b)

/-- Rust `a - b` on `uN`. -/
def subU {n : Nat} (m : Mode) (a b : BitVec n) : Res (BitVec n) :=
  if b.toNat ≤ a.toNat then .ok (a - b)
  else match m with
    | .debug => .panic
    | .release => .ok (a - b)

/-- Rust `a * b` on `iN` (signed overflow check). -/
def mulS {n : Nat} (m : Mode) (a b : BitVec n) : Res (BitVec n) :=
  if -(2 ^ (n - 1) : Int) ≤ a.toInt * b.toInt ∧ a.toInt * b.toInt < 2 ^ (n - 1) then .ok (a * b)
  else match m with
    | .debug => .panic
    | .release => .ok (a * b)

/-- `write_u16::<BigEndian>` / `u16::to_be_bytes`. -/
def be16 (w : U16) : Bytes := [(w >>> 8).setWidth 8, w.setWidth 8]

/-- `u32::to_be_bytes`. -/
def be32 (w : U32) : Bytes :=
  [(w >>> 24).setWidth 8, (w >>> 16).setWidth 8, (w >>> 8).setWidth 8, w.setWidth 8]

/-- Two bytes, most significant first, as a `u16`. -/
def ofBe16 (a b : U8) : U16 := (a.setWidth 16 <<< 8) ||| b.setWidth 16

/-- Four bytes, most significant first, as a `u32`. -/
def ofBe32 (a b c d : U8) : U32 :=
  (a.setWidth 32 <<< 24) ||| (b.setWidth 32 <<< 16) ||| (c.setWidth 32 <<< 8) ||| d.setWidth 32

/-- A computation on `&mut Cursor<&[u8]>` that may fail or panic.
The cursor is represented by the bytes that have not been read yet (the code never seeks). -/
def Rd (α : Type) := Bytes → Res (α × Bytes)

namespace Rd

instance : Monad Rd where
  pure a := fun r => .ok (a, r)
  bind p f := fun r =>
    match p r with
    | .ok (a, r') => f a r'
    | .err => .err
    | .panic => .panic

/-- A reader given as a function on the unread bytes. -/
def of {α : Type} (f : Bytes → Res (α × Bytes)) : Rd α := f

/-- `whatever!(..)`: leave with an error. -/
def fail {α : Type} : Rd α := fun _ => .err

/-- `ensure_whatever!(c, ..)`. -/
def ensure (c : Bool) : Rd Unit := fun r => if c then .ok ((), r) else .err

/-- Run a computation that does not touch the cursor. -/
def lift {α : Type} (x : Res α) : Rd α := fun r =>
  match x with
  | .ok a => .ok (a, r)
  | .err => .err
  | .panic => .panic

/-- byteorder `read_u8`. -/
def u8 : Rd U8
  | [] => .err
  | b :: r => .ok (b, r)

/-- byteorder `read_u16::<BigEndian>`. -/
def u16 : Rd U16
  | a :: b :: r => .ok (ofBe16 a b, r)
  | _ => .err

/-- byteorder `read_u32::<BigEndian>`. -/
def u32 : Rd U32
  | a :: b :: c :: d :: r => .ok (ofBe32 a b c d, r)
  | _ => .err

/-- `Read::read_exact` into `[0; n]`. -/
def exact (n : Nat) : Rd (Vector U8 n) := fun r =>
  if h : n ≤ r.length then
    .ok (⟨(r.take n).toArray, by simp [List.length_take, Nat.min_eq_left h]⟩, r.drop n)
  else .err

/-- `Read::read_exact` into a `vec![0; n]`. -/
def exactVec (n : Nat) : Rd Bytes := fun r =>
  if n ≤ r.length then .ok (r.take n, r.drop n) else .err

/-- `Read::read` of a `Cursor` into a `vec![0; n]`, result count ignored: copies
`min(n, remaining)` bytes, the rest of the vector keeps its zeros; never an error. -/
def fill (n : Nat) : Rd Bytes := fun r =>
  .ok (r.take n ++ List.replicate (n - r.length) 0, r.drop n)

/-- `Read::read_to_end`. -/
def toEnd : Rd Bytes := fun r => .ok (r, [])

end Rd

/-- `std::net::Ipv4Addr` (four octets). -/
structure Ipv4 where
  a : U8
  b : U8
  c : U8
  d : U8
  deriving DecidableEq, Repr

/-- `Ipv4Addr::octets`. -/
def Ipv4.octets (ip : Ipv4) : Bytes := [ip.a, ip.b, ip.c, ip.d]

/-- `Ipv4Addr::from([u8; 4])`. -/
def Ipv4.ofVec (v : Vector U8 4) : Ipv4 := ⟨v[0], v[1], v[2], v[3]⟩

/-- `std::net::SocketAddrV4`. -/
structure SockAddr where
  ip : Ipv4
  port : U16
  deriving DecidableEq, Repr

end Knx
