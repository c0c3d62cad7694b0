import Verif.AsconHash.Model
/-
NIST SP 800-232: the Ascon permutation (table S-box, linear layer), Ascon-Hash256
and Ascon-XOF128.
-/
namespace LC.AsconHash.Spec
open LC.Sponge (Byte)
open LC.Sponge.Spec (block xorBlock iter)

/-- The 5-bit S-box (SP 800-232, Table 5 / Ascon v1.2, Table 4); the bit of `x0` is
the most significant one. -/
def sbox : List Nat :=
  [0x4, 0xb, 0x1f, 0x14, 0x1a, 0x15, 0x9, 0x2, 0x1b, 0x5, 0x8, 0x12, 0x1d, 0x3, 0x6, 0x1c,
   0x1e, 0x13, 0x7, 0xe, 0x0, 0xd, 0x11, 0x18, 0x10, 0xc, 0x1, 0x19, 0x16, 0xa, 0xf, 0x17]

/-- Value of a bit column. -/
def column (b0 b1 b2 b3 b4 : Bool) : Nat :=
  16 * b0.toNat + 8 * b1.toNat + 4 * b2.toNat + 2 * b3.toNat + b4.toNat

/-- The word with bits `f 0, ..., f (n - 1)`. -/
def ofBits (f : Nat → Bool) : (n : Nat) → BitVec n
  | 0 => 0#0
  | n + 1 => BitVec.cons (f n) (ofBits f n)

/-- Substitution layer: bit `i` of output word `j` is bit `4 - j` of the S-box value
of column `i`. -/
def sboxLayer (s : Words) (j : Nat) : BitVec 64 :=
  ofBits (fun i =>
    (sbox.getD (column (s.x0.getLsbD i) (s.x1.getLsbD i) (s.x2.getLsbD i) (s.x3.getLsbD i)
      (s.x4.getLsbD i)) 0).testBit (4 - j)) 64

/-- Linear layer. -/
def linear (x : BitVec 64) (a b : Nat) : BitVec 64 :=
  x ^^^ x.rotateRight a ^^^ x.rotateRight b

/-- Constant of round `i` in a permutation with `rnd` rounds: `c_{i + 12 - rnd}` with
`c_j = (15 - j) * 16 + j`. -/
def const (rnd i : Nat) : Nat := (15 - (i + 12 - rnd)) * 16 + (i + 12 - rnd)

/-- One round `p_L ∘ p_S ∘ p_C`. -/
def round (c : Nat) (s : Words) : Words :=
  let s := { s with x2 := s.x2 ^^^ BitVec.ofNat 64 c }
  ⟨linear (sboxLayer s 0) 19 28, linear (sboxLayer s 1) 61 39, linear (sboxLayer s 2) 1 6,
   linear (sboxLayer s 3) 10 17, linear (sboxLayer s 4) 7 41⟩

/-- `Ascon-p[rnd]`. -/
def perm (rnd : Nat) (s : Words) : Words :=
  (List.range rnd).foldl (fun s i => round (const rnd i) s) s

/-- `m || 1 || 0*`, little endian bit order: byte `0x01`, then zeros. -/
def pad (r : Nat) (m : List Byte) : List Byte :=
  m ++ [0x01] ++ List.replicate (r - m.length % r - 1) 0

/-- Absorb `n` blocks. -/
def absorbed (perm : List Byte → List Byte) (r : Nat) (iv p : List Byte) : Nat → List Byte
  | 0 => iv
  | n + 1 => perm (xorBlock (absorbed perm r iv p n) (block r p n))

/-- Output byte `k`. -/
def outByte (perm : List Byte → List Byte) (r : Nat) (iv m : List Byte) (k : Nat) : Byte :=
  let p := pad r m
  (iter perm (k / r) (absorbed perm r iv p (p.length / r))).getD (k % r) 0

/-- `d` bytes of output. -/
def hash (perm : List Byte → List Byte) (r : Nat) (iv m : List Byte) (d : Nat) : List Byte :=
  (List.range d).map (outByte perm r iv m)

/-- Permutation on byte strings. -/
def permBytes (l : List Byte) : List Byte := ofWords (perm 12 (toWords l))

/-- Initial state for the 64-bit initial value `iv`: `p[12](iv || 0)`. -/
def initial (iv : BitVec 64) : List Byte := ofWords (perm 12 ⟨iv, 0, 0, 0, 0⟩)

/-- Ascon-Hash256 (SP 800-232, section 5.1), initial value `0x0000080100cc0002`. -/
def hash256 (m : List Byte) : List Byte := hash permBytes 8 (initial 0x0000080100cc0002) m 32

/-- Ascon-XOF128 (section 5.2), initial value `0x0000080000cc0003`. -/
def xof128 (m : List Byte) (d : Nat) : List Byte :=
  hash permBytes 8 (initial 0x0000080000cc0003) m d

end LC.AsconHash.Spec
