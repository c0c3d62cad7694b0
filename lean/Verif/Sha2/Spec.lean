import Verif.Sha2.Model
/-
FIPS 180-4, written without reference to the streaming code.
-/
namespace LC.Sha2.Spec
open LC.Sha2 (Byte)

/-- Number of zero bytes of the padding: the smallest `k` with
`len + 1 + k + L ≡ 0 (mod B)`. -/
def zeros (B L len : Nat) : Nat := (B - (len + 1 + L) % B) % B

/-- Section 5.1: `m || 0x80 || 0^k || len`, the bit length as an `L` byte big endian
number (8 bytes for SHA-256, 16 bytes for SHA-384/512). -/
def pad (B L : Nat) (m : List Byte) : List Byte :=
  m ++ [0x80] ++ List.replicate (zeros B L m.length) 0 ++ beBytes L (8 * m.length)

/-- Block `i` of size `B`. -/
def block (B : Nat) (m : List Byte) (i : Nat) : List Byte := (m.drop (i * B)).take B

/-- Merkle-Damgard iteration over the first `n` blocks. -/
def chain {σ : Type} (f : σ → List Byte → σ) (iv : σ) (B : Nat) (m : List Byte) : Nat → σ
  | 0 => iv
  | n + 1 => f (chain f iv B m n) (block B m n)

/-- Chaining value after the whole padded message. -/
def md {σ : Type} (f : σ → List Byte → σ) (iv : σ) (B L : Nat) (m : List Byte) : σ :=
  chain f iv B (pad B L m) ((pad B L m).length / B)

/-- The functions of sections 4.1.2 / 4.1.3, with the standard rotation. -/
structure Fns (w : Nat) where
  Sig0 : BitVec w → BitVec w
  Sig1 : BitVec w → BitVec w
  sig0 : BitVec w → BitVec w
  sig1 : BitVec w → BitVec w

def fns256 : Fns 32 where
  Sig0 x := x.rotateRight 2 ^^^ x.rotateRight 13 ^^^ x.rotateRight 22
  Sig1 x := x.rotateRight 6 ^^^ x.rotateRight 11 ^^^ x.rotateRight 25
  sig0 x := x.rotateRight 7 ^^^ x.rotateRight 18 ^^^ (x >>> 3)
  sig1 x := x.rotateRight 17 ^^^ x.rotateRight 19 ^^^ (x >>> 10)

def fns512 : Fns 64 where
  Sig0 x := x.rotateRight 28 ^^^ x.rotateRight 34 ^^^ x.rotateRight 39
  Sig1 x := x.rotateRight 14 ^^^ x.rotateRight 18 ^^^ x.rotateRight 41
  sig0 x := x.rotateRight 1 ^^^ x.rotateRight 8 ^^^ (x >>> 7)
  sig1 x := x.rotateRight 19 ^^^ x.rotateRight 61 ^^^ (x >>> 6)

/-- Message schedule `W_t`, section 6.2.2 step 1 / 6.4.2 step 1; `M j` is the
`j`-th word of the block. -/
def Wt {w : Nat} (F : Fns w) (M : Nat → BitVec w) (t : Nat) : BitVec w :=
  if t < 16 then M t
  else F.sig1 (Wt F M (t - 2)) + Wt F M (t - 7) + F.sig0 (Wt F M (t - 15)) + Wt F M (t - 16)
termination_by t
decreasing_by all_goals omega

/-- Working variables. -/
structure Vars (w : Nat) where
  a : BitVec w
  b : BitVec w
  c : BitVec w
  d : BitVec w
  e : BitVec w
  f : BitVec w
  g : BitVec w
  h : BitVec w

/-- One round, section 6.2.2 step 3. -/
def round {w : Nat} (F : Fns w) (Kt Wtt : BitVec w) (v : Vars w) : Vars w :=
  let ch := (v.e &&& v.f) ^^^ (~~~v.e &&& v.g)
  let maj := (v.a &&& v.b) ^^^ (v.a &&& v.c) ^^^ (v.b &&& v.c)
  let T1 := v.h + F.Sig1 v.e + ch + Kt + Wtt
  let T2 := F.Sig0 v.a + maj
  { a := T1 + T2, b := v.a, c := v.b, d := v.c, e := v.d + T1, f := v.e, g := v.f, h := v.g }

/-- Rounds `0..n-1`. -/
def rounds {w : Nat} (F : Fns w) (K : Nat → BitVec w) (M : Nat → BitVec w) (v : Vars w) :
    Nat → Vars w
  | 0 => v
  | n + 1 => round F (K n) (Wt F M n) (rounds F K M v n)

/-- The compression function with `n` rounds: `H' = H + rounds(H)`. -/
def compress {w : Nat} (F : Fns w) (n : Nat) (K : Nat → BitVec w)
    (H : List (BitVec w)) (blk : List Byte) : List (BitVec w) :=
  let M j := BitVec.ofNat w (beNat ((blk.drop (w / 8 * j)).take (w / 8)))
  let x i := H.getD i 0
  let v := rounds F K M ⟨x 0, x 1, x 2, x 3, x 4, x 5, x 6, x 7⟩ n
  [x 0 + v.a, x 1 + v.b, x 2 + v.c, x 3 + v.d, x 4 + v.e, x 5 + v.f, x 6 + v.g, x 7 + v.h]

/-- `k` is the first `w` bits of the fractional part of the cube root of `p`:
`floor(2^w * cbrt p) = n * 2^w + k`. -/
def IsCbrtFrac (w p k : Nat) : Prop :=
  k < 2 ^ w ∧ ∃ n < 8, (n * 2 ^ w + k) ^ 3 ≤ p * (2 ^ w) ^ 3 ∧ p * (2 ^ w) ^ 3 < (n * 2 ^ w + k + 1) ^ 3

/-- Same for the square root. -/
def IsSqrtFrac (w p k : Nat) : Prop :=
  k < 2 ^ w ∧ ∃ n < 8, (n * 2 ^ w + k) ^ 2 ≤ p * (2 ^ w) ^ 2 ∧ p * (2 ^ w) ^ 2 < (n * 2 ^ w + k + 1) ^ 2

instance (w p k : Nat) : Decidable (IsCbrtFrac w p k) := inferInstanceAs (Decidable (_ ∧ _))
instance (w p k : Nat) : Decidable (IsSqrtFrac w p k) := inferInstanceAs (Decidable (_ ∧ _))

/-- Trial division primality. -/
def isPrime (n : Nat) : Bool := 2 ≤ n && (List.range n).all fun d => d < 2 || n % d != 0

/-- The first 80 primes (all primes below 410). -/
def primes : List Nat := (List.range 410).filter isPrime

end LC.Sha2.Spec
