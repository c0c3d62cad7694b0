import Verif.Curve.Model
/-!
# Arithmetic modulo the group order

Model of `sc25519_reduce`, `sc25519_muladd`, `sc25519_mul` and `sc25519_is_canonical` of
`/repo/curve25519/src/ed25519_ref10.c`.  The limbs are `int64_t`: every addition, subtraction and
multiplication of the code that could leave the type yields `none` when it does, because signed
overflow is undefined.  `>>` of a negative number is the arithmetic shift.
-/
namespace LC.Curve.Sc

/-- The range of `int64_t`. -/
def i64 (x : Int) : Option Int :=
  if -9223372036854775808 ≤ x ∧ x ≤ 9223372036854775807 then some x else none

/-- `load_3`, `ed25519_ref10.c:33-42`. -/
def load3 (s : List Byte) (o : Nat) : Nat :=
  (s.getD o 0).toNat ||| (s.getD (o + 1) 0).toNat <<< 8 ||| (s.getD (o + 2) 0).toNat <<< 16

/-- `load_4`, `ed25519_ref10.c:44-54`. -/
def load4 (s : List Byte) (o : Nat) : Nat :=
  (s.getD o 0).toNat ||| (s.getD (o + 1) 0).toNat <<< 8 ||| (s.getD (o + 2) 0).toNat <<< 16 |||
    (s.getD (o + 3) 0).toNat <<< 24

/-- Limb `i`, `s0` to `s23`. -/
def get (s : List Int) (i : Nat) : Int := s.getD i 0

/-- The statements the functions are made of. -/
inductive Op
  /-- `s(k-12) += s(k) * 666643; s(k-11) += s(k) * 470296; s(k-10) += s(k) * 654183;`
  `s(k-9) -= s(k) * 997805; s(k-8) += s(k) * 136657; s(k-7) -= s(k) * 683901;` -/
  | fold (k : Nat)
  /-- `s(k) = 0;` -/
  | zero (k : Nat)
  /-- `carry = (s(i) + (1L << 20)) >> 21; s(i+1) += carry; s(i) -= carry * (1L << 21);` -/
  | round (i : Nat)
  /-- `carry = s(i) >> 21; s(i+1) += carry; s(i) -= carry * (1L << 21);` -/
  | carry (i : Nat)
deriving DecidableEq

/-- `s(j) += s(k) * c` (`-=` is a negative `c`: the same values, as no `c` is the smallest
`int64_t`). -/
def mac (k j : Nat) (c : Int) (s : List Int) : Option (List Int) :=
  match i64 (get s k * c) with
  | none => none
  | some p => match i64 (get s j + p) with
    | none => none
    | some r => some (s.set j r)

def macs (k : Nat) : Nat → List Int → List Int → Option (List Int)
  | _, [], s => some s
  | j, c :: cs, s => match mac k j c s with
    | none => none
    | some s => macs k (j + 1) cs s

/-- The constants. -/
def foldC : List Int := [666643, 470296, 654183, -997805, 136657, -683901]

/-- The last two statements of a carry. -/
def carryTo (i : Nat) (c : Int) (s : List Int) : Option (List Int) :=
  match i64 (get s (i + 1) + c) with
  | none => none
  | some n => match i64 (c * 2097152) with
    | none => none
    | some p => match i64 (get s i - p) with
      | none => none
      | some m => some ((s.set (i + 1) n).set i m)

def step (s : List Int) : Op → Option (List Int)
  | .fold k => macs k (k - 12) foldC s
  | .zero k => some (s.set k 0)
  | .round i => match i64 (get s i + 1048576) with
    | none => none
    | some t => carryTo i (t / 2097152) s
  | .carry i => carryTo i (get s i / 2097152) s

def run : List Op → List Int → Option (List Int)
  | [], s => some s
  | o :: os, s => match step s o with
    | none => none
    | some s => run os s

open Op in
/-- The statements of `sc25519_reduce`, `ed25519_ref10.c:2312-2555`, up to the second `s12 = 0`. -/
def head : List Op :=
  [fold 23, fold 22, fold 21, fold 20, fold 19, fold 18,
   round 6, round 8, round 10, round 12, round 14, round 16,
   round 7, round 9, round 11, round 13, round 15,
   fold 17, fold 16, fold 15, fold 14, fold 13, fold 12, zero 12,
   round 0, round 2, round 4, round 6, round 8, round 10,
   round 1, round 3, round 5, round 7, round 9, round 11,
   fold 12, zero 12]

open Op in
/-- The rest of them. -/
def tail : List Op :=
  [carry 0, carry 1, carry 2, carry 3, carry 4, carry 5, carry 6, carry 7, carry 8, carry 9, carry 10, carry 11,
   fold 12,
   carry 0, carry 1, carry 2, carry 3, carry 4, carry 5, carry 6, carry 7, carry 8, carry 9, carry 10]

open Op in
/-- The carries of `sc25519_muladd` after the multiplication, `ed25519_ref10.c:1821-1890`. -/
def mulHead : List Op :=
  [round 0, round 2, round 4, round 6, round 8, round 10, round 12, round 14, round 16, round 18, round 20, round 22,
   round 1, round 3, round 5, round 7, round 9, round 11, round 13, round 15, round 17, round 19, round 21]

/-- The first 23 limbs of a 64 byte string, `ed25519_ref10.c:2269-2292`: pairs of the offset of the load, its
width and the shift. -/
def limbAt : List (Nat × Bool × Nat) :=
  [(0, false, 0), (2, true, 5), (5, false, 2), (7, true, 7), (10, true, 4), (13, false, 1), (15, true, 6), (18, false, 3),
   (21, false, 0), (23, true, 5), (26, false, 2), (28, true, 7), (31, true, 4), (34, false, 1), (36, true, 6), (39, false, 3),
   (42, false, 0), (44, true, 5), (47, false, 2), (49, true, 7), (52, true, 4), (55, false, 1), (57, true, 6)]

/-- `2097151 & (load(s + o) >> sh)`. -/
def limb (s : List Byte) : Nat × Bool × Nat → Int
  | (o, four, sh) => (((if four then load4 s o else load3 s o) >>> sh &&& 2097151 : Nat) : Int)

/-- The 24 limbs of `sc25519_reduce`, `ed25519_ref10.c:2269-2292`. -/
def limbs64 (s : List Byte) : List Int := limbAt.map (limb s) ++ [((load4 s 60 >>> 3 : Nat) : Int)]

/-- The 12 limbs of an operand of `sc25519_muladd`, `ed25519_ref10.c:1696-1733`. -/
def limbs32 (s : List Byte) : List Int := (limbAt.take 11).map (limb s) ++ [((load4 s 28 >>> 7 : Nat) : Int)]

/-- Conversion of a non-negative `int64_t` to `unsigned char`. -/
def b8 (x : Nat) : Byte := UInt8.ofNat (x % 256)

/-- The 32 output bytes, `ed25519_ref10.c:2556-2587` (and 2136-2167).  The limbs are not negative
there (`reduce_limbs`), so that they can be taken as natural numbers. -/
def pack (s : List Int) : List Byte :=
  let n (i : Nat) : Nat := (get s i).toNat
  [b8 (n 0), b8 (n 0 >>> 8), b8 (n 0 >>> 16 ||| n 1 <<< 5),
   b8 (n 1 >>> 3), b8 (n 1 >>> 11), b8 (n 1 >>> 19 ||| n 2 <<< 2),
   b8 (n 2 >>> 6), b8 (n 2 >>> 14 ||| n 3 <<< 7),
   b8 (n 3 >>> 1), b8 (n 3 >>> 9), b8 (n 3 >>> 17 ||| n 4 <<< 4),
   b8 (n 4 >>> 4), b8 (n 4 >>> 12), b8 (n 4 >>> 20 ||| n 5 <<< 1),
   b8 (n 5 >>> 7), b8 (n 5 >>> 15 ||| n 6 <<< 6),
   b8 (n 6 >>> 2), b8 (n 6 >>> 10), b8 (n 6 >>> 18 ||| n 7 <<< 3),
   b8 (n 7 >>> 5), b8 (n 7 >>> 13),
   b8 (n 8), b8 (n 8 >>> 8), b8 (n 8 >>> 16 ||| n 9 <<< 5),
   b8 (n 9 >>> 3), b8 (n 9 >>> 11), b8 (n 9 >>> 19 ||| n 10 <<< 2),
   b8 (n 10 >>> 6), b8 (n 10 >>> 14 ||| n 11 <<< 7),
   b8 (n 11 >>> 1), b8 (n 11 >>> 9), b8 (n 11 >>> 17)]

/-- `sc25519_reduce`, `ed25519_ref10.c:2267-2588`: the first 32 bytes of the string afterwards
(the others keep their values). -/
def reduce (s : List Byte) : Option (List Byte) := Option.map pack (run (head ++ tail) (limbs64 s))

/-- `acc + a(i) * b(n-i) + a(i+1) * b(n-i-1) + …`, `cnt` terms. -/
def row (a b : List Int) (n : Nat) : Nat → Nat → Int → Option Int
  | _, 0, acc => some acc
  | i, cnt + 1, acc => match i64 (get a i * get b (n - i)) with
    | none => none
    | some p => match i64 (acc + p) with
      | none => none
      | some acc => row a b n (i + 1) cnt acc

/-- The rows `s0` to `s22` of the product: first index of `a` and number of terms.  `s12` to `s22` have
no `c`; the sum is started from zero there. -/
def rows : List (Nat × Nat) :=
  [(0, 1), (0, 2), (0, 3), (0, 4), (0, 5), (0, 6), (0, 7), (0, 8), (0, 9), (0, 10), (0, 11), (0, 12),
   (1, 11), (2, 10), (3, 9), (4, 8), (5, 7), (6, 6), (7, 5), (8, 4), (9, 3), (10, 2), (11, 1)]

/-- `ed25519_ref10.c:1779-1820`. -/
def prod (a b c : List Int) : Nat → List (Nat × Nat) → Option (List Int)
  | _, [] => some [0]
  | n, (i, k) :: rs => match row a b n i k (get c n) with
    | none => none
    | some x => match prod a b c (n + 1) rs with
      | none => none
      | some xs => some (x :: xs)

/-- `sc25519_muladd`, `ed25519_ref10.c:1693-2168`. -/
def muladd (a b c : List Byte) : Option (List Byte) :=
  Option.map pack ((prod (limbs32 a) (limbs32 b) (limbs32 c) 0 rows).bind (run ((mulHead ++ head) ++ tail)))

/-- The order of the group, `ed25519_ref10.c:2593-2598`. -/
def orderBytes : List Byte :=
  [0xed, 0xd3, 0xf5, 0x5c, 0x1a, 0x63, 0x12, 0x58, 0xd6, 0x9c, 0xf7, 0xa2, 0xde, 0xf9, 0xde, 0x14,
   0x00, 0x00, 0x00, 0x00, 0x00, 0x00, 0x00, 0x00, 0x00, 0x00, 0x00, 0x00, 0x00, 0x00, 0x00, 0x10]

/-- The loop of `sc25519_is_canonical`, `ed25519_ref10.c:2603-2607`, over the pairs `(s[i], L[i])` from `i = 31`
downwards.  The differences are `int`; their right shift by 8 is 0 or -1. -/
def canLoop : List (Byte × Byte) → Byte × Byte → Byte × Byte
  | [], r => r
  | (x, l) :: ps, (c, n) =>
    canLoop ps (c ||| ((if x.toNat < l.toNat then 255 else 0) &&& n),
      n &&& (if x ^^^ l = 0 then 255 else 0))

/-- `sc25519_is_canonical`, `ed25519_ref10.c:2590-2610`: whether the result is not zero. -/
def isCanonical (s : List Byte) : Bool := (canLoop (s.zip orderBytes).reverse (0, 1)).1 ≠ 0

end LC.Curve.Sc
