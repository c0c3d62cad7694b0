/-!
# curve25519: field arithmetic with five limbs of 51 bits

Model of `/repo/curve25519/src/ed25519_ref10_fe_51.h`, `/repo/curve25519/src/fe_51/fe.h` and the
field functions of `/repo/curve25519/src/ed25519_ref10.c`, the code of x86_64
(`ed25519_ref10.c:64-70`).  A `uint64_t` or `uint128_t` is a natural number; every operation that
can leave its type is followed by the reduction modulo `2^64` or `2^128`.  The variant with ten
limbs (`fe_25_5`) is not modelled.
-/
namespace LC.Curve

abbrev Byte := UInt8

/-- `fe25519`, `ed25519_ref10.h`: `uint64_t[5]`. -/
structure Fe where
  l0 : Nat
  l1 : Nat
  l2 : Nat
  l3 : Nat
  l4 : Nat
deriving DecidableEq, Repr

/-- Conversion to `uint64_t`. -/
def u64 (x : Nat) : Nat := x % 2 ^ 64
/-- Conversion to `uint128_t`. -/
def u128 (x : Nat) : Nat := x % 2 ^ 128
/-- `mask = 0x7ffffffffffffULL` -/
def mask : Nat := 0x7ffffffffffff
/-- `uint64_t` subtraction. -/
def sub64 (a b : Nat) : Nat := (a + 2 ^ 64 - b) % 2 ^ 64

/-- `fe25519_0`, `ed25519_ref10_fe_51.h:40-43`. -/
def feZero : Fe := ⟨0, 0, 0, 0, 0⟩
/-- `fe25519_1`, `ed25519_ref10_fe_51.h:49-53`. -/
def feOne : Fe := ⟨1, 0, 0, 0, 0⟩

/-- `fe25519_add`, `ed25519_ref10_fe_51.h:60-73`. -/
def feAdd (f g : Fe) : Fe :=
  ⟨u64 (f.l0 + g.l0), u64 (f.l1 + g.l1), u64 (f.l2 + g.l2), u64 (f.l3 + g.l3), u64 (f.l4 + g.l4)⟩

/-- `fe25519_sub`, `ed25519_ref10_fe_51.h:79-112`. -/
def feSub (f g : Fe) : Fe :=
  let h0 := g.l0
  let h1 := g.l1
  let h2 := g.l2
  let h3 := g.l3
  let h4 := g.l4
  let h1 := u64 (h1 + (h0 >>> 51))
  let h0 := h0 &&& mask
  let h2 := u64 (h2 + (h1 >>> 51))
  let h1 := h1 &&& mask
  let h3 := u64 (h3 + (h2 >>> 51))
  let h2 := h2 &&& mask
  let h4 := u64 (h4 + (h3 >>> 51))
  let h3 := h3 &&& mask
  let h0 := u64 (h0 + u64 (19 * (h4 >>> 51)))
  let h4 := h4 &&& mask
  ⟨sub64 (u64 (f.l0 + 0xfffffffffffda)) h0, sub64 (u64 (f.l1 + 0xffffffffffffe)) h1,
   sub64 (u64 (f.l2 + 0xffffffffffffe)) h2, sub64 (u64 (f.l3 + 0xffffffffffffe)) h3,
   sub64 (u64 (f.l4 + 0xffffffffffffe)) h4⟩

/-- `fe25519_neg`, `ed25519_ref10_fe_51.h:118-124`. -/
def feNeg (f : Fe) : Fe := feSub feZero f

/-- The mask `(uint64_t)(-(int64_t)b)` for an `unsigned int b`. -/
def bmask (b : Nat) : Nat := (2 ^ 64 - b % 2 ^ 32) % 2 ^ 64

/-- `fe25519_cmov`, `ed25519_ref10_fe_51.h:133-190`.  On x86_64 this is inline assembly that takes
`g` unless `b` is zero; the portable code of lines 157-188 is modelled. -/
def feCmov (f g : Fe) (b : Nat) : Fe :=
  let m := bmask b
  ⟨f.l0 ^^^ ((f.l0 ^^^ g.l0) &&& m), f.l1 ^^^ ((f.l1 ^^^ g.l1) &&& m), f.l2 ^^^ ((f.l2 ^^^ g.l2) &&& m),
   f.l3 ^^^ ((f.l3 ^^^ g.l3) &&& m), f.l4 ^^^ ((f.l4 ^^^ g.l4) &&& m)⟩

/-- `fe25519_cswap`, `ed25519_ref10_fe_51.h:199-245`: the new `f` and `g`. -/
def feCswap (f g : Fe) (b : Nat) : Fe × Fe :=
  let m := bmask b
  let x0 := (f.l0 ^^^ g.l0) &&& m
  let x1 := (f.l1 ^^^ g.l1) &&& m
  let x2 := (f.l2 ^^^ g.l2) &&& m
  let x3 := (f.l3 ^^^ g.l3) &&& m
  let x4 := (f.l4 ^^^ g.l4) &&& m
  (⟨f.l0 ^^^ x0, f.l1 ^^^ x1, f.l2 ^^^ x2, f.l3 ^^^ x3, f.l4 ^^^ x4⟩,
   ⟨g.l0 ^^^ x0, g.l1 ^^^ x1, g.l2 ^^^ x2, g.l3 ^^^ x3, g.l4 ^^^ x4⟩)

/-- The carry chain at the end of `fe25519_mul` (`ed25519_ref10_fe_51.h:334-360`), `fe25519_sq`
(399-425) and `fe25519_sq2` (470-496). -/
def feCarry (r0 r1 r2 r3 r4 : Nat) : Fe :=
  let r00 := u64 r0 &&& mask
  let carry := u64 (r0 >>> 51)
  let r1 := u128 (r1 + carry)
  let r01 := u64 r1 &&& mask
  let carry := u64 (r1 >>> 51)
  let r2 := u128 (r2 + carry)
  let r02 := u64 r2 &&& mask
  let carry := u64 (r2 >>> 51)
  let r3 := u128 (r3 + carry)
  let r03 := u64 r3 &&& mask
  let carry := u64 (r3 >>> 51)
  let r4 := u128 (r4 + carry)
  let r04 := u64 r4 &&& mask
  let carry := u64 (r4 >>> 51)
  let r00 := u64 (r00 + u64 (19 * carry))
  let carry := r00 >>> 51
  let r00 := r00 &&& mask
  let r01 := u64 (r01 + carry)
  let carry := r01 >>> 51
  let r01 := r01 &&& mask
  let r02 := u64 (r02 + carry)
  ⟨r00, r01, r02, r03, r04⟩

/-- `fe25519_mul`, `ed25519_ref10_fe_51.h:301-361`.  The sums of 128 bit products are reduced once
at the end, which gives the same value. -/
def feMul (f g : Fe) : Fe :=
  let f1_19 := u128 (19 * f.l1)
  let f2_19 := u128 (19 * f.l2)
  let f3_19 := u128 (19 * f.l3)
  let f4_19 := u128 (19 * f.l4)
  feCarry
    (u128 (f.l0 * g.l0 + f1_19 * g.l4 + f2_19 * g.l3 + f3_19 * g.l2 + f4_19 * g.l1))
    (u128 (f.l0 * g.l1 + f.l1 * g.l0 + f2_19 * g.l4 + f3_19 * g.l3 + f4_19 * g.l2))
    (u128 (f.l0 * g.l2 + f.l1 * g.l1 + f.l2 * g.l0 + f3_19 * g.l4 + f4_19 * g.l3))
    (u128 (f.l0 * g.l3 + f.l1 * g.l2 + f.l2 * g.l1 + f.l3 * g.l0 + f4_19 * g.l4))
    (u128 (f.l0 * g.l4 + f.l1 * g.l3 + f.l2 * g.l2 + f.l3 * g.l1 + f.l4 * g.l0))

/-- The sums of `fe25519_sq` (`ed25519_ref10_fe_51.h:383-397`) and `fe25519_sq2` (448-462). -/
def feSqSums (f : Fe) : Nat × Nat × Nat × Nat × Nat :=
  let f0_2 := u128 (f.l0 <<< 1)
  let f1_2 := u128 (f.l1 <<< 1)
  let f1_38 := u128 (38 * f.l1)
  let f2_38 := u128 (38 * f.l2)
  let f3_38 := u128 (38 * f.l3)
  let f3_19 := u128 (19 * f.l3)
  let f4_19 := u128 (19 * f.l4)
  (u128 (f.l0 * f.l0 + f1_38 * f.l4 + f2_38 * f.l3), u128 (f0_2 * f.l1 + f2_38 * f.l4 + f3_19 * f.l3),
   u128 (f0_2 * f.l2 + f.l1 * f.l1 + f3_38 * f.l4), u128 (f0_2 * f.l3 + f1_2 * f.l2 + f4_19 * f.l4),
   u128 (f0_2 * f.l4 + f1_2 * f.l3 + f.l2 * f.l2))

/-- `fe25519_sq`, `ed25519_ref10_fe_51.h:368-426`. -/
def feSq (f : Fe) : Fe :=
  let r := feSqSums f
  feCarry r.1 r.2.1 r.2.2.1 r.2.2.2.1 r.2.2.2.2

/-- `fe25519_sq2`, `ed25519_ref10_fe_51.h:433-497`. -/
def feSq2 (f : Fe) : Fe :=
  let r := feSqSums f
  feCarry (u128 (r.1 <<< 1)) (u128 (r.2.1 <<< 1)) (u128 (r.2.2.1 <<< 1)) (u128 (r.2.2.2.1 <<< 1))
    (u128 (r.2.2.2.2 <<< 1))

/-- `fe25519_mul32`, `ed25519_ref10_fe_51.h:499-524`. -/
def feMul32 (f : Fe) (n : Nat) : Fe :=
  let a := u128 (f.l0 * n)
  let h0 := u64 a &&& mask
  let a := u128 (f.l1 * n + u64 (a >>> 51))
  let h1 := u64 a &&& mask
  let a := u128 (f.l2 * n + u64 (a >>> 51))
  let h2 := u64 a &&& mask
  let a := u128 (f.l3 * n + u64 (a >>> 51))
  let h3 := u64 a &&& mask
  let a := u128 (f.l4 * n + u64 (a >>> 51))
  let h4 := u64 a &&& mask
  let h0 := u64 (h0 + u64 (u64 (a >>> 51) * 19))
  ⟨h0, h1, h2, h3, h4⟩

/-! ### Encoding -/

/-- `ptr_to_le64(s + off)`, `internal/api/bitshift_le.h`. -/
def le64 (s : List Byte) (off : Nat) : Nat :=
  (List.range 8).foldr (fun i r => (s.getD (off + i) 0).toNat + 256 * r) 0

/-- `fe25519_frombytes`, `fe_51/fe.h:42-58`. -/
def feFrombytes (s : List Byte) : Fe :=
  ⟨le64 s 0 &&& mask, (le64 s 6 >>> 3) &&& mask, (le64 s 12 >>> 6) &&& mask, (le64 s 19 >>> 1) &&& mask,
   (le64 s 24 >>> 12) &&& mask⟩

/-- One carry pass of `fe25519_reduce` from `t[0]` to `t[4]`, e.g. `fe_51/fe.h:71-78` (`uint128_t`). -/
def rCarry (t : Fe) : Fe :=
  let t1 := u128 (t.l1 + (t.l0 >>> 51))
  let t0 := t.l0 &&& mask
  let t2 := u128 (t.l2 + (t1 >>> 51))
  let t1 := t1 &&& mask
  let t3 := u128 (t.l3 + (t2 >>> 51))
  let t2 := t2 &&& mask
  let t4 := u128 (t.l4 + (t3 >>> 51))
  let t3 := t3 &&& mask
  ⟨t0, t1, t2, t3, t4⟩

/-- The end of a pass: `t[0] += 19 * (t[4] >> 51); t[4] &= mask`. -/
def rWrap (t : Fe) : Fe := { t with l0 := u128 (t.l0 + 19 * (t.l4 >>> 51)), l4 := t.l4 &&& mask }

/-- `fe25519_reduce`, `fe_51/fe.h:60-134`. -/
def feReduce (f : Fe) : Fe :=
  let t := rWrap (rCarry f)
  let t := rWrap (rCarry t)
  let t := { t with l0 := u128 (t.l0 + 19) }
  let t := rWrap (rCarry t)
  let t : Fe := ⟨u128 (t.l0 + (0x8000000000000 - 19)), u128 (t.l1 + (0x8000000000000 - 1)),
    u128 (t.l2 + (0x8000000000000 - 1)), u128 (t.l3 + (0x8000000000000 - 1)), u128 (t.l4 + (0x8000000000000 - 1))⟩
  let t := rCarry t
  ⟨u64 t.l0, u64 t.l1, u64 t.l2, u64 t.l3, u64 (t.l4 &&& mask)⟩

/-- `le64_to_ptr`, `internal/api/bitshift_le.h`. -/
def toLe64 (x : Nat) : List Byte := (List.range 8).map fun i => UInt8.ofNat (x >>> (8 * i))

/-- `fe25519_tobytes`, `fe_51/fe.h:136-150`. -/
def feTobytes (h : Fe) : List Byte :=
  let t := feReduce h
  let t0 := t.l0 ||| u64 (t.l1 <<< 51)
  let t1 := (t.l1 >>> 13) ||| u64 (t.l2 <<< 38)
  let t2 := (t.l2 >>> 26) ||| u64 (t.l3 <<< 25)
  let t3 := (t.l3 >>> 39) ||| u64 (t.l4 <<< 12)
  toLe64 t0 ++ toLe64 t1 ++ toLe64 t2 ++ toLe64 t3

/-- `fe25519_isnegative`, `ed25519_ref10_fe_51.h:261-268`. -/
def feIsnegative (f : Fe) : Nat := ((feTobytes f).getD 0 0).toNat &&& 1

/-- `sodium_is_zero`, `ed25519_ref10_fe_51.h:270-280`: `d` is an `unsigned char`, `d - 1` an `int`. -/
def isZero (n : List Byte) : Nat :=
  let d := n.foldl (· ||| ·) 0
  if d = 0 then 1 else 1 &&& ((d.toNat - 1) >>> 8)

/-- `fe25519_iszero`, `ed25519_ref10_fe_51.h:287-294`. -/
def feIszero (f : Fe) : Nat := isZero (feTobytes f)

/-! ### `ed25519_ref10.c` -/

/-- `n` calls `fe25519_sq(t, t)`. -/
def feSqn : Nat → Fe → Fe
  | 0, t => t
  | n + 1, t => feSqn n (feSq t)

/-- `fe25519_invert`, `ed25519_ref10.c:83-132`.  `fe25519_sq(t2, t1)` followed by a loop from 1 to
`n - 1` is `feSqn n t1`. -/
def feInvert (z : Fe) : Fe :=
  let t0 := feSq z
  let t1 := feSq t0
  let t1 := feSq t1
  let t1 := feMul z t1
  let t0 := feMul t0 t1
  let t2 := feSq t0
  let t1 := feMul t1 t2
  let t2 := feSqn 5 t1
  let t1 := feMul t2 t1
  let t2 := feSqn 10 t1
  let t2 := feMul t2 t1
  let t3 := feSqn 20 t2
  let t2 := feMul t3 t2
  let t2 := feSqn 10 t2
  let t1 := feMul t2 t1
  let t2 := feSqn 50 t1
  let t2 := feMul t2 t1
  let t3 := feSqn 100 t2
  let t2 := feMul t3 t2
  let t2 := feSqn 50 t2
  let t1 := feMul t2 t1
  let t1 := feSqn 5 t1
  feMul t1 t0

/-- `fe25519_pow22523`, `ed25519_ref10.c:138-186`. -/
def fePow22523 (z : Fe) : Fe :=
  let t0 := feSq z
  let t1 := feSq t0
  let t1 := feSq t1
  let t1 := feMul z t1
  let t0 := feMul t0 t1
  let t0 := feSq t0
  let t0 := feMul t1 t0
  let t1 := feSqn 5 t0
  let t0 := feMul t1 t0
  let t1 := feSqn 10 t0
  let t1 := feMul t1 t0
  let t2 := feSqn 20 t1
  let t1 := feMul t2 t1
  let t1 := feSqn 10 t1
  let t0 := feMul t1 t0
  let t1 := feSqn 50 t0
  let t1 := feMul t1 t0
  let t2 := feSqn 100 t1
  let t1 := feMul t2 t1
  let t1 := feSqn 50 t1
  let t0 := feMul t1 t0
  let t0 := feSq t0
  let t0 := feSq t0
  feMul t0 z

/-- `fe25519_cneg`, `ed25519_ref10.c:188-195`. -/
def feCneg (f : Fe) (b : Nat) : Fe := feCmov f (feNeg f) b

/-- `fe25519_abs`, `ed25519_ref10.c:197-200`. -/
def feAbs (f : Fe) : Fe := feCneg f (feIsnegative f)

/-! ### `x25519_scalarmult_c.c` -/

/-- The blocklist of `has_small_order`, `x25519_scalarmult_c.c:43-81`. -/
def blocklist : List (List Byte) := [
  [0x00, 0x00, 0x00, 0x00, 0x00, 0x00, 0x00, 0x00, 0x00, 0x00, 0x00, 0x00, 0x00, 0x00, 0x00, 0x00,
   0x00, 0x00, 0x00, 0x00, 0x00, 0x00, 0x00, 0x00, 0x00, 0x00, 0x00, 0x00, 0x00, 0x00, 0x00, 0x00],
  [0x01, 0x00, 0x00, 0x00, 0x00, 0x00, 0x00, 0x00, 0x00, 0x00, 0x00, 0x00, 0x00, 0x00, 0x00, 0x00,
   0x00, 0x00, 0x00, 0x00, 0x00, 0x00, 0x00, 0x00, 0x00, 0x00, 0x00, 0x00, 0x00, 0x00, 0x00, 0x00],
  [0xe0, 0xeb, 0x7a, 0x7c, 0x3b, 0x41, 0xb8, 0xae, 0x16, 0x56, 0xe3, 0xfa, 0xf1, 0x9f, 0xc4, 0x6a,
   0xda, 0x09, 0x8d, 0xeb, 0x9c, 0x32, 0xb1, 0xfd, 0x86, 0x62, 0x05, 0x16, 0x5f, 0x49, 0xb8, 0x00],
  [0x5f, 0x9c, 0x95, 0xbc, 0xa3, 0x50, 0x8c, 0x24, 0xb1, 0xd0, 0xb1, 0x55, 0x9c, 0x83, 0xef, 0x5b,
   0x04, 0x44, 0x5c, 0xc4, 0x58, 0x1c, 0x8e, 0x86, 0xd8, 0x22, 0x4e, 0xdd, 0xd0, 0x9f, 0x11, 0x57],
  [0xec, 0xff, 0xff, 0xff, 0xff, 0xff, 0xff, 0xff, 0xff, 0xff, 0xff, 0xff, 0xff, 0xff, 0xff, 0xff,
   0xff, 0xff, 0xff, 0xff, 0xff, 0xff, 0xff, 0xff, 0xff, 0xff, 0xff, 0xff, 0xff, 0xff, 0xff, 0x7f],
  [0xed, 0xff, 0xff, 0xff, 0xff, 0xff, 0xff, 0xff, 0xff, 0xff, 0xff, 0xff, 0xff, 0xff, 0xff, 0xff,
   0xff, 0xff, 0xff, 0xff, 0xff, 0xff, 0xff, 0xff, 0xff, 0xff, 0xff, 0xff, 0xff, 0xff, 0xff, 0x7f],
  [0xee, 0xff, 0xff, 0xff, 0xff, 0xff, 0xff, 0xff, 0xff, 0xff, 0xff, 0xff, 0xff, 0xff, 0xff, 0xff,
   0xff, 0xff, 0xff, 0xff, 0xff, 0xff, 0xff, 0xff, 0xff, 0xff, 0xff, 0xff, 0xff, 0xff, 0xff, 0x7f]]

/-- `c[i]` of `has_small_order`, `x25519_scalarmult_c.c:82-94`: the first loop over `j < 31` (lines
87-91), then the last byte without its top bit (92-94). -/
def blockDiff (s e : List Byte) : Byte :=
  (List.range 31).foldl (fun c j => c ||| (s.getD j 0 ^^^ e.getD j 0)) 0 |||
    ((s.getD 31 0 &&& 0x7f) ^^^ e.getD 31 0)

/-- `has_small_order`, `x25519_scalarmult_c.c:41-100`; `c[i] - 1` is an `int` converted to
`unsigned int`. -/
def hasSmallOrder (s : List Byte) : Nat :=
  let k := blocklist.foldl (fun k e => k ||| (((blockDiff s e).toNat + 2 ^ 32 - 1) % 2 ^ 32)) 0
  (k >>> 8) &&& 1

/-- The scalar after `x25519_scalarmult_c.c:116-121`. -/
def clamp (n : List Byte) : List Byte :=
  [n.getD 0 0 &&& 248] ++ (List.range 30).map (fun i => n.getD (i + 1) 0) ++ [(n.getD 31 0 &&& 127) ||| 64]

/-- `x2, z2, x3, z3` of the ladder. -/
structure Lad where
  x2 : Fe
  z2 : Fe
  x3 : Fe
  z3 : Fe
deriving DecidableEq, Repr

/-- `x25519_scalarmult_c.c:133-134` and 155-156. -/
def ladSwap (s : Lad) (b : Nat) : Lad :=
  ⟨(feCswap s.x2 s.x3 b).1, (feCswap s.z2 s.z3 b).1, (feCswap s.x2 s.x3 b).2, (feCswap s.z2 s.z3 b).2⟩

/-- `x25519_scalarmult_c.c:136-153`. -/
def ladStep (x1 : Fe) (s : Lad) : Lad :=
  let a := feAdd s.x2 s.z2
  let b := feSub s.x2 s.z2
  let aa := feSq a
  let bb := feSq b
  let x2 := feMul aa bb
  let e := feSub aa bb
  let da := feSub s.x3 s.z3
  let da := feMul da a
  let cb := feAdd s.x3 s.z3
  let cb := feMul cb b
  let x3 := feAdd da cb
  let x3 := feSq x3
  let z3 := feSub da cb
  let z3 := feSq z3
  let z3 := feMul z3 x1
  let z2 := feMul32 e 121666
  let z2 := feAdd z2 bb
  let z2 := feMul z2 e
  ⟨x2, z2, x3, z3⟩

/-- `bit = t[pos / 8] >> (pos & 7); bit &= 1`, `x25519_scalarmult_c.c:130-131`. -/
def scalarBit (t : List Byte) (pos : Nat) : Nat := ((t.getD (pos / 8) 0).toNat >>> (pos &&& 7)) &&& 1

/-- The loop of `x25519_scalarmult_c.c:129-154`; the first argument is `pos + 1`.  Result: the ladder
state and `swap`. -/
def ladder (x1 : Fe) (t : List Byte) : Nat → Lad → Nat → Lad × Nat
  | 0, s, swap => (s, swap)
  | pos + 1, s, swap =>
    let bit := scalarBit t pos
    ladder x1 t pos (ladStep x1 (ladSwap s (swap ^^^ bit))) bit

/-- `crypto_scalarmult_curve25519_c`, `x25519_scalarmult_c.c:102-165`: `none` for the return value
-1, where `q` is not written. -/
def scalarmult (n p : List Byte) : Option (List Byte) :=
  if hasSmallOrder p ≠ 0 then none
  else
    let t := clamp n
    let x1 := feFrombytes p
    let r := ladder x1 t 255 ⟨feOne, feZero, x1, feOne⟩ 0
    let s := ladSwap r.1 r.2
    let z2 := feInvert s.z2
    some (feTobytes (feMul s.x2 z2))

end LC.Curve
