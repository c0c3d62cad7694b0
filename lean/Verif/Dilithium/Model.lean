import Verif.Kyber.Model
/-
Model of the C implementation of ML-DSA polynomial arithmetic (`/repo/ml-dsa/src`): reductions, NTT,
rounding, bit packing.

An `int32_t coeffs[256]` is a function `Nat → Int` (entries from 256 on are meaningless).  The
library is compiled with `-fwrapv` (`meson.build:34`), so signed arithmetic wraps (`i32`).  `>>` on
signed values is the arithmetic shift (floor division); a mask `x >> 31` is all ones for negative
`x` and zero otherwise, so `(x >> 31) & y` is written `if x < 0 then y else 0`.
-/
namespace LC.Dilithium
open LC.Kyber (Poly Byte upd mapLoop at8 b8)

/-- A parameter set, `ml-dsa/api/lc_dilithium_size.h.in:62-120`. -/
structure Params where
  k : Nat
  l : Nat
  eta : Nat
  tau : Nat
  beta : Nat
  gamma1 : Nat
  gamma2 : Nat
  omega : Nat
  ctilde : Nat
  category : Nat
deriving DecidableEq

/-- `LC_DILITHIUM_MODE == 2`, `lc_dilithium_size.h.in:63-72,100`. -/
def mldsa44 : Params := ⟨4, 4, 2, 39, 78, 131072, 95232, 80, 32, 1⟩
/-- `LC_DILITHIUM_MODE == 3`, `lc_dilithium_size.h.in:75-84,100`. -/
def mldsa65 : Params := ⟨6, 5, 4, 49, 196, 524288, 261888, 55, 48, 3⟩
/-- `LC_DILITHIUM_MODE == 5`, `lc_dilithium_size.h.in:87-96,100`. -/
def mldsa87 : Params := ⟨8, 7, 2, 60, 120, 524288, 261888, 75, 64, 5⟩

/-- The three modes the library is compiled for. -/
def Params.Ok (p : Params) : Prop := p = mldsa44 ∨ p = mldsa65 ∨ p = mldsa87

/-- Conversion to `int32_t`. -/
def i32 (x : Int) : Int := (x + 2147483648) % 4294967296 - 2147483648

/-- Conversion to `uint32_t`. -/
def u32 (x : Int) : Nat := (x % 4294967296).toNat

/-! ### `dilithium_reduce.h` -/

/-- `montgomery_reduce`, `dilithium_reduce.h:51-58`; the argument is an `int64_t`. -/
def montgomeryReduce (a : Int) : Int :=
  let t := i32 (i32 a * 58728449)
  i32 ((a - t * 8380417) / 4294967296)

/-- `reduce32`, `dilithium_reduce.h:69-76`. -/
def reduce32 (a : Int) : Int :=
  let t := i32 (a + 4194304) / 8388608
  i32 (a - i32 (t * 8380417))

/-- `caddq`, `dilithium_reduce.h:85-89`. -/
def caddq (a : Int) : Int := i32 (a + (if a < 0 then 8380417 else 0))

/-- `freeze`, `dilithium_reduce.h:99-104`. -/
def freeze (a : Int) : Int :=
  let a := reduce32 a
  caddq a

/-! ### `dilithium_zetas.c`, `dilithium_ntt.c` -/

/-- `dilithium_zetas`, `dilithium_zetas.c:30-68`. -/
def zetaList : List Int := [
  0, 25847, -2608894, -518909, 237124, -777960, -876248, 466468, 1826347, 2353451,
  -359251, -2091905, 3119733, -2884855, 3111497, 2680103, 2725464, 1024112, -1079900, 3585928,
  -549488, -1119584, 2619752, -2108549, -2118186, -3859737, -1399561, -3277672, 1757237, -19422,
  4010497, 280005, 2706023, 95776, 3077325, 3530437, -1661693, -3592148, -2537516, 3915439,
  -3861115, -3043716, 3574422, -2867647, 3539968, -300467, 2348700, -539299, -1699267, -1643818,
  3505694, -3821735, 3507263, -2140649, -1600420, 3699596, 811944, 531354, 954230, 3881043,
  3900724, -2556880, 2071892, -2797779, -3930395, -1528703, -3677745, -3041255, -1452451, 3475950,
  2176455, -1585221, -1257611, 1939314, -4083598, -1000202, -3190144, -3157330, -3632928, 126922,
  3412210, -983419, 2147896, 2715295, -2967645, -3693493, -411027, -2477047, -671102, -1228525,
  -22981, -1308169, -381987, 1349076, 1852771, -1430430, -3343383, 264944, 508951, 3097992,
  44288, -1100098, 904516, 3958618, -3724342, -8578, 1653064, -3249728, 2389356, -210977,
  759969, -1316856, 189548, -3553272, 3159746, -1851402, -2409325, -177440, 1315589, 1341330,
  1285669, -1584928, -812732, -1439742, -3019102, -3881060, -3628969, 3839961, 2091667, 3407706,
  2316500, 3817976, -3342478, 2244091, -2446433, -3562462, 266997, 2434439, -1235728, 3513181,
  -3520352, -3759364, -1197226, -3193378, 900702, 1859098, 909542, 819034, 495491, -1613174,
  -43260, -522500, -655327, -3122442, 2031748, 3207046, -3556995, -525098, -768622, -3595838,
  342297, 286988, -2437823, 4108315, 3437287, -3342277, 1735879, 203044, 2842341, 2691481,
  -2590150, 1265009, 4055324, 1247620, 2486353, 1595974, -3767016, 1250494, 2635921, -3548272,
  -2994039, 1869119, 1903435, -1050970, -1333058, 1237275, -3318210, -1430225, -451100, 1312455,
  3306115, -1962642, -1279661, 1917081, -2546312, -1374803, 1500165, 777191, 2235880, 3406031,
  -542412, -2831860, -1671176, -1846953, -2584293, -3724270, 594136, -3776993, -2013608, 2432395,
  2454455, -164721, 1957272, 3369112, 185531, -1207385, -3183426, 162844, 1616392, 3014001,
  810149, 1652634, -3694233, -1799107, -3038916, 3523897, 3866901, 269760, 2213111, -975884,
  1717735, 472078, -426683, 1723600, -1803090, 1910376, -1667432, -1104333, -260646, -3833893,
  -2939036, -2235985, -420899, -2286327, 183443, -976891, 1612842, -3545687, -554416, 3919660,
  -48306, -1362209, 3937738, 1400424, -846154, 1976782]

def zetas (k : Nat) : Int := zetaList.getD k 0

/-- Innermost loop of `ntt`, `dilithium_ntt.c:49-54`; `cnt` iterations from `j`. -/
def nttInner (len : Nat) (zeta : Int) : Nat → Nat → Poly → Poly
  | 0, _, a => a
  | cnt + 1, j, a =>
    let t := montgomeryReduce (zeta * a (j + len))
    let a := upd a (j + len) (i32 (a j - t))
    let a := upd a j (i32 (a j + t))
    nttInner len zeta cnt (j + 1) a

/-- Middle loop, `dilithium_ntt.c:47-55`: (`k`, array). -/
def nttBlocks (len : Nat) : Nat → Nat → Nat → Poly → Nat × Poly
  | 0, k, _, a => (k, a)
  | fuel + 1, k, start, a =>
    if start < 256 then nttBlocks len fuel (k + 1) (start + len + len) (nttInner len (zetas (k + 1)) len start a)
    else (k, a)

/-- Outer loop, `dilithium_ntt.c:46-56`. -/
def nttLayers : Nat → Nat → Nat → Poly → Poly
  | 0, _, _, a => a
  | fuel + 1, len, k, a =>
    if len > 0 then
      let b := nttBlocks len 256 k 0 a
      nttLayers fuel (len / 2) b.1 b.2
    else a

/-- `ntt`, `dilithium_ntt.c:39-57`. -/
def ntt (a : Poly) : Poly := nttLayers 9 128 0 a

/-- Innermost loop of `invntt_tomont`, `dilithium_ntt.c:79-85`. -/
def invInner (len : Nat) (zeta : Int) : Nat → Nat → Poly → Poly
  | 0, _, a => a
  | cnt + 1, j, a =>
    let t := a j
    let a := upd a j (i32 (t + a (j + len)))
    let a := upd a (j + len) (i32 (t - a (j + len)))
    let a := upd a (j + len) (montgomeryReduce (zeta * a (j + len)))
    invInner len zeta cnt (j + 1) a

/-- Middle loop, `dilithium_ntt.c:77-86`; `zeta = -zetas[--k]`. -/
def invBlocks (len : Nat) : Nat → Nat → Nat → Poly → Nat × Poly
  | 0, k, _, a => (k, a)
  | fuel + 1, k, start, a =>
    if start < 256 then
      invBlocks len fuel (k - 1) (start + len + len) (invInner len (i32 (-zetas (k - 1))) len start a)
    else (k, a)

/-- Outer loop, `dilithium_ntt.c:76-87`. -/
def invLayers : Nat → Nat → Nat → Poly → Poly
  | 0, _, _, a => a
  | fuel + 1, len, k, a =>
    if len < 256 then
      let b := invBlocks len 256 k 0 a
      invLayers fuel (len * 2) b.1 b.2
    else a

/-- `invntt_tomont`, `dilithium_ntt.c:68-91`; `f = 41978`. -/
def invntt (a : Poly) : Poly := mapLoop (fun x => montgomeryReduce (41978 * x)) 256 0 (invLayers 9 1 256 a)

/-! ### `dilithium_poly.h`, `dilithium_poly_c.h` (element by element, so written pointwise) -/

/-- `poly_add`, `dilithium_poly.h:51-57`. -/
def polyAdd (a b : Poly) : Poly := fun i => i32 (a i + b i)
/-- `poly_sub`, `dilithium_poly.h:68-74`. -/
def polySub (a b : Poly) : Poly := fun i => i32 (a i - b i)
/-- `poly_shiftl`, `dilithium_poly.h:83-89`. -/
def polyShiftl (a : Poly) : Poly := fun i => i32 (a i * 8192)
/-- `poly_reduce`, `dilithium_poly_c.h:35-41`. -/
def polyReduce (a : Poly) : Poly := fun i => reduce32 (a i)
/-- `poly_caddq`, `dilithium_poly_c.h:49-55`. -/
def polyCaddq (a : Poly) : Poly := fun i => caddq (a i)
/-- `poly_pointwise_montgomery`, `dilithium_poly_c.h:67-75`. -/
def polyPointwise (a b : Poly) : Poly := fun i => montgomeryReduce (a i * b i)

/-- `poly_chknorm`, `dilithium_poly.c:43-66`: true for the return value 1; `cnt` coefficients from
`i`. -/
def chkLoop (a : Poly) (B : Int) : Nat → Nat → Bool
  | 0, _ => false
  | cnt + 1, i =>
    let t := i32 (a i - (if a i < 0 then i32 (2 * a i) else 0))
    if t ≥ B then true else chkLoop a B cnt (i + 1)

def polyChknorm (a : Poly) (B : Int) : Bool := if B > 1047552 then true else chkLoop a B 256 0

/-! ### `dilithium_rounding.c` -/

/-- `power2round`, `dilithium_rounding.c:40-47`: (`a1`, `a0`). -/
def power2round (a : Int) : Int × Int :=
  let a1 := i32 (i32 (a + 4096) - 1) / 8192
  (a1, i32 (a - i32 (a1 * 8192)))

/-- `decompose`, `dilithium_rounding.c:61-80`: (`a1`, `a0`); `x & 15` is `x % 16`, and
`a1 ^= mask & a1` clears `a1` if the mask is set. -/
def decompose (gamma2 : Nat) (a : Int) : Int × Int :=
  let a1 := i32 (a + 127) / 128
  let a1 :=
    if gamma2 = 261888 then i32 (i32 (a1 * 1025) + 2097152) / 4194304 % 16
    else
      let a1 := i32 (i32 (a1 * 11275) + 8388608) / 16777216
      if 43 - a1 < 0 then 0 else a1
  let a0 := i32 (a - i32 (i32 (a1 * 2) * gamma2))
  let a0 := i32 (a0 - (if i32 (4190208 - a0) < 0 then 8380417 else 0))
  (a1, a0)

/-- `make_hint`, `dilithium_rounding.c:91-98`. -/
def makeHint (gamma2 : Nat) (a0 a1 : Int) : Int :=
  if a0 > gamma2 ∨ a0 < -gamma2 ∨ (a0 = -gamma2 ∧ a1 ≠ 0) then 1 else 0

/-- `use_hint`, `dilithium_rounding.c:108-129`. -/
def useHint (gamma2 : Nat) (a hint : Int) : Int :=
  let d := decompose gamma2 a
  let a1 := d.1
  let a0 := d.2
  if hint = 0 then a1
  else if gamma2 = 261888 then
    if a0 > 0 then i32 (a1 + 1) % 16 else i32 (a1 - 1) % 16
  else
    if a0 > 0 then (if a1 = 43 then 0 else i32 (a1 + 1)) else (if a1 = 0 then 43 else i32 (a1 - 1))

/-! ### Bit packing, `dilithium_poly.c`

Operands of `|`, `<<`, `>>` whose result is converted to `uint8_t` are taken as `uint32_t`: only the
low eight bits matter, and those of an arithmetic and a logical shift agree. -/

/-- `polyeta_pack`, `dilithium_poly.c:223-255`; `t[j] = (uint8_t)(ETA - a[..])`. -/
def polyetaPack (eta : Nat) (a : Poly) : List Byte :=
  if eta = 2 then
    (List.range 32).flatMap fun i =>
      let t := fun j => (((2 : Int) - a (8 * i + j)) % 256).toNat
      [b8 (t 0 >>> 0 ||| t 1 <<< 3 ||| t 2 <<< 6), b8 (t 2 >>> 2 ||| t 3 <<< 1 ||| t 4 <<< 4 ||| t 5 <<< 7),
       b8 (t 5 >>> 1 ||| t 6 <<< 2 ||| t 7 <<< 5)]
  else
    (List.range 128).flatMap fun i =>
      let t := fun j => (((4 : Int) - a (2 * i + j)) % 256).toNat
      [b8 (t 0 ||| t 1 <<< 4)]

/-- `polyeta_unpack`, `dilithium_poly.c:263-299`. -/
def polyetaUnpack (eta : Nat) (b : List Byte) : Poly := fun x =>
  if eta = 2 then
    let i := x / 8
    let a := fun j => at8 b (3 * i + j)
    let t := [a 0 >>> 0 &&& 7, a 0 >>> 3 &&& 7, (a 0 >>> 6 ||| a 1 <<< 2) &&& 7, a 1 >>> 1 &&& 7, a 1 >>> 4 &&& 7,
      (a 1 >>> 7 ||| a 2 <<< 1) &&& 7, a 2 >>> 2 &&& 7, a 2 >>> 5 &&& 7]
    2 - (t.getD (x % 8) 0 : Nat)
  else
    let i := x / 2
    let t := [at8 b i &&& 0x0F, at8 b i >>> 4]
    4 - (t.getD (x % 2) 0 : Nat)

/-- `polyt1_pack`, `dilithium_poly.c:310-324`. -/
def polyt1Pack (a : Poly) : List Byte :=
  (List.range 64).flatMap fun i =>
    let t := fun j => u32 (a (4 * i + j))
    [b8 (t 0 >>> 0), b8 (t 0 >>> 8 ||| t 1 <<< 2), b8 (t 1 >>> 6 ||| t 2 <<< 4), b8 (t 2 >>> 4 ||| t 3 <<< 6),
     b8 (t 3 >>> 2)]

/-- `polyt1_unpack`, `dilithium_poly_c.h:102-120`. -/
def polyt1Unpack (b : List Byte) : Poly := fun x =>
  let i := x / 4
  let a := fun j => at8 b (5 * i + j)
  let t := [(a 0 >>> 0 ||| a 1 <<< 8) &&& 0x3FF, (a 1 >>> 2 ||| a 2 <<< 6) &&& 0x3FF,
    (a 2 >>> 4 ||| a 3 <<< 4) &&& 0x3FF, (a 3 >>> 6 ||| a 4 <<< 2) &&& 0x3FF]
  (t.getD (x % 4) 0 : Nat)

/-- `polyt0_pack`, `dilithium_poly.c:334-380`. -/
def polyt0Pack (a : Poly) : List Byte :=
  (List.range 32).flatMap fun i =>
    let t := fun j => u32 (4096 - a (8 * i + j))
    [b8 (t 0), b8 (t 0 >>> 8) ||| b8 (t 1 <<< 5), b8 (t 1 >>> 3), b8 (t 1 >>> 11) ||| b8 (t 2 <<< 2),
     b8 (t 2 >>> 6) ||| b8 (t 3 <<< 7), b8 (t 3 >>> 1), b8 (t 3 >>> 9) ||| b8 (t 4 <<< 4), b8 (t 4 >>> 4),
     b8 (t 4 >>> 12) ||| b8 (t 5 <<< 1), b8 (t 5 >>> 7) ||| b8 (t 6 <<< 6), b8 (t 6 >>> 2),
     b8 (t 6 >>> 10) ||| b8 (t 7 <<< 3), b8 (t 7 >>> 5)]

/-- `polyt0_unpack`, `dilithium_poly.c:389-447`. -/
def polyt0Unpack (b : List Byte) : Poly := fun x =>
  let i := x / 8
  let a := fun j => at8 b (13 * i + j)
  let t := [(a 0 ||| a 1 <<< 8) &&& 0x1FFF, (a 1 >>> 5 ||| a 2 <<< 3 ||| a 3 <<< 11) &&& 0x1FFF,
    (a 3 >>> 2 ||| a 4 <<< 6) &&& 0x1FFF, (a 4 >>> 7 ||| a 5 <<< 1 ||| a 6 <<< 9) &&& 0x1FFF,
    (a 6 >>> 4 ||| a 7 <<< 4 ||| a 8 <<< 12) &&& 0x1FFF, (a 8 >>> 1 ||| a 9 <<< 7) &&& 0x1FFF,
    (a 9 >>> 6 ||| a 10 <<< 2 ||| a 11 <<< 10) &&& 0x1FFF, (a 11 >>> 3 ||| a 12 <<< 5) &&& 0x1FFF]
  4096 - (t.getD (x % 8) 0 : Nat)

/-- `polyz_pack`, `dilithium_poly.c:457-499`. -/
def polyzPack (gamma1 : Nat) (a : Poly) : List Byte :=
  if gamma1 = 131072 then
    (List.range 64).flatMap fun i =>
      let t := fun j => u32 (131072 - a (4 * i + j))
      [b8 (t 0), b8 (t 0 >>> 8), b8 (t 0 >>> 16) ||| b8 (t 1 <<< 2), b8 (t 1 >>> 6), b8 (t 1 >>> 14) ||| b8 (t 2 <<< 4),
       b8 (t 2 >>> 4), b8 (t 2 >>> 12) ||| b8 (t 3 <<< 6), b8 (t 3 >>> 2), b8 (t 3 >>> 10)]
  else
    (List.range 128).flatMap fun i =>
      let t := fun j => u32 (524288 - a (2 * i + j))
      [b8 (t 0), b8 (t 0 >>> 8), b8 (t 0 >>> 16) ||| b8 (t 1 <<< 4), b8 (t 1 >>> 4), b8 (t 1 >>> 12)]

/-- `polyz_unpack`, `dilithium_poly.c:508-563`. -/
def polyzUnpack (gamma1 : Nat) (b : List Byte) : Poly := fun x =>
  if gamma1 = 131072 then
    let i := x / 4
    let a := fun j => at8 b (9 * i + j)
    let t := [(a 0 ||| a 1 <<< 8 ||| a 2 <<< 16) &&& 0x3FFFF, (a 2 >>> 2 ||| a 3 <<< 6 ||| a 4 <<< 14) &&& 0x3FFFF,
      (a 4 >>> 4 ||| a 5 <<< 4 ||| a 6 <<< 12) &&& 0x3FFFF, (a 6 >>> 6 ||| a 7 <<< 2 ||| a 8 <<< 10) &&& 0x3FFFF]
    131072 - (t.getD (x % 4) 0 : Nat)
  else
    let i := x / 2
    let a := fun j => at8 b (5 * i + j)
    let t := [(a 0 ||| a 1 <<< 8 ||| a 2 <<< 16) &&& 0xFFFFF, (a 2 >>> 4 ||| a 3 <<< 4 ||| a 4 <<< 12) &&& 0xFFFFF]
    524288 - (t.getD (x % 2) 0 : Nat)

/-- `polyw1_pack`, `dilithium_poly.c:574-594`. -/
def polyw1Pack (gamma2 : Nat) (a : Poly) : List Byte :=
  if gamma2 = 95232 then
    (List.range 64).flatMap fun i =>
      let t := fun j => u32 (a (4 * i + j))
      [b8 (t 0) ||| b8 (t 1 <<< 6), b8 (t 1 >>> 2) ||| b8 (t 2 <<< 4), b8 (t 2 >>> 4) ||| b8 (t 3 <<< 2)]
  else
    (List.range 128).flatMap fun i =>
      let t := fun j => u32 (a (2 * i + j))
      [b8 (t 0 ||| t 1 <<< 4)]

end LC.Dilithium
