/-
Model of the C implementation of ML-KEM polynomial arithmetic (`/repo/ml-kem/src`): reductions, NTT,
serialisation, compression, sampling.

An `int16_t coeffs[256]` is a function `Nat → Int` (entries from 256 on are meaningless); conversions
to `int16_t` wrap (`i16`).  `>>` on signed values is the arithmetic shift (floor division).
-/
namespace LC.Kyber

abbrev Byte := UInt8
abbrev Poly := Nat → Int

/-- `LC_KYBER_Q`, `ml-kem/api/lc_kyber_size.h.in:51`. -/
def q : Int := 3329

/-- Conversion to `int16_t`. -/
def i16 (x : Int) : Int := (x + 32768) % 65536 - 32768

/-- Assignment to an array element. -/
def upd (r : Poly) (i : Nat) (v : Int) : Poly := fun x => if x = i then v else r x

/-! ### `kyber_reduce.h` -/

/-- `montgomery_reduce`, `kyber_reduce.h:50-57`; `QINV` is -3327. -/
def montgomeryReduce (a : Int) : Int :=
  let t := i16 (i16 a * (-3327))
  i16 ((a - t * 3329) / 65536)

/-- `barrett_reduce`, `kyber_reduce.h:68-76`; `v = ((1 << 26) + q / 2) / q = 20159`. -/
def barrettReduce (a : Int) : Int :=
  let t := i16 ((20159 * a + 33554432) / 67108864)
  let t := i16 (t * 3329)
  i16 (a - t)

/-- `fqmul`, `kyber_reduce.h:86-89`. -/
def fqmul (a b : Int) : Int := montgomeryReduce (a * b)

/-! ### `kyber_zetas.c`, `kyber_ntt.c` -/

/-- `kyber_zetas`, `kyber_zetas.c:65-79`. -/
def zetaList : List Int := [
  -1044, -758, -359, -1517, 1493, 1422, 287, 202, -171, 622,
  1577, 182, 962, -1202, -1474, 1468, 573, -1325, 264, 383,
  -829, 1458, -1602, -130, -681, 1017, 732, 608, -1542, 411,
  -205, -1571, 1223, 652, -552, 1015, -1293, 1491, -282, -1544,
  516, -8, -320, -666, -1618, -1162, 126, 1469, -853, -90,
  -271, 830, 107, -1421, -247, -951, -398, 961, -1508, -725,
  448, -1065, 677, -1275, -1103, 430, 555, 843, -1251, 871,
  1550, 105, 422, 587, 177, -235, -291, -460, 1574, 1653,
  -246, 778, 1159, -147, -777, 1483, -602, 1119, -1590, 644,
  -872, 349, 418, 329, -156, -75, 817, 1097, 603, 610,
  1322, -1285, -1465, 384, -1215, -136, 1218, -1335, -874, 220,
  -1187, -1659, -1185, -1530, -1278, 794, -1510, -854, -870, 478,
  -108, -308, 996, 991, 958, -1460, 1522, 1628]

def zetas (k : Nat) : Int := zetaList.getD k 0

/-- Innermost loop of `kyber_ntt`, `kyber_ntt.c:39-43`; `cnt` iterations from `j`. -/
def nttInner (len : Nat) (zeta : Int) : Nat → Nat → Poly → Poly
  | 0, _, r => r
  | cnt + 1, j, r =>
    let t := fqmul zeta (r (j + len))
    let r := upd r (j + len) (i16 (r j - t))
    let r := upd r j (i16 (r j + t))
    nttInner len zeta cnt (j + 1) r

/-- Middle loop, `kyber_ntt.c:37-44`: (`k`, array). -/
def nttBlocks (len : Nat) : Nat → Nat → Nat → Poly → Nat × Poly
  | 0, k, _, r => (k, r)
  | fuel + 1, k, start, r =>
    if start < 256 then nttBlocks len fuel (k + 1) (start + len + len) (nttInner len (zetas k) len start r)
    else (k, r)

/-- Outer loop, `kyber_ntt.c:36-45`. -/
def nttLayers : Nat → Nat → Nat → Poly → Poly
  | 0, _, _, r => r
  | fuel + 1, len, k, r =>
    if len ≥ 2 then
      let b := nttBlocks len 256 k 0 r
      nttLayers fuel (len / 2) b.1 b.2
    else r

/-- `kyber_ntt`, `kyber_ntt.c:30-46`. -/
def kyberNtt (r : Poly) : Poly := nttLayers 8 128 1 r

/-- Innermost loop of `kyber_invntt`, `kyber_ntt.c:58-63`. -/
def invInner (len : Nat) (zeta : Int) : Nat → Nat → Poly → Poly
  | 0, _, r => r
  | cnt + 1, j, r =>
    let t := r j
    let r := upd r j (barrettReduce (i16 (t + r (j + len))))
    let r := upd r (j + len) (i16 (r (j + len) - t))
    let r := upd r (j + len) (fqmul zeta (r (j + len)))
    invInner len zeta cnt (j + 1) r

/-- Middle loop, `kyber_ntt.c:56-64`. -/
def invBlocks (len : Nat) : Nat → Nat → Nat → Poly → Nat × Poly
  | 0, k, _, r => (k, r)
  | fuel + 1, k, start, r =>
    if start < 256 then invBlocks len fuel (k - 1) (start + len + len) (invInner len (zetas k) len start r)
    else (k, r)

/-- Outer loop, `kyber_ntt.c:55-65`. -/
def invLayers : Nat → Nat → Nat → Poly → Poly
  | 0, _, _, r => r
  | fuel + 1, len, k, r =>
    if len ≤ 128 then
      let b := invBlocks len 256 k 0 r
      invLayers fuel (len * 2) b.1 b.2
    else r

/-- A loop `for (j = 0; j < 256; j++) r[j] = f(r[j])`. -/
def mapLoop (f : Int → Int) : Nat → Nat → Poly → Poly
  | 0, _, r => r
  | cnt + 1, j, r => mapLoop f cnt (j + 1) (upd r j (f (r j)))

/-- `kyber_invntt`, `kyber_ntt.c:48-69`. -/
def kyberInvntt (r : Poly) : Poly := mapLoop (fun x => fqmul x 1441) 256 0 (invLayers 8 2 127 r)

/-! ### `kyber_poly_c.h`, `kyber_poly.h`, `kyber_poly.c` -/

/-- `poly_reduce`, `kyber_poly_c.h:41-47`. -/
def polyReduce (r : Poly) : Poly := mapLoop barrettReduce 256 0 r

/-- `poly_add`, `kyber_poly_c.h:56-62` (element by element, so written pointwise). -/
def polyAdd (a b : Poly) : Poly := fun i => i16 (a i + b i)

/-- `poly_sub`, `kyber_poly_c.h:71-77`. -/
def polySub (a b : Poly) : Poly := fun i => i16 (a i - b i)

/-- `basemul`, `kyber_poly.c:51-58`. -/
def basemul (a0 a1 b0 b1 zeta : Int) : Int × Int :=
  let r0 := fqmul a1 b1
  let r0 := fqmul r0 zeta
  let r0 := i16 (r0 + fqmul a0 b0)
  let r1 := fqmul a0 b1
  let r1 := i16 (r1 + fqmul a1 b0)
  (r0, r1)

/-- `poly_basemul_montgomery`, `kyber_poly_c.h:87-98`: the entries `4i, .., 4i+3`; `-zeta` is
converted to `int16_t` by the call. -/
def polyBasemul (a b : Poly) : Poly := fun x =>
  let i := x / 4
  let zeta := zetas (64 + i)
  if x % 4 = 0 then (basemul (a (4 * i)) (a (4 * i + 1)) (b (4 * i)) (b (4 * i + 1)) zeta).1
  else if x % 4 = 1 then (basemul (a (4 * i)) (a (4 * i + 1)) (b (4 * i)) (b (4 * i + 1)) zeta).2
  else if x % 4 = 2 then
    (basemul (a (4 * i + 2)) (a (4 * i + 3)) (b (4 * i + 2)) (b (4 * i + 3)) (i16 (-zeta))).1
  else (basemul (a (4 * i + 2)) (a (4 * i + 3)) (b (4 * i + 2)) (b (4 * i + 3)) (i16 (-zeta))).2

/-- `poly_ntt`, `kyber_poly.h:295-299`. -/
def polyNtt (r : Poly) : Poly := polyReduce (kyberNtt r)

/-- `poly_tomont`, `kyber_poly.h:320-327`; `f = 2^32 mod q = 1353`. -/
def polyTomont (r : Poly) : Poly := mapLoop (fun x => montgomeryReduce (x * 1353)) 256 0 r

/-- Conversion to `uint16_t`. -/
def u16 (x : Int) : Nat := (x % 65536).toNat

/-- `t = (uint16_t)x; t += ((int16_t)t >> 15) & q`, `kyber_poly.h:136-137`, `kyber_polyvec.c:41-42`:
the mask is all ones for a negative value. -/
def addQ (x : Int) : Nat := if x < 0 then (u16 x + 3329) % 65536 else u16 x

/-- `poly_tobytes`, `kyber_poly.h:129-144`. -/
def polyTobytes (a : Poly) : List Byte :=
  (List.range 128).flatMap fun i =>
    let t0 := addQ (a (2 * i))
    let t1 := addQ (a (2 * i + 1))
    [UInt8.ofNat (t0 >>> 0), UInt8.ofNat ((t0 >>> 8) ||| (t1 <<< 4)), UInt8.ofNat (t1 >>> 4)]

/-- Byte `i` of a buffer as an integer. -/
def at8 (b : List Byte) (i : Nat) : Nat := (b.getD i 0).toNat

/-- `poly_frombytes`, `kyber_poly.h:153-165`. -/
def polyFrombytes (b : List Byte) : Poly := fun x =>
  let i := x / 2
  if x % 2 = 0 then ((((at8 b (3 * i)) >>> 0) ||| (at8 b (3 * i + 1) <<< 8)) &&& 0xfff : Nat)
  else (((at8 b (3 * i + 1) >>> 4) ||| (at8 b (3 * i + 2) <<< 4)) &&& 0xfff : Nat)

/-- `poly_frommsg`, `kyber_poly.h:173-231`: `mask & (q + 1) / 2` with the mask all ones if the bit is
set (the volatile `optimization_blocker_int16` is zero). -/
def polyFrommsg (msg : List Byte) : Poly := fun x =>
  if (at8 msg (x / 8) >>> (x % 8)) &&& 1 = 1 then 1665 else 0

/-- The bit computed by `poly_tomsg`, `kyber_poly.h:247-253`, in `uint32_t`. -/
def tomsgBit (c : Int) : Nat :=
  let t := (c % 4294967296).toNat
  let t := t <<< 1 % 4294967296
  let t := (t + (3329 - 3329 / 2)) % 4294967296
  let t := t * 80635 % 4294967296
  let t := t >>> 28
  t &&& 1

/-- `poly_tomsg`, `kyber_poly.h:239-258`. -/
def polyTomsg (a : Poly) : List Byte :=
  (List.range 32).map fun i =>
    (List.range 8).foldl (fun m j => m ||| UInt8.ofNat (tomsgBit (a (8 * i + j)) <<< j)) 0

/-- Compression with 4 bits, `kyber_poly.c:71-79` (`uint32_t`). -/
def comp4 (x : Int) : Nat :=
  let u := if x < 0 then x + 3329 else x
  let d0 := (u % 4294967296).toNat <<< 4 % 4294967296
  let d0 := (d0 + (3329 - 3329 / 2)) % 4294967296
  let d0 := d0 * 80635 % 4294967296
  (d0 >>> 28) &&& 0x0f

/-- Compression with 5 bits, `kyber_poly.c:91-99` (`uint32_t`). -/
def comp5 (x : Int) : Nat :=
  let u := if x < 0 then x + 3329 else x
  let d0 := (u % 4294967296).toNat <<< 5 % 4294967296
  let d0 := (d0 + 3329 / 2) % 4294967296
  let d0 := d0 * 40318 % 4294967296
  (d0 >>> 27) &&& 0x1f

/-- Compression with 10 bits, `kyber_polyvec.c:69-76` (`uint64_t`). -/
def comp10 (x : Int) : Nat :=
  let d0 := addQ x <<< 10
  let d0 := d0 + (3329 - 3329 / 2)
  let d0 := d0 * 1290167
  (d0 >>> 32) &&& 0x3ff

/-- Compression with 11 bits, `kyber_polyvec.c:41-49` (`uint64_t`). -/
def comp11 (x : Int) : Nat :=
  let d0 := addQ x <<< 11
  let d0 := d0 + 3329 / 2
  let d0 := d0 * 645084
  (d0 >>> 31) &&& 0x7ff

/-- Byte conversion. -/
def b8 (x : Nat) : Byte := UInt8.ofNat x

/-- `poly_compress` with 128 bytes, `kyber_poly.c:67-86`. -/
def polyCompress4 (a : Poly) : List Byte :=
  (List.range 32).flatMap fun i =>
    let t := fun j => comp4 (a (8 * i + j))
    [b8 (t 0 ||| t 1 <<< 4), b8 (t 2 ||| t 3 <<< 4), b8 (t 4 ||| t 5 <<< 4), b8 (t 6 ||| t 7 <<< 4)]

/-- `poly_compress` with 160 bytes, `kyber_poly.c:87-108`. -/
def polyCompress5 (a : Poly) : List Byte :=
  (List.range 32).flatMap fun i =>
    let t := fun j => comp5 (a (8 * i + j))
    [b8 (t 0 >>> 0 ||| t 1 <<< 5), b8 (t 1 >>> 3 ||| t 2 <<< 2 ||| t 3 <<< 7), b8 (t 3 >>> 1 ||| t 4 <<< 4),
     b8 (t 4 >>> 4 ||| t 5 <<< 1 ||| t 6 <<< 6), b8 (t 6 >>> 2 ||| t 7 <<< 3)]

/-- `poly_decompress` with 128 bytes, `kyber_poly.h:88-98`. -/
def polyDecompress4 (b : List Byte) : Poly := fun x =>
  let i := x / 2
  if x % 2 = 0 then ((((at8 b i) &&& 15) * 3329 + 8) >>> 4 : Nat)
  else (((at8 b i >>> 4) * 3329 + 8) >>> 4 : Nat)

/-- `poly_decompress` with 160 bytes, `kyber_poly.h:99-117`; the `t[j]` are `uint8_t`. -/
def polyDecompress5 (b : List Byte) : Poly := fun x =>
  let i := x / 8
  let a := fun j => at8 b (5 * i + j)
  let t := [a 0 >>> 0, a 0 >>> 5 ||| a 1 <<< 3, a 1 >>> 2, a 1 >>> 7 ||| a 2 <<< 1, a 2 >>> 4 ||| a 3 <<< 4,
    a 3 >>> 1, a 3 >>> 6 ||| a 4 <<< 2, a 4 >>> 3]
  (((t.getD (x % 8) 0 % 256 &&& 31) * 3329 + 16) >>> 5 : Nat)

/-- One polynomial of `polyvec_compress` with 320 bytes, `kyber_polyvec.c:65-87`. -/
def polyCompress10 (p : Poly) : List Byte :=
  (List.range 64).flatMap fun j =>
    let t := fun k => comp10 (p (4 * j + k))
    [b8 (t 0 >>> 0), b8 (t 0 >>> 8 ||| t 1 <<< 2), b8 (t 1 >>> 6 ||| t 2 <<< 4), b8 (t 2 >>> 4 ||| t 3 <<< 6),
     b8 (t 3 >>> 2)]

/-- One polynomial of `polyvec_compress` with 352 bytes, `kyber_polyvec.c:37-63`. -/
def polyCompress11 (p : Poly) : List Byte :=
  (List.range 32).flatMap fun j =>
    let t := fun k => comp11 (p (8 * j + k))
    [b8 (t 0 >>> 0), b8 (t 0 >>> 8 ||| t 1 <<< 3), b8 (t 1 >>> 5 ||| t 2 <<< 6), b8 (t 2 >>> 2),
     b8 (t 2 >>> 10 ||| t 3 <<< 1), b8 (t 3 >>> 7 ||| t 4 <<< 4), b8 (t 4 >>> 4 ||| t 5 <<< 7), b8 (t 5 >>> 1),
     b8 (t 5 >>> 9 ||| t 6 <<< 2), b8 (t 6 >>> 6 ||| t 7 <<< 5), b8 (t 7 >>> 3)]

/-- One polynomial of `polyvec_decompress` with 320 bytes, `kyber_polyvec.c:124-141`; the `t[k]` are
`uint16_t`. -/
def polyDecompress10 (b : List Byte) : Poly := fun x =>
  let i := x / 4
  let a := fun j => at8 b (5 * i + j)
  let t := [a 0 >>> 0 ||| a 1 <<< 8, a 1 >>> 2 ||| a 2 <<< 6, a 2 >>> 4 ||| a 3 <<< 4, a 3 >>> 6 ||| a 4 <<< 2]
  (((t.getD (x % 4) 0 % 65536 &&& 0x3ff) * 3329 + 512) >>> 10 : Nat)

/-- One polynomial of `polyvec_decompress` with 352 bytes, `kyber_polyvec.c:100-123`. -/
def polyDecompress11 (b : List Byte) : Poly := fun x =>
  let i := x / 8
  let a := fun j => at8 b (11 * i + j)
  let t := [a 0 >>> 0 ||| a 1 <<< 8, a 1 >>> 3 ||| a 2 <<< 5, a 2 >>> 6 ||| a 3 <<< 2 ||| a 4 <<< 10,
    a 4 >>> 1 ||| a 5 <<< 7, a 5 >>> 4 ||| a 6 <<< 4, a 6 >>> 7 ||| a 7 <<< 1 ||| a 8 <<< 9,
    a 8 >>> 2 ||| a 9 <<< 6, a 9 >>> 5 ||| a 10 <<< 3]
  (((t.getD (x % 8) 0 % 65536 &&& 0x7ff) * 3329 + 1024) >>> 11 : Nat)

/-! ### `kyber_cbd.c` -/

/-- `ptr_to_le32` and `load24_littleendian`, `kyber_cbd.c:39-47`: `n` bytes, little endian. -/
def loadLe (b : List Byte) (off : Nat) : Nat → Nat
  | 0 => 0
  | n + 1 => loadLe b off n ||| at8 b (off + n) <<< (8 * n)

/-- `cbd2`, `kyber_cbd.c:57-74`. -/
def cbd2 (buf : List Byte) : Poly := fun x =>
  let i := x / 8
  let j := x % 8
  let t := loadLe buf (4 * i) 4
  let d := t &&& 0x55555555
  let d := d + ((t >>> 1) &&& 0x55555555)
  let a := (d >>> (4 * j + 0)) &&& 0x3
  let b := (d >>> (4 * j + 2)) &&& 0x3
  i16 ((a : Int) - (b : Int))

/-- `cbd3`, `kyber_cbd.c:85-103`. -/
def cbd3 (buf : List Byte) : Poly := fun x =>
  let i := x / 4
  let j := x % 4
  let t := loadLe buf (3 * i) 3
  let d := t &&& 0x00249249
  let d := d + ((t >>> 1) &&& 0x00249249)
  let d := d + ((t >>> 2) &&& 0x00249249)
  let a := (d >>> (6 * j + 0)) &&& 0x7
  let b := (d >>> (6 * j + 3)) &&& 0x7
  i16 ((a : Int) - (b : Int))

/-! ### `rej_uniform`, `gen_matrix` -/

/-- Loop of `rej_uniform`, `kyber_indcpa.c:147-159`: the values written from `r[ctr]` on. -/
def rejLoop (len : Nat) (buf : List Byte) : Nat → Nat → Nat → List Int
  | 0, _, _ => []
  | fuel + 1, ctr, pos =>
    if ctr < len ∧ pos + 3 ≤ buf.length then
      let val0 := ((at8 buf pos >>> 0) ||| (at8 buf (pos + 1) <<< 8)) &&& 0xfff
      let val1 := ((at8 buf (pos + 1) >>> 4) ||| (at8 buf (pos + 2) <<< 4)) &&& 0xfff
      let w0 : List Int := if val0 < 3329 then [(val0 : Int)] else []
      let ctr := ctr + w0.length
      let w1 : List Int := if ctr < len ∧ val1 < 3329 then [(val1 : Int)] else []
      let ctr := ctr + w1.length
      w0 ++ w1 ++ rejLoop len buf fuel ctr (pos + 3)
    else []

/-- `rej_uniform`, `kyber_indcpa.c:141-162`: the written values (their number is the result). -/
def rejUniform (len : Nat) (buf : List Byte) : List Int := rejLoop len buf (buf.length + 1) 0 0

/-- Refill loop of `gen_matrix`, `kyber_indcpa.c:209-222`, on the XOF output `s` from position `pos`;
`buflen` is the length of the previous buffer.  `none` if `fuel` refills do not suffice. -/
def genLoop (s : Nat → Byte) : Nat → Nat → List Byte → List Int → Option (List Int)
  | 0, _, _, acc => if acc.length < 256 then none else some acc
  | fuel + 1, pos, buf, acc =>
    if acc.length < 256 then
      let off := buf.length % 3
      let buf' := buf.drop (buf.length - off) ++ (List.range 168).map fun i => s (pos + i)
      genLoop s fuel (pos + 168) buf' (acc ++ rejUniform (256 - acc.length) buf')
    else some acc

/-- One entry of `gen_matrix`, `kyber_indcpa.c:202-223`: 504 bytes (`GEN_MATRIX_NBLOCKS` is 3), then
refills of one block.  `s` is the output stream of the XOF. -/
def genEntry (s : Nat → Byte) (fuel : Nat) : Option (List Int) :=
  let buf := (List.range 504).map s
  genLoop s fuel 504 buf (rejUniform 256 buf)

end LC.Kyber
