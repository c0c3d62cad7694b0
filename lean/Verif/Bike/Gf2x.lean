/-
Model of the polynomial arithmetic of BIKE, the ring F_2[x]/(x^r - 1):
bike/src/bike_gf2x_mul_base_portable.c, bike_gf2x_mul_portable.c, bike_gf2x_mul.c,
bike_gf2x_ksqr_portable.c, bike_gf2x_inv.c.

The portable (PORTABLE_INTERNAL) implementations are modelled; the AVX2, AVX-512 and
carry-less-multiply ones are not.  A `uint64_t` is a `Nat` below `2^64`, a buffer is the list of
its 64-bit words (the code reaches the same memory as bytes and as words on a little-endian
machine; on a big-endian one the library refuses, bike_kem.c:210-214).
-/
namespace LC.Bike

/-- Values of a `uint64_t`. -/
abbrev W : Nat := 2 ^ 64

/-- The parameters of one security level, bike/api/lc_bike_size.h.in:45-104, and the tables of
bike_gf2x_inv.c:96-134.  `k` is the logarithm of `LC_BIKE_R_PADDED_QWORDS`
(bike_internal.h:76-80: the block is the whole padded polynomial). -/
structure Par where
  R : Nat
  D : Nat
  T : Nat
  coeff0 : Nat
  coeff1 : Nat
  thrMin : Nat
  k : Nat
  exp0k : List Nat
  exp0l : List Nat
  exp1k : List Nat
  exp1l : List Nat

/-- Level 1, bike/api/lc_bike_size.h.in:49-70, bike_gf2x_inv.c:98-106. -/
def L1 : Par where
  R := 12323
  D := 71
  T := 134
  coeff0 := 1353000000
  coeff1 := 697220
  thrMin := 36
  k := 8
  exp0k := [1, 2, 4, 8, 16, 32, 64, 128, 256, 512, 1024, 2048, 4096, 8192]
  exp0l := [6162, 3081, 3851, 5632, 22, 484, 119, 1838, 1742, 3106, 10650, 1608, 10157, 8816]
  exp1k := [0, 0, 0, 0, 0, 1, 0, 0, 0, 0, 0, 0, 33, 4129]
  exp1l := [0, 0, 0, 0, 0, 6162, 0, 0, 0, 0, 0, 0, 242, 5717]

/-- Level 3, bike/api/lc_bike_size.h.in:72-86, bike_gf2x_inv.c:110-118. -/
def L3 : Par where
  R := 24659
  D := 103
  T := 199
  coeff0 := 1525880000
  coeff1 := 526500
  thrMin := 52
  k := 9
  exp0k := [1, 2, 4, 8, 16, 32, 64, 128, 256, 512, 1024, 2048, 4096, 8192, 16384]
  exp0l := [12330, 6165, 7706, 3564, 2711, 1139, 15053, 1258, 4388, 20524, 9538, 6393, 10486,
    1715, 6804]
  exp1k := [0, 0, 0, 0, 1, 0, 17, 0, 0, 0, 0, 0, 0, 81, 8273]
  exp1l := [0, 0, 0, 0, 12330, 0, 13685, 0, 0, 0, 0, 0, 0, 23678, 19056]

/-- Level 5, bike/api/lc_bike_size.h.in:88-101, bike_gf2x_inv.c:122-132. -/
def L5 : Par where
  R := 40973
  D := 137
  T := 264
  coeff0 := 1787850000
  coeff1 := 402312
  thrMin := 69
  k := 10
  exp0k := [1, 2, 4, 8, 16, 32, 64, 128, 256, 512, 1024, 2048, 4096, 8192, 16384, 32768]
  exp0l := [20487, 30730, 28169, 9443, 13001, 12376, 8302, 6618, 38760, 21582, 1660, 10409, 14669,
    30338, 17745, 7520]
  exp1k := [0, 1, 0, 3, 0, 0, 0, 0, 0, 0, 0, 0, 0, 11, 0, 8203]
  exp1l := [0, 20487, 0, 15365, 0, 0, 0, 0, 0, 0, 0, 0, 0, 6302, 0, 10058]

/-- `LC_BIKE_R_QWORDS`, bike_internal.h:67-68. -/
def Par.rq (p : Par) : Nat := (p.R + 63) / 64
/-- `LC_BIKE_LAST_R_QWORD_LEAD`, bike_internal.h:84. -/
def Par.lead (p : Par) : Nat := p.R % 64
/-- `LC_BIKE_LAST_R_QWORD_TRAIL`, bike_internal.h:85. -/
def Par.trail (p : Par) : Nat := 64 - p.lead
/-- `LC_BIKE_R_BYTES`, bike/api/lc_bike_size.h.in:109. -/
def Par.rb (p : Par) : Nat := (p.R + 7) / 8
/-- `LC_BIKE_R_PADDED_QWORDS`, bike_internal.h:76-80. -/
def Par.pq (p : Par) : Nat := 2 ^ p.k

/-- `secure_cmpeq64_mask`, bike_utilities.h:130-133. -/
def cmpeqMask (v1 v2 : Nat) : Nat :=
  (W - (1 - ((((v1 + W - v2) % W) ||| ((v2 + W - v1) % W)) >>> 63))) % W

/-- `LSB3`, bike_gf2x_mul_base_portable.c:33. -/
def lsb3 (x : Nat) : Nat := x &&& 7

/-- The table `u[8]` of step 1, bike_gf2x_mul_base_portable.c:55-62. -/
def mulTable (b0m : Nat) : List Nat :=
  let u2 := (b0m <<< 1) % W
  let u3 := u2 ^^^ b0m
  let u4 := (u2 <<< 1) % W
  let u6 := (u3 <<< 1) % W
  [0, b0m, u2, u3, u4, u4 ^^^ b0m, u6, u6 ^^^ b0m]

/-- The masked table read, bike_gf2x_mul_base_portable.c:76-82. -/
def sel (u : List Nat) (v : Nat) : Nat :=
  (List.range 8).foldl (fun g j => g ^^^ (u.getD j 0 &&& cmpeqMask v j)) 0

/-- Step 2, first loop, bike_gf2x_mul_base_portable.c:65-70: windows 0 and 3. -/
def mulWin0 (u : List Nat) (a0 : Nat) : Nat × Nat :=
  (List.range 8).foldl (fun lh i =>
    ((lh.1 ^^^ (u.getD i 0 &&& cmpeqMask (lsb3 a0) i)) ^^^
        (((u.getD i 0 <<< 3) % W) &&& cmpeqMask (lsb3 (a0 >>> 3)) i),
      lh.2 ^^^ ((u.getD i 0 >>> 61) &&& cmpeqMask (lsb3 (a0 >>> 3)) i))) (0, 0)

/-- Step 2, second loop body, bike_gf2x_mul_base_portable.c:72-86: windows `i` and `i + 3`. -/
def mulWin (u : List Nat) (a0 : Nat) (lh : Nat × Nat) (i : Nat) : Nat × Nat :=
  (lh.1 ^^^ (((sel u (lsb3 (a0 >>> i)) <<< i) % W) ^^^
      ((sel u (lsb3 (a0 >>> (i + 3))) <<< (i + 3)) % W)),
    lh.2 ^^^ ((sel u (lsb3 (a0 >>> i)) >>> (64 - i)) ^^^
      (sel u (lsb3 (a0 >>> (i + 3))) >>> (64 - (i + 3)))))

/-- Step 3, loop body, bike_gf2x_mul_base_portable.c:89-94: bit `i` of `b0`. -/
def mulTop (a0 b0 : Nat) (lh : Nat × Nat) (i : Nat) : Nat × Nat :=
  (lh.1 ^^^ (((a0 <<< i) % W) &&& ((W - ((b0 >>> i) &&& 1)) % W)),
    lh.2 ^^^ ((a0 >>> (64 - i)) &&& ((W - ((b0 >>> i) &&& 1)) % W)))

/-- `gf2x_mul_base_port`, bike_gf2x_mul_base_portable.c:41-98: the words `c[0]`, `c[1]`. -/
def mulBase (a0 b0 : Nat) : Nat × Nat :=
  let u := mulTable (b0 &&& (2 ^ 61 - 1))
  [61, 62, 63].foldl (mulTop a0 b0)
    ([6, 12, 18, 24, 30, 36, 42, 48, 54, 60].foldl (mulWin u a0) (mulWin0 u a0))

/-- Word-wise exclusive or: `karatzuba_add1_port`, `karatzuba_add2_port`,
bike_gf2x_mul_portable.c:37-72, and `gf2x_mod_add`, bike_gf2x.h:40-49. -/
def xorL (x y : List Nat) : List Nat := List.zipWith (· ^^^ ·) x y

/-- `karatzuba` with the portable base (`mul_base_qwords = 1`), bike_gf2x_mul.c:44-101, for
`qwords_len_pad = 2^k`.  `c` is the buffer of `2 * 2^k` words before the call, the result the same
buffer after it: parts that the code leaves alone keep their old contents.  `c1 = c[half..]` and
`c2 = c[2 half..]` overlap exactly as in the code.  Not modelled: the scratch `sec_buf`, every
word of which is written by a call before the call reads it. -/
def kar : Nat → List Nat → List Nat → List Nat → Nat → List Nat
  | 0, c, a, b, _ =>
    let m := mulBase (a.getD 0 0) (b.getD 0 0)
    m.1 :: m.2 :: c.drop 2
  | k + 1, c, a, b, len =>
    if len ≤ 1 then
      let m := mulBase (a.getD 0 0) (b.getD 0 0)
      m.1 :: m.2 :: c.drop 2
    else
      let half := 2 ^ k
      -- line 76: (c1|c0) = a_lo * b_lo
      let c01 := kar k (c.take (2 * half)) (a.take half) (b.take half) half
      if len > half then
        -- line 85: (c3|c2) = a_hi * b_hi
        let c23 := kar k (c.drop (2 * half)) (a.drop half) (b.drop half) (len - half)
        -- lines 89, 92
        let alah := xorL (a.take half) (a.drop half)
        let blbh := xorL (b.take half) (b.drop half)
        let tmp := xorL (c01.drop half) (c23.take half)
        -- line 95: (c2|c1) = alah * blbh, over the old contents of c1 and c2
        let c12 := kar k (c01.drop half ++ c23.take half) alah blbh half
        -- line 99, karatzuba_add3_port, bike_gf2x_mul_portable.c:74-98
        c01.take half ++
          xorL (xorL tmp (c01.take half)) (c12.take half) ++
          xorL (xorL tmp (c12.drop half)) (c23.drop half) ++
          c23.drop half
      else
        c01 ++ c.drop (2 * half)

/-- One word of the reduction loop, bike_gf2x_mul_portable.c:107-118. -/
def redWord (p : Par) (t : List Nat) (i : Nat) : Nat :=
  t.getD i 0 ^^^ (((t.getD (i + p.rq) 0 <<< p.trail) % W) ||| (t.getD (i + p.rq - 1) 0 >>> p.lead))

/-- `gf2x_red_port`, bike_gf2x_mul_portable.c:101-126. -/
def red (p : Par) (t : List Nat) : List Nat :=
  (List.range (p.rq - 1)).map (redWord p t) ++
    [redWord p t (p.rq - 1) &&& (2 ^ p.lead - 1)] ++ List.replicate (p.pq - p.rq) 0

/-- `gf2x_mod_mul_with_ctx`, bike_gf2x_mul.c:103-115 (`t` is cleared first). -/
def modMul (p : Par) (a b : List Nat) : List Nat :=
  red p (kar p.k (List.replicate (2 * p.pq) 0) a b p.rq)

/-- `gf2x_sqr_port`, bike_gf2x_mul_base_portable.c:101-110, over the old contents `s` of the
double-size buffer. -/
def sqr (p : Par) (s a : List Nat) : List Nat :=
  ((List.range p.rq).flatMap fun i =>
    [(mulBase (a.getD i 0) (a.getD i 0)).1, (mulBase (a.getD i 0) (a.getD i 0)).2]) ++
    s.drop (2 * p.rq)

/-- `gf2x_mod_sqr_in_place`, bike_gf2x_inv.c:43-48.  The scratch buffer is the workspace's
`sec_buf`; its words above `2 * LC_BIKE_R_QWORDS` are never written, so they stay zero. -/
def modSqr (p : Par) (a : List Nat) : List Nat :=
  red p (sqr p (List.replicate (2 * p.pq) 0) a)

/-- `repeated_squaring`, bike_gf2x_inv.c:51-61. -/
def repSqr (p : Par) : Nat → List Nat → List Nat
  | 0, a => a
  | n + 1, a => repSqr p n (modSqr p a)

/-- Bit `i` of a buffer, in the byte order of a little-endian machine. -/
def bitW (ws : List Nat) (i : Nat) : Bool := (ws.getD (i / 64) 0).testBit (i % 64)

/-- Byte `i` of a buffer of words on a little-endian machine. -/
def byteW (ws : List Nat) (i : Nat) : Nat := (ws.getD (i / 8) 0 >>> (8 * (i % 8))) &&& 255

/-- The bytes `raw[0 .. n)` of a buffer of words. -/
def bytesOf (n : Nat) (ws : List Nat) : List Nat := (List.range n).map (byteW ws)

/-- The word `i` of a padded buffer with the leading bytes `bs` and zero bytes behind. -/
def wordB (bs : List Nat) (i : Nat) : Nat :=
  (List.range 8).foldl (fun w j => w ||| (bs.getD (8 * i + j) 0 <<< (8 * j))) 0

/-- The padded buffer (`pad_r_t`) of `n` words with value `bs` (`r_t`) and zero padding. -/
def wordsOf (n : Nat) (bs : List Nat) : List Nat := (List.range n).map (wordB bs)

/-- One byte of `k_sqr_port`, bike_gf2x_ksqr_portable.c:59-69. -/
def ksqrByte (p : Par) (a : List Nat) (l i : Nat) : Nat :=
  (List.range 8).foldl (fun c j =>
    c ||| (((byteW a (((l * (8 * i + j)) % p.R) >>> 3) >>>
      (((l * (8 * i + j)) % p.R) &&& 7)) &&& 1) <<< j)) 0

/-- `k_sqr_port`, bike_gf2x_ksqr_portable.c:50-74 (the padding of `c` is zero before and is not
written). -/
def ksqr (p : Par) (a : List Nat) (l : Nat) : List Nat :=
  wordsOf p.pq ((List.range (p.rb - 1)).map (ksqrByte p a l) ++
    [ksqrByte p a l (p.rb - 1) &&& (2 ^ (p.R % 8) - 1)])

/-- An exponentiation `f^(2^k)` of `gf2x_mod_inv`, bike_gf2x_inv.c:181-186 and 196-201
(`K_SQR_THR` is 64). -/
def expK (p : Par) (f : List Nat) (k l : Nat) : List Nat :=
  if k ≤ 64 then repSqr p k f else ksqr p f l

/-- One iteration of the loop of `gf2x_mod_inv`, bike_gf2x_inv.c:179-209. -/
def invStep (p : Par) (ft : List Nat × List Nat) (i : Nat) : List Nat × List Nat :=
  let g := expK p ft.1 (p.exp0k.getD (i - 1) 0) (p.exp0l.getD (i - 1) 0)
  let f := modMul p g ft.1
  if p.exp1k.getD i 0 ≠ 0 then
    let g := expK p f (p.exp1k.getD i 0) (p.exp1l.getD i 0)
    (f, modMul p g ft.2)
  else (f, ft.2)

/-- `gf2x_mod_inv`, bike_gf2x_inv.c:138-218 (`MAX_I` is the length of the tables). -/
def modInv (p : Par) (a : List Nat) : List Nat :=
  modSqr p (((List.range (p.exp0k.length - 1)).map (· + 1)).foldl (invStep p) (a, a)).2

end LC.Bike
