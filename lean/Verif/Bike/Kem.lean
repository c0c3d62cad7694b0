import Verif.Bike.Gf2x

/-
Model of the sampling, the decoder and the KEM of BIKE: bike/src/bike_sampling.c,
bike_sampling_portable.c, bike_decode.c, bike_decode_portable.c, bike_kem.c.

The portable implementations are modelled, for a little-endian machine.  `UNIFORM_SAMPLING` and
`BIND_PK_AND_M` are not defined by the build.  SHAKE256 and SHA3-384 are parameters.
-/
namespace LC.Bike

/-- The hash functions: `shake seed i` is the `i`-th little-endian 32-bit word squeezed from
SHAKE256 after absorbing `seed`; `sha` is SHA3-384 (48 bytes). -/
structure Hash where
  shake : List Nat → Nat → Nat
  sha : List Nat → List Nat

/-! ## bike_utilities.h -/

/-- `secure_l32_mask`, bike_utilities.h:60-91 (the portable branch, line 89). -/
def l32Mask (v1 v2 : Nat) : Nat := (2 ^ 32 - 1) - ((v1 + W - v2) % W) / 2 ^ 32

/-- `secure_cmp32`, bike_utilities.h:150-183. -/
def cmp32 (v1 v2 : Nat) : Nat := if v1 = v2 then 1 else 0

/-- `~x` of a `uint64_t`. -/
def not64 (x : Nat) : Nat := x ^^^ (2 ^ 64 - 1)
/-- `~x` of a `uint8_t`. -/
def not8 (x : Nat) : Nat := x ^^^ (2 ^ 8 - 1)

/-! ## Sampling -/

/-- The body of the loop of `sample_indices_fisher_yates`, bike_sampling.c:98-119, for one `i`
and one random word; `out` are the entries `out[i+1 ..]` chosen before. -/
def fyPick (max i rand : Nat) (out : List Nat) : Nat :=
  let l := (i + (rand * (max - i)) >>> 32) % 2 ^ 32
  let dup := out.foldl (fun d o => d ||| cmp32 l o) 0
  let mask := (2 ^ 32 - dup) % 2 ^ 32
  (mask &&& i) ^^^ ((mask ^^^ (2 ^ 32 - 1)) &&& l)

/-- `sample_indices_fisher_yates`, bike_sampling.c:89-120: `i` runs from `n - 1` down to 0; the
words of the XOF are consumed in this order, starting with word `pos`. -/
def fisherYates (max n : Nat) (rnd : Nat → Nat) (pos : Nat) : List Nat :=
  (List.range n).foldl (fun out t => fyPick max (n - 1 - t) (rnd (pos + t)) out :: out) []

/-- `secure_set_bits_port`, bike_sampling_portable.c:38-81. -/
def setBits (p : Par) (first : Nat) (wl : List Nat) : List Nat :=
  (List.range p.pq).map fun i =>
    wl.foldl (fun val w =>
      let w' := (w + 2 ^ 32 - first) % 2 ^ 32
      let mask := ((W - 1) + (1 - cmp32 (w' >>> 6) i)) % W
      val ||| ((1 <<< (w' &&& 63)) &&& mask)) 0

/-- Clearing of the padding, bike_sampling.c:191-207: the last byte is masked, the bytes after it
are cleared; as the `r_t` part of the element. -/
def cleanR (p : Par) (ws : List Nat) : List Nat :=
  let bs := bytesOf p.rb ws
  bs.take (p.rb - 1) ++ [bs.getD (p.rb - 1) 0 &&& (2 ^ (p.R % 8) - 1)]

/-- `generate_error_vector`, bike_sampling.c:166-214: the two `r_t` of the error. -/
def errorVector (p : Par) (h : Hash) (seed : List Nat) : List Nat × List Nat :=
  let wl := fisherYates (2 * p.R) p.T (h.shake seed) 0
  (cleanR p (setBits p 0 wl), cleanR p (setBits p p.R wl))

/-! ## Decoder -/

/-- `LC_BIKE_LOG2_MSB`, bike_internal.h:105-125. -/
def log2Msb (v : Nat) : Nat :=
  if v = 0 then 0 else if v < 2 then 1 else if v < 4 then 2 else if v < 8 then 3
  else if v < 16 then 4 else if v < 32 then 5 else if v < 64 then 6 else if v < 128 then 7
  else if v < 256 then 8 else 9

/-- `LC_BIKE_SLICES`, bike_internal.h:129. -/
def Par.slices (p : Par) : Nat := log2Msb p.D + 1

/-- `LC_BIKE_UPTOPOW2`, bike_internal.h:53-65. -/
def upToPow2 (v : Nat) : Nat :=
  let v := v - 1
  let v := v ||| (v >>> 1)
  let v := v ||| (v >>> 2)
  let v := v ||| (v >>> 4)
  let v := v ||| (v >>> 8)
  let v := v ||| (v >>> 16)
  v + 1

/-- The values of `idx` in the loop of `rotr_big`, bike_decode_portable.c:49. -/
def halves : Nat → Nat → List Nat
  | 0, _ => []
  | fuel + 1, idx => if idx ≥ 1 then idx :: halves fuel (idx >>> 1) else []

/-- The mask of `rotr_big`, bike_decode_portable.c:51-52. -/
def bigMask (qw idx : Nat) : Nat := ((l32Mask qw idx + 1) % 2 ^ 32 + W - 1) % W

/-- One iteration of `rotr_big`, bike_decode_portable.c:49-63, on `(qw_num, out)`.  The inner loop
works in place with ascending `i` and reads `out[i]` and `out[i + idx]`, neither of which it has
written yet. -/
def bigStep (p : Par) (st : Nat × List Nat) (idx : Nat) : Nat × List Nat :=
  let m := bigMask st.1 idx
  (st.1 - (idx &&& (m % 2 ^ 32)),
    (List.range st.2.length).map fun i =>
      if i < p.rq + idx then (st.2.getD i 0 &&& not64 m) ||| (st.2.getD (i + idx) 0 &&& m)
      else st.2.getD i 0)

/-- `rotr_big`, bike_decode_portable.c:38-64. -/
def rotrBig (p : Par) (s : List Nat) (qw : Nat) : List Nat :=
  ((halves 32 (upToPow2 (p.rq / 2))).foldl (bigStep p) (qw, s)).2

/-- `rotr_small`, bike_decode_portable.c:66-84: the `LC_BIKE_R_QWORDS` words it writes (the
caller passes the same buffer as input and output; word `i` is written after words `i` and
`i + 1` are read, and nothing reads the words behind). -/
def rotrSmall (p : Par) (s : List Nat) (bits : Nat) : List Nat :=
  let mask := if bits = 0 then 0 else W - 1
  let hs := (64 - bits) &&& mask
  (List.range p.rq).map fun i =>
    (s.getD i 0 >>> bits) ||| (((s.getD (i + 1) 0 <<< hs) % W) &&& mask)

/-- `rotate_right_port`, bike_decode_portable.c:86-93. -/
def rotr (p : Par) (s : List Nat) (n : Nat) : List Nat :=
  rotrSmall p (rotrBig p s (n / 64)) (n % 64)

/-- `dup_port`, bike_decode_portable.c:100-113, from the first `LC_BIKE_R_QWORDS` words `s`.  The
loop appends word after word and reads words it wrote before.  Word `3 * LC_BIKE_R_QWORDS - 1` is
not written; the list ends before it. -/
def dup (p : Par) (s : List Nat) : List Nat :=
  (List.range (2 * p.rq - 1)).foldl
    (fun l i => l ++ [(l.getD i 0 >>> p.trail) ||| ((l.getD (i + 1) 0 <<< p.lead) % W)])
    (s.take (p.rq - 1) ++
      [((s.getD 0 0 <<< p.lead) % W) ||| (s.getD (p.rq - 1) 0 &&& (2 ^ p.lead - 1))])

/-- `compute_syndrome`, bike_decode.c:81-91.  The copy takes `LC_BIKE_R_BYTES` bytes; the bits of
the last word behind them are replaced by `dup`. -/
def syndrome (p : Par) (c0 h0 : List Nat) : List Nat := dup p ((modMul p c0 h0).take p.rq)

/-- `recompute_syndrome`, bike_decode.c:93-115. -/
def resyndrome (p : Par) (c0 h0 pk : List Nat) (e : List Nat × List Nat) : List Nat :=
  let e0 := wordsOf p.pq e.1
  let e1 := wordsOf p.pq e.2
  syndrome p (xorL (xorL (modMul p e1 pk) c0) e0) h0

/-- `__builtin_popcount` of a byte. -/
def pop8 (b : Nat) : Nat := (List.range 8).foldl (fun n j => n + ((b >>> j) &&& 1)) 0

/-- `r_bits_vector_weight`, bike_utilities.h:135-147. -/
def rWeight (p : Par) (s : List Nat) : Nat :=
  (List.range (p.rb - 1)).foldl (fun acc i => acc + pop8 (byteW s i)) 0 +
    pop8 (byteW s (p.rb - 1) &&& (2 ^ (p.R % 8) - 1))

/-- `MUL64HIGH`, bike_decode.c:117-125. -/
def mul64High (a b : Nat) : Nat :=
  let aLo := a &&& 0xffffffff
  let bLo := b &&& 0xffffffff
  let aHi := a >>> 32
  let bHi := b >>> 32
  ((aHi * bHi) % W + ((aHi * bLo % W + aLo * bHi % W) % W) >>> 32) % W

/-- `get_threshold`, bike_decode.c:127-162, as a function of the syndrome weight. -/
def threshold (p : Par) (weight : Nat) : Nat :=
  let thr := (p.coeff0 + p.coeff1 * weight % W) % W
  let thr := mul64High thr 12379400392853802749 >>> 26
  let mask := l32Mask (thr % 2 ^ 32) p.thrMin
  let thr := (mask &&& thr) ||| ((mask ^^^ (2 ^ 32 - 1)) &&& p.thrMin)
  thr % 256

/-- `bit_sliced_adder_port`, bike_decode_portable.c:116-130: the slices and what is left in the
rotated syndrome. -/
def addSlices : List (List Nat) → List Nat → Nat → List (List Nat) × List Nat
  | [], rot, _ => ([], rot)
  | upc, rot, 0 => (upc, rot)
  | s :: upc, rot, n + 1 =>
    let r := addSlices upc (List.zipWith (· &&& ·) s rot) n
    (List.zipWith (· ^^^ ·) s rot :: r.1, r.2)

/-- `bit_slice_full_subtract_port`, bike_decode_portable.c:132-172; `br` is the borrow. -/
def subSlices : List (List Nat) → List Nat → Nat → List (List Nat)
  | [], _, _ => []
  | s :: upc, br, val =>
    let b := (W - (val &&& 1)) % W
    List.zipWith (fun a c => a ^^^ b ^^^ c) s br ::
      subSlices upc (List.zipWith (fun a c =>
        (not64 a &&& b &&& not64 c) ||| ((not64 a ||| b) &&& c)) s br) (val >>> 1)

/-- The accumulation of the UPC counters, bike_decode.c:183-192 and 253-262. -/
def upcOf (p : Par) (s : List Nat) (wl : List Nat) : List (List Nat) × List Nat :=
  (List.range p.D).foldl
    (fun u j => addSlices u.1 (rotr p s (wl.getD j 0)) (log2Msb (j + 1)))
    (List.replicate p.slices (List.replicate p.rq 0), List.replicate p.rq 0)

/-- `~last_slice->raw[j]`, bike_decode.c:202-205. -/
def sumMsb (p : Par) (upc : List (List Nat)) : List Nat :=
  (List.range p.rb).map fun j => not8 (byteW (upc.getD (p.slices - 1) []) j)

/-- Masking of the last byte, bike_decode.c:213. -/
def maskLast (p : Par) (bs : List Nat) : List Nat :=
  bs.take (p.rb - 1) ++ [bs.getD (p.rb - 1) 0 &&& (2 ^ (p.R % 8) - 1)]

/-- `memset(rotated_syndrome->qw, 0xff, LC_BIKE_R_BYTES)`, bike_decode.c:218-219, on the words the
adder uses. -/
def setOnes (p : Par) (rot : List Nat) : List Nat :=
  (List.range p.rq).map fun i =>
    if i < p.rq - 1 then W - 1 else rot.getD i 0 ||| (2 ^ (8 * (p.rb - 8 * (p.rq - 1))) - 1)

/-- `find_err1`, one value of `i`, bike_decode.c:179-231: the new error vector and the gray
list. -/
def findErr1 (p : Par) (e s wl : List Nat) (thr : Nat) : List Nat × List Nat :=
  let u := upcOf p s wl
  let u0 := subSlices u.1 (List.replicate p.rq 0) thr
  let black := sumMsb p u0
  let u3 := (List.range 3).foldl (fun u _ => addSlices u.1 (setOnes p u.2) p.slices) (u0, u.2)
  (maskLast p (List.zipWith (· ^^^ ·) e black),
    List.zipWith (fun b m => not8 b &&& m) black (sumMsb p u3.1))

/-- `find_err2`, one value of `i`, bike_decode.c:249-280. -/
def findErr2 (p : Par) (e pos s wl : List Nat) (thr : Nat) : List Nat :=
  let u := subSlices (upcOf p s wl).1 (List.replicate p.rq 0) thr
  maskLast p (List.zipWith (· ^^^ ·) e (List.zipWith (· &&& ·) pos (sumMsb p u)))

/-- `struct lc_bike_sk`, bike/api/lc_bike_size.h.in:146-151. -/
structure Sk where
  wl0 : List Nat
  wl1 : List Nat
  h0 : List Nat
  h1 : List Nat
  pk : List Nat
  sigma : List Nat

/-- `struct lc_bike_ct`, bike/api/lc_bike_size.h.in:156-159. -/
structure Ct where
  c0 : List Nat
  c1 : List Nat

/-- One iteration of `bike_decode`, bike_decode.c:317-356, on the error vector and the syndrome.
`BGF_DECODER` is not defined (the header defines `LC_BIKE_BGF_DECODER`), so every iteration runs
to its end. -/
def decIter (p : Par) (sk : Sk) (c0 : List Nat) (st : (List Nat × List Nat) × List Nat) :
    (List Nat × List Nat) × List Nat :=
  let h0 := wordsOf p.pq sk.h0
  let pk := wordsOf p.pq sk.pk
  let thr := threshold p (rWeight p st.2)
  let r0 := findErr1 p st.1.1 st.2 sk.wl0 thr
  let r1 := findErr1 p st.1.2 st.2 sk.wl1 thr
  -- lines 329 and 342 compute the same syndrome
  let s1 := resyndrome p c0 h0 pk (r0.1, r1.1)
  let e := (findErr2 p r0.1 r0.2 s1 sk.wl0 ((p.D + 1) / 2 + 1),
    findErr2 p r1.1 r1.2 s1 sk.wl1 ((p.D + 1) / 2 + 1))
  (e, resyndrome p c0 h0 pk e)

/-- `bike_decode`, bike_decode.c:286-361 (`LC_BIKE_MAX_IT` is 5; it returns 0 whatever the
syndrome is in the end). -/
def decode (p : Par) (sk : Sk) (ct : Ct) : List Nat × List Nat :=
  let c0 := wordsOf p.pq ct.c0
  let s := dup p ((syndrome p c0 (wordsOf p.pq sk.h0)).take p.rq)
  ((List.range 5).foldl (fun st _ => decIter p sk c0 st)
    ((List.replicate p.rb 0, List.replicate p.rb 0), s)).1

/-! ## KEM -/

/-- `lc_bike_keypair`, bike_kem.c:207-258, for the 64 bytes of the RNG; `generate_secret_key`,
bike_sampling.c:145-164: both index lists come from one XOF. -/
def keypair (p : Par) (h : Hash) (seeds : List Nat) : List Nat × Sk :=
  let seed := seeds.take 32
  let wl0 := fisherYates p.R p.D (h.shake seed) 0
  let wl1 := fisherYates p.R p.D (h.shake seed) p.D
  let h0 := setBits p 0 wl0
  let h1 := setBits p 0 wl1
  let pk := bytesOf p.rb (modMul p h1 (modInv p h0))
  (pk, ⟨wl0, wl1, bytesOf p.rb h0, bytesOf p.rb h1, pk, (seeds.drop 32).take 32⟩)

/-- `function_l`, bike_kem.c:101-122. -/
def functionL (h : Hash) (e : List Nat × List Nat) : List Nat := (h.sha (e.1 ++ e.2)).take 32

/-- `function_k`, bike_kem.c:124-145. -/
def functionK (h : Hash) (m : List Nat) (ct : Ct) : List Nat :=
  (h.sha (m ++ ct.c0 ++ ct.c1)).take 32

/-- `bike_encrypt`, bike_kem.c:147-174. -/
def encrypt (p : Par) (h : Hash) (e : List Nat × List Nat) (pk m : List Nat) : Ct :=
  ⟨bytesOf p.rb (xorL (modMul p (wordsOf p.pq e.2) (wordsOf p.pq pk)) (wordsOf p.pq e.1)),
    xorL (functionL h e) m⟩

/-- `lc_bike_enc_internal`, bike_kem.c:273-319, for the 64 bytes of the RNG. -/
def enc (p : Par) (h : Hash) (pk seeds : List Nat) : Ct × List Nat :=
  let m := seeds.take 32
  let ct := encrypt p h (errorVector p h m) pk m
  (ct, functionK h m ct)

/-- `lc_bike_dec`, bike_kem.c:342-395 (`lc_memcmp_secure` is 0 exactly on equal buffers). -/
def dec (p : Par) (h : Hash) (sk : Sk) (ct : Ct) : List Nat :=
  let e := decode p sk ct
  let m' := xorL (functionL h e) ct.c1
  let e' := errorVector p h m'
  let ok := (if e.1 = e'.1 then 1 else 0) &&& (if e.2 = e'.2 then 1 else 0)
  let mask := l32Mask 0 ok % 256
  let m := List.zipWith (fun x s => (x &&& not8 mask) ||| (mask &&& s)) m' sk.sigma
  functionK h m ct

end LC.Bike
