import Verif.Kyber.Model
import Verif.Memcmp.Model
/-
Model of K-PKE and ML-KEM: `kyber_indcpa.c`, `kyber_indcpa_c.h`, `kyber_polyvec_c.h`, `kyber_polyvec.h`,
`kyber_kem.c`, `kyber_kem_input_validation.h` and `cmov` of `sidechannel_resistantce.h`.

The hash functions are parameters (`Fns`); `Verif.Kyber.Inst` supplies the Keccak model.  The workspaces
that `polyvec_basemul_acc_montgomery` shares with its operands are modelled as a memory of polynomials,
so that overwriting an operand is visible.
-/
namespace LC.Kyber

/-- The functions K-PKE and ML-KEM are built on: `H` = SHA3-256, `G` = SHA3-512, `prf key nonce len` and
`rkprf key ct len` = SHAKE256 (`kyber_kdf.h:42-55, 142-147, 159-166`), `xof seed` = output stream of
SHAKE128 (`kyber_indcpa.c:193-218`), `kmac key input len` = KMAC256 with the label `Kyber KEM SS`
(`kyber_kdf.h:176-189`). -/
structure Fns where
  H : List Byte → List Byte
  G : List Byte → List Byte
  prf : List Byte → Byte → Nat → List Byte
  rkprf : List Byte → List Byte → Nat → List Byte
  xof : List Byte → Nat → Byte
  kmac : List Byte → List Byte → Nat → List Byte

/-- The parameters of `lc_kyber_size.h.in:50-100`; `du`, `dv` are the bits per coefficient behind
`POLYVECCOMPRESSEDBYTES = K * 32 * du` and `POLYCOMPRESSEDBYTES = 32 * dv`. -/
structure Par where
  k : Nat
  eta1 : Nat
  du : Nat
  dv : Nat
deriving DecidableEq

@[reducible] def p512 : Par := ⟨2, 3, 10, 4⟩
@[reducible] def p768 : Par := ⟨3, 2, 10, 4⟩
@[reducible] def p1024 : Par := ⟨4, 2, 11, 5⟩

/-- The three builds of the code. -/
def Par.Ok (p : Par) : Prop := p = p512 ∨ p = p768 ∨ p = p1024

/-- `-EINVAL`. -/
def einval : Int := -22

/-! ### Vectors -/

/-- `polyvec_tobytes`, `kyber_polyvec.h:66-73`. -/
def vecTobytes (k : Nat) (v : Nat → Poly) : List Byte := (List.range k).flatMap fun i => polyTobytes (v i)

/-- `polyvec_frombytes`, `kyber_polyvec.h:82-89`. -/
def vecFrombytes (b : List Byte) (i : Nat) : Poly := polyFrombytes ((b.drop (384 * i)).take 384)

/-- `polyvec_compress`, `kyber_polyvec.c:31-91`, one polynomial. -/
def polyCompressU (du : Nat) (a : Poly) : List Byte := if du = 11 then polyCompress11 a else polyCompress10 a

/-- `polyvec_decompress`, `kyber_polyvec.c:93-145`, one polynomial. -/
def polyDecompressU (du : Nat) (b : List Byte) : Poly := if du = 11 then polyDecompress11 b else polyDecompress10 b

/-- `poly_compress`, `kyber_poly.c:60-112`. -/
def polyCompressV (dv : Nat) (a : Poly) : List Byte := if dv = 5 then polyCompress5 a else polyCompress4 a

/-- `poly_decompress`, `kyber_poly.h:82-120`. -/
def polyDecompressV (dv : Nat) (b : List Byte) : Poly := if dv = 5 then polyDecompress5 b else polyDecompress4 b

/-- `pack_ciphertext`, `kyber_indcpa.c:107-112`. -/
def packCiphertext (p : Par) (b : Nat → Poly) (v : Poly) : List Byte :=
  (List.range p.k).flatMap (fun i => polyCompressU p.du (b i)) ++ polyCompressV p.dv v

/-- `unpack_ciphertext`, `kyber_indcpa.c:122-127`: the vector. -/
def unpackU (p : Par) (c : List Byte) (i : Nat) : Poly :=
  polyDecompressU p.du ((c.drop (32 * p.du * i)).take (32 * p.du))

/-- `unpack_ciphertext`: the polynomial. -/
def unpackV (p : Par) (c : List Byte) : Poly := polyDecompressV p.dv (c.drop (32 * p.du * p.k))

/-! ### Products with shared scratch space -/

/-- A memory of polynomials. -/
abbrev PMem := Nat → Poly

def PMem.set (m : PMem) (a : Nat) (v : Poly) : PMem := fun x => if x = a then v else m x

/-- The loop of `polyvec_basemul_acc_montgomery`, `kyber_polyvec_c.h:52-55`, `cnt` iterations from `i`. -/
def accLoop (r t : Nat) (a b : Nat → Nat) : Nat → Nat → PMem → PMem
  | 0, _, m => m
  | cnt + 1, i, m =>
    let m := m.set t (polyBasemul (m (a i)) (m (b i)))
    let m := m.set r (polyAdd (m r) (m t))
    accLoop r t a b cnt (i + 1) m

/-- `polyvec_basemul_acc_montgomery`, `kyber_polyvec_c.h:44-58`; `r` is the address of the result, `t` of
the scratch polynomial, `a i` and `b i` of the operands. -/
def basemulAcc (k r t : Nat) (a b : Nat → Nat) (m : PMem) : PMem :=
  let m := m.set r (polyBasemul (m (a 0)) (m (b 0)))
  let m := accLoop r t a b (k - 1) 1 m
  m.set r (polyReduce (m r))

/-! ### Sampling -/

/-- `poly_getnoise_eta1`, `poly_getnoise_eta2`, `kyber_poly.c:33-49` with `poly_cbd_eta1`,
`poly_cbd_eta2`, `kyber_cbd.h:42-62`. -/
def getnoise (f : Fns) (eta : Nat) (seed : List Byte) (nonce : Nat) : Poly :=
  if eta = 3 then cbd3 (f.prf seed (UInt8.ofNat nonce) 192) else cbd2 (f.prf seed (UInt8.ofNat nonce) 128)

/-- The XOF input of entry `i, j`, `kyber_indcpa.c:193-202`. -/
def xofInput (seed : List Byte) (transposed : Bool) (i j : Nat) : List Byte :=
  if transposed then seed ++ [UInt8.ofNat i] ++ [UInt8.ofNat j] else seed ++ [UInt8.ofNat j] ++ [UInt8.ofNat i]

/-- `gen_matrix`, `kyber_indcpa.c:181-229`; `none` if an entry needs more than `fuel` refills (the C loop
is unbounded). -/
def genMatrix (f : Fns) (fuel k : Nat) (seed : List Byte) (transposed : Bool) : Option (Nat → Nat → Poly) :=
  let e := fun i j => genEntry (f.xof (xofInput seed transposed i j)) fuel
  if (List.range k).all fun i => (List.range k).all fun j => (e i j).isSome then
    some fun i j x => ((e i j).getD []).getD x 0
  else none

/-! ### K-PKE -/

/-- `poly_invntt_tomont`, `kyber_poly.h:307-310`. -/
def polyInvntt (r : Poly) : Poly := kyberInvntt r

/-- Addresses of `skpv.vec[i]` / `sp.vec[i]`, of the result vector, of the matrix (or `tmp.b`) and of
`pkpv` in the workspaces. -/
def aS (i : Nat) : Nat := i
def aR (i : Nat) : Nat := 10 + i
def aV : Nat := 15
def aM (i j : Nat) : Nat := 20 + 10 * i + j
def aP (i : Nat) : Nat := 80 + i

/-- The memory holding a vector and a matrix. -/
def load2 (s : Nat → Poly) (A : Nat → Nat → Poly) (pk : Nat → Poly) : PMem := fun x =>
  if x < 10 then s x else if 80 ≤ x then pk (x - 80) else if 20 ≤ x then A ((x - 20) / 10) ((x - 20) % 10) else fun _ => 0

/-- `KYBER_INDCPA_KEYGEN_MATRIX_VECTOR_MULTIPLICATION`, `kyber_indcpa_c.h:37-43`: the scratch polynomial is
`a[0].vec[0]`. -/
def keygenMul (k : Nat) : Nat → Nat → PMem → PMem
  | 0, _, m => m
  | cnt + 1, i, m =>
    let m := basemulAcc k (aR i) (aM 0 0) (aM i) aS m
    let m := m.set (aR i) (polyTomont (m (aR i)))
    keygenMul k cnt (i + 1) m

/-- The first part of `KYBER_INDCPA_ENC_MATRIX_VECTOR_MULTIPLICATION`, `kyber_indcpa_c.h:46-48`; the scratch
polynomial is `v`. -/
def encMulLoop (k : Nat) : Nat → Nat → PMem → PMem
  | 0, _, m => m
  | cnt + 1, i, m => encMulLoop k cnt (i + 1) (basemulAcc k (aR i) aV (aM i) aS m)

/-- `KYBER_INDCPA_ENC_MATRIX_VECTOR_MULTIPLICATION`, `kyber_indcpa_c.h:45-53`; for `v` the scratch
polynomial is `at[0].vec[0]`. -/
def encMul (k : Nat) (m : PMem) : PMem :=
  let m := encMulLoop k k 0 m
  basemulAcc k aV (aM 0 0) aP aS m

/-- The secret polynomials of `indcpa_keypair`, `kyber_indcpa.c:274`. -/
def kgS (f : Fns) (p : Par) (sigma : List Byte) (i : Nat) : Poly := getnoise f p.eta1 sigma i
/-- The error polynomials, `kyber_indcpa.c:276`. -/
def kgE (f : Fns) (p : Par) (sigma : List Byte) (i : Nat) : Poly := getnoise f p.eta1 sigma (p.k + i)

/-- `indcpa_keypair`, `kyber_indcpa.c:231-312` with the 32 random bytes `d`: (`pk`, `sk`). -/
def indcpaKeypair (f : Fns) (p : Par) (fuel : Nat) (d : List Byte) : Option (List Byte × List Byte) :=
  let buf := f.G (d ++ [UInt8.ofNat p.k])
  let publicseed := buf.take 32
  let noiseseed := buf.drop 32
  let skpv := fun i => polyNtt (kgS f p noiseseed i)
  let e := fun i => polyNtt (kgE f p noiseseed i)
  (genMatrix f fuel p.k publicseed false).map fun A =>
    let m := keygenMul p.k p.k 0 (load2 skpv A (fun _ _ => 0))
    let pkpv := fun i => polyReduce (polyAdd (m (aR i)) (e i))
    (vecTobytes p.k pkpv ++ publicseed, vecTobytes p.k skpv)

/-- Result of an operation that returns an error code. -/
inductive Res where
  /-- a sampling loop did not end within the given number of refills -/
  | loop
  | err (e : Int)
  | ok (b : List Byte)
deriving DecidableEq

/-- `lc_memcmp_secure` of two strings, stored one after the other. -/
def memcmpB (lp64 avx2 : Bool) (a b : List Byte) : Nat :=
  Memcmp.memcmpSecure lp64 avx2 (fun x => (a ++ b).getD x 0) 0 a.length a.length b.length

/-- `kyber_kem_iv_pk_modulus`, `kyber_kem_input_validation.h:61-77`. -/
def ivPkModulus (p : Par) (pk : List Byte) : Bool :=
  let pkpv := vecFrombytes pk
  let seed := (pk.drop (384 * p.k)).take 32
  memcmpB true false pk (vecTobytes p.k pkpv ++ seed) == 0

/-- The vector `b` of `indcpa_enc` before compression, `kyber_indcpa.c:367, 372, 381`. -/
def encB (f : Fns) (p : Par) (coins : List Byte) (m : PMem) (i : Nat) : Poly :=
  polyReduce (polyAdd (polyInvntt (m (aR i))) (getnoise f 2 coins (p.k + i)))

/-- The polynomial `v` before compression, `kyber_indcpa.c:369, 375, 378, 383`. -/
def encV (f : Fns) (p : Par) (msg coins : List Byte) (m : PMem) : Poly :=
  polyReduce (polyAdd (polyAdd (polyInvntt (m aV)) (getnoise f 2 coins (2 * p.k))) (polyFrommsg msg))

/-- The memory after the products of `indcpa_enc`. -/
def encMem (f : Fns) (p : Par) (pk coins : List Byte) (A : Nat → Nat → Poly) : PMem :=
  encMul p.k (load2 (fun i => polyNtt (getnoise f p.eta1 coins i)) A (vecFrombytes pk))

/-- `indcpa_enc`, `kyber_indcpa.c:314-396`. -/
def indcpaEnc (f : Fns) (p : Par) (fuel : Nat) (msg pk coins : List Byte) : Res :=
  if ivPkModulus p pk then
    match genMatrix f fuel p.k ((pk.drop (384 * p.k)).take 32) true with
    | none => .loop
    | some A =>
      let m := encMem f p pk coins A
      .ok (packCiphertext p (encB f p coins m) (encV f p msg coins m))
  else .err einval

/-- `indcpa_dec`, `kyber_indcpa.c:398-446`; the scratch polynomial `tmp.v` is `tmp.b.vec[0]`. -/
def indcpaDec (p : Par) (c sk : List Byte) : List Byte :=
  let skpv := vecFrombytes sk
  let b := fun i => polyNtt (unpackU p c i)
  let v := unpackV p c
  let m := basemulAcc p.k (aR 0) (aM 0 0) aS (aM 0) (load2 skpv (fun _ => b) (fun _ _ => 0))
  let mp := polyInvntt (m (aR 0))
  polyTomsg (polyReduce (polySub v mp))

/-! ### ML-KEM -/

/-- `LC_KYBER_PUBLICKEYBYTES`, `lc_kyber_size.h.in:76-90`. -/
def Par.pkLen (p : Par) : Nat := 384 * p.k + 32
/-- `LC_KYBER_SECRETKEYBYTES`, `lc_kyber_size.h.in:92-94`. -/
def Par.skLen (p : Par) : Nat := 384 * p.k + p.pkLen + 64
/-- `LC_KYBER_CIPHERTEXTBYTES`, `lc_kyber_size.h.in:79-95`. -/
def Par.ctLen (p : Par) : Nat := 32 * p.du * p.k + 32 * p.dv

/-- Result of key generation. -/
inductive KeyRes where
  | loop
  | err (e : Int)
  | ok (pk sk : List Byte)
deriving DecidableEq

/-- `_lc_kyber_keypair_from_seed`, `kyber_kem.c:42-82`; the static RNG (`static_rng.c:22-41`) hands out the
seed from its start. -/
def keypairFromSeed (f : Fns) (p : Par) (fuel : Nat) (seed : List Byte) : KeyRes :=
  if seed.length ≠ 64 then .err einval
  else
    match indcpaKeypair f p fuel (seed.take 32) with
    | none => .loop
    | some kp => .ok kp.1 (kp.2 ++ kp.1 ++ f.H kp.1 ++ (seed.drop 32).take 32)

/-- `cmov`, `sidechannel_resistantce.h:47-54`. -/
def cmov (r x : List Byte) (b : Byte) : List Byte :=
  List.zipWith (fun r x => r ^^^ ((0 - b) &&& (r ^^^ x))) r x

/-- Result of encapsulation. -/
inductive EncRes where
  | loop
  | err (e : Int)
  | ok (ct ss : List Byte)
deriving DecidableEq

/-- `_lc_kyber_enc`, `kyber_kem.c:108-167` for non-null arguments and the 32 random bytes `m`. -/
def kemEnc (f : Fns) (p : Par) (fuel : Nat) (pk m : List Byte) : EncRes :=
  let buf := m ++ f.H pk
  let kr := f.G buf
  match indcpaEnc f p fuel m pk (kr.drop 32) with
  | .loop => .loop
  | .err e => .err e
  | .ok ct => .ok ct (kr.take 32)

/-- `kyber_kem_iv_sk`, `kyber_kem.c:199-221`: true if it returns zero. -/
def ivSk (f : Fns) (p : Par) (sk : List Byte) : Bool :=
  memcmpB true false ((sk.drop (p.skLen - 64)).take 32) (f.H ((sk.drop (384 * p.k)).take p.pkLen)) == 0

/-- `_lc_kyber_dec`, `kyber_kem.c:223-307` for non-null arguments. -/
def kemDec (f : Fns) (p : Par) (fuel : Nat) (ct sk : List Byte) : Res :=
  if ivSk f p sk then
    let pk := (sk.drop (384 * p.k)).take p.pkLen
    let m := indcpaDec p ct (sk.take (384 * p.k))
    let buf := m ++ (sk.drop (p.skLen - 64)).take 32
    let kr := f.G buf
    match indcpaEnc f p fuel m pk (kr.drop 32) with
    | .loop => .loop
    | .err e => .err e
    | .ok cmp =>
      let fail := memcmpB true false ct cmp
      let ss := f.rkprf ((sk.drop (p.skLen - 32)).take 32) ct 32
      .ok (cmov ss (kr.take 32) (UInt8.ofNat (1 - fail)))
  else .err einval

/-- `_lc_kyber_enc_kdf`, `kyber_kem.c:169-187`. -/
def kemEncKdf (f : Fns) (p : Par) (fuel : Nat) (pk m : List Byte) (ssLen : Nat) : EncRes :=
  match kemEnc f p fuel pk m with
  | .loop => .loop
  | .err e => .err e
  | .ok ct ss => .ok ct (f.kmac ss ct ssLen)

/-- `_lc_kyber_dec_kdf`, `kyber_kem.c:309-330`. -/
def kemDecKdf (f : Fns) (p : Par) (fuel : Nat) (ct sk : List Byte) (ssLen : Nat) : Res :=
  match kemDec f p fuel ct sk with
  | .loop => .loop
  | .err e => .err e
  | .ok ss => .ok (f.kmac ss ct ssLen)

end LC.Kyber
