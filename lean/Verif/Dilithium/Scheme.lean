import Verif.Dilithium.Hint
import Verif.Dilithium.Sample
import Verif.Dilithium.Pack
import Verif.Kyber.Kem
/-
Model of ML-DSA key generation, signing and verification (`ml-dsa/src/dilithium_signature_impl.h`,
`dilithium_polyvec.h`, `dilithium_polyvec_c.h`, `dilithium_pack.h`).

The extendable output functions SHAKE128 and SHAKE256 are parameters: for every input an endless
stream of bytes.  Vectors are functions of the index (entries from `K` or `L` on are meaningless).
Members of a `union` of the workspace whose life times do not overlap are separate values here.
Loops that end only with probability one (rejection sampling, the signing loop) carry a bound `fuel`;
`none` means that the bound was reached.
-/
namespace LC.Dilithium
open LC.Kyber (Poly Byte upd mapLoop at8 b8 memcmpB)

/-- The primitives used: SHAKE128, SHAKE256, and the platform `lc_memcmp_secure` is compiled for. -/
structure Env where
  shake128 : List Byte → Nat → Byte
  shake256 : List Byte → Nat → Byte
  lp64 : Bool
  avx2 : Bool

/-- The two bytes of a `uint16_t` after `le_bswap16`. -/
def le16 (n : Nat) : List Byte := [b8 n, b8 (n / 256)]

/-- A vector of sampled polynomials: `none` as soon as one of the samplers ran out of fuel. -/
def optVec (n : Nat) (f : Nat → Option (List Int)) : Option (Nat → Poly) :=
  if (List.range n).all (fun i => (f i).isSome) then some (fun i x => ((f i).getD []).getD x 0) else none

/-- `polyvecl_uniform_eta` and `polyveck_uniform_eta`, `dilithium_polyvec_c.h:28-35, 51-58`: `n`
polynomials with nonces from `nonce` on. -/
def uniformEta (e : Env) (fuel eta n : Nat) (seed : List Byte) (nonce : Nat) : Option (Nat → Poly) :=
  optVec n fun i => polyUniformEta eta (e.shake256 (seed ++ le16 (nonce + i))) fuel

/-- `poly_uniform_gamma1`, `dilithium_poly.c:154-167`: five SHAKE256 blocks are squeezed. -/
def uniformGamma1 (e : Env) (gamma1 : Nat) (seed : List Byte) (nonce : Nat) : Poly :=
  polyzUnpack gamma1 (squeeze (e.shake256 (seed ++ le16 nonce)) 0 680)

/-- `polyvec_matrix_expand`, `dilithium_polyvec_c.h:70-81`; row `i`, column `j`. -/
def matrixExpand (e : Env) (fuel k l : Nat) (rho : List Byte) : Option (Nat → Nat → Poly) :=
  if (List.range k).all (fun i => (List.range l).all fun j => (polyUniform (e.shake128 (rho ++ le16 (i * 256 + j))) fuel).isSome) then
    some (fun i j x => ((polyUniform (e.shake128 (rho ++ le16 (i * 256 + j))) fuel).getD []).getD x 0)
  else none

/-- `polyvecl_pointwise_acc_montgomery`, `dilithium_polyvec_c.h:93-105`, with `n + 1` terms. -/
def pointwiseAcc (u v : Nat → Poly) : Nat → Poly
  | 0 => polyPointwise (u 0) (v 0)
  | n + 1 => polyAdd (pointwiseAcc u v n) (polyPointwise (u (n + 1)) (v (n + 1)))

/-- `polyvecl_chknorm`, `polyveck_chknorm`, `dilithium_polyvec.h:121-130, 267-276`. -/
def vecChknorm (n : Nat) (v : Nat → Poly) (B : Int) : Bool := (List.range n).any fun i => polyChknorm (v i) B

/-- `polyveck_pack_w1`, `dilithium_polyvec.h:359-367`. -/
def packW1 (p : Params) (w1 : Nat → Poly) : List Byte := (List.range p.k).flatMap fun i => polyw1Pack p.gamma2 (w1 i)

/-- Bytes `off .. off + n - 1`. -/
def slice (b : List Byte) (off n : Nat) : List Byte := (b.drop off).take n

/-! ### Key generation -/

/-- The public key: `pack_pk_rho`, `pack_pk_t1`, `dilithium_pack.h:40-54`. -/
def packPk (p : Params) (rho : List Byte) (t1 : Nat → Poly) : List Byte :=
  rho ++ (List.range p.k).flatMap fun i => polyt1Pack (t1 i)

/-- The secret key: `pack_sk_*`, `dilithium_pack.h:75-127`. -/
def packSk (p : Params) (rho key tr : List Byte) (s1 s2 t0 : Nat → Poly) : List Byte :=
  rho ++ key ++ tr ++ ((List.range p.l).flatMap fun i => polyetaPack p.eta (s1 i)) ++
    ((List.range p.k).flatMap fun i => polyetaPack p.eta (s2 i)) ++ ((List.range p.k).flatMap fun i => polyt0Pack (t0 i))

/-- `t = A s1 + s2` before rounding, `dilithium_signature_impl.h:155-185`. -/
def keyT (p : Params) (mat : Nat → Nat → Poly) (s1 s2 : Nat → Poly) (i : Nat) : Poly :=
  polyCaddq (polyAdd (invntt (polyReduce (pointwiseAcc (mat i) (fun j => ntt (s1 j)) (p.l - 1)))) (s2 i))

/-- `lc_dilithium_keypair_impl`, `dilithium_signature_impl.h:62-215`, for non-null arguments and a
random number generator that delivered the 32 bytes `seed` (as `lc_dilithium_keypair_from_seed`,
lines 217-238, arranges): (public key, secret key). -/
def keypair (p : Params) (e : Env) (fuel : Nat) (seed : List Byte) : Option (List Byte × List Byte) :=
  let buf := squeeze (e.shake256 (seed ++ [b8 p.k, b8 p.l])) 0 128
  let rho := slice buf 0 32
  let rhoprime := slice buf 32 64
  let key := slice buf 96 32
  (uniformEta e fuel p.eta p.l rhoprime 0).bind fun s1 =>
  (uniformEta e fuel p.eta p.k rhoprime p.l).bind fun s2 =>
  (matrixExpand e fuel p.k p.l rho).bind fun mat =>
    let t := keyT p mat s1 s2
    let pk := packPk p rho (fun i x => (power2round (t i x)).1)
    let tr := squeeze (e.shake256 pk) 0 64
    some (pk, packSk p rho key tr s1 s2 (fun i x => (power2round (t i x)).2))

/-! ### Signing -/

/-- The unpacked, transformed secret vectors of `lc_dilithium_sign_internal_ahat`, lines 314-333:
`unpack_sk_s1`, `unpack_sk_s2`, `unpack_sk_t0` (`dilithium_pack.h:151-181`) and the NTTs. -/
def skS1 (p : Params) (sk : List Byte) (i : Nat) : Poly := ntt (polyetaUnpack p.eta (slice sk (128 + etaLen p.eta * i) (etaLen p.eta)))
def skS2 (p : Params) (sk : List Byte) (i : Nat) : Poly :=
  ntt (polyetaUnpack p.eta (slice sk (128 + etaLen p.eta * p.l + etaLen p.eta * i) (etaLen p.eta)))
def skT0 (p : Params) (sk : List Byte) (i : Nat) : Poly :=
  ntt (polyt0Unpack (slice sk (128 + etaLen p.eta * p.l + etaLen p.eta * p.k + 416 * i) 416))

/-- The masking vector, `dilithium_polyvec_c.h:38-48`; the nonce is a `uint16_t`. -/
def signY (p : Params) (e : Env) (rhoprime : List Byte) (nonce : Nat) (j : Nat) : Poly :=
  uniformGamma1 e p.gamma1 rhoprime ((p.l * nonce + j) % 65536)

/-- `w = A y`, lines 349-360. -/
def signW (p : Params) (mat : Nat → Nat → Poly) (y : Nat → Poly) (i : Nat) : Poly :=
  polyCaddq (invntt (polyReduce (pointwiseAcc (mat i) (fun j => ntt (y j)) (p.l - 1))))

/-- `z`, lines 386-391, before the norm check. -/
def signZ (cp : Poly) (s1 y : Nat → Poly) (j : Nat) : Poly := polyReduce (polyAdd (invntt (polyPointwise cp (s1 j))) (y j))

/-- `w0 - c s2`, lines 404-407. -/
def signW0 (cp : Poly) (s2 w0 : Nat → Poly) (i : Nat) : Poly := polyReduce (polySub (w0 i) (invntt (polyPointwise cp (s2 i))))

/-- `c t0`, lines 416-418. -/
def signH (cp : Poly) (t0 : Nat → Poly) (i : Nat) : Poly := polyReduce (invntt (polyPointwise cp (t0 i)))

/-- `polyveck_make_hint`, `dilithium_polyvec.h:329-338`: the hint and the number of ones. -/
def signHint (p : Params) (w0 h w1 : Nat → Poly) (i : Nat) : Poly := fun x => makeHint p.gamma2 (polyAdd (w0 i) (h i) x) (w1 i x)
def countHint (p : Params) (h : Nat → Poly) : Int := ((List.range p.k).map fun i => ((List.range 256).map fun x => h i x).sum).sum

/-- The body of the `rej:` loop, lines 337-438: `some none` for `goto rej`, `some (some sig)` for a
signature. -/
def signAttempt (p : Params) (e : Env) (fuel : Nat) (mat : Nat → Nat → Poly) (s1 s2 t0 : Nat → Poly) (mu rhoprime : List Byte) (nonce : Nat) :
    Option (Option (List Byte)) :=
  let y := signY p e rhoprime nonce
  let w := signW p mat y
  let w1 := fun i x => (decompose p.gamma2 (w i x)).1
  let w0 := fun i x => (decompose p.gamma2 (w i x)).2
  let ctilde := squeeze (e.shake256 (mu ++ packW1 p w1)) 0 p.ctilde
  (polyChallenge p.tau (e.shake256 ctilde) fuel).bind fun c =>
    let cp := ntt c
    let z := signZ cp s1 y
    if vecChknorm p.l z (p.gamma1 - p.beta) then some none
    else
      let w0' := signW0 cp s2 w0
      if vecChknorm p.k w0' (p.gamma2 - p.beta) then some none
      else
        let h := signH cp t0
        if vecChknorm p.k h p.gamma2 then some none
        else
          let hint := signHint p w0' h w1
          if countHint p hint > p.omega then some none
          else some (some (ctilde ++ ((List.range p.l).flatMap fun i => polyzPack p.gamma1 (z i)) ++ packHint p hint))

/-- The `rej:` loop; the nonce is a `uint16_t` that wraps. -/
def signLoop (p : Params) (e : Env) (fuel : Nat) (mat : Nat → Nat → Poly) (s1 s2 t0 : Nat → Poly) (mu rhoprime : List Byte) :
    Nat → Nat → Option (List Byte)
  | 0, _ => none
  | n + 1, nonce =>
    (signAttempt p e fuel mat s1 s2 t0 mu rhoprime nonce).bind fun r =>
      match r with
      | some sig => some sig
      | none => signLoop p e fuel mat s1 s2 t0 mu rhoprime n ((nonce + 1) % 65536)

/-- `lc_dilithium_sign_internal_ahat`, `dilithium_signature_impl.h:240-446`: `rnd` are the 32 bytes of
the random number generator, or zeros without one. -/
def signInternal (p : Params) (e : Env) (fuel : Nat) (mat : Nat → Nat → Poly) (sk mu rnd : List Byte) : Option (List Byte) :=
  let rhoprime := squeeze (e.shake256 (slice sk 32 32 ++ rnd ++ mu)) 0 64
  signLoop p e fuel mat (skS1 p sk) (skS2 p sk) (skT0 p sk) mu rhoprime fuel 0

/-- The message representative: SHAKE256 over `tr` and whatever the caller feeds after it. -/
def muOf (e : Env) (tr m : List Byte) : List Byte := squeeze (e.shake256 (tr ++ m)) 0 64

/-- Signing with a matrix expanded from the key (`lc_dilithium_sign_internal_noahat`, lines 448-473,
or `_sk_expand`, 475-529): `tr` is read from the secret key (lines 602-633), `m` is the rest of the
transcript. -/
def sign (p : Params) (e : Env) (fuel : Nat) (sk m rnd : List Byte) : Option (List Byte) :=
  (matrixExpand e fuel p.k p.l (slice sk 0 32)).bind fun mat => signInternal p e fuel mat sk (muOf e (slice sk 64 64) m) rnd

/-! ### Verification -/

/-- `A z - c t1 2^d`, lines 706-727. -/
def verifyW (p : Params) (mat : Nat → Nat → Poly) (cp : Poly) (z t1 : Nat → Poly) (i : Nat) : Poly :=
  polyCaddq (invntt (polyReduce (polySub (pointwiseAcc (mat i) (fun j => ntt (z j)) (p.l - 1)) (polyPointwise cp (ntt (polyShiftl (t1 i)))))))

/-- `lc_dilithium_verify_internal_ahat`, `dilithium_signature_impl.h:667-763`: the return value;
`-EINVAL` is -22, `-EBADMSG` is -74. -/
def verifyInternal (p : Params) (e : Env) (fuel : Nat) (mat : Nat → Nat → Poly) (pk sig mu : List Byte) : Option Int :=
  let z := fun j => polyzUnpack p.gamma1 (slice sig (p.ctilde + zLen p.gamma1 * j) (zLen p.gamma1))
  if vecChknorm p.l z (p.gamma1 - p.beta) then some (-22)
  else
    (polyChallenge p.tau (e.shake256 (slice sig 0 p.ctilde)) fuel).bind fun c =>
      let t1 := fun i => polyt1Unpack (slice pk (32 + 320 * i) 320)
      let w := verifyW p mat (ntt c) z t1
      match unpackHint p (slice sig (p.ctilde + zLen p.gamma1 * p.l) (p.omega + p.k)) with
      | none => some (-22)
      | some h =>
        let w1 := fun i x => useHint p.gamma2 (w i x) (h i x)
        let c2 := squeeze (e.shake256 (mu ++ packW1 p w1)) 0 p.ctilde
        if memcmpB e.lp64 e.avx2 (slice sig 0 p.ctilde) c2 ≠ 0 then some (-74) else some 0

/-- Verification with a matrix expanded from the key (lines 766-834); `tr` is the hash of the public
key (lines 903-935). -/
def verify (p : Params) (e : Env) (fuel : Nat) (pk m sig : List Byte) : Option Int :=
  (matrixExpand e fuel p.k p.l (slice pk 0 32)).bind fun mat =>
    verifyInternal p e fuel mat pk sig (muOf e (squeeze (e.shake256 pk) 0 64) m)

end LC.Dilithium
