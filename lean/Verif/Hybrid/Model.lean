import Verif.Kyber.Proto
import Verif.Curve.Ge
/-!
# ML-KEM combined with X25519

Model of `ml-kem/src/kyber_x25519_kem.c`, `kyber_x25519_kdf.h`, `kyber_x25519_kex.c` and
`kyber_x25519_ies.c`.  Each of the structures `struct lc_kyber_x25519_pk`, `_sk`, `_ct`, `_ss` is a pair
of byte strings, which lie behind each other in memory (`lc_kyber_size.h.in:785-815`; all members are
arrays of `uint8_t`, so there is no padding).  The bytes drawn from the random number generator are
arguments; a failing generator, NULL checks, self tests and the clearing of buffers are not modelled.
-/
namespace LC.Hybrid
open LC.Kyber (Fns Par KmacCalls Out AeadApi keypairFromSeed kemEnc kemDec)

abbrev Byte := UInt8

/-- `lc_x25519_keypair`, `x25519.c:53-80`: public and secret key from the 32 random bytes. -/
def xKeypair (r : List Byte) : List Byte × List Byte := (Curve.x25519Base r, r)

/-- The return code of `crypto_scalarmult_curve25519_c`: -1 for a point of small order. -/
def ofOption : Option (List Byte) → Out (List Byte)
  | none => .err (-1)
  | some s => .ok s

/-- `lc_x25519_ss`, `x25519.c:114-137`. -/
def xSs (pk sk : List Byte) : Out (List Byte) := ofOption (Curve.scalarmult sk pk)

/-- A pair of byte strings: the ML-KEM and the X25519 part. -/
structure Two where
  kem : List Byte
  x : List Byte
deriving DecidableEq

/-- The structure in memory. -/
def Two.mem (t : Two) : List Byte := t.kem ++ t.x

/-- `lc_kyber_x25519_keypair`, `kyber_x25519_kem.c:28-39`: 64 bytes for ML-KEM, 32 for X25519. -/
def keypair (f : Fns) (p : Par) (fuel : Nat) (seed r : List Byte) : Out (Two × Two) :=
  match keypairFromSeed f p fuel seed with
  | .loop => .loop
  | .err e => .err e
  | .ok pk sk => .ok (⟨pk, (xKeypair r).1⟩, ⟨sk, (xKeypair r).2⟩)

/-- `lc_kyber_x25519_enc_internal`, `kyber_x25519_kem.c:41-57`: 32 bytes `m` for ML-KEM, 32 bytes `r`
for the ephemeral X25519 key. -/
def enc (f : Fns) (p : Par) (fuel : Nat) (pk : Two) (m r : List Byte) : Out (Two × Two) :=
  match kemEnc f p fuel pk.kem m with
  | .loop => .loop
  | .err e => .err e
  | .ok ct ss =>
    match xSs pk.x (xKeypair r).2 with
    | .loop => .loop
    | .err e => .err e
    | .ok sx => .ok (⟨ct, (xKeypair r).1⟩, ⟨ss, sx⟩)

/-- `lc_kyber_x25519_dec_internal`, `kyber_x25519_kem.c:84-95`. -/
def dec (f : Fns) (p : Par) (fuel : Nat) (ct sk : Two) : Out Two :=
  match kemDec f p fuel ct.kem sk.kem with
  | .loop => .loop
  | .err e => .err e
  | .ok ss =>
    match xSs ct.x sk.x with
    | .loop => .loop
    | .err e => .err e
    | .ok sx => .ok ⟨ss, sx⟩

/-- The bytes of the string literals in `kyber_x25519_kdf.h:45, 79, 122`. -/
def labelSs : List Byte := [0x4b, 0x79, 0x62, 0x65, 0x72, 0x20, 0x58, 0x32, 0x35, 0x35, 0x31, 0x39, 0x20, 0x4b, 0x45, 0x4d, 0x20, 0x53, 0x53]
def label3 : List Byte := [0x4b, 0x79, 0x62, 0x65, 0x72, 0x20, 0x58, 0x32, 0x35, 0x35, 0x31, 0x39, 0x20, 0x4b, 0x45, 0x4d, 0x20, 0x33, 0x2d, 0x77,
  0x61, 0x79, 0x20, 0x53, 0x53]
def label4 : List Byte := [0x4b, 0x79, 0x62, 0x65, 0x72, 0x20, 0x58, 0x32, 0x35, 0x35, 0x31, 0x39, 0x20, 0x4b, 0x45, 0x4d, 0x20, 0x34, 0x2d, 0x77,
  0x61, 0x79, 0x20, 0x53, 0x53]

/-- `kyber_x25519_ss_kdf`, `kyber_x25519_kdf.h:41-56`: the length of the key is
`sizeof(struct lc_kyber_ss)`, which is 32, not `sizeof(struct lc_kyber_x25519_ss)`. -/
def ssKdf (K : KmacCalls) (ct ss : Two) (n : Nat) : List Byte := K (ss.mem.take 32) labelSs [ct.mem] n

/-- `kyber_x25519_kdf3`, `kyber_x25519_kdf.h:73-96`. -/
def kdf3 (K : KmacCalls) (ss0 ss1 : Two) (nonce : List Byte) (n : Nat) : List Byte := K ss0.mem label3 [ss1.mem, nonce] n

/-- `kyber_x25519_kdf4`, `kyber_x25519_kdf.h:115-141`. -/
def kdf4 (K : KmacCalls) (ss0 ss1 ss2 : Two) (nonce : List Byte) (n : Nat) : List Byte :=
  K ss0.mem label4 [ss1.mem, ss2.mem, nonce] n

/-- `lc_kyber_x25519_enc_kdf_internal`, `kyber_x25519_kem.c:59-74`. -/
def encKdf (f : Fns) (K : KmacCalls) (p : Par) (fuel : Nat) (pk : Two) (m r : List Byte) (n : Nat) : Out (Two × List Byte) :=
  match enc f p fuel pk m r with
  | .loop => .loop
  | .err e => .err e
  | .ok c => .ok (c.1, ssKdf K c.1 c.2 n)

/-- `lc_kyber_x25519_dec_kdf`, `kyber_x25519_kem.c:97-111`. -/
def decKdf (f : Fns) (K : KmacCalls) (p : Par) (fuel : Nat) (ct sk : Two) (n : Nat) : Out (List Byte) :=
  match dec f p fuel ct sk with
  | .loop => .loop
  | .err e => .err e
  | .ok ss => .ok (ssKdf K ct ss n)

/-! ### Key exchange -/

/-- What the initiator holds after the first step. -/
structure Init where
  pkE : Two
  ctE : Two
  tk : Two
  skE : Two

/-- `lc_kex_x25519_uake_initiator_init_internal`, `kyber_x25519_kex.c:34-46`, and
`lc_kex_x25519_ake_initiator_init_internal`, `kyber_x25519_kex.c:112-124`, which are the same. -/
def kexInit (f : Fns) (p : Par) (fuel : Nat) (pkR : Two) (seed r m rm : List Byte) : Out Init :=
  match keypair f p fuel seed r with
  | .loop => .loop
  | .err e => .err e
  | .ok kp =>
    match enc f p fuel pkR m rm with
    | .loop => .loop
    | .err e => .err e
    | .ok c => .ok ⟨kp.1, c.1, c.2, kp.2⟩

/-- `lc_kex_x25519_uake_responder_ss_internal`, `kyber_x25519_kex.c:59-78`. -/
def uakeResponder (f : Fns) (K : KmacCalls) (p : Par) (fuel : Nat) (nonce : List Byte) (n : Nat) (pkE ctE skR : Two) (m r : List Byte) :
    Out (Two × List Byte) :=
  match enc f p fuel pkE m r with
  | .loop => .loop
  | .err e => .err e
  | .ok c =>
    match dec f p fuel ctE skR with
    | .loop => .loop
    | .err e => .err e
    | .ok ss1 => .ok (c.1, kdf3 K c.2 ss1 nonce n)

/-- `lc_kex_x25519_uake_initiator_ss`, `kyber_x25519_kex.c:93-110`. -/
def uakeInitiator (f : Fns) (K : KmacCalls) (p : Par) (fuel : Nat) (nonce : List Byte) (n : Nat) (ctR tk skE : Two) : Out (List Byte) :=
  match dec f p fuel ctR skE with
  | .loop => .loop
  | .err e => .err e
  | .ok ss => .ok (kdf3 K ss tk nonce n)

/-- `lc_kex_x25519_ake_responder_ss_internal`, `kyber_x25519_kex.c:137-158`. -/
def akeResponder (f : Fns) (K : KmacCalls) (p : Par) (fuel : Nat) (nonce : List Byte) (n : Nat) (pkE ctE skR pkI : Two)
    (m1 r1 m2 r2 : List Byte) : Out (Two × Two × List Byte) :=
  match enc f p fuel pkE m1 r1 with
  | .loop => .loop
  | .err e => .err e
  | .ok c1 =>
    match enc f p fuel pkI m2 r2 with
    | .loop => .loop
    | .err e => .err e
    | .ok c2 =>
      match dec f p fuel ctE skR with
      | .loop => .loop
      | .err e => .err e
      | .ok ss2 => .ok (c1.1, c2.1, kdf4 K c1.2 c2.2 ss2 nonce n)

/-- `lc_kex_x25519_ake_initiator_ss`, `kyber_x25519_kex.c:175-195`. -/
def akeInitiator (f : Fns) (K : KmacCalls) (p : Par) (fuel : Nat) (nonce : List Byte) (n : Nat) (ct1 ct2 tk skE skI : Two) : Out (List Byte) :=
  match dec f p fuel ct1 skE with
  | .loop => .loop
  | .err e => .err e
  | .ok ss0 =>
    match dec f p fuel ct2 skI with
    | .loop => .loop
    | .err e => .err e
    | .ok ss1 => .ok (kdf4 K ss0 ss1 tk nonce n)

/-! ### Integrated encryption scheme -/

variable (A : AeadApi)

/-- Key and IV from the 48 byte secret and `lc_aead_setkey`, `kyber_x25519_ies.c:46-47` and elsewhere. -/
def rekey (s : A.S) (ss : List Byte) : Out A.S := A.setkey s (ss.take 32) ((ss.drop 32).take 16)

/-- `lc_kyber_x25519_ies_enc_internal`, `kyber_x25519_ies.c:33-54`.  The return code of
`lc_aead_encrypt` is ignored. -/
def iesEnc (f : Fns) (K : KmacCalls) (p : Par) (fuel : Nat) (s : A.S) (pk : Two) (m r pt old aad tagOld : List Byte) :
    Out (Two × A.S × List Byte × List Byte) :=
  match encKdf f K p fuel pk m r 48 with
  | .loop => .loop
  | .err e => .err e
  | .ok c =>
    match rekey A s c.2 with
    | .loop => .loop
    | .err e => .err e
    | .ok s => .ok (c.1, A.encrypt s pt old aad tagOld)

/-- `lc_kyber_x25519_ies_enc_init_internal`, `kyber_x25519_ies.c:68-88`; line 83 calls `lc_aead_dec_init`. -/
def iesEncInit (f : Fns) (K : KmacCalls) (p : Par) (fuel : Nat) (s : A.S) (pk : Two) (m r aad : List Byte) : Out (Two × A.S) :=
  match encKdf f K p fuel pk m r 48 with
  | .loop => .loop
  | .err e => .err e
  | .ok c =>
    match rekey A s c.2 with
    | .loop => .loop
    | .err e => .err e
    | .ok s => .ok (c.1, A.decInit s aad)

/-- `lc_kyber_x25519_ies_dec`, `kyber_x25519_ies.c:105-127`. -/
def iesDec (f : Fns) (K : KmacCalls) (p : Par) (fuel : Nat) (s : A.S) (sk ct : Two) (data old aad junk tag : List Byte) :
    Out (A.S × List Byte × Int) :=
  match decKdf f K p fuel ct sk 48 with
  | .loop => .loop
  | .err e => .err e
  | .ok ss =>
    match rekey A s ss with
    | .loop => .loop
    | .err e => .err e
    | .ok s => .ok (A.decrypt s data old aad junk tag)

/-- `lc_kyber_x25519_ies_dec_init`, `kyber_x25519_ies.c:129-148`. -/
def iesDecInit (f : Fns) (K : KmacCalls) (p : Par) (fuel : Nat) (s : A.S) (sk ct : Two) (aad : List Byte) : Out A.S :=
  match decKdf f K p fuel ct sk 48 with
  | .loop => .loop
  | .err e => .err e
  | .ok ss =>
    match rekey A s ss with
    | .loop => .loop
    | .err e => .err e
    | .ok s => .ok (A.decInit s aad)

end LC.Hybrid
