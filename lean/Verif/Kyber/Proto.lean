import Verif.Kyber.Kem
import Verif.Aead.Xof
import Verif.AsconAead.Model
/-
Model of the protocols on top of ML-KEM: the key exchanges `kyber_kex.c`, the integrated encryption scheme
`kyber_ies.c` and the pairwise consistency test `kyber_pct.c`.  The random bytes a function draws from the
random number generator are arguments; a failing generator is not modelled.
-/
namespace LC.Kyber

/-- `lc_kmac_init(key, label)`, `lc_kmac_update` for every chunk, `lc_kmac_final(len)` with cSHAKE256. -/
abbrev KmacCalls := List Byte → List Byte → List (List Byte) → Nat → List Byte

/-- The bytes of the string literals in `kyber_kdf.h:80, 119`. -/
def label3 : List Byte := [0x4b, 0x79, 0x62, 0x65, 0x72, 0x20, 0x4b, 0x45, 0x4d, 0x20, 0x33, 0x2d, 0x77, 0x61, 0x79, 0x20, 0x53, 0x53]
def label4 : List Byte := [0x4b, 0x79, 0x62, 0x65, 0x72, 0x20, 0x4b, 0x45, 0x4d, 0x20, 0x34, 0x2d, 0x77, 0x61, 0x79, 0x20, 0x53, 0x53]

/-- `kyber_kdf3`, `kyber_kdf.h:75-90`. -/
def kdf3 (K : KmacCalls) (in1 in2 in3 : List Byte) (n : Nat) : List Byte := K in1 label3 [in2, in3] n

/-- `kyber_kdf4`, `kyber_kdf.h:113-130`. -/
def kdf4 (K : KmacCalls) (in1 in2 in3 in4 : List Byte) (n : Nat) : List Byte := K in1 label4 [in2, in3, in4] n

/-! ### Key exchange -/

/-- Outcome of a function returning values of type `α`. -/
inductive Out (α : Type) where
  | loop
  | err (e : Int)
  | ok (a : α)

/-- What the initiator holds after the first step. -/
structure Init where
  pkE : List Byte
  ctE : List Byte
  tk : List Byte
  skE : List Byte

/-- `lc_kex_uake_initiator_init_internal`, `kyber_kex.c:35-49`, and `lc_kex_ake_initiator_init_internal`,
`kyber_kex.c:111-125`, which are the same; `rnd` are the 64 bytes of `lc_kyber_keypair`
(`kyber_kem.c:84-106`) and `m` the 32 bytes of the encapsulation. -/
def kexInit (f : Fns) (p : Par) (fuel : Nat) (pkR rnd m : List Byte) : Out Init :=
  match keypairFromSeed f p fuel rnd with
  | .loop => .loop
  | .err e => .err e
  | .ok pk sk =>
    match kemEnc f p fuel pkR m with
    | .loop => .loop
    | .err e => .err e
    | .ok ct ss => .ok ⟨pk, ct, ss, sk⟩

/-- `lc_kex_uake_responder_ss_internal`, `kyber_kex.c:60-78`: ciphertext and shared secret. -/
def uakeResponder (f : Fns) (K : KmacCalls) (p : Par) (fuel : Nat) (nonce : List Byte) (n : Nat) (pkE ctE skR m : List Byte) :
    Out (List Byte × List Byte) :=
  match kemEnc f p fuel pkE m with
  | .loop => .loop
  | .err e => .err e
  | .ok ct ss0 =>
    match kemDec f p fuel ctE skR with
    | .loop => .loop
    | .err e => .err e
    | .ok ss1 => .ok (ct, kdf3 K ss0 ss1 nonce n)

/-- `lc_kex_uake_initiator_ss`, `kyber_kex.c:93-109`. -/
def uakeInitiator (f : Fns) (K : KmacCalls) (p : Par) (fuel : Nat) (nonce : List Byte) (n : Nat) (ctR tk skE : List Byte) :
    Out (List Byte) :=
  match kemDec f p fuel ctR skE with
  | .loop => .loop
  | .err e => .err e
  | .ok ss => .ok (kdf3 K ss tk nonce n)

/-- `lc_kex_ake_responder_ss_internal`, `kyber_kex.c:136-157`: both ciphertexts and the shared secret. -/
def akeResponder (f : Fns) (K : KmacCalls) (p : Par) (fuel : Nat) (nonce : List Byte) (n : Nat) (pkE ctE skR pkI m1 m2 : List Byte) :
    Out (List Byte × List Byte × List Byte) :=
  match kemEnc f p fuel pkE m1 with
  | .loop => .loop
  | .err e => .err e
  | .ok ct1 ss0 =>
    match kemEnc f p fuel pkI m2 with
    | .loop => .loop
    | .err e => .err e
    | .ok ct2 ss1 =>
      match kemDec f p fuel ctE skR with
      | .loop => .loop
      | .err e => .err e
      | .ok ss2 => .ok (ct1, ct2, kdf4 K ss0 ss1 ss2 nonce n)

/-- `lc_kex_ake_initiator_ss`, `kyber_kex.c:173-193`. -/
def akeInitiator (f : Fns) (K : KmacCalls) (p : Par) (fuel : Nat) (nonce : List Byte) (n : Nat) (ct1 ct2 tk skE skI : List Byte) :
    Out (List Byte) :=
  match kemDec f p fuel ct1 skE with
  | .loop => .loop
  | .err e => .err e
  | .ok ss0 =>
    match kemDec f p fuel ct2 skI with
    | .loop => .loop
    | .err e => .err e
    | .ok ss1 => .ok (kdf4 K ss0 ss1 tk nonce n)

/-! ### Pairwise consistency test -/

/-- `lc_kyber_pct`, `kyber_pct.c:28-62`: the return value, zero for success; `m` are the bytes drawn by
`lc_kyber_enc`, `lc_memcmp_secure` returns nonzero for different strings (C12). -/
def pct (f : Fns) (p : Par) (fuel : Nat) (pk sk m : List Byte) : Out Unit :=
  match kemEnc f p fuel pk m with
  | .loop => .loop
  | .err e => .err e
  | .ok ct ss1 =>
    match kemDec f p fuel ct sk with
    | .loop => .loop
    | .err e => .err e
    | .ok ss2 => if memcmpB true false ss1 ss2 = 0 then .ok () else .err 1

/-! ### Integrated encryption scheme -/

/-- The callbacks of `struct lc_aead` (`lc_aead.h:32-58`) as reached by `aead_api.c`: data functions get
the previous content of the output buffer, `decFinal` the content of its uninitialised tag buffer. -/
structure AeadApi where
  S : Type
  setkey : S → List Byte → List Byte → Out S
  encrypt : S → List Byte → List Byte → List Byte → List Byte → S × List Byte × List Byte
  encInit : S → List Byte → S
  encUpdate : S → List Byte → List Byte → S × List Byte
  encFinal : S → List Byte → S × List Byte
  decrypt : S → List Byte → List Byte → List Byte → List Byte → List Byte → S × List Byte × Int
  decInit : S → List Byte → S
  decUpdate : S → List Byte → List Byte → S × List Byte
  decFinal : S → List Byte → List Byte → S × Int

variable (A : AeadApi)

/-- `lc_kyber_ies_enc_internal`, `kyber_ies.c:346-367`: ciphertext of the key, context, ciphertext of the
data, tag.  The return code of `lc_aead_encrypt` is ignored. -/
def iesEnc (f : Fns) (p : Par) (fuel : Nat) (s : A.S) (pk m pt old aad tagOld : List Byte) : Out (List Byte × A.S × List Byte × List Byte) :=
  match kemEncKdf f p fuel pk m 48 with
  | .loop => .loop
  | .err e => .err e
  | .ok ct ss =>
    match A.setkey s (ss.take 32) ((ss.drop 32).take 16) with
    | .loop => .loop
    | .err e => .err e
    | .ok s => .ok (ct, A.encrypt s pt old aad tagOld)

/-- `lc_kyber_ies_enc_init_internal`, `kyber_ies.c:380-398`; line 393 calls `lc_aead_dec_init`. -/
def iesEncInit (f : Fns) (p : Par) (fuel : Nat) (s : A.S) (pk m aad : List Byte) : Out (List Byte × A.S) :=
  match kemEncKdf f p fuel pk m 48 with
  | .loop => .loop
  | .err e => .err e
  | .ok ct ss =>
    match A.setkey s (ss.take 32) ((ss.drop 32).take 16) with
    | .loop => .loop
    | .err e => .err e
    | .ok s => .ok (ct, A.decInit s aad)

/-- `lc_kyber_ies_dec`, `kyber_ies.c:413-433`: context, plaintext buffer and return code. -/
def iesDec (f : Fns) (p : Par) (fuel : Nat) (s : A.S) (sk ct data old aad junk tag : List Byte) : Out (A.S × List Byte × Int) :=
  match kemDecKdf f p fuel ct sk 48 with
  | .loop => .loop
  | .err e => .err e
  | .ok ss =>
    match A.setkey s (ss.take 32) ((ss.drop 32).take 16) with
    | .loop => .loop
    | .err e => .err e
    | .ok s => .ok (A.decrypt s data old aad junk tag)

/-- `lc_kyber_ies_dec_init`, `kyber_ies.c:435-453`. -/
def iesDecInit (f : Fns) (p : Par) (fuel : Nat) (s : A.S) (sk ct aad : List Byte) : Out A.S :=
  match kemDecKdf f p fuel ct sk 48 with
  | .loop => .loop
  | .err e => .err e
  | .ok ss =>
    match A.setkey s (ss.take 32) ((ss.drop 32).take 16) with
    | .loop => .loop
    | .err e => .err e
    | .ok s => .ok (A.decInit s aad)

/-- Any number of `lc_kyber_ies_enc_update` calls (`lc_kyber.h`: an alias of `lc_aead_enc_update`), each with
the data and the previous content of the output buffer. -/
def encUpdates (s : A.S) : List (List Byte × List Byte) → A.S × List Byte
  | [] => (s, [])
  | x :: xs => ((encUpdates (A.encUpdate s x.1 x.2).1 xs).1, (A.encUpdate s x.1 x.2).2 ++ (encUpdates (A.encUpdate s x.1 x.2).1 xs).2)

def decUpdates (s : A.S) : List (List Byte × List Byte) → A.S × List Byte
  | [] => (s, [])
  | x :: xs => ((decUpdates (A.decUpdate s x.1 x.2).1 xs).1, (A.decUpdate s x.1 x.2).2 ++ (decUpdates (A.decUpdate s x.1 x.2).1 xs).2)

/-- The cSHAKE AEAD (`cshake_crypt.c:640-660`). -/
@[reducible] def cshakeApi (perm : List Byte → List Byte) (r : Nat) : AeadApi where
  S := Aead.Ctx (Aead.cshakeAlg perm)
  setkey _ key iv := .ok (Aead.ccSetkey perm r key iv)
  encrypt := Aead.encOneshot
  encInit := Aead.addAad
  encUpdate := Aead.encrypt
  encFinal := Aead.encryptTag
  decrypt := Aead.decOneshot
  decInit := Aead.addAad
  decUpdate := Aead.decrypt
  decFinal := Aead.authenticate

/-- Ascon with 128 bit keys and Ascon-Keccak (`ascon.c:440-460`), context with tag length `taglen`. -/
@[reducible] def asconApi (cf : AsconAead.Cfg) (taglen : Nat) : AeadApi where
  S := AsconAead.Ctx
  setkey _ key iv :=
    match AsconAead.setkey cf taglen key iv with
    | none => .err einval
    | some s => .ok s
  encrypt s pt _ aad old :=
    let r := AsconAead.encUpdate cf (AsconAead.aad cf s aad) pt
    let t := AsconAead.encFinal cf r.1 old
    (t.1, r.2, t.2)
  encInit := AsconAead.aad cf
  encUpdate s x _ := AsconAead.encUpdate cf s x
  encFinal := AsconAead.encFinal cf
  decrypt s ct _ aad _ tag :=
    let r := AsconAead.decUpdate cf (AsconAead.aad cf s aad) ct
    let t := AsconAead.decFinal cf r.1 tag
    (t.1, r.2, t.2)
  decInit := AsconAead.aad cf
  decUpdate s x _ := AsconAead.decUpdate cf s x
  decFinal s _ tag := AsconAead.decFinal cf s tag

end LC.Kyber
