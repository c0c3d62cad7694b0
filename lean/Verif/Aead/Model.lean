import Verif.Kmac.Props
import Verif.Kdf.Props
import Verif.Sym.Props
/-
Model of the AEAD algorithms that combine a cipher with a MAC: `/repo/aead/src/cshake_crypt.c`,
`kmac_crypt.c`, `hash_crypt.c`, `symhmac.c`, `symkmac.c`, reached through `aead_api.c`.
(`ascon.c` is modelled in `Verif/Aead/Ascon.lean`.)

Output buffers are passed with their previous content (`old`), because some paths leave part of
a buffer untouched; for in-place operation `old` is the input.  The self tests, the Timecop
annotations, the NULL context checks and the wiping of buffers are not modelled.  Failing memory
allocation (tags above 128 bytes in `cshake_crypt.c` and `kmac_crypt.c`) is not modelled.
-/
namespace LC.Aead

/-! ### The common structure -/

/-- What the five source files have in common: a cipher with state `C`, a MAC with state `M`.
`tag m old` is the `*_encrypt_tag` function on a tag buffer with content `old`; `clamp n` is the
number of tag bytes looked at by `*_decrypt_authenticate` for `taglen = n`, `none` being
`-EINVAL`. -/
structure Alg where
  C : Type
  M : Type
  enc : C → List Byte → List Byte → C × List Byte
  dec : C → List Byte → List Byte → C × List Byte
  upd : M → List Byte → M
  tag : M → List Byte → M × List Byte
  clamp : Nat → Option Nat

/-- `struct lc_cc_cryptor` and its siblings. -/
structure Ctx (A : Alg) where
  c : A.C
  m : A.M

variable {A : Alg}

/-- `lc_cc_add_aad` (`cshake_crypt.c:481-490`), `lc_kc_add_aad`, `lc_hc_add_aad`,
`lc_sh_add_aad`, `lc_kh_add_aad`. -/
def addAad (s : Ctx A) (aad : List Byte) : Ctx A := { s with m := A.upd s.m aad }

/-- `lc_cc_encrypt` (`cshake_crypt.c:539-556`), `lc_kc_encrypt`, `lc_hc_encrypt`, `lc_sh_encrypt`,
`lc_kh_encrypt`: encrypt, then MAC the ciphertext. -/
def encrypt (s : Ctx A) (pt old : List Byte) : Ctx A × List Byte :=
  ({ c := (A.enc s.c pt old).1, m := A.upd s.m (A.enc s.c pt old).2 }, (A.enc s.c pt old).2)

/-- `lc_cc_decrypt` (`cshake_crypt.c:558-575`) and its siblings: MAC the ciphertext, then decrypt. -/
def decrypt (s : Ctx A) (ct old : List Byte) : Ctx A × List Byte :=
  ({ c := (A.dec s.c ct old).1, m := A.upd s.m ct }, (A.dec s.c ct old).2)

/-- `lc_cc_encrypt_tag` (`cshake_crypt.c:492-507`) and its siblings. -/
def encryptTag (s : Ctx A) (old : List Byte) : Ctx A × List Byte :=
  ({ s with m := (A.tag s.m old).1 }, (A.tag s.m old).2)

/-- `lc_memcmp_secure(calctag, n, tag, n) ? -EBADMSG : 0`; by C12 (`Memcmp.memcmp_lists`) the
comparison is equality of the two byte strings. -/
def compareTag (own tag : List Byte) : Int := if own = tag then 0 else -74

/-- `lc_cc_decrypt_authenticate` (`cshake_crypt.c:509-537`) and its siblings; `junk` is the
uninitialised content of the buffer `calctag`. -/
def authenticate (s : Ctx A) (junk tag : List Byte) : Ctx A × Int :=
  match A.clamp tag.length with
  | none => (s, -22)
  | some n =>
    ({ s with m := (A.tag s.m (junk.take n)).1 }, compareTag (A.tag s.m (junk.take n)).2 (tag.take n))

/-- A sequence of `lc_aead_enc_update` calls, each with (data, previous output buffer); returns
the concatenated output buffers. -/
def encryptCalls (s : Ctx A) : List (List Byte × List Byte) → Ctx A × List Byte
  | [] => (s, [])
  | (x, o) :: cs =>
    ((encryptCalls (encrypt s x o).1 cs).1, (encrypt s x o).2 ++ (encryptCalls (encrypt s x o).1 cs).2)

/-- A sequence of `lc_aead_dec_update` calls. -/
def decryptCalls (s : Ctx A) : List (List Byte × List Byte) → Ctx A × List Byte
  | [] => (s, [])
  | (x, o) :: cs =>
    ((decryptCalls (decrypt s x o).1 cs).1, (decrypt s x o).2 ++ (decryptCalls (decrypt s x o).1 cs).2)

/-- `lc_aead_enc_init` (any number of times), `lc_aead_enc_update` (any number of times),
`lc_aead_enc_final`: ciphertext and tag.  `aead_api.c:70-118`. -/
def encSession (s : Ctx A) (aads : List (List Byte)) (cs : List (List Byte × List Byte))
    (old : List Byte) : Ctx A × List Byte × List Byte :=
  let r := encryptCalls (aads.foldl addAad s) cs
  ((encryptTag r.1 old).1, r.2, (encryptTag r.1 old).2)

/-- `lc_aead_dec_init`, `lc_aead_dec_update`, `lc_aead_dec_final`: plaintext and return code. -/
def decSession (s : Ctx A) (aads : List (List Byte)) (cs : List (List Byte × List Byte))
    (junk tag : List Byte) : Ctx A × List Byte × Int :=
  let r := decryptCalls (aads.foldl addAad s) cs
  ((authenticate r.1 junk tag).1, r.2, (authenticate r.1 junk tag).2)

/-- `lc_cc_encrypt_oneshot` (`cshake_crypt.c:577-593`) and its siblings, `lc_aead_encrypt`. -/
def encOneshot (s : Ctx A) (pt ptOld aad tagOld : List Byte) : Ctx A × List Byte × List Byte :=
  let s := addAad s aad
  let r := encrypt s pt ptOld
  let t := encryptTag r.1 tagOld
  (t.1, r.2, t.2)

/-- `lc_cc_decrypt_oneshot` (`cshake_crypt.c:595-619`) and its siblings, `lc_aead_decrypt`. -/
def decOneshot (s : Ctx A) (ct ctOld aad junk tag : List Byte) : Ctx A × List Byte × Int :=
  let s := addAad s aad
  let r := decrypt s ct ctOld
  let t := authenticate r.1 junk tag
  (t.1, r.2, t.2)

/-! ### Key stream ciphers -/

/-- Key stream part of `struct lc_cc_cryptor`, `lc_kc_cryptor`, `lc_hc_cryptor`: the generator
state, the current key stream block and the read position. -/
structure KsCtx (G : Type) where
  gen : G
  ks : List Byte
  ptr : Nat

/-- The `while (len)` loop of `lc_cc_crypt` (`cshake_crypt.c:455-478`), `lc_kc_crypt`
(`kmac_crypt.c:382-405`) and `lc_hc_crypt` (`hash_crypt.c:131-159`), for a block of `B` bytes.
`next` produces the next key stream block, `none` being the error of `lc_rng_generate` after
which `lc_hc_crypt` returns and leaves the rest of the output buffer as it was.  The first
argument bounds the number of iterations; the input length is always enough. -/
def cryptLoop {G : Type} (B : Nat) (next : G → Option (G × List Byte)) :
    Nat → KsCtx G → List Byte → List Byte → KsCtx G × List Byte
  | 0, c, _, old => (c, old)
  | fuel + 1, c, inp, old =>
    if inp.length = 0 then (c, old)
    else
      let todo := min inp.length B
      let c1 : Option (KsCtx G) :=
        if B ≤ c.ptr then (next c.gen).map fun p => { gen := p.1, ks := p.2, ptr := 0 } else some c
      match c1 with
      | none => (c, old)
      | some c =>
        let todo := min todo (B - c.ptr)
        let r := cryptLoop B next fuel { c with ptr := c.ptr + todo } (inp.drop todo) (old.drop todo)
        (r.1, Sym.xorb (inp.take todo) (c.ks.drop c.ptr) ++ r.2)

def crypt {G : Type} (B : Nat) (next : G → Option (G × List Byte)) (c : KsCtx G)
    (inp old : List Byte) : KsCtx G × List Byte :=
  cryptLoop B next inp.length c inp old

/-! ### cSHAKE -/

/-- `LC_CC_CUSTOMIZATION_STRING`, `cshake_crypt.c:329`: "cSHAKE-AEAD crypt". -/
def ccName : List Byte :=
  [0x63, 0x53, 0x48, 0x41, 0x4b, 0x45, 0x2d, 0x41, 0x45, 0x41, 0x44, 0x20, 0x63, 0x72, 0x79, 0x70, 0x74]
/-- `LC_CC_AUTH_CUSTOMIZATION_STRING`, `cshake_crypt.c:330`: "cSHAKE-AEAD auth". -/
def ccAuthName : List Byte :=
  [0x63, 0x53, 0x48, 0x41, 0x4b, 0x45, 0x2d, 0x41, 0x45, 0x41, 0x44, 0x20, 0x61, 0x75, 0x74, 0x68]

/-- `struct lc_cshake_ctx` with the shadow context of `_LC_CSHAKE_SET_CTX_REINIT`. -/
structure CsCtx where
  hash : Sponge.Ctx
  shadow : Sponge.Ctx

/-- `lc_cshake_ctx_init`, `cshake.c:86-97`. -/
def csInit (perm : List Byte → List Byte) (r : Nat) (n s : List Byte) : CsCtx :=
  { hash := Kmac.cshakeInit perm r n s, shadow := Kmac.cshakeInit perm r n s }

/-- `lc_cc_encrypt_tag`, `cshake_crypt.c:492-507`: final and `lc_cshake_ctx_reinit`
(`cshake.c:99-116`).  All bytes of the tag buffer are written. -/
def ccTag (perm : List Byte → List Byte) (m : CsCtx) (old : List Byte) : CsCtx × List Byte :=
  ({ m with hash := m.shadow }, (Kmac.cshakeFinal perm m.hash old.length).2)

/-- The cSHAKE based AEAD over a Keccak permutation with rate `r`. -/
@[reducible] def cshakeAlg (perm : List Byte → List Byte) : Alg where
  C := KsCtx Sponge.Ctx
  M := CsCtx
  enc c x o := crypt 136 (fun g => some (Sponge.squeeze perm g)) c x o
  dec c x o := crypt 136 (fun g => some (Sponge.squeeze perm g)) c x o
  upd m x := { m with hash := Sponge.absorb perm m.hash x }
  tag := ccTag perm
  clamp n := some n

/-- `lc_cc_setkey`, `cshake_crypt.c:405-446`. -/
def ccSetkey (perm : List Byte → List Byte) (r : Nat) (key iv : List Byte) : Ctx (cshakeAlg perm) :=
  let g := Sponge.absorb perm (Kmac.cshakeInit perm r ccName key) iv
  let p := Kmac.cshakeFinal perm g 136
  { c := { gen := p.1, ks := p.2, ptr := 32 }, m := csInit perm r ccAuthName (p.2.take 32) }

/-! ### KMAC -/

/-- Bytes written over the start of a buffer. -/
def put (w old : List Byte) : List Byte := w ++ old.drop w.length

/-- `lc_kmac_final_xof` on a tag buffer: nothing is written for less than four bytes. -/
def kmacTag (perm : List Byte → List Byte) (m : Kmac.Ctx) (old : List Byte) : Kmac.Ctx × List Byte :=
  let p := Kmac.finalXof perm m old.length
  (p.1, put (p.2.getD []) old)

/-- The KMAC based AEAD; `lc_kc_encrypt_tag` (`kmac_crypt.c:418-433`) calls `lc_kmac_reinit`. -/
@[reducible] def kmacAlg (perm : List Byte → List Byte) : Alg where
  C := KsCtx Kmac.Ctx
  M := Kmac.Ctx
  enc c x o := crypt 136 (fun g => (Kmac.finalXof perm g 136).2.map fun b => ((Kmac.finalXof perm g 136).1, b)) c x o
  dec c x o := crypt 136 (fun g => (Kmac.finalXof perm g 136).2.map fun b => ((Kmac.finalXof perm g 136).1, b)) c x o
  upd m x := Kmac.update perm m x
  tag m old := (Kmac.reinit (kmacTag perm m old).1, (kmacTag perm m old).2)
  clamp n := some n

/-- `lc_kc_setkey`, `kmac_crypt.c:341-373`.  `lc_kmac_final_xof` with 136 bytes always writes. -/
def kcSetkey (perm : List Byte → List Byte) (r : Nat) (key iv : List Byte) : Ctx (kmacAlg perm) :=
  let p := Kmac.finalXof perm (Kmac.init perm r false key iv) 136
  { c := { gen := p.1, ks := p.2.getD [], ptr := 32 },
    m := Kmac.init perm r true ((p.2.getD []).take 32) [] }

/-! ### Symmetric cipher with HMAC or KMAC -/

/-- A symmetric algorithm (`struct lc_sym`) with its state after key and IV have been set;
`enc`/`dec` take the input and the previous output buffer. -/
structure SymAlg where
  State : Type
  blocksize : Nat
  enc : State → List Byte → List Byte → State × List Byte
  dec : State → List Byte → List Byte → State × List Byte

/-- "Safety-measure to avoid leaking data", `symhmac.c:206-210`, `symkmac.c:184-188`: the trailing
partial block of the output buffer is zeroed. -/
def zeroTail (bs : Nat) (b : List Byte) : List Byte :=
  b.take (b.length - b.length % bs) ++ List.replicate (b.length % bs) 0

/-- `lc_sh_encrypt_tag`, `symhmac.c:147-168`: at most the MAC size is copied; no re-init. -/
def shTag {S : StreamHash} (m : Hmac.Ctx S) (old : List Byte) : Hmac.Ctx S × List Byte :=
  let p := Hmac.final m
  (p.1, put (p.2.take old.length) old)

/-- `symhmac.c`. -/
@[reducible] def symHmacAlg (Y : SymAlg) (S : StreamHash) : Alg where
  C := Y.State
  M := Hmac.Ctx S
  enc c x o := ((Y.enc c x o).1, zeroTail Y.blocksize (Y.enc c x o).2)
  dec c x o := ((Y.dec c x o).1, zeroTail Y.blocksize (Y.dec c x o).2)
  upd m x := Hmac.update m x
  tag := shTag
  clamp n := some (min n S.dsize)

/-- `lc_sh_setkey`, `symhmac.c:107-136`; `mk` is `lc_sym_init`, `lc_sym_setkey`, `lc_sym_setiv`
with `none` for an error; `h512`, `h0` are the hash memories used by `lc_hkdf` and the HMAC. -/
def shSetkey (Y : SymAlg) (S : StreamHash) (mk : List Byte → List Byte → Option Y.State)
    (h512 : Hmac.Ctx sha512) (h0 : S.Ctx) (key iv : List Byte) : Option (Ctx (symHmacAlg Y S)) :=
  let k := Kdf.hkdf h512 key none none 64
  if k.1 < 0 then none
  else (mk (k.2.take 32) iv).map fun c => { c := c, m := Hmac.init h0 ((k.2.drop 32).take 32) }

/-- `symkmac.c`; the number of tag bytes checked is at most 128 (`symkmac.c:160`); no re-init. -/
@[reducible] def symKmacAlg (Y : SymAlg) (perm : List Byte → List Byte) : Alg where
  C := Y.State
  M := Kmac.Ctx
  enc c x o := ((Y.enc c x o).1, zeroTail Y.blocksize (Y.enc c x o).2)
  dec c x o := ((Y.dec c x o).1, zeroTail Y.blocksize (Y.dec c x o).2)
  upd m x := Kmac.update perm m x
  tag := kmacTag perm
  clamp n := some (min n 128)

/-- `lc_kh_setkey`, `symkmac.c:107-135`. -/
def khSetkey (Y : SymAlg) (perm : List Byte → List Byte) (r : Nat)
    (mk : List Byte → List Byte → Option Y.State) (key iv : List Byte) :
    Option (Ctx (symKmacAlg Y perm)) :=
  let k := ((Kmac.finalXof perm (Kmac.init perm r false key []) 64).2).getD []
  (mk (k.take 32) iv).map fun c => { c := c, m := Kmac.init perm r false ((k.drop 32).take 32) [] }

/-- `lc_aes_cbc` for use in `symhmac.c`/`symkmac.c`: the state is the block cipher with its key and
the current `iv`. -/
@[reducible] def cbcSym : SymAlg where
  State := Sym.Cipher × List Byte
  blocksize := 16
  enc s x o := ((s.1, (Sym.cbcEncrypt s.1.E s.2 x o).1), (Sym.cbcEncrypt s.1.E s.2 x o).2)
  dec s x o := ((s.1, (Sym.cbcDecrypt s.1.D s.2 x o).1), (Sym.cbcDecrypt s.1.D s.2 x o).2)

/-- `lc_sym_setkey` (32 byte key, valid for AES) and `lc_sym_setiv` for `lc_aes_cbc`. -/
def cbcMk (key iv : List Byte) : Option (Sym.Cipher × List Byte) :=
  if h : key.length = 32 then
    (Sym.cbcSetiv iv).map fun v => (Sym.aes key (Or.inr (Or.inr h)), v)
  else none

/-- `lc_aes_ctr` for use in `symhmac.c`/`symkmac.c`. -/
@[reducible] def ctrSym : SymAlg where
  State := Sym.Cipher × Sym.Ctr
  blocksize := 1
  enc s x _ := ((s.1, (Sym.ctrCrypt s.1.E s.2 x).2), (Sym.ctrCrypt s.1.E s.2 x).1)
  dec s x _ := ((s.1, (Sym.ctrCrypt s.1.E s.2 x).2), (Sym.ctrCrypt s.1.E s.2 x).1)

def ctrMk (key iv : List Byte) : Option (Sym.Cipher × Sym.Ctr) :=
  if h : key.length = 32 then
    (Sym.ctrSetiv iv).map fun v => (Sym.aes key (Or.inr (Or.inr h)), v)
  else none

/-! ### Hash DRBG with HMAC -/

/-- `lc_hc_encrypt_tag`, `hash_crypt.c:174-198`: a digest above 64 bytes writes nothing; a short
tag is the truncated MAC; otherwise the whole MAC is written. -/
def hcTag {S : StreamHash} (m : Hmac.Ctx S) (old : List Byte) : Hmac.Ctx S × List Byte :=
  if 64 < S.dsize then (m, old)
  else
    let p := Hmac.final m
    (p.1, put (if old.length < S.dsize then p.2.take old.length else p.2) old)

/-- `hash_crypt.c` over a generator `next` (`lc_rng_generate(drbg, NULL, 0, keystream, 64)`, the
DRBG being `lc_drbg_hash`), `none` being an error. -/
@[reducible] def hashAlg {G : Type} (next : G → Option (G × List Byte)) (S : StreamHash) : Alg where
  C := KsCtx G
  M := Hmac.Ctx S
  enc c x o := crypt 64 next c x o
  dec c x o := crypt 64 next c x o
  upd m x := Hmac.update m x
  tag := hcTag
  clamp n := if 64 < n then none else some n

/-- `lc_hc_setkey`, `hash_crypt.c:82-122`; `seed key iv` is `lc_rng_seed`.  An error is `none`. -/
def hcSetkey {G : Type} (seed : List Byte → List Byte → Option G)
    (next : G → Option (G × List Byte)) (S : StreamHash) (h0 : S.Ctx) (key iv : List Byte) :
    Option (Ctx (hashAlg next S)) :=
  if key.length = 0 then none
  else (seed key iv).bind fun g => (next g).bind fun p => (next p.1).map fun q =>
    { c := { gen := q.1, ks := q.2, ptr := 0 }, m := Hmac.init h0 (p.2.take 64) }

end LC.Aead
