import Verif.AsconHash.Model
import Verif.Sym.Model
/-
Model of the Ascon AEAD, `/repo/aead/src/ascon.c`, with the Ascon permutation
(`ascon_lightweight.c`) or the Keccak permutation (`ascon_keccak.c`).

The sponge state is kept as its byte view; `lc_sponge_add_bytes`, `lc_sponge_extract_bytes` and
`lc_sponge_newstate` (`hash/src/sponge_common.h`) are xor, copy and overwrite of bytes at an
offset.  Self tests, Timecop annotations, the NULL checks and the NULL key of `lc_ascon_load_key`
are not modelled.
-/
namespace LC.AsconAead
open LC.Sponge (Byte xorAt extract)

/-- The sponge in use: state size and rate in bytes, the permutation called with 12 rounds and the
one called with `roundb`.  `lc_sponge` with the Keccak permutation ignores the number of rounds. -/
structure Cfg where
  ss : Nat
  rate : Nat
  pA : List Byte → List Byte
  pB : List Byte → List Byte

/-- `struct lc_ascon_cryptor`, `aead/api/lc_ascon_aead.h:33-50`. -/
structure Ctx where
  state : List Byte
  key : List Byte
  off : Nat
  taglen : Nat
deriving DecidableEq, Repr

/-- `lc_sponge_newstate`, `hash/src/sponge_common.h:188-236`: overwrite bytes of the state. -/
def newstate (st : List Byte) (off : Nat) (d : List Byte) : List Byte :=
  st.mapIdx fun i x => if off ≤ i then d.getD (i - off) x else x

/-- `lc_ak_setiv` (`ascon_keccak.c:116-175`) followed by `lc_ascon_setiv`
(`ascon_lightweight.c:83-109`): the first state word, `none` for an error. -/
def ivWord (rate keylen taglen : Nat) : Option (BitVec 64) :=
  if taglen < 16 ∨ keylen < taglen then none
  else if rate = 0x240 / 8 then
    if keylen ≠ 64 then none else some (0x4048181800000000#64 ||| BitVec.ofNat 64 (taglen * 2 ^ 24))
  else if rate = 0x440 / 8 then
    if keylen ≠ 32 then none else some (0x2088181800000000#64 ||| BitVec.ofNat 64 (taglen * 2 ^ 24))
  else if rate = 128 / 8 then
    if keylen ≠ 16 then none else some 0x00001000808c0001#64
  else none

/-- `lc_ascon_setkey`, `ascon.c:68-141`, for a context with tag length `taglen`; `none` is
`-EINVAL`. -/
def setkey (cf : Cfg) (taglen : Nat) (key nonce : List Byte) : Option Ctx :=
  if nonce.length < 16 ∨ key.length < nonce.length then none
  else (ivWord cf.rate key.length taglen).map fun w =>
    let s := newstate (List.replicate cf.ss 0) 0 (AsconHash.leBytes w)
    let s := xorAt s 8 key
    let s := xorAt s (8 + key.length) nonce
    let s := cf.pA s
    { state := xorAt s (cf.ss - key.length) key, key := key, off := 0, taglen := taglen }

/-- `lc_ascon_add_padbyte`, `lc_ascon_aead.h:75-90`. -/
def padByte (cf : Cfg) (s : List Byte) (off : Nat) : List Byte :=
  xorAt s (if off = cf.rate then 0 else off) [0x01]

/-- The `while (aadlen >= rate)` loop of `lc_ascon_aad`, `ascon.c:156-164`: state and remaining
data.  The first argument bounds the number of iterations; the length of the data is enough. -/
def aadLoop (cf : Cfg) : Nat → List Byte → List Byte → List Byte × List Byte
  | 0, s, a => (s, a)
  | fuel + 1, s, a =>
    if cf.rate ≤ a.length then aadLoop cf fuel (cf.pB (xorAt s 0 (a.take cf.rate))) (a.drop cf.rate)
    else (s, a)

/-- `lc_ascon_aad`, `ascon.c:144-176` (`lc_aead_enc_init`, `lc_aead_dec_init`). -/
def aad (cf : Cfg) (c : Ctx) (a : List Byte) : Ctx :=
  if a.length = 0 then c
  else
    let p := aadLoop cf a.length c.state a
    let s := padByte cf (xorAt p.1 0 p.2) p.2.length
    { c with state := xorAt (cf.pB s) (cf.ss - 1) [0x80] }

/-- `lc_ascon_finalization`, `ascon.c:179-203`: state and tag. -/
def finalization (cf : Cfg) (s key : List Byte) (taglen : Nat) : List Byte × List Byte :=
  let s := cf.pA (xorAt s cf.rate key)
  let s := xorAt s (cf.ss - taglen) (key.take taglen)
  (s, extract s (cf.ss - taglen) taglen)

/-- The loop of `lc_ascon_enc_update`, `ascon.c:214-242`: state, `rate_offset` and ciphertext.  The
first argument bounds the number of iterations; `datalen + 1` is enough.  `rate_offset` is a
`uint8_t`, which holds all offsets up to the largest rate, 136. -/
def encLoop (cf : Cfg) : Nat → List Byte → Nat → List Byte → List Byte × Nat × List Byte
  | 0, s, off, _ => (s, off, [])
  | fuel + 1, s, off, x =>
    if x.length = 0 then (s, off, [])
    else
      let todo := min x.length (cf.rate - off)
      let s := xorAt s off (x.take todo)
      let c := extract s off todo
      if x.length - todo ≠ 0 then
        let r := encLoop cf fuel (cf.pB s) 0 (x.drop todo)
        (r.1, r.2.1, c ++ r.2.2)
      else (s, off + todo, c)

/-- `lc_ascon_enc_update`, `ascon.c:206-243`. -/
def encUpdate (cf : Cfg) (c : Ctx) (x : List Byte) : Ctx × List Byte :=
  let r := encLoop cf (x.length + 1) c.state c.off x
  ({ c with state := r.1, off := r.2.1 }, r.2.2)

/-- `lc_ascon_enc_final`, `ascon.c:245-268`; `old` is the content of the tag buffer. -/
def encFinal (cf : Cfg) (c : Ctx) (old : List Byte) : Ctx × List Byte :=
  let s := cf.pB c.state
  if old.length ≠ c.taglen then ({ c with state := s }, old)
  else
    let f := finalization cf (padByte cf s c.off) c.key old.length
    ({ c with state := f.1 }, f.2)

/-- The loop of `lc_ascon_dec_update`, `ascon.c:308-360`: state, `rate_offset` and plaintext.  The
in-place and the two-buffer variant compute the same. -/
def decLoop (cf : Cfg) : Nat → List Byte → Nat → List Byte → List Byte × Nat × List Byte
  | 0, s, off, _ => (s, off, [])
  | fuel + 1, s, off, x =>
    if x.length = 0 then (s, off, [])
    else
      let todo := min x.length (cf.rate - off)
      let p := Sym.xorb (extract s off todo) (x.take todo)
      if x.length - todo ≠ 0 then
        let r := decLoop cf fuel (cf.pB (newstate s off (x.take todo))) 0 (x.drop todo)
        (r.1, r.2.1, p ++ r.2.2)
      else (xorAt s off p, off + todo, p)

/-- `lc_ascon_dec_update`, `ascon.c:289-364`. -/
def decUpdate (cf : Cfg) (c : Ctx) (x : List Byte) : Ctx × List Byte :=
  let r := decLoop cf (x.length + 1) c.state c.off x
  ({ c with state := r.1, off := r.2.1 }, r.2.2)

/-- `lc_ascon_dec_final`, `ascon.c:367-393`. -/
def decFinal (cf : Cfg) (c : Ctx) (tag : List Byte) : Ctx × Int :=
  if tag.length ≠ c.taglen then (c, -22)
  else
    let f := finalization cf (padByte cf (cf.pB c.state) c.off) c.key tag.length
    ({ c with state := f.1 }, if f.2 = tag then 0 else -74)

/-- A sequence of update calls: final context and concatenated output. -/
def encCalls (cf : Cfg) (c : Ctx) : List (List Byte) → Ctx × List Byte
  | [] => (c, [])
  | x :: xs =>
    ((encCalls cf (encUpdate cf c x).1 xs).1, (encUpdate cf c x).2 ++ (encCalls cf (encUpdate cf c x).1 xs).2)

def decCalls (cf : Cfg) (c : Ctx) : List (List Byte) → Ctx × List Byte
  | [] => (c, [])
  | x :: xs =>
    ((decCalls cf (decUpdate cf c x).1 xs).1, (decUpdate cf c x).2 ++ (decCalls cf (decUpdate cf c x).1 xs).2)

/-- `lc_aead_enc_init`, `lc_aead_enc_update` any number of times, `lc_aead_enc_final`: ciphertext and
tag. -/
def encSession (cf : Cfg) (c : Ctx) (a : List Byte) (xs : List (List Byte)) (old : List Byte) :
    List Byte × List Byte :=
  let r := encCalls cf (aad cf c a) xs
  (r.2, (encFinal cf r.1 old).2)

/-- `lc_aead_dec_init`, `lc_aead_dec_update` any number of times, `lc_aead_dec_final`: plaintext and
return code. -/
def decSession (cf : Cfg) (c : Ctx) (a : List Byte) (xs : List (List Byte)) (tag : List Byte) :
    List Byte × Int :=
  let r := decCalls cf (aad cf c a) xs
  (r.2, (decFinal cf r.1 tag).2)

/-- `lc_ascon_encrypt`, `ascon.c:271-286`. -/
def encOneshot (cf : Cfg) (c : Ctx) (a pt old : List Byte) : List Byte × List Byte :=
  let r := encUpdate cf (aad cf c a) pt
  (r.2, (encFinal cf r.1 old).2)

/-- `lc_ascon_decrypt`, `ascon.c:396-412`. -/
def decOneshot (cf : Cfg) (c : Ctx) (a ct tag : List Byte) : List Byte × Int :=
  let r := decUpdate cf (aad cf c a) ct
  (r.2, (decFinal cf r.1 tag).2)

/-- Ascon-AEAD128: `lc_ascon_128a` with 40 bytes of state (`ascon_lightweight.c:111-133`). -/
def ascon128 : Cfg where
  ss := 40
  rate := 16
  pA l := AsconHash.ofWords (AsconHash.perm12 (AsconHash.toWords l))
  pB l := AsconHash.ofWords (AsconHash.perm8 (AsconHash.toWords l))

/-- Ascon-Keccak over a Keccak permutation, rate 72 or 136 (`ascon_keccak.c`). -/
def asconKeccak (perm : List Byte → List Byte) (rate : Nat) : Cfg where
  ss := 200
  rate := rate
  pA := perm
  pB := perm

end LC.AsconAead
