import Verif.Hmac.Model
/-
Model of the key derivation functions `/repo/kdf/src/{hkdf,pbkdf2,kdf_ctr,kdf_fb,kdf_dpi}.c`
over any hash of the `lc_hash` interface.

A function returning an error code is modelled as returning `(ret, written bytes, context)`
or, for the one-shot functions, `Except Int (List Byte)` when no byte is written on error.
-/
namespace LC.Kdf
open Hmac (reinit init update final)

variable {S : StreamHash}

/-- `EINVAL`, `EMSGSIZE`, `EOPNOTSUPP`. -/
def eInval : Int := -22
def eMsgSize : Int := -90
def eOpNotSupp : Int := -95
/-- `INT_MAX` -/
def intMax : Nat := 2 ^ 31 - 1

/-- The four bytes in memory of `be_bswap32(i)` (`i` a `uint32_t`). -/
def be32 (i : Nat) : List Byte :=
  [UInt8.ofNat (i >>> 24), UInt8.ofNat (i >>> 16), UInt8.ofNat (i >>> 8), UInt8.ofNat i]

/-! ### HKDF -/

/-- `struct lc_hkdf_ctx` (`kdf/api/lc_hkdf.h.in`). -/
structure HkdfCtx (S : StreamHash) where
  hmac : Hmac.Ctx S
  part : List Byte
  partPtr : Nat
  ctr : Nat
  rngInit : Bool

/-- The context after `lc_hkdf_zero` (`hkdf.c:205-216`); `h` is the zeroed HMAC context. -/
def hkdfZero (h : Hmac.Ctx S) : HkdfCtx S :=
  { hmac := h, part := List.replicate 64 0, partPtr := 64, ctr := 1, rngInit := false }

/-- `lc_hkdf_extract`, `hkdf.c:63-102`; `salt = none` is a NULL pointer. -/
def hkdfExtract (c : HkdfCtx S) (ikm : List Byte) (salt : Option (List Byte)) : HkdfCtx S × Int :=
  if ikm.length = 0 then (c, eInval)
  else
    let hm := init c.hmac.h (salt.getD (List.replicate S.dsize 0))
    let p := final (update hm ikm)
    ({ c with hmac := init p.1.h (p.2.take S.dsize) }, 0)

/-- `if (info) lc_hmac_update(hmac_ctx, info, infolen)`, `hkdf.c:123-124`. -/
def updInfo (c : Hmac.Ctx S) : Option (List Byte) → Hmac.Ctx S
  | some i => update c i
  | none => c

/-- The `while (dlen)` loop of `hkdf_expand_internal`, `hkdf.c:122-150`.  `ctr` is a
`uint8_t`.  `fuel` is instantiated with `dlen`. -/
def hkdfLoop (info : Option (List Byte)) : Nat → HkdfCtx S → Nat → HkdfCtx S × List Byte
  | 0, c, _ => (c, [])
  | fuel + 1, c, dlen =>
    if dlen = 0 then (c, [])
    else
      let hm := updInfo c.hmac info
      let hm := update hm [UInt8.ofNat c.ctr]
      let p := final hm
      if dlen < S.dsize then
        let hm := update (reinit p.1) (p.2.take dlen)
        ({ c with hmac := hm, part := p.2, partPtr := dlen, ctr := (c.ctr + 1) % 256 },
          p.2.take dlen)
      else
        let hm := update (reinit p.1) p.2
        let q := hkdfLoop info fuel { c with hmac := hm, ctr := (c.ctr + 1) % 256 } (dlen - S.dsize)
        (q.1, p.2 ++ q.2)

/-- `hkdf_expand_internal`, `hkdf.c:104-155`. -/
def hkdfExpandInternal (c : HkdfCtx S) (info : Option (List Byte)) (dlen : Nat) :
    HkdfCtx S × Int × List Byte :=
  if dlen > S.dsize * (255 - c.ctr) then (c, eInval, [])
  else
    let q := hkdfLoop info dlen c dlen
    (q.1, 0, q.2)

/-- `lc_hkdf_expand`, `hkdf.c:157-171`. -/
def hkdfExpand (c : HkdfCtx S) (info : Option (List Byte)) (dlen : Nat) :
    HkdfCtx S × Int × List Byte :=
  let c := if c.ctr > 1 then { c with hmac := reinit c.hmac } else c
  hkdfExpandInternal c info dlen

/-- `lc_hkdf`, `hkdf.c:218-234`: return code and bytes written; `h` is the zeroed HMAC
context on the stack. -/
def hkdf (h : Hmac.Ctx S) (ikm : List Byte) (salt info : Option (List Byte)) (dlen : Nat) :
    Int × List Byte :=
  let p := hkdfExtract (hkdfZero h) ikm salt
  if p.2 < 0 then (p.2, [])
  else (hkdfExpand p.1 info dlen).2

/-- `lc_hkdf_rng_seed`, `hkdf.c:236-249`. -/
def hkdfRngSeed (c : HkdfCtx S) (seed : List Byte) (pers : Option (List Byte)) : HkdfCtx S × Int :=
  if c.rngInit then (c, eOpNotSupp)
  else hkdfExtract { c with rngInit := true } seed pers

/-- `lc_hkdf_rng_generate`, `hkdf.c:251-289`. -/
def hkdfRngGenerate (c : HkdfCtx S) (addtl : Option (List Byte)) (outlen : Nat) :
    HkdfCtx S × Int × List Byte :=
  if ¬ c.rngInit then (c, eOpNotSupp, [])
  else
    let p : HkdfCtx S × List Byte :=
      if c.partPtr < S.dsize then
        let todo := min outlen (S.dsize - c.partPtr)
        let o := (c.part.drop c.partPtr).take todo
        ({ c with partPtr := c.partPtr + todo, hmac := update c.hmac o }, o)
      else (c, [])
    let outlen := outlen - p.2.length
    if outlen = 0 then (p.1, 0, p.2)
    else
      let q := hkdfExpandInternal p.1 addtl outlen
      (q.1, q.2.1, p.2 ++ q.2.2)

/-- A sequence of generate calls with the same additional input. -/
def hkdfRngGenerates (addtl : Option (List Byte)) : HkdfCtx S → List Nat → List (Int × List Byte)
  | _, [] => []
  | c, d :: ds =>
    let p := hkdfRngGenerate c addtl d
    p.2 :: hkdfRngGenerates addtl p.1 ds

/-! ### PBKDF2 -/

/-- The `for (j = 0; j < count; j++)` loop, `pbkdf2.c:147-155`, iterations `j .. count-1`;
`k` is the part of the key buffer being filled.  `xor_64` is bytewise xor. -/
def pbkdf2Inner : Nat → Nat → Hmac.Ctx S → List Byte → List Byte → Hmac.Ctx S × List Byte × List Byte
  | 0, _, c, u, k => (c, u, k)
  | n + 1, j, c, u, k =>
    let c := if j ≠ 0 then update c (u.take S.dsize) else c
    let p := final c
    let c := reinit p.1
    pbkdf2Inner n (j + 1) c p.2 (k.zipWith (· ^^^ ·) p.2)

/-- The `while (keylen)` loop, `pbkdf2.c:140-163`. -/
def pbkdf2Loop (salt : List Byte) (count : Nat) : Nat → Hmac.Ctx S → List Byte → Nat → Nat → List Byte
  | 0, _, _, _, _ => []
  | fuel + 1, c, u, i, keylen =>
    if keylen = 0 then []
    else
      let c := update c salt
      let c := update c (be32 i)
      let k := List.replicate (if keylen < S.dsize then keylen else S.dsize) (0 : Byte)
      let p := pbkdf2Inner count 0 c u k
      if keylen < S.dsize then p.2.2
      else p.2.2 ++ pbkdf2Loop salt count fuel p.1 p.2.1 ((i + 1) % 2 ^ 32) (keylen - S.dsize)

/-- `lc_pbkdf2`, `pbkdf2.c:112-168`; `h0` is the hash state memory and `u0` the buffer `u`
on the stack. -/
def pbkdf2 (h0 : S.Ctx) (u0 pw salt : List Byte) (count keylen : Nat) : Except Int (List Byte) :=
  if keylen > intMax then .error eMsgSize
  else if count = 0 then .error eInval
  else .ok (pbkdf2Loop salt count keylen (init h0 pw) u0 1 keylen)

/-! ### SP 800-108 -/

/-- Optional label: `if (label && labellen)`. -/
def updLabel (c : Hmac.Ctx S) (label : Option (List Byte)) : Hmac.Ctx S :=
  match label with
  | some l => if l.length ≠ 0 then update c l else c
  | none => c

/-- The loop of `lc_kdf_ctr_generate_internal`, `kdf_ctr.c:79-112`. -/
def ctrLoop (label : Option (List Byte)) : Nat → Hmac.Ctx S → Nat → Nat → Hmac.Ctx S × Nat × List Byte
  | 0, c, i, _ => (c, i, [])
  | fuel + 1, c, i, dlen =>
    if dlen = 0 then (c, i, [])
    else
      let c := updLabel (update c (be32 i)) label
      let p := final c
      if dlen < S.dsize then (p.1, (i + 1) % 2 ^ 32, p.2.take dlen)
      else
        let q := ctrLoop label fuel (reinit p.1) ((i + 1) % 2 ^ 32) (dlen - S.dsize)
        (q.1, q.2.1, p.2 ++ q.2.2)

/-- `lc_kdf_ctr_generate_internal`, `kdf_ctr.c:62-117`. -/
def ctrGenerateInternal (c : Hmac.Ctx S) (label : Option (List Byte)) (dlen counter : Nat) :
    Hmac.Ctx S × Nat × Int × List Byte :=
  if dlen > intMax then (c, counter, eMsgSize, [])
  else
    let q := ctrLoop label dlen c counter dlen
    (q.1, q.2.1, 0, q.2.2)

/-- `lc_kdf_ctr_generate`, `kdf_ctr.c:119-127`. -/
def ctrGenerate (c : Hmac.Ctx S) (label : Option (List Byte)) (dlen : Nat) : Int × List Byte :=
  (ctrGenerateInternal c label dlen 1).2.2

/-- `lc_kdf_ctr`, `kdf_ctr.c:139-154`. -/
def kdfCtr (h0 : S.Ctx) (key : List Byte) (label : Option (List Byte)) (dlen : Nat) :
    Int × List Byte :=
  ctrGenerate (init h0 key) label dlen

/-- The loop of `lc_kdf_fb_generate`, `kdf_fb.c:80-117`; `prev` is the IV in the first
round and the previous output block `dst - h` afterwards. -/
def fbLoop (label : List Byte) : Nat → Hmac.Ctx S → List Byte → Nat → Nat → List Byte
  | 0, _, _, _, _ => []
  | fuel + 1, c, prev, i, dlen =>
    if dlen = 0 then []
    else
      let c := update c prev
      let c := update c (be32 i)
      let c := if label.length ≠ 0 then update c label else c
      let p := final c
      if dlen < S.dsize then p.2.take dlen
      else p.2 ++ fbLoop label fuel (reinit p.1) p.2 ((i + 1) % 2 ^ 32) (dlen - S.dsize)

/-- `lc_kdf_fb_generate`, `kdf_fb.c:62-121`. -/
def fbGenerate (c : Hmac.Ctx S) (iv label : List Byte) (dlen : Nat) : Int × List Byte :=
  if dlen > intMax then (eMsgSize, [])
  else if iv.length ≠ S.dsize then (eInval, [])
  else (0, fbLoop label dlen c iv 1 dlen)

/-- `lc_kdf_fb`, `kdf_fb.c:133-147`. -/
def kdfFb (h0 : S.Ctx) (key iv label : List Byte) (dlen : Nat) : Int × List Byte :=
  fbGenerate (init h0 key) iv label dlen

/-- The input of the first pipeline, `kdf_dpi.c:80-90`. -/
def updA (c : Hmac.Ctx S) (label : Option (List Byte)) (ai : List Byte) (i : Nat) : Hmac.Ctx S :=
  match label with
  | some l => if i = 1 ∧ l.length ≠ 0 then update c l else update c ai
  | none => update c ai

/-- The loop of `lc_kdf_dpi_generate`, `kdf_dpi.c:76-116`. -/
def dpiLoop (label : Option (List Byte)) : Nat → Hmac.Ctx S → List Byte → Nat → Nat → List Byte
  | 0, _, _, _, _ => []
  | fuel + 1, c, ai, i, dlen =>
    if dlen = 0 then []
    else
      let c := updA c label ai i
      let p := final c
      let c := reinit p.1
      let ai := p.2
      let c := update c ai
      let c := update c (be32 i)
      let c := updLabel c label
      let p := final c
      if dlen < S.dsize then p.2.take dlen
      else p.2 ++ dpiLoop label fuel (reinit p.1) ai ((i + 1) % 2 ^ 32) (dlen - S.dsize)

/-- `lc_kdf_dpi_generate`, `kdf_dpi.c:58-122`. -/
def dpiGenerate (c : Hmac.Ctx S) (label : Option (List Byte)) (dlen : Nat) : Int × List Byte :=
  if dlen > intMax then (eMsgSize, [])
  else (0, dpiLoop label dlen c (List.replicate S.dsize 0) 1 dlen)

/-- `lc_kdf_dpi`, `kdf_dpi.c:134-150`. -/
def kdfDpi (h0 : S.Ctx) (key : List Byte) (label : Option (List Byte)) (dlen : Nat) :
    Int × List Byte :=
  dpiGenerate (init h0 key) label dlen

/-! ### Counter KDF used as RNG -/

/-- `struct lc_kdf_ctr_ctx`. -/
structure CtrRng (S : StreamHash) where
  hmac : Hmac.Ctx S
  counter : Nat
  init : Bool

/-- `lc_kdf_ctr_rng_generate`, `kdf_ctr.c:181-198`. -/
def ctrRngGenerate (c : CtrRng S) (addtl : Option (List Byte)) (outlen : Nat) :
    CtrRng S × Int × List Byte :=
  if ¬ c.init then (c, eOpNotSupp, [])
  else if outlen = 0 then (c, 0, [])
  else
    let q := ctrGenerateInternal c.hmac addtl outlen c.counter
    ({ c with hmac := q.1, counter := q.2.1 }, q.2.2)

/-- `lc_kdf_ctr_rng_seed`, `kdf_ctr.c:156-179`. -/
def ctrRngSeed (c : CtrRng S) (seed pers : List Byte) : CtrRng S × Int :=
  if c.init then (c, eOpNotSupp)
  else if pers.length ≠ 0 then ({ c with init := true, counter := 1 }, eOpNotSupp)
  else ({ hmac := Hmac.init c.hmac.h seed, counter := 1, init := true }, 0)

end LC.Kdf
