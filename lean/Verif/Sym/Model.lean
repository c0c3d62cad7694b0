import Verif.Aes.Props
/-
Model of the symmetric modes in `/repo/sym/src`: `mode_cbc.c`, `mode_ctr.c`/`mode_ctr.h`,
`mode_kw.c` and the stream cipher `chacha20.c`.

The modes are modelled over an arbitrary block cipher (`wrappeded_cipher->encrypt/decrypt` on 16 byte
blocks), the AES of `Verif.Aes` is one instance.  Buffers are byte lists; `out` is the previous
content of the output buffer (equal to `inp` for in-place operation).  The `ctx == NULL` checks and
the wiping of stack buffers are not modelled.
-/
namespace LC.Sym

/-- `xor_64`/`xor_256` (`internal/api/xor.h`, `xor256.h`) on equally long byte ranges. -/
def xorb (a b : List Byte) : List Byte := List.zipWith (· ^^^ ·) a b

/-- Big endian bytes of `v`: `be64_to_ptr` (`internal/api/bitshift_be.h`) for `n = 8`. -/
def be : Nat → Nat → List Byte
  | 0, _ => []
  | n + 1, v => be n (v / 256) ++ [UInt8.ofNat v]

/-- `ptr_to_be64` and the like. -/
def unbe (l : List Byte) : Nat := l.foldl (fun a b => a * 256 + b.toNat) 0

/-- `len & ~(AES_BLOCKLEN - 1)` (`mode_cbc.c:99,124`).  `AES_BLOCKLEN` is `16U`
(`aes_internal.h:33`), so the complement is the 32 bit value `0xfffffff0`, which is then converted
to `size_t`. -/
def roundedLen16 (len : Nat) : Nat := len &&& 0xfffffff0

/-- `len & ~(AES_KW_SEMIBSIZE - 1)` with `AES_KW_SEMIBSIZE` = `8U` (`mode_kw.c:33,93,156`). -/
def roundedLen8 (len : Nat) : Nat := len &&& 0xfffffff8

/-! ### CBC -/

/-- The loop of `mode_cbc_encrypt`, `mode_cbc.c:110-115`, over `n` blocks of the buffer `d`; returns
the new content of these blocks and the last `iv`. -/
def cbcEncLoop (E : List Byte → List Byte) : Nat → List Byte → List Byte → List Byte × List Byte
  | 0, iv, _ => ([], iv)
  | n + 1, iv, d =>
    let c := E (xorb (d.take 16) iv)
    let r := cbcEncLoop E n c (d.drop 16)
    (c ++ r.1, r.2)

/-- `mode_cbc_encrypt`, `mode_cbc.c:95-118`: (`ctx->iv`, output buffer). -/
def cbcEncrypt (E : List Byte → List Byte) (iv inp out : List Byte) : List Byte × List Byte :=
  let n := roundedLen16 inp.length
  let r := cbcEncLoop E (n / 16) iv (inp.take n)
  (r.2, r.1 ++ out.drop n)

/-- The loop of `mode_cbc_decrypt`, `mode_cbc.c:135-141`. -/
def cbcDecLoop (D : List Byte → List Byte) : Nat → List Byte → List Byte → List Byte × List Byte
  | 0, iv, _ => ([], iv)
  | n + 1, iv, d =>
    let p := xorb (D (d.take 16)) iv
    let r := cbcDecLoop D n (d.take 16) (d.drop 16)
    (p ++ r.1, r.2)

/-- `mode_cbc_decrypt`, `mode_cbc.c:120-144`: (`ctx->iv`, output buffer). -/
def cbcDecrypt (D : List Byte → List Byte) (iv inp out : List Byte) : List Byte × List Byte :=
  let n := roundedLen16 inp.length
  let r := cbcDecLoop D (n / 16) iv (inp.take n)
  (r.2, r.1 ++ out.drop n)

/-- `mode_cbc_setiv`, `mode_cbc.c:170-178`; `none` is `-EINVAL`. -/
def cbcSetiv (iv : List Byte) : Option (List Byte) := if iv.length ≠ 16 then none else some iv

/-! ### CTR -/

/-- `ctx->iv` of the CTR mode: `uint64_t iv[2]`. -/
structure Ctr where
  w0 : UInt64
  w1 : UInt64
deriving DecidableEq, Repr

/-- `ctr128_inc`, `mode_ctr.h:45-59`. -/
def Ctr.inc (c : Ctr) : Ctr :=
  if c.w1 < 0xffffffffffffffff then { c with w1 := c.w1 + 1 }
  else if c.w0 < 0xffffffffffffffff then { w0 := c.w0 + 1, w1 := 0 }
  else { w0 := 0, w1 := 0 }

/-- `ctr128_to_ptr`, `mode_ctr.h:69-75`. -/
def Ctr.bytes (c : Ctr) : List Byte := be 8 c.w0.toNat ++ be 8 c.w1.toNat

/-- `ptr_to_ctr128`, `mode_ctr.h:61-67`. -/
def Ctr.ofBytes (p : List Byte) : Ctr :=
  { w0 := UInt64.ofNat (unbe (p.take 8)), w1 := UInt64.ofNat (unbe ((p.drop 8).take 8)) }

/-- `mode_ctr_setiv`, `mode_ctr.c:155-163`; `none` is `-EINVAL`. -/
def ctrSetiv (iv : List Byte) : Option Ctr := if iv.length ≠ 16 then none else some (Ctr.ofBytes iv)

/-- The loop of `mode_ctr_crypt`, `mode_ctr.c:117-126`, on the remaining bytes `d`.  The first
argument bounds the iterations; `d.length` is always enough. -/
def ctrLoop (E : List Byte → List Byte) : Nat → Ctr → List Byte → List Byte × Ctr
  | 0, c, _ => ([], c)
  | n + 1, c, d =>
    if d.length = 0 then ([], c)
    else
      let todo := min d.length 16
      let r := ctrLoop E n c.inc (d.drop todo)
      (xorb (d.take todo) (E c.bytes) ++ r.1, r.2)

/-- `mode_ctr_crypt`, `mode_ctr.c:101-129`: (output, new counter). -/
def ctrCrypt (E : List Byte → List Byte) (c : Ctr) (inp : List Byte) : List Byte × Ctr :=
  ctrLoop E inp.length c inp

/-! ### Key wrapping -/

/-- `AES_KW_IV` as stored in memory, `mode_kw.c:34,117`. -/
def kwIv : List Byte := be 8 0xa6a6a6a6a6a6a6a6

/-- Working data of the key wrapping loops: `block.A`, `t` and the output buffer. -/
structure KwSt where
  a : List Byte
  t : Nat
  buf : List Byte
deriving DecidableEq, Repr

/-- The eight bytes of the buffer at `off` are overwritten (`val64_to_ptr`). -/
def put8 (buf : List Byte) (off : Nat) (r : List Byte) : List Byte :=
  buf.take off ++ r ++ buf.drop (off + 8)

/-- One pass `while (nbytes)` of `mode_kw_encrypt`, `mode_kw.c:123-141`.  `none`: the code reads or
writes behind the end of the output buffer.  `nbytes` is a `size_t` and wraps.  The first argument
bounds the iterations; `buf.length + 1` is always enough. -/
def kwEncPass (E : List Byte → List Byte) : Nat → Nat → Nat → KwSt → Option KwSt
  | 0, _, _, _ => none
  | k + 1, nbytes, off, s =>
    if nbytes = 0 then some s
    else if s.buf.length < off + 8 then none
    else
      let b := E (s.a ++ (s.buf.drop off).take 8)
      kwEncPass E k ((nbytes + 2 ^ 64 - 8) % 2 ^ 64) (off + 8)
        { a := xorb (b.take 8) (be 8 s.t), t := (s.t + 1) % 2 ^ 64, buf := put8 s.buf off (b.drop 8) }

/-- `for (i = 0; i < 6; i++)`, `mode_kw.c:119-142`. -/
def kwEncPasses (E : List Byte → List Byte) (len : Nat) : Nat → KwSt → Option KwSt
  | 0, s => some s
  | n + 1, s => (kwEncPass E (s.buf.length + 1) len 0 s).bind (kwEncPasses E len n)

/-- `mode_kw_encrypt`, `mode_kw.c:87-148`: (`ctx->tag`, output buffer); `none` is undefined
behaviour. -/
def kwEncrypt (E : List Byte → List Byte) (tag inp out : List Byte) : Option (List Byte × List Byte) :=
  if inp.length < 16 then some (tag, out)
  else
    let n := roundedLen8 inp.length
    (kwEncPasses E inp.length 6 { a := kwIv, t := 1, buf := inp.take n ++ out.drop n }).map
      fun s => (s.a, s.buf)

/-- One pass of `mode_kw_decrypt`, `mode_kw.c:178-202`; `off` is `out_p - out`. -/
def kwDecPass (D : List Byte → List Byte) : Nat → Nat → Nat → KwSt → Option KwSt
  | 0, _, _, _ => none
  | k + 1, nbytes, off, s =>
    if nbytes = 0 then some s
    else if off < 8 ∨ s.buf.length < off then none
    else
      let b := D (xorb s.a (be 8 s.t) ++ (s.buf.drop (off - 8)).take 8)
      kwDecPass D k ((nbytes + 2 ^ 64 - 8) % 2 ^ 64) (off - 8)
        { a := b.take 8, t := (s.t + 2 ^ 64 - 1) % 2 ^ 64, buf := put8 s.buf (off - 8) (b.drop 8) }

def kwDecPasses (D : List Byte → List Byte) (len : Nat) : Nat → KwSt → Option KwSt
  | 0, s => some s
  | n + 1, s => (kwDecPass D (s.buf.length + 1) len len s).bind (kwDecPasses D len n)

/-- `mode_kw_decrypt`, `mode_kw.c:150-208`.  The length is a separate argument because
`lc_aes_kw_decrypt` computes it with a subtraction that can wrap. -/
def kwDecrypt (D : List Byte → List Byte) (tag inp out : List Byte) (len : Nat) :
    Option (List Byte × List Byte) :=
  if len < 16 then some (tag, out)
  else
    let n := roundedLen8 len
    (kwDecPasses D len 6 { a := tag, t := 6 * (len / 8) % 2 ^ 64, buf := inp.take n ++ out.drop n }).map
      fun s => (s.a, s.buf)

/-- `lc_aes_kw_encrypt`, `mode_kw.c:253-265`.  `out` is the part of the output buffer behind the
first eight bytes; `tag` is the tag left in the context by earlier calls. -/
def kwWrap (E : List Byte → List Byte) (tag inp out : List Byte) : Option (List Byte) :=
  (kwEncrypt E tag inp out).map fun r => r.1 ++ r.2

/-- `len - AES_KW_SEMIBSIZE` in `size_t`, `mode_kw.c:283`. -/
def lenSub8 (len : Nat) : Nat := (len + 2 ^ 64 - 8) % 2 ^ 64

/-- `lc_aes_kw_decrypt`, `mode_kw.c:267-288`: return code (0, or -74 for `-EBADMSG`) and output
buffer. -/
def kwUnwrap (D : List Byte → List Byte) (inp out : List Byte) : Option (Int × List Byte) :=
  (kwDecrypt D (inp.take 8) (inp.drop 8) out (lenSub8 inp.length)).map
    fun r => (if r.1 ≠ kwIv then -74 else 0, r.2)

/-! ### ChaCha20 -/
namespace Cc20

/-- `rol32`, `internal/api/rotate.h:61-64`. -/
def rol32 (x n : UInt32) : UInt32 := (x <<< (n &&& 31)) ||| (x >>> ((32 - n) &&& 31))

/-- Two consecutive lines of `cc20_block`: `ws[a] += ws[b]; ws[d] = rol32(ws[d] ^ ws[a], n);`. -/
def op (ws : List UInt32) (p : (Nat × Nat × Nat) × UInt32) : List UInt32 :=
  let ws := ws.set p.1.1 (ws.getD p.1.1 0 + ws.getD p.1.2.1 0)
  ws.set p.1.2.2 (rol32 (ws.getD p.1.2.2 0 ^^^ ws.getD p.1.1 0) p.2)

/-- The loop body of `cc20_block`, `chacha20.c:99-184`: eight quarter rounds of four line pairs. -/
def body : List ((Nat × Nat × Nat) × UInt32) :=
  [((0, 4, 12), 16), ((8, 12, 4), 12), ((0, 4, 12), 8), ((8, 12, 4), 7),
   ((1, 5, 13), 16), ((9, 13, 5), 12), ((1, 5, 13), 8), ((9, 13, 5), 7),
   ((2, 6, 14), 16), ((10, 14, 6), 12), ((2, 6, 14), 8), ((10, 14, 6), 7),
   ((3, 7, 15), 16), ((11, 15, 7), 12), ((3, 7, 15), 8), ((11, 15, 7), 7),
   ((0, 5, 15), 16), ((10, 15, 5), 12), ((0, 5, 15), 8), ((10, 15, 5), 7),
   ((1, 6, 12), 16), ((11, 12, 6), 12), ((1, 6, 12), 8), ((11, 12, 6), 7),
   ((2, 7, 13), 16), ((8, 13, 7), 12), ((2, 7, 13), 8), ((8, 13, 7), 7),
   ((3, 4, 14), 16), ((9, 14, 4), 12), ((3, 4, 14), 8), ((9, 14, 4), 7)]

def rounds : Nat → List UInt32 → List UInt32
  | 0, ws => ws
  | n + 1, ws => rounds n (body.foldl op ws)

/-- `le_bswap32` stored to memory: little endian bytes. -/
def le32 (w : UInt32) : List Byte :=
  [w.toUInt8, (w >>> 8).toUInt8, (w >>> 16).toUInt8, (w >>> 24).toUInt8]

/-- `ptr_to_le32`. -/
def unle32 (p : List Byte) : UInt32 :=
  (p.getD 0 0).toUInt32 ||| ((p.getD 1 0).toUInt32 <<< 8) ||| ((p.getD 2 0).toUInt32 <<< 16) |||
    ((p.getD 3 0).toUInt32 <<< 24)

/-- `cc20_block`, `chacha20.c:86-193`: (key stream, new state).  The state is the 16 words
`constants[4]`, `key[8]`, `counter`, `nonce[3]` (`lc_chacha20_private.h`). -/
def block (st : List UInt32) : List Byte × List UInt32 :=
  let ws := rounds 10 st
  (((List.range 16).map fun i => le32 (ws.getD i 0 + st.getD i 0)).flatten,
   st.set 12 (st.getD 12 0 + 1))

/-- `cc20_init`, `chacha20.c:195-211`. -/
def init (st : List UInt32) : List UInt32 :=
  [0x61707865, 0x3320646e, 0x79622d32, 0x6b206574] ++ ((st.drop 4).take 8) ++ [1] ++ st.drop 13

/-- `cc20_setkey`, `chacha20.c:213-231`; `none` is `-EINVAL`. -/
def setkey (st : List UInt32) (key : List Byte) : Option (List UInt32) :=
  if key.length ≠ 32 then none
  else some (st.take 4 ++ (List.range 8).map (fun i => unle32 (key.drop (4 * i))) ++ st.drop 12)

/-- `cc20_setiv`, `chacha20.c:233-245`; the counter is not touched. -/
def setiv (st : List UInt32) (iv : List Byte) : Option (List UInt32) :=
  if iv.length ≠ 12 then none
  else some (st.take 13 ++ (List.range 3).map (fun i => unle32 (iv.drop (4 * i))))

/-- The loop of `cc20_crypt`, `chacha20.c:256-271`.  The first argument bounds the iterations. -/
def cryptLoop : Nat → List UInt32 → List Byte → List Byte × List UInt32
  | 0, st, _ => ([], st)
  | n + 1, st, d =>
    if d.length = 0 then ([], st)
    else
      let todo := min d.length 64
      let b := block st
      let r := cryptLoop n b.2 (d.drop todo)
      (xorb (d.take todo) b.1 ++ r.1, r.2)

/-- `cc20_crypt`, `chacha20.c:247-274`: (output, new state). -/
def crypt (st : List UInt32) (inp : List Byte) : List Byte × List UInt32 := cryptLoop inp.length st inp

end Cc20
end LC.Sym
