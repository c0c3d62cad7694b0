import Verif.AsconAead.Model
/-
Model of the Linux kernel interface of the Ascon AEAD,
`/repo/linux_kernel/leancrypto_kernel_aead_ascon.c`.

A scatterlist is the list of its segments, each of them contiguous memory within a page.  `none`
is an access behind the end of a scatterlist.  The functions of the Linux kernel called here
(`scatterwalk_*`, `crypto_aead_*`) are not part of the repository; they are modelled after their
documentation.  The file takes source and destination as separate memories; with `src == dst` each
piece is read before it is written and the tag lies behind the data, which gives the same result.
Requests using one handle at the same time are not modelled.
-/
namespace LC.AsconAead.Kernel
open LC.Sponge (Byte xorAt extract)

/-- The parts of `struct crypto_aead` and of the context in use: the key loaded, the tag length of
the context (`ascon->taglen`) and the one kept by the kernel (`crypto_aead_authsize`). -/
structure Tfm where
  key : List Byte
  taglen : Nat
  authsize : Nat
deriving DecidableEq, Repr

/-- `struct aead_request`: segments, lengths, `iv`.  Of the destination the bytes and the lengths of
the segments. -/
structure Req where
  src : List (List Byte)
  dst : List (List Byte)
  assoclen : Nat
  cryptlen : Nat
  iv : List Byte
deriving DecidableEq, Repr

/-- `lc_aead_init_ascon128`, `lc_aead_init_ascon_keccak256`, `lc_aead_init_ascon_keccak512`,
`leancrypto_kernel_aead_ascon.c:239-281`; `crypto_alloc_aead` sets `authsize` to `maxauthsize`. -/
def init (maxauthsize : Nat) : Tfm := { key := [], taglen := maxauthsize, authsize := maxauthsize }

/-- `lc_aead_ascon_setkey`, `leancrypto_kernel_aead_ascon.c:211-224`, with `lc_ascon_load_key`,
`aead/api/lc_ascon_aead.h:60-69`. -/
def setkeyK (t : Tfm) (key : List Byte) : Tfm × Int :=
  if key.length < 64 then ({ t with key := key }, 0) else (t, -22)

/-- `crypto_aead_setauthsize` with `lc_aead_setauthsize`,
`leancrypto_kernel_aead_ascon.c:226-237`: the kernel refuses more than `maxauthsize` and keeps the
size if the function returns 0. -/
def setauthsize (maxauthsize : Nat) (t : Tfm) (n : Nat) : Tfm × Int :=
  if (n = 0 ∧ maxauthsize ≠ 0) ∨ maxauthsize < n then (t, -22)
  else if n < 16 then (t, -22)
  else ({ t with taglen := n, authsize := n }, 0)

/-- Advance by `k` bytes within the first segment and go to the next one if it is used up:
`scatterwalk_advance` and `scatterwalk_pagedone`. -/
def advance (k : Nat) (seg : List Byte) (rest : List (List Byte)) : List (List Byte) :=
  if k = seg.length then rest else seg.drop k :: rest

/-- The loop of `lc_aead_ascon_aad`, `leancrypto_kernel_aead_ascon.c:49-70`: state and offset.  The
first argument bounds the number of iterations. -/
def aadWalk (cf : Cfg) : Nat → List Byte → Nat → List (List Byte) → Nat → Option (List Byte × Nat)
  | 0, s, off, _, n => if n = 0 then some (s, off) else none
  | fuel + 1, s, off, segs, n =>
    if n = 0 then some (s, off)
    else match segs with
      | [] => none
      | seg :: rest =>
        let todo := min (cf.rate - off) (min n seg.length)
        let s := xorAt s off (seg.take todo)
        let off := off + todo
        if off = cf.rate then aadWalk cf fuel (cf.pB s) 0 (advance todo seg rest) (n - todo)
        else aadWalk cf fuel s off (advance todo seg rest) (n - todo)

/-- `lc_aead_ascon_aad`, `leancrypto_kernel_aead_ascon.c:32-79`. -/
def aadK (cf : Cfg) (c : Ctx) (r : Req) : Option Ctx :=
  if r.assoclen = 0 then some c
  else (aadWalk cf (r.assoclen + r.src.length) c.state 0 r.src r.assoclen).map fun p =>
    { c with state := xorAt (cf.pB (padByte cf p.1 p.2)) (cf.ss - 1) [0x80] }

/-- `scatterwalk_ffwd`: the segments after the first `n` bytes. -/
def ffwd : List (List Byte) → Nat → List (List Byte)
  | [], _ => []
  | seg :: rest, n => if n < seg.length then seg.drop n :: rest else ffwd rest (n - seg.length)

/-- The loop of `lc_aead_ascon_update`, `leancrypto_kernel_aead_ascon.c:106-129`: context and bytes
written one after the other to the destination.  `lc_aead_enc_update` and `lc_aead_dec_update`
return 0 for a context set up.  The first argument after the operation bounds the number of
iterations. -/
def walk (proc : Ctx → List Byte → Ctx × List Byte) :
    Nat → Ctx → List (List Byte) → List (List Byte) → Nat → Option (Ctx × List Byte)
  | 0, c, _, _, n => if n = 0 then some (c, []) else none
  | fuel + 1, c, src, dst, n =>
    if n = 0 then some (c, [])
    else match src, dst with
      | seg :: rest, dseg :: drest =>
        let todo := min n (min seg.length dseg.length)
        let q := proc c (seg.take todo)
        (walk proc fuel q.1 (advance todo seg rest) (advance todo dseg drest) (n - todo)).map
          fun w => (w.1, q.2 ++ w.2)
      | _, _ => none

/-- `lc_aead_ascon_update`, `leancrypto_kernel_aead_ascon.c:81-132`. -/
def updateK (proc : Ctx → List Byte → Ctx × List Byte) (c : Ctx) (r : Req) : Option (Ctx × List Byte) :=
  if r.cryptlen = 0 then some (c, [])
  else walk proc (r.cryptlen + r.src.length + r.dst.length) c (ffwd r.src r.assoclen) (ffwd r.dst r.assoclen)
    r.cryptlen

/-- Bytes `x` written at offset `off`; `none` if the memory ends before. -/
def put (m : List Byte) (off : Nat) (x : List Byte) : Option (List Byte) :=
  if off + x.length ≤ m.length then some (m.take off ++ x ++ m.drop (off + x.length)) else none

/-- `scatterwalk_map_and_copy` reading `n` bytes at offset `off`. -/
def get (m : List Byte) (off n : Nat) : Option (List Byte) :=
  if off + n ≤ m.length then some ((m.drop off).take n) else none

/-- `lc_aead_ascon_enc` with `lc_aead_ascon_enc_final`, `leancrypto_kernel_aead_ascon.c:134-173`:
return code and bytes of the destination. -/
def enc (cf : Cfg) (t : Tfm) (r : Req) : Option (Int × List Byte) :=
  match setkey cf t.taglen t.key r.iv with
  | none => some (-22, r.dst.flatten)
  | some c =>
    (aadK cf c r).bind fun c1 =>
    (updateK (encUpdate cf) c1 r).bind fun w =>
    (put r.dst.flatten r.assoclen w.2).bind fun m =>
    if t.authsize ≠ w.1.taglen then some (-22, m)
    else (put m (r.assoclen + r.cryptlen) (encFinal cf w.1 (List.replicate t.authsize 0)).2).map fun m => (0, m)

/-- `lc_aead_ascon_dec` with `lc_aead_ascon_dec_final`, `leancrypto_kernel_aead_ascon.c:175-209`. -/
def dec (cf : Cfg) (t : Tfm) (r : Req) : Option (Int × List Byte) :=
  match setkey cf t.taglen t.key r.iv with
  | none => some (-22, r.dst.flatten)
  | some c =>
    (aadK cf c r).bind fun c1 =>
    (updateK (decUpdate cf) c1 r).bind fun w =>
    (put r.dst.flatten r.assoclen w.2).bind fun m =>
    (get r.src.flatten (r.assoclen + r.cryptlen) t.authsize).map fun tag =>
    ((decFinal cf w.1 tag).2, m)

/-- `crypto_aead_decrypt` of the Linux kernel: requests without room for a tag in `cryptlen` are
refused. -/
def cryptoAeadDecrypt (cf : Cfg) (t : Tfm) (r : Req) : Option (Int × List Byte) :=
  if r.cryptlen < t.authsize then some (-22, r.dst.flatten) else dec cf t r

end LC.AsconAead.Kernel
