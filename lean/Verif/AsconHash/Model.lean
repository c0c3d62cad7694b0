import Verif.Sponge.Lemmas
/-
Model of Ascon-Hash256 and Ascon-XOF128 (`/repo/hash/src/ascon_c.c`,
`ascon_hash.h`, `ascon_hash_common.c`), the portable C implementation.
The 40 byte state is kept as its little endian byte view.
-/
namespace LC.AsconHash
open LC.Sponge (Byte xorAt extract absorbTail)

/-! ### Permutation -/

/-- `uint64_t state[5]`. -/
structure Words where
  x0 : BitVec 64
  x1 : BitVec 64
  x2 : BitVec 64
  x3 : BitVec 64
  x4 : BitVec 64
deriving DecidableEq, Repr

/-- `ror64`, `internal/api/bitshift.h`. -/
def ror64 (x : BitVec 64) (n : Nat) : BitVec 64 := (x >>> (n % 64)) ||| (x <<< ((64 - n) % 64))

/-- `ascon_permutation_one`, `ascon_c.c:67-96`. -/
def permOne (s : Words) (c : BitVec 64) : Words :=
  let s2 := s.x2 ^^^ c
  let s0 := s.x0 ^^^ s.x4
  let s4 := s.x4 ^^^ s.x3
  let s2 := s2 ^^^ s.x1
  let t0 := s0 ^^^ (~~~s.x1 &&& s2)
  let t1 := s.x1 ^^^ (~~~s2 &&& s.x3)
  let t2 := s2 ^^^ (~~~s.x3 &&& s4)
  let t3 := s.x3 ^^^ (~~~s4 &&& s0)
  let t4 := s4 ^^^ (~~~s0 &&& s.x1)
  let t1 := t1 ^^^ t0
  let t0 := t0 ^^^ t4
  let t3 := t3 ^^^ t2
  let t2 := ~~~t2
  { x0 := t0 ^^^ ror64 t0 19 ^^^ ror64 t0 28
    x1 := t1 ^^^ ror64 t1 61 ^^^ ror64 t1 39
    x2 := t2 ^^^ ror64 t2 1 ^^^ ror64 t2 6
    x3 := t3 ^^^ ror64 t3 10 ^^^ ror64 t3 17
    x4 := t4 ^^^ ror64 t4 7 ^^^ ror64 t4 41 }

/-- `ascon_permutation_12`, `ascon_c.c:121-135`. -/
def perm12 (s : Words) : Words :=
  [0xf0, 0xe1, 0xd2, 0xc3, 0xb4, 0xa5, 0x96, 0x87, 0x78, 0x69, 0x5a, 0x4b].foldl permOne s

/-- `ascon_permutation_8`, `ascon_c.c:109-119`. -/
def perm8 (s : Words) : Words :=
  [0xb4, 0xa5, 0x96, 0x87, 0x78, 0x69, 0x5a, 0x4b].foldl permOne s

/-- Little endian word from bytes. -/
def leWord (l : List Byte) : BitVec 64 :=
  BitVec.ofNat 64 (l.foldr (fun b a => b.toNat + 256 * a) 0)

/-- Little endian bytes of a word. -/
def leBytes (x : BitVec 64) : List Byte :=
  (List.range 8).map fun i => UInt8.ofNat (x.toNat / 256 ^ i % 256)

/-- Byte view to words. -/
def toWords (l : List Byte) : Words :=
  ⟨leWord (l.take 8), leWord ((l.drop 8).take 8), leWord ((l.drop 16).take 8),
   leWord ((l.drop 24).take 8), leWord ((l.drop 32).take 8)⟩

/-- Words to byte view. -/
def ofWords (s : Words) : List Byte :=
  leBytes s.x0 ++ leBytes s.x1 ++ leBytes s.x2 ++ leBytes s.x3 ++ leBytes s.x4

/-- `ascon_c_permutation(state, 12)` on the byte view. -/
def permBytes (l : List Byte) : List Byte := ofWords (perm12 (toWords l))

/-! ### Streaming layer (any permutation) -/

/-- `struct lc_ascon_hash`, `hash/api/lc_ascon_hash.h`. `roundb` is the permutation
parameter. -/
structure Ctx where
  state : List Byte
  msgLen : Nat
  digestsize : Nat
  offset : Nat
  squeezeMore : Bool
deriving DecidableEq, Repr

/-- `ascon_absorb_common`, `ascon_hash.h:105-172`, rate `r` (`LC_ASCON_HASH_RATE`).
The loop of lines 146-171 is `absorbTail`; the condition `if (inlen)` in its body is
always true there. -/
def absorb (perm : List Byte → List Byte) (r : Nat) (c : Ctx) (inp : List Byte) : Ctx :=
  let part := c.msgLen % r
  let c := { c with squeezeMore := false, msgLen := (c.msgLen + inp.length) % 2 ^ 64 }
  if part ≠ 0 then
    let todo := r - part
    if inp.length < todo then
      { c with state := xorAt c.state part inp }
    else
      let st := xorAt c.state part (inp.take todo)
      let rest := inp.drop todo
      let st := if rest.length ≠ 0 then perm st else st
      { c with state := absorbTail perm r st rest }
  else
    { c with state := absorbTail perm r c.state inp }

/-- Squeeze loop, `ascon_hash.h:211-232`; `fuel` bounds the iterations. -/
def squeezeLoop (perm : List Byte → List Byte) (r : Nat) :
    Nat → Ctx → Nat → List Byte → Ctx × List Byte
  | 0, c, _, out => (c, out)
  | fuel + 1, c, dlen, out =>
    if dlen = 0 then (c, out) else
      let avail := r - c.offset
      let todo := if dlen > avail then avail else dlen
      let out := out ++ extract c.state c.offset todo
      let off := (c.offset + todo) % r
      let st := if off = 0 then perm c.state else c.state
      squeezeLoop perm r fuel { c with state := st, offset := off } (dlen - todo) out

/-- `ascon_squeeze_common`, `ascon_hash.h:174-233`, for `roundb = 12`. -/
def squeeze (perm : List Byte → List Byte) (r : Nat) (c : Ctx) : Ctx × List Byte :=
  let c := if c.squeezeMore then c else
    { c with state := perm (xorAt c.state (c.msgLen % r) [0x01]), squeezeMore := true }
  squeezeLoop perm r c.digestsize c c.digestsize []

/-- A sequence of set_digestsize / final calls. -/
def finals (perm : List Byte → List Byte) (r : Nat) : Ctx → List Nat → Ctx × List (List Byte)
  | c, [] => (c, [])
  | c, d :: ds =>
    let p := squeeze perm r { c with digestsize := d }
    let q := finals perm r p.1 ds
    (q.1, p.2 :: q.2)

/-- `ascon_ctx_init` with the given initial state, `ascon_hash_common.c:23-28`. -/
def init (st : List Byte) : Ctx :=
  { state := st, msgLen := 0, digestsize := 0, offset := 0, squeezeMore := false }

/-- State of `ascon_256_init_common`, `ascon_hash_common.c:49-53`. -/
def state256 : Words :=
  ⟨0x9b1e5494e934d681, 0x4bc3a01e333751d2, 0xae65396c6b34b81a, 0x3c7fd4a4d56a4db3,
   0x1a5c464906c5976d⟩

/-- State of `ascon_xof_init_common`, `ascon_hash_common.c:120-124`. -/
def stateXof : Words :=
  ⟨0xda82ce768d9447eb, 0xcc7ce6c75f1ef969, 0xe7508fd780085631, 0x0ee0ea53416b58cc,
   0xe0547524db6f0bde⟩

/-- State of `ascon_cxof_init_common`, `ascon_hash_common.c:158-162`. -/
def stateCxof : Words :=
  ⟨0x675527c2a0e8de03, 0x43d12d7dc0377bbc, 0xe9901dec426e81b5, 0x2ab14907720780b6,
   0x8f3f1d02d432bc46⟩

/-- Ascon-Hash256 over a list of update calls. -/
def hash256 (chunks : List (List Byte)) : List Byte :=
  (squeeze permBytes 8 { chunks.foldl (absorb permBytes 8) (init (ofWords state256)) with
    digestsize := 32 }).2

/-- Ascon-XOF128: update calls, then final calls with the given sizes. -/
def xof128 (chunks : List (List Byte)) (ds : List Nat) : List (List Byte) :=
  (finals permBytes 8 (chunks.foldl (absorb permBytes 8) (init (ofWords stateXof))) ds).2

end LC.AsconHash
