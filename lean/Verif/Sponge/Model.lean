/-
Model of the Keccak sponge code of leancrypto (`/repo/hash/src/sha3_c.c`).

The 200 byte state is modelled as the little endian byte view of the 25 lanes
(`sha3_c.c:175-181` uses exactly this view on little endian machines; the lane
wise fill functions `sha3_c.c:469-489` xor `ptr_to_le64` words, which is the
same bytewise xor).  The permutation `keccakp_1600` is a parameter here; it is
modelled concretely in `Verif/Sponge/Keccak.lean`.
-/
namespace LC.Sponge

/-- A byte. -/
abbrev Byte := UInt8

/-- `sha3_fill_state_bytes(state, in, byte_offset, inlen)`,
`hash/src/sha3_c.c:175-181`: xor the bytes `d` into the state starting at byte
offset `off`.  Bytes that would fall behind the end of the state are ignored
(the C code never does that for `off + inlen ≤ 200`). -/
def xorAt (st : List Byte) (off : Nat) (d : List Byte) : List Byte :=
  st.mapIdx fun i x => x ^^^ (if off ≤ i then d.getD (i - off) 0 else 0)

/-- `struct lc_sha3_224_state` (`hash/api/lc_sha3.h`), the common context of all
Keccak based hashes.  `msgLen` is a `size_t` (kept reduced modulo `2^64`);
`rword` is omitted because it is always `r / 8`. -/
structure Ctx where
  state : List Byte
  msgLen : Nat
  digestsize : Nat
  offset : Nat
  r : Nat
  padding : Byte
  squeezeMore : Bool
deriving DecidableEq, Repr

/-- `sha3_ctx_init` plus the assignments of the `*_init_common` functions
(`hash/src/sha3_c.c:214-451`): zero state, given rate, digest size, padding. -/
def init (r digestsize : Nat) (padding : Byte) : Ctx :=
  { state := List.replicate 200 0, msgLen := 0, digestsize := digestsize,
    offset := 0, r := r, padding := padding, squeezeMore := false }

/-- The loop over full blocks, `hash/src/sha3_c.c:534-551` (both alignment
variants perform the same xor).  Returns the new state and the unprocessed
input.  `fuel` bounds the number of iterations; it is instantiated with the
input length, which suffices because each iteration consumes `r > 0` bytes. -/
def fullBlocks (perm : List Byte → List Byte) (r : Nat) :
    Nat → List Byte → List Byte → List Byte × List Byte
  | 0, st, inp => (st, inp)
  | fuel + 1, st, inp =>
    if r ≤ inp.length then
      fullBlocks perm r fuel (perm (xorAt st 0 (inp.take r))) (inp.drop r)
    else (st, inp)

/-- Lines 533-554 of `hash/src/sha3_c.c`: full blocks, then the tail is xored
at offset 0. -/
def absorbTail (perm : List Byte → List Byte) (r : Nat) (st inp : List Byte) :
    List Byte :=
  let p := fullBlocks perm r inp.length st inp
  xorAt p.1 0 p.2

/-- `keccak_absorb`, `hash/src/sha3_c.c:491-555`. -/
def absorb (perm : List Byte → List Byte) (c : Ctx) (inp : List Byte) : Ctx :=
  let part := c.msgLen % c.r
  let c := { c with squeezeMore := false, msgLen := (c.msgLen + inp.length) % 2 ^ 64 }
  if part ≠ 0 then
    let todo := c.r - part
    if inp.length < todo then
      { c with state := xorAt c.state part inp }
    else
      { c with state :=
          absorbTail perm c.r (perm (xorAt c.state part (inp.take todo))) (inp.drop todo) }
  else
    { c with state := absorbTail perm c.r c.state inp }

/-- `keccak_c_extract_bytes`, `hash/src/sha3_c.c:199-204`: `len` state bytes
from `off`.  (The word level code of `sponge_extract_bytes` is modelled
separately.) -/
def extract (st : List Byte) (off len : Nat) : List Byte := (st.drop off).take len

/-- The padding block of `keccak_squeeze`, `hash/src/sha3_c.c:571-585`. -/
def padState (perm : List Byte → List Byte) (c : Ctx) : Ctx :=
  if c.squeezeMore then c else
    let part := c.msgLen % c.r
    let s1 := xorAt c.state part [c.padding]
    let s2 := if 0x80 ≤ c.padding ∧ part = c.r - 1 then perm s1 else s1
    { c with state := xorAt s2 (c.r - 1) [0x80], squeezeMore := true }

/-- The squeeze loop, `hash/src/sha3_c.c:587-606`.  `fuel` bounds the number of
iterations, each of which produces at least one byte. -/
def squeezeLoop (perm : List Byte → List Byte) :
    Nat → Ctx → Nat → List Byte → Ctx × List Byte
  | 0, c, _, out => (c, out)
  | fuel + 1, c, dlen, out =>
    if dlen = 0 then (c, out) else
      let avail := c.r - c.offset
      let todo := if dlen > avail then avail else dlen
      let st := if c.offset = 0 then perm c.state else c.state
      squeezeLoop perm fuel { c with state := st, offset := (c.offset + todo) % c.r }
        (dlen - todo) (out ++ extract st c.offset todo)

/-- `keccak_squeeze`, `hash/src/sha3_c.c:557-607`. -/
def squeeze (perm : List Byte → List Byte) (c : Ctx) : Ctx × List Byte :=
  let c := padState perm c
  squeezeLoop perm c.digestsize c c.digestsize []

/-- `shake_set_digestsize`, `hash/src/sha3_c.c:609-614`. -/
def setDigestsize (c : Ctx) (d : Nat) : Ctx := { c with digestsize := d }

/-- A sequence of `lc_hash_update` calls (`hash/src/hash.c:22-32`). -/
def updates (perm : List Byte → List Byte) (c : Ctx) (chunks : List (List Byte)) : Ctx :=
  chunks.foldl (absorb perm) c

/-- A sequence of `lc_hash_set_digestsize(d)`, `lc_hash_final` calls
(`hash/src/hash.c:34-57`), returning the outputs of each call. -/
def finals (perm : List Byte → List Byte) : Ctx → List Nat → Ctx × List (List Byte)
  | c, [] => (c, [])
  | c, d :: ds =>
    let p := squeeze perm (setDigestsize c d)
    let q := finals perm p.1 ds
    (q.1, p.2 :: q.2)

end LC.Sponge
