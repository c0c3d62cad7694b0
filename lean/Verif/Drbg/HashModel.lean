import Verif.Hash.Stream
/-
Model of the Hash DRBG (`/repo/drng/src/hash_drbg.c`) over any hash of the `lc_hash` interface.
The library instantiates it with SHA-512 only (`drng/api/lc_hash_drbg.h:51-58`).

The linked lists of `struct lc_drbg_string` are lists of byte strings.  The scratchpad is not part
of the state: every function writes it before reading it and zeroes it at the end.  The self test
and the check for a NULL context are not modelled.  The hash writes `S.dsize` bytes
(64 for SHA-512).
-/
namespace LC.Drbg

/-- `LC_DRBG_HASH_STATELEN`, `lc_hash_drbg.h:32`. -/
abbrev stateLen : Nat := 111
/-- `LC_DRBG_HASH_BLOCKLEN`, `lc_hash_drbg.h:33`. -/
abbrev blockLen : Nat := 64
/-- `lc_drbg_max_request_bytes`, `lc_drbg.h:65-70`. -/
def maxRequest : Nat := 65536
/-- `lc_drbg_max_addtl`, `lc_drbg.h:72-75`, for 64 bit `unsigned long`. -/
def maxAddtl : Nat := 2147483648

/-- `be32_to_ptr` / `be64_to_ptr` (`internal/api/bitshift_be.h`): the low `8 * k` bits of `n`, most
significant byte first. -/
def bePtr : Nat → Nat → List Byte
  | 0, _ => []
  | k + 1, n => bePtr k (n / 256) ++ [UInt8.ofNat (n % 256)]

/-- Second loop of `drbg_add_buf`, `hash_drbg.c:140-147`; least significant byte first. -/
def carryRev : List Byte → Nat → List Byte
  | [], _ => []
  | d :: ds, r =>
    if r > 0 then UInt8.ofNat ((d.toNat + 1) % 256) :: carryRev ds ((d.toNat + 1) / 256) else d :: ds

/-- First loop of `drbg_add_buf`, `hash_drbg.c:130-139`; the buffers are given least significant
byte first (the code walks backwards).  The case `addlen > dstlen` (a buffer underrun in C, excluded by
the comment in line 124) is given an arbitrary value. -/
def addRev : List Byte → List Byte → Nat → List Byte
  | ds, [], r => carryRev ds r
  | [], _ :: _, _ => []
  | d :: ds, a :: as, r =>
    UInt8.ofNat ((r + (d.toNat + a.toNat)) % 256) :: addRev ds as ((r + (d.toNat + a.toNat)) / 256)

/-- `drbg_add_buf`, `hash_drbg.c:121-148`. -/
def addBuf (dst add : List Byte) : List Byte := (addRev dst.reverse add.reverse 0).reverse

variable (S : StreamHash)

/-- `struct lc_drbg_hash_state`, `lc_hash_drbg.h:35-46`, without scratchpad. -/
structure HashState where
  h : S.Ctx
  V : List Byte
  C : List Byte
  ctr : Nat
  seeded : Bool

variable {S}

/-- `drbg_hash`, `hash_drbg.c:102-109`. -/
def drbgHash (h : S.Ctx) (inp : List (List Byte)) : S.Ctx × List Byte :=
  S.final (inp.foldl S.update (S.init h))

/-- The `while (len < outlen)` loop of `drbg_hash_df`, `hash_drbg.c:187-197`.  `i` is `input[0]`
(an `unsigned char`), `pre` is `input[1..4]`. -/
def dfLoop (pre : List Byte) (entropy : List (List Byte)) :
    Nat → S.Ctx → Nat → Nat → List Byte → S.Ctx × List Byte
  | 0, h, _, _, out => (h, out)
  | fuel + 1, h, i, todo, out =>
    if todo = 0 then (h, out)
    else
      let blocklen := min blockLen todo
      let p := drbgHash h ((UInt8.ofNat i :: pre) :: entropy)
      dfLoop pre entropy fuel p.1 ((i + 1) % 256) (todo - blocklen) (out ++ p.2.take blocklen)

/-- `drbg_hash_df`, `hash_drbg.c:166-200`. -/
def hashDf (h : S.Ctx) (outlen : Nat) (entropy : List (List Byte)) : S.Ctx × List Byte :=
  dfLoop (bePtr 4 (outlen * 8)) entropy outlen h 1 outlen []

/-- `drbg_hash_update`, `hash_drbg.c:203-234`; `seed` is the list of strings. -/
def hashUpdate (d : HashState S) (seed : List (List Byte)) : HashState S :=
  let data := if d.seeded then [1] :: d.V :: seed else seed
  let p := hashDf d.h stateLen data
  let q := hashDf p.1 stateLen [[0], p.2]
  { d with h := q.1, V := p.2, C := q.2 }

/-- `drbg_hash_process_addtl`, `hash_drbg.c:237-260`. -/
def processAddtl (d : HashState S) (addtl : Option (List Byte)) : HashState S :=
  match addtl with
  | none => d
  | some a =>
    if a.length = 0 then d
    else
      let p := drbgHash d.h [[2], d.V, a]
      { d with h := p.1, V := addBuf d.V (p.2.take blockLen) }

/-- The loop of `drbg_hash_hashgen`, `hash_drbg.c:276-291`. -/
def genLoop : Nat → S.Ctx → List Byte → Nat → List Byte → S.Ctx × List Byte
  | 0, h, _, _, out => (h, out)
  | fuel + 1, h, src, todo, out =>
    if todo = 0 then (h, out)
    else
      let p := drbgHash h [src]
      let outlen := if blockLen < todo then blockLen else todo
      let todo' := todo - outlen
      genLoop fuel p.1 (if 0 < todo' then addBuf src [1] else src) todo' (out ++ p.2.take outlen)

/-- `drbg_hash_hashgen`, `hash_drbg.c:263-295`. -/
def hashgen (d : HashState S) (buflen : Nat) : HashState S × List Byte :=
  let p := genLoop buflen d.h d.V buflen []
  ({ d with h := p.1 }, p.2)

/-- `drbg_hash_generate_internal`, `hash_drbg.c:298-329`. -/
def hashGenInternal (d : HashState S) (buflen : Nat) (addtl : Option (List Byte)) :
    HashState S × List Byte :=
  let d := { d with ctr := (d.ctr + 1) % 2 ^ 64 }
  let d := processAddtl d addtl
  let p := hashgen d buflen
  let d := p.1
  let q := drbgHash d.h [[3], d.V]
  let V := addBuf d.V (q.2.take blockLen)
  let V := addBuf V d.C
  let V := addBuf V (bePtr 8 d.ctr)
  ({ d with h := q.1, V := V }, p.2)

/-- `lc_drbg_hash_generate`, `hash_drbg.c:331-355`.  `addtl = none` is a NULL pointer, `addtlLen` is
`addtl_input_len`; the result is the return code and the bytes written. -/
def hashGenerate (d : HashState S) (addtl : Option (List Byte)) (addtlLen outlen : Nat) :
    HashState S × Int × List Byte :=
  if outlen > maxRequest then (d, -22, [])
  else if addtlLen > maxAddtl then (d, -22, [])
  else
    let a := if addtlLen = 0 then none else addtl
    let p := hashGenInternal d outlen a
    (p.1, 0, p.2)

/-- `lc_drbg_hash_seed`, `hash_drbg.c:357-400`; `none` is a NULL pointer. -/
def hashSeed (d : HashState S) (seed : Option (List Byte)) (pers : Option (List Byte)) :
    HashState S × Int :=
  if (pers.map List.length).getD 0 > maxAddtl then (d, -22)
  else if (seed.map List.length).getD 0 = 0 then (d, -22)
  else
    let p := pers.getD []
    let data := if p.length = 0 then [seed.getD []] else [seed.getD [], p]
    ({ hashUpdate d data with seeded := true, ctr := 0 }, 0)

/-- `lc_drbg_hash_zero`, `hash_drbg.c:402-417`.  The `hash_state` member is zeroed as well; the
hash state actually used by `hash_ctx` is whatever `h` is. -/
def hashZero (d : HashState S) : HashState S :=
  { d with V := List.replicate stateLen 0, C := List.replicate stateLen 0, ctr := 0, seeded := false }

/-- Requests to the DRBG. -/
inductive Req where
  | seed (seed pers : Option (List Byte))
  | generate (addtl : Option (List Byte)) (addtlLen outlen : Nat)
  | zero

/-- What the caller sees: return code and bytes written. -/
abbrev Reply := Int × List Byte

def hashStep (d : HashState S) : Req → HashState S × Reply
  | .seed s p => ((hashSeed d s p).1, (hashSeed d s p).2, [])
  | .generate a n o => ((hashGenerate d a n o).1, (hashGenerate d a n o).2)
  | .zero => (hashZero d, 0, [])

/-- A sequence of requests. -/
def hashRun (d : HashState S) : List Req → HashState S × List Reply
  | [] => (d, [])
  | r :: rs => ((hashRun (hashStep d r).1 rs).1, (hashStep d r).2 :: (hashRun (hashStep d r).1 rs).2)

end LC.Drbg
