import Verif.Drbg.HashModel
import Verif.Hmac.Model
/-
Model of the HMAC DRBG (`/repo/drng/src/hmac_drbg.c`) over any hash of the `lc_hash` interface.
The library instantiates it with SHA-512 only (`drng/api/lc_hmac_drbg.h`).

The linked lists of `struct lc_drbg_string` are lists of byte strings; the list elements that point
to `drbg->V` see the current value of `V`.  The self test and the check for a NULL context are not
modelled.
-/
namespace LC.Drbg

variable (S : StreamHash)

/-- `struct lc_drbg_hmac_state` (`drng/api/lc_hmac_drbg.h`); `h` is the hash state memory of
`hmac_ctx` (the pads in `hmac_ctx` are overwritten by every `lc_hmac_init`). -/
structure HmacState where
  h : S.Ctx
  V : List Byte
  C : List Byte
  seeded : Bool

variable {S}

/-- `LC_DRBG_HMAC_STATELEN`, `lc_hmac_drbg.h`. -/
abbrev hmacStateLen : Nat := 64

/-- `drbg_hmac`, `hmac_drbg.c:100-107`; returns the memory and the MAC. -/
def drbgHmac (h : S.Ctx) (key : List Byte) (inp : List (List Byte)) : S.Ctx × List Byte :=
  ((Hmac.final (inp.foldl Hmac.update (Hmac.init h (key.take hmacStateLen)))).1.h,
   (Hmac.final (inp.foldl Hmac.update (Hmac.init h (key.take hmacStateLen)))).2)

/-- One iteration of the loop of `drbg_hmac_update`, `hmac_drbg.c:134-143`. -/
def hmacRound (d : HmacState S) (pre : Byte) (seed : List (List Byte)) : HmacState S :=
  let p := drbgHmac d.h d.C (d.V :: [pre] :: seed)
  let q := drbgHmac p.1 p.2 [d.V]
  { d with h := q.1, C := p.2, V := q.2 }

/-- `drbg_hmac_update`, `hmac_drbg.c:114-149`; `none` is a NULL list. -/
def hmacUpdate (d : HmacState S) (seed : Option (List (List Byte))) : HmacState S :=
  let d := if d.seeded then d else { d with V := List.replicate hmacStateLen 1 }
  match seed with
  | none => hmacRound d 0 []
  | some l => hmacRound (hmacRound d 0 l) 1 l

/-- The loop of `drbg_hmac_generate_internal`, `hmac_drbg.c:164-177`. -/
def hmacGenLoop : Nat → HmacState S → Nat → List Byte → HmacState S × List Byte
  | 0, d, _, out => (d, out)
  | fuel + 1, d, todo, out =>
    if todo = 0 then (d, out)
    else
      let p := drbgHmac d.h d.C [d.V]
      let outlen := if blockLen < todo then blockLen else todo
      hmacGenLoop fuel { d with h := p.1, V := p.2 } (todo - outlen) (out ++ p.2.take outlen)

/-- `drbg_hmac_generate_internal`, `hmac_drbg.c:152-185`. -/
def hmacGenInternal (d : HmacState S) (buflen : Nat) (addtl : Option (List Byte)) :
    HmacState S × List Byte :=
  let d := if 0 < (addtl.getD []).length then hmacUpdate d (addtl.map fun x => [x]) else d
  let p := hmacGenLoop buflen d buflen []
  (hmacUpdate p.1 (addtl.map fun x => [x]), p.2)

/-- `lc_drbg_hmac_generate`, `hmac_drbg.c:187-211`. -/
def hmacGenerate (d : HmacState S) (addtl : Option (List Byte)) (addtlLen outlen : Nat) :
    HmacState S × Int × List Byte :=
  if outlen > maxRequest then (d, -22, [])
  else if addtlLen > maxAddtl then (d, -22, [])
  else
    let p := hmacGenInternal d outlen (if addtlLen = 0 then none else addtl)
    (p.1, 0, p.2)

/-- `lc_drbg_hmac_seed`, `hmac_drbg.c:213-249`. -/
def hmacSeed (d : HmacState S) (seed : Option (List Byte)) (pers : Option (List Byte)) :
    HmacState S × Int :=
  if (pers.map List.length).getD 0 > maxAddtl then (d, -22)
  else if (seed.map List.length).getD 0 = 0 then (d, -22)
  else
    let p := pers.getD []
    let data := if p.length = 0 then [seed.getD []] else [seed.getD [], p]
    ({ hmacUpdate d (some data) with seeded := true }, 0)

/-- `lc_drbg_hmac_zero`, `hmac_drbg.c:251-269`.  The hash state memory is zeroed as well; what it
contains does not matter as `lc_hmac_init` initialises it. -/
def hmacZero (d : HmacState S) : HmacState S :=
  { d with V := List.replicate hmacStateLen 0, C := List.replicate hmacStateLen 0, seeded := false }

def hmacStep (d : HmacState S) : Req → HmacState S × Reply
  | .seed s p => ((hmacSeed d s p).1, (hmacSeed d s p).2, [])
  | .generate a n o => ((hmacGenerate d a n o).1, (hmacGenerate d a n o).2)
  | .zero => (hmacZero d, 0, [])

/-- A sequence of requests. -/
def hmacRun (d : HmacState S) : List Req → HmacState S × List Reply
  | [] => (d, [])
  | r :: rs => ((hmacRun (hmacStep d r).1 rs).1, (hmacStep d r).2 :: (hmacRun (hmacStep d r).1 rs).2)

end LC.Drbg
