import Verif.Kmac.Model
import Verif.Sponge.Keccak
/-
Model of the cSHAKE DRNG and the KMAC DRNG (`/repo/drng/src/cshake_drng.c`, `/repo/drng/src/kmac_drng.c`) on the models of cSHAKE
and KMAC with the Keccak permutation of the library.

The two files are the same program with different functions for the init, update and final calls on the transient context; these
enter as `Alg`.  The self test, the check for a NULL state and the clearing of the transient context are not modelled.
-/
namespace LC.Drbg.Fke

abbrev Byte := UInt8

/-- What is done with a transient context. -/
structure Alg where
  /-- Init with the key, updates, a final call of 64 bytes, a final call of the given number of bytes: the outputs of the final
  calls; `none` if the second one writes nothing. -/
  gen : List Byte → List (List Byte) → Nat → List Byte × Option (List Byte)
  /-- Init with the key, updates, a final call of 64 bytes. -/
  seed : List Byte → List (List Byte) → List Byte

/-- The Keccak permutation of the library. -/
abbrev perm : List Byte → List Byte := Sponge.Keccak.keccakpBytes

/-- `LC_CSHAKE_DRNG_SEED_CUSTOMIZATION_STRING`, `cshake_drng.c:290`. -/
def cSeedName : List Byte := [0x63, 0x53, 0x48, 0x41, 0x4b, 0x45, 0x2d, 0x44, 0x52, 0x4e, 0x47, 0x20, 0x73, 0x65, 0x65, 0x64]

/-- `LC_CSHAKE_DRNG_CTX_CUSTOMIZATION_STRING`, `cshake_drng.c:291`. -/
def cGenName : List Byte :=
  [0x63, 0x53, 0x48, 0x41, 0x4b, 0x45, 0x2d, 0x44, 0x52, 0x4e, 0x47, 0x20, 0x67, 0x65, 0x6e, 0x65, 0x72, 0x61, 0x74, 0x65]

/-- `LC_KMAC_DRNG_SEED_CUSTOMIZATION_STRING`, `kmac_drng.c:237`. -/
def kSeedName : List Byte := [0x4b, 0x4d, 0x41, 0x43, 0x2d, 0x44, 0x52, 0x4e, 0x47, 0x20, 0x73, 0x65, 0x65, 0x64]

/-- `LC_KMAC_DRNG_CTX_CUSTOMIZATION_STRING`, `kmac_drng.c:238`. -/
def kGenName : List Byte :=
  [0x4b, 0x4d, 0x41, 0x43, 0x2d, 0x44, 0x52, 0x4e, 0x47, 0x20, 0x67, 0x65, 0x6e, 0x65, 0x72, 0x61, 0x74, 0x65]

/-- The calls of `lc_cshake256_drng_fke_init_ctx` and of one round of `lc_cshake256_drng_generate`, `cshake_drng.c:407-422, 458-463`, and
those of `lc_cshake256_drng_seed`, `cshake_drng.c:499-526`: rate 136 (cSHAKE256), the function name is the constant, the key is the
customization string. -/
def cshakeAlg : Alg where
  gen key upd todo :=
    let c := Sponge.updates perm (Kmac.cshakeInit perm 136 cGenName key) upd
    let p := Kmac.cshakeFinal perm c 64
    let q := Kmac.cshakeFinal perm p.1 todo
    (p.2, some q.2)
  seed key upd := (Kmac.cshakeFinal perm (Sponge.updates perm (Kmac.cshakeInit perm 136 cSeedName key) upd) 64).2

/-- The calls of `lc_kmac256_drng_fke_init_ctx` and of one round of `lc_kmac256_drng_generate`, `kmac_drng.c:347-362, 398-403`, and those of
`lc_kmac256_drng_seed`, `kmac_drng.c:436-461`.  `lc_kmac_final_xof` writes nothing for less than 4 bytes. -/
def kmacAlg : Alg where
  gen key upd todo :=
    let c := upd.foldl (Kmac.update perm) (Kmac.init perm 136 false key kGenName)
    let p := Kmac.finalXof perm c 64
    let q := Kmac.finalXof perm p.1 todo
    (p.2.getD [], q.2)
  seed key upd := (Kmac.finalXof perm (upd.foldl (Kmac.update perm) (Kmac.init perm 136 false key kSeedName)) 64).2.getD []

/-- `struct lc_cshake256_drng_state`, `struct lc_kmac256_drng_state`. -/
structure State where
  seeded : Bool
  key : List Byte
deriving DecidableEq

/-- `lc_cshake256_drng_encode`, `cshake_drng.c:348-387`, `lc_kmac256_drng_encode`, `kmac_drng.c:294-327`: the two update calls. -/
def encode (n : Nat) (alpha : List Byte) : List (List Byte) :=
  let len := if alpha.length > 84 then 84 else alpha.length
  [alpha.take len, [UInt8.ofNat (n * 85 + len)]]

/-- `LC_CSHAKE256_DRNG_MAX_CHUNK - LC_CSHAKE256_DRNG_KEYSIZE`, `lc_cshake256_drng.h`: `136 * 2 - 64`; the same for KMAC. -/
def chunk : Nat := 208

/-- What a final call leaves in `todo` bytes of the buffer of the caller; `none` is a byte that is not written. -/
def written (todo : Nat) : Option (List Byte) → List (Option Byte)
  | none => List.replicate todo none
  | some b => b.map some

/-- The loop of `lc_cshake256_drng_generate`, `cshake_drng.c:448-467`, and of `lc_kmac256_drng_generate`, `kmac_drng.c:388-406`. -/
def genLoop (A : Alg) (alpha : List Byte) : Nat → State → Nat → List (Option Byte) → State × List (Option Byte)
  | 0, s, _, out => (s, out)
  | fuel + 1, s, outlen, out =>
    if outlen = 0 then (s, out)
    else
      let todo := if outlen < chunk then outlen else chunk
      let o := A.gen s.key (encode 2 alpha) todo
      genLoop A alpha fuel { s with key := o.1 } (outlen - todo) (out ++ written todo o.2)

/-- `lc_cshake256_drng_generate`, `cshake_drng.c:435-475`, `lc_kmac256_drng_generate`, `kmac_drng.c:375-414`. -/
def generate (A : Alg) (s : State) (alpha : List Byte) (outlen : Nat) : State × List (Option Byte) := genLoop A alpha outlen s outlen []

/-- `lc_cshake256_drng_seed`, `cshake_drng.c:483-532`, `lc_kmac256_drng_seed`, `kmac_drng.c:421-467`. -/
def seed (A : Alg) (s : State) (sd alpha : List Byte) : State :=
  { seeded := true, key := A.seed (if s.seeded then s.key else []) (sd :: encode (if s.seeded then 1 else 0) alpha) }

/-- `lc_cshake256_drng_zero`, `cshake_drng.c:534-542`, `lc_kmac256_drng_zero`, `kmac_drng.c:469-477`. -/
def zero : State := { seeded := false, key := List.replicate 64 0 }

/-- Requests (`lc_rng_seed`, `lc_rng_generate`, `lc_rng_zero`, `/repo/drng/src/rng_api.c:33-86`). -/
inductive Req where
  | seed (sd alpha : List Byte)
  | generate (alpha : List Byte) (outlen : Nat)
  | zero

/-- Return code and buffer of the caller. -/
abbrev Reply := Int × List (Option Byte)

def step (A : Alg) (s : State) : Req → State × Reply
  | .seed sd a => (seed A s sd a, 0, [])
  | .generate a n => ((generate A s a n).1, 0, (generate A s a n).2)
  | .zero => (zero, 0, [])

def run (A : Alg) (s : State) : List Req → State × List Reply
  | [] => (s, [])
  | r :: rs => ((run A (step A s r).1 rs).1, (step A s r).2 :: (run A (step A s r).1 rs).2)

end LC.Drbg.Fke
