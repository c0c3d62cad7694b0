import Verif.AsconHash.Model
import Verif.Sponge.Model
import Verif.Sponge.Keccak
/-
Model of the XDRBG (`/repo/drng/src/xdrbg.c`), used by the library with SHAKE-256 (XDRBG256) and with
the Ascon XOF (XDRBG128).

The XOF context lives on the stack of one function call, so the XOF enters as a function from the
list of `lc_hash_update` calls and the list of `lc_hash_final` sizes to the outputs of the final
calls.  The self test, the Timecop annotations and the check for a NULL state are not modelled.
-/
namespace LC.Drbg.Xdrbg

abbrev Byte := UInt8

/-- `lc_hash_init`, then update calls, then set_digestsize/final calls. -/
abbrev Xof := List (List Byte) → List Nat → List (List Byte)

/-- The constant part of `struct lc_xdrbg_drng_state` (`drng/api/lc_xdrbg.h:34-44`). -/
structure Par where
  xof : Xof
  keysize : Nat
  chunk : Nat

/-- SHAKE-256 through the streaming interface. -/
def shake256 : Xof := fun chunks ds =>
  (Sponge.finals Sponge.Keccak.keccakpBytes
    (Sponge.updates Sponge.Keccak.keccakpBytes (Sponge.init 136 0 0x1f) chunks) ds).2

/-- `LC_XDRBG256_RNG_CTX`, `lc_xdrbg.h`: key size 64, chunk size `136 * 2 - 64`. -/
def par256 : Par := { xof := shake256, keysize := 64, chunk := 208 }

/-- `LC_XDRBG128_RNG_CTX`, `lc_xdrbg.h`: Ascon XOF, key size 32, chunk size `8 * 32`. -/
def par128 : Par := { xof := AsconHash.xof128, keysize := 32, chunk := 256 }

/-- The variable part of `struct lc_xdrbg_drng_state`. -/
structure State where
  v : List Byte
  seeded : Bool
deriving DecidableEq

/-- `lc_xdrbg_drng_encode`, `xdrbg.c:59-96`: the two update calls. -/
def encode (n : Nat) (alpha : List Byte) : List (List Byte) :=
  let len := if alpha.length > 84 then 84 else alpha.length
  [alpha.take len, [UInt8.ofNat (n * 85 + len)]]

/-- One round of the loop of `lc_xdrbg_drng_generate` with `lc_xdrbg_drng_fke_init_ctx`,
`xdrbg.c:113-130, 158-170`: the outputs of the two final calls. -/
def fke (P : Par) (s : State) (alpha : List Byte) (todo : Nat) : List (List Byte) :=
  P.xof ((s.v.take P.keysize) :: encode 2 alpha) [P.keysize, todo]

/-- The loop of `lc_xdrbg_drng_generate`, `xdrbg.c:158-175`. -/
def genLoop (P : Par) (alpha : List Byte) : Nat → State → Nat → List Byte → State × List Byte
  | 0, s, _, out => (s, out)
  | fuel + 1, s, outlen, out =>
    if outlen = 0 then (s, out)
    else
      let todo := if outlen < P.chunk then outlen else P.chunk
      let o := fke P s alpha todo
      genLoop P alpha fuel { s with v := o.getD 0 [] } (outlen - todo) (out ++ o.getD 1 [])

/-- `lc_xdrbg_drng_generate`, `xdrbg.c:148-183`. -/
def generate (P : Par) (s : State) (alpha : List Byte) (outlen : Nat) : State × List Byte :=
  genLoop P alpha outlen s outlen []

/-- `lc_xdrbg_drng_seed`, `xdrbg.c:201-249`. -/
def seed (P : Par) (s : State) (sd alpha : List Byte) : State :=
  let upd := if s.seeded then (s.v.take P.keysize) :: sd :: encode 1 alpha else sd :: encode 0 alpha
  { v := (P.xof upd [P.keysize]).getD 0 [], seeded := true }

/-- `lc_xdrbg_drng_zero`, `xdrbg.c:251-260`. -/
def zero (P : Par) : State := { v := List.replicate P.keysize 0, seeded := false }

/-- Requests. -/
inductive Req where
  | seed (sd alpha : List Byte)
  | generate (alpha : List Byte) (outlen : Nat)
  | zero

/-- Return code and output. -/
abbrev Reply := Int × List Byte

def step (P : Par) (s : State) : Req → State × Reply
  | .seed sd a => (seed P s sd a, 0, [])
  | .generate a n => ((generate P s a n).1, 0, (generate P s a n).2)
  | .zero => (zero P, 0, [])

def run (P : Par) (s : State) : List Req → State × List Reply
  | [] => (s, [])
  | r :: rs => ((run P (step P s r).1 rs).1, (step P s r).2 :: (run P (step P s r).1 rs).2)

end LC.Drbg.Xdrbg
