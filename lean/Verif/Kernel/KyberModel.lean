import Verif.Hash.Stream
/-
Model of the ML-KEM interface of the kernel module, `/repo/linux_kernel/leancrypto_kernel_kyber.c`.

The KEM is a parameter.  A request has the bytes of its source, `dst_len`, and the room in the
destination scatterlist; `sg_copy_from_buffer` copies as much as there is room for and returns the
number of bytes copied.  Source scatterlists hold `src_len` bytes.  `kmalloc` succeeds.
-/
namespace LC.Kernel.Kyber

/-- The functions of the library: position of the public key in the secret key
(`_lc_kyber_keypair`: `sk` contains `pk`), `lc_kyber_enc` with the random number drawn,
`lc_kyber_dec`, `kyber_ss_kdf`.  `none` is an error; for `kdf` it means that nothing is
written, which is the case for fewer than 4 bytes (`lc_kmac_final`, `kmac/src/kmac.c:170-195`). -/
structure Kem where
  pkLen : Nat
  ctLen : Nat
  skLen : Nat
  pkOf : List Byte → List Byte
  keypair : List Byte → Option (List Byte)
  enc : List Byte → List Byte → Option (List Byte × List Byte)
  dec : List Byte → List Byte → Option (List Byte)
  kdf : Nat → List Byte → List Byte → Option (List Byte)

/-- `struct lc_kernel_kyber_ctx`, `leancrypto_kernel_kyber.c:34-39`. -/
structure Ctx where
  sk : List Byte
  ss : List Byte
  ct : List Byte
  ssSet : Bool
deriving DecidableEq, Repr

/-- `struct kpp_request`; `room` is the size of the destination. -/
structure Req where
  src : List Byte
  dstLen : Nat
  room : Nat

/-- The memory of a new handle is zero. -/
def start (k : Kem) : Ctx :=
  { sk := List.replicate k.skLen 0, ss := List.replicate 32 0, ct := List.replicate k.ctLen 0, ssSet := false }

/-- `lc_kernel_kyber_set_secret`, `leancrypto_kernel_kyber.c:41-59`; `rnd` is what the random
number generator delivers, `-1` stands for an error of the key generation. -/
def setSecret (k : Kem) (c : Ctx) (buffer rnd : List Byte) : Ctx × Int :=
  if buffer.length = 0 then
    match k.keypair rnd with
    | none => (c, -1)
    | some sk => ({ c with sk := sk }, 0)
  else if buffer.length ≠ k.skLen then (c, -22)
  else ({ c with sk := buffer }, 0)

/-- `lc_kernel_kyber_gen_ct`, `leancrypto_kernel_kyber.c:90-141`: context, return code, bytes
written to the destination. -/
def genCt (k : Kem) (c : Ctx) (r : Req) (rnd : List Byte) : Ctx × Int × List Byte :=
  if r.src.length ≠ k.pkLen then
    let out := (k.pkOf c.sk).take r.room
    (c, if out.length ≠ k.pkLen then -22 else 0, out)
  else match k.enc r.src rnd with
    | none => (c, -1, [])
    | some (ct, ss) =>
      ({ c with ct := ct, ss := ss, ssSet := true }, 0, (ct.take (min k.ctLen r.dstLen)).take r.room)

/-- The secret handed out for length `n`; `mem` is the old content of the memory allocated
(`leancrypto_kernel_kyber.c:161-176` and `242-255`). -/
def derive (k : Kem) (n : Nat) (ct ss mem : List Byte) : List Byte :=
  if n = 32 then ss else (k.kdf n ct ss).getD (mem.take n)

/-- `lc_kernel_kyber_ss_local`, `leancrypto_kernel_kyber.c:143-196`. -/
def ssLocal (k : Kem) (c : Ctx) (r : Req) (mem : List Byte) : Ctx × Int × List Byte :=
  if !c.ssSet then (c, -95, [])
  else
    let out := (derive k r.dstLen c.ct c.ss mem).take r.room
    ({ c with ss := List.replicate 32 0, ct := List.replicate k.ctLen 0, ssSet := false },
      if out.length ≠ r.dstLen then -22 else 0, out)

/-- `lc_kernel_kyber_ss`, `leancrypto_kernel_kyber.c:198-273`. -/
def ss (k : Kem) (c : Ctx) (r : Req) (mem : List Byte) : Ctx × Int × List Byte :=
  if r.dstLen > 2 * 32 + 2 * 16 + 2 * 32 then (c, -75, [])
  else if r.dstLen = 0 then (c, -22, [])
  else if r.src.length = 0 then ssLocal k c r mem
  else if r.src.length ≠ k.ctLen then (c, -22, [])
  else match k.dec c.sk r.src with
    | none => (c, -1, [])
    | some s =>
      let out := (derive k r.dstLen r.src s mem).take r.room
      (c, if out.length ≠ r.dstLen then -22 else 0, out)

/-- `lc_kernel_kyber_max_size`, `leancrypto_kernel_kyber.c:275-278`. -/
def maxSize (k : Kem) : Nat := k.ctLen

/-- Calls on a handle. -/
inductive Op where
  | setSecret (buffer rnd : List Byte)
  | genCt (r : Req) (rnd : List Byte)
  | ss (r : Req) (mem : List Byte)

def step (k : Kem) (c : Ctx) : Op → Ctx × Int × List Byte
  | .setSecret b rnd => ((setSecret k c b rnd).1, (setSecret k c b rnd).2, [])
  | .genCt r rnd => genCt k c r rnd
  | .ss r mem => ss k c r mem

end LC.Kernel.Kyber
