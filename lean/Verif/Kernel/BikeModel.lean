import Verif.Hash.Stream
/-
Model of the BIKE interface of the kernel module, `/repo/linux_kernel/leancrypto_kernel_bike.c`.

The KEM is a parameter.  A request has the bytes of its source, `dst_len`, and the room in the
destination scatterlist; `sg_copy_from_buffer` copies as much as there is room for and returns the
number of bytes copied.  Source scatterlists hold `src_len` bytes.  `kmalloc` succeeds.
-/
namespace LC.Kernel.Bike

/-- The functions of the library: the public key within a secret key (`lc_bike_keypair`: `sk` contains
`pk`), `lc_bike_keypair`, `lc_bike_enc` with the random number drawn, `lc_bike_dec`.  `none` is an
error. -/
structure Kem where
  pkLen : Nat
  ctLen : Nat
  skLen : Nat
  pkOf : List Byte → List Byte
  keypair : List Byte → Option (List Byte)
  enc : List Byte → List Byte → Option (List Byte × List Byte)
  dec : List Byte → List Byte → Option (List Byte)

/-- `struct lc_kernel_bike_ctx`, `leancrypto_kernel_bike.c:32-37`. -/
structure Ctx where
  sk : List Byte
  ss : List Byte
  ct : List Byte
  ssSet : Bool
deriving DecidableEq, Repr

/-- `struct kpp_request`; `room` is the size of the destination. -/
structure Req where
  src : List Byte
  dstLen : Nat
  room : Nat

/-- The memory of a new handle is zero. -/
def start (k : Kem) : Ctx :=
  { sk := List.replicate k.skLen 0, ss := List.replicate 32 0, ct := List.replicate k.ctLen 0, ssSet := false }

/-- `lc_kernel_bike_set_secret`, `leancrypto_kernel_bike.c:39-65`; `-1` stands for an error of the
key generation. -/
def setSecret (k : Kem) (c : Ctx) (buffer rnd : List Byte) : Ctx × Int :=
  if buffer.length = 0 then
    match k.keypair rnd with
    | none => (c, -1)
    | some sk => ({ c with sk := sk }, 0)
  else if buffer.length ≠ k.skLen then (c, -22)
  else ({ c with sk := buffer }, 0)

/-- `lc_kernel_bike_gen_ct`, `leancrypto_kernel_bike.c:96-154`: context, return code, bytes written to
the destination. -/
def genCt (k : Kem) (c : Ctx) (r : Req) (rnd : List Byte) : Ctx × Int × List Byte :=
  if r.src.length ≠ k.pkLen then
    let out := (k.pkOf c.sk).take r.room
    (c, if out.length ≠ k.pkLen then -22 else 0, out)
  else match k.enc r.src rnd with
    | none => (c, -1, [])
    | some (ct, ss) =>
      let nbytes := min k.ctLen r.dstLen
      let out := (ct.take nbytes).take r.room
      ({ c with ct := ct, ss := ss, ssSet := true }, if out.length ≠ nbytes then -22 else 0, out)

/-- `lc_kernel_bike_ss_local`, `leancrypto_kernel_bike.c:156-213`: the key derivation is not compiled
in. -/
def ssLocal (k : Kem) (c : Ctx) (r : Req) : Ctx × Int × List Byte :=
  if !c.ssSet then (c, -95, [])
  else if r.dstLen ≠ 32 then (c, -22, [])
  else
    let out := (c.ss.take r.dstLen).take r.room
    ({ c with ss := List.replicate 32 0, ct := List.replicate k.ctLen 0, ssSet := false },
      if out.length ≠ r.dstLen then -22 else 0, out)

/-- `lc_kernel_bike_ss`, `leancrypto_kernel_bike.c:215-301`. -/
def ss (k : Kem) (c : Ctx) (r : Req) : Ctx × Int × List Byte :=
  if r.dstLen > 2 * 32 + 2 * 16 + 2 * 32 then (c, -75, [])
  else if r.dstLen = 0 then (c, -22, [])
  else if r.src.length = 0 then ssLocal k c r
  else if r.src.length ≠ k.ctLen then (c, -22, [])
  else if r.dstLen ≠ 32 then (c, -22, [])
  else match k.dec c.sk r.src with
    | none => (c, -1, [])
    | some s =>
      let out := (s.take r.dstLen).take r.room
      (c, if out.length ≠ r.dstLen then -22 else 0, out)

/-- Calls on a handle. -/
inductive Op where
  | setSecret (buffer rnd : List Byte)
  | genCt (r : Req) (rnd : List Byte)
  | ss (r : Req)

/-- One call. -/
def step (k : Kem) (c : Ctx) : Op → Ctx × Int × List Byte
  | .setSecret b rnd => ((setSecret k c b rnd).1, (setSecret k c b rnd).2, [])
  | .genCt r rnd => genCt k c r rnd
  | .ss r => ss k c r

/-- The handle after a sequence of calls. -/
def after (k : Kem) (ops : List Op) : Ctx := ops.foldl (fun c o => (step k c o).1) (start k)

end LC.Kernel.Bike
