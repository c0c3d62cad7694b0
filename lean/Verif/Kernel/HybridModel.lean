import Verif.Hash.Stream
/-
Model of the ML-KEM/X25519 hybrid of the kernel module,
`/repo/linux_kernel/leancrypto_kernel_kyber_x25519.c`.

The hybrid KEM is a parameter.  Keys and ciphertexts are the bytes of the ML-KEM part followed by those
of the X25519 part; the two copies made by the code for the parts are one.  Source scatterlists hold
`src_len` bytes, destinations `dst_len` bytes.  `kmalloc` succeeds.
-/
namespace LC.Kernel.Hybrid

/-- The functions of the library with the random number drawn: `lc_kyber_x25519_keypair` (public and
secret key), `lc_kyber_x25519_enc_kdf` (ciphertext and secret of the given length),
`lc_kyber_x25519_dec_kdf`.  `none` is an error. -/
structure Kem where
  pkLen : Nat
  ctLen : Nat
  skLen : Nat
  keypair : List Byte → Option (List Byte × List Byte)
  encKdf : Nat → List Byte → List Byte → Option (List Byte × List Byte)
  decKdf : Nat → List Byte → List Byte → Option (List Byte)

/-- `struct lc_kernel_kyber_x25519_ctx`, `leancrypto_kernel_kyber_x25519.c:40-47`. -/
structure Ctx where
  sk : List Byte
  pk : List Byte
  ct : List Byte
  ss : List Byte
  ssSet : Bool
  pubPresent : Bool
deriving DecidableEq, Repr

/-- `struct kpp_request`. -/
structure Req where
  src : List Byte
  dstLen : Nat

/-- `LC_KYBER_X25519_MAX_SS`, `leancrypto_kernel_kyber_x25519.c:38`. -/
def maxSs : Nat := 2 * 32 + 2 * 16 + 2 * 32

/-- The memory of a new handle is zero. -/
def start (k : Kem) : Ctx :=
  { sk := List.replicate k.skLen 0, pk := List.replicate k.pkLen 0, ct := List.replicate k.ctLen 0,
    ss := List.replicate maxSs 0, ssSet := false, pubPresent := false }

/-- `lc_kernel_kyber_x25519_set_secret`, `leancrypto_kernel_kyber_x25519.c:49-73`; `-1` stands for
an error of the key generation, which leaves the keys as they are. -/
def setSecret (k : Kem) (c : Ctx) (buffer rnd : List Byte) : Ctx × Int :=
  let c := { c with pubPresent := false }
  if buffer.length = 0 then
    match k.keypair rnd with
    | none => (c, -1)
    | some (pk, sk) => ({ c with pk := pk, sk := sk, pubPresent := true }, 0)
  else if buffer.length ≠ k.skLen then (c, -22)
  else ({ c with sk := buffer }, 0)

/-- `lc_kernel_kyber_x25519_gen_ct`, `leancrypto_kernel_kyber_x25519.c:107-195`: handle, return code,
bytes written to the destination. -/
def genCt (k : Kem) (c : Ctx) (r : Req) (rnd : List Byte) : Ctx × Int × List Byte :=
  if r.src.length ≠ k.pkLen then
    if !c.pubPresent then (c, -95, [])
    else
      let out := c.pk.take r.dstLen
      (c, if out.length ≠ k.pkLen then -22 else 0, out)
  else if r.dstLen < k.ctLen then (c, -75, [])
  else match k.encKdf maxSs r.src rnd with
    | none => (c, -1, [])
    | some (ct, ss) => ({ c with ct := ct, ss := ss, ssSet := true }, 0, ct.take r.dstLen)

/-- `lc_kernel_kyber_x25519_ss_local`, `leancrypto_kernel_kyber_x25519.c:197-229`. -/
def ssLocal (k : Kem) (c : Ctx) (r : Req) : Ctx × Int × List Byte :=
  if !c.ssSet then (c, -95, [])
  else
    let out := c.ss.take r.dstLen
    ({ c with ss := List.replicate r.dstLen 0 ++ c.ss.drop r.dstLen, ct := List.replicate k.ctLen 0,
              ssSet := false },
      if out.length ≠ r.dstLen then -22 else 0, out)

/-- `lc_kernel_kyber_x25519_ss`, `leancrypto_kernel_kyber_x25519.c:231-300`. -/
def ss (k : Kem) (c : Ctx) (r : Req) : Ctx × Int × List Byte :=
  if r.dstLen > maxSs then (c, -75, [])
  else if r.dstLen = 0 then (c, -22, [])
  else if r.src.length = 0 then ssLocal k c r
  else if r.src.length ≠ k.ctLen then (c, -22, [])
  else match k.decKdf maxSs c.sk r.src with
    | none => (c, -1, [])
    | some s => (c, if (s.take r.dstLen).length ≠ r.dstLen then -22 else 0, s.take r.dstLen)

/-- `lc_kernel_kyber_x25519_max_size`, `leancrypto_kernel_kyber_x25519.c:302-305`. -/
def maxSize (k : Kem) : Nat := k.ctLen

/-- Calls on a handle. -/
inductive Op where
  | setSecret (buffer rnd : List Byte)
  | genCt (r : Req) (rnd : List Byte)
  | ss (r : Req)

/-- One call. -/
def step (k : Kem) (c : Ctx) : Op → Ctx × Int × List Byte
  | .setSecret b rnd => ((setSecret k c b rnd).1, (setSecret k c b rnd).2, [])
  | .genCt r rnd => genCt k c r rnd
  | .ss r => ss k c r

/-- The handle after a sequence of calls. -/
def after (k : Kem) (ops : List Op) : Ctx := ops.foldl (fun c o => (step k c o).1) (start k)

end LC.Kernel.Hybrid
