import Verif.Hash.Stream
import Verif.Kmac.Model
/-
Model of the hashes and of KMAC registered with the Linux kernel crypto API:
`/repo/linux_kernel/leancrypto_kernel_sha3.c`, `leancrypto_kernel_ascon.c` and
`leancrypto_kernel_kmac.c`.

The kernel gives each running hash a descriptor, here a number, with memory for
`struct lc_hash_ctx` and the state.  None of the algorithms has the callbacks `export` and `import`,
so the kernel copies the memory of the descriptor (`shash_default_export` and
`shash_default_import`, modelled after their documentation).  The position of the state within the
memory, which depends on alignment, and algorithms other than those registered in the files above
are not modelled.
-/
namespace LC.Kernel

/-- The memory of a descriptor: `hash_ctx->hash_state`, given as the descriptor whose memory it
points into, and the state. -/
structure Desc (S : StreamHash) where
  ptr : Nat
  st : S.Ctx

/-- Descriptors and buffers for exported states. -/
structure World (S : StreamHash) where
  desc : Nat → Desc S
  buf : Nat → Desc S

/-- Calls of `crypto_shash_*` for descriptor `d` and buffer `b`. -/
inductive Op where
  | init (d : Nat)
  | update (d : Nat) (x : List Byte)
  | final (d : Nat)
  | export (d b : Nat)
  | import (d b : Nat)

def set {α : Type} (f : Nat → α) (i : Nat) (v : α) : Nat → α := fun j => if j = i then v else f j

variable {S : StreamHash}

/-- `LC_HASH_SET_CTX` (`hash/api/lc_hash.h.in:99-104`) followed by `lc_hash_init`, as in
`lc_kernel_sha3_256_init`, `leancrypto_kernel_sha3.c:40-48`, and `lc_kernel_ascon_256_init`,
`leancrypto_kernel_ascon.c:30-38`. -/
def initD (w : World S) (d : Nat) : World S :=
  { w with desc := set w.desc d { ptr := d, st := S.init (w.desc d).st } }

/-- `lc_kernel_sha3_update`, `leancrypto_kernel_sha3.c:70-78`: the state the pointer leads to. -/
def updateD (w : World S) (d : Nat) (x : List Byte) : World S :=
  let p := (w.desc d).ptr
  { w with desc := set w.desc p { w.desc p with st := S.update (w.desc p).st x } }

/-- `lc_kernel_sha3_final`, `leancrypto_kernel_sha3.c:80-87`. -/
def finalD (w : World S) (d : Nat) : World S × List Byte :=
  let p := (w.desc d).ptr
  let r := S.final (w.desc p).st
  ({ w with desc := set w.desc p { w.desc p with st := r.1 } }, r.2)

/-- A call: the memory afterwards and the digest, if any. -/
def step (w : World S) : Op → World S × Option (List Byte)
  | .init d => (initD w d, none)
  | .update d x => (updateD w d x, none)
  | .final d => ((finalD w d).1, some (finalD w d).2)
  | .export d b => ({ w with buf := set w.buf b (w.desc d) }, none)
  | .import d b => ({ w with desc := set w.desc d (w.buf b) }, none)

/-- The digests returned by a sequence of calls. -/
def run (w : World S) : List Op → List (List Byte)
  | [] => []
  | o :: os => ((step w o).2.toList) ++ run (step w o).1 os

/-! ### KMAC -/

/-- The handle with the keyed context and the descriptors. -/
structure KWorld where
  tfm : Kmac.Ctx
  desc : Nat → Kmac.Ctx

inductive KOp where
  | setkey (k : List Byte)
  | init (d : Nat)
  | update (d : Nat) (x : List Byte)
  | final (d : Nat)

/-- `lc_kernel_kmac256_setkey`, `leancrypto_kernel_kmac.c:52-62`. -/
def kSetkey (perm : List Byte → List Byte) (w : KWorld) (k : List Byte) : KWorld :=
  { w with tfm := Kmac.init perm 136 false k [] }

/-- `lc_kernel_kmac256_init_alg`, `leancrypto_kernel_kmac.c:33-50`: a context without a copy for
`lc_kmac_reinit`, its hash state overwritten with the one of the handle. -/
def kInit (w : KWorld) (d : Nat) : KWorld :=
  { w with desc := set w.desc d { hash := w.tfm.hash, shadow := none, finalCalled := false } }

/-- A call for the algorithm with digest size `L`; `xof` for `kmac256xof`
(`leancrypto_kernel_kmac.c:64-92`, `94-208`). -/
def kStep (perm : List Byte → List Byte) (xof : Bool) (L : Nat) (w : KWorld) :
    KOp → KWorld × Option (List Byte)
  | .setkey k => (kSetkey perm w k, none)
  | .init d => (kInit w d, none)
  | .update d x => ({ w with desc := set w.desc d (Kmac.update perm (w.desc d) x) }, none)
  | .final d =>
    let r := if xof then Kmac.finalXof perm (w.desc d) L else Kmac.final perm (w.desc d) L
    ({ w with desc := set w.desc d r.1 }, r.2)

def kRun (perm : List Byte → List Byte) (xof : Bool) (L : Nat) (w : KWorld) : List KOp → List (List Byte)
  | [] => []
  | o :: os => ((kStep perm xof L w o).2.toList) ++ kRun perm xof L (kStep perm xof L w o).1 os

end LC.Kernel
