import Verif.Hash.Stream
/-
Model of the signature interfaces of the kernel module,
`/repo/linux_kernel/leancrypto_kernel_dilithium.c` (ML-DSA) and
`/repo/linux_kernel/leancrypto_kernel_sphincs.c` (SLH-DSA), which differ in the key sizes and in the
way the type of a key is chosen.

The signature scheme (init, update, final) is a parameter.  A scatterlist is the list of its
segments; `sg_miter_next` gives them one after the other.  The functions of the Linux kernel are not
part of the repository and are modelled after their documentation.  `kmalloc` succeeds, the functions
`*_init` and `*_update` return 0, all parameter sets are compiled in.  Requests using one handle at
the same time are not modelled.
-/
namespace LC.Kernel.Sig

/-- Functions of the library: `lc_*_sign_init`, `lc_*_verify_init` with type and key,
`lc_*_sign_update`/`lc_*_verify_update`, `lc_*_sign_final` with the random number drawn,
`lc_*_verify_final`. -/
structure Scheme (S : Type) where
  sinit : Nat → List Byte → S
  vinit : Nat → List Byte → S
  upd : S → List Byte → S
  sfinal : Nat → List Byte → S → List Byte → List Byte
  vfinal : Nat → List Byte → S → List Byte → Int

/-- What a family of algorithms gives to the common code: the type by the length of a public and of a
secret key (`lc_*_pk_load`, `lc_*_sk_load`), the length of a signature, and the type used for
a loaded type, by algorithm, or the error. -/
structure Fam where
  pkTy : Nat → Option Nat
  skTy : Nat → Option Nat
  sigLen : Nat → Nat
  accPk : Nat → Except Int Nat
  accSk : Nat → Except Int Nat

/-- `lc_dilithium_pk_load`, `ml-dsa/src/dilithium_api.c:269-301`; types 1, 2, 3 are ML-DSA-87, -65,
-44, `ml-dsa/api/lc_dilithium.h:54-63`. -/
def mldsaPkTy (n : Nat) : Option Nat :=
  if n = 2592 then some 1 else if n = 1952 then some 2 else if n = 1312 then some 3 else none

/-- `lc_dilithium_sk_load`, `ml-dsa/src/dilithium_api.c:235-267`. -/
def mldsaSkTy (n : Nat) : Option Nat :=
  if n = 4896 then some 1 else if n = 4032 then some 2 else if n = 2560 then some 3 else none

/-- `lc_dilithium_sig_size`. -/
def mldsaSig (t : Nat) : Nat :=
  if t = 1 then 4627 else if t = 2 then 3309 else if t = 3 then 2420 else 0

/-- `leancrypto_kernel_dilithium.c:200-209,246-253`: types other than the one of the algorithm are
refused with `-EOPNOTSUPP`. -/
def mldsaAcc (type t : Nat) : Except Int Nat := if t ≠ type then .error (-95) else .ok t

/-- The ML-DSA algorithm with the given type. -/
def mldsa (type : Nat) : Fam where
  pkTy := mldsaPkTy
  skTy := mldsaSkTy
  sigLen := mldsaSig
  accPk := mldsaAcc type
  accSk := mldsaAcc type

/-- `lc_sphincs_pk_load`, `slh-dsa/src/sphincs_api.c:396-452`; types 1 to 6 are 256s, 256f, 192s,
192f, 128s, 128f, `slh-dsa/api/lc_sphincs.h:66-80`. -/
def slhPkTy (n : Nat) : Option Nat :=
  if n = 64 then some 1 else if n = 64 then some 2
  else if n = 48 then some 3 else if n = 48 then some 4
  else if n = 32 then some 5 else if n = 32 then some 6 else none

/-- `lc_sphincs_sk_load`, `slh-dsa/src/sphincs_api.c:276-332`. -/
def slhSkTy (n : Nat) : Option Nat :=
  if n = 128 then some 1 else if n = 128 then some 2
  else if n = 96 then some 3 else if n = 96 then some 4
  else if n = 64 then some 5 else if n = 64 then some 6 else none

/-- `lc_sphincs_sig_size`, `slh-dsa/src/sphincs_api.c:224-256`. -/
def slhSig (t : Nat) : Nat :=
  if t = 1 then 29792 else if t = 2 then 49856 else if t = 3 then 16224
  else if t = 4 then 35664 else if t = 5 then 7856 else if t = 6 then 17088 else 0

/-- `lc_sphincs_pk_set_keytype_fast`, `lc_sphincs_sk_set_keytype_fast`,
`slh-dsa/src/sphincs_api.c:334-363,454-483`. -/
def setFast (t : Nat) : Except Int Nat :=
  if t = 1 then .ok 2 else if t = 2 then .ok 2
  else if t = 3 then .ok 4 else if t = 4 then .ok 4
  else if t = 5 then .ok 6 else if t = 6 then .ok 6 else .error (-22)

/-- `lc_sphincs_pk_set_keytype_small`, `lc_sphincs_sk_set_keytype_small`,
`slh-dsa/src/sphincs_api.c:365-394,485-514`. -/
def setSmall (t : Nat) : Except Int Nat :=
  if t = 1 then .ok 1 else if t = 2 then .ok 1
  else if t = 3 then .ok 3 else if t = 4 then .ok 3
  else if t = 5 then .ok 5 else if t = 6 then .ok 5 else .error (-22)

/-- `leancrypto_kernel_sphincs.c:209-227,295-313`. -/
def slhAcc (type type2 : Nat) (fast : Bool) (t : Nat) : Except Int Nat :=
  if t ≠ type ∧ t ≠ type2 then .error (-95)
  else if fast then setFast t else setSmall t

/-- The SLH-DSA algorithm with the given type, `leancrypto_kernel_sphincs.c:232-284,318-371`; the
function for the secret key of 256s passes its own type twice. -/
def slhdsa (type : Nat) : Fam where
  pkTy := slhPkTy
  skTy := slhSkTy
  sigLen := slhSig
  accPk := if type % 2 = 0 then slhAcc type (type - 1) true else slhAcc type (type + 1) false
  accSk := if type % 2 = 0 then slhAcc type (type - 1) true
    else if type = 1 then slhAcc 1 1 false else slhAcc type (type + 1) false

/-- `struct lc_kernel_dilithium_ctx`, `leancrypto_kernel_dilithium.c:33-45`, and
`struct lc_kernel_sphincs_ctx`, `leancrypto_kernel_sphincs.c:33-45`: `kt` is 0 (unset), 1 (secret
key), 2 (public key); type and bytes of the key are the content of the union. -/
structure Ctx where
  kt : Nat := 0
  ty : Nat := 0
  key : List Byte := []
deriving DecidableEq, Repr

/-- `struct akcipher_request`: source segments, `src_len`, `dst_len`.  The destination has `dst_len`
bytes. -/
structure Req where
  src : List (List Byte)
  srcLen : Nat
  dstLen : Nat
deriving DecidableEq, Repr

/-- `lc_kernel_dilithium_set_pub_key_int`, `leancrypto_kernel_dilithium.c:190-210`;
`lc_kernel_sphincs_set_pub_key_int`, `leancrypto_kernel_sphincs.c:200-230`. -/
def setPub (f : Fam) (c : Ctx) (key : List Byte) : Ctx × Int :=
  let c := { c with kt := 0 }
  match f.pkTy key.length with
  | none => (c, -22)
  | some t =>
    let c := { c with ty := t, key := key }
    match f.accPk t with
    | .error e => (c, e)
    | .ok t => ({ c with ty := t, kt := 2 }, 0)

/-- `lc_kernel_dilithium_set_priv_key_int`, `leancrypto_kernel_dilithium.c:236-256`;
`lc_kernel_sphincs_set_priv_key_int`, `leancrypto_kernel_sphincs.c:286-316`. -/
def setPriv (f : Fam) (c : Ctx) (key : List Byte) : Ctx × Int :=
  let c := { c with kt := 0 }
  match f.skTy key.length with
  | none => (c, -22)
  | some t =>
    let c := { c with ty := t, key := key }
    match f.accSk t with
    | .error e => (c, e)
    | .ok t => ({ c with ty := t, kt := 1 }, 0)

/-- The loops over the mapped segments, `leancrypto_kernel_dilithium.c:78-85,168-176`,
`leancrypto_kernel_sphincs.c:89-97,178-186`; `n` is `src_len - offset`. -/
def feed {S : Type} (upd : S → List Byte → S) : S → List (List Byte) → Nat → S
  | s, [], _ => s
  | s, seg :: rest, n =>
    if n = 0 then s
    else feed upd (upd s (seg.take (min seg.length n))) rest (n - min seg.length n)

/-- `scatterwalk_ffwd`: the segments after the first `n` bytes. -/
def ffwd : List (List Byte) → Nat → List (List Byte)
  | [], _ => []
  | seg :: rest, n => if n < seg.length then seg.drop n :: rest else ffwd rest (n - seg.length)

/-- `lc_kernel_dilithium_sign`, `leancrypto_kernel_dilithium.c:47-109`; `lc_kernel_sphincs_sign`,
`leancrypto_kernel_sphincs.c:47-120`: code and bytes written.  `rnd` is the random number drawn. -/
def sign {S : Type} (a : Scheme S) (f : Fam) (c : Ctx) (r : Req) (rnd : List Byte) : Int × List Byte :=
  if c.kt ≠ 1 then (-22, [])
  else if r.dstLen ≠ f.sigLen c.ty then (-22, [])
  else (0, a.sfinal c.ty c.key (feed a.upd (a.sinit c.ty c.key) r.src r.srcLen) rnd)

/-- `lc_kernel_dilithium_verify`, `leancrypto_kernel_dilithium.c:111-188`;
`lc_kernel_sphincs_verify`, `leancrypto_kernel_sphincs.c:122-198`. -/
def verify {S : Type} (a : Scheme S) (f : Fam) (c : Ctx) (r : Req) : Int :=
  if c.kt ≠ 2 then -22
  else if r.srcLen < f.sigLen c.ty then -22
  else
    let sig := r.src.flatten.take (f.sigLen c.ty)
    let msg := ffwd r.src (f.sigLen c.ty)
    let msgLen := r.srcLen - f.sigLen c.ty
    a.vfinal c.ty c.key (feed a.upd (a.vinit c.ty c.key) msg msgLen) sig

/-- `lc_kernel_dilithium_max_size`, `leancrypto_kernel_dilithium.c:282-299`;
`lc_kernel_sphincs_max_size`, `leancrypto_kernel_sphincs.c:373-390`. -/
def maxSize (f : Fam) (c : Ctx) : Nat :=
  if c.kt = 1 then f.sigLen c.ty else if c.kt = 2 then f.sigLen c.ty else 0

/-- Calls on a handle. -/
inductive Op where
  | setPub (key : List Byte)
  | setPriv (key : List Byte)
  | sign (r : Req) (rnd : List Byte)
  | verify (r : Req)
  | maxSize
deriving Repr

/-- One call: the new handle, the code returned and the bytes written. -/
def step {S : Type} (a : Scheme S) (f : Fam) (c : Ctx) : Op → Ctx × Int × List Byte
  | .setPub k => ((setPub f c k).1, (setPub f c k).2, [])
  | .setPriv k => ((setPriv f c k).1, (setPriv f c k).2, [])
  | .sign r rnd => (c, sign a f c r rnd)
  | .verify r => (c, verify a f c r, [])
  | .maxSize => (c, (maxSize f c : Nat), [])

/-- A sequence of calls: what each of them returns. -/
def run {S : Type} (a : Scheme S) (f : Fam) : Ctx → List Op → List (Int × List Byte)
  | _, [] => []
  | c, o :: os => (step a f c o).2 :: run a f (step a f c o).1 os

end LC.Kernel.Sig
