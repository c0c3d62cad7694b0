import Verif.Dilithium.Ctx
import Verif.Curve.Eddsa
/-!
# ML-DSA combined with Ed25519 (composite signatures)

Model of `ml-dsa/src/dilithium_ed25519_signature.c`.  The ML-DSA part is the model of
`Verif/Dilithium/Ctx.lean`, the Ed25519 part that of `Verif/Curve/Eddsa.lean`.  SHA-512 of Ed25519 is
the parameter `H`; `PH` gives the 64 byte digests of the hashes that can be selected for the message.
Not modelled: NULL checks, failing random number generators, the clearing of buffers.
-/
namespace LC.Hybrid.Comp
open LC.Dilithium (Params Env Ctx Op)
open LC.DomSep (Hash)

abbrev Byte := UInt8

/-- A key or signature: the ML-DSA part and the Ed25519 part. -/
structure Pair where
  d : List Byte
  e : List Byte
deriving DecidableEq

/-- `struct lc_dilithium_ed25519_ctx`, `lc_dilithium_size.h.in:688-690`.  `alg` is the algorithm the
message hash context is set up for. -/
structure CCtx where
  c : Ctx
  alg : Hash

/-- What a call returns.  `wrongHash`: ML-DSA would run with a message hash that is not SHAKE256; what it
computes then is not modelled.  `ub` are the outcomes of ML-DSA that are undefined behaviour. -/
inductive Out
  | ret (r : Int)
  | sig (s : Pair)
  | ub (o : Dilithium.Out)
  | wrongHash
deriving DecidableEq

/-- `lc_dilithium_ed25519_keypair`, `dilithium_ed25519_signature.c:134-149`, from the 32 random bytes for
each part. -/
def keypair (p : Params) (e : Env) (fuel : Nat) (H : List Byte → List Byte) (seedD seedE : List Byte) : Option (Pair × Pair) :=
  (Dilithium.keypair p e fuel seedD).map fun k => (⟨k.1, (Curve.Eddsa.keypair H seedE).1⟩, ⟨k.2, (Curve.Eddsa.keypair H seedE).2⟩)

/-- The domain separation of Ed25519, `ed25519.c:194-199, 220-225`: return code and bytes.  The category
in the context is that of the mode, because it is always written before (lines 165, 321). -/
def edDom (p : Params) (c : Ctx) : Int × List Byte :=
  if c.composite then DomSep.composite p.category c.userctx else (0, [])

/-- `lc_ed25519_sign_ctx`, `ed25519.c:269-276`. -/
def edSign (p : Params) (H : List Byte → List Byte) (c : Ctx) (rnd : Option (List Byte)) (m sk : List Byte) : Option (Except Int (List Byte)) :=
  if (edDom p c).1 ≠ 0 then some (.error (edDom p c).1)
  else (Curve.Eddsa.sign H false rnd (edDom p c).2 m sk).map .ok

/-- `lc_ed25519_verify_ctx`, `ed25519.c:431-437`.  The only error of the domain separation in the modes of
the library is `-EINVAL`, which is also what the checks in front of it return. -/
def edVerify (p : Params) (H : List Byte → List Byte) (c : Ctx) (m pk sig : List Byte) : Option Int :=
  if (edDom p c).1 ≠ 0 then some (edDom p c).1
  else Curve.Eddsa.verify H false (edDom p c).2 m pk sig

/-- `rete | retd` for two values of type `int`. -/
def orInt (a b : Int) : Int := (BitVec.ofInt 32 a ||| BitVec.ofInt 32 b).toInt

/-- `lc_dilithium_ed25519_verify_check`, `dilithium_ed25519_signature.c:298-306`. -/
def check (retd rete : Int) : Int :=
  if rete = -74 ∨ retd = -74 then -74
  else if rete = -22 ∨ retd = -22 then -22
  else orInt rete retd

/-- `lc_dilithium_ed25519_sign_ctx`, `dilithium_ed25519_signature.c:151-175`; `rndD`, `rndE` are the random
bytes for the two parts. -/
def signCtx (p : Params) (e : Env) (fuel : Nat) (H : List Byte → List Byte) (s : CCtx) (sk : Pair) (m rndD : List Byte)
    (rndE : Option (List Byte)) : Option (Out × CCtx) :=
  if s.alg ≠ .shake256 then some (.wrongHash, s)
  else
    (Dilithium.step e fuel { s.c with composite := true } (.sign p sk.d m rndD)).bind fun r =>
      match r.1 with
      | .sig sd =>
        (edSign p H r.2 rndE m sk.e).map fun x =>
          match x with
          | .error er => (.ret er, ⟨r.2, s.alg⟩)
          | .ok se => (.sig ⟨sd, se⟩, ⟨r.2, s.alg⟩)
      | .ret er => some (.ret er, ⟨r.2, s.alg⟩)
      | o => some (.ub o, ⟨r.2, s.alg⟩)

/-- `lc_dilithium_ed25519_verify_ctx`, `dilithium_ed25519_signature.c:308-331`. -/
def verifyCtx (p : Params) (e : Env) (fuel : Nat) (H : List Byte → List Byte) (s : CCtx) (pk : Pair) (m : List Byte) (sig : Pair) :
    Option (Out × CCtx) :=
  if s.alg ≠ .shake256 then some (.wrongHash, s)
  else
    (Dilithium.step e fuel { s.c with composite := true } (.verify p pk.d m sig.d)).bind fun r =>
      match r.1 with
      | .ret retd => (edVerify p H r.2 m pk.e sig.e).map fun rete => (.ret (check retd rete), ⟨r.2, s.alg⟩)
      | o => some (.ub o, ⟨r.2, s.alg⟩)

/-- `lc_dilithium_ed25519_common_init`, `dilithium_ed25519_signature.c:189-224`. -/
def init (s : CCtx) : Int × CCtx :=
  match s.c.prehash with
  | none => (0, { s with c := { s.c with prehash := some .shake256, hashed := [] } })
  | some h =>
    if h ≠ .shake256 ∧ h ≠ .sha3_512 ∧ h ≠ .sha512 then (DomSep.EOPNOTSUPP, s)
    else (0, ⟨{ s.c with hashed := [] }, h⟩)

/-- `lc_dilithium_ed25519_sign_update`, `dilithium_ed25519_signature.c:235-251`. -/
def update (s : CCtx) (m : List Byte) : CCtx := { s with c := { s.c with hashed := s.c.hashed ++ m } }

/-- The object identifier of the mode in `dilithium_ed25519_signature.c:66-118`. -/
def oid (p : Params) : List Byte := (DomSep.compDomain p.category).getD []

/-- `composite_hash_signature_domain_separation`, `dilithium_ed25519_signature.c:40-132`: return code and
context. -/
def hashDom (p : Params) (PH : Hash → List Byte → List Byte) (s : CCtx) : Int × CCtx :=
  if s.c.userctx.length > 255 then (DomSep.EINVAL, s)
  else
    let digest := PH s.alg s.c.hashed
    let o := DomSep.phOids p.category s.c.prehash
    let h := oid p ++ [UInt8.ofNat s.c.userctx.length] ++ s.c.userctx ++ o.2
    if o.1 ≠ 0 then (o.1, { s with c := { s.c with hashed := h } })
    else (0, { s with c := { s.c with hashed := h ++ digest, userctx := oid p, prehash := none } })

/-- `lc_dilithium_ed25519_sign_final`, `dilithium_ed25519_signature.c:253-296`. -/
def signFinal (p : Params) (e : Env) (fuel : Nat) (H : List Byte → List Byte) (PH : Hash → List Byte → List Byte) (s : CCtx) (sk : Pair)
    (rndD : List Byte) (rndE : Option (List Byte)) : Option (Out × CCtx) :=
  let d := hashDom p PH s
  if d.1 ≠ 0 then some (.ret d.1, d.2)
  else
    let m := PH d.2.alg d.2.c.hashed
    (Dilithium.step e fuel { d.2.c with hashed := [] } (.sign p sk.d m rndD)).bind fun r =>
      match r.1 with
      | .sig sd => (Curve.Eddsa.sign H false rndE [] m sk.e).map fun se => (.sig ⟨sd, se⟩, ⟨{ r.2 with userctx := [] }, .shake256⟩)
      | .ret er => some (.ret er, ⟨r.2, .shake256⟩)
      | o => some (.ub o, ⟨r.2, .shake256⟩)

/-- `lc_dilithium_ed25519_verify_final`, `dilithium_ed25519_signature.c:361-403`. -/
def verifyFinal (p : Params) (e : Env) (fuel : Nat) (H : List Byte → List Byte) (PH : Hash → List Byte → List Byte) (s : CCtx) (pk sig : Pair) :
    Option (Out × CCtx) :=
  let d := hashDom p PH s
  if d.1 ≠ 0 then some (.ret d.1, d.2)
  else
    let m := PH d.2.alg d.2.c.hashed
    (Dilithium.step e fuel { d.2.c with hashed := [] } (.verify p pk.d m sig.d)).bind fun r =>
      match r.1 with
      | .ret retd => (Curve.Eddsa.verify H false [] m pk.e sig.e).map fun rete => (.ret (check retd rete), ⟨{ r.2 with userctx := [] }, .shake256⟩)
      | o => some (.ub o, ⟨r.2, .shake256⟩)

/-- init, updates with the given chunks, final: what the last call that was made returns. -/
def signStream (p : Params) (e : Env) (fuel : Nat) (H : List Byte → List Byte) (PH : Hash → List Byte → List Byte) (s : CCtx) (sk : Pair)
    (ms : List (List Byte)) (rndD : List Byte) (rndE : Option (List Byte)) : Option (Out × CCtx) :=
  if (init s).1 ≠ 0 then some (.ret (init s).1, (init s).2)
  else signFinal p e fuel H PH (ms.foldl update (init s).2) sk rndD rndE

def verifyStream (p : Params) (e : Env) (fuel : Nat) (H : List Byte → List Byte) (PH : Hash → List Byte → List Byte) (s : CCtx) (pk : Pair)
    (ms : List (List Byte)) (sig : Pair) : Option (Out × CCtx) :=
  if (init s).1 ≠ 0 then some (.ret (init s).1, (init s).2)
  else verifyFinal p e fuel H PH (ms.foldl update (init s).2) pk sig

end LC.Hybrid.Comp
