/-!
Message encoding in front of the message hash of ML-DSA and SLH-DSA
(/repo/internal/src/signature_domain_separation.c).
-/
namespace LC.DomSep

abbrev Byte := UInt8

/-- The hash a caller selects with lc_dilithium_ctx_hash / lc_sphincs_ctx_hash: a pointer that the code compares
with the eight known algorithms; `other n` stands for any other algorithm of the library. -/
inductive Hash
  | sha256 | sha384 | sha512 | sha3_256 | sha3_384 | sha3_512 | shake128 | shake256 | other (n : Nat)
  deriving DecidableEq, Repr

/-- /repo/internal/src/signature_domain_separation.c:26-52, the constants `*_oid_der`. -/
def oidDer (last : Byte) : List Byte := [0x06, 0x09, 0x60, 0x86, 0x48, 0x01, 0x65, 0x03, 0x04, 0x02, last]

def EINVAL : Int := -22
def EOPNOTSUPP : Int := -95

/-- /repo/internal/src/signature_domain_separation.c:119-151, from `case 5` on: return value and bytes hashed. -/
def phCat5 (h : Hash) : Int × List Byte :=
  if h = .sha512 then (0, oidDer 0x03)
  else if h = .sha3_512 then (0, oidDer 0x0a)
  else if h = .shake256 then (0, oidDer 0x0c)
  else (EOPNOTSUPP, [])

/-- /repo/internal/src/signature_domain_separation.c:102-118, from `case 3` on, falling through. -/
def phCat3 (h : Hash) : Int × List Byte :=
  if h = .sha3_384 then (0, oidDer 0x09)
  else if h = .sha384 then (0, oidDer 0x02)
  else phCat5 h

/-- /repo/internal/src/signature_domain_separation.c:79-101, from `case 1` on, falling through. -/
def phCat1 (h : Hash) : Int × List Byte :=
  if h = .sha256 then (0, oidDer 0x01)
  else if h = .sha3_256 then (0, oidDer 0x08)
  else if h = .shake128 then (0, oidDer 0x0b)
  else phCat3 h

/-- /repo/internal/src/signature_domain_separation.c:54-152, `signature_ph_oids`. -/
def phOids (cat : Nat) (ph : Option Hash) : Int × List Byte :=
  match ph with
  | none => (0, [])
  | some h =>
    if cat = 1 then phCat1 h
    else if cat = 3 then phCat3 h
    else if cat = 5 then phCat5 h
    else (EOPNOTSUPP, [])

/-- /repo/internal/api/signature_domain_separation.h:33-48, the composite OIDs. -/
def compOid (last : Byte) : List Byte :=
  [0x06, 0x0b, 0x60, 0x86, 0x48, 0x01, 0x86, 0xfa, 0x6b, 0x50, 0x08, 0x01, last]

/-- /repo/internal/src/signature_domain_separation.c:166-183, the domain of a category; none is the default case. -/
def compDomain (cat : Nat) : Option (List Byte) :=
  if cat = 1 then some (compOid 0x2a)
  else if cat = 3 then some (compOid 0x32)
  else if cat = 5 then some (compOid 0x35)
  else none

/-- /repo/internal/src/signature_domain_separation.c:154-192, `composite_signature_domain_separation`: the length
byte is the first byte of the `size_t`, which is its low byte on a little endian machine (big endian machines are
not modelled). -/
def composite (cat : Nat) (ctx : List Byte) : Int × List Byte :=
  if ctx.length > 255 then (EINVAL, [])
  else
    match compDomain cat with
    | none => (EOPNOTSUPP, [])
    | some d => (0, d ++ [UInt8.ofNat ctx.length] ++ ctx)

/-- What a caller sets in the context, and the message. -/
structure Req where
  internal : Bool
  prehash : Option Hash
  ctx : List Byte
  composite : Bool
  m : List Byte
  deriving DecidableEq, Repr

/-- /repo/internal/src/signature_domain_separation.c:212-219: header, context and OID; `ret` of signature_ph_oids. -/
def head (cat : Nat) (r : Req) : Int × List Byte :=
  let o := phOids cat r.prehash
  (o.1, [(if r.prehash.isSome then 1 else 0), UInt8.ofNat r.ctx.length] ++ r.ctx ++ o.2)

/-- /repo/internal/src/signature_domain_separation.c:221-229, from the label `out` on with the return code and the
bytes hashed so far: the composite part overwrites the return code. -/
def out (cat : Nat) (r : Req) (s : Int × List Byte) : Int × List Byte :=
  if r.composite then
    let c := composite cat r.ctx
    (c.1, s.2 ++ c.2 ++ r.m)
  else (s.1, s.2 ++ r.m)

/-- /repo/internal/src/signature_domain_separation.c:194-230, `signature_domain_separation`: return value and the
bytes given to the message hash. -/
def domSep (cat : Nat) (r : Req) : Int × List Byte :=
  if r.internal then out cat r (0, [])
  else if r.ctx.length > 255 then (EINVAL, [])
  else out cat r (head cat r)

end LC.DomSep
