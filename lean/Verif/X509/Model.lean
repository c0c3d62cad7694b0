/-
Model of certificates, key identifiers, signature dispatch and certificate policy:
`/repo/asn1/src/asymmetric_type.c`, `public_key.c`, `x509_policies.c`, `x509_public_key.c` and the
extension actions of `x509_cert_parser.c`.

Pointers that may be NULL are `Option`s.  The cryptographic signature check is a parameter.
-/
namespace LC.X509

abbrev Bytes := List UInt8

/-! Error codes (Linux values where the platform defines them). -/
def EINVAL : Int := 22
def EFAULT : Int := 14
def EBADMSG : Int := 74
def EOVERFLOW : Int := 75
def EOPNOTSUPP : Int := 95
def ENOPKG : Int := 65
def ENOKEY : Int := 126
def EKEYREJECTED : Int := 129
def ENODATA : Int := 61

/-- `struct lc_asymmetric_key_id`, `lc_x509_common.h:70-75`.  `data` is the 192 byte array. -/
structure Kid where
  len : Nat
  data : Bytes
deriving DecidableEq, Repr

/-- Size of `data`. -/
def kidMax : Nat := 192

/-- The zero initialised identifier. -/
def Kid.zero : Kid := ⟨0, List.replicate kidMax 0⟩

/-- The identifier proper. -/
def Kid.value (k : Kid) : Bytes := k.data.take k.len

/-- `asymmetric_key_generate_id`, `asymmetric_type.c:43-62`, on an identifier whose data array is
zero initialised. -/
def generateId (val1 val2 : Bytes) : Except Int Kid :=
  if val1.length + val2.length > kidMax then .error (-EOVERFLOW)
  else .ok ⟨val1.length + val2.length,
    val1 ++ val2 ++ List.replicate (kidMax - (val1.length + val2.length)) 0⟩

/-- `asymmetric_key_id_same`, `asymmetric_type.c:69-76`: both lengths passed to
`lc_memcmp_secure` are `kid2->len`. -/
def idSame (kid1 kid2 : Kid) : Bool := kid1.data.take kid2.len == kid2.data.take kid2.len

/-- `asymmetric_key_id_partial`, `asymmetric_type.c:84-93`. -/
def idPartial (kid1 kid2 : Kid) : Bool :=
  if kid1.len < kid2.len then false
  else (kid1.data.drop (kid1.len - kid2.len)).take kid2.len == kid2.data.take kid2.len

/-- `struct lc_public_key` (the fields used by the modelled code), `lc_x509_common.h:123-170`. -/
structure PubKey where
  key : Bytes
  algo : Nat
  keyUsage : UInt16 := 0
  keyEku : UInt16 := 0
  caPathlen : UInt8 := 0
deriving DecidableEq, Repr

/-- `struct lc_public_key_signature`, `lc_x509_common.h:175-211`; an empty `digest` is
`digest_size == 0`. -/
structure Sig where
  s : Option Bytes
  algo : Nat
  hash : Option Nat := none
  digest : Bytes := []
  raw : Option Bytes := none
  auth0 : Kid := Kid.zero
  auth1 : Kid := Kid.zero
deriving DecidableEq, Repr

/-- `struct lc_x509_certificate` (the fields used by the modelled code),
`lc_x509_common.h:240-294`.  `rawSkid = []` is the absent identifier (`x509_skid` refuses empty
ones, `x509_cert_parser.c:773`). -/
structure Cert where
  pub : PubKey
  sig : Sig
  id : Kid
  skid : Kid := Kid.zero
  rawSubject : Option Bytes := none
  rawIssuer : Option Bytes := none
  sanDns : Option Bytes := none
  sanIp : Option Bytes := none
  rawSkid : Bytes := []
  rawAkid : Option Bytes := none
  validFrom : Int := 0
  validTo : Int := 0
  version : Nat := 3
  selfSigned : Bool := false
  unsupportedSig : Bool := false
  blacklisted : Bool := false
deriving DecidableEq, Repr

/-! ### Signature check -/

/-- Signature types, `lc_x509_common.h:70-115`, reduced to the classes the code distinguishes:
0 is `LC_SIG_UNKNOWN`; `supported` are the ML-DSA, composite and SLH-DSA types. -/
structure Crypto where
  /-- types handled by the `switch` of `public_key_verify_signature` -/
  supported : Nat → Bool
  /-- `lc_x509_sig_check_hash` -/
  checkHash : Nat → Nat → Int
  /-- the algorithm implementation: type, key, message, signature to return code -/
  prim : Nat → Bytes → Bytes → Bytes → Int

/-- Data that is verified, e.g. `public_key_verify_signature_dilithium`,
`public_key_dilithium.c:52-86`: the digest if there is one, else the raw data. -/
def Sig.message (sig : Sig) : Option Bytes :=
  if sig.digest ≠ [] then some sig.digest else sig.raw

/-- The hash size check, `public_key.c:77-78`. -/
def hashCheck (cr : Crypto) (algo : Nat) : Option Nat → Int
  | none => 0
  | some h => cr.checkHash algo h

/-- Call of the algorithm with the selected message. -/
def callPrim (cr : Crypto) (pkey : PubKey) (s : Bytes) : Option Bytes → Int
  | none => -EOPNOTSUPP
  | some m => cr.prim pkey.algo pkey.key m s

/-- `public_key_verify_signature`, `public_key.c:53-119` together with the message selection of
the algorithm specific functions it calls. -/
def verifySignature (cr : Crypto) (pkey : PubKey) (sig : Sig) : Int :=
  match sig.s with
  | none => -EFAULT
  | some s =>
    if sig.algo > 0 ∧ pkey.algo ≠ sig.algo then -EKEYREJECTED
    else
      let hc := hashCheck cr pkey.algo sig.hash
      if hc < 0 then hc
      else if cr.supported pkey.algo then callPrim cr pkey s sig.message
      else -ENOPKG

/-! ### Policies, `x509_policies.c` -/

def KU_KEYCERTSIGN : UInt16 := 0x0004
def KU_CRLSIGN : UInt16 := 0x0002
def KU_CRITICAL : UInt16 := 0x4000
def KU_PRESENT : UInt16 := 0x2000
def EKU_PRESENT : UInt16 := 0x0004
def EKU_CRITICAL : UInt16 := 0x0002
def CA_CRITICAL : UInt8 := 0x80
def CA_MAXLEN : UInt8 := 16
def CA_MASK : UInt8 := 31

/-- `lc_x509_policy_cert_valid`, lines 346-373. -/
def certValid (c : Cert) : Bool :=
  if c.rawSkid.length = 0 then false
  else if c.rawSubject.isNone && c.sanDns.isNone && c.sanIp.isNone then false
  else true

/-- `lc_509_policy_cert_contains_signature`, lines 27-40. -/
def containsSignature (c : Cert) : Bool :=
  match c.sig.s with
  | none => false
  | some s => s.length != 0

/-- `lc_x509_policy_is_ca`, lines 55-109. -/
def isCa (c : Cert) : Bool :=
  if ! certValid c then false
  else if c.rawSkid.length = 0 then false
  else if c.pub.keyUsage &&& KU_PRESENT ≠ 0 ∧ c.pub.keyUsage &&& KU_KEYCERTSIGN = 0 then false
  else if c.pub.caPathlen &&& CA_MASK ≠ 0 ∧ c.pub.caPathlen &&& CA_CRITICAL = 0 then false
  else if ! (c.version ≥ 3) then false
  else if ! containsSignature c then false
  else if c.pub.caPathlen &&& CA_MASK ≠ 0 then true
  else false

/-- `lc_x509_policy_match_akid`, lines 173-209; `reference = none` is the NULL pointer. -/
def matchAkid (c : Cert) (reference : Option Bytes) : Bool :=
  match reference with
  | none => false
  | some ref =>
    let akid := match c.rawAkid with
      | some a => some a
      | none => if isCa c then (if c.rawSkid.length = 0 then none else some c.rawSkid) else none
    match akid with
    | none => false
    | some a => a == ref

/-- `lc_x509_policy_is_root_ca`, lines 124-150. -/
def isRootCa (c : Cert) : Bool :=
  if c.rawAkid.isSome && ! matchAkid c (if c.rawSkid.length = 0 then none else some c.rawSkid) then false
  else if ! isCa c then false
  else c.selfSigned

/-- `lc_x509_policy_can_validate_crls`, lines 152-171. -/
def canValidateCrls (c : Cert) : Bool :=
  ! (c.pub.keyUsage &&& KU_PRESENT ≠ 0 ∧ c.pub.keyUsage &&& KU_CRLSIGN = 0)

/-- `lc_x509_policy_match_key_usage`, lines 249-277. -/
def matchKeyUsage (c : Cert) (required : UInt16) : Bool :=
  if required = 0 then true
  else if c.pub.keyUsage &&& KU_PRESENT = 0 then false
  else ((c.pub.keyUsage &&& ~~~KU_PRESENT) &&& required) = required

/-- `lc_x509_policy_match_extended_key_usage`, lines 279-308. -/
def matchEku (c : Cert) (required : UInt16) : Bool :=
  if required = 0 then true
  else if c.pub.keyEku &&& EKU_PRESENT = 0 then false
  else ((c.pub.keyEku &&& ~~~EKU_PRESENT) &&& required) = required

/-- `lc_x509_policy_time_valid`, lines 310-344. -/
def timeValid (c : Cert) (now : Int) : Int :=
  if now < 0 then -EINVAL
  else if c.validFrom < 0 ∨ c.validTo < 0 then 0
  else if c.validFrom ≠ 0 ∧ c.validFrom > now then 0
  else if c.validTo ≠ 0 ∧ c.validTo < now then 0
  else 1

/-- Result of `lc_get_time`. -/
inductive Clock where
  | unsupported
  | error (e : Nat)
  | time (t : Int)
deriving DecidableEq, Repr

/-- The signature check at the end of `lc_x509_policy_cert_verify`; `CKINT_SIGCHECK` is `CKINT`
(`public_key.h:48`; the debug variant that ignores missing algorithms is not modelled). -/
def certVerifyTimed (cr : Crypto) (t : Int) (pkey : PubKey) (c : Cert) : Int :=
  if t ≠ 0 then
    let tv := timeValid c t
    if tv < 0 then tv
    else if tv = 0 then -EKEYREJECTED
    else verifySignature cr pkey c.sig
  else verifySignature cr pkey c.sig

/-- `lc_x509_policy_cert_verify`, lines 375-421. -/
def certVerify (cr : Crypto) (clock : Clock) (pkey : PubKey) (c : Cert) : Int :=
  match clock with
  | .unsupported => certVerifyTimed cr 0 pkey c
  | .error e => -((e : Int) + 1)
  | .time t => certVerifyTimed cr t pkey c

/-! ### Self-signed detection, `x509_public_key.c:130-190` -/

/-- `x509_check_for_self_signed`: return code and the certificate with its flags set. -/
def checkSelfSigned (cr : Crypto) (c : Cert) : Int × Cert :=
  if c.rawSubject.getD [] ≠ c.rawIssuer.getD [] then (0, c)
  else
    let a := idSame c.skid c.sig.auth1
    let b := idSame c.id c.sig.auth0
    let hasAuth := c.sig.auth0.len ≠ 0 ∨ c.sig.auth1.len ≠ 0
    if hasAuth ∧ !a ∧ !b then (0, c)
    else if hasAuth ∧ (a != b) ∧ c.sig.auth0.len ≠ 0 ∧ c.sig.auth1.len ≠ 0 then (-EKEYREJECTED, c)
    else if c.unsupportedSig then (0, c)
    else
      let ret := verifySignature cr c.pub c.sig
      if ret < 0 then
        if ret = -ENOPKG then (0, { c with unsupportedSig := true }) else (ret, c)
      else (ret, { c with selfSigned := true })

/-! ### Extension actions, `x509_cert_parser.c` -/

/-- The certificate extensions the parser evaluates (`x509_process_extension`, lines 797-837), as
decoded from their `extnValue`: `basicConstraints` with the content bytes of the optional `cA`
BOOLEAN and `pathLenConstraint` INTEGER, `keyUsage` with the content bytes of its BIT STRING,
`extKeyUsage` with the flags of its purposes. -/
inductive ExtBody where
  | basicConstraints (ca : Option Bytes) (pathlen : Option Bytes)
  | keyUsage (value : Bytes)
  | extKeyUsage (purposes : List UInt16)
  | other
deriving DecidableEq, Repr

/-- `Extension ::= SEQUENCE { extnid, critical BOOLEAN DEFAULT, extnValue }`. -/
structure Ext where
  critical : Option Bytes
  body : ExtBody
deriving DecidableEq, Repr

/-- Parse state: the flags of `struct lc_public_key` and `ctx->extension_critical`. -/
structure ExtState where
  critical : Bool := false
  keyUsage : UInt16 := 0
  keyEku : UInt16 := 0
  caPathlen : UInt8 := 0
deriving DecidableEq, Repr

/-- `x509_extension_critical`, lines 578-593; not called if the BOOLEAN is absent. -/
def extCritical (st : ExtState) : Option Bytes → Option ExtState
  | none => some st
  | some [v] => some { st with critical := v = 0xff }
  | some _ => none

/-- `x509_basic_constraints_ca`, lines 672-690. -/
def basicConstraintsCa (st : ExtState) : Option Bytes → Option ExtState
  | none => some st
  | some [v] =>
    some { st with
      critical := v = 0xff
      caPathlen := (if v = 0xff then CA_MAXLEN else 0) ||| (if v = 0xff then CA_CRITICAL else 0) }
  | some _ => none

/-- `x509_basic_constraints_pathlen`, lines 695-723. -/
def basicConstraintsPathlen (st : ExtState) : Option Bytes → Option ExtState
  | none => some st
  | some [v] =>
    if v = 0 then some st
    else some { st with
      caPathlen := (st.caPathlen &&& ~~~CA_MAXLEN) ||| (if CA_MAXLEN < v then CA_MAXLEN else v) }
  | some _ => none

/-- `x509_keyusage`, lines 728-756 (the byte swap makes the first byte the high one). -/
def keyUsageAct (st : ExtState) (value : Bytes) : Option ExtState :=
  let flags (x : UInt16) : ExtState :=
    { st with keyUsage := (x ||| (if st.critical then KU_CRITICAL else 0)) ||| KU_PRESENT }
  match value with
  | [a] => some (flags (a.toUInt16 <<< 8))
  | [a, b] => some (flags ((a.toUInt16 <<< 8) ||| b.toUInt16))
  | _ => none

/-- `x509_eku`, lines 599-625, once per purpose. -/
def ekuAct (st : ExtState) (purposes : List UInt16) : ExtState :=
  purposes.foldl (fun st m =>
    { st with keyEku := ((st.keyEku ||| m) ||| (if st.critical then EKU_CRITICAL else 0)) ||| EKU_PRESENT }) st

/-- `x509_process_extension`, lines 797-837. -/
def extBody (st : ExtState) : ExtBody → Option ExtState
  | .basicConstraints ca pl => (basicConstraintsCa st ca).bind fun st => basicConstraintsPathlen st pl
  | .keyUsage v => keyUsageAct st v
  | .extKeyUsage ps => some (ekuAct st ps)
  | .other => some st

/-- One `Extension`. -/
def extStep (st : ExtState) (e : Ext) : Option ExtState :=
  (extCritical st e.critical).bind fun st => extBody st e.body

/-- `Extensions ::= SEQUENCE OF Extension`. -/
def extRun : ExtState → List Ext → Option ExtState
  | st, [] => some st
  | st, e :: es => (extStep st e).bind fun st => extRun st es

end LC.X509
