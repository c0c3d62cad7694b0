import Verif.X509.Model
/-
Model of PKCS#7 verification: `/repo/asn1/src/pkcs7_verify.c` and `pkcs7_trust.c`.

Certificates live at addresses; `w.cert` maps an address to the certificate's contents, which the
modelled code does not change apart from the flags `seen`, `signer` and `blacklisted` (see
`chainStep`).  A certificate list (`next` pointers) is the list of addresses; how
`lc_pkcs7_trust_store_add` builds that list is modelled separately in `Pkcs7.Store`.
-/
namespace LC.Pkcs7
open LC.X509

/-- Environment: certificate contents, cryptography, hash functions, clock. -/
structure World where
  cert : Nat → Cert
  cr : Crypto
  /-- hash identifier and message to digest (`lc_hash` with `x509_set_digestsize`) -/
  hash : Nat → Bytes → Bytes
  clock : Clock

/-- Search in the trust store by issuer and serial number, then the `found_issuer_check_skid`
test, `pkcs7_trust.c:47-56`, `75-87`. -/
def findByAuth0 (w : World) (store : List Nat) (auth0 auth1 : Kid) : Except Int Nat :=
  match store.find? (fun p => idSame (w.cert p).id auth0) with
  | none => .error (-ENOKEY)
  | some p =>
    if auth1.len ≠ 0 ∧ ! idSame (w.cert p).skid auth1 then .error (-EKEYREJECTED) else .ok p

/-- Search by subject key identifier, lines 57-66. -/
def findByAuth1 (w : World) (store : List Nat) (auth1 : Kid) : Except Int Nat :=
  match store.find? (fun p => (w.cert p).skid.len ≠ 0 ∧ idSame (w.cert p).skid auth1) with
  | none => .error (-ENOKEY)
  | some p => .ok p

/-- `pkcs7_find_asymmetric_key`, `pkcs7_trust.c:34-98`; a NULL trust store is `none`. -/
def findAsymmetricKey (w : World) (store : Option (List Nat)) (auth0 auth1 : Kid) : Except Int Nat :=
  match store with
  | none => .error (-ENOKEY)
  | some l =>
    if auth0.len ≠ 0 then findByAuth0 w l auth0 auth1
    else if auth1.len ≠ 0 then findByAuth1 w l auth1
    else .error (-ENOKEY)

/-- What one iteration of the chain walk does: return, or continue with the issuer. -/
inductive Outcome where
  | done (ret : Int)
  | next (p : Nat)
deriving DecidableEq, Repr

/-- Verify `x` with the key of a trust store certificate: `CKINT(lc_x509_policy_cert_verify(..));
return 0`. -/
def verifyWith (w : World) (x : Nat) : Except Int Nat → Outcome
  | .error e => .done e
  | .ok t =>
    let r := certVerify w.cr w.clock (w.cert t).pub (w.cert x)
    if r < 0 then .done r else .done 0

/-- Not found in the chain: `pkcs7_verify_sig_chain`, `pkcs7_verify.c:262-284`. -/
def fromStore (w : World) (store : Option (List Nat)) (x : Nat) : Outcome :=
  match findAsymmetricKey w store (w.cert x).sig.auth0 (w.cert x).sig.auth1 with
  | .error _ => .done (-EKEYREJECTED)
  | .ok t => verifyWith w x (.ok t)

/-- `found_issuer:` onwards, lines 297-353.  `seen` are the certificates with the flag set. -/
def foundIssuer (w : World) (store : Option (List Nat)) (x p : Nat) (seen : List Nat) : Outcome :=
  if p ∈ seen then .done (-EKEYREJECTED)
  else if ! matchKeyUsage (w.cert p) KU_KEYCERTSIGN then .done (-EKEYREJECTED)
  else if isRootCa (w.cert p) then
    match store with
    | none => .done 0
    | some l => verifyWith w x (findAsymmetricKey w (some l) (w.cert p).id (w.cert p).skid)
  else
    let r := certVerify w.cr w.clock (w.cert p).pub (w.cert x)
    if r < 0 then .done r else .next p

/-- Issuer search in the message's certificates, lines 236-260 and 286-296. -/
def searchChain (w : World) (chain : List Nat) (store : Option (List Nat)) (x : Nat) (seen : List Nat) :
    Outcome :=
  let c := w.cert x
  if c.sig.auth0.len ≠ 0 then
    match chain.find? (fun p => idSame (w.cert p).id c.sig.auth0) with
    | none => fromStore w store x
    | some p =>
      if c.sig.auth1.len ≠ 0 ∧ ! idSame (w.cert p).skid c.sig.auth1 then .done (-EKEYREJECTED)
      else foundIssuer w store x p seen
  else if c.sig.auth1.len ≠ 0 then
    match chain.find? (fun p => (w.cert p).skid.len ≠ 0 ∧ idSame (w.cert p).skid c.sig.auth1) with
    | none => fromStore w store x
    | some p => foundIssuer w store x p seen
  else fromStore w store x

/-- One iteration of the `for (;;)` loop, lines 190-356; `x` has already been marked as seen.
Marking dependents of a blacklisted certificate (lines 196-206) only affects later calls and is
not modelled. -/
def chainStep (w : World) (chain : List Nat) (store : Option (List Nat)) (x : Nat) (seen : List Nat) :
    Outcome :=
  let c := w.cert x
  if c.blacklisted then .done (-EKEYREJECTED)
  else if isRootCa c then (if c.unsupportedSig then .done (-ENOPKG) else .done 0)
  else searchChain w chain store x seen

/-- The loop; `none` means that `fuel` iterations were not enough. -/
def chainLoop (w : World) (chain : List Nat) (store : Option (List Nat)) :
    Nat → Nat → List Nat → Option Int
  | 0, _, _ => none
  | fuel + 1, x, seen =>
    match chainStep w chain store x (x :: seen) with
    | .done r => some r
    | .next p => chainLoop w chain store fuel p (x :: seen)

/-- `pkcs7_verify_sig_chain`, `pkcs7_verify.c:171-360`. -/
def verifySigChain (w : World) (chain : List Nat) (store : Option (List Nat)) (x : Nat) : Int :=
  (chainLoop w chain store (chain.length + 1) x []).getD (-EINVAL)

/-! ### Signed infos -/

/-- `struct lc_pkcs7_signed_info`, `lc_pkcs7_common.h:34-76`. -/
structure SInfo where
  sig : Sig
  authattrs : Option Bytes := none
  msgdigest : Option Bytes := none
  signingTime : Option Int := none
deriving DecidableEq, Repr

/-- `struct lc_pkcs7_message`. -/
structure Msg where
  certs : List Nat
  isData : Bool := true
  data : Option Bytes
  sinfos : List SInfo
deriving DecidableEq, Repr

/-- `ASN1_CONS_BIT | ASN1_SET`. -/
def setTag : UInt8 := 0x31

/-- `pkcs7_digest` after the content digest has been calculated, `pkcs7_verify.c:73-127`. -/
def digestAttrs (w : World) (h : Nat) (si : SInfo) (d : Bytes) : Int × SInfo :=
  let si' := { si with sig := { si.sig with digest := d } }
  match si.authattrs with
  | none => (0, si')
  | some aa =>
    match si.msgdigest with
    | none => (-EKEYREJECTED, si')
    | some md =>
      if md.length ≠ d.length then (-EBADMSG, si')
      else if md ≠ d then (-EKEYREJECTED, si')
      else (0, { si with sig := { si.sig with digest := w.hash h (setTag :: aa) } })

/-- `pkcs7_digest`, `pkcs7_verify.c:42-131`: return code and updated signed info. -/
def digest (w : World) (content : Bytes) (si : SInfo) : Int × SInfo :=
  if si.sig.digest ≠ [] then (0, si)
  else match si.sig.hash with
    | none => (-ENOPKG, si)
    | some h => digestAttrs w h si (w.hash h content)

/-- `pkcs7_find_key`, `pkcs7_verify.c:139-169`. -/
def findKey (w : World) (m : Msg) (si : SInfo) : Option Nat :=
  m.certs.find? fun x => idSame (w.cert x).id si.sig.auth0 || idSame (w.cert x).skid si.sig.auth0

/-- `struct lc_verify_rules`. -/
structure Rules where
  keyUsage : UInt16
  eku : UInt16
deriving DecidableEq, Repr

/-- Signing time check, `pkcs7_verify.c:398-406`. -/
def signingTimeBad (si : SInfo) (c : Cert) : Bool :=
  match si.signingTime with
  | none => false
  | some t => t < c.validFrom || t > c.validTo

/-- Verification rules, lines 408-420. -/
def rulesBad (rules : Option Rules) (c : Cert) : Bool :=
  match rules with
  | none => false
  | some r => ! matchKeyUsage c r.keyUsage || ! matchEku c r.eku

/-- `pkcs7_verify_one` after the digest, `pkcs7_verify.c:377-432`. -/
def verifySigner (w : World) (m : Msg) (store : Option (List Nat)) (rules : Option Rules) (si : SInfo) :
    Int :=
  match findKey w m si with
  | none => -ENOKEY
  | some x =>
    if signingTimeBad si (w.cert x) then -EKEYREJECTED
    else if rulesBad rules (w.cert x) then -EKEYREJECTED
    else
      let r := verifySignature w.cr (w.cert x).pub si.sig
      if r < 0 then r else verifySigChain w m.certs store x

/-- `pkcs7_verify_one`, `pkcs7_verify.c:362-432`. -/
def verifyOne (w : World) (m : Msg) (content : Bytes) (store : Option (List Nat)) (rules : Option Rules)
    (si : SInfo) : Int × SInfo :=
  let d := digest w content si
  if d.1 < 0 then d else (verifySigner w m store rules d.2, d.2)

/-- The loop of `lc_pkcs7_verify`, lines 490-509: `cached` is `cached_ret`; the updated signed
infos are returned as well. -/
def verifyLoop (w : World) (m : Msg) (content : Bytes) (store : Option (List Nat)) (rules : Option Rules) :
    Int → List SInfo → Int × List SInfo
  | cached, [] => (cached, [])
  | cached, si :: rest =>
    let r := verifyOne w m content store rules si
    if r.1 = -ENOKEY then
      let t := verifyLoop w m content store rules cached rest
      (t.1, r.2 :: t.2)
    else if r.1 = -ENOPKG then
      let t := verifyLoop w m content store rules (if cached = -ENOKEY then -ENOPKG else cached) rest
      (t.1, r.2 :: t.2)
    else if r.1 = 0 then
      let t := verifyLoop w m content store rules 0 rest
      (t.1, r.2 :: t.2)
    else (r.1, r.2 :: rest)

/-- `lc_pkcs7_verify`, `pkcs7_verify.c:467-511`: return code and message afterwards. -/
def verify (w : World) (m : Msg) (store : Option (List Nat)) (rules : Option Rules) : Int × Msg :=
  if ! m.isData then (-EKEYREJECTED, m)
  else match m.data with
    | none => (-ENODATA, m)
    | some content =>
      let r := verifyLoop w m content store rules (-ENOKEY) m.sinfos
      (r.1, { m with sinfos := r.2 })

/-- Acceptance part of `lc_pkcs7_trust_store_add`, `pkcs7_trust.c:298-323`: negative on refusal. -/
def trustStoreCheck (w : World) (store : List Nat) (x : Nat) : Int :=
  if isRootCa (w.cert x) then 0
  else if ! isCa (w.cert x) then -EKEYREJECTED
  else verifySigChain w store none x

end LC.Pkcs7
