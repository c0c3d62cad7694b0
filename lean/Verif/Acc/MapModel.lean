import Verif.X509.CertModel

/-!
# Names, object identifiers and flags

The tables of `/repo/asn1/src/x509_algorithm_mapper.c` and `/repo/asn1/src/x509_cert_parser_get_data.c` with the functions
that search them.

Simplifications: a name is the list of its characters without the terminating NUL; a pointer to a hash descriptor is an
element of `Hash`, where `other` stands for every descriptor the file does not mention; the configuration has all hashes
compiled in; what is printed is not modelled.
-/

namespace LC.Acc

deriving instance DecidableEq for Except

/-- `ENOPKG` -/
def ENOPKG : Int := 65

/-- `namelen == row.namelen && !strncmp(name, row.name, namelen)`. -/
def sameName (name : List Char) (rowName : String) (rowLen : Nat) : Bool :=
  name.length == rowLen && name.take name.length == rowName.toList.take name.length

/-! ### Flags -/

/-- `struct x509_flag_name` and `struct lc_keyusage_names`: value, name, length of the name. -/
structure Flag where
  val : Nat
  name : String
  namelen : Nat
deriving DecidableEq, Repr

/-- `x509_eku_to_name`, `/repo/asn1/src/x509_cert_parser_get_data.c:76-87`; values from `lc_x509_common.h:148-156`. -/
def ekuToName : List Flag :=
  [⟨0x02, "critical", 8⟩, ⟨0x08, "any", 3⟩, ⟨0x10, "serverAuth", 10⟩, ⟨0x20, "clientAuth", 10⟩, ⟨0x40, "codeSigning", 11⟩,
   ⟨0x80, "emailProtection", 15⟩, ⟨0x100, "timeStamping", 12⟩, ⟨0x200, "OCSPSigning", 11⟩]

/-- `x509_keyusage_to_name`, `/repo/asn1/src/x509_cert_parser_get_data.c:151-164`; values from
`lc_x509_common.h:133-142`. -/
def keyusageToName : List Flag :=
  [⟨0x4000, "critical", 8⟩, ⟨0x80, "digitalSignature", 16⟩, ⟨0x40, "contentCommitment", 17⟩, ⟨0x20, "keyEncipherment", 15⟩,
   ⟨0x10, "dataEncipherment", 16⟩, ⟨0x08, "keyAgreement", 12⟩, ⟨0x04, "keyCertSign", 11⟩, ⟨0x02, "cRLSign", 7⟩,
   ⟨0x01, "encipherOnly", 12⟩, ⟨0x8000, "decipherOnly", 12⟩]

/-- `keyusage_names`, `/repo/asn1/src/x509_algorithm_mapper.c:546-570`. -/
def keyusageNames : List Flag :=
  [⟨0x4000, "critical", 8⟩, ⟨0x80, "digitalSignature", 16⟩, ⟨0x40, "contentCommitment", 17⟩, ⟨0x20, "keyEncipherment", 15⟩,
   ⟨0x10, "dataEncipherment", 16⟩, ⟨0x04, "keyCertSign", 11⟩, ⟨0x02, "cRLSign", 7⟩,
   ⟨0x01, "encipherOnly", 12⟩, ⟨0x8000, "decipherOnly", 12⟩]

/-- `eku_names`, `/repo/asn1/src/x509_algorithm_mapper.c:605-628`. -/
def ekuNames : List Flag :=
  [⟨0x02, "critical", 8⟩, ⟨0x08, "anyExtendedKeyUsage", 19⟩, ⟨0x10, "ServerAuthentication", 20⟩,
   ⟨0x20, "ClientAuthentication", 20⟩, ⟨0x40, "CodeSigning", 11⟩, ⟨0x80, "EmailProtection", 15⟩,
   ⟨0x100, "TImeStamping", 12⟩, ⟨0x200, "OCSPSignign", 11⟩]

/-- `lc_x509_cert_set_eku` and `lc_x509_cert_set_keyusage`,
`/repo/asn1/src/x509_cert_generator_set_data.c:270-298,322-350`: return value and new flags. -/
def setFlag (tbl : List Flag) (name : List Char) (v : Nat) : Int × Nat :=
  match tbl.find? (fun r => sameName name r.name r.namelen) with
  | some r => (0, v ||| r.val)
  | none => (-22, v)

/-- `lc_x509_name_to_keyusage` and `lc_x509_name_to_eku`, `/repo/asn1/src/x509_algorithm_mapper.c:572-603,630-660`: the loop
does not stop at the first match. -/
def nameToFlag (tbl : List Flag) (name : List Char) (v : Nat) : Int × Nat :=
  let rs := tbl.filter (fun r => sameName name r.name r.namelen)
  (if rs.isEmpty then -ENOPKG else 0, rs.foldl (fun v r => v ||| r.val) v)

/-- The loop of `lc_x509_cert_get_eku` and `lc_x509_cert_get_keyusage`,
`/repo/asn1/src/x509_cert_parser_get_data.c:119-122,183-186`.  `outer` is the memory the argument `const char ***names` points
to: a list of pointers to arrays of strings.  `*names[num++] = …` writes the first element of the array number `num`; `none`
if there is no such array. -/
def getLoop : List Flag → Nat → Nat → List (List (Option String)) → Option (Nat × List (List (Option String)))
  | [], _, num, outer => some (num, outer)
  | r :: rs, v, num, outer =>
    if v &&& r.val ≠ 0 then
      match outer[num]? with
      | some (_ :: t) => getLoop rs v (num + 1) (outer.set num (some r.name :: t))
      | _ => none
    else getLoop rs v num outer

/-- `lc_x509_cert_get_eku`, `/repo/asn1/src/x509_cert_parser_get_data.c:105-128`, for pointers that are not NULL. -/
def getEku (v : Nat) (outer : List (List (Option String))) := getLoop ekuToName v 0 outer

/-- `lc_x509_cert_get_keyusage`, `/repo/asn1/src/x509_cert_parser_get_data.c:169-192`, for pointers that are not NULL. -/
def getKeyusage (v : Nat) (outer : List (List (Option String))) := getLoop keyusageToName v 0 outer

/-! ### Algorithms -/

/-- `struct lc_x509_algorithms`: OID, name, its length, `enum lc_sig_types`, standard hash (0 if not initialised). -/
structure Algo where
  oid : Nat
  name : String
  namelen : Nat
  pkey : Nat
  stdHash : Nat
deriving DecidableEq, Repr

/-- `x509_algo_table`, `/repo/asn1/src/x509_algorithm_mapper.c:36-160`, with the numbers of `enum OID`
(`/repo/asn1/api/lc_asn1.h`) and `enum lc_sig_types` (`/repo/asn1/api/lc_x509_common.h:77-117`). -/
def algos : List Algo :=
  [⟨112, "ML-DSA44", 8, 1, 105⟩,
   ⟨113, "ML-DSA65", 8, 2, 105⟩,
   ⟨114, "ML-DSA87", 8, 3, 105⟩,
   ⟨119, "SLH-DSA-SHAKE-128F", 18, 13, 104⟩,
   ⟨118, "SLH-DSA-SHAKE-128S", 18, 12, 104⟩,
   ⟨121, "SLH-DSA-SHAKE-192F", 18, 11, 105⟩,
   ⟨120, "SLH-DSA-SHAKE-192S", 18, 10, 105⟩,
   ⟨123, "SLH-DSA-SHAKE-256F", 18, 9, 105⟩,
   ⟨122, "SLH-DSA-SHAKE-256S", 18, 8, 105⟩,
   ⟨109, "RSASSA-PKCS1-v1.5-SHA3-256", 26, 14, 0⟩,
   ⟨110, "RSASSA-PKCS1-v1.5-SHA3-384", 26, 14, 0⟩,
   ⟨111, "RSASSA-PKCS1-v1.5-SHA3-512", 26, 14, 0⟩,
   ⟨106, "ECDSA-X963-SHA3-256", 19, 15, 0⟩,
   ⟨107, "ECDSA-X963-SHA3-384", 19, 15, 0⟩,
   ⟨108, "ECDSA-X963-SHA3-512", 19, 15, 0⟩,
   ⟨12, "RSASSA-PKCS1-v1.5-SHA2-256", 26, 14, 0⟩,
   ⟨7, "ECDSA-X963-SHA2-256", 19, 15, 0⟩,
   ⟨115, "ML-DSA44-ED25519", 16, 4, 103⟩,
   ⟨116, "ML-DSA65-ED25519", 16, 5, 103⟩,
   ⟨117, "ML-DSA44-ED448", 14, 7, 103⟩,
   ⟨13, "RSASSA-PKCS1-v1.5-SHA2-384", 26, 14, 0⟩,
   ⟨14, "RSASSA-PKCS1-v1.5-SHA2-512", 26, 14, 0⟩,
   ⟨8, "ECDSA-X963-SHA2-384", 19, 15, 0⟩,
   ⟨9, "ECDSA-X963-SHA2-512", 19, 15, 0⟩,
   ⟨10, "RSASSA-PKCS1-v1.5", 17, 14, 0⟩]

/-- The hash descriptors the file compares with. -/
inductive Hash
  | sha256 | sha384 | sha512 | sha3_256 | sha3_384 | sha3_512 | shake128 | shake256
  /-- any other descriptor -/
  | other (n : Nat)
deriving DecidableEq, Repr

/-- `lc_x509_pkey_name_to_algorithm`, lines 162-190. -/
def nameToAlgo (name : List Char) : Except Int Nat :=
  match algos.find? (fun r => sameName name r.name r.namelen) with
  | some r => .ok r.pkey
  | none => .error (-ENOPKG)

/-- `lc_x509_sig_type_to_oid`, lines 192-205. -/
def typeToOid (t : Nat) : Except Int Nat :=
  match algos.find? (fun r => t == r.pkey) with
  | some r => .ok r.oid
  | none => .error (-ENOPKG)

/-- `lc_x509_oid_to_hash`, lines 453-495. -/
def oidToHash (o : Nat) : Except Int Hash :=
  if o = 43 then .ok .sha256
  else if o = 44 then .ok .sha384
  else if o = 45 then .ok .sha512
  else if o = 101 then .ok .sha3_256
  else if o = 102 then .ok .sha3_384
  else if o = 103 then .ok .sha3_512
  else if o = 104 then .ok .shake128
  else if o = 105 then .ok .shake256
  else .error (-ENOPKG)

/-- `lc_x509_sig_type_to_hash`, lines 207-228 (`OID__NR` is 124). -/
def typeToHash (t : Nat) : Except Int Hash :=
  let o := match algos.find? (fun r => t == r.pkey) with
    | some r => r.stdHash
    | none => 124
  if o = 124 then .error (-ENOPKG) else oidToHash o

/-- The test of the lines 242-256. -/
def chk128 (h : Hash) : Bool := h = .sha256 ∨ h = .sha3_256 ∨ h = .shake128
/-- The test of the lines 261-272. -/
def chk192 (h : Hash) : Bool := h = .sha384 ∨ h = .sha3_384
/-- The test of the lines 277-291 and 297-311. -/
def chk256 (h : Hash) : Bool := h = .sha512 ∨ h = .sha3_512 ∨ h = .shake256

/-- `lc_x509_sig_check_hash`, lines 230-333; `none` is NULL.  The cases fall through to the following ones. -/
def sigCheckHash (t : Nat) (h : Option Hash) : Int :=
  match h with
  | none => -ENOPKG
  | some h =>
    if t = 13 ∨ t = 12 ∨ t = 1 then if chk128 h ∨ chk192 h ∨ chk256 h then 0 else -ENOPKG
    else if t = 11 ∨ t = 10 ∨ t = 2 then if chk192 h ∨ chk256 h then 0 else -ENOPKG
    else if t = 9 ∨ t = 8 ∨ t = 3 then if chk256 h then 0 else -ENOPKG
    else if t = 4 ∨ t = 5 ∨ t = 6 then if chk256 h then 0 else -ENOPKG
    else -ENOPKG

/-- `lc_x509_name_to_hash`, lines 335-386, for a name that is not NULL. -/
def nameToHash (name : List Char) : Except Int Hash :=
  if sameName name "SHA2-256" 8 then .ok .sha256
  else if sameName name "SHA2-384" 8 then .ok .sha384
  else if sameName name "SHA2-512" 8 then .ok .sha512
  else if sameName name "SHA3-256" 8 then .ok .sha3_256
  else if sameName name "SHA3-384" 8 then .ok .sha3_384
  else if sameName name "SHA3-512" 8 then .ok .sha3_512
  else if sameName name "SHAKE128" 8 then .ok .shake128
  else if sameName name "SHAKE256" 8 then .ok .shake256
  else .error (-22)

/-- `lc_x509_hash_to_name`, lines 388-419. -/
def hashToName : Hash → String
  | .sha256 => "SHA2-256"
  | .sha384 => "SHA2-384"
  | .sha512 => "SHA2-512"
  | .sha3_256 => "SHA3-256"
  | .sha3_384 => "SHA3-384"
  | .sha3_512 => "SHA3-512"
  | .shake128 => "SHAKE128"
  | .shake256 => "SHAKE256"
  | .other _ => "<unknown>"

/-- `lc_x509_hash_to_oid`, lines 421-451: always returns 0, for an unknown hash with `OID__NR`. -/
def hashToOid : Hash → Nat
  | .sha256 => 43
  | .sha384 => 44
  | .sha512 => 45
  | .sha3_256 => 101
  | .sha3_384 => 102
  | .sha3_512 => 103
  | .shake128 => 104
  | .shake256 => 105
  | .other _ => 124

/-- `lc_x509_oid_to_sig_type`, lines 497-511. -/
def oidToType (o : Nat) : Except Int Nat :=
  match algos.find? (fun r => o == r.oid) with
  | some r => .ok r.pkey
  | none => .error (-ENOPKG)

/-- `lc_x509_sig_type_to_name`, lines 513-525. -/
def typeToName (t : Nat) : String :=
  match algos.find? (fun r => t == r.pkey) with
  | some r => r.name
  | none => "<not found>"

/-- `lc_x509_oid_to_name`, lines 527-538. -/
def oidToName (o : Nat) : String :=
  match algos.find? (fun r => o == r.oid) with
  | some r => r.name
  | none => "<not found>"

/-! ### Setting and getting the data of a certificate -/

/-- The components of a name. -/
inductive Comp | cn | email | ou | o | st | c
deriving DecidableEq, Repr

/-- Pointer (as the string it points to, `none` for NULL) and length. -/
abbrev Slot := Option (List UInt8) × Nat

/-- The part of `struct lc_x509_certificate` the accessors read and write. -/
structure CertD where
  subject : Comp → Slot := fun _ => (none, 0)
  issuer : Comp → Slot := fun _ => (none, 0)
  sanDns : Slot := (none, 0)
  sanIp : Slot := (none, 0)
  skid : Slot := (none, 0)
  akid : Slot := (none, 0)
  serial : Slot := (none, 0)

/-- `x509_cert_set_string` on one component, `/repo/asn1/src/x509_cert_generator_set_data.c:518-531`: new slot. -/
def setString (s : Option (List UInt8)) (len : Nat) : Except Int Slot :=
  if len > 0xff then .error (-75) else .ok (s, len % 256)

/-- `f` with another value at `c`. -/
def upd (f : Comp → Slot) (c : Comp) (s : Slot) : Comp → Slot := fun x => if x = c then s else f x

/-- The setters with two arguments, `/repo/asn1/src/x509_cert_generator_set_data.c:533-687`, one per name component, and
`lc_x509_cert_set_san_ip`, `set_skid`, `set_akid`, `set_serial` (lines 442-488, 689-703). -/
inductive Fn
  | subjectCn | subjectEmail | subjectOu | subjectO | subjectSt | subjectC
  | issuerCn | issuerEmail | issuerOu | issuerO | issuerSt | issuerC
  | sanIp | skid | akid | serial
deriving DecidableEq, Repr

/-- The store of the setters of name components. -/
def setSubject (cert : CertD) (c : Comp) (s : Option (List UInt8)) (len : Nat) : Int × CertD :=
  match setString s len with
  | .ok sl => (0, { cert with subject := upd cert.subject c sl })
  | .error e => (e, cert)

/-- The store of the setters of name components of the issuer. -/
def setIssuer (cert : CertD) (c : Comp) (s : Option (List UInt8)) (len : Nat) : Int × CertD :=
  match setString s len with
  | .ok sl => (0, { cert with issuer := upd cert.issuer c sl })
  | .error e => (e, cert)

/-- The setters of `Fn`; the certificate is not NULL. -/
def set (cert : CertD) (f : Fn) (s : Option (List UInt8)) (len : Nat) : Int × CertD :=
  match f with
  | .subjectCn => setSubject cert .cn s len
  | .subjectEmail => setSubject cert .email s len
  | .subjectOu => setSubject cert .ou s len
  | .subjectO => setSubject cert .o s len
  | .subjectSt => setSubject cert .st s len
  | .subjectC => setSubject cert .c s len
  | .issuerCn => setIssuer cert .cn s len
  | .issuerEmail => setIssuer cert .email s len
  | .issuerOu => setIssuer cert .ou s len
  | .issuerO => setIssuer cert .o s len
  | .issuerSt => setIssuer cert .st s len
  | .issuerC => setIssuer cert .c s len
  | .sanIp => if s.isNone then (-22, cert) else (0, { cert with sanIp := (s, len) })
  | .skid => if s.isNone then (-22, cert) else (0, { cert with skid := (s, len) })
  | .akid => if s.isNone then (-22, cert) else (0, { cert with akid := (s, len) })
  | .serial => if s.isNone then (-22, cert) else (0, { cert with serial := (s, len) })

/-- `lc_x509_cert_set_san_dns`, lines 385-399: the length is found with `strlen`; `s` is the memory the argument points to. -/
def setSanDns (cert : CertD) (s : Option (List UInt8)) : Int × CertD :=
  match s with
  | none => (-22, cert)
  | some m => (0, { cert with sanDns := (some m, (m.takeWhile (· != 0)).length) })

/-- The getters, `/repo/asn1/src/x509_cert_parser_get_data.c:253-300,334-532`; the output pointers are not NULL. -/
def get (cert : CertD) (f : Fn) : Slot :=
  match f with
  | .subjectCn => cert.subject .cn
  | .subjectEmail => cert.subject .email
  | .subjectOu => cert.subject .ou
  | .subjectO => cert.subject .o
  | .subjectSt => cert.subject .st
  | .subjectC => cert.subject .c
  | .issuerCn => cert.issuer .cn
  | .issuerEmail => cert.issuer .email
  | .issuerOu => cert.issuer .ou
  | .issuerO => cert.issuer .o
  | .issuerSt => cert.issuer .st
  | .issuerC => cert.issuer .c
  | .sanIp => cert.sanIp
  | .skid => cert.skid
  | .akid => cert.akid
  | .serial => cert.serial

end LC.Acc
