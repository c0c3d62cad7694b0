import Verif.X509.CertModel
import Verif.Pkcs7.Model
/-
Model of the PKCS#7 message generator, `/repo/asn1/src/pkcs7_generator.c`, and of the message parser,
`/repo/asn1/src/pkcs7_parser.c`: the actions of the grammars `pkcs7` and `pkcs7_aa`.  They run on the models of the
encoder (`Asn1/Encoder.lean`) and of the decoder (`Asn1/Model.lean`).

Parameters: the hash functions, the signature primitive behind `public_key_generate_signature`, the clock
(`time(NULL)`, the same at every call), and `lc_x509_cert_parse` for the certificates of a message.
Not modelled: NULL pointer arguments, failing allocations, debug output, the detached signature API.
A subject key identifier is absent (`raw_skid == NULL`, `raw_skid_size == 0`) iff it is empty here.
-/
namespace LC.P7
open LC.Asn1 LC.Asn1.Gen LC.Asn1.Tr
open LC.X509 (Kid generateId Sig EOPNOTSUPP EKEYREJECTED)
open LC.Oid (oidData lookUp)
open LC.Crt (Name nameUn nameOid nameSeg sigToOid oidToSig gmtime d2 d4 ENOSTEPS EINVAL EFAULT ENOPKG)
open LC.Pkcs7 (SInfo)

abbrev Bytes := List UInt8

/-- `enum OID` values, `/repo/asn1/api/lc_asn1.h`. -/
def OID_data : Nat := 16
def OID_signed_data : Nat := 17
def OID_contentType : Nat := 19
def OID_messageDigest : Nat := 20
def OID_signingTime : Nat := 21
def OID_smimeCapabilites : Nat := 22
def OID_msIndirectData : Nat := 27
def OID_msStatementType : Nat := 28
def OID_msSpOpusInfo : Nat := 29

/-- `lc_x509_oid_to_hash` and `lc_x509_hash_to_oid`, `x509_algorithm_mapper.c:421-495`: OID numbers of the hash functions
SHA-256, SHA-384, SHA-512, SHA3-256, SHA3-384, SHA3-512, SHAKE128, SHAKE256, which are numbered from 0 in this order. -/
def hashOids : List Nat := [43, 44, 45, 101, 102, 103, 104, 105]

/-- `lc_x509_hash_to_oid`; `none` is `OID__NR`. -/
def hashToOid (h : Nat) : Option Nat := hashOids[h]?

/-- `lc_x509_oid_to_hash`. -/
def oidToHash (o : Nat) : Option Nat := hashOids.findIdx? (· == o)

/-- `lc_x509_sig_type_to_hash`, `x509_algorithm_mapper.c:207-228`: the column `std_hash` by signature type; the entries for RSA and
ECDSA have no `std_hash`, so `lc_x509_oid_to_hash` fails for them. -/
def sigTypeToHash (t : Nat) : Option Nat :=
  match t with
  | 1 | 2 | 3 => some 7
  | 13 | 12 => some 6
  | 11 | 10 | 9 | 8 => some 7
  | 4 | 5 | 7 => some 5
  | _ => none

/-- `enum sinfo_has_*`, `/repo/asn1/api/lc_pkcs7_common.h:64-69`. -/
def HAS_CONTENT_TYPE : UInt64 := 1
def HAS_SIGNING_TIME : UInt64 := 2
def HAS_MESSAGE_DIGEST : UInt64 := 4
def HAS_SMIME_CAPS : UInt64 := 8
def HAS_MS_OPUS_INFO : UInt64 := 16
def HAS_MS_STATEMENT_TYPE : UInt64 := 32

/-! ### The generator -/

/-- What the generator reads of `struct lc_x509_certificate`; `key` stands for the key in `sig_gen_data`. -/
structure GCert where
  raw : Bytes
  skid : Bytes := []
  serial : Bytes := []
  subject : Name := {}
  pubAlgo : Nat := 0
  sigType : Nat := 0
  key : Bytes := []
deriving DecidableEq, Repr

/-- What the generator reads of `struct lc_pkcs7_signed_info`: `signer`, `sig.hash_algo`, `sig.pkey_algo`, `aa_set`. -/
structure Signer where
  cert : GCert
  hash : Option Nat := none
  sigAlgo : Nat := 0
  aaSet : UInt64 := 0
deriving DecidableEq, Repr

/-- What the generator reads of `struct lc_pkcs7_message`. -/
structure GMsg where
  certs : List GCert
  signers : List Signer
  data : Bytes
  embed : Bool := true
  dataType : Nat := OID_data
deriving DecidableEq, Repr

/-- What is handed to `public_key_generate_signature`: a digest of a hash function or the message. -/
inductive ToSign where
  | digest (h : Nat) (d : Bytes)
  | raw (m : Bytes)
deriving DecidableEq, Repr

structure Env where
  /-- hash identifier and message to digest (`lc_hash` with `x509_set_digestsize`) -/
  hash : Nat → Bytes → Bytes
  /-- `public_key_generate_signature`; `none` is an error -/
  sign : GCert → ToSign → Option Bytes
  now : Int

/-- `struct pkcs7_generate_context`, `pkcs7_generator.c:35-59`, without `pkcs7` and `authattr_hash`, which do not change during the
generation. -/
structure GC where
  certs : List GCert
  sinfos : List Signer
  applied : UInt64 := 0
  subjDone : UInt8 := 0
  digSize : Nat := 0
  digBuf : Bytes := List.replicate 64 0
deriving DecidableEq, Repr

/-- An action apart from the space it needs. -/
abbrev Simple := GC → Except Int (AOut GC)

/-- `x509_sufficient_size` and the copy to the buffer. -/
def sized (f : Simple) : Act GC := fun x avail =>
  match f x with
  | .error e => .error e
  | .ok o => if avail < o.bytes.length then .error (-EOVERFLOW) else .ok o

/-- The actions that do nothing, `pkcs7_generator.c:178-199`, `228-236`, `333-354`, `412-430`, `892-923`. -/
def nopEnc : Simple := fun x => .ok { ctx := x }

/-- `*data = oid` for the OID of a number. -/
def oidEnc (o : Nat) : Simple := fun x => .ok { bytes := oidData o, ctx := x }

/-- `pkcs7_sig_note_pkey_algo_OID_enc`, lines 65-101. -/
def pkeyOidEnc : Simple := fun x =>
  let t := match x.certs, x.sinfos with
    | c :: _, _ => some c.pubAlgo
    | [], s :: _ => some s.cert.pubAlgo
    | [], [] => none
  match t with
  | none => .error (-EINVAL)
  | some t =>
    match sigToOid t with
    | none => .error (-ENOPKG)
    | some o => .ok { bytes := oidData o, ctx := x }

/-- `pkcs7_get_digest`, lines 103-134. -/
def getDigest (s : Signer) : Except Int Nat :=
  match s.hash with
  | some h => .ok h
  | none =>
    match sigTypeToHash (if s.sigAlgo ≠ 0 then s.sigAlgo else s.cert.pubAlgo) with
    | some h => .ok h
    | none => .error (-ENOPKG)

/-- `pkcs7_digest_algorithm_OID_enc`, lines 136-173; `pkcs7_get_digest` does not succeed without a hash function. -/
def digestOidEnc : Simple := fun x =>
  match x.sinfos with
  | [] => .error (-EINVAL)
  | s :: _ =>
    match getDigest s with
    | .error e => .error e
    | .ok h =>
      match hashToOid h with
      | none => .error (-EFAULT)
      | some o => .ok { bytes := oidData o, ctx := x }

/-- `pkcs7_note_signeddata_version_enc`, lines 241-273. -/
def msgVersionEnc (m : GMsg) : Simple := fun x =>
  .ok { bytes := [if m.certs.any (fun c => c.skid != []) then 3 else 1], ctx := x }

/-- `pkcs7_note_signerinfo_version_enc`, lines 278-305. -/
def siVersionEnc : Simple := fun x =>
  match x.sinfos with
  | [] => .error (-EFAULT)
  | s :: _ => .ok { bytes := [if s.cert.skid != [] then 3 else 1], ctx := x }

/-- `pkcs7_extract_cert_continue_enc`, lines 307-328. -/
def certContEnc : Simple := fun x =>
  match x.certs with
  | [] => .ok { ctx := x }
  | [_] => .ok { ctx := { x with certs := [] } }
  | _ :: cs => .ok { ret := 1, ctx := { x with certs := cs } }

/-- The octets behind tag and length octets, lines 379-401 and 843-858; the length of the length octets is at most 3. -/
def stripHdr (b : Bytes) : Except Int Bytes :=
  let len := (b.getD 1 0).toNat
  if len > 0x7f then
    (if len = 0x80 then .error (-EINVAL)
     else if len - 0x80 > 3 then .error (-EINVAL)
     else if b.length < 2 + (len - 0x80) then .error (-EOVERFLOW)
     else .ok (b.drop (2 + (len - 0x80))))
  else .ok (b.drop 2)

/-- `pkcs7_extract_extended_cert_enc`, lines 359-407. -/
def certEnc : Simple := fun x =>
  match x.certs with
  | [] => .error (-ENOSTEPS)
  | c :: _ =>
    if c.raw.length < 4 then .error (-EINVAL)
    else match stripHdr c.raw with
      | .error e => .error e
      | .ok b => .ok { bytes := b, tag := some (c.raw.getD 0 0), ctx := x }

/-- `pkcs7_note_data_enc`, lines 463-490. -/
def dataEnc (m : GMsg) : Simple := fun x =>
  .ok { bytes := if m.embed then m.data else [], ctx := x }

/-- `pkcs7_authenticated_attr_unprocessed`, lines 492-502. -/
def aaUn (s : Signer) (x : GC) (m : UInt64) : Bool := (s.aaSet &&& ~~~x.applied) &&& m != 0

/-- The condition that forces the message digest, lines 533-534 and 671-672. -/
def mdForced (s : Signer) (x : GC) : Bool := s.aaSet != 0 && x.applied &&& HAS_MESSAGE_DIGEST == 0

/-- `pkcs7_external_aa_continue_enc`, lines 504-518. -/
def aaContEnc : Simple := fun x =>
  match x.sinfos with
  | [] => .error (-ENOSTEPS)
  | s :: _ => .ok { ret := if x.applied ≠ s.aaSet then 1 else 0, ctx := x }

/-- The attribute that is next, lines 520-566. -/
def aaOid (s : Signer) (x : GC) : Bytes :=
  if mdForced s x then oidData OID_messageDigest
  else if aaUn s x HAS_CONTENT_TYPE then oidData OID_contentType
  else if aaUn s x HAS_SIGNING_TIME then oidData OID_signingTime
  else if aaUn s x HAS_SMIME_CAPS then oidData OID_smimeCapabilites
  else if aaUn s x HAS_MS_OPUS_INFO then oidData OID_msSpOpusInfo
  else if aaUn s x HAS_MS_STATEMENT_TYPE then oidData OID_msStatementType
  else []

/-- `pkcs7_external_aa_OID_enc`, lines 520-572. -/
def aaOidEnc : Simple := fun x =>
  match x.sinfos with
  | [] => .error (-ENOSTEPS)
  | s :: _ => .ok { bytes := aaOid s x, ctx := x }

/-- `pkcs7_set_time`, lines 574-628: tag and value.  Years before 1900 are not modelled. -/
def timeVal (t : Int) : Except Int (UInt8 × Bytes) :=
  if t ≥ 2524608000 then
    .ok (24, (d4 (gmtime t).year.toNat ++ d2 (gmtime t).mon ++ d2 (gmtime t).day ++ d2 (gmtime t).hour ++ d2 (gmtime t).min ++
      d2 (gmtime t).sec ++ [90]).take 15)
  else if t = -1 then .error (-EFAULT)
  else if (gmtime t).year < 1900 then .error (-ENOSTEPS)
  else .ok (23, d2 (((gmtime t).year - 1900).toNat % 100) ++ d2 (gmtime t).mon ++ d2 (gmtime t).day ++ d2 (gmtime t).hour ++
      d2 (gmtime t).min ++ d2 (gmtime t).sec ++ [90])

/-- `pkcs7_external_aa_enc`, lines 652-721. -/
def aaValEnc (v : Env) (m : GMsg) : Simple := fun x =>
  match x.sinfos with
  | [] => .error (-ENOSTEPS)
  | s :: _ =>
    if mdForced s x then
      match getDigest s with
      | .error e => .error e
      | .ok h => .ok { bytes := v.hash h m.data, tag := some 4, ctx := { x with applied := x.applied ||| HAS_MESSAGE_DIGEST } }
    else if aaUn s x HAS_CONTENT_TYPE then
      (if m.dataType ≥ LC.Oid.NR then .error (-EFAULT)
       else .ok { bytes := oidData m.dataType, ctx := { x with applied := x.applied ||| HAS_CONTENT_TYPE } })
    else if aaUn s x HAS_SIGNING_TIME then
      match timeVal v.now with
      | .error e => .error e
      | .ok (t, b) => .ok { bytes := b, tag := some t, ctx := { x with applied := x.applied ||| HAS_SIGNING_TIME } }
    else if aaUn s x HAS_SMIME_CAPS || aaUn s x HAS_MS_OPUS_INFO || aaUn s x HAS_MS_STATEMENT_TYPE then .error (-EOPNOTSUPP)
    else .ok { ctx := x }

/-- The actions of the grammar `pkcs7_aa`. -/
def aaActs (v : Env) (m : GMsg) (i : Nat) : Simple :=
  match i with
  | 0 => aaValEnc v m
  | 1 => aaOidEnc
  | _ => aaContEnc

def aaEncoder (v : Env) (m : GMsg) : Encoder GC := ⟨pkcs7_aa, fun i => sized (aaActs v m i)⟩

/-- `pkcs7_sig_note_set_of_authattrs_enc`, lines 782-863; `ah` is `authattr_hash`, `n` the number of steps the nested encoder may
do. -/
def authattrsEnc (v : Env) (m : GMsg) (ah : Option Nat) (n : Nat) : Simple := fun x =>
  match ah, x.sinfos with
  | none, _ => .ok { ctx := x }
  | some _, [] => .error (-ENOSTEPS)
  | some h, s :: _ =>
    if s.aaSet = 0 then .ok { ctx := x }
    else match encode (aaEncoder v m) small x 500 n with
      | .halt r st =>
        if r < 0 then .error r
        else if s.aaSet &&& HAS_CONTENT_TYPE == 0 || s.aaSet &&& HAS_MESSAGE_DIGEST == 0 then .error (-EBADMSG)
        else if m.dataType ≠ OID_msIndirectData ∧ s.aaSet &&& HAS_MS_OPUS_INFO != 0 then .error (-EBADMSG)
        else
          let d := v.hash h (0x31 :: st.out.drop 1)
          match stripHdr st.out with
          | .error e => .error e
          | .ok b => .ok { bytes := b, ctx := { st.ctx with digSize := d.length, digBuf := d ++ st.ctx.digBuf.drop d.length } }
      | _ => .error (-ENOSTEPS)

/-- `pkcs7_note_attribute_type_OID_enc`, lines 723-738. -/
def attrOidEnc : Simple := fun x =>
  match x.sinfos with
  | [] => .error (-ENOSTEPS)
  | s :: _ => .ok { bytes := if s.cert.skid != [] then [] else nameOid s.cert.subject x.subjDone, ctx := x }

/-- `pkcs7_extract_attribute_name_segment_enc`, lines 740-756. -/
def attrSegEnc : Simple := fun x =>
  match x.sinfos with
  | [] => .error (-ENOSTEPS)
  | s :: _ =>
    if s.cert.skid != [] then .ok { ctx := x }
    else
      let r := nameSeg s.cert.subject x.subjDone
      .ok { bytes := r.1, ctx := { x with subjDone := r.2 } }

/-- `pkcs7_attribute_value_continue_enc`, lines 758-775. -/
def attrContEnc : Simple := fun x =>
  match x.sinfos with
  | [] => .error (-ENOSTEPS)
  | s :: _ => .ok { ret := if s.cert.skid = [] ∧ nameUn s.cert.subject x.subjDone then 1 else 0, ctx := x }

/-- `pkcs7_sig_note_serial_enc`, lines 868-890. -/
def serialEnc : Simple := fun x =>
  match x.sinfos with
  | [] => .error (-ENOSTEPS)
  | s :: _ => .ok { bytes := if s.cert.skid != [] then [] else s.cert.serial, ctx := x }

/-- `pkcs7_sig_note_skid_enc`, lines 928-949. -/
def skidEnc : Simple := fun x =>
  match x.sinfos with
  | [] => .error (-ENOSTEPS)
  | s :: _ => .ok { bytes := s.cert.skid, ctx := x }

/-- `pkcs7_sig_note_signature_enc`, lines 954-1011.  If `authattrs_digest_size` is set the digest is taken from the context, else the
content is hashed to a local variable and the size remains in the context. -/
def signatureEnc (v : Env) (m : GMsg) : Simple := fun x =>
  match x.sinfos with
  | [] => .error (-ENOSTEPS)
  | s :: _ =>
    if s.cert.sigType = 0 then .error (-EINVAL)
    else match getDigest s with
      | .error e => .error e
      | .ok h =>
        let d := if x.digSize ≠ 0 then x.digBuf.take x.digSize else v.hash h m.data
        match v.sign s.cert (.digest h d) with
        | none => .error (-EINVAL)
        | some b => .ok { bytes := b, ctx := { x with digSize := if x.digSize ≠ 0 then x.digSize else d.length } }

/-- `pkcs7_note_signed_info_enc`, lines 1016-1039. -/
def signedInfoEnc : Simple := fun x =>
  match x.sinfos with
  | [] => .ok { ctx := x }
  | [_] => .ok { ctx := { x with sinfos := [], applied := 0 } }
  | _ :: ss => .ok { ret := 1, ctx := { x with sinfos := ss, applied := 0 } }

/-- The actions of the grammar `pkcs7`, `/repo/asn1/src/pkcs7.asn1.c`. -/
def p7Acts (v : Env) (m : GMsg) (ah : Option Nat) (n : Nat) (i : Nat) : Simple :=
  match i with
  | 0 => attrContEnc | 3 => oidEnc OID_signed_data | 4 => oidEnc OID_data | 5 => digestOidEnc | 6 => attrSegEnc
  | 8 => certContEnc | 10 => certEnc | 11 => attrOidEnc | 14 => dataEnc m | 15 => signedInfoEnc
  | 16 => msgVersionEnc m | 17 => siVersionEnc | 22 => pkeyOidEnc | 23 => serialEnc | 24 => authattrsEnc v m ah n
  | 25 => signatureEnc v m | 26 => skidEnc | _ => nopEnc

def p7Encoder (v : Env) (m : GMsg) (ah : Option Nat) (n : Nat) : Encoder GC := ⟨pkcs7, fun i => sized (p7Acts v m ah n i)⟩

/-- The loop of `pkcs7_initialize_ctx`, lines 1059-1084: it asks for the digest of `current_sinfo`, the first signer, each time. -/
def initLoop (first : Signer) : Option Nat → List Signer → Except Int (Option Nat)
  | ah, [] => .ok ah
  | ah, s :: ss =>
    match getDigest first with
    | .error e => .error e
    | .ok h =>
      match ah with
      | none => initLoop first (some h) ss
      | some a => if h ≠ a then .error (-EINVAL) else if ah = none ∧ s.aaSet ≠ 0 then .error (-EINVAL) else initLoop first ah ss

/-- `lc_pkcs7_generate`, lines 1092-1117, with `pkcs7_initialize_ctx`, lines 1045-1090: the message.  `n` bounds the steps. -/
def generate (v : Env) (m : GMsg) (avail n : Nat) : Except Int Bytes :=
  match m.certs, m.signers with
  | [], _ => .error (-EINVAL)
  | _, [] => .error (-EINVAL)
  | _, first :: _ =>
    match initLoop first none m.signers with
    | .error e => .error e
    | .ok ah =>
      match encode (p7Encoder v m ah n) large { certs := m.certs, sinfos := m.signers } avail n with
      | .halt r s => if r < 0 then .error r else .ok s.out
      | _ => .error (-ENOSTEPS)

/-! ### The parser -/

/-- `struct pkcs7_parse_context` (`pkcs7_parser.h`) with the message; `κ` is `struct lc_x509_certificate`. -/
structure PC (κ : Type) where
  lastOid : Nat := 0
  version : UInt8 := 0
  dataType : Nat := 0
  data : Option Bytes := none
  msgCerts : List κ := []
  certs : List κ := []
  sinfos : List SInfo := []
  cur : SInfo := { sig := { s := none, algo := 0 } }
  aaSet : UInt64 := 0
  expectSkid : Bool := false
  serial : Bytes := []
  issuer : Bytes := []
  skid : Bytes := []

variable {κ : Type}

/-- `pkcs7_note_OID`, `pkcs7_parser.c:120-138`. -/
def noteOid (e : El) (p : PC κ) : Except Int (PC κ) := .ok { p with lastOid := lookUp e.content }

/-- `pkcs7_sig_note_digest_algo`, lines 207-220. -/
def noteDigestAlgo (p : PC κ) : Except Int (PC κ) :=
  match oidToHash p.lastOid with
  | none => .error (-ENOPKG)
  | some h => .ok { p with cur := { p.cur with sig := { p.cur.sig with hash := some h } } }

/-- `pkcs7_sig_note_pkey_algo`, lines 225-238. -/
def notePkeyAlgo (p : PC κ) : Except Int (PC κ) :=
  match oidToSig p.lastOid with
  | none => .error (-ENOPKG)
  | some t => .ok { p with cur := { p.cur with sig := { p.cur.sig with algo := t } } }

/-- `pkcs7_check_content_type`, lines 243-259. -/
def checkContentType (p : PC κ) : Except Int (PC κ) :=
  if p.lastOid ≠ OID_signed_data then .error (-EINVAL) else .ok p

/-- `pkcs7_note_signeddata_version`, lines 264-297. -/
def noteMsgVersion (e : El) (p : PC κ) : Except Int (PC κ) :=
  match e.content with
  | [v] => if v = 1 ∨ v = 3 then .ok { p with version := v } else .error (-EINVAL)
  | _ => .error (-EINVAL)

/-- `pkcs7_note_signerinfo_version`, lines 302-343. -/
def noteSiVersion (e : El) (p : PC κ) : Except Int (PC κ) :=
  match e.content with
  | [v] =>
    if v = 1 then (if p.version ≠ 1 then .error (-EBADMSG) else .ok { p with expectSkid := false })
    else if v = 3 then (if p.version = 1 then .error (-EBADMSG) else .ok { p with expectSkid := true })
    else .error (-EINVAL)
  | _ => .error (-EINVAL)

/-- `pkcs7_extract_cert`, lines 359-401; `pc` is `lc_x509_cert_parse`.  Certificates of indefinite length are not modelled. -/
def extractCert (pc : Bytes → Except Int κ) (e : El) (p : PC κ) : Except Int (PC κ) :=
  if e.tag ≠ 0x30 then .error (-EBADMSG)
  else if e.hdr.getD 1 0 = 0x80 then .error (-ENOSTEPS)
  else match pc (e.hdr ++ e.content) with
    | .error r => .error r
    | .ok c => .ok { p with certs := p.certs ++ [c] }

/-- `pkcs7_note_certificate_list`, lines 418-435. -/
def noteCertList (p : PC κ) : Except Int (PC κ) := .ok { p with msgCerts := p.certs ++ p.msgCerts, certs := [] }

/-- `pkcs7_note_content`, lines 440-458. -/
def noteContent (p : PC κ) : Except Int (PC κ) :=
  if p.lastOid ≠ OID_data ∧ p.lastOid ≠ OID_msIndirectData then .error (-EINVAL) else .ok { p with dataType := p.lastOid }

/-- `pkcs7_note_data`, lines 463-476. -/
def noteData (e : El) (p : PC κ) : Except Int (PC κ) := .ok { p with data := some e.content }

/-- `test_and_set_bit`, lines 46-54, and the rejection of a repeated attribute. -/
def onceBit (b : UInt64) (p : PC κ) : Except Int (PC κ) :=
  if p.aaSet &&& b != 0 then .error (-EKEYREJECTED) else .ok { p with aaSet := p.aaSet ||| b }

/-- `pkcs7_sig_note_authenticated_attr`, lines 481-568. -/
def noteAuthAttr (e : El) (p : PC κ) : Except Int (PC κ) :=
  if p.lastOid = OID_contentType then do
    let p ← onceBit HAS_CONTENT_TYPE p
    if lookUp e.content ≠ p.dataType then .error (-EBADMSG) else .ok p
  else if p.lastOid = OID_signingTime then do
    let p ← onceBit HAS_SIGNING_TIME p
    match X509.decodeTime e.tag e.content with
    | none => .error (-EBADMSG)
    | some t => .ok { p with cur := { p.cur with signingTime := some t } }
  else if p.lastOid = OID_messageDigest then do
    let p ← onceBit HAS_MESSAGE_DIGEST p
    if e.tag ≠ 4 then .error (-EBADMSG) else .ok { p with cur := { p.cur with msgdigest := some e.content } }
  else if p.lastOid = OID_smimeCapabilites then onceBit HAS_SMIME_CAPS p
  else if p.lastOid = OID_msSpOpusInfo then do
    let p ← onceBit HAS_MS_OPUS_INFO p
    if p.dataType ≠ OID_msIndirectData then .error (-EKEYREJECTED) else .ok p
  else if p.lastOid = OID_msStatementType then do
    let p ← onceBit HAS_MS_STATEMENT_TYPE p
    if p.dataType ≠ OID_msIndirectData then .error (-EKEYREJECTED) else .ok p
  else .ok p

/-- `pkcs7_sig_note_set_of_authattrs`, lines 573-599: the octets behind the tag are kept. -/
def noteAuthAttrs (e : El) (p : PC κ) : Except Int (PC κ) :=
  if p.aaSet &&& HAS_CONTENT_TYPE == 0 || p.aaSet &&& HAS_MESSAGE_DIGEST == 0 then .error (-EBADMSG)
  else if p.dataType ≠ OID_msIndirectData ∧ p.aaSet &&& HAS_MS_OPUS_INFO != 0 then .error (-EBADMSG)
  else .ok { p with cur := { p.cur with authattrs := some (e.hdr.drop 1 ++ e.content) } }

/-- `pkcs7_sig_note_signature`, lines 654-670. -/
def noteSignature (e : El) (p : PC κ) : Except Int (PC κ) :=
  if p.cur.sig.s.isSome then .error (-EOVERFLOW)
  else .ok { p with cur := { p.cur with sig := { p.cur.sig with s := some e.content } } }

/-- `pkcs7_note_signed_info`, lines 675-719. -/
def noteSignedInfo (p : PC κ) : Except Int (PC κ) :=
  if p.dataType = OID_msIndirectData ∧ p.cur.authattrs = none then .error (-EBADMSG)
  else match (if p.expectSkid then generateId p.skid [] else generateId p.serial p.issuer) with
    | .error e => .error e
    | .ok k => .ok { p with sinfos := p.sinfos ++ [{ p.cur with sig := { p.cur.sig with auth0 := k } }],
                            cur := { sig := { s := none, algo := 0 } }, aaSet := 0 }

/-- The actions of the parser. -/
def p7PActs (pc : Bytes → Except Int κ) : PAct (PC κ) := fun i e p =>
  match i with
  | 1 | 3 | 4 | 5 | 11 | 22 => noteOid e p
  | 2 => checkContentType p
  | 7 | 9 | 10 => extractCert pc e p
  | 12 => noteCertList p
  | 13 => noteContent p
  | 14 => noteData e p
  | 15 => noteSignedInfo p
  | 16 => noteMsgVersion e p
  | 17 => noteSiVersion e p
  | 18 => noteAuthAttr e p
  | 19 => noteDigestAlgo p
  | 20 => .ok { p with issuer := e.content }
  | 21 => notePkeyAlgo p
  | 23 => .ok { p with serial := e.content }
  | 24 => noteAuthAttrs e p
  | 25 => noteSignature e p
  | 26 => .ok { p with skid := e.content }
  | _ => .ok p

/-- `pkcs7_check_authattrs`, lines 92-115. -/
def checkAuthattrs : List SInfo → Bool
  | [] => false
  | s :: ss => ss.all fun t => t.authattrs.isSome == s.authattrs.isSome

/-- The result of `lc_pkcs7_message_parse`. -/
structure Parsed (κ : Type) where
  version : UInt8
  dataType : Nat
  data : Option Bytes
  certs : List κ
  sinfos : List SInfo

/-- `lc_pkcs7_message_parse`, lines 784-829. -/
def messageParse (pc : Bytes → Except Int κ) (data : Bytes) (n : Nat) : Except Int (Parsed κ) :=
  match parse pkcs7 (p7PActs pc) {} data n with
  | .done r (some p) =>
    if r < 0 then .error r
    else if checkAuthattrs p.sinfos then .ok ⟨p.version, p.dataType, p.data, p.msgCerts, p.sinfos⟩ else .error (-EINVAL)
  | .done r none => if r < 0 then .error r else .error (-ENOSTEPS)
  | _ => .error (-ENOSTEPS)

end LC.P7
