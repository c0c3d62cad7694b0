import Verif.Asn1.EncSim
import Verif.X509.Model
import Verif.X509.TimeModel
import Verif.Oid.Props
/-
Model of the X.509 certificate generator, `/repo/asn1/src/x509_cert_generator.c`, and of the
certificate parser, `/repo/asn1/src/x509_cert_parser.c`: the actions of the grammars `x509`, `x509_eku`,
`x509_basic_constraints`, `x509_san`, `x509_keyusage`, `x509_skid`, `x509_akid` and
`x509_composite_mldsa_pubkey` for both directions.  They run on the models of the encoder
(`Asn1/Encoder.lean`) and of the decoder (`Asn1/Model.lean`).

Not modelled: the signing itself, `x509_check_for_self_signed` (it is in `X509/Model.lean`), NULL pointer
arguments, debug output.
-/
namespace LC.Crt
open LC.Asn1 LC.Asn1.Gen LC.Asn1.Tr
open LC.X509 (ExtState Kid generateId extCritical basicConstraintsCa basicConstraintsPathlen keyUsageAct)
open LC.Oid (oidData lookUp)

abbrev Bytes := List UInt8

/-! ### Constants -/

def EINVAL : Int := 22
def EFAULT : Int := 14
def ENOENT : Int := 2
def EBADMSG : Int := 74
def EOVERFLOW : Int := 75
def ENOPKG : Int := 65
/-- Not a C value: the model of a nested coder ran out of steps or met undefined behaviour. -/
def ENOSTEPS : Int := 1000000

/-- `enum OID` values, `/repo/asn1/api/lc_asn1.h`. -/
def OID_email : Nat := 18
def OID_CN : Nat := 47
def OID_C : Nat := 49
def OID_ST : Nat := 51
def OID_O : Nat := 52
def OID_OU : Nat := 53
def OID_SKID : Nat := 60
def OID_keyUsage : Nat := 61
def OID_SAN : Nat := 62
def OID_BC : Nat := 64
def OID_AKID : Nat := 67
def OID_EKU : Nat := 68
def OID_any : Nat := 69
def OID_serverAuth : Nat := 70
def OID_clientAuth : Nat := 71
def OID_codeSigning : Nat := 72
def OID_emailProtection : Nat := 73
def OID_timeStamping : Nat := 74
def OID_OCSPSigning : Nat := 75

/-- `x509_algo_table`, `/repo/asn1/src/x509_algorithm_mapper.c:36-162`: OID and `enum lc_sig_types`. -/
def algoTable : List (Nat × Nat) :=
  [(112, 1), (113, 2), (114, 3), (119, 13), (118, 12), (121, 11), (120, 10), (123, 9), (122, 8),
   (109, 14), (110, 14), (111, 14), (106, 15), (107, 15), (108, 15), (12, 14), (7, 15),
   (115, 4), (116, 5), (117, 7), (13, 14), (14, 14), (8, 15), (9, 15), (10, 14)]

/-- `lc_x509_sig_type_to_oid`, lines 192-205. -/
def sigToOid (t : Nat) : Option Nat := (algoTable.find? fun e => e.2 == t).map (·.1)

/-- `lc_x509_oid_to_sig_type`, lines 497-511. -/
def oidToSig (o : Nat) : Option Nat := (algoTable.find? fun e => e.1 == o).map (·.2)

/-- `x509_eku_to_name`, `/repo/asn1/src/x509_cert_parser_get_data.c:76-86`; the entry for "critical" has the OID number 0. -/
def ekuTable : List (Nat × UInt16) :=
  [(0, 2), (OID_any, 8), (OID_serverAuth, 0x10), (OID_clientAuth, 0x20), (OID_codeSigning, 0x40),
   (OID_emailProtection, 0x80), (OID_timeStamping, 0x100), (OID_OCSPSigning, 0x200)]

/-- `lc_x509_cert_oid_to_eku`, lines 91-103. -/
def oidToEku (o : Nat) : Option UInt16 := (ekuTable.find? fun e => e.1 == o).map (·.2)

/-- `struct lc_x509_certificate_name`; the sizes are `uint8_t`. -/
structure Name where
  cn : Bytes := []
  o : Bytes := []
  email : Bytes := []
  c : Bytes := []
  st : Bytes := []
  ou : Bytes := []
deriving DecidableEq, Repr

/-! ### The generator -/

/-- `struct lc_x509_generate_data`: the type, the public key (`lc_dilithium_pk_ptr`, `lc_sphincs_pk_ptr`; of a
composite key the ML-DSA part), the Ed25519 part of a composite key, the SHA3-256 of the key. -/
structure KeyGen where
  sigType : Nat := 0
  pk : Bytes := []
  pkEd : Bytes := []
  digest : Bytes := List.replicate 32 0
deriving DecidableEq, Repr

/-- What the generator reads of `struct lc_x509_certificate`. -/
structure In where
  serial : Bytes := []
  issuer : Name := {}
  subject : Name := {}
  sanDir : Name := {}
  sanDns : Bytes := []
  sanIp : Bytes := []
  skid : Bytes := []
  akid : Bytes := []
  validFrom : Int := 0
  validTo : Int := 0
  sigAlgo : Nat := 0
  pubAlgo : Nat := 0
  keyUsage : UInt16 := 0
  keyEku : UInt16 := 0
  caPathlen : UInt8 := 0
  gen : KeyGen := {}
deriving DecidableEq, Repr

/-- `struct x509_generate_context`, `x509_cert_generator.h`, without the pointer to the certificate, which is a parameter. -/
structure GCtx where
  ekuDone : UInt16 := 0
  kuDone : UInt16 := 0
  pathDone : UInt8 := 0
  sanDone : UInt8 := 0
  issDone : UInt8 := 0
  subDone : UInt8 := 0
  skidDone : Bool := false
  akidDone : Bool := false
  algoSet : Nat := 0
  subjAttr : Bool := false
  time : Int := 0
  timeSet : Bool := false
deriving DecidableEq, Repr

/-- An action apart from the space it needs: result, bytes, context. -/
abbrev Simple := GCtx → Except Int (Nat × Bytes × GCtx)

/-- `x509_sufficient_size` and the copy to the buffer (`x509_cert_generator.h`). -/
def simple (f : Simple) : Act GCtx := fun x avail =>
  match f x with
  | .error e => .error e
  | .ok (r, b, x) => if avail < b.length then .error (-EOVERFLOW) else .ok { ret := r, bytes := b, ctx := x }

/-- `x509_set_bit_string`, lines 49-69. -/
def bitString (b : Bytes) : Bytes := if b = [] then [] else 0 :: b

/-- `x509_eku_unprocessed`, lines 75-85. -/
def ekuUn (c : In) (x : GCtx) (m : UInt16) : Bool := (c.keyEku &&& ~~~x.ekuDone) &&& m != 0

/-- `LC_KEY_EKU_MASK`, `LC_KEY_USAGE_MASK` (`lc_x509_common.h`). -/
def EKU_MASK : UInt16 := 0xFFFD
def KU_MASK : UInt16 := 0x9FFF

/-- `x509_eku_enc`, lines 87-138. -/
def ekuEnc (c : In) : Simple := fun x =>
  if ekuUn c x 8 then .ok (0, oidData OID_any, { x with ekuDone := x.ekuDone ||| 8 })
  else if ekuUn c x 0x10 then .ok (0, oidData OID_serverAuth, { x with ekuDone := x.ekuDone ||| 0x10 })
  else if ekuUn c x 0x20 then .ok (0, oidData OID_clientAuth, { x with ekuDone := x.ekuDone ||| 0x20 })
  else if ekuUn c x 0x40 then .ok (0, oidData OID_codeSigning, { x with ekuDone := x.ekuDone ||| 0x40 })
  else if ekuUn c x 0x80 then .ok (0, oidData OID_emailProtection, { x with ekuDone := x.ekuDone ||| 0x80 })
  else if ekuUn c x 0x100 then .ok (0, oidData OID_timeStamping, { x with ekuDone := x.ekuDone ||| 0x100 })
  else if ekuUn c x 0x200 then .ok (0, oidData OID_OCSPSigning, { x with ekuDone := x.ekuDone ||| 0x200 })
  else .error (-EINVAL)

/-- The path length without `LC_KEY_CA_CRITICAL`. -/
def pathlen (c : In) : UInt8 := c.caPathlen &&& 0x7f

/-- `x509_pathlen_unprocessed`, lines 140-149. -/
def pathUn (c : In) (x : GCtx) : Bool := pathlen c != x.pathDone

/-- `x509_basic_constraints_ca_enc`, lines 154-180. -/
def bcCaEnc (c : In) : Simple := fun x =>
  if pathUn c x then .ok (0, [if pathlen c != 0 then 0xff else 0], { x with pathDone := 16 }) else .ok (0, [], x)

/-- `x509_basic_constraints_pathlen_enc`, lines 185-205. -/
def bcPathEnc (c : In) : Simple := fun x =>
  if pathUn c x then .ok (0, [pathlen c], { x with pathDone := pathlen c }) else .ok (0, [], x)

/-- `x509_name_unprocessed`, lines 207-224. -/
def nameUn (nm : Name) (done : UInt8) : Bool :=
  (nm.c != [] && done &&& 8 == 0) || (nm.cn != [] && done &&& 1 == 0) || (nm.o != [] && done &&& 2 == 0) ||
  (nm.email != [] && done &&& 4 == 0) || (nm.st != [] && done &&& 16 == 0) || (nm.ou != [] && done &&& 32 == 0)

/-- `x509_name_OID_enc`, lines 226-265. -/
def nameOid (nm : Name) (done : UInt8) : Bytes :=
  if nm.cn != [] && done &&& 1 == 0 then oidData OID_CN
  else if nm.o != [] && done &&& 2 == 0 then oidData OID_O
  else if nm.email != [] && done &&& 4 == 0 then oidData OID_email
  else if nm.c != [] && done &&& 8 == 0 then oidData OID_C
  else if nm.st != [] && done &&& 16 == 0 then oidData OID_ST
  else if nm.ou != [] && done &&& 32 == 0 then oidData OID_OU
  else []

/-- `x509_name_segment_enc`, lines 279-340: bytes and flags. -/
def nameSeg (nm : Name) (done : UInt8) : Bytes × UInt8 :=
  if nm.cn != [] && done &&& 1 == 0 then (nm.cn, done ||| 1)
  else if nm.o != [] && done &&& 2 == 0 then (nm.o, done ||| 2)
  else if nm.email != [] && done &&& 4 == 0 then (nm.email, done ||| 4)
  else if nm.c != [] && done &&& 8 == 0 then (nm.c, done ||| 8)
  else if nm.st != [] && done &&& 16 == 0 then (nm.st, done ||| 16)
  else if nm.ou != [] && done &&& 32 == 0 then (nm.ou, done ||| 32)
  else ([], done)

/-- `x509_san_unprocessed`, lines 354-364. -/
def sanUn (c : In) (x : GCtx) : Bool :=
  (c.sanDns != [] && x.sanDone &&& 64 == 0) || (c.sanIp != [] && x.sanDone &&& 128 == 0) ||
  nameUn c.sanDir x.sanDone

/-- `x509_san_dns_enc`, lines 369-389. -/
def sanDnsEnc (c : In) : Simple := fun x =>
  if c.sanDns != [] && x.sanDone &&& 64 == 0 then .ok (0, c.sanDns, { x with sanDone := x.sanDone ||| 64 })
  else .ok (0, [], x)

/-- `x509_san_ip_enc`, lines 394-413. -/
def sanIpEnc (c : In) : Simple := fun x =>
  if c.sanIp != [] && x.sanDone &&& 128 == 0 then .ok (0, c.sanIp, { x with sanDone := x.sanDone ||| 128 })
  else .ok (0, [], x)

/-- `x509_san_OID_enc`, lines 267-277. -/
def sanOidEnc (c : In) : Simple := fun x => .ok (0, nameOid c.sanDir x.sanDone, x)

/-- `x509_extract_name_segment_enc`, lines 342-352. -/
def sanSegEnc (c : In) : Simple := fun x =>
  let r := nameSeg c.sanDir x.sanDone
  .ok (0, r.1, { x with sanDone := r.2 })

/-- `x509_keyusage_unprocessed`, lines 415-425. -/
def kuUn (c : In) (x : GCtx) : Bool := (c.keyUsage &&& ~~~x.kuDone) &&& KU_MASK != 0

/-- `x509_keyusage_enc`, lines 430-456: the value as big-endian bytes. -/
def kuEnc (c : In) : Simple := fun x =>
  let v := c.keyUsage &&& KU_MASK
  .ok (0, [(v >>> 8).toUInt8, v.toUInt8], { x with kuDone := c.keyUsage })

/-- `x509_skid_enc`, lines 470-502. -/
def skidEnc (c : In) : Simple := fun x =>
  .ok (0, if c.skid != [] then c.skid else c.gen.digest, { x with skidDone := true })

/-- `x509_akid_unprocessed`, lines 504-513; the second source, `ctx->akid_raw_issuer`, is never set. -/
def akidUn (c : In) (x : GCtx) : Bool := c.akid != [] && !x.akidDone

/-- `x509_akid_note_kid_enc`, lines 518-537. -/
def akidKidEnc (c : In) : Simple := fun x => .ok (0, c.akid, { x with akidDone := true })

/-- The actions of the extension grammars (`x509_eku.asn1.c` to `x509_akid.asn1.c`); the actions that write nothing
(`x509_akid_note_OID_enc`, `_note_name_enc`, and `_note_serial_enc` because its source is empty) are `nopEnc`. -/
def nopEnc : Simple := fun x => .ok (0, [], x)

def ekuActs (c : In) : Nat → Simple := fun _ => ekuEnc c
def bcActs (c : In) : Nat → Simple := fun i => if i = 0 then bcCaEnc c else bcPathEnc c
def sanActs (c : In) : Nat → Simple := fun i =>
  if i = 0 then sanSegEnc c else if i = 1 then sanOidEnc c else if i = 2 then sanDnsEnc c else sanIpEnc c
def kuActs (c : In) : Nat → Simple := fun _ => kuEnc c
def skidActs (c : In) : Nat → Simple := fun _ => skidEnc c
/-- Action 4 is `x509_extract_name_segment_enc`, which works on the directory name of the SAN. -/
def akidActs (c : In) : Nat → Simple := fun i => if i = 1 then akidKidEnc c else if i = 4 then sanSegEnc c else nopEnc

/-- A nested encoder as an action: output and context of the encoder. -/
def nested (d : Decoder) (f : Nat → Simple) (c : Cfg) (n : Nat) : Act GCtx := fun x avail =>
  match encode ⟨d, fun i => simple (f i)⟩ c x avail n with
  | .halt r s => if r < 0 then .error r else .ok { bytes := s.out, ctx := s.ctx }
  | _ => .error (-ENOSTEPS)

/-- `x509_process_extension_enc`, lines 703-750. -/
def procExtEnc (c : In) (n : Nat) : Act GCtx := fun x avail =>
  if ekuUn c x EKU_MASK then nested x509_eku (ekuActs c) small n x avail
  else if pathUn c x then nested x509_basic_constraints (bcActs c) small n x avail
  else if sanUn c x then nested x509_san (sanActs c) large n x avail
  else if kuUn c x then nested x509_keyusage (kuActs c) small n x avail
  else if !x.skidDone then nested x509_skid (skidActs c) small n x avail
  else if akidUn c x then nested x509_akid (akidActs c) large n x avail
  else .ok { ctx := x }

/-- `x509_extension_continue_enc`, lines 592-615. -/
def extContEnc (c : In) : Simple := fun x =>
  .ok (if ekuUn c x EKU_MASK || pathUn c x || sanUn c x || kuUn c x || !x.skidDone || akidUn c x then 1 else 0, [], x)

/-- `x509_extension_OID_enc`, lines 617-659. -/
def extOidEnc (c : In) : Simple := fun x =>
  .ok (0, if ekuUn c x EKU_MASK then oidData OID_EKU
          else if pathUn c x then oidData OID_BC
          else if sanUn c x then oidData OID_SAN
          else if kuUn c x then oidData OID_keyUsage
          else if !x.skidDone then oidData OID_SKID
          else if akidUn c x then oidData OID_AKID
          else [], x)

/-- `ASN1_TRUE`, `ASN1_FALSE`. -/
def boolByte (b : Bool) : Bytes := [if b then 0xff else 0]

/-- `x509_extension_critical_enc`, lines 661-701. -/
def extCritEnc (c : In) : Simple := fun x =>
  .ok (0, if ekuUn c x EKU_MASK then boolByte (c.keyEku &&& 2 != 0)
          else if pathUn c x then boolByte (c.caPathlen &&& 0x80 != 0)
          else if sanUn c x then []
          else if kuUn c x then boolByte (c.keyUsage &&& 0x4000 != 0)
          else [], x)

/-- `x509_note_algorithm_OID_enc`, lines 782-818. -/
def algOidEnc (c : In) : Simple := fun x =>
  let x := { x with algoSet := x.algoSet + 1 }
  match sigToOid (if x.algoSet = 2 then c.pubAlgo else c.sigAlgo) with
  | none => .error (-ENOPKG)
  | some o => .ok (0, oidData o, x)

/-- `public_key_signature_size_dilithium_ed25519`, `/repo/asn1/src/public_key_dilithium_ed25519.c:528-558`, with the
length of the length octets (1 below 128, 3 from 256 to 65535). -/
def compositeSize (s : Nat) : Nat := ((s + 1 + 3 + 1) + 64 + 1 + 1 + 1) + 3

/-- Signature sizes in `x509_note_signature_enc`, lines 847-914 (`lc_dilithium_sig_size`, `lc_sphincs_sig_size`). -/
def sigSize : Nat → Option Nat
  | 1 => some 2420 | 2 => some 3309 | 3 => some 4627
  | 4 => some (compositeSize 2420) | 5 => some (compositeSize 3309) | 6 => some (compositeSize 4627)
  | 8 => some 29792 | 9 => some 49856 | 10 => some 16224 | 11 => some 35664 | 12 => some 7856 | 13 => some 17088
  | _ => none

/-- `x509_note_signature_enc` and `x509_signature_reserve_room`, lines 820-914. -/
def sigEnc (c : In) : Simple := fun x =>
  match sigSize c.sigAlgo with
  | none => .error (-ENOPKG)
  | some s => .ok (0, 0 :: List.replicate s 0xff, x)

/-- `x509_note_serial_enc`, lines 919-937. -/
def serialEnc (c : In) : Simple := fun x => .ok (0, c.serial, x)

/-- `x509_note_issuer_enc`, lines 949-963. -/
def issuerEnc : Simple := fun x => .ok (0, [], { x with subjAttr := true })
/-- `x509_note_subject_enc`, lines 965-978. -/
def subjectEnc : Simple := fun x => .ok (0, [], { x with subjAttr := false })

/-- The name in force, lines 990-1056. -/
def curName (c : In) (x : GCtx) : Name := if x.subjAttr then c.subject else c.issuer
def curDone (x : GCtx) : UInt8 := if x.subjAttr then x.subDone else x.issDone

/-- `x509_attribute_value_continue_enc`, lines 1043-1056. -/
def attrContEnc (c : In) : Simple := fun x => .ok (if nameUn (curName c x) (curDone x) then 1 else 0, [], x)
/-- `x509_note_attribute_type_OID_enc`, lines 1025-1041. -/
def attrOidEnc (c : In) : Simple := fun x => .ok (0, nameOid (curName c x) (curDone x), x)
/-- `x509_extract_attribute_name_segment_enc`, lines 1007-1023. -/
def attrSegEnc (c : In) : Simple := fun x =>
  let r := nameSeg (curName c x) (curDone x)
  .ok (0, r.1, if x.subjAttr then { x with subDone := r.2 } else { x with issDone := r.2 })

/-! Calendar -/

def leap (y : Int) : Bool := y % 4 == 0 && (y % 100 != 0 || y % 400 == 0)

/-- Year and day of the year of day `d` counted from the first of January of year `y`. -/
def yearOf : Nat → Int → Nat → Int × Nat
  | 0, y, d => (y, d)
  | n + 1, y, d =>
    let len := if leap y then 366 else 365
    if d < len then (y, d) else yearOf n (y + 1) (d - len)

/-- Month and day of the month of day `d` of the months from `m` on. -/
def monthOf (lp : Bool) : Nat → Nat → List Nat → Nat × Nat
  | m, d, [] => (m, d + 1)
  | m, d, l :: ls =>
    let l := if m = 2 && lp then l + 1 else l
    if d < l then (m, d + 1) else monthOf lp (m + 1) (d - l) ls

/-- `struct tm`: year, month 1..12, day of the month, hour, minute, second. -/
structure Tm where
  year : Int
  mon : Nat
  day : Nat
  hour : Nat
  min : Nat
  sec : Nat
deriving DecidableEq, Repr

/-- `gmtime(3)`, the calendar computed by counting; the calendar repeats every 146097 days. -/
def gmtime (t : Int) : Tm :=
  let days := t / 86400
  let secs := (t % 86400).toNat
  let (y, d) := yearOf 401 (1970 + 400 * (days / 146097)) (days % 146097).toNat
  let (m, d) := monthOf (leap y) 1 d [31, 28, 31, 30, 31, 30, 31, 31, 30, 31, 30]
  ⟨y, m, d, secs / 3600, secs / 60 % 60, secs % 60⟩

/-- `%02d` and `%.2d` of a value below 100. -/
def d2 (n : Nat) : Bytes := [48 + UInt8.ofNat (n / 10), 48 + UInt8.ofNat (n % 10)]

/-- `%.4d`: at least four digits. -/
def d4 (n : Nat) : Bytes :=
  if n < 10000 then d2 (n / 100) ++ d2 (n % 100) else (toString n).toList.map fun c => UInt8.ofNat c.toNat

/-- The time to be set next, lines 1080-1085, 1141-1146. -/
def nextTime (c : In) (x : GCtx) : Int := if x.time = 0 then c.validFrom else c.validTo

/-- `x509_set_uct_time_enc`, lines 1058-1118: `YYMMDDHHMMSSZ`, for times before 2050.  The code
asks for 13 bytes of space also when it writes nothing; the model does not (same for `genEnc c`).  Years before 1900, where
`tm_year % 100` is negative, are not modelled; the model fails there. -/
def utcEnc (c : In) : Simple := fun x =>
  if x.timeSet then .ok (0, [], x)
  else if nextTime c x ≥ 2524608000 then .ok (0, [], x)
  else
    let tm := gmtime (nextTime c x)
    if tm.year < 1900 then .error (-ENOSTEPS)
    else .ok (0, d2 ((tm.year - 1900).toNat % 100) ++ d2 tm.mon ++ d2 tm.day ++ d2 tm.hour ++ d2 tm.min ++ d2 tm.sec ++ [90],
              { x with time := nextTime c x, timeSet := true })

/-- `x509_set_gen_time_enc`, lines 1120-1176: `YYYYMMDDHHMMSSZ`, cut off after 15 characters, for times from 2050 on. -/
def genEnc (c : In) : Simple := fun x =>
  if x.timeSet then .ok (0, [], x)
  else if nextTime c x < 2524608000 then .ok (0, [], x)
  else
    let tm := gmtime (nextTime c x)
    .ok (0, (d4 tm.year.toNat ++ d2 tm.mon ++ d2 tm.day ++ d2 tm.hour ++ d2 tm.min ++ d2 tm.sec ++ [90]).take 15,
         { x with time := nextTime c x, timeSet := true })

/-- `x509_note_not_before_enc`, lines 1181-1201. -/
def notBeforeEnc (c : In) : Simple := fun x =>
  if x.time ≠ c.validFrom then .error (-EFAULT) else .ok (0, [], { x with timeSet := false })
/-- `x509_note_not_after_enc`, lines 1206-1226. -/
def notAfterEnc (c : In) : Simple := fun x =>
  if x.time ≠ c.validTo then .error (-EFAULT) else .ok (0, [], { x with timeSet := false })

/-- `x509_version_enc`, lines 1280-1304. -/
def versionEnc : Simple := fun x => .ok (0, [2], x)

/-- The Ed25519 and ML-DSA parts of a composite public key, `public_key_dilithium_ed25519.c:178-230`. -/
def compositeActs (c : In) : Nat → Simple := fun i x =>
  .ok (0, bitString (if i = 0 then c.gen.pkEd else c.gen.pk), x)

/-- `x509_extract_key_data_enc`, lines 1228-1278, for keys that are not composite. -/
def keyEnc (c : In) : Simple := fun x =>
  if c.gen.sigType ∈ [1, 2, 3, 8, 9, 10, 11, 12, 13] then .ok (0, bitString c.gen.pk, x)
  else .error (-ENOPKG)

/-- The action table of `x509.asn1.c` apart from the nested encoders. -/
def topActs (c : In) : Nat → Simple := fun i =>
  match i with
  | 0 => attrContEnc c | 1 => extOidEnc c | 2 => extContEnc c | 3 => extCritEnc c | 4 => attrSegEnc c | 5 => keyEnc c
  | 6 => algOidEnc c | 7 => attrOidEnc c | 8 => issuerEnc | 9 => notAfterEnc c | 10 => notBeforeEnc c | 12 => serialEnc c
  | 14 => sigEnc c | 15 => subjectEnc | 18 => genEnc c | 19 => utcEnc c | 21 => versionEnc | _ => nopEnc

/-- The actions of `x509_encoder`. -/
def certActs (c : In) (n : Nat) : Nat → Act GCtx := fun i x avail =>
  if i = 17 then procExtEnc c n x avail
  else if i = 5 ∧ c.gen.sigType ∈ [4, 5, 6] then nested x509_composite_mldsa_pubkey (compositeActs c) large n x avail
  else simple (topActs c i) x avail

/-- The encoder part of `lc_x509_cert_gen`, lines 1304-1327; the buffer has `avail` bytes. -/
def certEncode (c : In) (avail n : Nat) : Gen.Res GCtx := encode ⟨x509, certActs c n⟩ large {} avail n

/-! ### The parser -/

/-- `struct x509_parse_context` and the fields of `struct lc_x509_certificate` that the parser sets.  `cn`, `o` and `email`
are the bytes at `cn_offset` etc.; that the offset is stored as `uint16_t` is not modelled.  Of the fabricated names the
ones made from an IP address are not modelled (`none`). -/
structure P where
  lastOid : Nat := 0
  sigOid : Nat := 0
  sigType : Nat := 0
  keyOid : Nat := 0
  pkType : Nat := 0
  key : Option Bytes := none
  params : Option Bytes := none
  tbs : Bytes := []
  rawSig : Bytes := []
  serial : Bytes := []
  version : UInt8 := 0
  rawIssuer : Option Bytes := none
  rawSubject : Option Bytes := none
  issuer : Name := {}
  subject : Name := {}
  cn : Bytes := []
  o : Bytes := []
  email : Bytes := []
  issuerName : Option Bytes := none
  subjectName : Option Bytes := none
  authId0 : Kid := Kid.zero
  authId1 : Kid := Kid.zero
  authId2 : Kid := Kid.zero
  skid : Kid := Kid.zero
  id : Kid := Kid.zero
  rawSkid : Bytes := []
  akidExt : Option Bytes := none
  rawAkid : Bytes := []
  akidIssuer : Option Bytes := none
  sanDns : Bytes := []
  sanIp : Bytes := []
  validFrom : Int := 0
  validTo : Int := 0
  ext : ExtState := {}
deriving DecidableEq

/-- `x509_note_OID`, lines 60-76. -/
def noteOid (v : Bytes) (p : P) : P := { p with lastOid := lookUp v }

/-- `x509_note_sig_algo`, lines 101-119. -/
def noteSigAlgo (p : P) : Except Int P :=
  match oidToSig p.lastOid with
  | none => .error (-ENOPKG)
  | some t => .ok { p with sigOid := p.lastOid, sigType := t }

/-- `x509_note_signature`, lines 130-194.  Composite ML-DSA with Ed25519 keeps the first byte. -/
def noteSignature (v : Bytes) (p : P) : Except Int P :=
  if p.lastOid ≠ p.sigOid then .error (-EINVAL)
  else if p.sigType ∈ [4, 5, 6] ∨ p.sigType = 0 then .ok { p with rawSig := v }
  else match v with
    | 0 :: v => .ok { p with rawSig := v }
    | _ => .error (-EBADMSG)

/-- `(uint8_t)vlen` bytes of a value. -/
def u8take (v : Bytes) : Bytes := v.take (v.length % 256)

/-- The name component of `last_oid`. -/
def setSeg (oid : Nat) (v : Bytes) (nm : Name) : Name :=
  if oid = OID_CN then { nm with cn := v } else if oid = OID_O then { nm with o := v }
  else if oid = OID_email then { nm with email := v } else if oid = OID_C then { nm with c := v }
  else if oid = OID_ST then { nm with st := v } else if oid = OID_OU then { nm with ou := v } else nm

/-- `x509_extract_name_segment`, lines 230-286: the issuer until `raw_issuer` is set, then the subject. -/
def nameSegment (v : Bytes) (p : P) : P :=
  let p := if p.lastOid = OID_CN then { p with cn := u8take v } else if p.lastOid = OID_O then { p with o := u8take v }
    else if p.lastOid = OID_email then { p with email := u8take v } else p
  if p.rawIssuer.isSome then { p with subject := setSeg p.lastOid (u8take v) p.subject }
  else { p with issuer := setSeg p.lastOid (u8take v) p.issuer }

/-- `x509_fabricate_name`, lines 317-436: the name; `none` if it is made from an IP address.  `lc_memcmp_secure` of
different sizes is not equal. -/
def fabricate (p : P) (subject : Bool) : Except Int (Option Bytes × P) :=
  if subject && p.sanDns != [] then .ok (some (p.sanDns.take 128), p)
  else if subject && p.sanIp != [] then .ok (none, p)
  else
    let q := { p with cn := [], o := [], email := [] }
    let single (v : Bytes) : Except Int (Option Bytes × P) :=
      if v.length > 128 then .error (-EOVERFLOW) else .ok (some v, q)
    if p.cn = [] ∧ p.o = [] ∧ p.email = [] then .ok (some [], q)
    else if p.cn ≠ [] ∧ p.o ≠ [] then
      (if p.cn = p.o then single p.cn
       else if p.cn.length ≥ 7 ∧ p.o.length ≥ 7 ∧ p.cn.take 7 = p.o.take 7 then single p.cn
       else if p.o.length + 2 + p.cn.length + 1 > 128 then .error (-EOVERFLOW)
       else .ok (some (p.o ++ [58, 32] ++ p.cn), q))
    else if p.cn ≠ [] then single p.cn
    else if p.o ≠ [] then single p.o
    else single p.email

/-- `x509_note_issuer`, lines 438-458. -/
def noteIssuer (v : Bytes) (p : P) : Except Int P :=
  let p := { p with rawIssuer := some v }
  match (if p.authId2.len = 0 then (generateId v []).map (fun k => { p with authId2 := k }) else .ok p) with
  | .error e => .error e
  | .ok p =>
    match fabricate p false with
    | .error e => .error e
    | .ok (nm, p) => .ok { p with issuerName := nm }

/-- `x509_note_subject`, lines 463-472. -/
def noteSubject (v : Bytes) (p : P) : Except Int P :=
  match fabricate { p with rawSubject := some v } true with
  | .error e => .error e
  | .ok (nm, p) => .ok { p with subjectName := nm }

/-- `x509_note_params`, lines 477-495. -/
def noteParams (hdr v : Bytes) (p : P) : P :=
  if p.rawSubject.isNone || p.key.isSome then p else { p with params := some (hdr ++ v) }

/-- `x509_extract_key_data`, lines 500-576. -/
def keyData (v : Bytes) (p : P) : Except Int P :=
  match oidToSig p.lastOid with
  | none => .error (-ENOPKG)
  | some t =>
    .ok { p with keyOid := p.lastOid, pkType := t, key := some (match v with | 0 :: v => v | v => v) }

/-- The result of an action of `X509/Model.lean`; `none` is `-EBADMSG`. -/
def liftExt (p : P) (r : Option ExtState) : Except Int P :=
  match r with
  | none => .error (-EBADMSG)
  | some e => .ok { p with ext := e }

/-- `x509_eku`, lines 599-625. -/
def ekuActP (v : Bytes) (p : P) : Except Int P :=
  match oidToEku (lookUp v) with
  | none => .error (-ENOENT)
  | some m => .ok { p with lastOid := lookUp v,
                           ext := { p.ext with keyEku := ((p.ext.keyEku ||| m) ||| (if p.ext.critical then 2 else 0)) ||| 4 } }

/-- `x509_san_dns`, lines 630-643. -/
def sanDnsP (v : Bytes) (p : P) : Except Int P :=
  match fabricate { p with sanDns := v } true with
  | .error e => .error e
  | .ok (nm, p) => .ok { p with subjectName := nm }

/-- `x509_skid`, lines 761-783. -/
def skidP (v : Bytes) (p : P) : Except Int P :=
  if p.skid.len ≠ 0 ∨ v = [] then .error (-EBADMSG)
  else (generateId v []).map fun k => { p with rawSkid := v, skid := k }

def ekuPActs : PAct P := fun _ el p => ekuActP el.content p
def bcPActs : PAct P := fun i el p =>
  liftExt p (if i = 0 then basicConstraintsCa p.ext (some el.content) else basicConstraintsPathlen p.ext (some el.content))
def kuPActs : PAct P := fun _ el p => liftExt p (keyUsageAct p.ext el.content)
def skidPActs : PAct P := fun _ el p => skidP el.content p
/-- `x509_extract_name_segment`, `x509_san_OID`, `x509_san_dns`, `x509_san_ip`. -/
def sanPActs : PAct P := fun i el p =>
  if i = 0 then .ok (nameSegment el.content p) else if i = 1 then .ok (noteOid el.content p)
  else if i = 2 then sanDnsP el.content p else .ok { p with sanIp := el.content }

/-- A nested decoder as part of an action. -/
def subParse (d : Decoder) (act : PAct P) (n : Nat) (data : Bytes) (p : P) : Except Int P :=
  match parse d act p data n with
  | .done r (some p) => if r < 0 then .error r else .ok p
  | .done r none => if r < 0 then .error r else .error (-ENOSTEPS)
  | _ => .error (-ENOSTEPS)

/-- `x509_process_extension`, lines 794-837.  `last_oid` is compared again after every step, as in the code. -/
def procExtP (n : Nat) (v : Bytes) (p : P) : Except Int P := do
  let p ← if p.lastOid = OID_SKID then subParse x509_skid skidPActs n v p else .ok p
  let p ← if p.lastOid = OID_keyUsage then subParse x509_keyusage kuPActs n v p else .ok p
  if p.lastOid = OID_AKID then .ok { p with akidExt := some v }
  else do
    let p ← if p.lastOid = OID_BC then subParse x509_basic_constraints bcPActs n v p else .ok p
    let p ← if p.lastOid = OID_EKU then subParse x509_eku ekuPActs n v p else .ok p
    if p.lastOid = OID_SAN then subParse x509_san sanPActs n v p else .ok p

/-- `x509_note_not_before`, `x509_note_not_after`, lines 972-991. -/
def timeP (tag : Nat) (v : Bytes) (set : Int → P) : Except Int P :=
  match LC.X509.decodeTime tag v with
  | none => .error (-EBADMSG)
  | some t => .ok (set t)

/-- `x509_version`, lines 1099-1117. -/
def versionP (v : Bytes) (p : P) : Except Int P :=
  match v with
  | [b] => .ok { p with version := b + 1 }
  | _ => .error (-EBADMSG)

/-- The action table of `x509.asn1.c` for the decoder. -/
def certPActs (n : Nat) : PAct P := fun i el p =>
  match i with
  | 1 => .ok (noteOid el.content p)
  | 3 => liftExt p (extCritical p.ext (some el.content))
  | 4 => .ok (nameSegment el.content p)
  | 5 => keyData el.content p
  | 6 => .ok (noteOid el.content p)
  | 7 => .ok (noteOid el.content p)
  | 8 => noteIssuer el.content p
  | 9 => timeP el.tag el.content fun t => { p with validTo := t }
  | 10 => timeP el.tag el.content fun t => { p with validFrom := t }
  | 11 => .ok (noteParams el.hdr el.content p)
  | 12 => .ok { p with serial := el.content }
  | 13 => noteSigAlgo p
  | 14 => noteSignature el.content p
  | 15 => noteSubject el.content p
  | 16 => .ok { p with tbs := el.hdr ++ el.content }
  | 17 => procExtP n el.content p
  | 21 => versionP el.content p
  | _ => .ok p

/-- `x509_akid_note_kid`, lines 1018-1043. -/
def akidKidP (v : Bytes) (p : P) : Except Int P :=
  if p.authId1.len ≠ 0 then .ok p
  else (generateId v []).map fun k => { p with rawAkid := v, authId1 := k }

/-- `x509_akid_note_serial`, lines 1066-1091. -/
def akidSerialP (v : Bytes) (p : P) : Except Int P :=
  match p.akidIssuer with
  | none => .ok p
  | some iss => if p.authId0.len ≠ 0 then .ok p else (generateId v iss).map fun k => { p with authId0 := k }

def akidPActs : PAct P := fun i el p =>
  if i = 0 then .ok (noteOid el.content p) else if i = 1 then akidKidP el.content p
  else if i = 2 then .ok { p with akidIssuer := some el.content } else if i = 3 then akidSerialP el.content p
  else .ok (nameSegment el.content p)

/-- `lc_x509_cert_parse`, lines 1133-1183, up to `x509_check_for_self_signed`. -/
def certParse (n : Nat) (data : Bytes) : Except Int P := do
  let p ← subParse x509 (certPActs n) n data {}
  let p ← match p.akidExt with
    | some v => subParse x509_akid akidPActs n v p
    | none => .ok p
  let k ← generateId p.serial (p.rawIssuer.getD [])
  .ok { p with id := k }

/-- `lc_x509_cert_gen`, lines 1310-1365: encode, decode the own output, put the signature in place of `raw_sig`.
`sign` is `public_key_generate_signature` for the data to be signed: the bytes written to the start of `raw_sig`.
The position of `raw_sig` is the end of the output, as it is the last value of the certificate. -/
def certGen (sign : Bytes → Nat → Except Int Bytes) (c : In) (avail n : Nat) : Except Int Bytes :=
  match certEncode c avail n with
  | .halt r s =>
    if r < 0 then .error r
    else match subParse x509 (certPActs n) n s.out {} with
      | .error e => .error e
      | .ok p =>
        match sign p.tbs p.rawSig.length with
        | .error e => .error e
        | .ok sig =>
          if sig.length > p.rawSig.length then .error (-ENOPKG)
          else .ok (s.out.take (s.out.length - p.rawSig.length) ++ (sig ++ p.rawSig.drop sig.length))
  | _ => .error (-ENOSTEPS)

end LC.Crt
