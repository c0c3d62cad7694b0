/-
Model of the X.509 time decoder, `/repo/asn1/src/x509_cert_parser.c:850-967`.
-/
namespace LC.X509

abbrev Byte := UInt8

/-- `mktime64`, lines 850-871.  `unsigned int` arithmetic is modelled in `Int`; the decoder only
passes values for which nothing wraps (`year ≤ 9999`, `mon ≤ 12`). -/
def mktime64 (year0 mon0 day hour min sec : Nat) : Int :=
  -- `if (0 >= (int)(mon -= 2)) { mon += 12; year -= 1; }`
  let mon : Nat := if mon0 ≤ 2 then mon0 + 10 else mon0 - 2
  let year : Nat := if mon0 ≤ 2 then year0 - 1 else year0
  ((((year / 4 - year / 100 + year / 400 + 367 * mon / 12 + day : Nat) : Int)
      + (year * 365 : Nat) - 719499) * 24 + hour) * 60 * 60 + (min : Int) * 60 + sec

/-- `dec2bin`, lines 889-895: `unsigned char xx = X - '0'; if (xx > 9) goto invalid_time`. -/
def dec2bin (x : Byte) : Option Nat :=
  let xx := x - 48
  if xx > 9 then none else some xx.toNat

/-- `DD2bin`, lines 896-902: two digits; the remaining bytes are returned. -/
def dd2bin : List Byte → Option (Nat × List Byte)
  | a :: b :: rest => do
    let x ← dec2bin a
    let y ← dec2bin b
    pure (x * 10 + y, rest)
  | _ => none

def monthLengths : List Nat := [31, 28, 31, 30, 31, 30, 31, 31, 30, 31, 30, 31]

/-- `mon_len`, lines 936-946. -/
def monLen (year mon : Nat) : Nat :=
  if mon = 2 then
    if year % 4 = 0 then
      (if year % 100 = 0 then (if year % 400 = 0 then 29 else 28) else 29)
    else monthLengths.getD (mon - 1) 0
  else monthLengths.getD (mon - 1) 0

/-- `ASN1_UNITIM` and `ASN1_GENTIM` (`asn1.h`). -/
def UNITIM : Nat := 23
def GENTIM : Nat := 24

/-- The year part, lines 904-922: year and remaining bytes. -/
def decodeYear (tag : Nat) (value : List Byte) : Option (Nat × List Byte) :=
  if tag = UNITIM then
    if value.length ≠ 13 then none
    else (dd2bin value).map fun r => (if r.1 ≥ 50 then r.1 + 1900 else r.1 + 2000, r.2)
  else if tag = GENTIM then
    if value.length ≠ 15 then none
    else do
      let (a, rest) ← dd2bin value
      let (b, rest) ← dd2bin rest
      let year := a * 100 + b
      if year ≥ 1950 ∧ year ≤ 2049 then none else pure (year, rest)
  else none

/-- `x509_decode_time`, lines 873-967; `none` is `-EBADMSG`. -/
def decodeTime (tag : Nat) (value : List Byte) : Option Int := do
  let (year, value) ← decodeYear tag value
  let (mon, value) ← dd2bin value
  let (day, value) ← dd2bin value
  let (hour, value) ← dd2bin value
  let (min, value) ← dd2bin value
  let (sec, value) ← dd2bin value
  if value.headD 0 ≠ 90 then none
  else if year < 1970 ∨ mon < 1 ∨ mon > 12 then none
  else if day < 1 ∨ day > monLen year mon ∨ hour > 24 ∨ min > 59 ∨ sec > 60 then none
  else pure (mktime64 year mon day hour min sec)

end LC.X509
