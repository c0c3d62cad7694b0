import Verif.Acc.Model

/-!
# Printing object identifiers

`sprint_oid`.  The buffer is a list of characters, at least `bufsize` long; `num`, an `unsigned long`, is taken modulo `2^64`.
-/

namespace LC.Acc

/-- `EBADMSG` -/
def EBADMSG : Int := 74
/-- `ENOBUFS` -/
def ENOBUFS : Int := 105

/-- `snprintf(buffer, bufsize, …)` where `buffer` has been moved to the position `pos`. -/
def printAt (buf : List Char) (pos size : Nat) (text : List Char) : List Char :=
  buf.take pos ++ snprintf (buf.drop pos) size text

/-- The `do` loop of `sprint_oid`, `/repo/asn1/src/oid_registry.c:160-166`: the number and the data behind it, `none` at the end
of the data.  `num <<= 7; num |= n & 0x7f` is written with arithmetic, the bits are disjoint. -/
def moreOid : List UInt8 → Nat → Option (Nat × List UInt8)
  | [], _ => none
  | n :: r, num =>
    let num' := num * 128 % 2 ^ 64 + n.toNat % 128
    if 128 ≤ n.toNat then moreOid r num' else some (num', r)

/-- The loop of the lines 154-173; at most `f` rounds, `f` is the number of bytes that are left. -/
def oidLoop : Nat → List UInt8 → List Char → Nat → Nat → Int → Int × List Char
  | _, [], buf, _, _, ret => (ret, buf)
  | 0, _ :: _, buf, _, _, ret => (ret, buf)
  | f + 1, n :: r, buf, pos, size, ret =>
    match (if n.toNat < 128 then some (n.toNat, r) else moreOid r (n.toNat % 128)) with
    | none => (-EBADMSG, printAt buf pos size "(bad)".toList)
    | some (num, r') =>
      let text := '.' :: Nat.toDigits 10 num
      let buf' := printAt buf pos size text
      if size ≤ text.length then (-ENOBUFS, buf')
      else oidLoop f r' buf' (pos + text.length) (size - text.length) (ret + text.length)

/-- `sprint_oid`, `/repo/asn1/src/oid_registry.c:135-180`. -/
def sprintOid (data : List UInt8) (buf : List Char) (bufsize : Nat) : Int × List Char :=
  match data with
  | [] => (-EBADMSG, printAt buf 0 bufsize "(bad)".toList)
  | n :: r =>
    if 2 ^ 31 - 1 < bufsize then (-EBADMSG, printAt buf 0 bufsize "(bad)".toList)
    else
      let text := Nat.toDigits 10 (n.toNat / 40) ++ '.' :: Nat.toDigits 10 (n.toNat % 40)
      let buf' := printAt buf 0 bufsize text
      if bufsize ≤ text.length then (-ENOBUFS, buf')
      else oidLoop r.length r buf' text.length (bufsize - text.length) text.length

end LC.Acc
