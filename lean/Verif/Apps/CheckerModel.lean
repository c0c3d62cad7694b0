import Verif.Hex.Model
/-
Model of the comparison of key identifiers and addresses in the certificate checker,
`/repo/apps/src/lc_x509_generator_checker.c:250-345`: the options for the IP address of the subject (buffer
of 16 bytes), for the subject and for the authority key identifier (buffers of 32 bytes).

The messages and the second comparison with `lc_x509_policy_match_skid` and `..._akid`, which is made after
the one modelled here has succeeded, are not modelled.
-/
namespace LC.Apps.Checker

abbrev Byte := UInt8

/-- Result of a comparison: return value, number of bytes stored in the buffer, and the number of bytes of the
buffer read by `memcmp` (0 if it is not reached). -/
structure Res where
  ret : Int
  stored : Nat
  read : Nat
deriving DecidableEq, Repr

/-- Lines 251-275, 278-310 and 312-345: `text` is the option, `raw` the value in the certificate, `size` the size of
the buffer and `junk` what is in the memory of the buffer and behind it before (the buffer is not initialised).
`hex2bin` overwrites the beginning of it. -/
def compare (size : Nat) (junk text raw : List Byte) : Res :=
  let w := Hex.hex2bin text size
  let mem := w ++ junk.drop w.length
  if text.length / 2 ≠ raw.length then { ret := -22, stored := w.length, read := 0 }
  else { ret := if mem.take raw.length = raw then 0 else -22, stored := w.length, read := raw.length }

end LC.Apps.Checker
