import Verif.Sponge.Props
/-
Model of cSHAKE and KMAC (`/repo/hash/src/cshake.c`, `/repo/kmac/src/kmac.c`,
`/repo/internal/src/left_encode.c`).  The Keccak permutation is a parameter.
-/
namespace LC.Kmac
open LC.Sponge (Byte absorb squeeze setDigestsize)

/-- The loop determining `n`, `left_encode.c:28`, `kmac.c:71`: number of times `v`
can be shifted right by 8 until it is zero, at most `fuel` = `sizeof(size_t)` = 8. -/
def countBytes : Nat → Nat → Nat
  | 0, _ => 0
  | fuel + 1, v => if v = 0 then 0 else countBytes fuel (v >>> 8) + 1

/-- `n` after lines 27-31 of `left_encode.c`. -/
def numBytes (val : Nat) : Nat := if countBytes 8 val = 0 then 1 else countBytes 8 val

/-- The bytes `buf[1..n]`, `left_encode.c:32-33`. -/
def valBytes (n val : Nat) : List Byte :=
  (List.range n).map fun i => UInt8.ofNat (val >>> ((n - (i + 1)) <<< 3))

/-- `lc_left_encode`, `left_encode.c:22-37`. -/
def leftEncode (val : Nat) : List Byte :=
  UInt8.ofNat (numBytes val) :: valBytes (numBytes val) val

/-- `right_encode`, `kmac.c:65-81`. -/
def rightEncode (val : Nat) : List Byte :=
  (List.range (numBytes val)).map (fun i => UInt8.ofNat (val >>> ((numBytes val - i - 1) <<< 3))) ++
    [UInt8.ofNat (numBytes val)]

/-- `len << 3` on `size_t`. -/
def shl3 (len : Nat) : Nat := (len * 8) % 2 ^ 64

/-- The final "bytepad pad" update, `cshake.c:80-83`, `kmac.c:144-149`. -/
def bytepadPad (perm : List Byte → List Byte) (r : Nat) (c : Sponge.Ctx) (added : Nat) : Sponge.Ctx :=
  if added % r ≠ 0 then absorb perm c (List.replicate (r - added % r) 0) else c

/-- `lc_cshake_init`, `cshake.c:25-84`; `r` is the rate of the chosen variant (168 or
136).  With empty `n` and `s` the context becomes a SHAKE context (padding `0x1f`). -/
def cshakeInit (perm : List Byte → List Byte) (r : Nat) (n s : List Byte) : Sponge.Ctx :=
  if n.length = 0 ∧ s.length = 0 then Sponge.init r 0 0x1f
  else
    let c := Sponge.init r 0 0x04
    let c := absorb perm c [0x01, UInt8.ofNat r]
    let buf := leftEncode (shl3 n.length)
    let c := absorb perm c buf
    let c := absorb perm c n
    let added := 2 + buf.length + n.length
    let buf := leftEncode (shl3 s.length)
    let c := absorb perm c buf
    let c := absorb perm c s
    let added := added + buf.length + s.length
    bytepadPad perm r c added

/-- `lc_cshake_final`, `hash/api/lc_cshake.h:74-79`. -/
def cshakeFinal (perm : List Byte → List Byte) (c : Sponge.Ctx) (outlen : Nat) :
    Sponge.Ctx × List Byte :=
  squeeze perm (setDigestsize c outlen)

/-- `struct lc_kmac_ctx`; `shadow` is present if the context was allocated with
re-initialisation support. -/
structure Ctx where
  hash : Sponge.Ctx
  shadow : Option Sponge.Ctx
  finalCalled : Bool
deriving DecidableEq, Repr

/-- ASCII "KMAC". -/
def kmacName : List Byte := [0x4b, 0x4d, 0x41, 0x43]

/-- `lc_kmac_init`, `kmac.c:102-156`. -/
def init (perm : List Byte → List Byte) (r : Nat) (support : Bool) (key s : List Byte) : Ctx :=
  let c := cshakeInit perm r kmacName s
  let c := absorb perm c [0x01, UInt8.ofNat r]
  let buf := leftEncode (shl3 key.length)
  let c := absorb perm c buf
  let c := absorb perm c key
  let added := 2 + buf.length + key.length
  let c := bytepadPad perm r c added
  { hash := c, shadow := if support then some c else none, finalCalled := false }

/-- `lc_kmac_reinit`, `kmac.c:83-100`. -/
def reinit (c : Ctx) : Ctx :=
  match c.shadow with
  | none => c
  | some s => { c with hash := s, finalCalled := false }

/-- `lc_kmac_update`, `kmac.c:158-168`. -/
def update (perm : List Byte → List Byte) (c : Ctx) (inp : List Byte) : Ctx :=
  { c with hash := absorb perm c.hash inp }

/-- `lc_kmac_final`, `kmac.c:170-195`; `none` if nothing is written. -/
def final (perm : List Byte → List Byte) (c : Ctx) (maclen : Nat) : Ctx × Option (List Byte) :=
  if 4 ≤ maclen then
    let h := absorb perm c.hash (rightEncode (shl3 maclen))
    let p := squeeze perm (setDigestsize h maclen)
    ({ c with hash := p.1 }, some p.2)
  else (c, none)

/-- `lc_kmac_final_xof_internal`, `kmac.c:197-215`. -/
def finalXofInternal (perm : List Byte → List Byte) (c : Ctx) (maclen : Nat) : Ctx × List Byte :=
  let c := if c.finalCalled then c else
    { c with hash := absorb perm c.hash [0x00, 0x01], finalCalled := true }
  let p := cshakeFinal perm c.hash maclen
  ({ c with hash := p.1 }, p.2)

/-- `lc_kmac_final_xof`, `kmac.c:217-222`. -/
def finalXof (perm : List Byte → List Byte) (c : Ctx) (maclen : Nat) : Ctx × Option (List Byte) :=
  if 4 ≤ maclen then
    let p := finalXofInternal perm c maclen
    (p.1, some p.2)
  else (c, none)

/-- A sequence of `lc_kmac_final_xof` calls. -/
def finalXofs (perm : List Byte → List Byte) : Ctx → List Nat → Ctx × List (Option (List Byte))
  | c, [] => (c, [])
  | c, d :: ds =>
    let p := finalXof perm c d
    let q := finalXofs perm p.1 ds
    (q.1, p.2 :: q.2)

/-- API calls on an initialised KMAC context. -/
inductive Op where
  | update (x : List Byte)
  | final (d : Nat)
  | finalXof (d : Nat)
  | reinit

/-- Effect of an API call on the context. -/
def Op.run (perm : List Byte → List Byte) (c : Ctx) : Op → Ctx
  | .update x => LC.Kmac.update perm c x
  | .final d => (LC.Kmac.final perm c d).1
  | .finalXof d => (LC.Kmac.finalXof perm c d).1
  | .reinit => LC.Kmac.reinit c

end LC.Kmac
