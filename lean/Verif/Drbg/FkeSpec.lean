import Verif.Kmac.Spec
import Verif.Sponge.Spec
/-
The cSHAKE DRNG and the KMAC DRNG as specified in the comments at the beginning of `/repo/drng/src/cshake_drng.c` and
`/repo/drng/src/kmac_drng.c`, sections 2.2 to 2.5, with byte lengths.  Two values are parameters: the key `K0` before the first seeding
(the comment says a zero string of 512 bits) and the length `B` of one block (the comment says 1088 * 100 - 512 bits, and in the introduction
that a key is used for at most twice the block size).
-/
namespace LC.Drbg.Fke.Spec

abbrev Bytes := List UInt8

/-- The function of the generator with the customization strings for seeding and generating: key, input, output length. -/
structure Fns where
  seed : Bytes → Bytes → Nat → Bytes
  gen : Bytes → Bytes → Nat → Bytes

def ascii (s : String) : Bytes := s.toList.map fun c => UInt8.ofNat c.toNat

/-- cSHAKE256 with the key as `S`. -/
def cshakeFns (perm : Bytes → Bytes) : Fns where
  seed k x l := Kmac.Spec.cshake perm 136 x l (ascii "cSHAKE-DRNG seed") k
  gen k x l := Kmac.Spec.cshake perm 136 x l (ascii "cSHAKE-DRNG generate") k

/-- KMACXOF256. -/
def kmacFns (perm : Bytes → Bytes) : Fns where
  seed k x l := Kmac.Spec.kmacXof perm 136 k x l (ascii "KMAC-DRNG seed")
  gen k x l := Kmac.Spec.kmacXof perm 136 k x l (ascii "KMAC-DRNG generate")

/-- Section 2.2, the encoding of the XDRBG paper (appendix B.2) for `|α| ≤ 84`. -/
def encode (n : Nat) (alpha : Bytes) : Bytes := alpha ++ [UInt8.ofNat (n * 85 + alpha.length)]

/-- Section 2.3; `n` is 0 for the first seeding, then 1. -/
def seeding (F : Fns) (n : Nat) (k seed pers : Bytes) : Bytes := F.seed k (seed ++ encode n pers) 64

/-- Section 2.4: new key and output. -/
def one (F : Fns) (k alpha : Bytes) (len : Nat) : Bytes × Bytes :=
  let r := F.gen k (encode 2 alpha) (64 + len)
  (r.take 64, r.drop 64)

/-- Section 2.5: key `TMP_K(N)` and `R(1) || ... || R(N)`. -/
def blocks (F : Fns) (alpha : Bytes) (B : Nat) : Nat → Bytes → Bytes × Bytes
  | 0, k => (k, [])
  | N + 1, k =>
    let t := one F k alpha B
    let u := blocks F alpha B N t.1
    (u.1, t.2 ++ u.2)

/-- Section 2.5. -/
def arbitrary (F : Fns) (k alpha : Bytes) (B len : Nat) : Bytes × Bytes :=
  let u := blocks F alpha B ((len + B - 1) / B) k
  (u.1, u.2.take len)

end LC.Drbg.Fke.Spec
