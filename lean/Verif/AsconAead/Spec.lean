import Verif.AsconAead.Model
import Verif.AsconHash.Spec
/-
Specification of the Ascon AEAD mode.  `Spec.encrypt` is Algorithm 3 of SP 800-232
(Ascon-AEAD128.enc) for a sponge with any state size, rate and permutations.  `Spec.trace` is the
sequence of strings the library feeds to the permutation.
-/
namespace LC.AsconAead.Spec

/-- The bytes `d` at offset `off` of a string of `ss` zero bytes. -/
def place (ss off : Nat) (d : List Byte) : List Byte :=
  (List.range ss).map fun i => if off ≤ i then d.getD (i - off) 0 else 0

def add (s m : List Byte) : List Byte := s.zipWith (· ^^^ ·) m

/-- The first `n` blocks of `r` bytes. -/
def blocks (r : Nat) : Nat → List Byte → List (List Byte)
  | 0, _ => []
  | n + 1, x => x.take r :: blocks r n (x.drop r)

/-- Add a mask, then permute. -/
def absorb (cf : Cfg) (s m : List Byte) : List Byte := cf.pB (add s m)

/-- The rate part masks of a string cut into `n` blocks. -/
def masks (cf : Cfg) (n : Nat) (x : List Byte) : List (List Byte) :=
  (blocks cf.rate n x).map (place cf.ss 0)

/-- Associated data, padded with a one bit (little endian bytes). -/
def aadMasks (cf : Cfg) (a : List Byte) : List (List Byte) :=
  masks cf (a.length / cf.rate + 1) (a ++ [0x01])

/-! ### SP 800-232 -/

def init (cf : Cfg) (iv : BitVec 64) (key nonce : List Byte) : List Byte :=
  let s := AsconHash.leBytes iv ++ key ++ nonce
  add (cf.pA (s ++ List.replicate (cf.ss - s.length) 0)) (place cf.ss (cf.ss - key.length) key)

/-- Processing associated data, with the domain separation bit in any case. -/
def processAad (cf : Cfg) (s a : List Byte) : List Byte :=
  add (if a = [] then s else (aadMasks cf a).foldl (absorb cf) s) (place cf.ss (cf.ss - 1) [0x80])

/-- Processing plaintext: `n` full blocks, then the last, possibly empty, block. -/
def processPt (cf : Cfg) : Nat → List Byte → List Byte → List Byte × List Byte
  | 0, s, p =>
    let s := add s (place cf.ss 0 (p ++ [0x01]))
    (s, s.take p.length)
  | n + 1, s, p =>
    let s := add s (place cf.ss 0 (p.take cf.rate))
    let r := processPt cf n (cf.pB s) (p.drop cf.rate)
    (r.1, s.take cf.rate ++ r.2)

/-- Finalization with a tag of `n` bytes. -/
def tag (cf : Cfg) (s key : List Byte) (n : Nat) : List Byte :=
  (add (cf.pA (add s (place cf.ss cf.rate key))) (place cf.ss (cf.ss - n) (key.take n))).drop (cf.ss - n)

/-- Ascon-AEAD encryption from the initialised state: ciphertext and tag. -/
def encrypt (cf : Cfg) (s key a p : List Byte) (taglen : Nat) : List Byte × List Byte :=
  let r := processPt cf (p.length / cf.rate) (processAad cf s a) p
  (r.2, tag cf r.1 key taglen)

/-! ### What the library absorbs -/

/-- The number of plaintext blocks; an empty plaintext counts as one empty block. -/
def nblk (r : Nat) (p : List Byte) : Nat := if p = [] then 1 else (p.length + r - 1) / r

/-- The string added to the state before each permutation: padded associated data (nothing at all
if empty), then the plaintext blocks, the first of them with the domain separation bit if there was
associated data.  Before the final permutation the pad bit is added at `|pt| mod rate`. -/
def trace (cf : Cfg) (a p : List Byte) : List (List Byte) :=
  if a = [] then masks cf (nblk cf.rate p) p
  else aadMasks cf a ++
    match masks cf (nblk cf.rate p) p with
    | [] => []
    | m :: ms => add m (place cf.ss (cf.ss - 1) [0x80]) :: ms

end LC.AsconAead.Spec
