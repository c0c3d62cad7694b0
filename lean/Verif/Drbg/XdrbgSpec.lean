/-
XDRBG (Kelsey, Lucks, Müller: "XDRBG: A Proposed Deterministic Random Bit Generator Based on Any
XOF", Algorithm 2 and appendix B.2), for a XOF `F : input → output length → output`, a state of
`k` bytes and requests of at most `maxout` bytes.
-/
namespace LC.Drbg.Xdrbg.Spec

abbrev Bytes := List UInt8

/-- `encode(S, α, n)` for `|α| ≤ 84` (appendix B.2). -/
def encode (s alpha : Bytes) (n : Nat) : Bytes := s ++ alpha ++ [UInt8.ofNat (n * 85 + alpha.length)]

def instantiate (F : Bytes → Nat → Bytes) (k : Nat) (seed alpha : Bytes) : Bytes :=
  F (encode seed alpha 0) k

def reseed (F : Bytes → Nat → Bytes) (k : Nat) (v seed alpha : Bytes) : Bytes :=
  F (encode (v ++ seed) alpha 1) k

/-- New state and output of one request. -/
def generate (F : Bytes → Nat → Bytes) (k : Nat) (v : Bytes) (n : Nat) (alpha : Bytes) : Bytes × Bytes :=
  let t := F (encode v alpha 2) (k + n)
  (t.take k, t.drop k)

/-- A list of GENERATE requests with the same `α`: final state and concatenated output. -/
def generates (F : Bytes → Nat → Bytes) (k : Nat) (alpha : Bytes) : Bytes → List Nat → Bytes × Bytes
  | v, [] => (v, [])
  | v, n :: ns =>
    ((generates F k alpha (generate F k v n alpha).1 ns).1,
     (generate F k v n alpha).2 ++ (generates F k alpha (generate F k v n alpha).1 ns).2)

/-- Request sizes into which a long request is split: full ones, then the rest. -/
def split (maxout n : Nat) : List Nat :=
  List.replicate (n / maxout) maxout ++ if n % maxout = 0 then [] else [n % maxout]

end LC.Drbg.Xdrbg.Spec
