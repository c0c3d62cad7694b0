import Verif.Hash.Stream
/-
NIST SP 800-90A Rev. 1, Hash_DRBG (section 10.1.1) with Hash_df (10.3.1), for a hash `H` with
output length `outlen` bytes and seed length `seedlen` bytes.  Written independently of the model:
bit strings are byte strings, additions are on natural numbers.
-/
namespace LC.Drbg.Spec

abbrev Bytes := List UInt8

/-- The integer denoted by a byte string, most significant byte first. -/
def toInt (b : Bytes) : Nat := b.foldl (fun a x => a * 256 + x.toNat) 0

/-- The `k` byte string denoting `n` modulo `2^(8k)`. -/
def ofInt (k n : Nat) : Bytes := (List.range k).map fun j => UInt8.ofNat (n / 256 ^ (k - 1 - j) % 256)

/-- Hash_df: the leftmost `n` bytes of the hash of `i || 8n || input` for `i = 1, 2, ...`. -/
def hashDf (H : Bytes → Bytes) (n : Nat) (input : Bytes) : Bytes :=
  ((List.range n).flatMap fun i => H (ofInt 1 (i + 1) ++ ofInt 4 (8 * n) ++ input)).take n

/-- Working state: `V`, `C`, reseed counter. -/
structure State where
  V : Bytes
  C : Bytes
  ctr : Nat

/-- From seed material (10.1.1.2 steps 2-5). -/
def fromSeed (H : Bytes → Bytes) (seedlen : Nat) (material : Bytes) : State :=
  let V := hashDf H seedlen material
  { V := V, C := hashDf H seedlen (0x00 :: V), ctr := 1 }

/-- Hash_DRBG_Instantiate_algorithm; the nonce is part of `entropy`. -/
def instantiate (H : Bytes → Bytes) (seedlen : Nat) (entropy pers : Bytes) : State :=
  fromSeed H seedlen (entropy ++ pers)

/-- Hash_DRBG_Reseed_algorithm. -/
def reseed (H : Bytes → Bytes) (seedlen : Nat) (s : State) (entropy addtl : Bytes) : State :=
  fromSeed H seedlen (0x01 :: s.V ++ entropy ++ addtl)

/-- Hashgen: the leftmost `n` bytes of the hashes of `V`, `V + 1`, ... -/
def hashgen (H : Bytes → Bytes) (seedlen : Nat) (V : Bytes) (n : Nat) : Bytes :=
  ((List.range n).flatMap fun i => H (ofInt seedlen (toInt V + i))).take n

/-- Hash_DRBG_Generate_algorithm without the reseed interval test. -/
def generate (H : Bytes → Bytes) (seedlen : Nat) (s : State) (addtl : Bytes) (n : Nat) : State × Bytes :=
  let V := if addtl = [] then s.V else ofInt seedlen (toInt s.V + toInt (H (0x02 :: s.V ++ addtl)))
  let out := hashgen H seedlen V n
  let h := H (0x03 :: V)
  ({ s with V := ofInt seedlen (toInt V + toInt h + toInt s.C + s.ctr), ctr := s.ctr + 1 }, out)

/-- The first seeding instantiates, later ones reseed. -/
def seedTo (H : Bytes → Bytes) (seedlen : Nat) (e p : Bytes) : Option State → State
  | none => instantiate H seedlen e p
  | some s => reseed H seedlen s e p

end LC.Drbg.Spec
