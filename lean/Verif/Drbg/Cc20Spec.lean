import Verif.Sym.Spec
/-
The ChaCha20 DRNG in terms of the RFC 7539 block function: state (key, block counter, nonce); a
request returns key stream, and the key is then xored with later key stream.
-/
namespace LC.Drbg.Cc20.Spec

abbrev Bytes := List UInt8

structure State where
  key : Bytes
  ctr : Nat
  nonce : Nat

/-- The 12 bytes of the nonce, a little endian integer. -/
def nonceBytes (n : Nat) : Bytes := (List.range 12).map fun i => UInt8.ofNat (n / 256 ^ i)

/-- Byte `i` of the key stream that starts with the current block counter. -/
def ks (s : State) (i : Nat) : UInt8 :=
  (Sym.Spec.cc20Block s.key (s.ctr + i / 64) (nonceBytes s.nonce)).getD (i % 64) 0

/-- Where the 32 bytes for the new key are taken from the key stream after `n` bytes of output: the
next word boundary if the current block still has 32 bytes from there, else the next block. -/
def keyPos (n : Nat) : Nat := if 0 < n % 64 ∧ n % 64 ≤ 32 then (n + 3) / 4 * 4 else (n + 63) / 64 * 64

/-- Replace the key, leaving all touched blocks behind. -/
def rekey (s : State) (p : Nat) : State :=
  { key := (List.range 32).map fun j => s.key.getD j 0 ^^^ ks s (p + j), ctr := s.ctr + (p + 95) / 64,
    nonce := s.nonce + 1 }

def generate (s : State) (n : Nat) : State × Bytes := (rekey s (keyPos n), (List.range n).map (ks s))

/-- One block of at most 32 bytes of seed. -/
def absorb (s : State) (x : Bytes) : State :=
  rekey { s with key := (List.range 32).map fun j => s.key.getD j 0 ^^^ x.getD j 0 } 0

/-- The blocks of the seed. -/
def chunks32 (x : Bytes) : List Bytes := (List.range ((x.length + 31) / 32)).map fun i => (x.drop (32 * i)).take 32

def seed (s : State) (x : Bytes) : State := (chunks32 x).foldl absorb s

/-- After zeroisation: zero key and nonce, counter 1. -/
def zero : State := { key := List.replicate 32 0, ctr := 1, nonce := 0 }

end LC.Drbg.Cc20.Spec
