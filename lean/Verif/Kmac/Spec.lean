import Verif.Kmac.Model
/- SP 800-185, sections 2.3, 3.3, 4.3 (byte oriented). -/
namespace LC.Kmac.Spec
open LC.Sponge (Byte)

/-- The smallest positive `n` with `x < 256 ^ n`. -/
def byteLen (x : Nat) : Nat := if x = 0 then 1 else Nat.log2 x / 8 + 1

/-- Big endian base 256 digits. -/
def digits : Nat → Nat → List Byte
  | 0, _ => []
  | n + 1, x => UInt8.ofNat (x / 256 ^ n % 256) :: digits n x

/-- `left_encode(x)`. -/
def leftEncode (x : Nat) : List Byte := UInt8.ofNat (byteLen x) :: digits (byteLen x) x

/-- `right_encode(x)`. -/
def rightEncode (x : Nat) : List Byte := digits (byteLen x) x ++ [UInt8.ofNat (byteLen x)]

/-- `encode_string(S)`. -/
def encodeString (s : List Byte) : List Byte := leftEncode (8 * s.length) ++ s

/-- `bytepad(X, w)`. -/
def bytepad (x : List Byte) (w : Nat) : List Byte :=
  let z := leftEncode w ++ x
  z ++ List.replicate ((w - z.length % w) % w) 0

/-- `cSHAKE(X, L, N, S)`, `L` in bytes, rate `r`. -/
def cshake (perm : List Byte → List Byte) (r : Nat) (x : List Byte) (L : Nat) (n s : List Byte) :
    List Byte :=
  if n = [] ∧ s = [] then Sponge.Spec.sponge perm r 0x1f x L
  else Sponge.Spec.sponge perm r 0x04 (bytepad (encodeString n ++ encodeString s) r ++ x) L

/-- `"KMAC"`. -/
def name : List Byte := "KMAC".toList.map fun c => UInt8.ofNat c.toNat

/-- `KMAC(K, X, L, S)`. -/
def kmac (perm : List Byte → List Byte) (r : Nat) (K X : List Byte) (L : Nat) (S : List Byte) :
    List Byte :=
  cshake perm r (bytepad (encodeString K) r ++ X ++ rightEncode (8 * L)) L name S

/-- `KMACXOF(K, X, L, S)`. -/
def kmacXof (perm : List Byte → List Byte) (r : Nat) (K X : List Byte) (L : Nat) (S : List Byte) :
    List Byte :=
  cshake perm r (bytepad (encodeString K) r ++ X ++ rightEncode 0) L name S

end LC.Kmac.Spec
