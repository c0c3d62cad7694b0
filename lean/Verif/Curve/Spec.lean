import Verif.Curve.Prime
/-!
# X25519 as RFC 7748 has it

Section 5 of RFC 7748, over any commutative ring.  Nothing here refers to the model of the code
except the prime `P` and the little endian number `leNum`.
-/
namespace LC.Curve.Spec

/-- `decodeScalar25519`: bits 0, 1, 2 and 255 cleared, bit 254 set. -/
def decodeScalar (k : List Byte) : Nat := 2 ^ 254 + 8 * (leNum k % 2 ^ 254 / 8)

/-- `decodeUCoordinate`: the top bit is masked; values above the prime are accepted and reduced. -/
def decodeU (u : List Byte) : ZMod P := ((leNum u % 2 ^ 255 : Nat) : ZMod P)

/-- `x_2, z_2, x_3, z_3`. -/
structure St (R : Type) where
  x2 : R
  z2 : R
  x3 : R
  z3 : R

variable {R : Type} [CommRing R]

/-- `cswap(swap, x_2, x_3)` and `cswap(swap, z_2, z_3)`. -/
def cswap (b : Bool) (s : St R) : St R := if b then ⟨s.x3, s.z3, s.x2, s.z2⟩ else s

/-- `a24 = (486662 - 2) / 4`. -/
def a24 : R := 121665

/-- The body of the loop after the swaps. -/
def step (x1 : R) (s : St R) : St R :=
  let A := s.x2 + s.z2
  let AA := A ^ 2
  let B := s.x2 - s.z2
  let BB := B ^ 2
  let E := AA - BB
  let C := s.x3 + s.z3
  let D := s.x3 - s.z3
  let DA := D * A
  let CB := C * B
  ⟨AA * BB, E * (AA + a24 * E), (DA + CB) ^ 2, x1 * (DA - CB) ^ 2⟩

/-- `For t = bits - 1 down to 0`; the number is `t + 1`. -/
def loop (x1 : R) (k : Nat) : Nat → St R → Bool → St R × Bool
  | 0, s, swap => (s, swap)
  | t + 1, s, swap =>
    let kt := k.testBit t
    loop x1 k t (step x1 (cswap (swap ^^ kt) s)) kt

/-- The state after the loop and the last swaps. -/
def final (x1 : R) (k bits : Nat) : St R :=
  let r := loop x1 k bits ⟨1, 0, x1, 1⟩ false
  cswap r.2 r.1

/-- `X25519(k, u)` on decoded values. -/
def x25519 (k : Nat) (u : ZMod P) : ZMod P :=
  let s := final u k 255
  s.x2 * s.z2 ^ (P - 2)

end LC.Curve.Spec
