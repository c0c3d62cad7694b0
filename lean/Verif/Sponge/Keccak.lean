import Verif.Sponge.Spec
/-
Concrete model of the Keccak-p[1600,24] code, `/repo/hash/src/sha3_c.c:34-157`,
and the FIPS 202 definition of the permutation.
-/
namespace LC.Sponge.Keccak
open LC.Sponge (Byte)

/-- `uint64_t` lane. -/
abbrev W := BitVec 64

/-- `rol`, `hash/src/sha3_c.c:34-37`. -/
def rol (x : W) (n : Nat) : W := (x <<< (n &&& 63)) ||| (x >>> ((64 - n) &&& 63))

/-- Macro `A(x, y)`, `hash/src/sha3_c.c:41`. -/
def A (x y : Nat) : Nat := x + 5 * y

/-- Macro `RHO_ROL(t)`, `hash/src/sha3_c.c:42`. -/
def rhoRol (t : Nat) : Nat := ((t + 1) * (t + 2) / 2) % 64

/-- Array read `s[i]`. -/
def g (s : List W) (i : Nat) : W := s.getD i 0

/-- `keccakp_theta_rho_pi`, `hash/src/sha3_c.c:44-88`, assignment by assignment. -/
def thetaRhoPi (s : List W) : List W :=
  let C0 := g s (A 0 0) ^^^ g s (A 0 1) ^^^ g s (A 0 2) ^^^ g s (A 0 3) ^^^ g s (A 0 4)
  let C1 := g s (A 1 0) ^^^ g s (A 1 1) ^^^ g s (A 1 2) ^^^ g s (A 1 3) ^^^ g s (A 1 4)
  let C2 := g s (A 2 0) ^^^ g s (A 2 1) ^^^ g s (A 2 2) ^^^ g s (A 2 3) ^^^ g s (A 2 4)
  let C3 := g s (A 3 0) ^^^ g s (A 3 1) ^^^ g s (A 3 2) ^^^ g s (A 3 3) ^^^ g s (A 3 4)
  let C4 := g s (A 4 0) ^^^ g s (A 4 1) ^^^ g s (A 4 2) ^^^ g s (A 4 3) ^^^ g s (A 4 4)
  let D0 := C4 ^^^ rol C1 1
  let D1 := C0 ^^^ rol C2 1
  let D2 := C1 ^^^ rol C3 1
  let D3 := C2 ^^^ rol C4 1
  let D4 := C3 ^^^ rol C0 1
  let s := s.set (A 0 0) (g s (A 0 0) ^^^ D0)
  let t := rol (g s (A 4 4) ^^^ D4) (rhoRol 11)
  let s := s.set (A 4 4) (rol (g s (A 1 4) ^^^ D1) (rhoRol 10))
  let s := s.set (A 1 4) (rol (g s (A 3 1) ^^^ D3) (rhoRol 9))
  let s := s.set (A 3 1) (rol (g s (A 1 3) ^^^ D1) (rhoRol 8))
  let s := s.set (A 1 3) (rol (g s (A 0 1) ^^^ D0) (rhoRol 7))
  let s := s.set (A 0 1) (rol (g s (A 3 0) ^^^ D3) (rhoRol 6))
  let s := s.set (A 3 0) (rol (g s (A 3 3) ^^^ D3) (rhoRol 5))
  let s := s.set (A 3 3) (rol (g s (A 2 3) ^^^ D2) (rhoRol 4))
  let s := s.set (A 2 3) (rol (g s (A 1 2) ^^^ D1) (rhoRol 3))
  let s := s.set (A 1 2) (rol (g s (A 2 1) ^^^ D2) (rhoRol 2))
  let s := s.set (A 2 1) (rol (g s (A 0 2) ^^^ D0) (rhoRol 1))
  let s := s.set (A 0 2) (rol (g s (A 1 0) ^^^ D1) (rhoRol 0))
  let s := s.set (A 1 0) (rol (g s (A 1 1) ^^^ D1) (rhoRol 23))
  let s := s.set (A 1 1) (rol (g s (A 4 1) ^^^ D4) (rhoRol 22))
  let s := s.set (A 4 1) (rol (g s (A 2 4) ^^^ D2) (rhoRol 21))
  let s := s.set (A 2 4) (rol (g s (A 4 2) ^^^ D4) (rhoRol 20))
  let s := s.set (A 4 2) (rol (g s (A 0 4) ^^^ D0) (rhoRol 19))
  let s := s.set (A 0 4) (rol (g s (A 2 0) ^^^ D2) (rhoRol 18))
  let s := s.set (A 2 0) (rol (g s (A 2 2) ^^^ D2) (rhoRol 17))
  let s := s.set (A 2 2) (rol (g s (A 3 2) ^^^ D3) (rhoRol 16))
  let s := s.set (A 3 2) (rol (g s (A 4 3) ^^^ D4) (rhoRol 15))
  let s := s.set (A 4 3) (rol (g s (A 3 4) ^^^ D3) (rhoRol 14))
  let s := s.set (A 3 4) (rol (g s (A 0 3) ^^^ D0) (rhoRol 13))
  let s := s.set (A 0 3) (rol (g s (A 4 0) ^^^ D4) (rhoRol 12))
  s.set (A 4 0) t

/-- `keccakp_iota_vals`, `hash/src/sha3_c.c:90-99`. -/
def iotaVals : List W := [
  0x0000000000000001, 0x0000000000008082, 0x800000000000808a,
  0x8000000080008000, 0x000000000000808b, 0x0000000080000001,
  0x8000000080008081, 0x8000000000008009, 0x000000000000008a,
  0x0000000000000088, 0x0000000080008009, 0x000000008000000a,
  0x000000008000808b, 0x800000000000008b, 0x8000000000008089,
  0x8000000000008003, 0x8000000000008002, 0x8000000000000080,
  0x000000000000800a, 0x800000008000000a, 0x8000000080008081,
  0x8000000000008080, 0x0000000080000001, 0x8000000080008008]

/-- `keccakp_chi_iota`, `hash/src/sha3_c.c:101-147`; `rc` is
`keccakp_iota_vals[round]`. -/
def chiIota (s : List W) (rc : W) : List W :=
  let t00 := g s (A 0 0)
  let t01 := g s (A 0 1)
  let t02 := g s (A 0 2)
  let t03 := g s (A 0 3)
  let t04 := g s (A 0 4)
  let t10 := g s (A 1 0)
  let t11 := g s (A 1 1)
  let t12 := g s (A 1 2)
  let t13 := g s (A 1 3)
  let t14 := g s (A 1 4)
  let s := s.set (A 0 0) (g s (A 0 0) ^^^ (~~~ g s (A 1 0) &&& g s (A 2 0)))
  let s := s.set (A 0 0) (g s (A 0 0) ^^^ rc)
  let s := s.set (A 0 1) (g s (A 0 1) ^^^ (~~~ g s (A 1 1) &&& g s (A 2 1)))
  let s := s.set (A 0 2) (g s (A 0 2) ^^^ (~~~ g s (A 1 2) &&& g s (A 2 2)))
  let s := s.set (A 0 3) (g s (A 0 3) ^^^ (~~~ g s (A 1 3) &&& g s (A 2 3)))
  let s := s.set (A 0 4) (g s (A 0 4) ^^^ (~~~ g s (A 1 4) &&& g s (A 2 4)))
  let s := s.set (A 1 0) (g s (A 1 0) ^^^ (~~~ g s (A 2 0) &&& g s (A 3 0)))
  let s := s.set (A 1 1) (g s (A 1 1) ^^^ (~~~ g s (A 2 1) &&& g s (A 3 1)))
  let s := s.set (A 1 2) (g s (A 1 2) ^^^ (~~~ g s (A 2 2) &&& g s (A 3 2)))
  let s := s.set (A 1 3) (g s (A 1 3) ^^^ (~~~ g s (A 2 3) &&& g s (A 3 3)))
  let s := s.set (A 1 4) (g s (A 1 4) ^^^ (~~~ g s (A 2 4) &&& g s (A 3 4)))
  let s := s.set (A 2 0) (g s (A 2 0) ^^^ (~~~ g s (A 3 0) &&& g s (A 4 0)))
  let s := s.set (A 2 1) (g s (A 2 1) ^^^ (~~~ g s (A 3 1) &&& g s (A 4 1)))
  let s := s.set (A 2 2) (g s (A 2 2) ^^^ (~~~ g s (A 3 2) &&& g s (A 4 2)))
  let s := s.set (A 2 3) (g s (A 2 3) ^^^ (~~~ g s (A 3 3) &&& g s (A 4 3)))
  let s := s.set (A 2 4) (g s (A 2 4) ^^^ (~~~ g s (A 3 4) &&& g s (A 4 4)))
  let s := s.set (A 3 0) (g s (A 3 0) ^^^ (~~~ g s (A 4 0) &&& t00))
  let s := s.set (A 3 1) (g s (A 3 1) ^^^ (~~~ g s (A 4 1) &&& t01))
  let s := s.set (A 3 2) (g s (A 3 2) ^^^ (~~~ g s (A 4 2) &&& t02))
  let s := s.set (A 3 3) (g s (A 3 3) ^^^ (~~~ g s (A 4 3) &&& t03))
  let s := s.set (A 3 4) (g s (A 3 4) ^^^ (~~~ g s (A 4 4) &&& t04))
  let s := s.set (A 4 0) (g s (A 4 0) ^^^ (~~~ t00 &&& t10))
  let s := s.set (A 4 1) (g s (A 4 1) ^^^ (~~~ t01 &&& t11))
  let s := s.set (A 4 2) (g s (A 4 2) ^^^ (~~~ t02 &&& t12))
  let s := s.set (A 4 3) (g s (A 4 3) ^^^ (~~~ t03 &&& t13))
  let s := s.set (A 4 4) (g s (A 4 4) ^^^ (~~~ t04 &&& t14))
  s

/-- `keccakp_1600`, `hash/src/sha3_c.c:149-157`. -/
def keccakp (s : List W) : List W :=
  iotaVals.foldl (fun s rc => chiIota (thetaRhoPi s) rc) s

/-- Little endian value of 8 bytes. -/
def leWord : List Byte → Nat
  | [] => 0
  | b :: bs => b.toNat + 256 * leWord bs

/-- Little endian bytes of a lane. -/
def wordBytes (w : W) : List Byte :=
  (List.range 8).map fun i => UInt8.ofNat ((w >>> (8 * i)).toNat % 256)

/-- The 25 lanes of a 200 byte state. -/
def lanes (st : List Byte) : List W :=
  (List.range 25).map fun i => BitVec.ofNat 64 (leWord ((st.drop (8 * i)).take 8))

/-- `keccakp_1600` on the byte view of the state. -/
def keccakpBytes (st : List Byte) : List Byte :=
  (keccakp (lanes st)).flatMap wordBytes

namespace Fips
/-! FIPS 202 section 3.2: the step mappings, on `A[x,y]` stored at `x + 5y`. -/

/-- Lane `A[x, y]`, indices modulo 5. -/
def lane (s : List W) (x y : Nat) : W := s.getD (x % 5 + 5 * (y % 5)) 0

/-- Build a state from its lanes. -/
def mk (f : Nat → Nat → W) : List W :=
  (List.range 25).map fun i => f (i % 5) (i / 5)

/-- Theta. -/
def theta (s : List W) : List W :=
  let C x := lane s x 0 ^^^ lane s x 1 ^^^ lane s x 2 ^^^ lane s x 3 ^^^ lane s x 4
  let D x := C (x + 4) ^^^ (C (x + 1)).rotateLeft 1
  mk fun x y => lane s x y ^^^ D x

/-- The walk `(x,y) ← (y, 2x+3y)` of step rho, `n` steps from `(1,0)`. -/
def walk : Nat → Nat × Nat
  | 0 => (1, 0)
  | n + 1 => let p := walk n; (p.2, (2 * p.1 + 3 * p.2) % 5)

/-- Rotation offset of lane `(x, y)`: `(t+1)(t+2)/2 mod 64` if the walk reaches
`(x, y)` at step `t ≤ 23`, zero for `(0,0)`. -/
def offset (x y : Nat) : Nat :=
  ((List.range 24).filter fun t => walk t == (x, y)).foldl
    (fun _ t => (t + 1) * (t + 2) / 2 % 64) 0

/-- Rho. -/
def rho (s : List W) : List W := mk fun x y => (lane s x y).rotateLeft (offset x y)

/-- Pi. -/
def pi (s : List W) : List W := mk fun x y => lane s (x + 3 * y) x

/-- Chi. -/
def chi (s : List W) : List W :=
  mk fun x y => lane s x y ^^^ (~~~ lane s (x + 1) y &&& lane s (x + 2) y)

/-- The LFSR of Algorithm 5: the register after `t` steps (9 bits used). -/
def lfsr : Nat → Nat
  | 0 => 1
  | t + 1 =>
    let R := 2 * lfsr t
    if R ≥ 256 then (R ^^^ 0x71) % 256 else R

/-- `rc(t)`. -/
def rcBit (t : Nat) : Nat := lfsr (t % 255) % 2

/-- Round constant of round `i`. -/
def RC (i : Nat) : W :=
  (List.range 7).foldl (fun acc j => acc + BitVec.ofNat 64 (rcBit (j + 7 * i) * 2 ^ (2 ^ j - 1))) 0

/-- Iota. -/
def iota (i : Nat) (s : List W) : List W :=
  mk fun x y => if x = 0 ∧ y = 0 then lane s 0 0 ^^^ RC i else lane s x y

/-- One round. -/
def round (i : Nat) (s : List W) : List W := iota i (chi (pi (rho (theta s))))

/-- Keccak-p[1600, 24]. -/
def keccak (s : List W) : List W := (List.range 24).foldl (fun s i => round i s) s

end Fips
end LC.Sponge.Keccak
