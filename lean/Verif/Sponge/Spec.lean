import Verif.Sponge.Model
/-
FIPS 202 sponge at byte level, independent of the streaming code.
-/
namespace LC.Sponge.Spec
open LC.Sponge (Byte)

/-- Byte aligned `pad10*1` including the domain separation suffix byte `sfx`
(FIPS 202, sections 5.1, 6.1, B.2). -/
def pad (r : Nat) (sfx : Byte) (m : List Byte) : List Byte :=
  let q := r - m.length % r
  if q = 1 then m ++ [sfx ^^^ 0x80]
  else m ++ [sfx] ++ List.replicate (q - 2) 0 ++ [0x80]

/-- The `i`-th `r`-byte block of a string. -/
def block (r : Nat) (m : List Byte) (i : Nat) : List Byte := (m.drop (i * r)).take r

/-- Xor of a block into the first bytes of a state. -/
def xorBlock : List Byte → List Byte → List Byte
  | s :: ss, b :: bs => (s ^^^ b) :: xorBlock ss bs
  | ss, _ => ss

/-- State after absorbing the first `n` blocks of `p`, starting from zero. -/
def absorbed (perm : List Byte → List Byte) (r : Nat) (p : List Byte) : Nat → List Byte
  | 0 => List.replicate 200 0
  | n + 1 => perm (xorBlock (absorbed perm r p n) (block r p n))

/-- `n`-fold application. -/
def iter {α : Type} (f : α → α) : Nat → α → α
  | 0, x => x
  | n + 1, x => f (iter f n x)

/-- The `k`-th byte of the (infinite) output: block `k / r` of the squeezing
phase is the state after `k / r` further permutations. -/
def outByte (perm : List Byte → List Byte) (r : Nat) (sfx : Byte) (m : List Byte)
    (k : Nat) : Byte :=
  let p := pad r sfx m
  let s := absorbed perm r p (p.length / r)
  (iter perm (k / r) s).getD (k % r) 0

/-- The first `d` bytes of the sponge output for message `m`. -/
def sponge (perm : List Byte → List Byte) (r : Nat) (sfx : Byte) (m : List Byte)
    (d : Nat) : List Byte :=
  (List.range d).map (outByte perm r sfx m)

end LC.Sponge.Spec
