import Verif.Hash.Stream
/-
FIPS 197 (AES).  The state is a function of row and column; all tables are replaced by their
algebraic definition.
-/
namespace LC.Aes.Spec

/-- Multiplication by `x` in GF(2)[x] / (x^8 + x^4 + x^3 + x + 1), section 4.2. -/
def mulX (a : Nat) : Nat := if a < 128 then 2 * a else (2 * a - 256) ^^^ 0x1b

/-- `a • b` where the second factor is read bit by bit, least significant bit first. -/
def gmulAux : Nat → Nat → Nat → Nat
  | 0, _, _ => 0
  | n + 1, a, b => (if b % 2 = 1 then a else 0) ^^^ gmulAux n (mulX a) (b / 2)

/-- Multiplication in GF(2^8). -/
def gmul (a b : Nat) : Nat := gmulAux 8 a b

/-- `a ^ n`. -/
def gpow (a : Nat) : Nat → Nat
  | 0 => 1
  | n + 1 => gmul a (gpow a n)

/-- The product of `n` successive squares `a^2, a^4, ...`. -/
def sqProd : Nat → Nat → Nat
  | 0, _ => 1
  | n + 1, a => gmul (gmul a a) (sqProd n (gmul a a))

/-- The multiplicative inverse `a^254 = a^2 a^4 ... a^128`; 0 is mapped to itself (see
`ginv_correct`). -/
def ginv (a : Nat) : Nat := sqProd 7 a

/-- Bit `i` of the result of the affine transformation, equation (5.2). -/
def affineBit (b i : Nat) : Bool :=
  (b.testBit i ^^ b.testBit ((i + 4) % 8) ^^ b.testBit ((i + 5) % 8) ^^ b.testBit ((i + 6) % 8) ^^
    b.testBit ((i + 7) % 8)) ^^ Nat.testBit 0x63 i

/-- The S-box, section 5.1.1. -/
def sbox (x : Byte) : Byte :=
  UInt8.ofNat (((List.range 8).map fun i => if affineBit (ginv x.toNat) i then 2 ^ i else 0).sum)

/-- The state array, `s[r, c] = in[r + 4c]` (section 3.4). -/
abbrev State := List Byte

def el (s : State) (r c : Nat) : Byte := s.getD (r + 4 * c) 0
def mk (f : Nat → Nat → Byte) : State := (List.range 16).map fun k => f (k % 4) (k / 4)

def mul (a : Nat) (b : Byte) : Byte := UInt8.ofNat (gmul a b.toNat)

def subBytes (s : State) : State := mk fun r c => sbox (el s r c)
def shiftRows (s : State) : State := mk fun r c => el s r ((c + r) % 4)
def mixColumns (s : State) : State := mk fun r c =>
  mul 2 (el s r c) ^^^ mul 3 (el s ((r + 1) % 4) c) ^^^ el s ((r + 2) % 4) c ^^^ el s ((r + 3) % 4) c

/-- A word of the key schedule: four bytes. -/
abbrev Word := List Byte

def mkWord (f : Nat → Byte) : Word := (List.range 4).map f

/-- `rk` is the list of words of the key schedule. -/
def addRoundKey (rk : List Word) (round : Nat) (s : State) : State :=
  mk fun r c => el s r c ^^^ (rk.getD (4 * round + c) []).getD r 0

def rotWord (a : Word) : Word := mkWord fun j => a.getD ((j + 1) % 4) 0
def subWord (a : Word) : Word := mkWord fun j => sbox (a.getD j 0)
def xorWord (a b : Word) : Word := mkWord fun j => a.getD j 0 ^^^ b.getD j 0

/-- `Rcon[i] = [x^(i-1), 0, 0, 0]`. -/
def rcon (i : Nat) : Word := mkWord fun j => if j = 0 then UInt8.ofNat (gpow 2 (i - 1)) else 0

/-- Word `i` of the key schedule (figure 11) from the words before it. -/
def nextWord (nk : Nat) (key : List Byte) (w : List Word) (i : Nat) : Word :=
  if i < nk then mkWord fun j => key.getD (4 * i + j) 0
  else
    let temp := w.getD (i - 1) []
    let temp :=
      if i % nk = 0 then xorWord (subWord (rotWord temp)) (rcon (i / nk))
      else if nk > 6 ∧ i % nk = 4 then subWord temp
      else temp
    xorWord (w.getD (i - nk) []) temp

/-- The first `n` words of the key schedule. -/
def keySchedule (nk : Nat) (key : List Byte) : Nat → List Word
  | 0 => []
  | n + 1 => keySchedule nk key n ++ [nextWord nk key (keySchedule nk key n) n]

/-- The state after `k` full rounds. -/
def fullRounds (rk : List Word) : Nat → State → State
  | 0, s => addRoundKey rk 0 s
  | k + 1, s => addRoundKey rk (k + 1) (mixColumns (shiftRows (subBytes (fullRounds rk k s))))

/-- AES with a key of `4 * nk` bytes; `nr = nk + 6` (figure 5). -/
def aes (key block : List Byte) : List Byte :=
  let nk := key.length / 4
  let rk := keySchedule nk key (4 * (nk + 7))
  addRoundKey rk (nk + 6) (shiftRows (subBytes (fullRounds rk (nk + 5) block)))

end LC.Aes.Spec
