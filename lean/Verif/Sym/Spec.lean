import Verif.Hash.Stream
/-
Specifications of the modes, independent of the model: SP 800-38A (CBC, CTR), SP 800-38F (KW),
RFC 7539 (ChaCha20).
-/
namespace LC.Sym.Spec

/-- Byte wise exclusive or. -/
def bxor (a b : List Byte) : List Byte := (List.range a.length).map fun i => a.getD i 0 ^^^ b.getD i 0

/-- Block `j` (of 16 bytes) of a string. -/
def blk (s : List Byte) (j : Nat) : List Byte := (s.drop (16 * j)).take 16

/-- SP 800-38A, 6.2: `C_1 = CIPH(P_1 ⊕ IV)`, `C_j = CIPH(P_j ⊕ C_{j-1})` for `n` full blocks. -/
def IsCbc (E : List Byte → List Byte) (iv : List Byte) (n : Nat) (p c : List Byte) : Prop :=
  c.length = 16 * n ∧
    ∀ j, j < n → blk c j = E (bxor (blk p j) (if j = 0 then iv else blk c (j - 1)))

/-- The block that is the big endian representation of `v` (128 bits). -/
def block128 (v : Nat) : List Byte := (List.range 16).map fun i => UInt8.ofNat (v / 256 ^ (15 - i))

/-- The number in a big endian byte string. -/
def number : List Byte → Nat
  | [] => 0
  | b :: l => b.toNat * 256 ^ l.length + number l

/-- SP 800-38A, 6.5 with the standard 128 bit incrementing function, counter block `v` first: byte
`i` of the output is byte `i` of the input xor byte `i mod 16` of `CIPH(v + i div 16)`. -/
def ctr (E : List Byte → List Byte) (v : Nat) (p : List Byte) : List Byte :=
  (List.range p.length).map fun i =>
    p.getD i 0 ^^^ (E (block128 ((v + i / 16) % 2 ^ 128))).getD (i % 16) 0

/-- Eight byte big endian representation. -/
def block64 (v : Nat) : List Byte := (List.range 8).map fun i => UInt8.ofNat (v / 256 ^ (7 - i))

/-- SP 800-38F, 6.1, algorithm 1 `W(S)`: `A^t = MSB64(CIPH(A^{t-1} || R_2^{t-1})) ⊕ [t]_64`,
`R_i^t = R_{i+1}^{t-1}`, `R_n^t = LSB64(CIPH(A^{t-1} || R_2^{t-1}))`, for `t = 1 .. 6(n-1)`. -/
def kwStep (E : List Byte → List Byte) (t : Nat) (s : List Byte × List (List Byte)) :
    List Byte × List (List Byte) :=
  match s.2 with
  | [] => s
  | r :: rs =>
    let b := E (s.1 ++ r)
    (bxor (b.take 8) (block64 t), rs ++ [b.drop 8])

/-- Steps `t+1 .. t+k`. -/
def kwSteps (E : List Byte → List Byte) : Nat → Nat → List Byte × List (List Byte) →
    List Byte × List (List Byte)
  | 0, _, s => s
  | k + 1, t, s => kwSteps E k (t + 1) (kwStep E (t + 1) s)

/-- The semiblocks of a string. -/
def semi (s : List Byte) : List (List Byte) :=
  (List.range (s.length / 8)).map fun j => (s.drop (8 * j)).take 8

/-- SP 800-38F, 6.2, algorithm 3 `KW-AE(P) = W(ICV1 || P)`. -/
def wrap (E : List Byte → List Byte) (p : List Byte) : List Byte :=
  let r := kwSteps E (6 * (p.length / 8)) 0 (List.replicate 8 0xa6, semi p)
  r.1 ++ r.2.flatten

/-! ### RFC 7539 -/

def rotl (x : UInt32) (n : UInt32) : UInt32 := (x <<< n) ||| (x >>> (32 - n))

/-- Section 2.1, the quarter round on four words. -/
def quarter (a b c d : UInt32) : UInt32 × UInt32 × UInt32 × UInt32 :=
  let a := a + b; let d := d ^^^ a; let d := rotl d 16
  let c := c + d; let b := b ^^^ c; let b := rotl b 12
  let a := a + b; let d := d ^^^ a; let d := rotl d 8
  let c := c + d; let b := b ^^^ c; let b := rotl b 7
  (a, b, c, d)

/-- Section 2.2, `QUARTERROUND(x, y, z, w)` on the state. -/
def QUARTERROUND (s : List UInt32) (x y z w : Nat) : List UInt32 :=
  let r := quarter (s.getD x 0) (s.getD y 0) (s.getD z 0) (s.getD w 0)
  (((s.set x r.1).set y r.2.1).set z r.2.2.1).set w r.2.2.2

/-- Section 2.3, two rounds. -/
def doubleRound (s : List UInt32) : List UInt32 :=
  let s := QUARTERROUND s 0 4 8 12
  let s := QUARTERROUND s 1 5 9 13
  let s := QUARTERROUND s 2 6 10 14
  let s := QUARTERROUND s 3 7 11 15
  let s := QUARTERROUND s 0 5 10 15
  let s := QUARTERROUND s 1 6 11 12
  let s := QUARTERROUND s 2 7 8 13
  QUARTERROUND s 3 4 9 14

/-- Little endian word of four bytes. -/
def leWord (b0 b1 b2 b3 : Byte) : UInt32 :=
  UInt32.ofNat (b0.toNat + 256 * b1.toNat + 65536 * b2.toNat + 16777216 * b3.toNat)

def leWords (s : List Byte) : List UInt32 :=
  (List.range (s.length / 4)).map fun i =>
    leWord (s.getD (4 * i) 0) (s.getD (4 * i + 1) 0) (s.getD (4 * i + 2) 0) (s.getD (4 * i + 3) 0)

/-- "expand 32-byte k" -/
def sigma : List Byte :=
  [0x65, 0x78, 0x70, 0x61, 0x6e, 0x64, 0x20, 0x33, 0x32, 0x2d, 0x62, 0x79, 0x74, 0x65, 0x20, 0x6b]

/-- The initial state of section 2.3 for a key of 32 bytes, block counter and nonce of 12 bytes. -/
def cc20State (key : List Byte) (counter : Nat) (nonce : List Byte) : List UInt32 :=
  leWords sigma ++ leWords key ++ [UInt32.ofNat counter] ++ leWords nonce

def twenty : Nat → List UInt32 → List UInt32
  | 0, s => s
  | n + 1, s => twenty n (doubleRound s)

/-- Section 2.3, serialised block: byte `i` is byte `i mod 4` (little endian) of word `i div 4`. -/
def cc20Block (key : List Byte) (counter : Nat) (nonce : List Byte) : List Byte :=
  let s := cc20State key counter nonce
  let w := twenty 10 s
  (List.range 64).map fun i =>
    UInt8.ofNat ((w.getD (i / 4) 0 + s.getD (i / 4) 0).toNat / 256 ^ (i % 4))

/-- Section 2.4: byte `i` of the output is byte `i` of the input xor byte `i mod 64` of block
`counter + i div 64`. -/
def chacha20 (key : List Byte) (counter : Nat) (nonce : List Byte) (p : List Byte) : List Byte :=
  (List.range p.length).map fun i =>
    p.getD i 0 ^^^ (cc20Block key (counter + i / 64) nonce).getD (i % 64) 0

end LC.Sym.Spec
