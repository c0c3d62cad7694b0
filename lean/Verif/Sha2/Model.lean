/-
Model of SHA-256, SHA-384 and SHA-512 (`/repo/hash/src/sha256.c`,
`/repo/hash/src/sha512.c`).

The two files contain the same code for two word sizes; the model is written once
over the word width `w`, the block size `B`, the number `res` of bytes reserved
for the length field and the compression function.
-/
namespace LC.Sha2

abbrev Byte := UInt8

/-! ### Compression function -/

/-- The width dependent parts of the compression function. -/
structure Params (w : Nat) where
  K : List (BitVec w)
  S0 : BitVec w → BitVec w
  S1 : BitVec w → BitVec w
  s0 : BitVec w → BitVec w
  s1 : BitVec w → BitVec w

/-- `ror`, `sha256.c:82-85`, `sha512.c:124-127`. -/
def ror {w : Nat} (x : BitVec w) (n : Nat) : BitVec w :=
  (x >>> (n % w)) ||| (x <<< ((w - n) % w))

/-- `CH`, `sha256.c:87`. -/
def CH {w : Nat} (x y z : BitVec w) : BitVec w := (x &&& y) ^^^ (~~~x &&& z)
/-- `MAJ`, `sha256.c:88`. -/
def MAJ {w : Nat} (x y z : BitVec w) : BitVec w := (x &&& y) ^^^ (x &&& z) ^^^ (y &&& z)

/-- `sha256_K`, `sha256.c:28-40`. -/
def K256 : List (BitVec 32) := [
  0x428a2f98, 0x71374491, 0xb5c0fbcf, 0xe9b5dba5, 0x3956c25b, 0x59f111f1,
  0x923f82a4, 0xab1c5ed5, 0xd807aa98, 0x12835b01, 0x243185be, 0x550c7dc3,
  0x72be5d74, 0x80deb1fe, 0x9bdc06a7, 0xc19bf174, 0xe49b69c1, 0xefbe4786,
  0x0fc19dc6, 0x240ca1cc, 0x2de92c6f, 0x4a7484aa, 0x5cb0a9dc, 0x76f988da,
  0x983e5152, 0xa831c66d, 0xb00327c8, 0xbf597fc7, 0xc6e00bf3, 0xd5a79147,
  0x06ca6351, 0x14292967, 0x27b70a85, 0x2e1b2138, 0x4d2c6dfc, 0x53380d13,
  0x650a7354, 0x766a0abb, 0x81c2c92e, 0x92722c85, 0xa2bfe8a1, 0xa81a664b,
  0xc24b8b70, 0xc76c51a3, 0xd192e819, 0xd6990624, 0xf40e3585, 0x106aa070,
  0x19a4c116, 0x1e376c08, 0x2748774c, 0x34b0bcb5, 0x391c0cb3, 0x4ed8aa4a,
  0x5b9cca4f, 0x682e6ff3, 0x748f82ee, 0x78a5636f, 0x84c87814, 0x8cc70208,
  0x90befffa, 0xa4506ceb, 0xbef9a3f7, 0xc67178f2]

/-- `sha512_K`, `sha512.c:29-57`. -/
def K512 : List (BitVec 64) := [
  0x428a2f98d728ae22, 0x7137449123ef65cd, 0xb5c0fbcfec4d3b2f,
  0xe9b5dba58189dbbc, 0x3956c25bf348b538, 0x59f111f1b605d019,
  0x923f82a4af194f9b, 0xab1c5ed5da6d8118, 0xd807aa98a3030242,
  0x12835b0145706fbe, 0x243185be4ee4b28c, 0x550c7dc3d5ffb4e2,
  0x72be5d74f27b896f, 0x80deb1fe3b1696b1, 0x9bdc06a725c71235,
  0xc19bf174cf692694, 0xe49b69c19ef14ad2, 0xefbe4786384f25e3,
  0x0fc19dc68b8cd5b5, 0x240ca1cc77ac9c65, 0x2de92c6f592b0275,
  0x4a7484aa6ea6e483, 0x5cb0a9dcbd41fbd4, 0x76f988da831153b5,
  0x983e5152ee66dfab, 0xa831c66d2db43210, 0xb00327c898fb213f,
  0xbf597fc7beef0ee4, 0xc6e00bf33da88fc2, 0xd5a79147930aa725,
  0x06ca6351e003826f, 0x142929670a0e6e70, 0x27b70a8546d22ffc,
  0x2e1b21385c26c926, 0x4d2c6dfc5ac42aed, 0x53380d139d95b3df,
  0x650a73548baf63de, 0x766a0abb3c77b2a8, 0x81c2c92e47edaee6,
  0x92722c851482353b, 0xa2bfe8a14cf10364, 0xa81a664bbc423001,
  0xc24b8b70d0f89791, 0xc76c51a30654be30, 0xd192e819d6ef5218,
  0xd69906245565a910, 0xf40e35855771202a, 0x106aa07032bbd1b8,
  0x19a4c116b8d2d0c8, 0x1e376c085141ab53, 0x2748774cdf8eeb99,
  0x34b0bcb5e19b48a8, 0x391c0cb3c5c95a63, 0x4ed8aa4ae3418acb,
  0x5b9cca4f7763e373, 0x682e6ff3d6b2b8a3, 0x748f82ee5defb2fc,
  0x78a5636f43172f60, 0x84c87814a1f0ab72, 0x8cc702081a6439ec,
  0x90befffa23631e28, 0xa4506cebde82bde9, 0xbef9a3f7b2c67915,
  0xc67178f2e372532b, 0xca273eceea26619c, 0xd186b8c721c0c207,
  0xeada7dd6cde0eb1e, 0xf57d4f7fee6ed178, 0x06f067aa72176fba,
  0x0a637dc5a2c898a6, 0x113f9804bef90dae, 0x1b710b35131c471b,
  0x28db77f523047d84, 0x32caab7b40c72493, 0x3c9ebe0a15c9bebc,
  0x431d67c49c100d4c, 0x4cc5d4becb3e42b6, 0x597f299cfc657e2a,
  0x5fcb6fab3ad6faec, 0x6c44198c4a475817]

/-- Macros of `sha256.c:89-92`. -/
def p256 : Params 32 where
  K := K256
  S0 x := ror x 2 ^^^ ror x 13 ^^^ ror x 22
  S1 x := ror x 6 ^^^ ror x 11 ^^^ ror x 25
  s0 x := ror x 7 ^^^ ror x 18 ^^^ (x >>> 3)
  s1 x := ror x 17 ^^^ ror x 19 ^^^ (x >>> 10)

/-- Macros of `sha512.c:131-134`. -/
def p512 : Params 64 where
  K := K512
  S0 x := ror x 28 ^^^ ror x 34 ^^^ ror x 39
  S1 x := ror x 14 ^^^ ror x 18 ^^^ ror x 41
  s0 x := ror x 1 ^^^ ror x 8 ^^^ (x >>> 7)
  s1 x := ror x 19 ^^^ ror x 61 ^^^ (x >>> 6)

/-- Big endian value of a byte string (`ptr_to_be32`, `ptr_to_be64`). -/
def beNat (l : List Byte) : Nat := l.foldl (fun a b => a * 256 + b.toNat) 0

/-- Big endian bytes of a number (`be32_to_ptr`, `be64_to_ptr`). -/
def beBytes : Nat → Nat → List Byte
  | 0, _ => []
  | n + 1, v => UInt8.ofNat (v / 256 ^ n % 256) :: beBytes n v

/-- Local variables of `sha256_transform`/`sha512_transform`: the array `W` and
the working variables `a..h`. -/
structure Regs (w : Nat) where
  W : List (BitVec w)
  a : BitVec w
  b : BitVec w
  c : BitVec w
  d : BitVec w
  e : BitVec w
  f : BitVec w
  g : BitVec w
  h : BitVec w

/-- One iteration of the round loop, `sha256.c:109-130`, `sha512.c:151-172`,
including the zeroisation of `W[i - 16]`. -/
def step {w : Nat} (p : Params w) (inp : List Byte) (r : Regs w) (i : Nat) : Regs w :=
  let W :=
    if i < 16 then r.W.set i (BitVec.ofNat w (beNat ((inp.drop (w / 8 * i)).take (w / 8))))
    else
      let W := r.W.set i (p.s1 (r.W.getD (i - 2) 0) + r.W.getD (i - 7) 0 +
        p.s0 (r.W.getD (i - 15) 0) + r.W.getD (i - 16) 0)
      W.set (i - 16) 0
  let T1 := r.h + p.S1 r.e + CH r.e r.f r.g + p.K.getD i 0 + W.getD i 0
  let T2 := p.S0 r.a + MAJ r.a r.b r.c
  { W := W, h := r.g, g := r.f, f := r.e, e := r.d + T1, d := r.c, c := r.b, b := r.a,
    a := T1 + T2 }

/-- `sha256_transform` (`sha256.c:94-144`) / `sha512_transform`
(`sha512.c:136-186`) on the eight chaining words. -/
def transform {w : Nat} (p : Params w) (H : List (BitVec w)) (inp : List Byte) : List (BitVec w) :=
  let n := p.K.length
  let r0 : Regs w :=
    { W := List.replicate n 0, a := H.getD 0 0, b := H.getD 1 0, c := H.getD 2 0,
      d := H.getD 3 0, e := H.getD 4 0, f := H.getD 5 0, g := H.getD 6 0, h := H.getD 7 0 }
  let r := (List.range n).foldl (step p inp) r0
  [H.getD 0 0 + r.a, H.getD 1 0 + r.b, H.getD 2 0 + r.c, H.getD 3 0 + r.d,
   H.getD 4 0 + r.e, H.getD 5 0 + r.f, H.getD 6 0 + r.g, H.getD 7 0 + r.h]

/-! ### Streaming layer (any compression function) -/

/-- `struct lc_sha256_state` / `struct lc_sha512_state`: chaining value, message
length (`size_t`) and the partial block buffer. -/
structure Ctx (σ : Type) where
  H : σ
  msgLen : Nat
  part : List Byte

/-- `memcpy(buf + off, data, data.length)`. -/
def overwrite (buf : List Byte) (off : Nat) (data : List Byte) : List Byte :=
  buf.take off ++ data ++ buf.drop (off + data.length)

/-- Full block loop `sha256.c:182-184` / `sha512.c:224-226`; returns chaining value
and remaining input.  `fuel` is instantiated with the input length. -/
def fullBlocks {σ : Type} (f : σ → List Byte → σ) (B : Nat) : Nat → σ → List Byte → σ × List Byte
  | 0, H, inp => (H, inp)
  | fuel + 1, H, inp =>
    if B ≤ inp.length then fullBlocks f B fuel (f H (inp.take B)) (inp.drop B)
    else (H, inp)

/-- `sha256_update` (`sha256.c:146-188`) / `sha512_update` (`sha512.c:188-230`). -/
def update {σ : Type} (f : σ → List Byte → σ) (B : Nat) (c : Ctx σ) (inp : List Byte) : Ctx σ :=
  let partial_ := c.msgLen % B
  let msgLen := (c.msgLen + inp.length) % 2 ^ 64
  if partial_ ≠ 0 then
    let todo := B - partial_
    if inp.length < todo then
      { c with msgLen := msgLen, part := overwrite c.part partial_ inp }
    else
      let buf := overwrite c.part partial_ (inp.take todo)
      let p := fullBlocks f B (inp.drop todo).length (f c.H buf) (inp.drop todo)
      { H := p.1, msgLen := msgLen, part := overwrite buf 0 p.2 }
  else
    let p := fullBlocks f B inp.length c.H inp
    { H := p.1, msgLen := msgLen, part := overwrite c.part 0 p.2 }

/-- The common part of `sha256_final` (`sha256.c:198-227`) and
`sha512_final_internal` (`sha512.c:237-266`): the final chaining value.  `res` is
`2 * sizeof(word)`, the space tested for the length field; the length itself is
always written as 8 bytes. -/
def finalH {σ : Type} (f : σ → List Byte → σ) (B res : Nat) (c : Ctx σ) : σ :=
  let partial_ := c.msgLen % B
  let buf := overwrite c.part partial_ [0x80]
  let partial_ := partial_ + 1
  let s : σ × List Byte × Nat :=
    if partial_ > B - res then
      let buf := overwrite buf partial_ (List.replicate (B - partial_) 0)
      (f c.H buf, buf, 0)
    else (c.H, buf, partial_)
  let buf := overwrite s.2.1 s.2.2 (List.replicate (B - s.2.2) 0)
  let msgLen := (c.msgLen * 8) % 2 ^ 64
  let buf := overwrite buf (B - 8) (beBytes 8 msgLen)
  f s.1 buf

/-- Output of the first `n` chaining words, `sha256.c:232-237`,
`sha512.c:282-283,297-298`. -/
def output {w : Nat} (H : List (BitVec w)) (n : Nat) : List Byte :=
  (H.take n).flatMap fun x => beBytes (w / 8) x.toNat

/-- `sha256_init`, `sha256.c:60-80`. -/
def iv256 : List (BitVec 32) :=
  [0x6a09e667, 0xbb67ae85, 0x3c6ef372, 0xa54ff53a, 0x510e527f, 0x9b05688c, 0x1f83d9ab, 0x5be0cd19]

/-- `sha384_init`, `sha512.c:80-100`. -/
def iv384 : List (BitVec 64) :=
  [0xcbbb9d5dc1059ed8, 0x629a292a367cd507, 0x9159015a3070dd17, 0x152fecd8f70e5939,
   0x67332667ffc00b31, 0x8eb44a8768581511, 0xdb0c2e0d64f98fa7, 0x47b5481dbefa4fa4]

/-- `sha512_init`, `sha512.c:102-122`. -/
def iv512 : List (BitVec 64) :=
  [0x6a09e667f3bcc908, 0xbb67ae8584caa73b, 0x3c6ef372fe94f82b, 0xa54ff53a5f1d36f1,
   0x510e527fade682d1, 0x9b05688c2b3e6c1f, 0x1f83d9abfb41bd6b, 0x5be0cd19137e2179]

/-- Context after `init`; the contents of the partial buffer are arbitrary. -/
def initCtx {σ : Type} (H : σ) (buf : List Byte) : Ctx σ := { H := H, msgLen := 0, part := buf }

/-- `lc_hash_init` (with stale buffer contents `buf`), updates, `lc_hash_final` for
SHA-256. -/
def sha256 (buf : List Byte) (chunks : List (List Byte)) : List Byte :=
  output (finalH (transform p256) 64 8
    (chunks.foldl (update (transform p256) 64) (initCtx iv256 buf))) 8

/-- The same for SHA-384 (`sha384_final`, `sha512.c:271-284`). -/
def sha384 (buf : List Byte) (chunks : List (List Byte)) : List Byte :=
  output (finalH (transform p512) 128 16
    (chunks.foldl (update (transform p512) 128) (initCtx iv384 buf))) 6

/-- The same for SHA-512 (`sha512_final`, `sha512.c:286-299`). -/
def sha512 (buf : List Byte) (chunks : List (List Byte)) : List Byte :=
  output (finalH (transform p512) 128 16
    (chunks.foldl (update (transform p512) 128) (initCtx iv512 buf))) 8

end LC.Sha2
