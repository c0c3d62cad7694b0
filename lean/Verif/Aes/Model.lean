import Verif.Hash.Stream
/-
Model of the two C implementations of the AES block cipher:
`/repo/sym/src/aes_sbox.c` (table based) and `/repo/sym/src/aes_no_sbox.c` with
`aes_scr_helper.h` (without S-box), plus `aes_block.c` / `aes_internal.h`.

`state_t` is 16 bytes; `(*state)[i][j]` of `aes_sbox.c` is byte `4 * i + j`.  The `round_key`
array is modelled as a list that grows while the key schedule is computed; a little endian
machine is assumed for the `uint32_t` view of that array (the C code requires it as well, as
both views are used).
-/
namespace LC.Aes

/-- `sbox`, `aes_sbox.c:50-74`. -/
def sbox : List Byte :=
  [0x63, 0x7c, 0x77, 0x7b, 0xf2, 0x6b, 0x6f, 0xc5, 0x30, 0x01, 0x67, 0x2b,
   0xfe, 0xd7, 0xab, 0x76, 0xca, 0x82, 0xc9, 0x7d, 0xfa, 0x59, 0x47, 0xf0,
   0xad, 0xd4, 0xa2, 0xaf, 0x9c, 0xa4, 0x72, 0xc0, 0xb7, 0xfd, 0x93, 0x26,
   0x36, 0x3f, 0xf7, 0xcc, 0x34, 0xa5, 0xe5, 0xf1, 0x71, 0xd8, 0x31, 0x15,
   0x04, 0xc7, 0x23, 0xc3, 0x18, 0x96, 0x05, 0x9a, 0x07, 0x12, 0x80, 0xe2,
   0xeb, 0x27, 0xb2, 0x75, 0x09, 0x83, 0x2c, 0x1a, 0x1b, 0x6e, 0x5a, 0xa0,
   0x52, 0x3b, 0xd6, 0xb3, 0x29, 0xe3, 0x2f, 0x84, 0x53, 0xd1, 0x00, 0xed,
   0x20, 0xfc, 0xb1, 0x5b, 0x6a, 0xcb, 0xbe, 0x39, 0x4a, 0x4c, 0x58, 0xcf,
   0xd0, 0xef, 0xaa, 0xfb, 0x43, 0x4d, 0x33, 0x85, 0x45, 0xf9, 0x02, 0x7f,
   0x50, 0x3c, 0x9f, 0xa8, 0x51, 0xa3, 0x40, 0x8f, 0x92, 0x9d, 0x38, 0xf5,
   0xbc, 0xb6, 0xda, 0x21, 0x10, 0xff, 0xf3, 0xd2, 0xcd, 0x0c, 0x13, 0xec,
   0x5f, 0x97, 0x44, 0x17, 0xc4, 0xa7, 0x7e, 0x3d, 0x64, 0x5d, 0x19, 0x73,
   0x60, 0x81, 0x4f, 0xdc, 0x22, 0x2a, 0x90, 0x88, 0x46, 0xee, 0xb8, 0x14,
   0xde, 0x5e, 0x0b, 0xdb, 0xe0, 0x32, 0x3a, 0x0a, 0x49, 0x06, 0x24, 0x5c,
   0xc2, 0xd3, 0xac, 0x62, 0x91, 0x95, 0xe4, 0x79, 0xe7, 0xc8, 0x37, 0x6d,
   0x8d, 0xd5, 0x4e, 0xa9, 0x6c, 0x56, 0xf4, 0xea, 0x65, 0x7a, 0xae, 0x08,
   0xba, 0x78, 0x25, 0x2e, 0x1c, 0xa6, 0xb4, 0xc6, 0xe8, 0xdd, 0x74, 0x1f,
   0x4b, 0xbd, 0x8b, 0x8a, 0x70, 0x3e, 0xb5, 0x66, 0x48, 0x03, 0xf6, 0x0e,
   0x61, 0x35, 0x57, 0xb9, 0x86, 0xc1, 0x1d, 0x9e, 0xe1, 0xf8, 0x98, 0x11,
   0x69, 0xd9, 0x8e, 0x94, 0x9b, 0x1e, 0x87, 0xe9, 0xce, 0x55, 0x28, 0xdf,
   0x8c, 0xa1, 0x89, 0x0d, 0xbf, 0xe6, 0x42, 0x68, 0x41, 0x99, 0x2d, 0x0f,
   0xb0, 0x54, 0xbb, 0x16]

/-- `rsbox`, `aes_sbox.c:76-99`. -/
def rsbox : List Byte :=
  [0x52, 0x09, 0x6a, 0xd5, 0x30, 0x36, 0xa5, 0x38, 0xbf, 0x40, 0xa3, 0x9e,
   0x81, 0xf3, 0xd7, 0xfb, 0x7c, 0xe3, 0x39, 0x82, 0x9b, 0x2f, 0xff, 0x87,
   0x34, 0x8e, 0x43, 0x44, 0xc4, 0xde, 0xe9, 0xcb, 0x54, 0x7b, 0x94, 0x32,
   0xa6, 0xc2, 0x23, 0x3d, 0xee, 0x4c, 0x95, 0x0b, 0x42, 0xfa, 0xc3, 0x4e,
   0x08, 0x2e, 0xa1, 0x66, 0x28, 0xd9, 0x24, 0xb2, 0x76, 0x5b, 0xa2, 0x49,
   0x6d, 0x8b, 0xd1, 0x25, 0x72, 0xf8, 0xf6, 0x64, 0x86, 0x68, 0x98, 0x16,
   0xd4, 0xa4, 0x5c, 0xcc, 0x5d, 0x65, 0xb6, 0x92, 0x6c, 0x70, 0x48, 0x50,
   0xfd, 0xed, 0xb9, 0xda, 0x5e, 0x15, 0x46, 0x57, 0xa7, 0x8d, 0x9d, 0x84,
   0x90, 0xd8, 0xab, 0x00, 0x8c, 0xbc, 0xd3, 0x0a, 0xf7, 0xe4, 0x58, 0x05,
   0xb8, 0xb3, 0x45, 0x06, 0xd0, 0x2c, 0x1e, 0x8f, 0xca, 0x3f, 0x0f, 0x02,
   0xc1, 0xaf, 0xbd, 0x03, 0x01, 0x13, 0x8a, 0x6b, 0x3a, 0x91, 0x11, 0x41,
   0x4f, 0x67, 0xdc, 0xea, 0x97, 0xf2, 0xcf, 0xce, 0xf0, 0xb4, 0xe6, 0x73,
   0x96, 0xac, 0x74, 0x22, 0xe7, 0xad, 0x35, 0x85, 0xe2, 0xf9, 0x37, 0xe8,
   0x1c, 0x75, 0xdf, 0x6e, 0x47, 0xf1, 0x1a, 0x71, 0x1d, 0x29, 0xc5, 0x89,
   0x6f, 0xb7, 0x62, 0x0e, 0xaa, 0x18, 0xbe, 0x1b, 0xfc, 0x56, 0x3e, 0x4b,
   0xc6, 0xd2, 0x79, 0x20, 0x9a, 0xdb, 0xc0, 0xfe, 0x78, 0xcd, 0x5a, 0xf4,
   0x1f, 0xdd, 0xa8, 0x33, 0x88, 0x07, 0xc7, 0x31, 0xb1, 0x12, 0x10, 0x59,
   0x27, 0x80, 0xec, 0x5f, 0x60, 0x51, 0x7f, 0xa9, 0x19, 0xb5, 0x4a, 0x0d,
   0x2d, 0xe5, 0x7a, 0x9f, 0x93, 0xc9, 0x9c, 0xef, 0xa0, 0xe0, 0x3b, 0x4d,
   0xae, 0x2a, 0xf5, 0xb0, 0xc8, 0xeb, 0xbb, 0x3c, 0x83, 0x53, 0x99, 0x61,
   0x17, 0x2b, 0x04, 0x7e, 0xba, 0x77, 0xd6, 0x26, 0xe1, 0x69, 0x14, 0x63,
   0x55, 0x21, 0x0c, 0x7d]

/-- `Rcon`, `aes_sbox.c:173-174`. -/
def rcon : List Byte := [0x8d, 0x01, 0x02, 0x04, 0x08, 0x10, 0x20, 0x40, 0x80, 0x1b, 0x36]

/-- `getSBoxValue`, `aes_sbox.c:101-104`. -/
def getSBoxValue (x : Byte) : Byte := sbox.getD x.toNat 0

/-- `getSBoxInvert`, `aes_sbox.c:378-381`. -/
def getSBoxInvert (x : Byte) : Byte := rsbox.getD x.toNat 0

/-- `(*state)[i][j]`. -/
def get (s : List Byte) (i j : Nat) : Byte := s.getD (4 * i + j) 0

/-- `(*state)[i][j] = v`. -/
def put (s : List Byte) (i j : Nat) (v : Byte) : List Byte := s.set (4 * i + j) v

/-- `struct aes_block_ctx`, `aes_internal.h`; `roundKey` is the byte view. -/
structure Ctx where
  roundKey : List Byte
  nk : Nat
  nr : Nat
deriving Repr

/-- `aes_set_type`, `aes_internal.h`; `none` is `-EINVAL`. -/
def setType (keylen : Nat) : Option (Nat × Nat) :=
  if keylen = 16 then some (4, 10)
  else if keylen = 24 then some (6, 12)
  else if keylen = 32 then some (8, 14)
  else none

/-- Lines 218-231 of `aes_sbox.c`: `RotWord`, `SubWord` and the round constant. -/
def rotSubRcon (t : List Byte) (rc : Byte) : List Byte :=
  [getSBoxValue (t.getD 1 0) ^^^ rc, getSBoxValue (t.getD 2 0), getSBoxValue (t.getD 3 0),
    getSBoxValue (t.getD 0 0)]

/-- One iteration of the loop `aes_sbox.c:200-257`; appends four bytes. -/
def expandStep (nk i : Nat) (rk : List Byte) : List Byte :=
  let k := (i - 1) * 4
  let tempa := [rk.getD k 0, rk.getD (k + 1) 0, rk.getD (k + 2) 0, rk.getD (k + 3) 0]
  let tempa := if i % nk = 0 then rotSubRcon tempa (rcon.getD (i / nk) 0) else tempa
  let tempa := if nk = 8 ∧ i % nk = 4 then tempa.map getSBoxValue else tempa
  let k := (i - nk) * 4
  rk ++ [rk.getD k 0 ^^^ tempa.getD 0 0, rk.getD (k + 1) 0 ^^^ tempa.getD 1 0,
    rk.getD (k + 2) 0 ^^^ tempa.getD 2 0, rk.getD (k + 3) 0 ^^^ tempa.getD 3 0]

/-- `n` iterations of that loop from index `i` on. -/
def expandLoop (nk : Nat) : Nat → Nat → List Byte → List Byte
  | 0, _, rk => rk
  | n + 1, i, rk => expandLoop nk n (i + 1) (expandStep nk i rk)

/-- `aes_key_expansion`, `aes_sbox.c:180-258`. -/
def keyExpansion (nk nr : Nat) (key : List Byte) : List Byte :=
  expandLoop nk (4 * (nr + 1) - nk) nk (key.take (4 * nk))

/-- `aes_add_round_key`, `aes_sbox.c:265-285`. -/
def addRoundKey (round : Nat) (s rk : List Byte) : List Byte :=
  (List.range 16).map fun k => s.getD k 0 ^^^ rk.getD (round * 4 * 4 + k) 0

/-- `aes_sub_bytes`, `aes_sbox.c:291-299`. -/
def subBytes (s : List Byte) : List Byte := s.map getSBoxValue

/-- `aes_shift_rows`, `aes_sbox.c:306-332`, assignment by assignment. -/
def shiftRows (s : List Byte) : List Byte :=
  let temp := get s 0 1
  let s := put s 0 1 (get s 1 1)
  let s := put s 1 1 (get s 2 1)
  let s := put s 2 1 (get s 3 1)
  let s := put s 3 1 temp
  let temp := get s 0 2
  let s := put s 0 2 (get s 2 2)
  let s := put s 2 2 temp
  let temp := get s 1 2
  let s := put s 1 2 (get s 3 2)
  let s := put s 3 2 temp
  let temp := get s 0 3
  let s := put s 0 3 (get s 3 3)
  let s := put s 3 3 (get s 2 3)
  let s := put s 2 3 (get s 1 3)
  put s 1 3 temp

/-- `xtime`, `aes_sbox.c:334-337`. -/
def xtime (x : Byte) : Byte := (x <<< 1) ^^^ (((x >>> 7) &&& (1 : Byte)) * 0x1b)

/-- Body of the loop of `aes_mix_columns`, `aes_sbox.c:345-361`, on one column. -/
def mixColumn (a b c d : Byte) : List Byte :=
  let t := a
  let tmp := a ^^^ b ^^^ c ^^^ d
  [a ^^^ (xtime (a ^^^ b) ^^^ tmp), b ^^^ (xtime (b ^^^ c) ^^^ tmp),
    c ^^^ (xtime (c ^^^ d) ^^^ tmp), d ^^^ (xtime (d ^^^ t) ^^^ tmp)]

/-- `aes_mix_columns`, `aes_sbox.c:340-362`. -/
def mixColumns (s : List Byte) : List Byte :=
  (List.range 4).flatMap fun i => mixColumn (get s i 0) (get s i 1) (get s i 2) (get s i 3)

/-- `Multiply`, `aes_sbox.c:369-376`. -/
def multiply (x y : Byte) : Byte :=
  ((y &&& (1 : Byte)) * x) ^^^ (((y >>> 1) &&& (1 : Byte)) * xtime x) ^^^ (((y >>> 2) &&& (1 : Byte)) * xtime (xtime x)) ^^^
    (((y >>> 3) &&& (1 : Byte)) * xtime (xtime (xtime x))) ^^^
    (((y >>> 4) &&& (1 : Byte)) * xtime (xtime (xtime (xtime x))))

/-- Body of the loop of `Invaes_mix_columns`, `aes_sbox.c:393-407`. -/
def invMixColumn (a b c d : Byte) : List Byte :=
  [multiply a 0x0e ^^^ multiply b 0x0b ^^^ multiply c 0x0d ^^^ multiply d 0x09,
    multiply a 0x09 ^^^ multiply b 0x0e ^^^ multiply c 0x0b ^^^ multiply d 0x0d,
    multiply a 0x0d ^^^ multiply b 0x09 ^^^ multiply c 0x0e ^^^ multiply d 0x0b,
    multiply a 0x0b ^^^ multiply b 0x0d ^^^ multiply c 0x09 ^^^ multiply d 0x0e]

/-- `Invaes_mix_columns`, `aes_sbox.c:388-408`. -/
def invMixColumns (s : List Byte) : List Byte :=
  (List.range 4).flatMap fun i => invMixColumn (get s i 0) (get s i 1) (get s i 2) (get s i 3)

/-- `Invaes_sub_bytes`, `aes_sbox.c:414-422`. -/
def invSubBytes (s : List Byte) : List Byte := s.map getSBoxInvert

/-- `Invaes_shift_rows`, `aes_sbox.c:424-450`. -/
def invShiftRows (s : List Byte) : List Byte :=
  let temp := get s 3 1
  let s := put s 3 1 (get s 2 1)
  let s := put s 2 1 (get s 1 1)
  let s := put s 1 1 (get s 0 1)
  let s := put s 0 1 temp
  let temp := get s 0 2
  let s := put s 0 2 (get s 2 2)
  let s := put s 2 2 temp
  let temp := get s 1 2
  let s := put s 1 2 (get s 3 2)
  let s := put s 3 2 temp
  let temp := get s 0 3
  let s := put s 0 3 (get s 1 3)
  let s := put s 1 3 (get s 2 3)
  let s := put s 2 3 (get s 3 3)
  put s 3 3 temp

/-- The loop `aes_sbox.c:468-475`; `round` is a `uint8_t`. -/
def cipherLoop (rk : List Byte) (nr : Nat) : Nat → Nat → List Byte → List Byte
  | 0, _, s => s
  | fuel + 1, round, s =>
    let s := shiftRows (subBytes s)
    if round = nr then s
    else cipherLoop rk nr fuel ((round + 1) % 256) (addRoundKey round (mixColumns s) rk)

/-- `aes_cipher`, `aes_sbox.c:455-478`. -/
def cipher (c : Ctx) (s : List Byte) : List Byte :=
  addRoundKey c.nr (cipherLoop c.roundKey c.nr 256 1 (addRoundKey 0 s c.roundKey)) c.roundKey

/-- The loop `aes_sbox.c:493-500`. -/
def invCipherLoop (rk : List Byte) : Nat → List Byte → List Byte
  | 0, s => addRoundKey 0 (invSubBytes (invShiftRows s)) rk
  | round + 1, s =>
    invCipherLoop rk round
      (invMixColumns (addRoundKey (round + 1) (invSubBytes (invShiftRows s)) rk))

/-- `aes_inv_cipher`, `aes_sbox.c:480-501` (for `nr > 0`). -/
def invCipher (c : Ctx) (s : List Byte) : List Byte :=
  invCipherLoop c.roundKey (c.nr - 1) (addRoundKey c.nr s c.roundKey)

/-- `aes_setkey`, `aes_block.c:84-107`: the return code and the new context.  The result of
`aes_set_type` is not returned to the caller. -/
def setkey (c : Ctx) (key : List Byte) : Int × Ctx :=
  match setType key.length with
  | some (nk, nr) => (0, { roundKey := keyExpansion nk nr key, nk := nk, nr := nr })
  | none => (0, c)

/-- `aes_encrypt`, `aes_block.c:36-57`, with separate buffers: `none` if nothing is written. -/
def encrypt (c : Ctx) (inp : List Byte) : Option (List Byte) :=
  if inp.length ≠ 16 then none else some (cipher c inp)

/-- `aes_decrypt`, `aes_block.c:59-80`. -/
def decrypt (c : Ctx) (inp : List Byte) : Option (List Byte) :=
  if inp.length ≠ 16 then none else some (invCipher c inp)

/-! ### `aes_no_sbox.c` -/
namespace Scr

/-- `ror32`, `internal/api/rotate.h:66-69`. -/
def ror32 (x n : UInt32) : UInt32 := (x >>> (n &&& 31)) ||| (x <<< ((32 - n) &&& 31))

/-- `rol32`, `internal/api/rotate.h:61-64`. -/
def rol32 (x n : UInt32) : UInt32 := (x <<< (n &&& 31)) ||| (x >>> ((32 - n) &&& 31))

/-- `rol8`, `internal/api/rotate.h:35-38`; the argument is an `uint16_t`. -/
def rol8 (x : Byte) (n : UInt16) : Byte :=
  ((x.toUInt16 <<< (n &&& 7)) ||| (x.toUInt16 >>> ((8 - n) &&& 7))).toUInt8

/-- `gf_mul2`, `aes_scr_helper.h:36-41`. -/
def gfMul2 (w : UInt32) : UInt32 :=
  let t := w &&& 0x80808080
  ((w ^^^ t) <<< 1) ^^^ ((t >>> 7) * 0x1b)

/-- `y ^= (uint8_t)gf_mul2(y)`. -/
def times3 (y : Byte) : Byte := y ^^^ (gfMul2 y.toUInt32).toUInt8

/-- Logarithm loop, `aes_scr_helper.h:59-63`; returns `i`.  The loop ends when the `uint8_t`
counter wraps to 0. -/
def logLoop (x : Byte) : Nat → Byte → Byte → Byte
  | 0, i, _ => i
  | fuel + 1, i, y =>
    if i = 0 then i
    else
      let y := times3 y
      if y = x then i else logLoop x fuel (i + 1) y

/-- Anti-logarithm loop, `aes_scr_helper.h:66-68`. -/
def expLoop : Nat → Byte → Byte
  | 0, y => y
  | n + 1, y => expLoop n (times3 y)

/-- `gf_mulinv`, `aes_scr_helper.h:46-71`. -/
def gfMulinv (x : Byte) : Byte :=
  if x ≠ 0 then expLoop (~~~ (logLoop x 256 1 1)).toNat 1 else x

/-- `aes_sub_byte`, `aes_scr_helper.h:76-83`. -/
def subByte (x : Byte) : Byte :=
  let x := gfMulinv x
  let x := x ^^^ (rol8 x 1 ^^^ rol8 x 2 ^^^ rol8 x 3 ^^^ rol8 x 4)
  x ^^^ 0x63

/-- `aes_sub_byte_inv`, `aes_scr_helper.h:85-92`. -/
def subByteInv (x : Byte) : Byte :=
  let x := x ^^^ 0x63
  let x := rol8 x 1 ^^^ rol8 x 3 ^^^ rol8 x 6
  gfMulinv x

/-- `n` iterations of the loop of `aes_sub_word`, `aes_scr_helper.h:102-106`. -/
def subWordLoop : Nat → UInt32 → UInt32 → UInt32
  | 0, _, r => r
  | n + 1, x, r =>
    subWordLoop n (x >>> 8) (ror32 (r ||| (subByte (x &&& 0xff).toUInt8).toUInt32) 8)

/-- `aes_sub_word`, `aes_scr_helper.h:97-108`. -/
def subWord (x : UInt32) : UInt32 := subWordLoop 4 x 0

/-- Little endian load, `state->w[i]`. -/
def word (a b c d : Byte) : UInt32 :=
  a.toUInt32 ||| (b.toUInt32 <<< 8) ||| (c.toUInt32 <<< 16) ||| (d.toUInt32 <<< 24)

/-- Little endian store. -/
def bytes (w : UInt32) : List Byte :=
  [w.toUInt8, (w >>> 8).toUInt8, (w >>> 16).toUInt8, (w >>> 24).toUInt8]

/-- `state->w[i]`. -/
def getW (s : List Byte) (i : Nat) : UInt32 := word (get s i 0) (get s i 1) (get s i 2) (get s i 3)

/-- `aes_sub_bytes`, `aes_no_sbox.c:69-75`. -/
def subBytes (s : List Byte) : List Byte := s.map subByte

/-- `aes_sub_bytes_inv`, `aes_no_sbox.c:77-83`. -/
def subBytesInv (s : List Byte) : List Byte := s.map subByteInv

/-- "get row", `aes_no_sbox.c:93-97`: four iterations. -/
def getRow (s : List Byte) (i : Nat) : UInt32 :=
  [0, 1, 2, 3].foldl (fun x j => ror32 (x ||| (get s j i).toUInt32) 8) 0

/-- "set row", `aes_no_sbox.c:103-107`. -/
def setRow (s : List Byte) (i : Nat) (x : UInt32) : List Byte :=
  ([0, 1, 2, 3].foldl (fun (p : List Byte × UInt32) j =>
    (put p.1 j i (p.2 &&& 0xff).toUInt8, p.2 >>> 8)) (s, x)).1

/-- `aes_shift_rows`, `aes_no_sbox.c:85-109`. -/
def shiftRows (s : List Byte) : List Byte :=
  [0, 1, 2, 3].foldl (fun s i => setRow s i (ror32 (getRow s i) (UInt32.ofNat (i * 8)))) s

/-- `aes_shift_rows_inv`, `aes_no_sbox.c:111-135`. -/
def shiftRowsInv (s : List Byte) : List Byte :=
  [0, 1, 2, 3].foldl (fun s i => setRow s i (rol32 (getRow s i) (UInt32.ofNat (i * 8)))) s

/-- `aes_mix_one_column`, `aes_no_sbox.c:137-141`. -/
def mixOneColumn (w : UInt32) : UInt32 :=
  ror32 w 8 ^^^ ror32 w 16 ^^^ ror32 w 24 ^^^ gfMul2 (ror32 w 8 ^^^ w)

/-- `aes_mix_columns`, `aes_no_sbox.c:143-149`. -/
def mixColumns (s : List Byte) : List Byte :=
  (List.range 4).flatMap fun i => bytes (mixOneColumn (getW s i))

/-- Body of the loop of `aes_mix_columns_inv`, `aes_no_sbox.c:155-161`. -/
def mixOneColumnInv (w : UInt32) : UInt32 :=
  let t := ror32 w 16 ^^^ w
  let t := gfMul2 (gfMul2 t)
  mixOneColumn (w ^^^ t)

/-- `aes_mix_columns_inv`, `aes_no_sbox.c:151-162`. -/
def mixColumnsInv (s : List Byte) : List Byte :=
  (List.range 4).flatMap fun i => bytes (mixOneColumnInv (getW s i))

/-- One iteration of the loop `aes_no_sbox.c:206-223`; `p = (w, rcon)`. -/
def expandStep (nk i : Nat) (p : List UInt32 × UInt32) : List UInt32 × UInt32 :=
  let x := p.1.getD (i - 1) 0
  let q : UInt32 × UInt32 :=
    if i % nk = 0 then (subWord (ror32 x 8) ^^^ p.2, gfMul2 p.2)
    else if nk > 6 ∧ i % nk = 4 then (subWord x, p.2)
    else (x, p.2)
  (p.1 ++ [p.1.getD (i - nk) 0 ^^^ q.1], q.2)

/-- `n` iterations from index `i` on. -/
def expandLoop (nk : Nat) : Nat → Nat → List UInt32 × UInt32 → List UInt32 × UInt32
  | 0, _, p => p
  | n + 1, i, p => expandLoop nk n (i + 1) (expandStep nk i p)

/-- `aes_setkey`, `aes_no_sbox.c:178-224`. -/
def keyExpansion (nk nr : Nat) (key : List Byte) : List UInt32 :=
  (expandLoop nk (4 * (nr + 1) - nk) nk ((List.range nk).map (getW key), 1)).1

/-- `aes_add_round_key`, `aes_no_sbox.c:164-176`: xor with the 16 bytes at `&w[rnd * 4]`. -/
def addRoundKey (rnd : Nat) (s : List Byte) (w : List UInt32) : List Byte :=
  (List.range 16).map fun k => s.getD k 0 ^^^ (w.flatMap bytes).getD (4 * (rnd * 4) + k) 0

/-- The loop `aes_no_sbox.c:240-245`. -/
def cipherLoop (w : List UInt32) : Nat → Nat → List Byte → List Byte
  | 0, _, s => s
  | n + 1, round, s =>
    cipherLoop w n (round + 1) (addRoundKey round (mixColumns (shiftRows (subBytes s))) w)

/-- `aes_cipher_scr`, `aes_no_sbox.c:233-251`. -/
def cipher (w : List UInt32) (nr : Nat) (s : List Byte) : List Byte :=
  let s := cipherLoop w (nr - 1) 1 (addRoundKey 0 s w)
  addRoundKey nr (shiftRows (subBytes s)) w

/-- The loop and last round, `aes_no_sbox.c:260-270`. -/
def invCipherLoop (w : List UInt32) : Nat → List Byte → List Byte
  | 0, s => addRoundKey 0 (shiftRowsInv (subBytesInv s)) w
  | round + 1, s =>
    invCipherLoop w round
      (mixColumnsInv (addRoundKey (round + 1) (shiftRowsInv (subBytesInv s)) w))

/-- `aes_inv_cipher_scr`, `aes_no_sbox.c:253-271`. -/
def invCipher (w : List UInt32) (nr : Nat) (s : List Byte) : List Byte :=
  invCipherLoop w (nr - 1) (addRoundKey nr s w)

end Scr
end LC.Aes
