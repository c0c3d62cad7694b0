import Verif.Hmac.Model
import Verif.Hash.Inst
/-
Model of `/repo/otp/src/hotp.c` and `/repo/otp/src/totp.c`.
-/
namespace LC.Otp
open Hmac (init update final)

/-- The modulo loop, `hotp.c:40-43`: `modulo` is a `uint32_t`. -/
def modulo : Nat → Nat
  | 0 => 1
  | d + 1 => modulo d * 10 % 2 ^ 32

/-- The eight bytes in memory of `be_bswap64(counter)`. -/
def be64 (v : Nat) : List Byte :=
  [UInt8.ofNat (v >>> 56), UInt8.ofNat (v >>> 48), UInt8.ofNat (v >>> 40), UInt8.ofNat (v >>> 32),
   UInt8.ofNat (v >>> 24), UInt8.ofNat (v >>> 16), UInt8.ofNat (v >>> 8), UInt8.ofNat v]

/-- Dynamic truncation, `hotp.c:55-59`. -/
def truncate (md : List Byte) : Nat :=
  let offset := (md.getD 31 0 &&& 0xf).toNat
  ((md.getD offset 0 &&& 0x7f).toNat <<< 24) ||| ((md.getD (offset + 1) 0).toNat <<< 16) |||
    ((md.getD (offset + 2) 0).toNat <<< 8) ||| (md.getD (offset + 3) 0).toNat

/-- `lc_hotp`, `hotp.c:27-64`; `none` is a division by zero (`truncated % modulo` with
`modulo = 0`). -/
def hotp (h0 : StreamHash.sha256.Ctx) (key : List Byte) (counter digits : Nat) : Option Nat :=
  let md := (final (update (init h0 key) (be64 counter))).2
  if modulo digits = 0 then none else some (truncate md % modulo digits)

/-- `lc_totp`, `totp.c:30-50`; `now` is the value of `time(NULL)`, `none` is a division by
zero. -/
def totp (h0 : StreamHash.sha256.Ctx) (now : Nat) (key : List Byte) (step digits : Nat) : Option Nat :=
  if step = 0 then none else hotp h0 key (now / step) digits

end LC.Otp
