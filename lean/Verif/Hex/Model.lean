/-
Model of `/repo/internal/src/binhexbin.c` (hex conversion).  Characters are their ASCII codes;
a `char` above 127 falls into none of the ranges whether `char` is signed or not.
-/
namespace LC.Hex

abbrev Byte := UInt8

/-- `bin_char`, `binhexbin.c:28-37`. -/
def binChar (c : Byte) : Byte :=
  if 48 ≤ c ∧ 57 ≥ c then c - 48
  else if 65 ≤ c ∧ 70 ≥ c then c - 55
  else if 97 ≤ c ∧ 102 ≥ c then c - 87
  else 0

/-- The conversion loop `binhexbin.c:63-66`, `chars` iterations; `hex` holds the remaining text. -/
def hex2binLoop : Nat → List Byte → List Byte
  | chars + 1, a :: b :: hex => (binChar a <<< 4 ||| binChar b) :: hex2binLoop chars hex
  | _, _ => []

/-- `hex2bin`, `binhexbin.c:47-67`: the list of bytes stored to `bin[0]`, `bin[1]`, ...
in order.  The C function has no return value; how many bytes it stores is the length of this
list, which the caller's buffer of `binlen` bytes has to accommodate. -/
def hex2bin (hex : List Byte) (binlen : Nat) : List Byte :=
  let chars := if binlen > hex.length / 2 then hex.length / 2 else binlen
  if hex.length % 2 = 1 then binChar (hex.headD 0) :: hex2binLoop chars hex.tail
  else hex2binLoop chars hex

/-- `hex2bin_alloc`, `binhexbin.c:81-100`: `none` is `-EINVAL`.  Allocation failure is not
modelled. The buffer is zero initialised, so unwritten bytes are 0. -/
def hex2binAlloc (hex : List Byte) : Option (List Byte) :=
  if hex.length = 0 then none
  else
    let outlen := (hex.length + 1) / 2
    let w := hex2bin hex outlen
    some (w ++ List.replicate (outlen - w.length) 0)

/-- `hex_char`, `binhexbin.c:102-111`. -/
def hexChar (bin : Byte) (u : Bool) : Byte :=
  if bin < 16 then (if bin < 10 then 48 + bin else (if u then 55 + bin else 87 + bin)) else 88

/-- `bin2hex` loop, `binhexbin.c:128-131`. -/
def bin2hexLoop (u : Bool) : Nat → List Byte → List Byte
  | chars + 1, b :: bin => hexChar (b >>> 4) u :: hexChar (b &&& 0x0f) u :: bin2hexLoop u chars bin
  | _, _ => []

/-- `bin2hex`, `binhexbin.c:122-132`: the characters stored to `hex`. -/
def bin2hex (bin : List Byte) (hexlen : Nat) (u : Bool) : List Byte :=
  bin2hexLoop u (if bin.length > hexlen / 2 then hexlen / 2 else bin.length) bin

/-- `bin2hex_alloc`, `binhexbin.c:146-165`. -/
def bin2hexAlloc (bin : List Byte) : Option (List Byte) :=
  if bin.length = 0 then none else some (bin2hex bin (bin.length * 2) false)

end LC.Hex
