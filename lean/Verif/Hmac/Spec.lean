/- RFC 2104. -/
namespace LC.Hmac.Spec

/-- The key filled up (or hashed and filled up) with zeros to the block length. -/
def blockKey (H : List UInt8 → List UInt8) (B : Nat) (key : List UInt8) : List UInt8 :=
  let k := if B < key.length then H key else key
  k ++ List.replicate (B - k.length) 0

/-- xor with a repeated byte. -/
def pad (b : UInt8) (k : List UInt8) : List UInt8 := k.map fun x => x ^^^ b

/-- `H((K0 xor opad) || H((K0 xor ipad) || text))`. -/
def hmac (H : List UInt8 → List UInt8) (B : Nat) (key text : List UInt8) : List UInt8 :=
  H (pad 0x5c (blockKey H B key) ++ H (pad 0x36 (blockKey H B key) ++ text))

end LC.Hmac.Spec
