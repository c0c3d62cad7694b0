/-
RFC 5869 (HKDF), RFC 8018 (PBKDF2), SP 800-108 (KDF in counter, feedback and double
pipeline mode), over an arbitrary pseudo random function.
-/
namespace LC.Kdf.Spec

abbrev Bytes := List UInt8

/-- The first `L` bytes of `B 0 || B 1 || B 2 || ...` (blocks are not empty). -/
def firstBytes (B : Nat → Bytes) (L : Nat) : Bytes := ((List.range L).flatMap B).take L

/-- Four byte big endian integer. -/
def int32 (i : Nat) : Bytes := (List.range 4).map fun j => UInt8.ofNat (i / 256 ^ (3 - j) % 256)

/-! HKDF -/

/-- `T(i)` of HKDF-Expand, `prf = HMAC(PRK, ·)`. -/
def T (prf : Bytes → Bytes) (info : Bytes) : Nat → Bytes
  | 0 => []
  | i + 1 => prf (T prf info i ++ info ++ [UInt8.ofNat (i + 1)])

/-- HKDF-Expand. -/
def hkdfExpand (mac : Bytes → Bytes → Bytes) (prk info : Bytes) (L : Nat) : Bytes :=
  firstBytes (fun i => T (mac prk) info (i + 1)) L

/-- HKDF with a given salt. -/
def hkdf (mac : Bytes → Bytes → Bytes) (salt ikm info : Bytes) (L : Nat) : Bytes :=
  hkdfExpand mac (mac salt ikm) info L

/-! PBKDF2 -/

/-- `U_{j+1}`. -/
def U (prf : Bytes → Bytes) (salt : Bytes) (i : Nat) : Nat → Bytes
  | 0 => prf (salt ++ int32 i)
  | j + 1 => prf (U prf salt i j)

/-- `U_1 xor U_2 xor ... xor U_{c+1}`. -/
def F (prf : Bytes → Bytes) (salt : Bytes) (i : Nat) : Nat → Bytes
  | 0 => U prf salt i 0
  | c + 1 => (F prf salt i c).zipWith (· ^^^ ·) (U prf salt i (c + 1))

/-- PBKDF2 with iteration count `c ≥ 1`. -/
def pbkdf2 (prf : Bytes → Bytes) (salt : Bytes) (c L : Nat) : Bytes :=
  firstBytes (fun i => F prf salt (i + 1) (c - 1)) L

/-! SP 800-108: `fixed` is the fixed input data. -/

/-- Counter mode. -/
def ctr (prf : Bytes → Bytes) (fixed : Bytes) (L : Nat) : Bytes :=
  firstBytes (fun i => prf (int32 (i + 1) ++ fixed)) L

/-- `K(i)` of the feedback mode. -/
def fbK (prf : Bytes → Bytes) (iv fixed : Bytes) : Nat → Bytes
  | 0 => iv
  | i + 1 => prf (fbK prf iv fixed i ++ int32 (i + 1) ++ fixed)

/-- Feedback mode with counter. -/
def fb (prf : Bytes → Bytes) (iv fixed : Bytes) (L : Nat) : Bytes :=
  firstBytes (fun i => fbK prf iv fixed (i + 1)) L

/-- `A(i)` of the double pipeline mode. -/
def dpiA (prf : Bytes → Bytes) (a0 : Bytes) : Nat → Bytes
  | 0 => a0
  | i + 1 => prf (dpiA prf a0 i)

/-- Double pipeline mode; `A(0)` is given separately (the standard: `a0 = fixed`). -/
def dpi (prf : Bytes → Bytes) (a0 fixed : Bytes) (L : Nat) : Bytes :=
  firstBytes (fun i => prf (dpiA prf a0 (i + 1) ++ int32 (i + 1) ++ fixed)) L

end LC.Kdf.Spec
