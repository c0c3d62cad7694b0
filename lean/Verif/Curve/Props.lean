import Verif.Curve.Ladder
/-!
# curve25519: field arithmetic (C63) and X25519 (C71)

`val f` is the integer the limbs stand for in radix `2^51` (`val_eq`), `toF f` its residue modulo
`P = 2^255 - 19`.  Limbs below `2^54` (`loose`) are what any two operations of the callers produce
from a product; the results of `mul`, `sq`, `sq2` are below `2^51 + 1` (`tight`).
-/
namespace LC.Curve

/-- **C63.** Products: for all limbs below `2^54` nothing overflows and the result is the product. -/
theorem fe_mul_exact (f g : Fe) (hf : f.lt (2 ^ 54)) (hg : g.lt (2 ^ 54)) :
    (feMul f g).lt (2 ^ 51 + 1) ∧ val (feMul f g) % (2 ^ 255 - 19) = val f * val g % (2 ^ 255 - 19) := by
  have h := feMul_spec f g hf hg
  refine ⟨h.1, ?_⟩
  rw [← P_eq]
  have := h.2
  unfold toF at this
  rw [← Nat.cast_mul, ZMod.natCast_eq_natCast_iff'] at this
  exact this

/-- **C63.** Squares. -/
theorem fe_sq_exact (f : Fe) (hf : f.lt (2 ^ 54)) :
    (feSq f).lt (2 ^ 51 + 1) ∧ val (feSq f) % (2 ^ 255 - 19) = val f ^ 2 % (2 ^ 255 - 19) := by
  have h := feSq_spec f hf
  refine ⟨h.1, ?_⟩
  rw [← P_eq]
  have := h.2
  unfold toF at this
  rw [← Nat.cast_pow, ZMod.natCast_eq_natCast_iff'] at this
  exact this

/-- **C63.** Twice a square; here the limbs have to be below `2^53`. -/
theorem fe_sq2_exact (f : Fe) (hf : f.lt (2 ^ 53)) :
    (feSq2 f).lt (2 ^ 51 + 1) ∧ val (feSq2 f) % (2 ^ 255 - 19) = 2 * val f ^ 2 % (2 ^ 255 - 19) := by
  have h := feSq2_spec f hf
  refine ⟨h.1, ?_⟩
  rw [← P_eq]
  have h2 : (2 : ZMod P) = ((2 : Nat) : ZMod P) := by norm_cast
  have := h.2
  unfold toF at this
  rw [← Nat.cast_pow, h2, ← Nat.cast_mul, ZMod.natCast_eq_natCast_iff'] at this
  exact this

/-- **C63.** The bound of `fe_sq2_exact` cannot be relaxed to the one of the other products: with
limbs below `2^54` the last carry of `fe25519_sq2` overflows. -/
theorem fe_sq2_bound_needed : ∃ f : Fe, f.lt (2 ^ 54) ∧ val (feSq2 f) % (2 ^ 255 - 19) ≠ 2 * val f ^ 2 % (2 ^ 255 - 19) :=
  ⟨⟨2 ^ 54 - 1, 2 ^ 54 - 1, 2 ^ 54 - 1, 2 ^ 54 - 1, 2 ^ 54 - 1⟩,
    ⟨by decide, by decide, by decide, by decide, by decide⟩, by decide +kernel⟩

/-- **C63.** Multiplication by a 32 bit constant. -/
theorem fe_mul32_exact (f : Fe) (n : Nat) (hf : f.lt (2 ^ 54)) (hn : n < 2 ^ 32) :
    (feMul32 f n).lt (2 ^ 52) ∧ val (feMul32 f n) % (2 ^ 255 - 19) = val f * n % (2 ^ 255 - 19) := by
  have h := feMul32_spec f n hf hn
  refine ⟨h.1, ?_⟩
  rw [← P_eq]
  have := h.2
  unfold toF at this
  rw [← Nat.cast_mul, ZMod.natCast_eq_natCast_iff'] at this
  exact this

/-- **C63.** Sums of limbs below any `a` and `b` with `a + b` at most `2^64`. -/
theorem fe_add_exact (f g : Fe) (a b : Nat) (hf : f.lt a) (hg : g.lt b) (hab : a + b ≤ 2 ^ 64) :
    (feAdd f g).lt (a + b) ∧ val (feAdd f g) % (2 ^ 255 - 19) = (val f + val g) % (2 ^ 255 - 19) := by
  have h := feAdd_spec f g a b hf hg hab
  refine ⟨h.1, ?_⟩
  rw [← P_eq]
  have := h.2
  unfold toF at this
  rw [← Nat.cast_add, ZMod.natCast_eq_natCast_iff'] at this
  exact this

/-- **C63.** Differences: no limb goes below zero. -/
theorem fe_sub_exact (f g : Fe) (a : Nat) (hf : f.lt a) (hg : g.lt (2 ^ 54)) (ha : a ≤ 2 ^ 63) :
    (feSub f g).lt (a + 2 ^ 52) ∧ (val (feSub f g) + val g) % (2 ^ 255 - 19) = val f % (2 ^ 255 - 19) := by
  have h := feSub_spec f g a hf hg ha
  refine ⟨h.1, ?_⟩
  rw [← P_eq]
  have := h.2
  unfold toF at this
  rw [eq_sub_iff_add_eq, ← Nat.cast_add, ZMod.natCast_eq_natCast_iff'] at this
  exact this

/-- **C63.** Conditional swap and move. -/
theorem fe_cswap_exact (f g : Fe) (hf : f.lt (2 ^ 64)) (hg : g.lt (2 ^ 64)) (b : Bool) :
    feCswap f g b.toNat = (if b then (g, f) else (f, g)) ∧ feCmov f g b.toNat = if b then g else f := by
  cases b with
  | false => exact ⟨feCswap_zero f g, feCmov_zero f g⟩
  | true => exact ⟨feCswap_one f g hf hg, feCmov_one f g hf hg⟩

/-- **C63.** Encoding: 32 bytes, the least residue, for limbs of any content. -/
theorem fe_tobytes_canonical (f : Fe) (hf : f.lt (2 ^ 64)) :
    (feTobytes f).length = 32 ∧ leNum (feTobytes f) = val f % (2 ^ 255 - 19) :=
  ⟨feTobytes_length f, by rw [← P_eq]; exact feTobytes_spec f hf⟩

/-- **C63.** Decoding: the number of the 32 bytes without the top bit, not reduced. -/
theorem fe_frombytes_exact (s : List Byte) (hs : s.length = 32) :
    (feFrombytes s).lt (2 ^ 51) ∧ val (feFrombytes s) = leNum s % 2 ^ 255 :=
  feFrombytes_spec s hs

/-- **C63.** Two elements have the same encoding exactly if they are equal in the field. -/
theorem fe_tobytes_eq_iff (f g : Fe) (hf : f.lt (2 ^ 64)) (hg : g.lt (2 ^ 64)) :
    feTobytes f = feTobytes g ↔ val f % (2 ^ 255 - 19) = val g % (2 ^ 255 - 19) := by
  rw [feTobytes_eq_iff f g hf hg]
  unfold toF
  rw [ZMod.natCast_eq_natCast_iff', P_eq]

/-- **C63.** Sign and zero tests look at the canonical value. -/
theorem fe_predicates (f : Fe) (hf : f.lt (2 ^ 64)) :
    feIsnegative f = val f % (2 ^ 255 - 19) % 2 ∧
      feIszero f = if val f % (2 ^ 255 - 19) = 0 then 1 else 0 := by
  rw [← P_eq]
  refine ⟨feIsnegative_spec f hf, ?_⟩
  rw [feIszero_spec f hf, val_mod_eq]
  congr 1
  rw [ZMod.val_eq_zero]

/-- **C63.** `fe25519_invert`: the inverse, and zero for zero. -/
theorem fe_invert_exact (z : Fe) (hz : z.lt (2 ^ 54)) :
    (feInvert z).lt (2 ^ 51 + 1) ∧
      (val z % (2 ^ 255 - 19) ≠ 0 → val (feInvert z) * val z % (2 ^ 255 - 19) = 1) ∧
      (val z % (2 ^ 255 - 19) = 0 → val (feInvert z) % (2 ^ 255 - 19) = 0) := by
  refine ⟨(feInvert_spec z hz).1, ?_, ?_⟩ <;> rw [← P_eq] <;> intro h
  · have h0 : toF z ≠ 0 := fun hc => h (by rw [val_mod_eq, hc, ZMod.val_zero])
    have := feInvert_inv z hz
    have h1 : toF (feInvert z) * toF z = 1 := by rw [this, inv_mul_cancel₀ h0]
    unfold toF at h1
    rw [← Nat.cast_mul, ← Nat.cast_one, ZMod.natCast_eq_natCast_iff'] at h1
    exact h1
  · have h0 : toF z = 0 := by
      rw [val_mod_eq] at h
      exact (ZMod.val_eq_zero _).mp h
    rw [val_mod_eq, feInvert_inv z hz, h0, inv_zero, ZMod.val_zero]

/-- **C63.** `fe25519_pow22523`: the power used for square roots. -/
theorem fe_pow22523_exact (z : Fe) (hz : z.lt (2 ^ 54)) :
    (fePow22523 z).lt (2 ^ 51 + 1) ∧ toF (fePow22523 z) = toF z ^ (2 ^ 252 - 3) :=
  fePow22523_spec z hz

/-- The modulus is a prime. -/
theorem modulus_prime : Nat.Prime (2 ^ 255 - 19) := by rw [← P_eq]; exact P_prime

/-- Limbs at the upper end of the admissible range. -/
example : (⟨2 ^ 54 - 1, 2 ^ 54 - 1, 2 ^ 54 - 1, 2 ^ 54 - 1, 2 ^ 54 - 1⟩ : Fe).lt (2 ^ 54) :=
  ⟨by decide, by decide, by decide, by decide, by decide⟩
example : val (feMul ⟨2 ^ 54 - 1, 2 ^ 54 - 1, 2 ^ 54 - 1, 2 ^ 54 - 1, 2 ^ 54 - 1⟩
    ⟨2 ^ 54 - 1, 2 ^ 54 - 1, 2 ^ 54 - 1, 2 ^ 54 - 1, 2 ^ 54 - 1⟩) % (2 ^ 255 - 19) =
      58132590689113268094722006051209556813049305845605701425003784093 := by decide +kernel

/-! ### C71: X25519 -/

/-- **C71.** `crypto_scalarmult_curve25519_c` returns the X25519 function of RFC 7748 in canonical
encoding, or refuses; for every scalar and every u-coordinate, canonical or not. -/
theorem x25519_rfc7748 (n p : List Byte) (hn : n.length = 32) (hp : p.length = 32) :
    scalarmult n p = none ∨ ∃ q, scalarmult n p = some q ∧ q.length = 32 ∧
      leNum q = (Spec.x25519 (Spec.decodeScalar n) (Spec.decodeU p)).val := by
  by_cases h : hasSmallOrder p = 0
  · exact Or.inr (scalarmult_value n p hn hp h)
  · left; unfold scalarmult; rw [if_pos h]

/-- The u-coordinates of the points of order 8 as RFC 7748, section 6, and the comment in the code
list them. -/
def u8a : Nat := 325606250916557431795983626356110631294008115727848805560023387167927233504
def u8b : Nat := 39382357235489614581723060781553021112529911719440698176882885853963445705823

/-- **C71.** It refuses exactly the five u-coordinates 0, 1, -1 and the two of order 8, in every
encoding. -/
theorem x25519_refuses (n p : List Byte) (hp : p.length = 32) :
    scalarmult n p = none ↔
      Spec.decodeU p = 0 ∨ Spec.decodeU p = 1 ∨ Spec.decodeU p = -1 ∨ Spec.decodeU p = (u8a : ZMod P) ∨
        Spec.decodeU p = (u8b : ZMod P) := by
  have h1 : scalarmult n p = none ↔ ∃ e ∈ blocklist, leNum p % 2 ^ 255 = leNum e := by
    have h := hasSmallOrder_spec p hp
    unfold scalarmult
    dsimp only
    by_cases hc : ∃ e ∈ blocklist, leNum p % 2 ^ 255 = leNum e
    · rw [if_pos hc] at h
      rw [if_pos (by rw [h]; decide)]
      exact ⟨fun _ => hc, fun _ => rfl⟩
    · rw [if_neg hc] at h
      rw [if_neg (by rw [h]; decide)]
      exact ⟨fun h => (by cases h), fun h => absurd h hc⟩
  have h2 : (∃ e ∈ blocklist, leNum p % 2 ^ 255 = leNum e) ↔ leNum p % 2 ^ 255 ∈ blocklist.map leNum := by
    rw [List.mem_map]
    exact ⟨fun ⟨e, h, g⟩ => ⟨e, h, g.symm⟩, fun ⟨e, h, g⟩ => ⟨e, h, g.symm⟩⟩
  have h3 : blocklist.map leNum = [0, 1, u8a, u8b, P - 1, P, P + 1] := by decide +kernel
  have hm : (-1 : ZMod P) = ((P - 1 : Nat) : ZMod P) := by
    rw [Nat.cast_sub (by decide), ZMod.natCast_self, Nat.cast_one, zero_sub]
  have h0 : (0 : ZMod P) = ((0 : Nat) : ZMod P) := Nat.cast_zero.symm
  have hone : (1 : ZMod P) = ((1 : Nat) : ZMod P) := Nat.cast_one.symm
  rw [h1, h2, h3, hm, h0, hone]
  unfold Spec.decodeU
  simp only [ZMod.natCast_eq_natCast_iff']
  have hlt : leNum p % 2 ^ 255 < 2 ^ 255 := Nat.mod_lt _ (by decide)
  generalize leNum p % 2 ^ 255 = v at *
  simp only [List.mem_cons, List.not_mem_nil, or_false]
  have a1 : u8a = 325606250916557431795983626356110631294008115727848805560023387167927233504 := rfl
  have a2 : u8b = 39382357235489614581723060781553021112529911719440698176882885853963445705823 := rfl
  norm_num at hlt
  rw [a1, a2]
  dsimp only [P]
  omega

/-- The test vector of RFC 7748, section 5.2 (first one). -/
example : (scalarmult
    [0xa5, 0x46, 0xe3, 0x6b, 0xf0, 0x52, 0x7c, 0x9d, 0x3b, 0x16, 0x15, 0x4b, 0x82, 0x46, 0x5e, 0xdd,
     0x62, 0x14, 0x4c, 0x0a, 0xc1, 0xfc, 0x5a, 0x18, 0x50, 0x6a, 0x22, 0x44, 0xba, 0x44, 0x9a, 0xc4]
    [0xe6, 0xdb, 0x68, 0x67, 0x58, 0x30, 0x30, 0xdb, 0x35, 0x94, 0xc1, 0xa4, 0x24, 0xb1, 0x5f, 0x7c,
     0x72, 0x66, 0x24, 0xec, 0x26, 0xb3, 0x35, 0x3b, 0x10, 0xa9, 0x03, 0xa6, 0xd0, 0xab, 0x1c, 0x4c]) =
    some [0xc3, 0xda, 0x55, 0x37, 0x9d, 0xe9, 0xc6, 0x90, 0x8e, 0x94, 0xea, 0x4d, 0xf2, 0x8d, 0x08, 0x4f,
     0x32, 0xec, 0xcf, 0x03, 0x49, 0x1c, 0x71, 0xf7, 0x54, 0xb4, 0x07, 0x55, 0x77, 0xa2, 0x85, 0x52] := by
  decide +kernel

end LC.Curve
