import Verif.Curve.Model
import Mathlib.Data.ZMod.Basic
import Mathlib.Tactic.Ring
/-!
# The field arithmetic is exact

What the limbs mean is a natural number (`val`); the functions of `Verif.Curve.Model` compute sum,
difference, product, ... of these numbers modulo `2^255 - 19`, and no intermediate result leaves its
C type as long as the limbs are below `2^54`.
-/
namespace LC.Curve

/-- The prime of RFC 7748 and RFC 8032, `2^255 - 19`. -/
abbrev P : Nat := 57896044618658097711785492504343953926634992332820282019728792003956564819949

theorem P_eq : P = 2 ^ 255 - 19 := by decide

/-- The number the limbs stand for. -/
def val (f : Fe) : Nat :=
  f.l0 + 2251799813685248 * f.l1 + 5070602400912917605986812821504 * f.l2 +
    11417981541647679048466287755595961091061972992 * f.l3 +
    25711008708143844408671393477458601640355247900524685364822016 * f.l4

/-- The radix is `2^51`. -/
theorem val_eq (f : Fe) :
    val f = f.l0 + 2 ^ 51 * f.l1 + 2 ^ 102 * f.l2 + 2 ^ 153 * f.l3 + 2 ^ 204 * f.l4 := rfl

/-- The residue. -/
def toF (f : Fe) : ZMod P := (val f : ZMod P)

/-- All limbs are below `b`. -/
def Fe.lt (f : Fe) (b : Nat) : Prop := f.l0 < b ∧ f.l1 < b ∧ f.l2 < b ∧ f.l3 < b ∧ f.l4 < b

theorem Fe.lt_mono {f : Fe} {a b : Nat} (h : f.lt a) (hab : a ≤ b) : f.lt b :=
  ⟨Nat.lt_of_lt_of_le h.1 hab, Nat.lt_of_lt_of_le h.2.1 hab, Nat.lt_of_lt_of_le h.2.2.1 hab,
   Nat.lt_of_lt_of_le h.2.2.2.1 hab, Nat.lt_of_lt_of_le h.2.2.2.2 hab⟩

/-- Bounds: `2^51 + 1`, `2^53`, `2^54`. -/
notation "tight" => 2251799813685249
notation "mid" => 9007199254740992
notation "loose" => 18014398509481984

theorem cast_add_mul (a q : Nat) : ((a + P * q : Nat) : ZMod P) = (a : ZMod P) := by
  rw [Nat.cast_add, Nat.cast_mul, ZMod.natCast_self, zero_mul, add_zero]

theorem and_mask (x : Nat) : x &&& mask = x % 2251799813685248 := by
  have := Nat.and_two_pow_sub_one_eq_mod x 51
  simpa [mask] using this

theorem shr51 (x : Nat) : x >>> 51 = x / 2251799813685248 := by
  rw [Nat.shiftRight_eq_div_pow]

theorem u64_and_mask (x : Nat) : u64 x &&& mask = x % 2251799813685248 := by
  rw [and_mask, u64]; omega

theorem u64_of_lt {x : Nat} (h : x < 18446744073709551616) : u64 x = x := Nat.mod_eq_of_lt h
theorem u128_of_lt {x : Nat} (h : x < 340282366920938463463374607431768211456) : u128 x = x := Nat.mod_eq_of_lt h

/-! ### Carry chain -/

/-- Division with remainder by `2^51`. -/
theorem split51 (x : Nat) : ∃ c l, x / 2251799813685248 = c ∧ x % 2251799813685248 = l ∧
    x = 2251799813685248 * c + l ∧ l < 2251799813685248 :=
  ⟨_, _, rfl, rfl, by omega, by omega⟩

theorem feCarry_spec (r0 r1 r2 r3 r4 : Nat) (h0 : r0 < 80 * 2 ^ 108) (h1 : r1 < 80 * 2 ^ 108)
    (h2 : r2 < 80 * 2 ^ 108) (h3 : r3 < 80 * 2 ^ 108) (h4 : r4 < 6 * 2 ^ 108) :
    (feCarry r0 r1 r2 r3 r4).lt tight ∧ ∃ q,
      r0 + 2251799813685248 * r1 + 5070602400912917605986812821504 * r2 +
        11417981541647679048466287755595961091061972992 * r3 +
        25711008708143844408671393477458601640355247900524685364822016 * r4
      = val (feCarry r0 r1 r2 r3 r4) + P * q := by
  norm_num at h0 h1 h2 h3 h4
  unfold feCarry
  simp only [u64_and_mask, shr51]
  obtain ⟨c0, l0, e0, m0, s0, b0⟩ := split51 r0
  rw [e0, m0, u64_of_lt (by omega : c0 < _)]
  rw [u128_of_lt (by omega : r1 + c0 < _)]
  obtain ⟨c1, l1, e1, m1, s1, b1⟩ := split51 (r1 + c0)
  rw [e1, m1, u64_of_lt (by omega : c1 < _)]
  rw [u128_of_lt (by omega : r2 + c1 < _)]
  obtain ⟨c2, l2, e2, m2, s2, b2⟩ := split51 (r2 + c1)
  rw [e2, m2, u64_of_lt (by omega : c2 < _)]
  rw [u128_of_lt (by omega : r3 + c2 < _)]
  obtain ⟨c3, l3, e3, m3, s3, b3⟩ := split51 (r3 + c2)
  rw [e3, m3, u64_of_lt (by omega : c3 < _)]
  rw [u128_of_lt (by omega : r4 + c3 < _)]
  obtain ⟨c4, l4, e4, m4, s4, b4⟩ := split51 (r4 + c3)
  rw [e4, m4, u64_of_lt (by omega : c4 < _)]
  rw [u64_of_lt (by omega : 19 * c4 < _), u64_of_lt (by omega : l0 + 19 * c4 < _)]
  obtain ⟨c5, l5, e5, m5, s5, b5⟩ := split51 (l0 + 19 * c4)
  rw [e5, m5, u64_of_lt (by omega : l1 + c5 < _)]
  obtain ⟨c6, l6, e6, m6, s6, b6⟩ := split51 (l1 + c5)
  rw [e6, m6, u64_of_lt (by omega : l2 + c6 < _)]
  refine ⟨⟨by dsimp only; omega, by dsimp only; omega, by dsimp only; omega, by dsimp only; omega, by dsimp only; omega⟩, c4, ?_⟩
  dsimp only [val, P]
  omega

/-- A product of two limbs. -/
theorem limb_mul {a b : Nat} (ha : a < loose) (hb : b < loose) : a * b ≤ 324518553658426690754359057612800 := by
  have := Nat.mul_le_mul (Nat.le_of_lt_succ (show a < 18014398509481983 + 1 from ha))
    (Nat.le_of_lt_succ (show b < 18014398509481983 + 1 from hb))
  omega

/-! ### Multiplication -/

theorem feMul_spec (f g : Fe) (hf : f.lt loose) (hg : g.lt loose) :
    (feMul f g).lt tight ∧ toF (feMul f g) = toF f * toF g := by
  obtain ⟨f0, f1, f2, f3, f4⟩ := f
  obtain ⟨g0, g1, g2, g3, g4⟩ := g
  obtain ⟨hf0, hf1, hf2, hf3, hf4⟩ := hf
  obtain ⟨hg0, hg1, hg2, hg3, hg4⟩ := hg
  dsimp only at hf0 hf1 hf2 hf3 hf4 hg0 hg1 hg2 hg3 hg4
  unfold feMul
  dsimp only
  rw [u128_of_lt (show 19 * f1 < _ by omega), u128_of_lt (show 19 * f2 < _ by omega),
    u128_of_lt (show 19 * f3 < _ by omega), u128_of_lt (show 19 * f4 < _ by omega)]
  have a00 := limb_mul hf0 hg0
  have a14 := limb_mul hf1 hg4
  have a23 := limb_mul hf2 hg3
  have a32 := limb_mul hf3 hg2
  have a41 := limb_mul hf4 hg1
  have a01 := limb_mul hf0 hg1
  have a10 := limb_mul hf1 hg0
  have a24 := limb_mul hf2 hg4
  have a33 := limb_mul hf3 hg3
  have a42 := limb_mul hf4 hg2
  have a02 := limb_mul hf0 hg2
  have a11 := limb_mul hf1 hg1
  have a20 := limb_mul hf2 hg0
  have a34 := limb_mul hf3 hg4
  have a43 := limb_mul hf4 hg3
  have a03 := limb_mul hf0 hg3
  have a12 := limb_mul hf1 hg2
  have a21 := limb_mul hf2 hg1
  have a30 := limb_mul hf3 hg0
  have a44 := limb_mul hf4 hg4
  have a04 := limb_mul hf0 hg4
  have a13 := limb_mul hf1 hg3
  have a22 := limb_mul hf2 hg2
  have a31 := limb_mul hf3 hg1
  have a40 := limb_mul hf4 hg0
  simp only [Nat.mul_assoc]
  rw [u128_of_lt (show f0 * g0 + 19 * (f1 * g4) + 19 * (f2 * g3) + 19 * (f3 * g2) + 19 * (f4 * g1) < _ by omega),
    u128_of_lt (show f0 * g1 + f1 * g0 + 19 * (f2 * g4) + 19 * (f3 * g3) + 19 * (f4 * g2) < _ by omega),
    u128_of_lt (show f0 * g2 + f1 * g1 + f2 * g0 + 19 * (f3 * g4) + 19 * (f4 * g3) < _ by omega),
    u128_of_lt (show f0 * g3 + f1 * g2 + f2 * g1 + f3 * g0 + 19 * (f4 * g4) < _ by omega),
    u128_of_lt (show f0 * g4 + f1 * g3 + f2 * g2 + f3 * g1 + f4 * g0 < _ by omega)]
  obtain ⟨ht, q, hq⟩ := feCarry_spec
    (f0 * g0 + 19 * (f1 * g4) + 19 * (f2 * g3) + 19 * (f3 * g2) + 19 * (f4 * g1))
    (f0 * g1 + f1 * g0 + 19 * (f2 * g4) + 19 * (f3 * g3) + 19 * (f4 * g2))
    (f0 * g2 + f1 * g1 + f2 * g0 + 19 * (f3 * g4) + 19 * (f4 * g3))
    (f0 * g3 + f1 * g2 + f2 * g1 + f3 * g0 + 19 * (f4 * g4))
    (f0 * g4 + f1 * g3 + f2 * g2 + f3 * g1 + f4 * g0) (by omega) (by omega) (by omega) (by omega) (by omega)
  refine ⟨ht, ?_⟩
  unfold toF
  rw [← Nat.cast_mul, ← cast_add_mul (val (feCarry _ _ _ _ _)) q, ← hq]
  rw [← cast_add_mul _ (f1 * g4 + f2 * g3 + f3 * g2 + f4 * g1 +
    2251799813685248 * (f2 * g4 + f3 * g3 + f4 * g2) + 5070602400912917605986812821504 * (f3 * g4 + f4 * g3) +
    11417981541647679048466287755595961091061972992 * (f4 * g4))]
  congr 1
  dsimp only [val, P]
  ring

theorem feSqSums_spec (f : Fe) (hf : f.lt loose) : feSqSums f =
    (f.l0 * f.l0 + 38 * (f.l1 * f.l4) + 38 * (f.l2 * f.l3), 2 * (f.l0 * f.l1) + 38 * (f.l2 * f.l4) + 19 * (f.l3 * f.l3),
     2 * (f.l0 * f.l2) + f.l1 * f.l1 + 38 * (f.l3 * f.l4), 2 * (f.l0 * f.l3) + 2 * (f.l1 * f.l2) + 19 * (f.l4 * f.l4),
     2 * (f.l0 * f.l4) + 2 * (f.l1 * f.l3) + f.l2 * f.l2) := by
  obtain ⟨f0, f1, f2, f3, f4⟩ := f
  obtain ⟨hf0, hf1, hf2, hf3, hf4⟩ := hf
  dsimp only at hf0 hf1 hf2 hf3 hf4
  unfold feSqSums
  dsimp only
  rw [Nat.shiftLeft_eq, Nat.shiftLeft_eq, u128_of_lt (show f0 * 2 ^ 1 < _ by omega), u128_of_lt (show f1 * 2 ^ 1 < _ by omega),
    u128_of_lt (show 38 * f1 < _ by omega), u128_of_lt (show 38 * f2 < _ by omega), u128_of_lt (show 38 * f3 < _ by omega),
    u128_of_lt (show 19 * f3 < _ by omega), u128_of_lt (show 19 * f4 < _ by omega)]
  have a00 := limb_mul hf0 hf0
  have a01 := limb_mul hf0 hf1
  have a02 := limb_mul hf0 hf2
  have a03 := limb_mul hf0 hf3
  have a04 := limb_mul hf0 hf4
  have a11 := limb_mul hf1 hf1
  have a12 := limb_mul hf1 hf2
  have a13 := limb_mul hf1 hf3
  have a14 := limb_mul hf1 hf4
  have a22 := limb_mul hf2 hf2
  have a23 := limb_mul hf2 hf3
  have a24 := limb_mul hf2 hf4
  have a33 := limb_mul hf3 hf3
  have a34 := limb_mul hf3 hf4
  have a44 := limb_mul hf4 hf4
  rw [Nat.pow_one, Nat.mul_comm f0 2, Nat.mul_comm f1 2]
  simp only [Nat.mul_assoc]
  rw [u128_of_lt (show f0 * f0 + 38 * (f1 * f4) + 38 * (f2 * f3) < _ by omega),
    u128_of_lt (show 2 * (f0 * f1) + 38 * (f2 * f4) + 19 * (f3 * f3) < _ by omega),
    u128_of_lt (show 2 * (f0 * f2) + f1 * f1 + 38 * (f3 * f4) < _ by omega),
    u128_of_lt (show 2 * (f0 * f3) + 2 * (f1 * f2) + 19 * (f4 * f4) < _ by omega),
    u128_of_lt (show 2 * (f0 * f4) + 2 * (f1 * f3) + f2 * f2 < _ by omega)]

theorem feSq_spec (f : Fe) (hf : f.lt loose) : (feSq f).lt tight ∧ toF (feSq f) = toF f ^ 2 := by
  unfold feSq
  rw [feSqSums_spec f hf]
  obtain ⟨f0, f1, f2, f3, f4⟩ := f
  obtain ⟨hf0, hf1, hf2, hf3, hf4⟩ := hf
  dsimp only at hf0 hf1 hf2 hf3 hf4 ⊢
  have a00 := limb_mul hf0 hf0
  have a01 := limb_mul hf0 hf1
  have a02 := limb_mul hf0 hf2
  have a03 := limb_mul hf0 hf3
  have a04 := limb_mul hf0 hf4
  have a11 := limb_mul hf1 hf1
  have a12 := limb_mul hf1 hf2
  have a13 := limb_mul hf1 hf3
  have a14 := limb_mul hf1 hf4
  have a22 := limb_mul hf2 hf2
  have a23 := limb_mul hf2 hf3
  have a24 := limb_mul hf2 hf4
  have a33 := limb_mul hf3 hf3
  have a34 := limb_mul hf3 hf4
  have a44 := limb_mul hf4 hf4
  obtain ⟨ht, q, hq⟩ := feCarry_spec
    (f0 * f0 + 38 * (f1 * f4) + 38 * (f2 * f3)) (2 * (f0 * f1) + 38 * (f2 * f4) + 19 * (f3 * f3))
    (2 * (f0 * f2) + f1 * f1 + 38 * (f3 * f4)) (2 * (f0 * f3) + 2 * (f1 * f2) + 19 * (f4 * f4))
    (2 * (f0 * f4) + 2 * (f1 * f3) + f2 * f2) (by omega) (by omega) (by omega) (by omega) (by omega)
  refine ⟨ht, ?_⟩
  unfold toF
  rw [pow_two, ← Nat.cast_mul, ← cast_add_mul (val (feCarry _ _ _ _ _)) q, ← hq]
  rw [← cast_add_mul _ (2 * (f1 * f4) + 2 * (f2 * f3) + 2251799813685248 * (2 * (f2 * f4) + f3 * f3) +
    5070602400912917605986812821504 * (2 * (f3 * f4)) + 11417981541647679048466287755595961091061972992 * (f4 * f4))]
  congr 1
  dsimp only [val, P]
  ring

theorem limb_mul' {a b : Nat} (ha : a < mid) (hb : b < mid) : a * b ≤ 81129638414606663681390495662081 := by
  have := Nat.mul_le_mul (Nat.le_of_lt_succ (show a < 9007199254740991 + 1 from ha))
    (Nat.le_of_lt_succ (show b < 9007199254740991 + 1 from hb))
  omega

/-- For `2 f^2` the limbs have to be below `2^53`. -/
theorem feSq2_spec (f : Fe) (hf : f.lt mid) : (feSq2 f).lt tight ∧ toF (feSq2 f) = 2 * toF f ^ 2 := by
  unfold feSq2
  rw [feSqSums_spec f (Fe.lt_mono hf (by decide))]
  obtain ⟨f0, f1, f2, f3, f4⟩ := f
  obtain ⟨hf0, hf1, hf2, hf3, hf4⟩ := hf
  dsimp only at hf0 hf1 hf2 hf3 hf4 ⊢
  have a00 := limb_mul' hf0 hf0
  have a01 := limb_mul' hf0 hf1
  have a02 := limb_mul' hf0 hf2
  have a03 := limb_mul' hf0 hf3
  have a04 := limb_mul' hf0 hf4
  have a11 := limb_mul' hf1 hf1
  have a12 := limb_mul' hf1 hf2
  have a13 := limb_mul' hf1 hf3
  have a14 := limb_mul' hf1 hf4
  have a22 := limb_mul' hf2 hf2
  have a23 := limb_mul' hf2 hf3
  have a24 := limb_mul' hf2 hf4
  have a33 := limb_mul' hf3 hf3
  have a34 := limb_mul' hf3 hf4
  have a44 := limb_mul' hf4 hf4
  simp only [Nat.shiftLeft_eq, Nat.pow_one]
  rw [u128_of_lt (show (f0 * f0 + 38 * (f1 * f4) + 38 * (f2 * f3)) * 2 < _ by omega),
    u128_of_lt (show (2 * (f0 * f1) + 38 * (f2 * f4) + 19 * (f3 * f3)) * 2 < _ by omega),
    u128_of_lt (show (2 * (f0 * f2) + f1 * f1 + 38 * (f3 * f4)) * 2 < _ by omega),
    u128_of_lt (show (2 * (f0 * f3) + 2 * (f1 * f2) + 19 * (f4 * f4)) * 2 < _ by omega),
    u128_of_lt (show (2 * (f0 * f4) + 2 * (f1 * f3) + f2 * f2) * 2 < _ by omega)]
  obtain ⟨ht, q, hq⟩ := feCarry_spec
    ((f0 * f0 + 38 * (f1 * f4) + 38 * (f2 * f3)) * 2) ((2 * (f0 * f1) + 38 * (f2 * f4) + 19 * (f3 * f3)) * 2)
    ((2 * (f0 * f2) + f1 * f1 + 38 * (f3 * f4)) * 2) ((2 * (f0 * f3) + 2 * (f1 * f2) + 19 * (f4 * f4)) * 2)
    ((2 * (f0 * f4) + 2 * (f1 * f3) + f2 * f2) * 2) (by omega) (by omega) (by omega) (by omega) (by omega)
  refine ⟨ht, ?_⟩
  unfold toF
  have h2 : ∀ A : Nat, (2 : ZMod P) * (A : ZMod P) = ((2 * A : Nat) : ZMod P) := fun A => by push_cast; rfl
  rw [pow_two, ← Nat.cast_mul, h2, ← cast_add_mul (val (feCarry _ _ _ _ _)) q, ← hq]
  rw [← cast_add_mul _ (2 * (2 * (f1 * f4) + 2 * (f2 * f3) + 2251799813685248 * (2 * (f2 * f4) + f3 * f3) +
    5070602400912917605986812821504 * (2 * (f3 * f4)) + 11417981541647679048466287755595961091061972992 * (f4 * f4)))]
  congr 1
  dsimp only [val, P]
  ring

theorem feMul32_spec (f : Fe) (n : Nat) (hf : f.lt loose) (hn : n < 4294967296) :
    (feMul32 f n).lt 4503599627370496 ∧ toF (feMul32 f n) = toF f * (n : ZMod P) := by
  obtain ⟨f0, f1, f2, f3, f4⟩ := f
  obtain ⟨hf0, hf1, hf2, hf3, hf4⟩ := hf
  dsimp only at hf0 hf1 hf2 hf3 hf4
  have hb : ∀ a, a < loose → a * n ≤ 77371252455336248826724352 := fun a ha => by
    have := Nat.mul_le_mul (Nat.le_of_lt_succ (show a < 18014398509481983 + 1 from ha))
      (Nat.le_of_lt_succ (show n < 4294967295 + 1 from hn))
    omega
  have b0 := hb _ hf0
  have b1 := hb _ hf1
  have b2 := hb _ hf2
  have b3 := hb _ hf3
  have b4 := hb _ hf4
  have hval : val ⟨f0, f1, f2, f3, f4⟩ * n = f0 * n + 2251799813685248 * (f1 * n) + 5070602400912917605986812821504 * (f2 * n) +
    11417981541647679048466287755595961091061972992 * (f3 * n) +
    25711008708143844408671393477458601640355247900524685364822016 * (f4 * n) := by
    dsimp only [val]; ring
  unfold toF
  rw [← Nat.cast_mul, hval]
  unfold feMul32
  dsimp only
  generalize f0 * n = m0 at *
  generalize f1 * n = m1 at *
  generalize f2 * n = m2 at *
  generalize f3 * n = m3 at *
  generalize f4 * n = m4 at *
  simp only [u64_and_mask, shr51]
  rw [u128_of_lt (show m0 < _ by omega)]
  obtain ⟨c0, l0, e0, k0, s0, d0⟩ := split51 m0
  rw [e0, k0, u64_of_lt (show c0 < _ by omega), u128_of_lt (show m1 + c0 < _ by omega)]
  obtain ⟨c1, l1, e1, k1, s1, d1⟩ := split51 (m1 + c0)
  rw [e1, k1, u64_of_lt (show c1 < _ by omega), u128_of_lt (show m2 + c1 < _ by omega)]
  obtain ⟨c2, l2, e2, k2, s2, d2⟩ := split51 (m2 + c1)
  rw [e2, k2, u64_of_lt (show c2 < _ by omega), u128_of_lt (show m3 + c2 < _ by omega)]
  obtain ⟨c3, l3, e3, k3, s3, d3⟩ := split51 (m3 + c2)
  rw [e3, k3, u64_of_lt (show c3 < _ by omega), u128_of_lt (show m4 + c3 < _ by omega)]
  obtain ⟨c4, l4, e4, k4, s4, d4⟩ := split51 (m4 + c3)
  rw [e4, k4, u64_of_lt (show c4 < _ by omega), u64_of_lt (show c4 * 19 < _ by omega), u64_of_lt (show l0 + c4 * 19 < _ by omega)]
  refine ⟨⟨by dsimp only; omega, by dsimp only; omega, by dsimp only; omega, by dsimp only; omega, by dsimp only; omega⟩, ?_⟩
  rw [← cast_add_mul (val _) c4]
  congr 1
  dsimp only [val, P]
  omega

/-! ### Addition and subtraction -/

theorem feAdd_spec (f g : Fe) (a b : Nat) (hf : f.lt a) (hg : g.lt b) (hab : a + b ≤ 18446744073709551616) :
    (feAdd f g).lt (a + b) ∧ toF (feAdd f g) = toF f + toF g := by
  obtain ⟨f0, f1, f2, f3, f4⟩ := f
  obtain ⟨g0, g1, g2, g3, g4⟩ := g
  obtain ⟨hf0, hf1, hf2, hf3, hf4⟩ := hf
  obtain ⟨hg0, hg1, hg2, hg3, hg4⟩ := hg
  dsimp only at hf0 hf1 hf2 hf3 hf4 hg0 hg1 hg2 hg3 hg4
  unfold feAdd
  dsimp only
  rw [u64_of_lt (show f0 + g0 < _ by omega), u64_of_lt (show f1 + g1 < _ by omega), u64_of_lt (show f2 + g2 < _ by omega),
    u64_of_lt (show f3 + g3 < _ by omega), u64_of_lt (show f4 + g4 < _ by omega)]
  refine ⟨⟨by dsimp only; omega, by dsimp only; omega, by dsimp only; omega, by dsimp only; omega, by dsimp only; omega⟩, ?_⟩
  unfold toF
  rw [← Nat.cast_add]
  congr 1
  dsimp only [val]
  omega

theorem sub64_of_le {a b : Nat} (ha : a < 18446744073709551616) (h : b ≤ a) : sub64 a b = a - b := by
  unfold sub64; omega

theorem feSub_spec (f g : Fe) (a : Nat) (hf : f.lt a) (hg : g.lt loose) (ha : a ≤ 9223372036854775808) :
    (feSub f g).lt (a + 4503599627370496) ∧ toF (feSub f g) = toF f - toF g := by
  obtain ⟨f0, f1, f2, f3, f4⟩ := f
  obtain ⟨g0, g1, g2, g3, g4⟩ := g
  obtain ⟨hf0, hf1, hf2, hf3, hf4⟩ := hf
  obtain ⟨hg0, hg1, hg2, hg3, hg4⟩ := hg
  dsimp only at hf0 hf1 hf2 hf3 hf4 hg0 hg1 hg2 hg3 hg4
  unfold feSub
  dsimp only
  simp only [and_mask, shr51]
  obtain ⟨c0, l0, e0, k0, s0, d0⟩ := split51 g0
  rw [e0, k0, u64_of_lt (show g1 + c0 < _ by omega)]
  obtain ⟨c1, l1, e1, k1, s1, d1⟩ := split51 (g1 + c0)
  rw [e1, k1, u64_of_lt (show g2 + c1 < _ by omega)]
  obtain ⟨c2, l2, e2, k2, s2, d2⟩ := split51 (g2 + c1)
  rw [e2, k2, u64_of_lt (show g3 + c2 < _ by omega)]
  obtain ⟨c3, l3, e3, k3, s3, d3⟩ := split51 (g3 + c2)
  rw [e3, k3, u64_of_lt (show g4 + c3 < _ by omega)]
  obtain ⟨c4, l4, e4, k4, s4, d4⟩ := split51 (g4 + c3)
  rw [e4, k4, u64_of_lt (show 19 * c4 < _ by omega), u64_of_lt (show l0 + 19 * c4 < _ by omega)]
  rw [u64_of_lt (show f0 + 4503599627370458 < _ by omega), u64_of_lt (show f1 + 4503599627370494 < _ by omega),
    u64_of_lt (show f2 + 4503599627370494 < _ by omega), u64_of_lt (show f3 + 4503599627370494 < _ by omega),
    u64_of_lt (show f4 + 4503599627370494 < _ by omega)]
  rw [sub64_of_le (by omega) (show l0 + 19 * c4 ≤ f0 + 4503599627370458 by omega),
    sub64_of_le (by omega) (show l1 ≤ f1 + 4503599627370494 by omega),
    sub64_of_le (by omega) (show l2 ≤ f2 + 4503599627370494 by omega),
    sub64_of_le (by omega) (show l3 ≤ f3 + 4503599627370494 by omega),
    sub64_of_le (by omega) (show l4 ≤ f4 + 4503599627370494 by omega)]
  refine ⟨⟨by dsimp only; omega, by dsimp only; omega, by dsimp only; omega, by dsimp only; omega, by dsimp only; omega⟩, ?_⟩
  unfold toF
  rw [eq_sub_iff_add_eq, ← Nat.cast_add, ← cast_add_mul (val ⟨f0, f1, f2, f3, f4⟩) (2 + c4)]
  congr 1
  dsimp only [val, P]
  omega

theorem feZero_spec : feZero.lt 1 ∧ toF feZero = 0 :=
  ⟨⟨by decide, by decide, by decide, by decide, by decide⟩, by unfold toF; rw [show val feZero = 0 from rfl, Nat.cast_zero]⟩

theorem feOne_spec : feOne.lt 2 ∧ toF feOne = 1 :=
  ⟨⟨by decide, by decide, by decide, by decide, by decide⟩, by unfold toF; rw [show val feOne = 1 from rfl, Nat.cast_one]⟩

theorem feNeg_spec (f : Fe) (hf : f.lt loose) : (feNeg f).lt mid ∧ toF (feNeg f) = -toF f := by
  have h := feSub_spec feZero f 1 feZero_spec.1 hf (by decide)
  rw [feZero_spec.2, zero_sub] at h
  exact ⟨Fe.lt_mono h.1 (by decide), h.2⟩

/-! ### Conditional move and swap -/

theorem bmask_zero : bmask 0 = 0 := by decide
theorem bmask_one : bmask 1 = 2 ^ 64 - 1 := by decide

theorem xor_mask {a b : Nat} (ha : a < 18446744073709551616) (hb : b < 18446744073709551616) :
    (a ^^^ b) &&& bmask 1 = a ^^^ b := by
  rw [bmask_one, Nat.and_two_pow_sub_one_eq_mod]
  exact Nat.mod_eq_of_lt (Nat.xor_lt_two_pow (n := 64) ha hb)

theorem feCmov_zero (f g : Fe) : feCmov f g 0 = f := by
  simp only [feCmov, bmask_zero, Nat.and_zero, Nat.xor_zero]

theorem feCmov_one (f g : Fe) (hf : f.lt (2 ^ 64)) (hg : g.lt (2 ^ 64)) : feCmov f g 1 = g := by
  unfold feCmov
  dsimp only
  rw [xor_mask hf.1 hg.1, xor_mask hf.2.1 hg.2.1, xor_mask hf.2.2.1 hg.2.2.1, xor_mask hf.2.2.2.1 hg.2.2.2.1,
    xor_mask hf.2.2.2.2 hg.2.2.2.2]
  simp only [← Nat.xor_assoc, Nat.xor_self, Nat.zero_xor]

theorem feCswap_zero (f g : Fe) : feCswap f g 0 = (f, g) := by
  simp only [feCswap, bmask_zero, Nat.and_zero, Nat.xor_zero]

theorem feCswap_one (f g : Fe) (hf : f.lt (2 ^ 64)) (hg : g.lt (2 ^ 64)) : feCswap f g 1 = (g, f) := by
  unfold feCswap
  dsimp only
  rw [xor_mask hf.1 hg.1, xor_mask hf.2.1 hg.2.1, xor_mask hf.2.2.1 hg.2.2.1, xor_mask hf.2.2.2.1 hg.2.2.2.1,
    xor_mask hf.2.2.2.2 hg.2.2.2.2]
  have h : ∀ a b : Nat, b ^^^ (a ^^^ b) = a := fun a b => by
    rw [Nat.xor_comm a b, ← Nat.xor_assoc, Nat.xor_self, Nat.zero_xor]
  simp only [h]
  simp only [← Nat.xor_assoc, Nat.xor_self, Nat.zero_xor]

end LC.Curve
