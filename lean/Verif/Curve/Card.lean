import Verif.Curve.Group
/-!
# The orders of the two groups
-/
namespace LC.Curve.Mont

open WeierstrassCurve.Affine

/-! ### Squares -/

theorem notSq (d : Nat) (h : powMod P 256 d (P / 2) 1 = P - 1) : ¬ IsSquare (d : ZMod P) := by
  intro hs
  have hp := powMod_eq P 256 d (P / 2) 1 (by decide)
  rw [h, Nat.cast_one, one_mul, Nat.cast_sub (by decide), ZMod.natCast_self, Nat.cast_one, zero_sub] at hp
  by_cases h0 : (d : ZMod P) = 0
  · rw [h0, zero_pow (by decide)] at hp
    exact one_ne_zero (neg_eq_zero.mp hp)
  · have h1 := (ZMod.euler_criterion P h0).mp hs
    rw [h1] at hp
    have : (2 : ZMod P) = 0 := by linear_combination -hp
    exact two_ne this

theorem two_notSq : ¬ IsSquare c2 := notSq 2 (by decide +kernel)

/-- One of `v` and `2 v` is a square. -/
theorem sq_or (v : ZMod P) : IsSquare v ∨ IsSquare (c2 * v) := by
  by_cases hv : v = 0
  · left; rw [hv]; exact ⟨0, (mul_zero 0).symm⟩
  by_cases h : IsSquare v
  · exact Or.inl h
  · right
    have h2 : c2 ≠ 0 := natCast_ne_zero _ (by decide) (by decide)
    have e2 := (ZMod.pow_div_two_eq_neg_one_or_one P h2).resolve_left
      (fun hc => two_notSq ((ZMod.euler_criterion P h2).mpr hc))
    have ev := (ZMod.pow_div_two_eq_neg_one_or_one P hv).resolve_left
      (fun hc => h ((ZMod.euler_criterion P hv).mpr hc))
    rw [ZMod.euler_criterion P (mul_ne_zero h2 hv), mul_pow, e2, ev]
    ring

/-! ### Orders -/

theorem one_le_P : (1 : Nat) < P := by decide

/-- A point from its coordinates, checked by evaluation. -/
theorem on_curve (u y : Nat) (h : y * y % P = (u * u * u + 486662 * (u * u) + u) % P) :
    (y : ZMod P) ^ 2 = (u : ZMod P) ^ 3 + 1 * cA * (u : ZMod P) ^ 2 + 1 ^ 2 * (u : ZMod P) := by
  have h' := (ZMod.natCast_eq_natCast_iff' (y * y) (u * u * u + 486662 * (u * u) + u) P).mpr h
  push_cast at h' ⊢
  linear_combination h'

theorem on_twist (u y : Nat) (h : y * y % P = (8 * (u * u * u + 486662 * (u * u) + u)) % P) :
    (y : ZMod P) ^ 2 = (c2 * u : ZMod P) ^ 3 + c2 * cA * (c2 * u : ZMod P) ^ 2 + c2 ^ 2 * (c2 * u : ZMod P) := by
  have h' := (ZMod.natCast_eq_natCast_iff' (y * y) (8 * (u * u * u + 486662 * (u * u) + u)) P).mpr h
  push_cast at h' ⊢
  linear_combination h'

/-- The base point of RFC 7748. -/
def G9 : (W cA 1).Point := .some _ _ (good1.nonsingular (on_curve 9
  14781619447589544791020593568409986887264606134616475288964881837755586237401 (by decide +kernel)))

/-- A point of order 8. -/
def T8 : (W cA 1).Point := .some _ _ (good1.nonsingular (on_curve
  325606250916557431795983626356110631294008115727848805560023387167927233504
  32026303591712962751241307547882981359278212717910236697706316503764922500307 (by decide +kernel)))

/-- A point of the twist, `u = 2`. -/
def G2 : (W cA c2).Point := .some _ _ (good2.nonsingular (on_twist 2
  16893788160309026681706007081237279345906129995238945011019371476578334742656 (by decide +kernel)))

/-- A point of order 4 of the twist, `u = -1`. -/
def T4 : (W cA c2).Point := .some _ _ (good2.nonsingular (on_twist (P - 1)
  25851164624550389790290378414333342085686308113475858052691635106742954981832 (by decide +kernel)))

theorem rep_G9 : Rep ((9 : Nat) : ZMod P) 1 G9 := ⟨one_ne_zero, by rw [one_mul, mul_one]⟩
theorem rep_T8 : Rep ((325606250916557431795983626356110631294008115727848805560023387167927233504 : Nat) : ZMod P) 1 T8 :=
  ⟨one_ne_zero, by rw [one_mul, mul_one]⟩
theorem rep_G2 : Rep ((2 : Nat) : ZMod P) 1 G2 := ⟨one_ne_zero, by rw [mul_one]⟩
theorem rep_T4 : Rep ((P - 1 : Nat) : ZMod P) 1 T4 := ⟨one_ne_zero, by rw [mul_one]⟩

/-- Whether a multiple vanishes, by evaluation of the ladder. -/
theorem smul_zero_iff {B : ZMod P} (g : Good cA B) (u : Nat) (hu : u < P) (hu0 : u ≠ 0) {D : (W cA B).Point}
    (hD : Rep (u : ZMod P) 1 D) (k bits : Nat) (hk : k < 2 ^ bits) : k • D = 0 ↔ nZ u k bits = 0 := by
  rw [rep_eq_zero (final_rep g a24_eq (natCast_ne_zero u hu hu0) hD k bits hk), nZ_zero]

theorem order_G9 : addOrderOf G9 = L := by
  have : Fact (Nat.Prime L) := ⟨L_prime⟩
  refine addOrderOf_eq_prime ?_ (Point.some_ne_zero _)
  exact (smul_zero_iff good1 9 (by decide) (by decide) rep_G9 L 253 (by decide)).mpr (by decide +kernel)

theorem order_T8 : addOrderOf T8 = 2 ^ 3 := by
  have : Fact (Nat.Prime 2) := ⟨Nat.prime_two⟩
  refine addOrderOf_eq_prime_pow (p := 2) (n := 2) ?_ ?_
  · rw [smul_zero_iff good1 _ (by decide) (by decide) rep_T8 _ 4 (by decide)]
    decide +kernel
  · rw [smul_zero_iff good1 _ (by decide) (by decide) rep_T8 _ 4 (by decide)]
    decide +kernel

theorem order_G2 : addOrderOf G2 = T := by
  have : Fact (Nat.Prime T) := ⟨T_prime⟩
  refine addOrderOf_eq_prime ?_ (Point.some_ne_zero _)
  exact (smul_zero_iff good2 2 (by decide) (by decide) rep_G2 T 253 (by decide)).mpr (by decide +kernel)

theorem order_T4 : addOrderOf T4 = 2 ^ 2 := by
  have : Fact (Nat.Prime 2) := ⟨Nat.prime_two⟩
  refine addOrderOf_eq_prime_pow (p := 2) (n := 1) ?_ ?_
  · rw [smul_zero_iff good2 _ (by decide) (by decide) rep_T4 _ 4 (by decide)]
    decide +kernel
  · rw [smul_zero_iff good2 _ (by decide) (by decide) rep_T4 _ 4 (by decide)]
    decide +kernel

theorem arith1 (n : Nat) (h1 : L ∣ n) (h2 : 8 ∣ n) (hle : n ≤ 2 * P + 1) (hpos : 0 < n) : n = 8 * L := by
  obtain ⟨c, hc⟩ : 8 * L ∣ n := Nat.Coprime.mul_dvd_of_dvd_of_dvd (by decide +kernel) h2 h1
  have hc1 : c = 1 := by
    have hp : 0 < c := Nat.pos_of_ne_zero fun h => by rw [h] at hc; omega
    by_contra hne
    have h3 : 8 * L * 2 ≤ 8 * L * c := Nat.mul_le_mul_left _ (by omega)
    have h4 : ¬ 8 * L * 2 ≤ 2 * P + 1 := by decide +kernel
    exact h4 (Nat.le_trans h3 (hc ▸ hle))
  rw [hc, hc1, Nat.mul_one]

theorem arith2 (n : Nat) (h1 : T ∣ n) (h2 : 4 ∣ n) (hle : n ≤ 2 * P + 1) (hpos : 0 < n) : n ∣ 8 * T := by
  obtain ⟨c, hc⟩ : 4 * T ∣ n := Nat.Coprime.mul_dvd_of_dvd_of_dvd (by decide +kernel) h2 h1
  have hc1 : c = 1 ∨ c = 2 := by
    have hp : 0 < c := Nat.pos_of_ne_zero fun h => by rw [h] at hc; omega
    by_contra hne
    have h3 : 4 * T * 3 ≤ 4 * T * c := Nat.mul_le_mul_left _ (by omega)
    have h4 : ¬ 4 * T * 3 ≤ 2 * P + 1 := by decide +kernel
    exact h4 (Nat.le_trans h3 (hc ▸ hle))
  rw [hc]
  have e : 8 * T = 4 * T * 2 := by decide +kernel
  rw [e]
  apply Nat.mul_dvd_mul_left
  rcases hc1 with h | h <;> rw [h]
  decide

/-- **The group of curve25519 has `8 L` elements.** -/
theorem card_curve : Nat.card (W cA 1).Point = 8 * L := by
  have hf := (card_le 1).1
  apply arith1
  · rw [← order_G9]; exact addOrderOf_dvd_natCard G9
  · have := addOrderOf_dvd_natCard T8
    rw [order_T8] at this
    exact this
  · exact (card_le 1).2
  · exact Nat.card_pos

/-- The order of the twist divides `8 T`. -/
theorem card_twist : Nat.card (W cA c2).Point ∣ 8 * T := by
  have hf := (card_le c2).1
  apply arith2
  · rw [← order_G2]; exact addOrderOf_dvd_natCard G2
  · have := addOrderOf_dvd_natCard T4
    rw [order_T4] at this
    exact this
  · exact (card_le c2).2
  · exact Nat.card_pos

end LC.Curve.Mont
