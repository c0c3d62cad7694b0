import Verif.Curve.Eddsa
import Verif.Curve.GeX
import Verif.Curve.ScalarProps
/-!
# Ed25519 signatures: the last check, encodings of multiples of the base point
-/
namespace LC.Curve

open Mont

/-- The tests of `ge25519_has_small_order` on coordinates of the form `c (E G, H F, F G)`. -/
theorem check_alg {K : Type} [Field K] (E H F G c i : K) (h4 : c ≠ 0) :
    (c * (E * G) * (c * (F * G))⁻¹ = 0 ∨ c * (H * F) * (c * (F * G))⁻¹ = 0 ∨
      c * (H * F) * (c * (F * G))⁻¹ * i = c * (E * G) * (c * (F * G))⁻¹ ∨
      c * (H * F) * (c * (F * G))⁻¹ * i = -(c * (E * G))) ↔
    (E = 0 ∨ H = 0 ∨ F = 0 ∨ G = 0 ∨ i * H * F = E * G ∨ i * H = -(c * E * G ^ 2)) := by
  by_cases hF : F = 0
  · simp [hF]
  by_cases hG : G = 0
  · simp [hG]
  have i1 : c * (E * G) * (c * (F * G))⁻¹ = E * F⁻¹ := by
    rw [mul_inv, mul_inv]
    calc _ = (c * c⁻¹) * (G * G⁻¹) * (E * F⁻¹) := by ring
      _ = _ := by rw [mul_inv_cancel₀ h4, mul_inv_cancel₀ hG]; ring
  have i2 : c * (H * F) * (c * (F * G))⁻¹ = H * G⁻¹ := by
    rw [mul_inv, mul_inv]
    calc _ = (c * c⁻¹) * (F * F⁻¹) * (H * G⁻¹) := by ring
      _ = _ := by rw [mul_inv_cancel₀ h4, mul_inv_cancel₀ hF]; ring
  rw [i1, i2]
  have c1 : E * F⁻¹ = 0 ↔ E = 0 := by rw [mul_eq_zero]; simp [hF]
  have c2 : H * G⁻¹ = 0 ↔ H = 0 := by rw [mul_eq_zero]; simp [hG]
  have c3 : H * G⁻¹ * i = E * F⁻¹ ↔ i * H * F = E * G := by
    rw [← mul_left_inj' (mul_ne_zero hG hF)]
    have l : H * G⁻¹ * i * (G * F) = i * H * F := by
      calc _ = i * H * F * (G * G⁻¹) := by ring
        _ = _ := by rw [mul_inv_cancel₀ hG, mul_one]
    have r : E * F⁻¹ * (G * F) = E * G := by
      calc _ = E * G * (F * F⁻¹) := by ring
        _ = _ := by rw [mul_inv_cancel₀ hF, mul_one]
    rw [l, r]
  have c4 : H * G⁻¹ * i = -(c * (E * G)) ↔ i * H = -(c * E * G ^ 2) := by
    rw [← mul_left_inj' hG]
    have l : H * G⁻¹ * i * G = i * H := by
      calc _ = i * H * (G * G⁻¹) := by ring
        _ = _ := by rw [mul_inv_cancel₀ hG, mul_one]
    have r : -(c * (E * G)) * G = -(c * E * G ^ 2) := by ring
    rw [l, r]
  rw [c1, c2, c3, c4]
  simp [hF, hG]

/-- The coordinates of the point that the verification checks at the end, up to a common factor.  The
denominators `1 ± d x1 x2 y1 y2 Z` have the factor `Z` too much, because `ge25519_p2_to_p3` sets `T`
to `X Y` and not to `X Y / Z`. -/
theorem check_coords {r : P3} {R : Pt} (hr : R3 r R) (hz : r.Z = feOne) {p : P2} {Q : Pt} (hp : R2 p Q)
    {E H F G : ZMod P} (hE : E = xc R * yc Q + yc R * (-xc Q)) (hH : H = yc R * yc Q + xc R * (-xc Q))
    (hF : F = 1 + dd * xc R * (-xc Q) * yc R * yc Q * toF p.Z) (hG : G = 1 - dd * xc R * (-xc Q) * yc R * yc Q * toF p.Z) :
    ((r.sub p.toP3).X.lt mid ∧ (r.sub p.toP3).Y.lt mid ∧ (r.sub p.toP3).Z.lt mid) ∧
    toF (r.sub p.toP3).X = 4 * toF p.Z ^ 2 * (E * G) ∧ toF (r.sub p.toP3).Y = 4 * toF p.Z ^ 2 * (H * F) ∧
    toF (r.sub p.toP3).Z = 4 * toF p.Z ^ 2 * (F * G) := by
  have t := feMul_spec p.X p.Y (Fe.lt_mono hp.bX (by decide)) (Fe.lt_mono hp.bY (by decide))
  have nX := feNeg_spec p.X (Fe.lt_mono hp.bX (by decide))
  have nT := feNeg_spec _ (Fe.lt_mono t.1 (by decide))
  have cP := feAdd_spec p.Y (feNeg p.X) _ _ hp.bY nX.1 (by decide)
  have cM := feSub_spec p.Y (feNeg p.X) _ hp.bY (Fe.lt_mono nX.1 (by decide)) (by decide)
  have cT := feMul_spec _ feD2 (Fe.lt_mono nT.1 (by decide)) (Fe.lt_mono feD2_spec.1 (by decide))
  obtain ⟨b1, b2, e1, e2⟩ := first_ops hr
  have m1 := feMul_spec _ _ b1 (Fe.lt_mono cP.1 (by decide))
  have m2 := feMul_spec _ _ b2 (Fe.lt_mono cM.1 (by decide))
  have m3 := feMul_spec _ r.T (Fe.lt_mono cT.1 (by decide)) (Fe.lt_mono hr.bT (by decide))
  have m4 := feMul_spec r.Z p.Z (Fe.lt_mono hr.bZ (by decide)) (Fe.lt_mono hp.bZ (by decide))
  have m5 := two_tight _ m4.1
  obtain ⟨l1, l2, l3, l4, f1, f2, f3, f4⟩ := last_ops _ _ _ _ m1.1 m2.1 m5.1 m3.1
  have z1 : toF r.Z = 1 := by rw [hz, feOne_spec.2]
  have hx := hp.x
  have hy := hp.y
  have ht := hr.t
  rw [z1, mul_one] at e1 e2 ht
  replace f1 := f1.trans (show _ = 2 * toF p.Z * E by
    rw [m1.2, m2.2, e1, e2, cP.2, cM.2, nX.2, hx, hy, hE]; ring)
  replace f2 := f2.trans (show _ = 2 * toF p.Z * H by
    rw [m1.2, m2.2, e1, e2, cP.2, cM.2, nX.2, hx, hy, hH]; ring)
  replace f3 := f3.trans (show _ = 2 * toF p.Z * F by
    rw [m5.2, m4.2, m3.2, cT.2, nT.2, t.2, ht, z1, feD2_spec.2, hx, hy, hF]; ring)
  replace f4 := f4.trans (show _ = 2 * toF p.Z * G by
    rw [m5.2, m4.2, m3.2, cT.2, nT.2, t.2, ht, z1, feD2_spec.2, hx, hy, hG]; ring)
  have eX := feMul_spec _ _ l1 l4
  have eY := feMul_spec _ _ l2 l3
  have eZ := feMul_spec _ _ l3 l4
  rw [f1, f4] at eX
  rw [f2, f3] at eY
  rw [f3, f4] at eZ
  unfold P3.sub P3.add P3.neg P3.toCached P2.toP3 addCached P11.toP3
  dsimp only
  exact ⟨⟨Fe.lt_mono eX.1 (by decide), Fe.lt_mono eY.1 (by decide), Fe.lt_mono eZ.1 (by decide)⟩,
    eX.2.trans (by ring), eY.2.trans (by ring), eZ.2.trans (by ring)⟩

/-- **The last check of the verification**, exactly. -/
theorem check_raw {r : P3} {R : Pt} (hr : R3 r R) (hz : r.Z = feOne) {p : P2} {Q : Pt} (hp : R2 p Q)
    {E H F G : ZMod P} (hE : E = xc R * yc Q + yc R * (-xc Q)) (hH : H = yc R * yc Q + xc R * (-xc Q))
    (hF : F = 1 + dd * xc R * (-xc Q) * yc R * yc Q * toF p.Z) (hG : G = 1 - dd * xc R * (-xc Q) * yc R * yc Q * toF p.Z) :
    (smallOrder (r.sub p.toP3) = 0 ∨ smallOrder (r.sub p.toP3) = 1) ∧
    (smallOrder (r.sub p.toP3) = 1 ↔
      E = 0 ∨ H = 0 ∨ F = 0 ∨ G = 0 ∨ ii * H * F = E * G ∨ ii * H = -(4 * toF p.Z ^ 2 * E * G ^ 2)) := by
  obtain ⟨⟨b1, b2, b3⟩, vX, vY, vZ⟩ := check_coords hr hz hp hE hH hF hG
  obtain ⟨s1, s2⟩ := smallOrder_raw (r.sub p.toP3) b1 b2 b3
  refine ⟨s1, s2.trans ?_⟩
  rw [vX, vY, vZ]
  exact check_alg E H F G _ ii (mul_ne_zero four_ne (pow_ne_zero 2 hp.z))

/-- The two numerators vanish exactly if the difference has order 1 or 2, or order 4. -/
theorem check_group (R Q : Pt) :
    (xc R * yc Q + yc R * (-xc Q) = 0 ∨ yc R * yc Q + xc R * (-xc Q) = 0) ↔ 4 • (R - Q) = 0 := by
  have h := ed.add R (-Q)
  have d1 := ed.den_plus R (-Q)
  have d2 := ed.den_minus R (-Q)
  rw [Ed.ex_neg, Ed.ey_neg] at h d1 d2
  rw [four_zero_iff, sub_eq_add_neg]
  refine or_congr ?_ ?_
  · rw [← h.1, mul_eq_zero]
    exact ⟨fun k => k.resolve_right d1, Or.inl⟩
  · rw [← h.2, mul_eq_zero]
    exact ⟨fun k => k.resolve_right d2, Or.inl⟩

/-! Encodings. -/

theorem enc_dec {s : List Byte} {Q : Pt} (h : leNum s = encNum (xc Q) (yc Q)) : DecOf s Q ∧ leNum s % 2 ^ 255 < P := by
  have h1 : (yc Q).val < P := ZMod.val_lt _
  have h2 := P_lt
  have h3 : (xc Q).val % 2 < 2 := Nat.mod_lt _ (by decide)
  unfold encNum at h
  have e1 : leNum s % 2 ^ 255 = (yc Q).val := by omega
  have e2 : leNum s / 2 ^ 255 = (xc Q).val % 2 := by omega
  refine ⟨⟨?_, Or.inr e2.symm⟩, by rw [e1]; exact h1⟩
  rw [e1, ZMod.natCast_val, ZMod.cast_id]

theorem smul_B_eq {a b : Nat} (h : a % L = b % L) : a • Bp = b • Bp := by
  have := order_B
  rw [← mod_addOrderOf_nsmul Bp a, ← mod_addOrderOf_nsmul Bp b, this, h]

theorem eight_smul_B (a : Nat) : 8 • a • Bp = 0 ↔ a % L = 0 := by
  rw [smul_smul, ← addOrderOf_dvd_iff_nsmul_eq_zero, order_B, L_prime.dvd_mul]
  constructor
  · rintro (h | h)
    · exact absurd (Nat.le_of_dvd (by decide) h) (by decide)
    · exact Nat.mod_eq_zero_of_dvd h
  · intro h; exact Or.inr (Nat.dvd_of_mod_eq_zero h)

theorem L_le : L ≤ 2 ^ 253 := by decide

/-- A reduced scalar has a small top byte. -/
theorem top_small {s : List Byte} (hs : s.length = 32) (h : leNum s < 2 ^ 255) : (s.getD 31 0).toNat ≤ 127 := by
  have h1 := split31 s hs
  by_contra hc
  have : 256 ^ 31 * 128 ≤ 256 ^ 31 * (s.getD 31 0).toNat := Nat.mul_le_mul_left _ (by omega)
  have e : (256 : Nat) ^ 31 * 128 = 2 ^ 255 := by decide
  omega

end LC.Curve
