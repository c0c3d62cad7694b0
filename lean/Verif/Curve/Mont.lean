import Verif.Curve.Spec
import Mathlib.AlgebraicGeometry.EllipticCurve.Affine.Point
import Mathlib.Tactic.FieldSimp
import Mathlib.Tactic.LinearCombination
/-!
# The ladder computes multiples in the group of the curve

Over a field `K`: the curve `y^2 = x^3 + B A x^2 + B^2 x`, which is `v^2 = u^3 + A u^2 + u` for
`B = 1` and its quadratic twist for a non-square `B`, with `x = B u`.  The group is Mathlib's.
-/
namespace LC.Curve.Mont

open WeierstrassCurve.Affine

variable {K : Type} [Field K] [DecidableEq K]

/-- The curve, as a Weierstrass curve. -/
def W (A B : K) : WeierstrassCurve.Affine K := { a₁ := 0, a₂ := B * A, a₃ := 0, a₄ := B ^ 2, a₆ := 0 }

/-- Parameters for which it is one. -/
structure Good (A B : K) : Prop where
  two : (2 : K) ≠ 0
  b : B ≠ 0
  p2 : A + 2 ≠ 0
  m2 : A - 2 ≠ 0

variable {A B : K}

theorem eqn {x y : K} : (W A B).Equation x y ↔ y ^ 2 = x ^ 3 + B * A * x ^ 2 + B ^ 2 * x := by
  rw [equation_iff]
  simp [W]

theorem Good.nonsingular (g : Good A B) {x y : K} (h : y ^ 2 = x ^ 3 + B * A * x ^ 2 + B ^ 2 * x) : (W A B).Nonsingular x y := by
  refine (equation_iff_nonsingular_of_Δ_ne_zero ?_).mp (eqn.mpr h)
  have : (W A B).Δ = 2 ^ 4 * B ^ 6 * ((A + 2) * (A - 2)) := by
    simp only [W, WeierstrassCurve.Δ, WeierstrassCurve.b₂, WeierstrassCurve.b₄, WeierstrassCurve.b₆, WeierstrassCurve.b₈]
    ring
  rw [this]
  exact mul_ne_zero (mul_ne_zero (pow_ne_zero _ g.two) (pow_ne_zero _ g.b)) (mul_ne_zero g.p2 g.m2)

theorem negY_eq (x y : K) : (W A B).negY x y = -y := by simp [negY, W]
theorem addX_eq (x y l : K) : (W A B).addX x y l = l ^ 2 - B * A - x - y := by simp [addX, W]

/-- `(X : Z)` is the u-coordinate of the point. -/
def Rep (X Z : K) : (W A B).Point → Prop
  | .zero => Z = 0 ∧ X ≠ 0
  | .some x _ _ => Z ≠ 0 ∧ B * X = x * Z

theorem rep_zero {X Z : K} : Rep X Z (0 : (W A B).Point) ↔ Z = 0 ∧ X ≠ 0 := Iff.rfl

/-- In terms of `u`. -/
theorem rep_some (g : Good A B) {X Z x y : K} {h : (W A B).Nonsingular x y} (hr : Rep X Z (.some x y h)) :
    ∃ u, x = B * u ∧ X = u * Z ∧ Z ≠ 0 ∧ y ^ 2 = B ^ 3 * (u ^ 3 + A * u ^ 2 + u) := by
  obtain ⟨hz, hx⟩ := hr
  have hb := g.b
  refine ⟨x / B, by field_simp, ?_, hz, ?_⟩
  · field_simp; rw [mul_comm]; exact hx
  · rw [eqn.mp h.1]; field_simp

theorem Good.two_y (g : Good A B) {y : K} (h : y = -y) : y = 0 := by
  have : 2 * y = 0 := by linear_combination h
  exact (mul_eq_zero.mp this).resolve_left g.two

/-- The slope of the tangent. -/
theorem slope_double {u y : K} (g : Good A B) (hy : y ≠ (W A B).negY (B * u) y) :
    (W A B).slope (B * u) (B * u) y y * (2 * y) = B ^ 2 * (3 * u ^ 2 + 2 * A * u + 1) := by
  have hy0 : y ≠ 0 := fun hc => hy (by rw [negY_eq, hc, neg_zero])
  rw [slope_of_Y_ne rfl hy, negY_eq, sub_neg_eq_add, ← two_mul, div_mul_cancel₀ _ (mul_ne_zero g.two hy0)]
  simp only [W]
  ring

/-- Doubling. -/
theorem rep_double (g : Good A B) {X Z a24 : K} (ha : 4 * a24 = A - 2) (Q : (W A B).Point) (h : Rep X Z Q) :
    Rep ((X + Z) ^ 2 * (X - Z) ^ 2)
      (((X + Z) ^ 2 - (X - Z) ^ 2) * ((X + Z) ^ 2 + a24 * ((X + Z) ^ 2 - (X - Z) ^ 2))) (Q + Q) := by
  have h2 := g.two
  have h4 : (4 : K) ≠ 0 := by
    have : (4 : K) = 2 * 2 := by norm_num
    rw [this]; exact mul_ne_zero h2 h2
  have hb := g.b
  match Q, h with
  | .zero, h =>
    obtain ⟨hz, hx⟩ := h
    rw [show (Point.zero : (W A B).Point) + .zero = 0 from add_zero _]
    refine ⟨by rw [hz]; ring, ?_⟩
    rw [hz, add_zero, sub_zero]
    exact mul_ne_zero (pow_ne_zero _ hx) (pow_ne_zero _ hx)
  | .some x y hn, h =>
    obtain ⟨u, rfl, rfl, hz, hy⟩ := rep_some g h
    have hE : (u * Z + Z) ^ 2 - (u * Z - Z) ^ 2 = 4 * u * Z ^ 2 := by ring
    have hZ' : ((u * Z + Z) ^ 2 - (u * Z - Z) ^ 2) * ((u * Z + Z) ^ 2 + a24 * ((u * Z + Z) ^ 2 - (u * Z - Z) ^ 2)) =
        4 * Z ^ 4 * (u ^ 3 + A * u ^ 2 + u) := by
      rw [hE]; linear_combination (4 * u ^ 2 * Z ^ 4) * ha
    rw [hZ']
    by_cases hy0 : y = 0
    · rw [Point.add_self_of_Y_eq (by rw [negY_eq, hy0, neg_zero]), rep_zero]
      have hv : u ^ 3 + A * u ^ 2 + u = 0 := by
        rw [hy0, zero_pow (by decide)] at hy
        exact (mul_eq_zero.mp hy.symm).resolve_left (pow_ne_zero _ hb)
      refine ⟨by rw [hv, mul_zero], ?_⟩
      have e : (u * Z + Z) ^ 2 * (u * Z - Z) ^ 2 = ((u + 1) * (u - 1) * Z ^ 2) ^ 2 := by ring
      rw [e]
      refine pow_ne_zero _ (mul_ne_zero (mul_ne_zero ?_ ?_) (pow_ne_zero _ hz))
      · intro h1
        have hu : u = -1 := eq_neg_of_add_eq_zero_left h1
        rw [hu] at hv
        exact g.m2 (by linear_combination hv)
      · intro h1
        have hu : u = 1 := sub_eq_zero.mp h1
        rw [hu] at hv
        exact g.p2 (by linear_combination hv)
    · have hyn : y ≠ (W A B).negY (B * u) y := by
        rw [negY_eq]; exact fun hc => hy0 (g.two_y hc)
      rw [Point.add_self_of_Y_ne hyn]
      have hl := slope_double g hyn
      have hv : u ^ 3 + A * u ^ 2 + u ≠ 0 := fun hc => hy0 (by
        rw [hc, mul_zero] at hy
        exact pow_eq_zero_iff (two_ne_zero) |>.mp hy)
      refine ⟨mul_ne_zero (mul_ne_zero h4 (pow_ne_zero _ hz)) hv, ?_⟩
      rw [addX_eq]
      generalize (W A B).slope (B * u) (B * u) y y = l at *
      have hk : l ^ 2 * 4 * (u ^ 3 + A * u ^ 2 + u) = B * (3 * u ^ 2 + 2 * A * u + 1) ^ 2 := by
        have : B ^ 3 * (l ^ 2 * 4 * (u ^ 3 + A * u ^ 2 + u)) = B ^ 3 * (B * (3 * u ^ 2 + 2 * A * u + 1) ^ 2) := by
          linear_combination (l * (2 * y) + B ^ 2 * (3 * u ^ 2 + 2 * A * u + 1)) * hl - 4 * l ^ 2 * hy
        exact mul_left_cancel₀ (pow_ne_zero 3 hb) this
      linear_combination (-Z ^ 4) * hk

/-- Addition of two points whose difference has the u-coordinate `u1 ≠ 0`. -/
theorem rep_add (g : Good A B) {X2 Z2 X3 Z3 u1 : K} (Q R D : (W A B).Point) (hD : Rep u1 1 D) (h1 : u1 ≠ 0)
    (hQ : Rep X2 Z2 Q) (hR : Rep X3 Z3 R) (hd : R = Q + D) :
    Rep (((X3 - Z3) * (X2 + Z2) + (X3 + Z3) * (X2 - Z2)) ^ 2)
      (u1 * ((X3 - Z3) * (X2 + Z2) - (X3 + Z3) * (X2 - Z2)) ^ 2) (Q + R) := by
  have h2 := g.two
  have hb := g.b
  have eX : ((X3 - Z3) * (X2 + Z2) + (X3 + Z3) * (X2 - Z2)) ^ 2 = 2 ^ 2 * (X2 * X3 - Z2 * Z3) ^ 2 := by ring
  have eZ : u1 * ((X3 - Z3) * (X2 + Z2) - (X3 + Z3) * (X2 - Z2)) ^ 2 = 2 ^ 2 * u1 * (X3 * Z2 - Z3 * X2) ^ 2 := by ring
  rw [eX, eZ]
  match D, hD with
  | .zero, h => exact absurd h.1 one_ne_zero
  | .some x1 y1 n1, h =>
  obtain ⟨v1, rfl, e1, -, hy1⟩ := rep_some g h
  rw [mul_one] at e1
  subst e1
  match Q, R, hQ, hR with
  | .zero, R, hQ, hR =>
    rw [show (Point.zero : (W A B).Point) + .some _ _ n1 = .some _ _ n1 from zero_add _] at hd
    subst hd
    rw [show (Point.zero : (W A B).Point) + .some _ _ n1 = .some _ _ n1 from zero_add _]
    obtain ⟨hz2, hx2⟩ := hQ
    obtain ⟨u3, e3, rfl, hz3, -⟩ := rep_some g hR
    have : u3 = u1 := (mul_left_cancel₀ hb e3).symm
    subst this
    rw [hz2]
    refine ⟨?_, by ring⟩
    have e : 2 ^ 2 * u3 * (u3 * Z3 * 0 - Z3 * X2) ^ 2 = (2 * (Z3 * X2)) ^ 2 * u3 := by ring
    rw [e]
    exact mul_ne_zero (pow_ne_zero _ (mul_ne_zero h2 (mul_ne_zero hz3 hx2))) h1
  | .some x2 y2 n2, .zero, hQ, hR =>
    rw [show (Point.some _ _ n2 : (W A B).Point) + .zero = .some _ _ n2 from add_zero _]
    have hQD : Point.some _ _ n2 = -(Point.some _ _ n1) := eq_neg_of_add_eq_zero_left hd.symm
    rw [Point.neg_some, Point.some.injEq] at hQD
    obtain ⟨hz3, hx3⟩ := hR
    obtain ⟨u2, e2, rfl, hz2, -⟩ := rep_some g hQ
    have : u2 = u1 := mul_left_cancel₀ hb (e2.symm.trans hQD.1)
    subst this
    rw [hz3]
    refine ⟨?_, by rw [e2]; ring⟩
    have e : 2 ^ 2 * u2 * (X3 * Z2 - 0 * (u2 * Z2)) ^ 2 = (2 * (X3 * Z2)) ^ 2 * u2 := by ring
    rw [e]
    exact mul_ne_zero (pow_ne_zero _ (mul_ne_zero h2 (mul_ne_zero hx3 hz2))) h1
  | .some x2 y2 n2, .some x3 y3 n3, hQ, hR =>
    obtain ⟨u2, rfl, rfl, hz2, hy2⟩ := rep_some g hQ
    obtain ⟨u3, rfl, rfl, hz3, hy3⟩ := rep_some g hR
    have hdiff : Point.some _ _ n3 + -(Point.some _ _ n2) = Point.some _ _ n1 := by rw [hd]; abel
    rw [Point.neg_some] at hdiff
    by_cases hx : B * u2 = B * u3
    · have hu : u2 = u3 := mul_left_cancel₀ hb hx
      subst hu
      rcases Point.X_eq_iff (h₁ := n2) (h₂ := n3) |>.mp rfl with he | he
      · exfalso
        rw [← Point.neg_some n2, he, add_neg_cancel] at hdiff
        exact Point.some_ne_zero n1 hdiff.symm
      · have hz : Point.some _ _ n2 + Point.some _ _ n3 = 0 := by rw [he]; exact neg_add_cancel _
        rw [hz, rep_zero]
        refine ⟨by ring, ?_⟩
        -- the double of `R` is `D`
        have hdd : Point.some _ _ n3 + Point.some _ _ n3 = Point.some _ _ n1 := by
          rw [← Point.neg_some n2, he, neg_neg] at hdiff
          exact hdiff
        have hyn : y3 ≠ (W A B).negY (B * u2) y3 := by
          intro hc
          rw [Point.add_self_of_Y_eq hc] at hdd
          exact Point.some_ne_zero n1 hdd.symm
        have hy0 : y3 ≠ 0 := fun hc => hyn (by rw [negY_eq, hc, neg_zero])
        rw [Point.add_self_of_Y_ne hyn, Point.some.injEq, addX_eq] at hdd
        have hl := slope_double g hyn
        have hx1 := hdd.1
        generalize (W A B).slope (B * u2) (B * u2) y3 y3 = l at *
        have hsq : u2 ^ 2 - 1 ≠ 0 := by
          intro hc
          have : B * u1 * (2 * y3) ^ 2 = 0 := by
            linear_combination (-(2 * y3) ^ 2) * hx1 + (l * (2 * y3) + B ^ 2 * (3 * u2 ^ 2 + 2 * A * u2 + 1)) * hl
              - 4 * (B * A + 2 * B * u2) * hy3 + B ^ 4 * (u2 ^ 2 - 1) * hc
          exact mul_ne_zero (mul_ne_zero hb h1) (pow_ne_zero _ (mul_ne_zero h2 hy0)) this
        have e : 2 ^ 2 * (u2 * Z2 * (u2 * Z3) - Z2 * Z3) ^ 2 = (2 * (Z2 * Z3) * (u2 ^ 2 - 1)) ^ 2 := by ring
        rw [e]
        exact pow_ne_zero _ (mul_ne_zero (mul_ne_zero h2 (mul_ne_zero hz2 hz3)) hsq)
    · have hd0 : B * u3 - B * u2 ≠ 0 := sub_ne_zero.mpr (fun h => hx h.symm)
      have hd0' : B * u2 - B * u3 ≠ 0 := sub_ne_zero.mpr hx
      have hu0 : u3 - u2 ≠ 0 := fun hc => hd0 (by linear_combination B * hc)
      rw [Point.add_of_X_ne (fun h => hx h.symm), Point.some.injEq, addX_eq, slope_of_X_ne (fun h => hx h.symm), negY_eq] at hdiff
      have hx1 := hdiff.1
      rw [Point.add_of_X_ne hx, ]
      refine ⟨?_, ?_⟩
      · have e : 2 ^ 2 * u1 * (u3 * Z3 * Z2 - Z3 * (u2 * Z2)) ^ 2 = (2 * (Z2 * Z3) * (u3 - u2)) ^ 2 * u1 := by ring
        rw [e]
        exact mul_ne_zero (pow_ne_zero _ (mul_ne_zero (mul_ne_zero h2 (mul_ne_zero hz2 hz3)) hu0)) h1
      · rw [addX_eq, slope_of_X_ne hx]
        have k1 : (y3 + y2) ^ 2 = B ^ 3 * (u1 + A + u2 + u3) * (u3 - u2) ^ 2 := by
          have : (y3 - -y2) / (B * u3 - B * u2) * (B * u3 - B * u2) = y3 + y2 := by
            field_simp; ring
          generalize (y3 - -y2) / (B * u3 - B * u2) = l at *
          rw [← this]
          linear_combination (B * u3 - B * u2) ^ 2 * hx1
        have k2 : (y2 - y3) / (B * u2 - B * u3) * (B * u2 - B * u3) = y2 - y3 := div_mul_cancel₀ _ hd0'
        generalize (y2 - y3) / (B * u2 - B * u3) = l at *
        have k3 : B ^ 2 * (u3 - u2) ^ 2 * (l ^ 2 * u1 * (u3 - u2) ^ 2) =
            B ^ 2 * (u3 - u2) ^ 2 * (B * (u2 * u3 - 1) ^ 2 + B * (A + u2 + u3) * u1 * (u3 - u2) ^ 2) := by
          have k4 : l ^ 2 * (B ^ 2 * (u3 - u2) ^ 2) = (y3 - y2) ^ 2 := by
            linear_combination (l * (B * u2 - B * u3) + (y2 - y3)) * k2
          have k5 : u1 * (u3 - u2) ^ 2 * B ^ 3 = (y3 + y2) ^ 2 - B ^ 3 * (A + u2 + u3) * (u3 - u2) ^ 2 := by
            linear_combination -k1
          have k6 : B ^ 3 * (l ^ 2 * (B ^ 2 * (u3 - u2) ^ 2) * (u1 * (u3 - u2) ^ 2)) =
              B ^ 3 * (B ^ 2 * (u3 - u2) ^ 2 * (B * (u2 * u3 - 1) ^ 2 + B * (A + u2 + u3) * u1 * (u3 - u2) ^ 2)) := by
            linear_combination (u1 * (u3 - u2) ^ 2 * B ^ 3) * k4 + (y3 - y2) ^ 2 * k5 -
              (B ^ 3 * (A + u2 + u3) * (u3 - u2) ^ 2) * k5 +
              (y3 ^ 2 - y2 ^ 2 + B ^ 3 * (u3 ^ 3 + A * u3 ^ 2 + u3) - B ^ 3 * (u2 ^ 3 + A * u2 ^ 2 + u2) -
                2 * B ^ 3 * (A + u2 + u3) * (u3 - u2) ^ 2) * hy3 -
              (y3 ^ 2 - y2 ^ 2 + B ^ 3 * (u3 ^ 3 + A * u3 ^ 2 + u3) - B ^ 3 * (u2 ^ 3 + A * u2 ^ 2 + u2) +
                2 * B ^ 3 * (A + u2 + u3) * (u3 - u2) ^ 2) * hy2
          have := mul_left_cancel₀ (pow_ne_zero 3 hb) k6
          linear_combination this
        have k7 := mul_left_cancel₀ (mul_ne_zero (pow_ne_zero 2 hb) (pow_ne_zero 2 hu0)) k3
        linear_combination (-(4 * Z2 ^ 2 * Z3 ^ 2)) * k7

end LC.Curve.Mont
