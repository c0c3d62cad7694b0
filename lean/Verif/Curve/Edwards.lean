import Verif.Curve.Mont
/-!
# The twisted Edwards form of the curve

`-x^2 + y^2 = 1 + d x^2 y^2`: the points of the group of `v^2 = u^3 + A u^2 + u` (Mathlib's) have the
coordinates `x = c u / v`, `y = (u - 1)/(u + 1)`, and the Edwards addition formulas, which have no
exceptions, compute the coordinates of the sum.
-/
namespace LC.Curve.Mont

open WeierstrassCurve.Affine

variable {K : Type} [Field K] [DecidableEq K]

/-- Parameters of a complete twisted Edwards curve with `a = -1` and of its Montgomery form. -/
structure Ed (A c d i : K) : Prop where
  g : Good A 1
  hc : c ^ 2 = -(A + 2)
  hd : d * (A + 2) = -(A - 2)
  hi : i ^ 2 = -1
  hn : ¬ IsSquare d

variable {A c d i : K}

/-- The Edwards x-coordinate. -/
def ex (c : K) : (W A 1).Point → K
  | .zero => 0
  | .some u v _ => c * u / v
/-- The Edwards y-coordinate. -/
def ey : (W A 1).Point → K
  | .zero => 1
  | .some u _ _ => (u - 1) / (u + 1)

@[simp] theorem ex_zero : ex c (0 : (W A 1).Point) = 0 := rfl
@[simp] theorem ey_zero : ey (0 : (W A 1).Point) = 1 := rfl
@[simp] theorem ex_some {u v : K} {h : (W A 1).Nonsingular u v} : ex c (.some u v h) = c * u / v := rfl
@[simp] theorem ey_some {u v : K} {h : (W A 1).Nonsingular u v} : ey (.some u v h) = (u - 1) / (u + 1) := rfl

theorem eqn1 {u v : K} (h : (W A 1).Nonsingular u v) : v ^ 2 = u ^ 3 + A * u ^ 2 + u := by
  rw [eqn.mp h.1]; ring

/-- The chord, in Montgomery coordinates. -/
theorem chord {u1 v1 u2 v2 l u3 v3 : K} (e1 : v1 ^ 2 = u1 ^ 3 + A * u1 ^ 2 + u1) (e2 : v2 ^ 2 = u2 ^ 3 + A * u2 ^ 2 + u2)
    (hd0 : u1 - u2 ≠ 0) (hl : l * (u1 - u2) = v1 - v2) (hu3 : u3 = l ^ 2 - 1 * A - u1 - u2) (hv3 : v3 = -(l * (u3 - u1) + v1)) :
    (u3 - 1) * ((u1 + 1) * (u2 + 1) * v1 * v2 - (A - 2) * u1 * u2 * (u1 - 1) * (u2 - 1)) =
        (u3 + 1) * ((u1 - 1) * (u2 - 1) * v1 * v2 + -(A + 2) * u1 * u2 * (u1 + 1) * (u2 + 1)) ∧
      u3 * ((u1 + 1) * (u2 + 1) * v1 * v2 + (A - 2) * u1 * u2 * (u1 - 1) * (u2 - 1)) =
        v3 * (u1 * (u2 - 1) * (u1 + 1) * v2 + u2 * (u1 - 1) * (u2 + 1) * v1) := by
  have h3 : u3 * (u1 - u2) ^ 2 = (v1 - v2) ^ 2 - (A + u1 + u2) * (u1 - u2) ^ 2 := by
    rw [hu3]; linear_combination (l * (u1 - u2) + (v1 - v2)) * hl
  have h4 : v3 * (u1 - u2) ^ 3 = (v1 - v2) *
      (u1 * (u1 - u2) ^ 2 - ((v1 - v2) ^ 2 - (A + u1 + u2) * (u1 - u2) ^ 2)) - v1 * (u1 - u2) ^ 3 := by
    rw [hv3]; linear_combination ((u1 - u2) ^ 2 * (u1 - u3)) * hl - (v1 - v2) * h3
  clear hu3 hv3 hl
  constructor
  · refine mul_left_cancel₀ (pow_ne_zero 2 hd0) ?_
    linear_combination (((u1 + 1) * (u2 + 1) * v1 * v2 - (A - 2) * u1 * u2 * (u1 - 1) * (u2 - 1)) -
      ((u1 - 1) * (u2 - 1) * v1 * v2 + -(A + 2) * u1 * u2 * (u1 + 1) * (u2 + 1))) * h3 + (2*A*u1*u2^2 + 2*A*u1^2*u2 + 4*u1*u2 + 2*u1*v1*v2 - 4*u1*v2^2 + 4*u1^2*u2^2 + 2*u2*v1*v2 - 4*u2*v2^2) * e1 + (2*A*u1*u2^2 - 2*A*u1^2*u2 - 4*A*u1^3 + 2*u1*v1*v2 - 4*u1^2 + 4*u1^2*u2^2 - 4*u1^3*u2 - 4*u1^4 + 2*u2*v1*v2) * e2
  · refine mul_left_cancel₀ (pow_ne_zero 3 hd0) ?_
    linear_combination ((u1 - u2) * ((u1 + 1) * (u2 + 1) * v1 * v2 + (A - 2) * u1 * u2 * (u1 - 1) * (u2 - 1))) * h3 -
      (u1 * (u2 - 1) * (u1 + 1) * v2 + u2 * (u1 - 1) * (u2 + 1) * v1) * h4 + (-3*A*u1*u2^2 - 2*A*u1*u2^3 - A*u1*u2^4 + A*u1^2*u2 + 2*A*u1^2*u2^2 + A*u1^2*u2^3 - A*u1^3*u2 + A*u1^3*u2^2 + A*u2^3 + A*u2^4 - u1*u2 - 2*u1*u2*v1*v2 + u1*u2*v1^2 + u1*u2^2 - 4*u1*u2^2*v1*v2 + u1*u2^2*v1^2 + 5*u1*u2^2*v2^2 - 5*u1*u2^3 - 5*u1*u2^4 - 2*u1*u2^5 + u1*v2^2 - u1^2*u2 + 2*u1^2*u2*v1*v2 - 5*u1^2*u2*v2^2 + u1^2*u2^2 + 5*u1^2*u2^3 + 3*u1^2*u2^4 + u1^2*v2^2 + 2*u1^3*u2 - 2*u1^3*u2^2 + 2*u2*v1*v2 - u2*v1^2 - u2*v2^2 + 2*u2^2*v1*v2 - u2^2*v1^2 - u2^2*v2^2 + 2*u2^4 + 2*u2^5) * e1 + (-A*u1*u2^2 + A*u1*u2^3 + 2*A*u1^2*u2 - 3*A*u1^2*u2^2 - A*u1^2*u2^3 + 2*A*u1^3*u2 + 4*A*u1^3*u2^2 - 4*A*u1^4*u2 + 2*u1*u2*v1*v2 - u1*u2*v2^2 - 2*u1*u2^2*v1*v2 - 2*u1*u2^3 - 2*u1*v1*v2 + u1*v2^2 + u1^2 - u1^2*u2 + 4*u1^2*u2*v1*v2 - u1^2*u2*v2^2 + 4*u1^2*u2^2 + 2*u1^2*u2^3 - 2*u1^2*v1*v2 + u1^2*v2^2 + u1^3 - u1^3*u2 - 6*u1^3*u2^2 - u1^4 + 5*u1^4*u2 + 2*u1^4*u2^2 - u1^5 - 3*u1^5*u2) * e2

/-- The tangent, in Montgomery coordinates. -/
theorem tangent {u v l u3 v3 : K} (e1 : v ^ 2 = u ^ 3 + A * u ^ 2 + u) (h2v : 2 * v ≠ 0)
    (hl : l * (2 * v) = 3 * u ^ 2 + 2 * A * u + 1) (hu3 : u3 = l ^ 2 - 1 * A - u - u) (hv3 : v3 = -(l * (u3 - u) + v)) :
    (u3 - 1) * ((u + 1) * (u + 1) * v * v - (A - 2) * u * u * (u - 1) * (u - 1)) =
        (u3 + 1) * ((u - 1) * (u - 1) * v * v + -(A + 2) * u * u * (u + 1) * (u + 1)) ∧
      u3 * ((u + 1) * (u + 1) * v * v + (A - 2) * u * u * (u - 1) * (u - 1)) =
        v3 * (u * (u - 1) * (u + 1) * v + u * (u - 1) * (u + 1) * v) := by
  have h3 : u3 * (4 * v ^ 2) = (3 * u ^ 2 + 2 * A * u + 1) ^ 2 - (A + 2 * u) * 4 * v ^ 2 := by
    rw [hu3]; linear_combination (l * (2 * v) + (3 * u ^ 2 + 2 * A * u + 1)) * hl
  have h4 : v3 * (8 * v ^ 3) = (3 * u ^ 2 + 2 * A * u + 1) *
      (u * 4 * v ^ 2 - ((3 * u ^ 2 + 2 * A * u + 1) ^ 2 - (A + 2 * u) * 4 * v ^ 2)) - v * (8 * v ^ 3) := by
    rw [hv3]; linear_combination (4 * v ^ 2 * (u - u3)) * hl - (3 * u ^ 2 + 2 * A * u + 1) * h3
  clear hu3 hv3 hl
  constructor
  · refine mul_left_cancel₀ (pow_ne_zero 2 h2v) ?_
    linear_combination (((u + 1) * (u + 1) * v * v - (A - 2) * u * u * (u - 1) * (u - 1)) -
      ((u - 1) * (u - 1) * v * v + -(A + 2) * u * u * (u + 1) * (u + 1))) * h3 + (-16*A*u*v^2 - 16*A*u^2 - 48*A*u^4 - 16*A^2*u^3 - 4*u - 40*u^2*v^2 - 24*u^3 - 36*u^5 - 8*v^2) * e1
  · refine mul_left_cancel₀ (pow_ne_zero 3 h2v) ?_
    linear_combination (2 * v * ((u + 1) * (u + 1) * v * v + (A - 2) * u * u * (u - 1) * (u - 1))) * h3 -
      (u * (u - 1) * (u + 1) * v + u * (u - 1) * (u + 1) * v) * h4 + (8*A*u*v - 16*A*u*v^3 + 16*A*u^2*v - 8*A*u^2*v^3 + 48*A*u^4*v - 72*A*u^5*v - 8*A*v^3 + 8*A^2*u^2*v + 16*A^2*u^3*v - 24*A^2*u^4*v + 4*u*v - 32*u*v^3 + 6*u^2*v - 32*u^2*v^3 + 24*u^3*v - 18*u^4*v + 36*u^5*v - 54*u^6*v + 2*v) * e1

namespace Ed
variable (e : Ed A c d i)
include e

theorem c_ne : c ≠ 0 := fun h => e.g.p2 (by have := e.hc; rw [h] at this; linear_combination this)

theorem dc : d * c ^ 2 = A - 2 := by rw [e.hc]; linear_combination -e.hd

theorem d_of_sq {z w : K} (hz : z ≠ 0) (h : w ^ 2 = d * z ^ 2) : False :=
  e.hn ⟨w / z, by rw [← pow_two, div_pow, h, mul_div_cancel_right₀ _ (pow_ne_zero _ hz)]⟩

theorem u1_ne {u v : K} (h : v ^ 2 = u ^ 3 + A * u ^ 2 + u) : u + 1 ≠ 0 := fun hu => by
  have : u = -1 := eq_neg_of_add_eq_zero_left hu
  rw [this] at h
  exact e.d_of_sq e.c_ne (w := v) (by rw [e.dc]; linear_combination h)

theorem u_zero {u v : K} (h : v ^ 2 = u ^ 3 + A * u ^ 2 + u) (hv : v = 0) : u = 0 := by
  rw [hv] at h
  have h1 : u * (u ^ 2 + A * u + 1) = 0 := by linear_combination -h
  refine (mul_eq_zero.mp h1).resolve_right fun h2 => ?_
  refine e.d_of_sq (pow_ne_zero 2 e.c_ne) (w := i * (2 * u + A)) ?_
  have h3 := e.dc
  linear_combination (2 * u + A) ^ 2 * e.hi - 4 * h2 + (-c ^ 2) * h3 + (-(A - 2)) * e.hc

theorem v_zero {u v : K} (h : v ^ 2 = u ^ 3 + A * u ^ 2 + u) (hu : u = 0) : v = 0 := by
  rw [hu] at h
  exact pow_eq_zero_iff (two_ne_zero) |>.mp (by linear_combination h)

/-- The points are on the Edwards curve. -/
theorem on_curve (Q : (W A 1).Point) : -ex c Q ^ 2 + ey Q ^ 2 = 1 + d * ex c Q ^ 2 * ey Q ^ 2 := by
  match Q with
  | .zero => show -(0 : K) ^ 2 + 1 ^ 2 = 1 + d * 0 ^ 2 * 1 ^ 2; ring
  | .some u v h =>
    have hE := eqn1 h
    have hu := e.u1_ne hE
    rw [ex_some, ey_some]
    by_cases hv : v = 0
    · rw [e.u_zero hE hv]; simp
    · field_simp
      have h1 := e.dc
      have h2 := e.hc
      linear_combination (-4 * u) * hE - (u ^ 2 * (u - 1) ^ 2) * h1 - (u ^ 2 * (u + 1) ^ 2) * h2

/-- The addition formulas have no exceptions. -/
theorem complete {x1 y1 x2 y2 : K} (h1 : -x1 ^ 2 + y1 ^ 2 = 1 + d * x1 ^ 2 * y1 ^ 2)
    (h2 : -x2 ^ 2 + y2 ^ 2 = 1 + d * x2 ^ 2 * y2 ^ 2) (s : K) (hs : s ^ 2 = 1) : d * x1 * x2 * y1 * y2 ≠ s := by
  intro hk
  have hs0 : s ≠ 0 := fun h => by rw [h] at hs; simp at hs
  have hxy : x1 * y1 ≠ 0 := fun h => hs0 (by rw [← hk]; linear_combination d * x2 * y2 * h)
  have hi := e.hi
  have key : ∀ t : K, t ^ 2 = 1 → (i * x1 + t * s * y1) ^ 2 = d * (x1 * y1 * (i * x2 + t * y2)) ^ 2 := by
    intro t ht
    have hk2 : d * x1 ^ 2 * y1 ^ 2 * (-x2 ^ 2 + y2 ^ 2) = d * x1 ^ 2 * y1 ^ 2 + 1 := by
      rw [h2]; linear_combination (d * x1 * x2 * y1 * y2 + s) * hk + hs
    linear_combination (x1 ^ 2 - d * x1 ^ 2 * y1 ^ 2 * x2 ^ 2) * hi + (y1 ^ 2 * s ^ 2 - d * x1 ^ 2 * y1 ^ 2 * y2 ^ 2) * ht +
      y1 ^ 2 * hs - (2 * i * t * x1 * y1) * hk + h1 - hk2
  by_cases h : i * x2 + y2 = 0
  · have h' : i * x2 - y2 ≠ 0 := fun h' => by
      have hy : y2 = 0 := by
        have : 2 * y2 = 0 := by linear_combination h - h'
        exact (mul_eq_zero.mp this).resolve_left e.g.two
      exact hs0 (by rw [← hk, hy, mul_zero])
    exact e.d_of_sq (mul_ne_zero hxy (show i * x2 + (-1) * y2 ≠ 0 by intro h2; exact h' (by linear_combination h2)))
      (key (-1) (by ring))
  · exact e.d_of_sq (mul_ne_zero hxy (show i * x2 + 1 * y2 ≠ 0 by rw [one_mul]; exact h)) (key 1 (by ring))

theorem den_plus (Q R : (W A 1).Point) : 1 + d * ex c Q * ex c R * ey Q * ey R ≠ 0 := fun h =>
  e.complete (e.on_curve Q) (e.on_curve R) (-1) (by ring) (by linear_combination h)
theorem den_minus (Q R : (W A 1).Point) : 1 - d * ex c Q * ex c R * ey Q * ey R ≠ 0 := fun h =>
  e.complete (e.on_curve Q) (e.on_curve R) 1 (by ring) (by linear_combination -h)

omit e in
theorem ex_neg (Q : (W A 1).Point) : ex c (-Q) = -ex c Q := by
  match Q with
  | .zero => show (0 : K) = -0; ring
  | .some u v h => rw [Point.neg_some, ex_some, ex_some, negY_eq, div_neg]
omit e in
theorem ey_neg (Q : (W A 1).Point) : ey (-Q) = ey Q := by
  match Q with
  | .zero => rfl
  | .some u v h => rw [Point.neg_some, ey_some, ey_some]

/-- The point of order two. -/
def T : (W A 1).Point := .some 0 0 (e.g.nonsingular (by ring))

theorem eq_T {u v : K} (h : (W A 1).Nonsingular u v) (hu : u = 0) : Point.some u v h = e.T := by
  have := e.v_zero (eqn1 h) hu
  subst hu; subst this; rfl

theorem ex_T : ex c e.T = 0 := by simp [T]
theorem ey_T : ey e.T = -1 := by simp [T]

theorem T_add (Q : (W A 1).Point) : ex c (e.T + Q) = -ex c Q ∧ ey (e.T + Q) = -ey Q := by
  match Q with
  | .zero => 
    rw [show e.T + Point.zero = e.T from add_zero _, ex_T, ey_T]
    exact ⟨by show (0 : K) = -0; ring, rfl⟩
  | .some u v h =>
    have hE := eqn1 h
    have hu1 := e.u1_ne hE
    by_cases hu : u = 0
    · rw [e.eq_T h hu]
      have : e.T + e.T = 0 := by
        unfold T
        exact Point.add_self_of_Y_eq (by rw [negY_eq, neg_zero])
      rw [this, ex_T, ey_T]
      simp
    · have hv : v ≠ 0 := fun hv => hu (e.u_zero hE hv)
      unfold T
      rw [Point.add_of_X_ne (fun hc => hu hc.symm), ex_some, ey_some, addX_eq, slope_of_X_ne (fun hc => hu hc.symm)]
      simp only [addY, negAddY, addX_eq, negY_eq, slope_of_X_ne (fun hc => hu hc.symm), ex_some, ey_some]
      have hs : (0 - v) / (0 - u) = v / u := by rw [zero_sub, zero_sub, neg_div_neg_eq]
      have hx : (v / u) ^ 2 - 1 * A - 0 - u = 1 / u := by
        field_simp
        linear_combination hE
      rw [hs, hx]
      have h1 : 1 / u + 1 = (u + 1) / u := by field_simp; ring
      have h2 : 1 / u - 1 = -(u - 1) / u := by field_simp; ring
      have h3 : -(v / u * (1 / u - 0) + 0) = -(v / u ^ 2) := by field_simp; ring
      constructor
      · rw [h3, div_neg]; congr 1; field_simp
      · rw [h1, h2, div_div_div_cancel_right₀ hu, neg_div]

/-- **The Edwards formulas add in the group.** -/
theorem add (Q R : (W A 1).Point) :
    ex c (Q + R) * (1 + d * ex c Q * ex c R * ey Q * ey R) = ex c Q * ey R + ey Q * ex c R ∧
    ey (Q + R) * (1 - d * ex c Q * ex c R * ey Q * ey R) = ey Q * ey R + ex c Q * ex c R := by
  by_cases hQ0 : Q = 0
  · rw [hQ0, zero_add]; simp
  by_cases hR0 : R = 0
  · rw [hR0, add_zero]; simp
  by_cases hQT : Q = e.T
  · obtain ⟨h1, h2⟩ := e.T_add R
    rw [hQT, h1, h2, e.ex_T, e.ey_T]; constructor <;> ring
  by_cases hRT : R = e.T
  · obtain ⟨h1, h2⟩ := e.T_add Q
    rw [hRT, add_comm Q, h1, h2, e.ex_T, e.ey_T]; constructor <;> ring
  by_cases hz : Q + R = 0
  · have hR : R = -Q := eq_neg_of_add_eq_zero_right hz
    have hE := e.on_curve Q
    rw [hz, hR, ex_neg, ey_neg, ex_zero, ey_zero]
    exact ⟨by ring, by linear_combination -hE⟩
  by_cases hzT : Q + R = e.T
  · have hR : R = e.T + -Q := by rw [← hzT]; abel
    have hE := e.on_curve Q
    obtain ⟨h1, h2⟩ := e.T_add (-Q)
    rw [hzT, e.ex_T, e.ey_T, hR, h1, h2, ex_neg, ey_neg]
    exact ⟨by ring, by linear_combination hE⟩
  -- the generic case
  have key : ∀ u1 v1 u2 v2 u3 v3 : K, ∀ h1 : (W A 1).Nonsingular u1 v1, ∀ h2 : (W A 1).Nonsingular u2 v2,
      ∀ h3 : (W A 1).Nonsingular u3 v3, Q = .some u1 v1 h1 → R = .some u2 v2 h2 → Q + R = .some u3 v3 h3 →
      (u3 - 1) * ((u1 + 1) * (u2 + 1) * v1 * v2 - (A - 2) * u1 * u2 * (u1 - 1) * (u2 - 1)) =
        (u3 + 1) * ((u1 - 1) * (u2 - 1) * v1 * v2 + -(A + 2) * u1 * u2 * (u1 + 1) * (u2 + 1)) →
      u3 * ((u1 + 1) * (u2 + 1) * v1 * v2 + (A - 2) * u1 * u2 * (u1 - 1) * (u2 - 1)) =
        v3 * (u1 * (u2 - 1) * (u1 + 1) * v2 + u2 * (u1 - 1) * (u2 + 1) * v1) →
      ex c (Q + R) * (1 + d * ex c Q * ex c R * ey Q * ey R) = ex c Q * ey R + ey Q * ex c R ∧
      ey (Q + R) * (1 - d * ex c Q * ex c R * ey Q * ey R) = ey Q * ey R + ex c Q * ex c R := by
    intro u1 v1 u2 v2 u3 v3 h1 h2 h3 eQ eR eS hY hX
    have hv1 : v1 ≠ 0 := fun hc => hQT (eQ.trans (e.eq_T h1 (e.u_zero (eqn1 h1) hc)))
    have hv2 : v2 ≠ 0 := fun hc => hRT (eR.trans (e.eq_T h2 (e.u_zero (eqn1 h2) hc)))
    have hv3 : v3 ≠ 0 := fun hc => hzT (eS.trans (e.eq_T h3 (e.u_zero (eqn1 h3) hc)))
    have p1 := e.u1_ne (eqn1 h1)
    have p2 := e.u1_ne (eqn1 h2)
    have p3 := e.u1_ne (eqn1 h3)
    rw [eS, eQ, eR, ex_some, ex_some, ex_some, ey_some, ey_some, ey_some]
    have hdc := e.dc
    have hc := e.hc
    have a1 : c * u1 / v1 * v1 = c * u1 := div_mul_cancel₀ _ hv1
    have a2 : c * u2 / v2 * v2 = c * u2 := div_mul_cancel₀ _ hv2
    have a3 : c * u3 / v3 * v3 = c * u3 := div_mul_cancel₀ _ hv3
    have b1 : (u1 - 1) / (u1 + 1) * (u1 + 1) = u1 - 1 := div_mul_cancel₀ _ p1
    have b2 : (u2 - 1) / (u2 + 1) * (u2 + 1) = u2 - 1 := div_mul_cancel₀ _ p2
    have b3 : (u3 - 1) / (u3 + 1) * (u3 + 1) = u3 - 1 := div_mul_cancel₀ _ p3
    generalize c * u1 / v1 = x1 at *
    generalize c * u2 / v2 = x2 at *
    generalize c * u3 / v3 = x3 at *
    generalize (u1 - 1) / (u1 + 1) = y1 at *
    generalize (u2 - 1) / (u2 + 1) = y2 at *
    generalize (u3 - 1) / (u3 + 1) = y3 at *
    have hD : (u1 + 1) * (u2 + 1) * v1 * v2 ≠ 0 := mul_ne_zero (mul_ne_zero (mul_ne_zero p1 p2) hv1) hv2
    have n1 : d * x1 * x2 * y1 * y2 * ((u1 + 1) * (u2 + 1) * v1 * v2) = (A - 2) * u1 * u2 * (u1 - 1) * (u2 - 1) := by
      calc _ = d * (x1 * v1) * (x2 * v2) * (y1 * (u1 + 1)) * (y2 * (u2 + 1)) := by ring
        _ = d * c ^ 2 * u1 * u2 * (u1 - 1) * (u2 - 1) := by rw [a1, a2, b1, b2]; ring
        _ = _ := by rw [hdc]
    have n2 : (y1 * y2 + x1 * x2) * ((u1 + 1) * (u2 + 1) * v1 * v2) =
        (u1 - 1) * (u2 - 1) * v1 * v2 + -(A + 2) * u1 * u2 * (u1 + 1) * (u2 + 1) := by
      calc _ = (y1 * (u1 + 1)) * (y2 * (u2 + 1)) * v1 * v2 + (x1 * v1) * (x2 * v2) * (u1 + 1) * (u2 + 1) := by ring
        _ = (u1 - 1) * (u2 - 1) * v1 * v2 + c ^ 2 * u1 * u2 * (u1 + 1) * (u2 + 1) := by rw [a1, a2, b1, b2]; ring
        _ = _ := by rw [hc]
    have n3 : (x1 * y2 + y1 * x2) * ((u1 + 1) * (u2 + 1) * v1 * v2) =
        c * (u1 * (u2 - 1) * (u1 + 1) * v2 + u2 * (u1 - 1) * (u2 + 1) * v1) := by
      calc _ = (x1 * v1) * (y2 * (u2 + 1)) * (u1 + 1) * v2 + (y1 * (u1 + 1)) * (x2 * v2) * (u2 + 1) * v1 := by ring
        _ = _ := by rw [a1, a2, b1, b2]; ring
    generalize (u1 + 1) * (u2 + 1) * v1 * v2 = D at *
    generalize (A - 2) * u1 * u2 * (u1 - 1) * (u2 - 1) = N at *
    constructor
    · refine mul_left_cancel₀ (mul_ne_zero hD hv3) ?_
      linear_combination (D + d * x1 * x2 * y1 * y2 * D) * a3 + c * u3 * n1 + c * hX - v3 * n3
    · refine mul_left_cancel₀ (mul_ne_zero hD p3) ?_
      linear_combination (D - d * x1 * x2 * y1 * y2 * D) * b3 - (u3 - 1) * n1 + hY - (u3 + 1) * n2
  clear hQ0 hR0
  match Q, R, key, hQT, hRT, hz, hzT with
  | .zero, _, _, _, _, _, _ => 
    rename_i R' _ _ _ _ _
    rw [show (Point.zero : (W A 1).Point) = 0 from rfl, zero_add]; simp
  | .some u v h, .zero, _, _, _, _, _ =>
    rw [show (Point.zero : (W A 1).Point) = 0 from rfl, add_zero]; simp
  | .some u1 v1 h1, .some u2 v2 h2, key, hQT, hRT, hz, hzT =>
    have e1 := eqn1 h1
    have e2 := eqn1 h2
    have hv1 : v1 ≠ 0 := fun hc => hQT (e.eq_T h1 (e.u_zero e1 hc))
    by_cases hx : u1 = u2
    · subst hx
      rcases Point.X_eq_iff (h₁ := h1) (h₂ := h2) |>.mp rfl with he | he
      swap
      · exact absurd (show Point.some _ _ h1 + Point.some _ _ h2 = 0 by rw [he, neg_add_cancel]) hz
      have hv : v1 = v2 := by rw [Point.some.injEq] at he; exact he.2
      subst hv
      have hyn : v1 ≠ (W A 1).negY u1 v1 := by
        rw [negY_eq]; exact fun hc => hv1 (e.g.two_y hc)
      have hl : (W A 1).slope u1 u1 v1 v1 * (2 * v1) = 3 * u1 ^ 2 + 2 * A * u1 + 1 := by
        have := slope_double (u := u1) e.g (by rw [one_mul]; exact hyn)
        rw [one_mul] at this
        rw [this]; ring
      have hS := Point.add_self_of_Y_ne (h₁ := h1) hyn
      have h2v : 2 * v1 ≠ 0 := mul_ne_zero e.g.two hv1
      obtain ⟨hY, hX⟩ := tangent (A := A) e1 h2v hl rfl rfl
      refine key _ _ _ _ _ _ _ _ _ rfl rfl hS ?_ ?_
      all_goals simp only [addY, negAddY, addX_eq, negY_eq]
      · exact hY
      · exact hX
    · have hd0 : u1 - u2 ≠ 0 := sub_ne_zero.mpr hx
      have hS := Point.add_of_X_ne (h₁ := h1) (h₂ := h2) hx
      have hl : (W A 1).slope u1 u2 v1 v2 * (u1 - u2) = v1 - v2 := by
        rw [slope_of_X_ne hx]; exact div_mul_cancel₀ _ hd0
      obtain ⟨hY, hX⟩ := chord (A := A) e1 e2 hd0 hl rfl rfl
      refine key _ _ _ _ _ _ _ _ _ rfl rfl hS ?_ ?_
      all_goals simp only [addY, negAddY, addX_eq, negY_eq]
      · exact hY
      · exact hX

/-- The coordinates determine the point. -/
theorem inj {Q R : (W A 1).Point} (hx : ex c Q = ex c R) (hy : ey Q = ey R) : Q = R := by
  have h := e.add Q (-R)
  have hE := e.on_curve R
  rw [ex_neg, ey_neg, hx, hy] at h
  have hd1 := e.den_minus R (-R)
  rw [ex_neg, ey_neg] at hd1
  have h2 : ey (Q + -R) = 1 := by
    refine mul_right_cancel₀ hd1 ?_
    rw [h.2]; linear_combination hE
  have : Q + -R = 0 := by
    generalize Q + -R = S at h2
    match S, h2 with
    | .zero, _ => rfl
    | .some u v hn, h2 =>
      have hu := e.u1_ne (eqn1 hn)
      rw [ey_some, div_eq_one_iff_eq hu] at h2
      exact absurd (by linear_combination -h2 : (2 : K) = 0) e.g.two
  exact eq_of_sub_eq_zero (by rw [sub_eq_add_neg]; exact this)

/-- Every point of the Edwards curve is one. -/
theorem surj {x y : K} (h : -x ^ 2 + y ^ 2 = 1 + d * x ^ 2 * y ^ 2) : ∃ Q : (W A 1).Point, ex c Q = x ∧ ey Q = y := by
  by_cases hx : x = 0
  · rw [hx] at h
    have : y ^ 2 = 1 ^ 2 := by linear_combination h
    rcases sq_eq_sq_iff_eq_or_eq_neg.mp this with hy | hy
    · exact ⟨0, by rw [hx]; rfl, by rw [hy]; rfl⟩
    · exact ⟨e.T, by rw [hx, e.ex_T], by rw [hy, e.ey_T]⟩
  · have hxy : x ^ 2 * (1 + d * y ^ 2) = y ^ 2 - 1 := by linear_combination -h
    have hdy : 1 + d * y ^ 2 ≠ 0 := fun hc => by
      by_cases hy : y = 0
      · rw [hy] at hc; simp at hc
      · exact e.d_of_sq hy (w := i) (by rw [e.hi]; linear_combination -hc)
    have hy2 : y ^ 2 - 1 ≠ 0 := by rw [← hxy]; exact mul_ne_zero (pow_ne_zero _ hx) hdy
    have hy1 : 1 - y ≠ 0 := fun hc => hy2 (by linear_combination (-(1 + y)) * hc)
    have hy1' : 1 + y ≠ 0 := fun hc => hy2 (by linear_combination (y - 1) * hc)
    have hc := e.c_ne
    refine ⟨.some ((1 + y) / (1 - y)) (c * ((1 + y) / (1 - y)) / x) (e.g.nonsingular ?_), ?_, ?_⟩
    · have h1 := e.hc
      have h2 := e.hd
      field_simp
      linear_combination (1 - y ^ 2) * h1 - (A + 2) * hxy + (x ^ 2 * y ^ 2) * h2
    · rw [ex_some]; field_simp
    · rw [ey_some]
      have : (1 + y) / (1 - y) + 1 = 2 / (1 - y) := by field_simp; ring
      have h2 := e.g.two
      rw [this]
      field_simp
      ring

end Ed
end LC.Curve.Mont
