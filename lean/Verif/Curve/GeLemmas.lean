import Verif.Curve.Ge
import Verif.Curve.Edwards
import Verif.Curve.Dh
/-!
# Ed25519: the formulas compute the group operations

The group is that of curve25519 (Mathlib's group of a Weierstrass curve); a point has Edwards
coordinates `ex cC Q`, `ey Q` (`Edwards.lean`).  `R3 h Q` says that the extended coordinates `h`
represent `Q`, and likewise for the other representations.
-/
namespace LC.Curve

open Mont

/-- The group. -/
abbrev Pt := (W cA 1).Point

/-- `-sqrt(-486664)`; with this sign the base point has `u = 9`, `v > 0` as in RFC 7748. -/
abbrev cC : ZMod P := ((51042569399160536130206135233146329284152202253034631822681833788666877215207 : Nat) : ZMod P)
/-- `d` of RFC 8032. -/
abbrev dd : ZMod P := ((37095705934669439343138083508754565189542113879843219016388785533085940283555 : Nat) : ZMod P)
/-- `sqrt(-1)` -/
abbrev ii : ZMod P := ((19681161376707505956807079304988542015446066515923890162744021073123829784752 : Nat) : ZMod P)

theorem ed : Ed cA cC dd ii := by
  refine ⟨good1, ?_, ?_, ?_, notSq _ (by decide +kernel)⟩
  · have := eqP (51042569399160536130206135233146329284152202253034631822681833788666877215207 * 51042569399160536130206135233146329284152202253034631822681833788666877215207 + (486662 + 2)) 0 (by decide +kernel)
    rw [Nat.cast_add, Nat.cast_mul, Nat.cast_add, Nat.cast_zero, Nat.cast_ofNat (n := 2)] at this
    linear_combination this
  · have := eqP (37095705934669439343138083508754565189542113879843219016388785533085940283555 * (486662 + 2) + 486662) 2 (by decide +kernel)
    rw [Nat.cast_add, Nat.cast_mul, Nat.cast_add, Nat.cast_ofNat (n := 2)] at this
    linear_combination this
  · have := eqP (19681161376707505956807079304988542015446066515923890162744021073123829784752 * 19681161376707505956807079304988542015446066515923890162744021073123829784752 + 1) 0 (by decide +kernel)
    rw [Nat.cast_add, Nat.cast_mul, Nat.cast_one, Nat.cast_zero] at this
    linear_combination this

theorem feD_spec : feD.lt tight ∧ toF feD = dd :=
  ⟨⟨by decide, by decide, by decide, by decide, by decide⟩, eqP _ _ (by decide +kernel)⟩
theorem feD2_spec : feD2.lt tight ∧ toF feD2 = 2 * dd := by
  refine ⟨⟨by decide, by decide, by decide, by decide, by decide⟩, ?_⟩
  have := eqP (val feD2) (2 * 37095705934669439343138083508754565189542113879843219016388785533085940283555) (by decide +kernel)
  rw [Nat.cast_mul, Nat.cast_ofNat (n := 2)] at this
  exact this
theorem feSqrtm1_spec : feSqrtm1.lt tight ∧ toF feSqrtm1 = ii :=
  ⟨⟨by decide, by decide, by decide, by decide, by decide⟩, eqP _ _ (by decide +kernel)⟩

/-- The x-coordinate. -/
noncomputable abbrev xc (Q : Pt) : ZMod P := ex cC Q
/-- The y-coordinate. -/
noncomputable abbrev yc (Q : Pt) : ZMod P := ey Q

structure R3 (h : P3) (Q : Pt) : Prop where
  bX : h.X.lt mid
  bY : h.Y.lt mid
  bZ : h.Z.lt tight
  bT : h.T.lt mid
  z : toF h.Z ≠ 0
  x : toF h.X = xc Q * toF h.Z
  y : toF h.Y = yc Q * toF h.Z
  t : toF h.T = xc Q * yc Q * toF h.Z

structure R2 (h : P2) (Q : Pt) : Prop where
  bX : h.X.lt mid
  bY : h.Y.lt mid
  bZ : h.Z.lt tight
  z : toF h.Z ≠ 0
  x : toF h.X = xc Q * toF h.Z
  y : toF h.Y = yc Q * toF h.Z

structure R11 (h : P11) (Q : Pt) : Prop where
  bX : h.X.lt loose
  bY : h.Y.lt loose
  bZ : h.Z.lt loose
  bT : h.T.lt loose
  z : toF h.Z ≠ 0
  t : toF h.T ≠ 0
  x : toF h.X = xc Q * toF h.Z
  y : toF h.Y = yc Q * toF h.T

structure RC (h : Cached) (Q : Pt) : Prop where
  bP : h.YplusX.lt loose
  bM : h.YminusX.lt loose
  bZ : h.Z.lt tight
  bT : h.T2d.lt mid
  z : toF h.Z ≠ 0
  p : toF h.YplusX = (yc Q + xc Q) * toF h.Z
  m : toF h.YminusX = (yc Q - xc Q) * toF h.Z
  t : toF h.T2d = 2 * dd * xc Q * yc Q * toF h.Z

structure RP (h : Precomp) (Q : Pt) : Prop where
  bP : h.yplusx.lt tight
  bM : h.yminusx.lt tight
  bT : h.xy2d.lt mid
  p : toF h.yplusx = yc Q + xc Q
  m : toF h.yminusx = yc Q - xc Q
  t : toF h.xy2d = 2 * dd * xc Q * yc Q

theorem xc_zero : xc 0 = 0 := rfl
theorem yc_zero : yc 0 = 1 := rfl
theorem xc_neg (Q : Pt) : xc (-Q) = -xc Q := Ed.ex_neg Q
theorem yc_neg (Q : Pt) : yc (-Q) = yc Q := Ed.ey_neg Q

/-- The addition in completed coordinates. -/
theorem add_core {Q R : Pt} {z X Y Z T : ZMod P} (hz : z ≠ 0)
    (hX : X = 2 * z * (xc Q * yc R + yc Q * xc R)) (hY : Y = 2 * z * (yc Q * yc R + xc Q * xc R))
    (hZ : Z = 2 * z * (1 + dd * xc Q * xc R * yc Q * yc R)) (hT : T = 2 * z * (1 - dd * xc Q * xc R * yc Q * yc R)) :
    Z ≠ 0 ∧ T ≠ 0 ∧ X = xc (Q + R) * Z ∧ Y = yc (Q + R) * T := by
  obtain ⟨hx, hy⟩ := ed.add Q R
  have h2 : 2 * z ≠ 0 := mul_ne_zero two_ne hz
  refine ⟨?_, ?_, ?_, ?_⟩
  · rw [hZ]; exact mul_ne_zero h2 (ed.den_plus Q R)
  · rw [hT]; exact mul_ne_zero h2 (ed.den_minus Q R)
  · rw [hX, hZ]; linear_combination (-2 * z) * hx
  · rw [hY, hT]; linear_combination (-2 * z) * hy

theorem two_tight (f : Fe) (h : f.lt tight) : (feAdd f f).lt 4503599627370498 ∧ toF (feAdd f f) = toF f + toF f :=
  feAdd_spec f f tight tight h h (by decide)

section
variable {p : P3} {Q R : Pt}

/-- The last four operations of the additions. -/
theorem last_ops (Z Y t0 T : Fe) (hZ : Z.lt tight) (hY : Y.lt tight) (h0 : t0.lt 4503599627370498) (hT : T.lt tight) :
    (feSub Z Y).lt loose ∧ (feAdd Z Y).lt loose ∧ (feAdd t0 T).lt loose ∧ (feSub t0 T).lt loose ∧
      toF (feSub Z Y) = toF Z - toF Y ∧ toF (feAdd Z Y) = toF Z + toF Y ∧ toF (feAdd t0 T) = toF t0 + toF T ∧
      toF (feSub t0 T) = toF t0 - toF T := by
  have a := feSub_spec Z Y _ hZ (Fe.lt_mono hY (by decide)) (by decide)
  have b := feAdd_spec Z Y _ _ hZ hY (by decide)
  have c := feAdd_spec t0 T _ _ h0 hT (by decide)
  have d := feSub_spec t0 T _ h0 (Fe.lt_mono hT (by decide)) (by decide)
  exact ⟨Fe.lt_mono a.1 (by decide), Fe.lt_mono b.1 (by decide), Fe.lt_mono c.1 (by decide), Fe.lt_mono d.1 (by decide),
    a.2, b.2, c.2, d.2⟩

/-- The first operations. -/
theorem first_ops (h : R3 p Q) : (feAdd p.Y p.X).lt loose ∧ (feSub p.Y p.X).lt loose ∧
    toF (feAdd p.Y p.X) = (yc Q + xc Q) * toF p.Z ∧ toF (feSub p.Y p.X) = (yc Q - xc Q) * toF p.Z := by
  have a := feAdd_spec p.Y p.X _ _ h.bY h.bX (by decide)
  have b := feSub_spec p.Y p.X _ h.bY (Fe.lt_mono h.bX (by decide)) (by decide)
  refine ⟨a.1, Fe.lt_mono b.1 (by decide), ?_, ?_⟩
  · rw [a.2, h.x, h.y]; ring
  · rw [b.2, h.x, h.y]; ring

theorem addCached_rep {q : Cached} (h : R3 p Q) (k : RC q R) : R11 (addCached p q) (Q + R) := by
  obtain ⟨b1, b2, e1, e2⟩ := first_ops h
  have m1 := feMul_spec _ _ b1 k.bP
  have m2 := feMul_spec _ _ b2 k.bM
  have m3 := feMul_spec q.T2d p.T (Fe.lt_mono k.bT (by decide)) (Fe.lt_mono h.bT (by decide))
  have m4 := feMul_spec p.Z q.Z (Fe.lt_mono h.bZ (by decide)) (Fe.lt_mono k.bZ (by decide))
  have m5 := two_tight _ m4.1
  obtain ⟨l1, l2, l3, l4, f1, f2, f3, f4⟩ := last_ops _ _ _ _ m1.1 m2.1 m5.1 m3.1
  obtain ⟨c1, c2, c3, c4⟩ := add_core (Q := Q) (R := R) (mul_ne_zero h.z k.z)
    (f1.trans (by rw [m1.2, m2.2, e1, e2, k.p, k.m]; ring)) (f2.trans (by rw [m1.2, m2.2, e1, e2, k.p, k.m]; ring))
    (f3.trans (by rw [m5.2, m4.2, m3.2, k.t, h.t]; ring)) (f4.trans (by rw [m5.2, m4.2, m3.2, k.t, h.t]; ring))
  exact ⟨l1, l2, l3, l4, c1, c2, c3, c4⟩

theorem subCached_rep {q : Cached} (h : R3 p Q) (k : RC q R) : R11 (subCached p q) (Q - R) := by
  obtain ⟨b1, b2, e1, e2⟩ := first_ops h
  have m1 := feMul_spec _ _ b1 k.bM
  have m2 := feMul_spec _ _ b2 k.bP
  have m3 := feMul_spec q.T2d p.T (Fe.lt_mono k.bT (by decide)) (Fe.lt_mono h.bT (by decide))
  have m4 := feMul_spec p.Z q.Z (Fe.lt_mono h.bZ (by decide)) (Fe.lt_mono k.bZ (by decide))
  have m5 := two_tight _ m4.1
  obtain ⟨l1, l2, l3, l4, f1, f2, f3, f4⟩ := last_ops _ _ _ _ m1.1 m2.1 m5.1 m3.1
  rw [sub_eq_add_neg]
  obtain ⟨c1, c2, c3, c4⟩ := add_core (Q := Q) (R := -R) (mul_ne_zero h.z k.z)
    (f1.trans (by rw [m1.2, m2.2, e1, e2, k.p, k.m, xc_neg, yc_neg]; ring)) (f2.trans (by rw [m1.2, m2.2, e1, e2, k.p, k.m, xc_neg, yc_neg]; ring))
    (f4.trans (by rw [m5.2, m4.2, m3.2, k.t, h.t, xc_neg, yc_neg]; ring)) (f3.trans (by rw [m5.2, m4.2, m3.2, k.t, h.t, xc_neg, yc_neg]; ring))
  exact ⟨l1, l2, l4, l3, c1, c2, c3, c4⟩

theorem addPrecomp_rep {q : Precomp} (h : R3 p Q) (k : RP q R) : R11 (addPrecomp p q) (Q + R) := by
  obtain ⟨b1, b2, e1, e2⟩ := first_ops h
  have m1 := feMul_spec _ _ b1 (Fe.lt_mono k.bP (by decide))
  have m2 := feMul_spec _ _ b2 (Fe.lt_mono k.bM (by decide))
  have m3 := feMul_spec q.xy2d p.T (Fe.lt_mono k.bT (by decide)) (Fe.lt_mono h.bT (by decide))
  have m5 := two_tight _ h.bZ
  obtain ⟨l1, l2, l3, l4, f1, f2, f3, f4⟩ := last_ops _ _ _ _ m1.1 m2.1 m5.1 m3.1
  obtain ⟨c1, c2, c3, c4⟩ := add_core (Q := Q) (R := R) h.z
    (f1.trans (by rw [m1.2, m2.2, e1, e2, k.p, k.m]; ring)) (f2.trans (by rw [m1.2, m2.2, e1, e2, k.p, k.m]; ring))
    (f3.trans (by rw [m5.2, m3.2, k.t, h.t]; ring)) (f4.trans (by rw [m5.2, m3.2, k.t, h.t]; ring))
  exact ⟨l1, l2, l3, l4, c1, c2, c3, c4⟩

theorem subPrecomp_rep {q : Precomp} (h : R3 p Q) (k : RP q R) : R11 (subPrecomp p q) (Q - R) := by
  obtain ⟨b1, b2, e1, e2⟩ := first_ops h
  have m1 := feMul_spec _ _ b1 (Fe.lt_mono k.bM (by decide))
  have m2 := feMul_spec _ _ b2 (Fe.lt_mono k.bP (by decide))
  have m3 := feMul_spec q.xy2d p.T (Fe.lt_mono k.bT (by decide)) (Fe.lt_mono h.bT (by decide))
  have m5 := two_tight _ h.bZ
  obtain ⟨l1, l2, l3, l4, f1, f2, f3, f4⟩ := last_ops _ _ _ _ m1.1 m2.1 m5.1 m3.1
  rw [sub_eq_add_neg]
  obtain ⟨c1, c2, c3, c4⟩ := add_core (Q := Q) (R := -R) h.z
    (f1.trans (by rw [m1.2, m2.2, e1, e2, k.p, k.m, xc_neg, yc_neg]; ring)) (f2.trans (by rw [m1.2, m2.2, e1, e2, k.p, k.m, xc_neg, yc_neg]; ring))
    (f4.trans (by rw [m5.2, m3.2, k.t, h.t, xc_neg, yc_neg]; ring)) (f3.trans (by rw [m5.2, m3.2, k.t, h.t, xc_neg, yc_neg]; ring))
  exact ⟨l1, l2, l4, l3, c1, c2, c3, c4⟩

theorem P11.toP2_rep {t : P11} (h : R11 t Q) : R2 t.toP2 Q := by
  have a := feMul_spec _ _ h.bX h.bT
  have b := feMul_spec _ _ h.bY h.bZ
  have c := feMul_spec _ _ h.bZ h.bT
  refine ⟨Fe.lt_mono a.1 (by decide), Fe.lt_mono b.1 (by decide), c.1, ?_, ?_, ?_⟩
  · exact fun hc => mul_ne_zero h.z h.t (c.2.symm.trans hc)
  · exact a.2.trans (by rw [show toF t.toP2.Z = _ from c.2, h.x]; ring)
  · exact b.2.trans (by rw [show toF t.toP2.Z = _ from c.2, h.y]; ring)

theorem P11.toP3_rep {t : P11} (h : R11 t Q) : R3 t.toP3 Q := by
  have a := feMul_spec _ _ h.bX h.bT
  have b := feMul_spec _ _ h.bY h.bZ
  have c := feMul_spec _ _ h.bZ h.bT
  have d := feMul_spec _ _ h.bX h.bY
  refine ⟨Fe.lt_mono a.1 (by decide), Fe.lt_mono b.1 (by decide), c.1, Fe.lt_mono d.1 (by decide), ?_, ?_, ?_, ?_⟩
  · exact fun hc => mul_ne_zero h.z h.t (c.2.symm.trans hc)
  · exact a.2.trans (by rw [show toF t.toP3.Z = _ from c.2, h.x]; ring)
  · exact b.2.trans (by rw [show toF t.toP3.Z = _ from c.2, h.y]; ring)
  · exact d.2.trans (by rw [show toF t.toP3.Z = _ from c.2, h.x, h.y]; ring)

theorem P2.dbl_rep {q : P2} (h : R2 q Q) : R11 q.dbl (Q + Q) := by
  have a := feSq_spec q.X (Fe.lt_mono h.bX (by decide))
  have b := feSq_spec q.Y (Fe.lt_mono h.bY (by decide))
  have c := feSq2_spec q.Z (Fe.lt_mono h.bZ (by decide))
  have d := feAdd_spec q.X q.Y _ _ h.bX h.bY (by decide)
  have e := feSq_spec _ (Fe.lt_mono d.1 (by decide))
  have f := feAdd_spec _ _ _ _ b.1 a.1 (by decide)
  have g := feSub_spec _ _ _ b.1 (Fe.lt_mono a.1 (by decide)) (by decide)
  have i := feSub_spec _ _ _ e.1 (Fe.lt_mono f.1 (by decide)) (by decide)
  have j := feSub_spec _ _ _ c.1 (Fe.lt_mono g.1 (by decide)) (by decide)
  obtain ⟨hx, hy⟩ := ed.add Q Q
  have hc := ed.on_curve Q
  have hz2 := pow_ne_zero 2 h.z
  have eX := i.2.trans (show _ = toF q.Z ^ 2 * (2 * xc Q * yc Q) by rw [e.2, f.2, d.2, a.2, b.2, h.x, h.y]; ring)
  have eY := f.2.trans (show _ = toF q.Z ^ 2 * (yc Q * yc Q + xc Q * xc Q) by rw [a.2, b.2, h.x, h.y]; ring)
  have eZ := g.2.trans (show _ = toF q.Z ^ 2 * (1 + dd * xc Q * xc Q * yc Q * yc Q) by
    rw [a.2, b.2, h.x, h.y]; linear_combination toF q.Z ^ 2 * hc)
  have eT := j.2.trans (show _ = toF q.Z ^ 2 * (1 - dd * xc Q * xc Q * yc Q * yc Q) by
    rw [eZ, c.2]; ring)
  refine ⟨Fe.lt_mono i.1 (by decide), Fe.lt_mono f.1 (by decide), Fe.lt_mono g.1 (by decide), Fe.lt_mono j.1 (by decide), ?_, ?_, ?_, ?_⟩
  · exact fun hc => mul_ne_zero hz2 (ed.den_plus Q Q) (eZ.symm.trans hc)
  · exact fun hc => mul_ne_zero hz2 (ed.den_minus Q Q) (eT.symm.trans hc)
  · exact eX.trans (by rw [show toF q.dbl.Z = _ from eZ]; linear_combination (-toF q.Z ^ 2) * hx)
  · exact eY.trans (by rw [show toF q.dbl.T = _ from eT]; linear_combination (-toF q.Z ^ 2) * hy)

theorem P3.toP2_rep (h : R3 p Q) : R2 p.toP2 Q := ⟨h.bX, h.bY, h.bZ, h.z, h.x, h.y⟩

theorem P3.dbl_rep (h : R3 p Q) : R11 p.dbl (Q + Q) := P2.dbl_rep (P3.toP2_rep h)

theorem P3.toCached_rep (h : R3 p Q) : RC p.toCached Q := by
  obtain ⟨b1, b2, e1, e2⟩ := first_ops h
  have m := feMul_spec p.T feD2 (Fe.lt_mono h.bT (by decide)) (Fe.lt_mono feD2_spec.1 (by decide))
  exact ⟨b1, b2, h.bZ, Fe.lt_mono m.1 (by decide), h.z, e1, e2, m.2.trans (by
    rw [feD2_spec.2, h.t, show toF p.toCached.Z = toF p.Z from rfl]; ring)⟩

theorem P3.neg_rep (h : R3 p Q) : R3 p.neg (-Q) := by
  have a := feNeg_spec p.X (Fe.lt_mono h.bX (by decide))
  have b := feNeg_spec p.T (Fe.lt_mono h.bT (by decide))
  unfold P3.neg
  refine ⟨a.1, h.bY, h.bZ, b.1, h.z, ?_, ?_, ?_⟩
  · rw [a.2, h.x, xc_neg, neg_mul]
  · rw [h.y, yc_neg]
  · rw [b.2, h.t, xc_neg, yc_neg]; ring

theorem P3.add_rep {q : P3} (h : R3 p Q) (k : R3 q R) : R3 (p.add q) (Q + R) :=
  P11.toP3_rep (addCached_rep h (P3.toCached_rep k))

end

theorem p3zero_rep : R3 p3zero 0 := by
  refine ⟨?_, ?_, ?_, ?_, ?_, ?_, ?_, ?_⟩
  · exact Fe.lt_mono feZero_spec.1 (by decide)
  · exact Fe.lt_mono feOne_spec.1 (by decide)
  · exact Fe.lt_mono feOne_spec.1 (by decide)
  · exact Fe.lt_mono feZero_spec.1 (by decide)
  · rw [show p3zero.Z = feOne from rfl, feOne_spec.2]; exact one_ne_zero
  · rw [show p3zero.X = feZero from rfl, feZero_spec.2, xc_zero, zero_mul]
  · rw [show p3zero.Y = feOne from rfl, show p3zero.Z = feOne from rfl, yc_zero, one_mul]
  · rw [show p3zero.T = feZero from rfl, feZero_spec.2, xc_zero, zero_mul, zero_mul]

theorem p2zero_rep : R2 p2zero 0 := P3.toP2_rep p3zero_rep

theorem precompZero_rep : RP precompZero 0 := by
  refine ⟨Fe.lt_mono feOne_spec.1 (by decide), Fe.lt_mono feOne_spec.1 (by decide), Fe.lt_mono feZero_spec.1 (by decide), ?_, ?_, ?_⟩
  · rw [show precompZero.yplusx = feOne from rfl, feOne_spec.2, xc_zero, yc_zero, add_zero]
  · rw [show precompZero.yminusx = feOne from rfl, feOne_spec.2, xc_zero, yc_zero, sub_zero]
  · rw [show precompZero.xy2d = feZero from rfl, feZero_spec.2, xc_zero]; ring

end LC.Curve
