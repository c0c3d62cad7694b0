import Verif.Curve.GeLemmas
/-!
# Ed25519: the tables hold multiples of the base point

The 264 entries are checked by evaluation in the kernel: each row is compared with the multiples
computed with the addition law on natural numbers modulo the prime.
-/
namespace LC.Curve

open Mont

/-- The base point: `u = 9` on the Montgomery curve. -/
def Bp : Pt := G9

/-- Extended coordinates as natural numbers. -/
structure NP where
  X : Nat
  Y : Nat
  Z : Nat
  T : Nat

structure NR (p : NP) (Q : Pt) : Prop where
  z : (p.Z : ZMod P) ≠ 0
  x : (p.X : ZMod P) = xc Q * p.Z
  y : (p.Y : ZMod P) = yc Q * p.Z
  t : (p.T : ZMod P) = xc Q * yc Q * p.Z

def nD2 : Nat := 2 * 37095705934669439343138083508754565189542113879843219016388785533085940283555

def nAdd (p q : NP) : NP :=
  let A := nSub p.Y p.X * nSub q.Y q.X % P
  let B := (p.Y + p.X) * (q.Y + q.X) % P
  let C := nD2 * p.T % P * q.T % P
  let D := 2 * p.Z * q.Z % P
  let E := nSub B A
  let F := nSub D C
  let G := D + C
  let H := B + A
  ⟨E * F % P, G * H % P, F * G % P, E * H % P⟩

theorem nD2_cast : ((nD2 : Nat) : ZMod P) = 2 * dd := by
  rw [show nD2 = 2 * 37095705934669439343138083508754565189542113879843219016388785533085940283555 from rfl, Nat.cast_mul, Nat.cast_ofNat (n := 2)]

theorem nAdd_rep {p q : NP} {Q R : Pt} (h : NR p Q) (k : NR q R) : NR (nAdd p q) (Q + R) := by
  have hA : ((nSub p.Y p.X * nSub q.Y q.X % P : Nat) : ZMod P) = (yc Q - xc Q) * (yc R - xc R) * (p.Z * q.Z) := by
    rw [ZMod.natCast_mod, Nat.cast_mul, nSub_cast, nSub_cast, h.x, h.y, k.x, k.y]; ring
  have hB : (((p.Y + p.X) * (q.Y + q.X) % P : Nat) : ZMod P) = (yc Q + xc Q) * (yc R + xc R) * (p.Z * q.Z) := by
    rw [ZMod.natCast_mod, Nat.cast_mul, Nat.cast_add, Nat.cast_add, h.x, h.y, k.x, k.y]; ring
  have hC : ((nD2 * p.T % P * q.T % P : Nat) : ZMod P) = 2 * (dd * xc Q * xc R * yc Q * yc R) * (p.Z * q.Z) := by
    rw [ZMod.natCast_mod, Nat.cast_mul, ZMod.natCast_mod, Nat.cast_mul, nD2_cast, h.t, k.t]; ring
  have hD : ((2 * p.Z * q.Z % P : Nat) : ZMod P) = 2 * (p.Z * q.Z) := by
    rw [ZMod.natCast_mod, Nat.cast_mul, Nat.cast_mul, Nat.cast_ofNat]; ring
  obtain ⟨c1, c2, c3, c4⟩ := add_core (Q := Q) (R := R) (mul_ne_zero h.z k.z) rfl rfl rfl rfl
  unfold nAdd
  dsimp only
  refine ⟨?_, ?_, ?_, ?_⟩
  · show ((_ : Nat) : ZMod P) ≠ 0
    rw [ZMod.natCast_mod, Nat.cast_mul, nSub_cast, Nat.cast_add, hC, hD]
    intro hc
    refine mul_ne_zero c1 c2 ?_
    linear_combination hc
  · show ((_ : Nat) : ZMod P) = _ * ((_ : Nat) : ZMod P)
    rw [ZMod.natCast_mod, ZMod.natCast_mod, Nat.cast_mul, Nat.cast_mul, nSub_cast, nSub_cast, Nat.cast_add, hA, hB, hC, hD]
    linear_combination (2 * (p.Z * q.Z : ZMod P) * (1 - dd * xc Q * xc R * yc Q * yc R)) * c3
  · show ((_ : Nat) : ZMod P) = _ * ((_ : Nat) : ZMod P)
    rw [ZMod.natCast_mod, ZMod.natCast_mod, Nat.cast_mul, Nat.cast_mul, nSub_cast, Nat.cast_add, Nat.cast_add, hA, hB, hC, hD]
    linear_combination (2 * (p.Z * q.Z : ZMod P) * (1 + dd * xc Q * xc R * yc Q * yc R)) * c4
  · show ((_ : Nat) : ZMod P) = _ * ((_ : Nat) : ZMod P)
    rw [ZMod.natCast_mod, ZMod.natCast_mod, Nat.cast_mul, Nat.cast_mul, nSub_cast, nSub_cast, Nat.cast_add, Nat.cast_add, hA, hB, hC, hD]
    linear_combination (2 * (p.Z * q.Z : ZMod P) * (yc Q * yc R + xc Q * xc R)) * c3 +
      (xc (Q + R) * (2 * (p.Z * q.Z : ZMod P) * (1 + dd * xc Q * xc R * yc Q * yc R))) * c4

def Fe.ltB (f : Fe) (b : Nat) : Bool :=
  decide (f.l0 < b) && decide (f.l1 < b) && decide (f.l2 < b) && decide (f.l3 < b) && decide (f.l4 < b)

theorem Fe.ltB_iff {f : Fe} {b : Nat} (h : f.ltB b = true) : f.lt b := by
  simp only [Fe.ltB, Bool.and_eq_true, decide_eq_true_eq] at h
  exact ⟨h.1.1.1.1, h.1.1.1.2, h.1.1.2, h.1.2, h.2⟩

/-- The entry is the point. -/
def entryOk (p : NP) (q : Precomp) : Bool :=
  q.yplusx.ltB tight && q.yminusx.ltB tight && q.xy2d.ltB mid && (val q.yplusx * p.Z % P == (p.Y + p.X) % P) &&
    ((val q.yminusx * p.Z + p.X) % P == p.Y % P) && (val q.xy2d * p.Z % P == nD2 * p.T % P)

theorem entryOk_rep {p : NP} {q : Precomp} {Q : Pt} (h : NR p Q) (hk : entryOk p q = true) : RP q Q := by
  unfold entryOk at hk
  rw [Bool.and_eq_true, Bool.and_eq_true, Bool.and_eq_true, Bool.and_eq_true, Bool.and_eq_true, beq_iff_eq, beq_iff_eq, beq_iff_eq] at hk
  obtain ⟨⟨⟨⟨⟨b1, b2⟩, b3⟩, e1⟩, e2⟩, e3⟩ := hk
  have e1 := eqP _ _ e1
  have e2 := eqP _ _ e2
  have e3 := eqP _ _ e3
  rw [Nat.cast_mul, Nat.cast_add, h.x, h.y] at e1
  rw [Nat.cast_add, Nat.cast_mul, h.x, h.y] at e2
  rw [Nat.cast_mul, Nat.cast_mul, nD2_cast, h.t] at e3
  refine ⟨Fe.ltB_iff b1, Fe.ltB_iff b2, Fe.ltB_iff b3, ?_, ?_, ?_⟩
  · exact mul_right_cancel₀ h.z (e1.trans (by ring))
  · exact mul_right_cancel₀ h.z (by unfold toF; linear_combination e2)
  · exact mul_right_cancel₀ h.z (e3.trans (by ring))

/-- The row is `acc`, `acc + p`, `acc + 2 p`, ... -/
def rowOk (p : NP) : NP → List Precomp → Bool
  | _, [] => true
  | acc, q :: qs => entryOk acc q && rowOk p (nAdd acc p) qs

theorem rowOk_rep {p : NP} {Q : Pt} (hp : NR p Q) (row : List Precomp) {acc : NP} {S : Pt} (ha : NR acc S)
    (h : rowOk p acc row = true) (j : Nat) (hj : j < row.length) (dflt : Precomp) : RP (row.getD j dflt) (S + j • Q) := by
  induction row generalizing acc S j with
  | nil => exact absurd hj (Nat.not_lt_zero _)
  | cons q qs ih =>
    rw [rowOk, Bool.and_eq_true] at h
    cases j with
    | zero => rw [zero_nsmul, add_zero]; exact entryOk_rep ha h.1
    | succ j =>
      rw [succ_nsmul', ← add_assoc]
      exact ih (nAdd_rep ha hp) h.2 j (Nat.lt_of_succ_lt_succ hj)

def nDbl8 (p : NP) : NP :=
  let p := nAdd p p
  let p := nAdd p p
  let p := nAdd p p
  let p := nAdd p p
  let p := nAdd p p
  let p := nAdd p p
  let p := nAdd p p
  nAdd p p

theorem nDbl8_rep {p : NP} {Q : Pt} (h : NR p Q) : NR (nDbl8 p) (256 • Q) := by
  have h1 := nAdd_rep h h
  have h2 := nAdd_rep h1 h1
  have h3 := nAdd_rep h2 h2
  have h4 := nAdd_rep h3 h3
  have h5 := nAdd_rep h4 h4
  have h6 := nAdd_rep h5 h5
  have h7 := nAdd_rep h6 h6
  have h8 := nAdd_rep h7 h7
  simp only [← two_nsmul, ← mul_nsmul] at h8
  exact h8

/-- All rows have eight entries, and row `i` holds the multiples of `256^i p`. -/
def tabOk : NP → List (List Precomp) → Bool
  | _, [] => true
  | p, row :: rows => (row.length == 8) && rowOk p p row && tabOk (nDbl8 p) rows

theorem tabOk_rep (tab : List (List Precomp)) {p : NP} {Q : Pt} (hp : NR p Q) (h : tabOk p tab = true) (i : Nat)
    (hi : i < tab.length) : (tab.getD i []).length = 8 ∧ ∀ j < 8, ∀ dflt, RP ((tab.getD i []).getD j dflt) ((j + 1) • 256 ^ i • Q) := by
  induction tab generalizing p Q i with
  | nil => exact absurd hi (Nat.not_lt_zero _)
  | cons row rows ih =>
    rw [tabOk, Bool.and_eq_true, Bool.and_eq_true, beq_iff_eq] at h
    cases i with
    | zero =>
      refine ⟨h.1.1, fun j hj dflt => ?_⟩
      have := rowOk_rep hp row hp h.1.2 j (by rw [h.1.1]; exact hj) dflt
      rw [Nat.pow_zero, one_nsmul, succ_nsmul']
      exact this
    | succ i =>
      have := ih (nDbl8_rep hp) h.2 i (Nat.lt_of_succ_lt_succ hi)
      rw [← mul_nsmul', ← Nat.pow_succ] at this
      exact this

/-- The base point in affine coordinates (RFC 8032, section 5.1). -/
def nB : NP := ⟨15112221349535400772501151409588531511454012693041857206046113283949847762202,
  46316835694926478169428394003475163141307993866256225615783033603165251855960, 1,
  15112221349535400772501151409588531511454012693041857206046113283949847762202 *
    46316835694926478169428394003475163141307993866256225615783033603165251855960 % P⟩

theorem xc_B : xc Bp = ((15112221349535400772501151409588531511454012693041857206046113283949847762202 : Nat) : ZMod P) := by
  have hv := natCast_ne_zero 14781619447589544791020593568409986887264606134616475288964881837755586237401 (by decide) (by decide)
  have h := eqP (51042569399160536130206135233146329284152202253034631822681833788666877215207 * 9)
    (15112221349535400772501151409588531511454012693041857206046113283949847762202 *
      14781619447589544791020593568409986887264606134616475288964881837755586237401) (by decide +kernel)
  rw [Nat.cast_mul, Nat.cast_mul] at h
  exact (div_eq_iff hv).mpr h

theorem yc_B : yc Bp = ((46316835694926478169428394003475163141307993866256225615783033603165251855960 : Nat) : ZMod P) := by
  have h := eqP 8 (46316835694926478169428394003475163141307993866256225615783033603165251855960 * 10) (by decide +kernel)
  rw [Nat.cast_mul] at h
  have e9 : (((9 : Nat) : ZMod P) + 1) = ((10 : Nat) : ZMod P) := by norm_cast
  have e8 : (((9 : Nat) : ZMod P) - 1) = ((8 : Nat) : ZMod P) := by push_cast; norm_num
  show (((9 : Nat) : ZMod P) - 1) / (((9 : Nat) : ZMod P) + 1) = _
  rw [e9, e8]
  exact (div_eq_iff (natCast_ne_zero 10 (by decide) (by decide))).mpr h

theorem nB_rep : NR nB Bp := by
  refine ⟨?_, ?_, ?_, ?_⟩
  · show ((1 : Nat) : ZMod P) ≠ 0
    rw [Nat.cast_one]; exact one_ne_zero
  · show ((15112221349535400772501151409588531511454012693041857206046113283949847762202 : Nat) : ZMod P) = xc Bp * ((1 : Nat) : ZMod P)
    rw [Nat.cast_one, mul_one, xc_B]
  · show ((46316835694926478169428394003475163141307993866256225615783033603165251855960 : Nat) : ZMod P) = yc Bp * ((1 : Nat) : ZMod P)
    rw [Nat.cast_one, mul_one, yc_B]
  · show ((_ : Nat) : ZMod P) = xc Bp * yc Bp * ((1 : Nat) : ZMod P)
    rw [Nat.cast_one, mul_one, xc_B, yc_B, ← Nat.cast_mul]
    exact eqP _ _ (by decide +kernel)

theorem base_checked : tabOk nB base = true := by decide +kernel
theorem base2_checked : rowOk (nAdd nB nB) nB base2 = true := by decide +kernel

/-- **The table of `ge25519_cmov8_base`**: entry `j` of row `i` is `(j + 1) 256^i B`. -/
theorem base_rep (i : Nat) (hi : i < 32) :
    (base.getD i []).length = 8 ∧ ∀ j < 8, ∀ dflt, RP ((base.getD i []).getD j dflt) ((j + 1) • 256 ^ i • Bp) :=
  tabOk_rep base nB_rep base_checked i hi

/-- **The table of `_ge25519_double_scalarmult_vartime`**: entry `j` is `(2 j + 1) B`. -/
theorem base2_rep (j : Nat) (hj : j < 8) (dflt : Precomp) : RP (base2.getD j dflt) ((2 * j + 1) • Bp) := by
  have := rowOk_rep (nAdd_rep nB_rep nB_rep) base2 nB_rep base2_checked j hj dflt
  rw [← two_nsmul, ← mul_nsmul, add_comm, ← succ_nsmul] at this
  exact this

theorem order_B : addOrderOf Bp = L := order_G9

attribute [irreducible] Bp

end LC.Curve
