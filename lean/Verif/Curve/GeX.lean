import Verif.Curve.GeSlide
import Verif.Curve.Props
/-!
# X25519: the public key from the base point table

`lc_x25519_keypair` computes the public key with the Ed25519 table for the base point and then changes
coordinates.  The theorems say that this is the ladder of RFC 7748 at `u = 9`.
-/
namespace LC.Curve

open Mont

theorem clamp31 (n : List Byte) (hn : n.length = 32) : ((clamp n).getD 31 0).toNat ≤ 127 := by
  have hl := clamp_length n
  have h1 := split31 _ hl
  rw [clamp_spec n hn] at h1
  have h2 := scalar_lt n
  by_contra hc
  have : 256 ^ 31 * 128 ≤ 256 ^ 31 * ((clamp n).getD 31 0).toNat := Nat.mul_le_mul_left _ (by omega)
  have e : (256 : Nat) ^ 31 * 128 = 2 ^ 255 := by decide
  omega

/-- A clamped scalar does not kill a point of order `L`, nor do its multiples by 8. -/
theorem clamp_smul {Q : Pt} (hQ : addOrderOf Q = L) (n : List Byte) : 8 • Spec.decodeScalar n • Q ≠ 0 := by
  obtain ⟨m, hm, h0, hlt⟩ := scalar_form n
  rw [smul_smul, hm]
  intro h
  have hd := addOrderOf_dvd_iff_nsmul_eq_zero.mpr h
  rw [hQ] at hd
  have hp := L_prime
  have hL : 2 ^ 252 < L := by decide
  rw [show 8 * (8 * m) = 64 * m by ring] at hd
  rcases hp.dvd_mul.mp hd with h | h
  · have := Nat.le_of_dvd (by decide) h
    have : (64 : Nat) < 2 ^ 252 := by decide
    omega
  · have := Nat.le_of_dvd h0 h
    omega

/-- The u-coordinate from projective Edwards coordinates. -/
theorem edToMont_spec {u v : ZMod P} {h : (W cA 1).Nonsingular u v} {Y Z : Fe} (bY : Y.lt mid) (bZ : Z.lt tight) (hz : toF Z ≠ 0)
    (hy : toF Y = ey (.some u v h : Pt) * toF Z) : (edToMont Y Z).lt tight ∧ toF (edToMont Y Z) = u := by
  have ha := feAdd_spec Z Y _ _ bZ bY (by decide)
  have hs := feSub_spec Z Y _ bZ (Fe.lt_mono bY (by decide)) (by decide)
  have hi := feInvert_spec _ (Fe.lt_mono hs.1 (by decide))
  have hv := feInvert_inv _ (Fe.lt_mono hs.1 (by decide))
  have hm := feMul_spec _ _ (Fe.lt_mono ha.1 (by decide)) (Fe.lt_mono hi.1 (by decide))
  refine ⟨hm.1, ?_⟩
  unfold edToMont
  have h1 : u + 1 ≠ 0 := ed.u1_ne (eqn1 h)
  rw [hm.2, hv, ha.2, hs.2, hy, ey_some]
  have e1 : toF Z + (u - 1) / (u + 1) * toF Z = u * (2 * toF Z / (u + 1)) := by
    field_simp; ring
  have e2 : toF Z - (u - 1) / (u + 1) * toF Z = 2 * toF Z / (u + 1) := by
    field_simp; ring
  have hne : 2 * toF Z / (u + 1) ≠ 0 := div_ne_zero (mul_ne_zero two_ne hz) h1
  rw [e1, e2, mul_assoc, mul_inv_cancel₀ hne, mul_one]

/-- **The public key** is `X25519(k, 9)` of RFC 7748. -/
theorem x25519Base_spec (n : List Byte) (hn : n.length = 32) :
    (x25519Base n).length = 32 ∧ leNum (x25519Base n) = (Spec.x25519 (Spec.decodeScalar n) 9).val := by
  have hr := scalarmultBase_rep (clamp n) (clamp_length n) (clamp31 n hn)
  rw [clamp_spec n hn] at hr
  have hne : Spec.decodeScalar n • Bp ≠ 0 := fun h => clamp_smul order_B n (by rw [h, nsmul_zero])
  have hx := x25519_rep good1 (u := ((9 : Nat) : ZMod P)) (by decide) rep_G9 (Spec.decodeScalar n) (scalar_lt n) (by
    have := hne; unfold Bp at this; exact this)
  have hx' : Rep (Spec.x25519 (Spec.decodeScalar n) ((9 : Nat) : ZMod P)) 1 (Spec.decodeScalar n • Bp) := by unfold Bp; exact hx
  unfold x25519Base
  dsimp only
  generalize scalarmultBase (clamp n) = A at hr ⊢
  generalize Spec.decodeScalar n • Bp = Q at hr hne hx'
  refine ⟨feTobytes_length _, ?_⟩
  match Q, hr, hne, hx' with
  | .zero, _, hne, _ => exact absurd rfl hne
  | .some u v h, hr, _, hx' =>
    obtain ⟨b, e⟩ := edToMont_spec hr.bY hr.bZ hr.z hr.y
    rw [feTobytes_spec _ (Fe.lt_mono b (by decide)), ← toF_val, e]
    obtain ⟨-, hx''⟩ := hx'
    rw [one_mul, mul_one] at hx''
    rw [← hx'']; rfl

end LC.Curve
