import Verif.Curve.Card
import Verif.Curve.Props
/-!
# X25519 is multiplication in the group; both sides of a key exchange agree (C72)
-/
namespace LC.Curve.Mont

open WeierstrassCurve.Affine

/-! ### Points whose order divides 8 -/

theorem A_disc_notSq : ¬ IsSquare (cA ^ 2 - 4) := by
  have h : cA ^ 2 - 4 = ((236839902240 : Nat) : ZMod P) := by push_cast; norm_num
  rw [h]; exact notSq _ (by decide +kernel)

theorem two_sub_A_notSq : ¬ IsSquare (2 - cA) := by
  have h : 2 - cA = ((P - 486660 : Nat) : ZMod P) := by
    rw [Nat.cast_sub (by decide), ZMod.natCast_self]; push_cast; norm_num
  rw [h]; exact notSq _ (by decide +kernel)

/-- A root of `A + 2`. -/
abbrev cS : ZMod P := ((48802004052532134862652268456126542835229456083994414501085850622543968879637 : Nat) : ZMod P)
/-- The other value of `u + 1/u` for which `x(2 Q) = 1`. -/
abbrev cW : ZMod P := ((18188081132251925698266448096434822182811072497651735037285882762825191880626 : Nat) : ZMod P)

theorem eqP (a b : Nat) (h : a % P = b % P) : (a : ZMod P) = b := (ZMod.natCast_eq_natCast_iff' a b P).mpr h

theorem cS_sq : cS ^ 2 = cA + 2 := by
  have := eqP (48802004052532134862652268456126542835229456083994414501085850622543968879637 * 48802004052532134862652268456126542835229456083994414501085850622543968879637) (486662 + 2) (by decide +kernel)
  rw [Nat.cast_mul, Nat.cast_add] at this
  rw [pow_two, this]
  norm_cast

theorem cW_eq : cW + 2 * cS = 2 := by
  have := eqP (18188081132251925698266448096434822182811072497651735037285882762825191880626 + 2 * 48802004052532134862652268456126542835229456083994414501085850622543968879637) 2 (by decide +kernel)
  rw [Nat.cast_add, Nat.cast_mul] at this
  have h2 : ((2 : Nat) : ZMod P) = 2 := by norm_cast
  rw [h2] at this
  exact this

theorem u8_sum : (u8a : ZMod P) + u8b = 2 + 2 * cS := by
  have := eqP (u8a + u8b) (2 + 2 * 48802004052532134862652268456126542835229456083994414501085850622543968879637) (by decide +kernel)
  rw [Nat.cast_add, Nat.cast_add, Nat.cast_mul] at this
  have h2 : ((2 : Nat) : ZMod P) = 2 := by norm_cast
  rw [h2] at this
  exact this

theorem u8_prod : (u8a : ZMod P) * u8b = 1 := by
  have := eqP (u8a * u8b) 1 (by decide +kernel)
  rw [Nat.cast_mul, Nat.cast_one] at this
  exact this

theorem cW_notSq : ¬ IsSquare (cW ^ 2 - 4) := by
  have h : cW ^ 2 - 4 = ((14856279910349605081280299881395334804609297657786658129414739047344204649203 : Nat) : ZMod P) := by
    have := eqP (18188081132251925698266448096434822182811072497651735037285882762825191880626 * 18188081132251925698266448096434822182811072497651735037285882762825191880626) (14856279910349605081280299881395334804609297657786658129414739047344204649203 + 4) (by decide +kernel)
    rw [Nat.cast_mul, Nat.cast_add] at this
    rw [pow_two, this]
    have h4 : ((4 : Nat) : ZMod P) = 4 := by norm_cast
    rw [h4, add_sub_cancel_right]
  rw [h]; exact notSq _ (by decide +kernel)

theorem four_ne : (4 : ZMod P) ≠ 0 := by
  have : (4 : ZMod P) = 2 * 2 := by norm_num
  rw [this]; exact mul_ne_zero two_ne two_ne

theorem sq_of_mul {d z w : ZMod P} (hz : z ≠ 0) (h : w ^ 2 = d * z ^ 2) : IsSquare d :=
  ⟨w / z, by rw [← pow_two, div_pow, h, mul_div_cancel_right₀ _ (pow_ne_zero _ hz)]⟩

theorem quad_ne {X Z : ZMod P} (h : ¬ (X = 0 ∧ Z = 0)) : X ^ 2 + cA * X * Z + Z ^ 2 ≠ 0 := by
  intro hc
  by_cases hz : Z = 0
  · refine h ⟨?_, hz⟩
    rw [hz] at hc
    have : X ^ 2 = 0 := by linear_combination hc
    exact pow_eq_zero_iff (two_ne_zero) |>.mp this
  · exact A_disc_notSq (sq_of_mul hz (w := 2 * X + cA * Z) (by linear_combination 4 * hc))

section
variable {B : ZMod P}

/-- The doubling in closed form. -/
theorem rep_double' (g : Good cA B) {X Z : ZMod P} {Q : (W cA B).Point} (h : Rep X Z Q) :
    Rep ((X ^ 2 - Z ^ 2) ^ 2) (4 * X * Z * (X ^ 2 + cA * X * Z + Z ^ 2)) (2 • Q) := by
  have := rep_double g a24_eq Q h
  rw [two_nsmul]
  have ha := a24_eq
  have e1 : (X + Z) ^ 2 * (X - Z) ^ 2 = (X ^ 2 - Z ^ 2) ^ 2 := by ring
  have e2 : ((X + Z) ^ 2 - (X - Z) ^ 2) * ((X + Z) ^ 2 + 121665 * ((X + Z) ^ 2 - (X - Z) ^ 2)) =
      4 * X * Z * (X ^ 2 + cA * X * Z + Z ^ 2) := by
    linear_combination (4 * X ^ 2 * Z ^ 2) * ha
  rw [e1, e2] at this
  exact this

theorem rep_ne {X Z : ZMod P} {Q : (W cA B).Point} (h : Rep X Z Q) : ¬ (X = 0 ∧ Z = 0) := fun hc => by
  match Q, h with
  | .zero, h => exact h.2 hc.1
  | .some _ _ _, h => exact h.1 hc.2

theorem double_zero_iff (g : Good cA B) {X Z : ZMod P} {Q : (W cA B).Point} (h : Rep X Z Q) :
    2 • Q = 0 ↔ X = 0 ∨ Z = 0 := by
  rw [rep_eq_zero (rep_double' g h)]
  constructor
  · intro hc
    rcases mul_eq_zero.mp hc with hc | hc
    · rcases mul_eq_zero.mp hc with hc | hc
      · exact Or.inl ((mul_eq_zero.mp hc).resolve_left four_ne)
      · exact Or.inr hc
    · exact absurd hc (quad_ne (rep_ne h))
  · rintro (h | h) <;> rw [h] <;> ring

/-- **The points of order dividing 8 are the listed ones.** -/
theorem eight_zero_iff (g : Good cA B) {u : ZMod P} {D : (W cA B).Point} (hD : Rep u 1 D) :
    8 • D = 0 ↔ u = 0 ∨ u = 1 ∨ u = -1 ∨ u = (u8a : ZMod P) ∨ u = (u8b : ZMod P) := by
  have h1 := rep_double' g hD
  have h2 := rep_double' g h1
  have e8 : 8 • D = 2 • 2 • 2 • D := by rw [smul_smul, smul_smul, show (2 * 2 * 2 : Nat) = 8 from rfl]
  rw [e8, double_zero_iff g h2]
  have hz2 := (rep_eq_zero h2).symm.trans (double_zero_iff g h1)
  rw [hz2]
  have hz1 := (rep_eq_zero h1).symm.trans (double_zero_iff g hD)
  rw [hz1]
  have hx1 : (u ^ 2 - 1 ^ 2) ^ 2 = 0 ↔ u = 1 ∨ u = -1 := by
    rw [pow_eq_zero_iff two_ne_zero, sub_eq_zero, sq_eq_sq_iff_eq_or_eq_neg]
  have hq : ((u ^ 2 - 1 ^ 2) ^ 2) ^ 2 - (4 * u * 1 * (u ^ 2 + cA * u * 1 + 1 ^ 2)) ^ 2 = 0 ↔
      (u = (u8a : ZMod P) ∨ u = (u8b : ZMod P)) := by
    have hfac : ((u ^ 2 - 1 ^ 2) ^ 2) ^ 2 - (4 * u * 1 * (u ^ 2 + cA * u * 1 + 1 ^ 2)) ^ 2 =
        ((u + 1) ^ 4 - 4 * (2 - cA) * u ^ 2) * ((u - u8a) * (u - u8b) * (u ^ 2 - cW * u + 1)) := by
      have e1 : (u - (u8a : ZMod P)) * (u - u8b) = u ^ 2 - (2 + 2 * cS) * u + 1 := by
        linear_combination (-u) * u8_sum + u8_prod
      have e2 : cW = 2 - 2 * cS := by linear_combination cW_eq
      rw [e1, e2]
      linear_combination (4 * u ^ 2 * ((u + 1) ^ 4 - 4 * (2 - cA) * u ^ 2)) * cS_sq
    rw [hfac]
    constructor
    · intro h
      rcases mul_eq_zero.mp h with h | h
      · exfalso
        by_cases hu : u = 0
        · rw [hu] at h
          exact one_ne_zero (by linear_combination h : (1 : ZMod P) = 0)
        · exact two_sub_A_notSq (sq_of_mul (mul_ne_zero two_ne hu) (w := (u + 1) ^ 2) (by linear_combination h))
      · rcases mul_eq_zero.mp h with h | h
        · rcases mul_eq_zero.mp h with h | h
          · exact Or.inl (sub_eq_zero.mp h)
          · exact Or.inr (sub_eq_zero.mp h)
        · exfalso
          exact cW_notSq ⟨2 * u - cW, by linear_combination -4 * h⟩
    · rintro (h | h) <;> rw [h] <;> ring
  rw [pow_eq_zero_iff two_ne_zero, hq, hx1]
  constructor
  · rintro (h | (h | h) | h | h)
    · exact Or.inr (Or.inr (Or.inr h))
    · exact Or.inr (Or.inl h)
    · exact Or.inr (Or.inr (Or.inl h))
    · exact Or.inl h
    · exact absurd h one_ne_zero
  · rintro (h | h | h | h)
    · exact Or.inr (Or.inr (Or.inl h))
    · exact Or.inr (Or.inl (Or.inl h))
    · exact Or.inr (Or.inl (Or.inr h))
    · exact Or.inl h

end

/-! ### Every field element is the u-coordinate of a point of one of the two curves -/

/-- A group all elements of which are killed by 8 times a prime above `2^252`. -/
structure Grp (B : ZMod P) (N : Nat) : Prop where
  good : Good cA B
  prime : N.Prime
  big : 2 ^ 252 < N
  kill : ∀ D : (W cA B).Point, (8 * N) • D = 0

theorem grp1 : Grp 1 L := by
  refine ⟨good1, L_prime, by decide +kernel, fun D => ?_⟩
  have hf := (card_le 1).1
  rw [← addOrderOf_dvd_iff_nsmul_eq_zero, ← card_curve]
  exact addOrderOf_dvd_natCard D

theorem grp2 : Grp c2 T := by
  refine ⟨good2, T_prime, by decide +kernel, fun D => ?_⟩
  have hf := (card_le c2).1
  rw [← addOrderOf_dvd_iff_nsmul_eq_zero]
  exact (addOrderOf_dvd_natCard D).trans card_twist

theorem exists_point (u : ZMod P) : (∃ D : (W cA 1).Point, Rep u 1 D) ∨ ∃ D : (W cA c2).Point, Rep u 1 D := by
  rcases sq_or (u ^ 3 + cA * u ^ 2 + u) with ⟨y, h⟩ | ⟨y, h⟩
  · left
    exact ⟨.some u y (good1.nonsingular (by linear_combination -h)), one_ne_zero, by rw [one_mul, mul_one]⟩
  · right
    refine ⟨.some (c2 * u) (c2 * y) (good2.nonsingular (by linear_combination (-c2 ^ 2) * h)), one_ne_zero, by rw [mul_one]⟩

theorem rep_unique {B u u' : ZMod P} (g : Good cA B) {D : (W cA B).Point} (h : Rep u 1 D) (h' : Rep u' 1 D) : u = u' := by
  match D, h, h' with
  | .zero, h, _ => exact absurd h.1 one_ne_zero
  | .some x _ _, h, h' => exact mul_left_cancel₀ g.b (h.2.trans h'.2.symm)

theorem pow_inv (z : ZMod P) (hz : z ≠ 0) : z ^ (P - 2) = z⁻¹ := by
  have h := ZMod.pow_card_sub_one_eq_one hz
  have e : P - 1 = P - 2 + 1 := by decide
  rw [e, pow_succ] at h
  exact eq_inv_of_mul_eq_one_left h

/-- X25519 computes the u-coordinate of the multiple, if that is not the point at infinity. -/
theorem x25519_rep {B u : ZMod P} (g : Good cA B) (hu : u ≠ 0) {D : (W cA B).Point} (hD : Rep u 1 D) (k : Nat) (hk : k < 2 ^ 255)
    (h0 : k • D ≠ 0) : Rep (Spec.x25519 k u) 1 (k • D) := by
  have h := final_rep g a24_eq hu hD k 255 hk
  unfold Spec.x25519
  dsimp only
  generalize Spec.final u k 255 = s at *
  have hz : s.z2 ≠ 0 := fun hc => h0 ((rep_eq_zero h).mpr hc)
  rw [pow_inv _ hz]
  generalize k • D = Q at *
  match Q, h with
  | .zero, h => exact absurd rfl h0
  | .some x _ _, h =>
    refine ⟨one_ne_zero, ?_⟩
    rw [← mul_assoc, h.2, mul_assoc, mul_inv_cancel₀ hz]

/-- And zero if it is. -/
theorem x25519_infinity {B u : ZMod P} (g : Good cA B) (hu : u ≠ 0) {D : (W cA B).Point} (hD : Rep u 1 D) (k : Nat) (hk : k < 2 ^ 255)
    (h0 : k • D = 0) : Spec.x25519 k u = 0 := by
  have h := final_rep g a24_eq hu hD k 255 hk
  unfold Spec.x25519
  dsimp only
  rw [(rep_eq_zero h).mp h0, zero_pow (by decide), mul_zero]

theorem scalar_form (n : List Byte) : ∃ m, Spec.decodeScalar n = 8 * m ∧ 0 < m ∧ m < 2 ^ 252 := by
  unfold Spec.decodeScalar
  have := Nat.mod_lt (leNum n) (show 0 < 2 ^ 254 by decide)
  refine ⟨2 ^ 251 + leNum n % 2 ^ 254 / 8, by ring, by positivity, ?_⟩
  generalize leNum n % 2 ^ 254 = v at *
  norm_num at *
  omega

theorem scalar_lt (n : List Byte) : Spec.decodeScalar n < 2 ^ 255 := by
  obtain ⟨m, h, _, h2⟩ := scalar_form n
  rw [h]; norm_num at *; omega

/-- Multiples by clamped scalars stay away from the points of small order. -/
theorem smul_big {B : ZMod P} {N : Nat} (G : Grp B N) {D : (W cA B).Point} (h8 : 8 • D ≠ 0) (n : List Byte) :
    Spec.decodeScalar n • D ≠ 0 ∧ 8 • (Spec.decodeScalar n • D) ≠ 0 := by
  obtain ⟨m, h, hp, hm⟩ := scalar_form n
  have hN : addOrderOf (8 • D) = N := by
    have : Fact N.Prime := ⟨G.prime⟩
    refine addOrderOf_eq_prime ?_ h8
    rw [smul_smul, Nat.mul_comm]
    exact G.kill D
  have hlt : m < N := Nat.lt_trans hm G.big
  have hnd : ¬ N ∣ m := fun hc => absurd (Nat.le_of_dvd hp hc) (by omega)
  have hn8 : ¬ N ∣ 8 := fun hc => by
    have := Nat.le_of_dvd (by decide) hc
    have := G.big
    norm_num at this
    omega
  have e : Spec.decodeScalar n • D = m • (8 • D) := by rw [h, smul_smul, Nat.mul_comm]
  refine ⟨?_, ?_⟩ <;> rw [e]
  · rw [Ne, ← addOrderOf_dvd_iff_nsmul_eq_zero, hN]; exact hnd
  · rw [smul_smul, Ne, ← addOrderOf_dvd_iff_nsmul_eq_zero, hN]
    exact fun hc => (G.prime.dvd_mul.mp hc).elim hn8 hnd

/-- The refused u-coordinates. -/
def Small (u : ZMod P) : Prop := u = 0 ∨ u = 1 ∨ u = -1 ∨ u = (u8a : ZMod P) ∨ u = (u8b : ZMod P)

theorem agree {B : ZMod P} {N : Nat} (G : Grp B N) {u : ZMod P} {D : (W cA B).Point} (hD : Rep u 1 D) (hu : ¬ Small u) (n m : List Byte) :
    ¬ Small (Spec.x25519 (Spec.decodeScalar n) u) ∧
      Spec.x25519 (Spec.decodeScalar m) (Spec.x25519 (Spec.decodeScalar n) u) =
        Spec.x25519 (Spec.decodeScalar n) (Spec.x25519 (Spec.decodeScalar m) u) ∧
      ¬ Small (Spec.x25519 (Spec.decodeScalar m) (Spec.x25519 (Spec.decodeScalar n) u)) := by
  have key : ∀ (v : ZMod P) (E : (W cA B).Point), Rep v 1 E → ¬ Small v → ∀ k,
      Rep (Spec.x25519 (Spec.decodeScalar k) v) 1 (Spec.decodeScalar k • E) ∧ ¬ Small (Spec.x25519 (Spec.decodeScalar k) v) := by
    intro v E hE hv k
    have h8 : 8 • E ≠ 0 := fun hc => hv ((eight_zero_iff G.good hE).mp hc)
    obtain ⟨b1, b2⟩ := smul_big G h8 k
    have hr := x25519_rep G.good (fun hc => hv (Or.inl hc)) hE _ (scalar_lt k) b1
    exact ⟨hr, fun hc => b2 ((eight_zero_iff G.good hr).mpr hc)⟩
  obtain ⟨rn, sn⟩ := key u D hD hu n
  obtain ⟨rm, sm⟩ := key u D hD hu m
  obtain ⟨rmn, smn⟩ := key _ _ rn sn m
  obtain ⟨rnm, _⟩ := key _ _ rm sm n
  refine ⟨sn, rep_unique G.good rmn ?_, smn⟩
  rw [smul_smul, Nat.mul_comm, ← smul_smul]
  exact rnm

theorem agree_all (u : ZMod P) (hu : ¬ Small u) (n m : List Byte) :
    ¬ Small (Spec.x25519 (Spec.decodeScalar n) u) ∧
      Spec.x25519 (Spec.decodeScalar m) (Spec.x25519 (Spec.decodeScalar n) u) =
        Spec.x25519 (Spec.decodeScalar n) (Spec.x25519 (Spec.decodeScalar m) u) ∧
      ¬ Small (Spec.x25519 (Spec.decodeScalar m) (Spec.x25519 (Spec.decodeScalar n) u)) := by
  rcases exists_point u with ⟨D, hD⟩ | ⟨D, hD⟩
  · exact agree grp1 hD hu n m
  · exact agree grp2 hD hu n m

end LC.Curve.Mont

namespace LC.Curve

theorem decodeU_val {q : List Byte} {v : ZMod P} (h : leNum q = v.val) : Spec.decodeU q = v := by
  unfold Spec.decodeU
  have : v.val < P := ZMod.val_lt v
  rw [h, Nat.mod_eq_of_lt (Nat.lt_trans this (by decide)), ZMod.natCast_val, ZMod.cast_id]

/-- **C72.** Key agreement: from any u-coordinate that is not refused (in particular the base point)
both sides compute public values that the other side does not refuse, and the two shared secrets
are the same bytes, and not zero.  For all pairs of secret keys. -/
theorem x25519_agree (n m p : List Byte) (hn : n.length = 32) (hm : m.length = 32) (hp : p.length = 32)
    (ha : scalarmult n p ≠ none) :
    ∃ qn qm s, scalarmult n p = some qn ∧ scalarmult m p = some qm ∧
      scalarmult m qn = some s ∧ scalarmult n qm = some s ∧ ∃ b ∈ s, b ≠ 0 := by
  have hsm : ∀ k q, q.length = 32 → (scalarmult k q = none ↔ Mont.Small (Spec.decodeU q)) := fun k q hq => x25519_refuses k q hq
  have hu : ¬ Mont.Small (Spec.decodeU p) := fun hc => ha ((hsm n p hp).mpr hc)
  have get : ∀ k q, k.length = 32 → q.length = 32 → ¬ Mont.Small (Spec.decodeU q) →
      ∃ r, scalarmult k q = some r ∧ r.length = 32 ∧ leNum r = (Spec.x25519 (Spec.decodeScalar k) (Spec.decodeU q)).val ∧
        Spec.decodeU r = Spec.x25519 (Spec.decodeScalar k) (Spec.decodeU q) := by
    intro k q hk hq hs
    rcases x25519_rfc7748 k q hk hq with h | ⟨r, h1, h2, h3⟩
    · exact absurd ((hsm k q hq).mp h) hs
    · exact ⟨r, h1, h2, h3, decodeU_val h3⟩
  obtain ⟨a1, a2, a3⟩ := Mont.agree_all _ hu n m
  obtain ⟨b1, _, _⟩ := Mont.agree_all _ hu m n
  obtain ⟨qn, n1, n2, n3, n4⟩ := get n p hn hp hu
  obtain ⟨qm, m1, m2, m3, m4⟩ := get m p hm hp hu
  obtain ⟨s, s1, s2, s3, s4⟩ := get m qn hm n2 (by rw [n4]; exact a1)
  obtain ⟨s', t1, t2, t3, t4⟩ := get n qm hn m2 (by rw [m4]; exact b1)
  have hss : s = s' := by
    apply leNum_inj
    · rw [s2, t2]
    · rw [s3, t3, n4, m4, a2]
  refine ⟨qn, qm, s, n1, m1, s1, by rw [hss]; exact t1, ?_⟩
  by_contra hc
  push Not at hc
  have hz : ∀ l : List Byte, (∀ b ∈ l, b = 0) → leNum l = 0 := by
    intro l
    induction l with
    | nil => intro _; rfl
    | cons b l ih =>
      intro h
      rw [leNum, h b (List.mem_cons_self ..), ih (fun c hc => h c (List.mem_cons_of_mem _ hc))]
      rfl
  have h0 := hz s hc
  rw [s3, n4] at h0
  exact a3 (Or.inl ((ZMod.val_eq_zero _).mp h0))

/-- The base point is not refused. -/
example (n : List Byte) : scalarmult n (9 :: List.replicate 31 0) ≠ none := by
  have h : hasSmallOrder (9 :: List.replicate 31 0) = 0 := by decide +kernel
  unfold scalarmult
  rw [if_neg (by rw [h]; decide)]
  exact fun hc => by cases hc

/-- **C72.** The X25519 function is multiplication in Mathlib's group of the curve
`v^2 = u^3 + 486662 u^2 + u`, for u-coordinates of points `D` on it; `8 L` is the number of
points. -/
theorem x25519_group (u v : ZMod P) (h : v ^ 2 = u ^ 3 + 486662 * u ^ 2 + u) (n : List Byte) :
    ∃ D : (Mont.W Mont.cA 1).Point, (∃ hns, D = .some u v hns) ∧
      (u ≠ 0 → Spec.decodeScalar n • D ≠ 0 → ∃ v' hns, Spec.decodeScalar n • D =
        .some (Spec.x25519 (Spec.decodeScalar n) u) v' hns) ∧
      (u ≠ 0 → Spec.decodeScalar n • D = 0 → Spec.x25519 (Spec.decodeScalar n) u = 0) := by
  have hn : (Mont.W Mont.cA 1).Nonsingular u v := Mont.good1.nonsingular (by
    push_cast; linear_combination h)
  have hr : Mont.Rep (B := 1) u 1 (.some u v hn : (Mont.W Mont.cA 1).Point) := ⟨one_ne_zero, by rw [one_mul, mul_one]⟩
  refine ⟨.some u v hn, ⟨hn, rfl⟩, fun hu h0 => ?_, fun hu h0 => Mont.x25519_infinity Mont.good1 hu hr _ (Mont.scalar_lt n) h0⟩
  have := Mont.x25519_rep Mont.good1 hu hr _ (Mont.scalar_lt n) h0
  generalize Spec.decodeScalar n • (WeierstrassCurve.Affine.Point.some u v hn : (Mont.W Mont.cA 1).Point) = Q at *
  match Q, this with
  | .zero, _ => exact absurd rfl h0
  | .some x y hq, hx =>
    have e : Spec.x25519 (Spec.decodeScalar n) u = x := by
      have := hx.2
      rwa [one_mul, mul_one] at this
    subst e
    exact ⟨y, hq, rfl⟩

end LC.Curve
