import Verif.Curve.GeCode
/-!
# Ed25519: canonical encodings and points of small order
-/
namespace LC.Curve

open Mont

theorem canonC_zero (s : List Byte) : ∀ n c, canonC s n c = 0 ↔ c = 0 ∧ ∀ i, 1 ≤ i → i ≤ n → s.getD i 0 = 255 := by
  intro n
  induction n with
  | zero => intro c; unfold canonC; exact ⟨fun h => ⟨h, fun i h1 h2 => by omega⟩, fun h => h.1⟩
  | succ n ih =>
    intro c
    rw [canonC, ih]
    have hor : ∀ a b : Byte, a ||| b = 0 ↔ a = 0 ∧ b = 0 := fun a b => UInt8.or_eq_zero_iff
    have hx : ∀ a : Byte, a ^^^ 0xff = 0 ↔ a = 255 := fun a => UInt8.xor_eq_zero_iff
    rw [hor, hx]
    constructor
    · rintro ⟨⟨h1, h2⟩, h3⟩
      refine ⟨h1, fun i a b => ?_⟩
      by_cases e : i = n + 1
      · rw [e]; exact h2
      · exact h3 i a (by omega)
    · rintro ⟨h1, h2⟩
      exact ⟨⟨h1, h2 _ (by omega) (by omega)⟩, fun i a b => h2 i a (by omega)⟩

theorem leNum_max : ∀ l : List Byte, leNum l + 1 = 256 ^ l.length ↔ ∀ b ∈ l, b = 255 := by
  intro l
  induction l with
  | nil => simp [leNum]
  | cons b l ih =>
    have hb := b.toNat_lt
    have hl := leNum_lt l
    rw [leNum, List.length_cons, Nat.pow_succ, List.forall_mem_cons, ← ih]
    have : b = 255 ↔ b.toNat = 255 := by rw [← UInt8.toNat_inj]; rfl
    rw [this]
    omega

theorem canonC_byte (c : Byte) : (UInt8.ofNat (((c.toNat + 2 ^ 32 - 1) % 2 ^ 32) >>> 8) &&& 1 = 1 ↔ c = 0) ∧
    (UInt8.ofNat (((c.toNat + 2 ^ 32 - 1) % 2 ^ 32) >>> 8) &&& 1 = 0 ↔ c ≠ 0) := by
  revert c; apply byte_forall; decide +kernel

theorem canonD_byte (c : Byte) : (UInt8.ofNat (((0xed - 1 + 2 ^ 32 - c.toNat) % 2 ^ 32) >>> 8) &&& 1 = 1 ↔ 237 ≤ c.toNat) ∧
    (UInt8.ofNat (((0xed - 1 + 2 ^ 32 - c.toNat) % 2 ^ 32) >>> 8) &&& 1 = 0 ↔ ¬ 237 ≤ c.toNat) := by
  revert c; apply byte_forall; decide +kernel

theorem top7 (c : Byte) : ((c &&& 0x7f) ^^^ 0x7f = 0 ↔ c.toNat % 128 = 127) := by
  revert c; apply byte_forall; decide +kernel

/-- `ge25519_is_canonical` returns 1 exactly for a y-coordinate below `p` (and 0 otherwise). -/
theorem isCanonicalY_spec (s : List Byte) (hs : s.length = 32) :
    isCanonicalY s = if leNum s % 2 ^ 255 < P then 1 else 0 := by
  obtain ⟨b0, m, b31, rfl, hm⟩ : ∃ b0 m b31, s = b0 :: (m ++ [b31]) ∧ m.length = 30 := by
    match s, hs with
    | b0 :: t, h =>
      have ht : t.length = 31 := by simpa using h
      refine ⟨b0, t.take 30, t.getD 30 0, ?_, by rw [List.length_take, ht]; rfl⟩
      congr 1
      conv_lhs => rw [← List.take_append_drop 30 t]
      congr 1
      rw [List.drop_eq_getElem_cons (by omega), List.drop_eq_nil_of_le (by omega)]
      congr 1
      rw [List.getD_eq_getElem?_getD, List.getElem?_eq_getElem (by omega)]; rfl
  have g0 : (b0 :: (m ++ [b31])).getD 0 0 = b0 := rfl
  have g31 : (b0 :: (m ++ [b31])).getD 31 0 = b31 := by
    rw [List.getD_cons_succ, List.getD_eq_getElem?_getD, List.getElem?_append_right (by omega), hm]; rfl
  have gm : (∀ i, 1 ≤ i → i ≤ 30 → (b0 :: (m ++ [b31])).getD i 0 = 255) ↔ ∀ b ∈ m, b = 255 := by
    constructor
    · intro h b hb
      obtain ⟨i, hi, rfl⟩ := List.mem_iff_getElem.mp hb
      have := h (i + 1) (by omega) (by omega)
      rw [List.getD_cons_succ, List.getD_eq_getElem?_getD, List.getElem?_append_left hi, List.getElem?_eq_getElem hi] at this
      exact this
    · intro h i h1 h2
      obtain ⟨j, rfl⟩ : ∃ j, i = j + 1 := ⟨i - 1, by omega⟩
      rw [List.getD_cons_succ, List.getD_eq_getElem?_getD, List.getElem?_append_left (by omega), List.getElem?_eq_getElem (by omega)]
      exact h _ (List.getElem_mem _)
  have hN : leNum (b0 :: (m ++ [b31])) % 2 ^ 255 = b0.toNat + 256 * (leNum m + 256 ^ 30 * (b31.toNat % 128)) := by
    rw [leNum, leNum_append, hm]
    simp only [leNum]
    have h1 := b0.toNat_lt
    have h2 := b31.toNat_lt
    have h3 := leNum_lt m
    rw [hm] at h3
    omega
  have key : leNum (b0 :: (m ++ [b31])) % 2 ^ 255 < P ↔ ¬ ((b31.toNat % 128 = 127 ∧ ∀ b ∈ m, b = 255) ∧ 237 ≤ b0.toNat) := by
    rw [hN, ← leNum_max, hm]
    have h1 := b0.toNat_lt
    have h3 := leNum_lt m
    rw [hm] at h3
    have h4 : b31.toNat % 128 < 128 := Nat.mod_lt _ (by decide)
    generalize b31.toNat % 128 = t at *
    have hP : P = 57896044618658097711785492504343953926634992332820282019728792003956564819949 := by decide +kernel
    rw [hP]
    omega
  unfold isCanonicalY
  dsimp only
  rw [g0, g31]
  have hc := canonC_zero (b0 :: (m ++ [b31])) 30 ((b31 &&& 0x7f) ^^^ 0x7f)
  rw [top7, gm] at hc
  generalize canonC (b0 :: (m ++ [b31])) 30 ((b31 &&& 0x7f) ^^^ 0x7f) = c at hc ⊢
  have hC := canonC_byte c
  have hD := canonD_byte b0
  rw [UInt8.and_assoc]
  by_cases hd : 237 ≤ b0.toNat
  · rw [hD.1.mpr hd]
    by_cases h0 : c = 0
    · rw [hC.1.mpr h0, if_neg (by rw [key]; exact fun h => h ⟨hc.mp h0, hd⟩)]; rfl
    · rw [hC.2.mpr h0, if_pos (key.mpr fun h => h0 (hc.mpr h.1))]; rfl
  · rw [hD.2.mpr hd, UInt8.and_zero, if_pos (key.mpr fun h => hd h.2)]; rfl

/-! Small order. -/

theorem double_zero (Q : Pt) : Q + Q = 0 ↔ xc Q = 0 := by
  constructor
  · intro h
    have : Q = -Q := eq_neg_of_add_eq_zero_left h
    have e := xc_neg Q
    rw [← this] at e
    have : 2 * xc Q = 0 := by linear_combination e
    exact (mul_eq_zero.mp this).resolve_left two_ne
  · intro h
    have : -Q = Q := ed.inj (by rw [show ex cC (-Q) = -xc Q from xc_neg Q, h, neg_zero]; exact h.symm) (yc_neg Q)
    calc Q + Q = -Q + Q := by rw [this]
      _ = 0 := neg_add_cancel Q

theorem xc_double (Q : Pt) : xc (Q + Q) = 0 ↔ xc Q = 0 ∨ yc Q = 0 := by
  have h := (ed.add Q Q).1
  have hd := ed.den_plus Q Q
  constructor
  · intro h0
    rw [show ex cC (Q + Q) = 0 from h0, zero_mul] at h
    have : 2 * (xc Q * yc Q) = 0 := by linear_combination -h
    exact mul_eq_zero.mp ((mul_eq_zero.mp this).resolve_left two_ne)
  · intro h0
    refine (mul_eq_zero.mp (h.trans ?_)).resolve_right hd
    rcases h0 with h0 | h0
    · rw [show ex cC Q = 0 from h0]; ring
    · rw [show ey Q = 0 from h0]; ring

theorem yc_double (Q : Pt) : yc (Q + Q) = 0 ↔ xc Q ^ 2 + yc Q ^ 2 = 0 := by
  have h := (ed.add Q Q).2
  have hd := ed.den_minus Q Q
  constructor
  · intro h0
    rw [show ey (Q + Q) = 0 from h0, zero_mul] at h
    linear_combination -h
  · intro h0
    refine (mul_eq_zero.mp (h.trans ?_)).resolve_right hd
    linear_combination h0

theorem two_zero_iff (Q : Pt) : 2 • Q = 0 ↔ xc Q = 0 := by rw [two_nsmul, double_zero]
theorem four_zero_iff (Q : Pt) : 4 • Q = 0 ↔ xc Q = 0 ∨ yc Q = 0 := by
  rw [show 4 = 2 * 2 from rfl, mul_nsmul, two_nsmul, two_nsmul, double_zero, xc_double]
theorem eight_zero (Q : Pt) : 8 • Q = 0 ↔ xc Q = 0 ∨ yc Q = 0 ∨ xc Q ^ 2 + yc Q ^ 2 = 0 := by
  rw [show 8 = 2 * 4 from rfl, mul_nsmul, two_nsmul, four_zero_iff, xc_double, yc_double, or_assoc]

theorem or01 {a b : Nat} (ha : a = 0 ∨ a = 1) (hb : b = 0 ∨ b = 1) : (a ||| b = 0 ∨ a ||| b = 1) ∧ (a ||| b = 1 ↔ a = 1 ∨ b = 1) := by
  rcases ha with h | h <;> rcases hb with h' | h' <;> subst h <;> subst h' <;> decide

/-- What `ge25519_has_small_order` tests, for any coordinates. -/
theorem smallOrder_raw (p : P3) (bX : p.X.lt mid) (bY : p.Y.lt mid) (bZ : p.Z.lt mid) :
    (smallOrder p = 0 ∨ smallOrder p = 1) ∧
      (smallOrder p = 1 ↔ toF p.X * (toF p.Z)⁻¹ = 0 ∨ toF p.Y * (toF p.Z)⁻¹ = 0 ∨
        toF p.Y * (toF p.Z)⁻¹ * ii = toF p.X * (toF p.Z)⁻¹ ∨ toF p.Y * (toF p.Z)⁻¹ * ii = -toF p.X) := by
  have hi := feInvert_spec p.Z (Fe.lt_mono bZ (by decide))
  have hv := feInvert_inv p.Z (Fe.lt_mono bZ (by decide))
  have mx := feMul_spec p.X (feInvert p.Z) (Fe.lt_mono bX (by decide)) (Fe.lt_mono hi.1 (by decide))
  have my := feMul_spec p.Y (feInvert p.Z) (Fe.lt_mono bY (by decide)) (Fe.lt_mono hi.1 (by decide))
  have mn := feNeg_spec p.X (Fe.lt_mono bX (by decide))
  have ms := feMul_spec _ feSqrtm1 (Fe.lt_mono my.1 (by decide)) (Fe.lt_mono feSqrtm1_spec.1 (by decide))
  have s1 := feSub_spec _ _ _ ms.1 (Fe.lt_mono mx.1 (by decide)) (by decide)
  have s2 := feSub_spec _ _ _ ms.1 (Fe.lt_mono mn.1 (by decide)) (by decide)
  have z1 := (iszero01 _ (Fe.lt_mono mx.1 (by decide))).1
  have z2 := (iszero01 _ (Fe.lt_mono my.1 (by decide))).1
  have z3 := (iszero01 _ (Fe.lt_mono s1.1 (by decide))).1
  have z4 := (iszero01 _ (Fe.lt_mono s2.1 (by decide))).1
  rw [s1.2, ms.2, my.2, mx.2, hv, feSqrtm1_spec.2, sub_eq_zero] at z3
  rw [s2.2, ms.2, my.2, mn.2, hv, feSqrtm1_spec.2, sub_eq_zero] at z4
  rw [mx.2, hv] at z1
  rw [my.2, hv] at z2
  unfold smallOrder
  dsimp only
  have o1 := or01 (feIszero_le (feMul p.X (feInvert p.Z))) (feIszero_le (feMul p.Y (feInvert p.Z)))
  have o2 := or01 o1.1 (feIszero_le (feSub (feMul (feMul p.Y (feInvert p.Z)) feSqrtm1) (feMul p.X (feInvert p.Z))))
  have o3 := or01 o2.1 (feIszero_le (feSub (feMul (feMul p.Y (feInvert p.Z)) feSqrtm1) (feNeg p.X)))
  exact ⟨o3.1, by rw [o3.2, o2.2, o1.2, z1, z2, z3, z4, or_assoc, or_assoc]⟩

/-- For a point with `Z = 1` (a decoded one) the test is exact. -/
theorem smallOrder_exact {p : P3} {Q : Pt} (h : R3 p Q) (hz : p.Z = feOne) :
    smallOrder p = if 8 • Q = 0 then 1 else 0 := by
  obtain ⟨h1, h2⟩ := smallOrder_raw p h.bX h.bY (Fe.lt_mono h.bZ (by decide))
  have hx := h.x
  have hy := h.y
  rw [hz, feOne_spec.2, mul_one] at hx hy
  rw [hz, feOne_spec.2, inv_one, mul_one, mul_one, hx, hy] at h2
  have : smallOrder p = 1 ↔ 8 • Q = 0 := by
    rw [h2, eight_zero]
    refine or_congr_right (or_congr_right ?_)
    have hp : (yc Q * ii - xc Q) * (yc Q * ii + xc Q) = -(xc Q ^ 2 + yc Q ^ 2) := by linear_combination yc Q ^ 2 * ed.hi
    rw [← neg_eq_zero, ← hp, mul_eq_zero, sub_eq_zero, add_eq_zero_iff_eq_neg]
  split
  · next h => exact this.mpr h
  · next h => exact h1.resolve_right fun e => h (this.mp e)

end LC.Curve
