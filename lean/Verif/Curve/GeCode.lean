import Verif.Curve.GeMul
/-!
# Ed25519: encoding and decoding of points, small order
-/
namespace LC.Curve

open Mont

theorem toF_val (f : Fe) : (toF f).val = val f % P := ZMod.val_natCast P (val f)

theorem isneg_eq (f : Fe) (h : f.lt (2 ^ 64)) : feIsnegative f = (toF f).val % 2 := by
  rw [feIsnegative_spec f h, toF_val]

theorem neg_parity (x : ZMod P) (hx : x ≠ 0) : (-x).val % 2 = 1 - x.val % 2 := by
  have : NeZero x := ⟨hx⟩
  rw [ZMod.val_neg_of_ne_zero]
  have h1 : x.val < P := ZMod.val_lt x
  have h2 : x.val ≠ 0 := fun h => hx ((ZMod.val_eq_zero x).mp h)
  have h3 : P % 2 = 1 := by decide
  omega

/-! Encoding. -/

/-- The 32 byte encoding of RFC 8032, section 5.1.2, as a number: `y` and the low bit of `x`. -/
def encNum (x y : ZMod P) : Nat := y.val + 2 ^ 255 * (x.val % 2)

theorem P_lt : P < 2 ^ 255 := by decide

theorem encNum_inj {x y x' y' : ZMod P} (h : encNum x y = encNum x' y') : y = y' ∧ x.val % 2 = x'.val % 2 := by
  unfold encNum at h
  have h1 : y.val < P := ZMod.val_lt y
  have h2 : y'.val < P := ZMod.val_lt y'
  have h3 := P_lt
  have : y.val = y'.val := by omega
  exact ⟨ZMod.val_injective P this, by omega⟩

theorem set31 (s : List Byte) (hs : s.length = 32) (b : Byte) : leNum (s.set 31 b) = leNum (s.take 31) + 256 ^ 31 * b.toNat := by
  have e : s.set 31 b = s.take 31 ++ [b] := by
    rw [List.set_eq_take_append_cons_drop, if_pos (by rw [hs]; decide), List.drop_eq_nil_of_le (by rw [hs])]
  rw [e, leNum_append, List.length_take, hs]
  simp only [leNum]
  rfl

theorem split31 (s : List Byte) (hs : s.length = 32) : leNum s = leNum (s.take 31) + 256 ^ 31 * (s.getD 31 0).toNat := by
  have := set31 s hs (s.getD 31 0)
  rw [← this]
  congr 1
  apply List.ext_getElem
  · simp
  · intro i h1 h2
    rw [List.getElem_set]
    split
    · next h => subst h; rw [List.getD_eq_getElem?_getD, List.getElem?_eq_getElem h1]; rfl
    · rfl

theorem take31_lt (s : List Byte) (hs : s.length = 32) : leNum (s.take 31) < 256 ^ 31 := by
  have := leNum_lt (s.take 31)
  rw [List.length_take, hs] at this
  exact this

theorem byte_xor_top (b : Byte) (hb : b.toNat < 128) (n : Nat) (hn : n = 0 ∨ n = 1) :
    (b ^^^ UInt8.ofNat (n <<< 7)).toNat = b.toNat + 128 * n := by
  rcases hn with h | h <;> subst h
  · simp
  · have : ∀ b : Byte, b.toNat < 128 → (b ^^^ UInt8.ofNat (1 <<< 7)).toNat = b.toNat + 128 * 1 := by
      apply byte_forall
      decide +kernel
    exact this b hb

theorem tobytes_length (h : P3) : h.tobytes.length = 32 := by
  unfold P3.tobytes
  rw [List.length_set, feTobytes_length]

/-- `ge25519_p3_tobytes` writes the encoding of RFC 8032. -/
theorem tobytes_spec {h : P3} {Q : Pt} (hr : R3 h Q) : leNum h.tobytes = encNum (xc Q) (yc Q) := by
  have hi := feInvert_spec h.Z (Fe.lt_mono hr.bZ (by decide))
  have hv := feInvert_inv h.Z (Fe.lt_mono hr.bZ (by decide))
  have mx := feMul_spec h.X (feInvert h.Z) (Fe.lt_mono hr.bX (by decide)) (Fe.lt_mono hi.1 (by decide))
  have my := feMul_spec h.Y (feInvert h.Z) (Fe.lt_mono hr.bY (by decide)) (Fe.lt_mono hi.1 (by decide))
  have ex' : toF (feMul h.X (feInvert h.Z)) = xc Q := by rw [mx.2, hv, hr.x, mul_assoc, mul_inv_cancel₀ hr.z, mul_one]
  have ey' : toF (feMul h.Y (feInvert h.Z)) = yc Q := by rw [my.2, hv, hr.y, mul_assoc, mul_inv_cancel₀ hr.z, mul_one]
  have hn := isneg_eq _ (Fe.lt_mono mx.1 (by decide))
  rw [ex'] at hn
  have hb := feTobytes_spec _ (Fe.lt_mono my.1 (by decide))
  rw [← toF_val, ey'] at hb
  have hl := feTobytes_length (feMul h.Y (feInvert h.Z))
  unfold P3.tobytes
  dsimp only
  rw [set31 _ hl, hn]
  have hs := split31 _ hl
  have ht := take31_lt _ hl
  have hy : (yc Q).val < P := ZMod.val_lt _
  have hp := P_lt
  have hlow : ((feTobytes (feMul h.Y (feInvert h.Z))).getD 31 0).toNat < 128 := by
    rw [hb] at hs
    by_contra hc
    have : 256 ^ 31 * 128 ≤ 256 ^ 31 * ((feTobytes (feMul h.Y (feInvert h.Z))).getD 31 0).toNat := Nat.mul_le_mul_left _ (by omega)
    have e : (256 : Nat) ^ 31 * 128 = 2 ^ 255 := by decide
    omega
  rw [byte_xor_top _ hlow _ (by omega), Nat.mul_add, ← Nat.add_assoc, ← hs, hb]
  unfold encNum
  rw [← Nat.mul_assoc, show (256 : Nat) ^ 31 * 128 = 2 ^ 255 by decide]

/-! Square roots. -/

theorem sq_one {e : ZMod P} (h : e ^ 2 = 1) : e = 1 ∨ e = -1 := sq_eq_one_iff_of_ne_zero_or e h
where
  sq_eq_one_iff_of_ne_zero_or (e : ZMod P) (h : e ^ 2 = 1) : e = 1 ∨ e = -1 := by
    have : (e - 1) * (e + 1) = 0 := by linear_combination h
    rcases mul_eq_zero.mp this with h | h
    · left; linear_combination h
    · right; linear_combination h

theorem root_core {u v X t w : ZMod P} (n : Nat) (hn : 8 * n + 4 = P - 1) (hv : v ≠ 0) (hw : w ≠ 0) (ht : t = u * v * w ^ 2)
    (hX : v * X ^ 2 = u * (t * (t ^ n) ^ 2)) : (v * X ^ 2 = u ∨ v * X ^ 2 = -u) ↔ ∃ x, v * x ^ 2 = u := by
  constructor
  · rintro (h | h)
    · exact ⟨X, h⟩
    · exact ⟨ii * X, by linear_combination (-1) * h + v * X ^ 2 * ed.hi⟩
  · rintro ⟨x, hx⟩
    by_cases h0 : t = 0
    · left
      rw [hX, h0]
      rw [ht] at h0
      have : u = 0 := by
        rcases mul_eq_zero.mp h0 with h | h
        · exact (mul_eq_zero.mp h).resolve_right hv
        · exact absurd (pow_eq_zero_iff two_ne_zero |>.mp h) hw
      rw [this, zero_mul]
    · have hs : t = (v * x * w) ^ 2 := by rw [ht, ← hx]; ring
      have hs0 : v * x * w ≠ 0 := fun h => h0 (by rw [hs, h]; ring)
      have e1 : (t * (t ^ n) ^ 2) ^ 2 = 1 := by
        have := ZMod.pow_card_sub_one_eq_one hs0
        rw [← hn] at this
        rw [hs, ← this]; ring
      rcases sq_one e1 with h | h
      · left; rw [hX, h, mul_one]
      · right; rw [hX, h]; ring

/-- The curve equation solved for `x²`. -/
theorem curve_iff (x y : ZMod P) : -x ^ 2 + y ^ 2 = 1 + dd * x ^ 2 * y ^ 2 ↔ (y ^ 2 * dd + 1) * x ^ 2 = y ^ 2 - 1 := by
  constructor <;> intro h <;> linear_combination -h

theorem v_ne (y : ZMod P) : y ^ 2 * dd + 1 ≠ 0 := fun h => by
  have hy : y ≠ 0 := fun hy => by rw [hy] at h; simp at h
  exact ed.d_of_sq (z := y) (w := ii) hy (by rw [ed.hi]; linear_combination -h)

/-- The point that 32 bytes encode (RFC 8032, section 5.1.3): the low 255 bits are `y`, the top bit is
the low bit of `x`, and does not matter when `x` is 0 (this last is where the code is more lenient). -/
def DecOf (s : List Byte) (Q : Pt) : Prop :=
  yc Q = ((leNum s % 2 ^ 255 : Nat) : ZMod P) ∧ (xc Q = 0 ∨ (xc Q).val % 2 = leNum s / 2 ^ 255)

theorem sq_eq {x x' : ZMod P} (h : x ^ 2 = x' ^ 2) : x = x' ∨ x = -x' := sq_eq_sq_iff_eq_or_eq_neg.mp h

theorem x_sq {Q R : Pt} (h : yc Q = yc R) : xc Q = xc R ∨ xc Q = -xc R := by
  have e1 := (curve_iff _ _).mp (ed.on_curve Q)
  have e2 := (curve_iff _ _).mp (ed.on_curve R)
  apply sq_eq
  apply mul_left_cancel₀ (v_ne (yc R))
  have h' : ey Q = ey R := h
  rw [h'] at e1
  exact e1.trans e2.symm

theorem pt_eq {Q R : Pt} (hy : yc Q = yc R) (hx : (xc Q).val % 2 = (xc R).val % 2) : Q = R := by
  rcases x_sq hy with h | h
  · exact ed.inj h hy
  · by_cases h0 : xc R = 0
    · exact ed.inj (by rw [h0, neg_zero] at h; exact h.trans h0.symm) hy
    · have := neg_parity (xc R) h0
      rw [h] at hx
      omega

theorem DecOf.unique {s : List Byte} {Q R : Pt} (hq : DecOf s Q) (hr : DecOf s R) : Q = R := by
  have hy : yc Q = yc R := hq.1.trans hr.1.symm
  rcases x_sq hy with h | h
  · exact ed.inj h hy
  · by_cases h0 : xc R = 0
    · exact ed.inj (by rw [h0, neg_zero] at h; exact h.trans h0.symm) hy
    · have h1 : xc Q ≠ 0 := by rw [h]; exact neg_ne_zero.mpr h0
      exact pt_eq hy ((hq.2.resolve_left h1).trans (hr.2.resolve_left h0).symm)

theorem top_bit (s : List Byte) (hs : s.length = 32) : (s.getD 31 0).toNat >>> 7 = leNum s / 2 ^ 255 := by
  have h1 := split31 s hs
  have h2 := take31_lt s hs
  have h3 := (s.getD 31 0).toNat_lt
  rw [Nat.shiftRight_eq_div_pow, h1, show (2 : Nat) ^ 255 = 256 ^ 31 * 2 ^ 7 by decide, ← Nat.div_div_eq_div_mul,
    Nat.add_mul_div_left _ _ (by decide), Nat.div_eq_of_lt h2, Nat.zero_add]

theorem top_le (s : List Byte) (hs : s.length = 32) : leNum s / 2 ^ 255 < 2 := by
  rw [← top_bit s hs, Nat.shiftRight_eq_div_pow]
  have h3 := (s.getD 31 0).toNat_lt
  omega

/-- There is an encoded point iff the square root exists. -/
theorem dec_iff (s : List Byte) (hs : s.length = 32) (y : ZMod P) (hy : y = ((leNum s % 2 ^ 255 : Nat) : ZMod P)) :
    (∃ x, (y ^ 2 * dd + 1) * x ^ 2 = y ^ 2 - 1) ↔ ∃ Q, DecOf s Q := by
  constructor
  · rintro ⟨x, hx⟩
    have ht := top_le s hs
    by_cases h0 : x = 0
    · obtain ⟨Q, h1, h2⟩ := ed.surj ((curve_iff x y).mpr hx)
      exact ⟨Q, by unfold yc; rw [h2, hy], Or.inl (by unfold xc; rw [h1, h0])⟩
    by_cases hp : x.val % 2 = leNum s / 2 ^ 255
    · obtain ⟨Q, h1, h2⟩ := ed.surj ((curve_iff x y).mpr hx)
      exact ⟨Q, by unfold yc; rw [h2, hy], Or.inr (by unfold xc; rw [h1, hp])⟩
    · obtain ⟨Q, h1, h2⟩ := ed.surj ((curve_iff (-x) y).mpr (by rw [neg_sq]; exact hx))
      refine ⟨Q, by unfold yc; rw [h2, hy], Or.inr ?_⟩
      unfold xc; rw [h1, neg_parity x h0]
      omega
  · rintro ⟨Q, h, -⟩
    refine ⟨xc Q, ?_⟩
    rw [hy, ← h]
    exact (curve_iff _ _).mp (ed.on_curve Q)

/-- The recovered root, with the right parity, is the decoded point. -/
theorem dec_x {s : List Byte} {Q : Pt} (hq : DecOf s Q) {x y : ZMod P} (hy : y = ((leNum s % 2 ^ 255 : Nat) : ZMod P))
    (hx : (y ^ 2 * dd + 1) * x ^ 2 = y ^ 2 - 1) (hp : x = 0 ∨ x.val % 2 = leNum s / 2 ^ 255) : x = xc Q ∧ y = yc Q := by
  obtain ⟨R, h1, h2⟩ := ed.surj ((curve_iff x y).mpr hx)
  have : DecOf s R := ⟨by unfold yc; rw [h2, hy], by unfold xc; rw [h1]; exact hp⟩
  have e := hq.unique this
  exact ⟨by rw [e]; exact h1.symm, by rw [e]; exact h2.symm⟩

structure UV (s : List Byte) (y : ZMod P) (Y u v : Fe) : Prop where
  hy : y = ((leNum s % 2 ^ 255 : Nat) : ZMod P)
  bY : Y.lt tight
  eY : toF Y = y
  bu : u.lt mid
  eu : toF u = y ^ 2 - 1
  bv : v.lt mid
  ev : toF v = y ^ 2 * dd + 1

theorem uv_spec (s : List Byte) (hs : s.length = 32) :
    ∃ y, UV s y (feFrombytes s) (feSub (feSq (feFrombytes s)) feOne) (feAdd (feMul (feSq (feFrombytes s)) feD) feOne) := by
  have h := feFrombytes_spec s hs
  have hY : (feFrombytes s).lt tight := Fe.lt_mono h.1 (by decide)
  have h1 := feSq_spec _ (Fe.lt_mono hY (by decide))
  have h2 := feMul_spec _ _ (Fe.lt_mono h1.1 (by decide)) (Fe.lt_mono feD_spec.1 (by decide))
  have h3 := feSub_spec _ _ _ h1.1 (Fe.lt_mono feOne_spec.1 (by decide)) (by decide)
  have h4 := feAdd_spec _ _ _ _ h2.1 feOne_spec.1 (by decide)
  refine ⟨toF (feFrombytes s), ?_, hY, rfl, Fe.lt_mono h3.1 (by decide), ?_, Fe.lt_mono h4.1 (by decide), ?_⟩
  · unfold toF; rw [h.2]
  · rw [h3.2, h1.2, feOne_spec.2]
  · rw [h4.2, h2.2, h1.2, feOne_spec.2, feD_spec.2]

theorem E8 : 8 * 7237005577332262213973186563042994240829374041602535252466099000494570602493 + 4 = P - 1 := by decide +kernel

theorem iszero01 (f : Fe) (h : f.lt (2 ^ 64)) : (feIszero f = 1 ↔ toF f = 0) ∧ (feIszero f = 0 ↔ toF f ≠ 0) := by
  rw [feIszero_spec f h]; split <;> simp [*]

theorem feIszero_le (f : Fe) : feIszero f = 0 ∨ feIszero f = 1 := by
  unfold feIszero
  rw [isZero_spec]
  split
  · right; rfl
  · left; rfl

/-- `ge25519_frombytes`: succeeds exactly when the bytes encode a point, and then yields it. -/
theorem frombytes_spec (s : List Byte) (hs : s.length = 32) :
    ((frombytes s).2 = true ↔ ∃ Q, DecOf s Q) ∧
      ∀ Q, DecOf s Q → R3 (frombytes s).1 Q ∧ (frombytes s).1.Z = feOne := by
  obtain ⟨y, h⟩ := uv_spec s hs
  unfold frombytes
  dsimp only
  generalize feFrombytes s = Y at h ⊢
  generalize feSub (feSq Y) feOne = u at h ⊢
  generalize feAdd (feMul (feSq Y) feD) feOne = v at h ⊢
  have lu := Fe.lt_mono h.bu (show mid ≤ loose by decide)
  have lv := Fe.lt_mono h.bv (show mid ≤ loose by decide)
  have h1 := feMul_spec u v lu lv
  have h2 := fePow22523_spec _ (Fe.lt_mono h1.1 (by decide))
  have h3 := feMul_spec u _ lu (Fe.lt_mono h2.1 (by decide))
  generalize feMul u (fePow22523 (feMul u v)) = X at h3 ⊢
  have h4 := feSq_spec X (Fe.lt_mono h3.1 (by decide))
  have h5 := feMul_spec _ v (Fe.lt_mono h4.1 (by decide)) lv
  generalize feMul (feSq X) v = vxx at h5 ⊢
  have hm := feSub_spec vxx u _ h5.1 lu (by decide)
  have hp := feAdd_spec vxx u _ _ h5.1 h.bu (by decide)
  have h6 := feMul_spec X feSqrtm1 (Fe.lt_mono h3.1 (by decide)) (Fe.lt_mono feSqrtm1_spec.1 (by decide))
  have zm := iszero01 _ (Fe.lt_mono hm.1 (by decide))
  have zp := iszero01 _ (Fe.lt_mono hp.1 (by decide))
  have e5 : toF vxx = (y ^ 2 * dd + 1) * toF X ^ 2 := by rw [h5.2, h4.2, h.ev, mul_comm]
  have root := root_core (u := y ^ 2 - 1) (v := y ^ 2 * dd + 1) (X := toF X) (t := (y ^ 2 - 1) * (y ^ 2 * dd + 1)) (w := 1)
    _ E8 (v_ne y) one_ne_zero (by rw [one_pow, mul_one]) (by
      rw [h3.2, h2.2, h1.2, h.eu, h.ev]
      generalize ((y ^ 2 - 1) * (y ^ 2 * dd + 1)) ^
        7237005577332262213973186563042994240829374041602535252466099000494570602493 = T
      ring)
  rw [hm.2, e5, h.eu, sub_eq_zero] at zm
  rw [hp.2, e5, h.eu, add_eq_zero_iff_eq_neg] at zp
  rw [dec_iff s hs y h.hy, ← zm.1, ← zp.1] at root
  have m01 := feIszero_le (feSub vxx u)
  have p01 := feIszero_le (feAdd vxx u)
  refine ⟨?_, ?_⟩
  · rw [← root]
    rcases m01 with m | m <;> rcases p01 with p | p <;> rw [m, p] <;> decide
  · intro Q hq
    have hr := root.mpr ⟨Q, hq⟩
    obtain ⟨X1, hX1, b1, e1⟩ : ∃ X1, feCmov X (feMul X feSqrtm1) (1 - feIszero (feSub vxx u)) = X1 ∧ X1.lt tight ∧
        (y ^ 2 * dd + 1) * toF X1 ^ 2 = y ^ 2 - 1 := by
      rcases m01 with m | m
      · rw [m]
        refine ⟨_, feCmov_one _ _ (Fe.lt_mono h3.1 (by decide)) (Fe.lt_mono h6.1 (by decide)), h6.1, ?_⟩
        have := zp.1.mp (hr.resolve_left (by rw [m]; decide))
        rw [h6.2, feSqrtm1_spec.2]
        linear_combination (-1) * this + (y ^ 2 * dd + 1) * toF X ^ 2 * ed.hi
      · rw [m]
        exact ⟨_, feCmov_zero _ _, h3.1, zm.1.mp m⟩
    rw [hX1]
    clear hX1
    have n1 := feNeg_spec X1 (Fe.lt_mono b1 (by decide))
    have ip := isneg_eq X1 (Fe.lt_mono b1 (by decide))
    have tb := top_bit s hs
    have tl := top_le s hs
    obtain ⟨X2, hX2, b2, e2, q2⟩ : ∃ X2, feCmov X1 (feNeg X1) (feIsnegative X1 ^^^ ((s.getD 31 0).toNat >>> 7)) = X2 ∧ X2.lt mid ∧
        (y ^ 2 * dd + 1) * toF X2 ^ 2 = y ^ 2 - 1 ∧ (toF X2 = 0 ∨ (toF X2).val % 2 = leNum s / 2 ^ 255) := by
      rw [tb, ip]
      by_cases hpar : (toF X1).val % 2 = leNum s / 2 ^ 255
      · rw [hpar, Nat.xor_self]
        exact ⟨_, feCmov_zero _ _, Fe.lt_mono b1 (by decide), e1, Or.inr hpar⟩
      · have : (toF X1).val % 2 ^^^ leNum s / 2 ^ 255 = 1 := by
          have : (toF X1).val % 2 < 2 := Nat.mod_lt _ (by decide)
          generalize (toF X1).val % 2 = a at *
          generalize leNum s / 2 ^ 255 = b at *
          have : a = 0 ∨ a = 1 := by omega
          have : b = 0 ∨ b = 1 := by omega
          rcases ‹a = 0 ∨ a = 1› with h | h <;> rcases ‹b = 0 ∨ b = 1› with h' | h' <;> subst h <;> subst h' <;>
            first | rfl | exact absurd rfl hpar
        rw [this]
        refine ⟨_, feCmov_one _ _ (Fe.lt_mono b1 (by decide)) (Fe.lt_mono n1.1 (by decide)), n1.1, ?_, ?_⟩
        · rw [n1.2, neg_sq]; exact e1
        · rw [n1.2]
          by_cases h0 : toF X1 = 0
          · left; rw [h0, neg_zero]
          · right; rw [neg_parity _ h0]; omega
    rw [hX2]
    obtain ⟨f1, f2⟩ := dec_x hq h.hy e2 q2
    have h7 := feMul_spec X2 Y (Fe.lt_mono b2 (by decide)) (Fe.lt_mono h.bY (by decide))
    refine ⟨⟨b2, Fe.lt_mono h.bY (by decide), Fe.lt_mono feOne_spec.1 (by decide), Fe.lt_mono h7.1 (by decide), ?_, ?_, ?_, ?_⟩, rfl⟩
    all_goals dsimp only
    all_goals rw [feOne_spec.2]
    · exact one_ne_zero
    · rw [mul_one, f1]
    · rw [mul_one, h.eY, f2]
    · rw [mul_one, h7.2, h.eY, f1, f2]

/-- `ge25519_frombytes_negate_vartime`: the same, and the negated point. -/
theorem frombytesNeg_spec (s : List Byte) (hs : s.length = 32) :
    (frombytesNeg s = none ∧ ¬ ∃ Q, DecOf s Q) ∨
      ∃ h Q, frombytesNeg s = some h ∧ DecOf s Q ∧ R3 h (-Q) ∧ h.Z = feOne := by
  obtain ⟨y, h⟩ := uv_spec s hs
  unfold frombytesNeg
  dsimp only
  generalize feFrombytes s = Y at h ⊢
  generalize feSub (feSq Y) feOne = u at h ⊢
  generalize feAdd (feMul (feSq Y) feD) feOne = v at h ⊢
  have lu := Fe.lt_mono h.bu (show mid ≤ loose by decide)
  have lv := Fe.lt_mono h.bv (show mid ≤ loose by decide)
  have a1 := feSq_spec v lv
  have a2 := feMul_spec _ v (Fe.lt_mono a1.1 (by decide)) lv
  generalize feMul (feSq v) v = v3 at a2 ⊢
  have a3 := feSq_spec v3 (Fe.lt_mono a2.1 (by decide))
  have a4 := feMul_spec _ v (Fe.lt_mono a3.1 (by decide)) lv
  have a5 := feMul_spec _ u (Fe.lt_mono a4.1 (by decide)) lu
  have a6 := fePow22523_spec _ (Fe.lt_mono a5.1 (by decide))
  have a7 := feMul_spec _ v3 (Fe.lt_mono a6.1 (by decide)) (Fe.lt_mono a2.1 (by decide))
  have h3 := feMul_spec _ u (Fe.lt_mono a7.1 (by decide)) lu
  generalize feMul (feMul (fePow22523 (feMul (feMul (feSq v3) v) u)) v3) u = X at h3 ⊢
  have h4 := feSq_spec X (Fe.lt_mono h3.1 (by decide))
  have h5 := feMul_spec _ v (Fe.lt_mono h4.1 (by decide)) lv
  generalize feMul (feSq X) v = vxx at h5 ⊢
  have hm := feSub_spec vxx u _ h5.1 lu (by decide)
  have hp := feAdd_spec vxx u _ _ h5.1 h.bu (by decide)
  have h6 := feMul_spec X feSqrtm1 (Fe.lt_mono h3.1 (by decide)) (Fe.lt_mono feSqrtm1_spec.1 (by decide))
  have zm := iszero01 _ (Fe.lt_mono hm.1 (by decide))
  have zp := iszero01 _ (Fe.lt_mono hp.1 (by decide))
  have e5 : toF vxx = (y ^ 2 * dd + 1) * toF X ^ 2 := by rw [h5.2, h4.2, h.ev, mul_comm]
  have root := root_core (u := y ^ 2 - 1) (v := y ^ 2 * dd + 1) (X := toF X)
    (t := ((y ^ 2 * dd + 1) ^ 2 * (y ^ 2 * dd + 1)) ^ 2 * (y ^ 2 * dd + 1) * (y ^ 2 - 1)) (w := (y ^ 2 * dd + 1) ^ 3)
    _ E8 (v_ne y) (pow_ne_zero _ (v_ne y)) (by ring) (by
      rw [h3.2, a7.2, a6.2, a5.2, a4.2, a3.2, a2.2, a1.2, h.eu, h.ev]
      generalize (((y ^ 2 * dd + 1) ^ 2 * (y ^ 2 * dd + 1)) ^ 2 * (y ^ 2 * dd + 1) * (y ^ 2 - 1)) ^
        7237005577332262213973186563042994240829374041602535252466099000494570602493 = T
      ring)
  rw [hm.2, e5, h.eu, sub_eq_zero] at zm
  rw [hp.2, e5, h.eu, add_eq_zero_iff_eq_neg] at zp
  rw [dec_iff s hs y h.hy] at root
  have fin : ∀ X1 : Fe, X1.lt tight → (y ^ 2 * dd + 1) * toF X1 ^ 2 = y ^ 2 - 1 → ∃ h Q,
      (some X1).map (fun X => (⟨if feIsnegative X = (s.getD 31 0).toNat >>> 7 then feNeg X else X, Y, feOne,
        feMul (if feIsnegative X = (s.getD 31 0).toNat >>> 7 then feNeg X else X) Y⟩ : P3)) = some h ∧ DecOf s Q ∧ R3 h (-Q) ∧ h.Z = feOne := by
    intro X1 b1 e1
    obtain ⟨Q, hq⟩ := (dec_iff s hs y h.hy).mp ⟨_, e1⟩
    refine ⟨_, Q, rfl, hq, ?_, rfl⟩
    have n1 := feNeg_spec X1 (Fe.lt_mono b1 (by decide))
    dsimp only
    rw [isneg_eq X1 (Fe.lt_mono b1 (by decide)), top_bit s hs]
    have tl := top_le s hs
    obtain ⟨X2, hX2, b2, e2⟩ : ∃ X2, (if (toF X1).val % 2 = leNum s / 2 ^ 255 then feNeg X1 else X1) = X2 ∧ X2.lt mid ∧
        toF X2 = -xc Q ∧ y = yc Q := by
      by_cases hpar : (toF X1).val % 2 = leNum s / 2 ^ 255
      · rw [if_pos hpar]
        obtain ⟨f1, f2⟩ := dec_x hq h.hy e1 (Or.inr hpar)
        exact ⟨_, rfl, n1.1, by rw [n1.2, f1], f2⟩
      · rw [if_neg hpar]
        obtain ⟨f1, f2⟩ := dec_x (x := -toF X1) hq h.hy (by rw [neg_sq]; exact e1) (by
          by_cases h0 : toF X1 = 0
          · left; rw [h0, neg_zero]
          · right; rw [neg_parity _ h0]; omega)
        exact ⟨_, rfl, Fe.lt_mono b1 (by decide), by rw [← f1, neg_neg], f2⟩
    rw [hX2]
    have h7 := feMul_spec X2 Y (Fe.lt_mono b2 (by decide)) (Fe.lt_mono h.bY (by decide))
    refine ⟨b2, Fe.lt_mono h.bY (by decide), Fe.lt_mono feOne_spec.1 (by decide), Fe.lt_mono h7.1 (by decide), ?_, ?_, ?_, ?_⟩
    all_goals dsimp only
    all_goals rw [feOne_spec.2]
    · exact one_ne_zero
    · rw [mul_one, e2.1, xc_neg]
    · rw [mul_one, h.eY, e2.2, yc_neg]
    · rw [mul_one, h7.2, h.eY, e2.1, e2.2, xc_neg, yc_neg]
  by_cases m : feIszero (feSub vxx u) = 0
  · rw [if_pos m]
    by_cases p : feIszero (feAdd vxx u) = 0
    · rw [if_pos p]
      left
      refine ⟨rfl, ?_⟩
      rw [← root]
      rintro (h | h)
      · exact zm.2.mp m (sub_eq_zero.mpr h)
      · exact zp.2.mp p (add_eq_zero_iff_eq_neg.mpr h)
    · rw [if_neg p]
      right
      apply fin _ h6.1
      have := zp.1.mp ((feIszero_le _).resolve_left p)
      rw [h6.2, feSqrtm1_spec.2]
      linear_combination (-1) * this + (y ^ 2 * dd + 1) * toF X ^ 2 * ed.hi
  · rw [if_neg m]
    right
    exact fin _ h3.1 (zm.1.mp ((feIszero_le _).resolve_left m))

end LC.Curve
