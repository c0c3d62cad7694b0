import Verif.Bike.Kar
import Verif.Bike.Ring
import Mathlib.Algebra.Polynomial.AlgebraMap
import Mathlib.Algebra.Polynomial.Eval.Coeff

/-! The reduction, the modular product and squaring of BIKE as operations in F_2[x]/(x^R - 1). -/

namespace LC.Bike

open Polynomial

/-! ## Bits of buffers -/

theorem bitW_cons_lt (w : Nat) (ws : List Nat) {i : Nat} (h : i < 64) :
    bitW (w :: ws) i = w.testBit i := by
  unfold bitW
  rw [show i / 64 = 0 by omega, show i % 64 = i by omega]
  rfl

theorem bitW_cons_ge (w : Nat) (ws : List Nat) {i : Nat} (h : 64 ≤ i) :
    bitW (w :: ws) i = bitW ws (i - 64) := by
  unfold bitW
  rw [show i / 64 = (i - 64) / 64 + 1 by omega, show i % 64 = (i - 64) % 64 by omega]
  rfl

theorem bitW_nil (i : Nat) : bitW [] i = false := by
  unfold bitW; simp

theorem bitW_ge (ws : List Nat) {i : Nat} (h : 64 * ws.length ≤ i) : bitW ws i = false := by
  unfold bitW
  rw [List.getD_eq_getElem?_getD, List.getElem?_eq_none (by omega)]
  simp

theorem PL_coeff {ws : List Nat} (h : Wf ws) (i : Nat) : (PL ws).coeff i = b2 (bitW ws i) := by
  induction ws generalizing i with
  | nil => rw [bitW_nil]; simp [PL, b2]
  | cons w ws ih =>
    have ih := ih (fun v hv => h v (List.mem_cons_of_mem _ hv))
    simp only [PL]
    rw [coeff_add, P_coeff, coeff_X_pow_mul']
    by_cases hi : 64 ≤ i
    · rw [if_pos hi, bitW_cons_ge _ _ hi, ih, Nat.testBit_lt_two_pow (Nat.lt_of_lt_of_le
        (h w List.mem_cons_self) (Nat.pow_le_pow_right (by omega) hi))]
      simp [b2]
    · rw [if_neg hi, bitW_cons_lt _ _ (by omega), add_zero]

theorem testBit_bitW {ws : List Nat} (h : Wf ws) (i j : Nat) :
    (ws.getD i 0).testBit j = (decide (j < 64) && bitW ws (64 * i + j)) := by
  by_cases hj : j < 64
  · unfold bitW
    rw [show (64 * i + j) / 64 = i by omega, show (64 * i + j) % 64 = j by omega]
    simp [hj]
  · rw [Nat.testBit_lt_two_pow (Nat.lt_of_lt_of_le (Wf_getD h i)
      (Nat.pow_le_pow_right (by omega) (by omega)))]
    simp [hj]

theorem words_ext {a b : List Nat} (ha : Wf a) (hb : Wf b) (hl : a.length = b.length)
    (h : ∀ i, bitW a i = bitW b i) : a = b := by
  apply List.ext_getElem hl
  intro i h1 h2
  have key : a.getD i 0 = b.getD i 0 := by
    apply Nat.eq_of_testBit_eq
    intro j
    rw [testBit_bitW ha, testBit_bitW hb, h]
  rwa [List.getD_eq_getElem _ _ h1, List.getD_eq_getElem _ _ h2] at key

/-! ## Elements of the ring -/

/-- Requirements on the parameters that the code relies on. -/
structure POk (p : Par) : Prop where
  lead : p.R % 64 ≠ 0
  oct : p.R % 8 ≠ 0
  ge : 64 < p.R
  fit : p.rq ≤ p.pq
  odd : p.R % 2 = 1

/-- A `pad_r_t` holding a polynomial of degree below `R`, padding zero. -/
structure Pad (p : Par) (a : List Nat) : Prop where
  len : a.length = p.pq
  wf : Wf a
  hi : ∀ i, p.R ≤ i → bitW a i = false

/-- The ring element in a buffer: coefficient `g` is bit `g`. -/
noncomputable def el (R : Nat) [NeZero R] (a : List Nat) : A R :=
  ∑ g : ZMod R, AddMonoidAlgebra.single g (b2 (bitW a g.val))

theorem el_coeff {R : Nat} [NeZero R] (a : List Nat) (g : ZMod R) :
    (el R a).coeff g = b2 (bitW a g.val) :=
  coeff_sum_single (fun g : ZMod R => b2 (bitW a g.val)) g

theorem el_inj {p : Par} [NeZero p.R] {a b : List Nat} (ha : Pad p a) (hb : Pad p b)
    (h : el p.R a = el p.R b) : a = b := by
  apply words_ext ha.wf hb.wf (ha.len.trans hb.len.symm)
  intro i
  by_cases hi : i < p.R
  · apply b2_inj
    have := congrArg (fun z : A p.R => z.coeff (i : ZMod p.R)) h
    rw [el_coeff, el_coeff, ZMod.val_natCast, Nat.mod_eq_of_lt hi] at this
    exact this
  · rw [ha.hi i (by omega), hb.hi i (by omega)]

/-- Reduction modulo `x^R - 1`. -/
noncomputable def Q (R : Nat) : (ZMod 2)[X] →+* A R := (aeval (mono (1 : ZMod R))).toRingHom

theorem mono_pow {R : Nat} (i : Nat) : (mono (1 : ZMod R)) ^ i = mono (i : ZMod R) := by
  unfold mono
  rw [AddMonoidAlgebra.single_pow, one_pow, nsmul_eq_mul, mul_one]

theorem Q_mono {R : Nat} (c : ZMod 2) (i : Nat) :
    Q R (monomial i c) = AddMonoidAlgebra.single (i : ZMod R) c := by
  have h : c = 0 ∨ c = 1 := by revert c; decide
  rcases h with rfl | rfl
  · simp
  · unfold Q
    rw [AlgHom.toRingHom_eq_coe, RingHom.coe_coe, aeval_monomial, map_one, one_mul, mono_pow]
    rfl

theorem sum_single_range {R : Nat} [NeZero R] (f : Nat → ZMod 2) (g : ZMod R) :
    (∑ i ∈ Finset.range R, (Finsupp.single (i : ZMod R) (f i)) g) = f g.val := by
  rw [Finset.sum_eq_single g.val]
  · rw [ZMod.natCast_zmod_val]; simp
  · intro b hb hne
    rw [Finsupp.single_apply, if_neg]
    intro h
    apply hne
    rw [← h, ZMod.val_natCast, Nat.mod_eq_of_lt (Finset.mem_range.1 hb)]
  · intro h; exact absurd (Finset.mem_range.2 (ZMod.val_lt g)) h

/-- A polynomial of degree below `2R` is reduced by adding the upper half to the lower. -/
theorem Q_red {R : Nat} [NeZero R] (f : (ZMod 2)[X]) (hf : ∀ i, 2 * R ≤ i → f.coeff i = 0)
    (g : ZMod R) : (Q R f).coeff g = f.coeff g.val + f.coeff (g.val + R) := by
  have hpos : 0 < R := Nat.pos_of_ne_zero (NeZero.ne R)
  have hd : f.natDegree < 2 * R := by
    by_contra hc
    have h1 := hf f.natDegree (by omega)
    have h2 : f = 0 := by rwa [coeff_natDegree, leadingCoeff_eq_zero] at h1
    rw [h2] at hc
    simp at hc
    omega
  have hs := as_sum_range' f (2 * R) hd
  conv_lhs => rw [hs]
  rw [map_sum]
  simp only [Q_mono]
  rw [AddMonoidAlgebra.coeff_sum, Finsupp.finset_sum_apply]
  simp only [AddMonoidAlgebra.coeff_single]
  rw [show 2 * R = R + R by omega, Finset.sum_range_add, sum_single_range]
  congr 1
  have : ∀ x ∈ Finset.range R, (Finsupp.single ((R + x : Nat) : ZMod R) (f.coeff (R + x))) g =
      (Finsupp.single (x : ZMod R) ((fun i => f.coeff (i + R)) x)) g := by
    intro x _
    rw [Nat.cast_add, ZMod.natCast_self, zero_add, Nat.add_comm R x]
  rw [Finset.sum_congr rfl this, sum_single_range]

theorem Q_el {p : Par} [NeZero p.R] {a : List Nat} (ha : Pad p a) : Q p.R (PL a) = el p.R a := by
  ext g
  rw [Q_red, el_coeff, PL_coeff ha.wf, PL_coeff ha.wf, ha.hi (g.val + p.R) (by omega)]
  · simp [b2]
  · intro i hi
    rw [PL_coeff ha.wf, ha.hi i (by omega)]; rfl

/-! ## Reduction -/

theorem redWord_lt {p : Par} {t : List Nat} (ht : Wf t) (i : Nat) : redWord p t i < W := by
  unfold redWord
  exact xor_lt_W (Wf_getD ht _) (Nat.or_lt_two_pow (mod_lt_W _) (shr_lt_W (Wf_getD ht _)))

theorem redWord_bit {p : Par} (hp : POk p) {t : List Nat} (ht : Wf t) (i j : Nat) (hj : j < 64) :
    (redWord p t i).testBit j = (bitW t (64 * i + j) ^^ bitW t (64 * i + j + p.R)) := by
  have hl := hp.lead
  have hg := hp.ge
  have hlead : p.lead = p.R % 64 := rfl
  have htr : p.trail = 64 - p.R % 64 := rfl
  have hrq : p.rq = p.R / 64 + 1 := by unfold Par.rq; omega
  unfold redWord
  rw [Nat.testBit_xor, Nat.testBit_or, Nat.testBit_mod_two_pow, Nat.testBit_shiftLeft,
    Nat.testBit_shiftRight, testBit_bitW ht, testBit_bitW ht, testBit_bitW ht]
  rw [htr, hlead]
  simp only [hj, decide_true, Bool.true_and]
  congr 1
  by_cases hc : j + p.R % 64 < 64
  · rw [show decide (j ≥ 64 - p.R % 64) = false by simp; omega, Bool.false_and, Bool.false_or,
      show decide (p.R % 64 + j < 64) = true by simp; omega, Bool.true_and]
    congr 1; omega
  · rw [show decide (j ≥ 64 - p.R % 64) = true by simp; omega, Bool.true_and,
      show decide (j - (64 - p.R % 64) < 64) = true by simp; omega, Bool.true_and,
      show decide (p.R % 64 + j < 64) = false by simp; omega, Bool.false_and, Bool.or_false]
    congr 1; omega

theorem getD_append_left {a b : List Nat} {i : Nat} (h : i < a.length) :
    (a ++ b).getD i 0 = a.getD i 0 := by
  rw [List.getD_eq_getElem?_getD, List.getElem?_append_left h, ← List.getD_eq_getElem?_getD]

theorem getD_append_right {a b : List Nat} {i : Nat} (h : a.length ≤ i) :
    (a ++ b).getD i 0 = b.getD (i - a.length) 0 := by
  rw [List.getD_eq_getElem?_getD, List.getElem?_append_right h, ← List.getD_eq_getElem?_getD]

theorem getD_map_range (f : Nat → Nat) (n i : Nat) (h : i < n) :
    ((List.range n).map f).getD i 0 = f i := by
  rw [List.getD_eq_getElem?_getD, List.getElem?_map, List.getElem?_range h]
  rfl

theorem getD_replicate (n i : Nat) : (List.replicate n 0).getD i 0 = 0 := by
  rw [List.getD_eq_getElem?_getD, List.getElem?_replicate]
  split <;> rfl

theorem red_length {p : Par} (hp : POk p) (t : List Nat) : (red p t).length = p.pq := by
  have hrq : p.rq = p.R / 64 + 1 := by have := hp.lead; unfold Par.rq; omega
  have := hp.fit
  unfold red
  simp only [List.length_append, List.length_map, List.length_range, List.length_cons,
    List.length_nil, List.length_replicate]
  omega

theorem red_wf {p : Par} {t : List Nat} (ht : Wf t) : Wf (red p t) := by
  unfold red
  refine Wf_append (Wf_append ?_ ?_) (Wf_replicate _)
  · intro w h
    obtain ⟨i, _, rfl⟩ := List.mem_map.1 h
    exact redWord_lt ht i
  · intro w h
    rw [List.mem_singleton.1 h]
    exact Nat.lt_of_le_of_lt Nat.and_le_left (redWord_lt ht _)

theorem red_bit {p : Par} (hp : POk p) {t : List Nat} (ht : Wf t) (i : Nat) :
    bitW (red p t) i = (decide (i < p.R) && (bitW t i ^^ bitW t (i + p.R))) := by
  have hl := hp.lead
  have hrq : p.rq = p.R / 64 + 1 := by unfold Par.rq; omega
  have hlead : p.lead = p.R % 64 := rfl
  have hdm := Nat.div_add_mod p.R 64
  unfold bitW
  unfold red
  by_cases h1 : i / 64 < p.rq - 1
  · rw [List.append_assoc, getD_append_left (by simpa using h1), getD_map_range _ _ _ h1,
      redWord_bit hp ht _ _ (Nat.mod_lt _ (by omega)), show 64 * (i / 64) + i % 64 = i by omega,
      show decide (i < p.R) = true by simp; omega, Bool.true_and]
    rfl
  · by_cases h2 : i / 64 = p.rq - 1
    · rw [List.append_assoc, getD_append_right (by simp; omega), List.length_map, List.length_range,
        show i / 64 - (p.rq - 1) = 0 by omega]
      rw [List.singleton_append, List.getD_cons_zero, Nat.testBit_and, Nat.testBit_two_pow_sub_one,
        ← h2, redWord_bit hp ht _ _ (Nat.mod_lt _ (by omega)),
        show 64 * (i / 64) + i % 64 = i by omega, Bool.and_comm, hlead]
      congr 1
      by_cases h3 : i < p.R
      · simp [h3]; omega
      · simp [h3]; omega
    · rw [getD_append_right (by simp; omega), getD_replicate]
      simp
      omega

theorem red_pad {p : Par} (hp : POk p) {t : List Nat} (ht : Wf t) : Pad p (red p t) := by
  refine ⟨red_length hp t, red_wf ht, ?_⟩
  intro i hi
  rw [red_bit hp ht, show decide (i < p.R) = false by simp; omega, Bool.false_and]

/-- Reduction of a polynomial of degree below `2R`. -/
theorem red_el {p : Par} [NeZero p.R] (hp : POk p) {t : List Nat} (ht : Wf t)
    (hd : ∀ i, 2 * p.R ≤ i → (PL t).coeff i = 0) : el p.R (red p t) = Q p.R (PL t) := by
  ext g
  rw [Q_red _ hd, el_coeff, red_bit hp ht, PL_coeff ht, PL_coeff ht, ← b2_xor]
  rw [show decide (g.val < p.R) = true by simp [ZMod.val_lt], Bool.true_and]

theorem coeff_mul_zero {R : Nat} (f g : (ZMod 2)[X]) (hf : ∀ i, R ≤ i → f.coeff i = 0)
    (hg : ∀ i, R ≤ i → g.coeff i = 0) (i : Nat) (hi : 2 * R ≤ i) : (f * g).coeff i = 0 := by
  rw [coeff_mul]
  apply Finset.sum_eq_zero
  intro x hx
  have := Finset.mem_antidiagonal.1 hx
  by_cases h : R ≤ x.1
  · rw [hf _ h, zero_mul]
  · rw [hg x.2 (by omega), mul_zero]

theorem pad_coeff {p : Par} {a : List Nat} (ha : Pad p a) (i : Nat) (hi : p.R ≤ i) :
    (PL a).coeff i = 0 := by
  rw [PL_coeff ha.wf, ha.hi i hi]; rfl

theorem pad_drop {p : Par} (hp : POk p) {a : List Nat} (ha : Pad p a) :
    ∀ w ∈ a.drop p.rq, w = 0 := by
  intro w hw
  obtain ⟨i, hi⟩ := List.mem_iff_getElem?.1 hw
  rw [List.getElem?_drop] at hi
  have hrq : p.R ≤ 64 * p.rq := by unfold Par.rq; omega
  have e : a.getD (p.rq + i) 0 = w := by rw [List.getD_eq_getElem?_getD, hi]; rfl
  rw [← e]
  apply Nat.eq_of_testBit_eq
  intro j
  rw [testBit_bitW ha.wf, ha.hi _ (by have : 64 * (p.rq + i) = 64 * p.rq + 64 * i := by ring
                                      omega)]
  simp

theorem kar_pad {p : Par} (hp : POk p) {a b : List Nat} (ha : Pad p a) (hb : Pad p b) :
    Wf (kar p.k (List.replicate (2 * p.pq) 0) a b p.rq) ∧
      PL (kar p.k (List.replicate (2 * p.pq) 0) a b p.rq) = PL a * PL b := by
  have h := kar_ok p.k (List.replicate (2 * p.pq) 0) a b p.rq (by rw [List.length_replicate]; rfl)
    ha.len hb.len (Wf_replicate _) ha.wf hb.wf (by have := hp.ge; unfold Par.rq; omega) hp.fit
    (pad_drop hp ha) (pad_drop hp hb) (Or.inl (fun w h => (List.mem_replicate.1 h).2))
  exact ⟨h.2.1, h.2.2⟩

theorem modMul_pad {p : Par} (hp : POk p) {a b : List Nat} (ha : Pad p a) (hb : Pad p b) :
    Pad p (modMul p a b) := red_pad hp (kar_pad hp ha hb).1

/-- `gf2x_mod_mul` is the product of F_2[x]/(x^R - 1). -/
theorem modMul_el {p : Par} [NeZero p.R] (hp : POk p) {a b : List Nat} (ha : Pad p a)
    (hb : Pad p b) : el p.R (modMul p a b) = el p.R a * el p.R b := by
  have h := kar_pad hp ha hb
  unfold modMul
  rw [red_el hp h.1, h.2, map_mul, Q_el ha, Q_el hb]
  intro i hi
  rw [h.2]
  exact coeff_mul_zero _ _ (pad_coeff ha) (pad_coeff hb) i hi

/-! ## Squaring -/

theorem pow128 (x : (ZMod 2)[X]) : x ^ 128 = x ^ 64 * x ^ 64 := by
  rw [← pow_add]

theorem sq_ring (Y Z l h w r : (ZMod 2)[X]) (hZ : Z = Y * Y) (hs : l + Y * h = w * w) :
    l + Y * (h + Y * 0) + Z * (r * r) = (w + Y * r) * (w + Y * r) := by
  have two : (2 : (ZMod 2)[X]) = 0 := CharTwo.two_eq_zero
  rw [hZ]
  linear_combination hs - (Y * w * r) * two

theorem sq_step (m : Nat × Nat) (w : Nat) (ws x : List Nat) (hm : Wf2 m ∧ V m = P w * P w)
    (hx : Wf x) (i2 : PL x = PL ws * PL ws) :
    Wf ([m.1, m.2] ++ x) ∧ PL ([m.1, m.2] ++ x) = PL (w :: ws) * PL (w :: ws) := by
  obtain ⟨l, u⟩ := m
  obtain ⟨⟨hl, hu⟩, hv⟩ := hm
  unfold V at hv
  dsimp only at hl hu hv ⊢
  refine ⟨Wf_cons hl (Wf_cons hu hx), ?_⟩
  have e : PL ([l, u] ++ x) = P l + X ^ 64 * (P u + X ^ 64 * PL x) := rfl
  have e2 : PL (w :: ws) = P w + X ^ 64 * PL ws := rfl
  rw [e, e2, i2]
  clear e e2
  generalize (X : (ZMod 2)[X]) ^ 64 = Y at hv ⊢
  have := sq_ring Y (Y * Y) (P l) (P u) (P w) (PL ws) rfl hv
  rw [← this]
  ring

theorem P_sq_split (ws : List Nat) (h : Wf ws) :
    Wf (ws.flatMap fun w => [(mulBase w w).1, (mulBase w w).2]) ∧
      PL (ws.flatMap fun w => [(mulBase w w).1, (mulBase w w).2]) = PL ws * PL ws := by
  induction ws with
  | nil => exact ⟨Wf_nil, by simp [PL]⟩
  | cons w ws ih =>
    obtain ⟨i1, i2⟩ := ih (fun v hv => h v (List.mem_cons_of_mem _ hv))
    have hw := h w List.mem_cons_self
    have s := mulBase_spec w w hw hw
    rw [List.flatMap_cons]
    exact sq_step (mulBase w w) w ws _ s i1 i2

theorem flatMap_range (g : Nat → List Nat) (a : List Nat) (n : Nat) (h : n ≤ a.length) :
    ((List.range n).flatMap fun i => g (a.getD i 0)) = (a.take n).flatMap g := by
  have e : a.take n = (List.range n).map (fun i => a.getD i 0) := by
    apply List.ext_getElem
    · simp; omega
    · intro i h1 h2
      rw [List.getElem_take, List.getElem_map, List.getElem_range, List.getD_eq_getElem]
  rw [e, List.flatMap_map]

theorem sqr_eq (p : Par) (s a : List Nat) (ha : p.rq ≤ a.length) :
    sqr p s a = (a.take p.rq).flatMap (fun w => [(mulBase w w).1, (mulBase w w).2]) ++
      s.drop (2 * p.rq) := by
  rw [← flatMap_range _ a p.rq ha]
  rfl

theorem take_pad {p : Par} (hp : POk p) {a : List Nat} (ha : Pad p a) : PL (a.take p.rq) = PL a := by
  rw [PL_split a p.rq (by rw [ha.len]; exact hp.fit), PL_zero (pad_drop hp ha)]
  ring

theorem sqr_pad {p : Par} (hp : POk p) {a : List Nat} (ha : Pad p a) :
    Wf (sqr p (List.replicate (2 * p.pq) 0) a) ∧
      PL (sqr p (List.replicate (2 * p.pq) 0) a) = PL a * PL a := by
  rw [sqr_eq _ _ _ (by rw [ha.len]; exact hp.fit)]
  obtain ⟨h1, h2⟩ := P_sq_split (a.take p.rq) (Wf_take ha.wf _)
  refine ⟨Wf_append h1 (Wf_drop (Wf_replicate _) _), ?_⟩
  rw [PL_append, h2, take_pad hp ha, PL_zero (x := (List.replicate (2 * p.pq) 0).drop _)
    (fun w h => (List.mem_replicate.1 (List.mem_of_mem_drop h)).2)]
  ring

theorem modSqr_pad {p : Par} (hp : POk p) {a : List Nat} (ha : Pad p a) : Pad p (modSqr p a) :=
  red_pad hp (sqr_pad hp ha).1

theorem modSqr_el {p : Par} [NeZero p.R] (hp : POk p) {a : List Nat} (ha : Pad p a) :
    el p.R (modSqr p a) = el p.R a ^ 2 := by
  have h := sqr_pad hp ha
  unfold modSqr
  rw [red_el hp h.1, h.2, map_mul, Q_el ha, pow_two]
  intro i hi
  rw [h.2]
  exact coeff_mul_zero _ _ (pad_coeff ha) (pad_coeff ha) i hi

theorem repSqr_spec {p : Par} [NeZero p.R] (hp : POk p) (n : Nat) {a : List Nat} (ha : Pad p a) :
    Pad p (repSqr p n a) ∧ el p.R (repSqr p n a) = el p.R a ^ (2 ^ n) := by
  induction n generalizing a with
  | zero => exact ⟨ha, by simp [repSqr]⟩
  | succ n ih =>
    have h := ih (modSqr_pad hp ha)
    unfold repSqr
    refine ⟨h.1, ?_⟩
    rw [h.2, modSqr_el hp ha, ← pow_mul, pow_succ', Nat.mul_comm]

end LC.Bike
