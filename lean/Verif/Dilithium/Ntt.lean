import Verif.Dilithium.NttLemmas
import Verif.Kyber.Ntt
/-
C52: the NTT of ML-DSA and products in `Z_q[X]/(X^256 + 1)`.
-/
namespace LC.Dilithium
open LC.Ntt Polynomial
open LC.Kyber (Poly Byte upd mapLoop at8 b8 Same Fits fits_of mapLoop_spec mul_bound Bnd rep_iff)

/-! ### The root table -/

/-- `zetas[k] / 2^32`. -/
def zt (k : Nat) : Zq := ((zetas k : Int) : Zq) * rinv

/-- The constant of node `k` of the splitting tree. -/
def cI (k : Nat) : Int := if k ≤ 1 then -1 else if k % 2 = 0 then zetas (k / 2) * 8265825 else -(zetas (k / 2) * 8265825)

def cz (k : Nat) : Zq := ((cI k : Int) : Zq)

theorem zt_eq (k : Nat) : zt k = ((zetas k * 8265825 : Int) : Zq) := by unfold zt rinv; rw [Int.cast_mul]

theorem zetas_bound (k : Nat) : -4190208 ≤ zetas k ∧ zetas k ≤ 4190208 := by
  by_cases h : k < 256
  · revert k; decide +kernel
  · have : zetas k = 0 := by
      unfold zetas
      rw [List.getD_eq_getElem?_getD, List.getElem?_eq_none (Nat.le_trans (by decide +kernel : zetaList.length ≤ 256) (Nat.le_of_not_lt h))]
      rfl
    rw [this]; omega

theorem table_sq : ∀ k < 256, 1 ≤ k → (cI k - zetas k * 8265825 * (zetas k * 8265825)) % 8380417 = 0 := by decide +kernel

theorem table_inv : ∀ l < 8, ∀ b < 2 ^ l, (zetas (2 ^ l + b) * 8265825 * (zetas (2 * 2 ^ l - 1 - b) * 8265825) - (-1)) % 8380417 = 0 := by
  decide +kernel

theorem roots (k0 : Nat) (h0 : 1 ≤ k0) (h1 : k0 ≤ 128) : Roots k0 cz zt := by
  intro k hk1 hk2
  refine ⟨?_, ?_, ?_⟩
  · rw [zt_eq, ← Int.cast_mul]; exact zq_eq (table_sq k (by omega) (by omega))
  · unfold cz cI
    rw [if_neg (by omega), if_pos (by omega), show 2 * k / 2 = k by omega, zt_eq]
  · unfold cz cI
    rw [if_neg (by omega), if_neg (by omega), show (2 * k + 1) / 2 = k by omega, zt_eq, Int.cast_neg]

theorem zt_inv (l : Nat) (hl : l < 8) (b : Nat) (hb : b < 2 ^ l) : zt (2 ^ l + b) * zt (2 * 2 ^ l - 1 - b) = -1 := by
  rw [zt_eq, zt_eq, ← Int.cast_mul, zq_eq (table_inv l hl b hb), Int.cast_neg, Int.cast_one]

/-! ### Layers modulo q -/

theorem mont_zeta {k : Nat} {x : Int} (hx : -2147483648 ≤ x ∧ x ≤ 2147483648) :
    -8380416 ≤ montgomeryReduce (zetas k * x) ∧ montgomeryReduce (zetas k * x) ≤ 8380416 ∧
    ((montgomeryReduce (zetas k * x) : Int) : Zq) = zt k * (x : Zq) := by
  have hz := zetas_bound k
  have hb := mul_bound (A := 4190208) (B := 2147483648) hz hx
  obtain ⟨h1, h2, _⟩ := montgomery_reduce_exact_partial (zetas k * x) (by omega) (by omega)
  refine ⟨by omega, by omega, ?_⟩
  rw [montgomery_cast (by omega) (by omega), Int.cast_mul]
  unfold zt; ring

theorem mont_negzeta {k : Nat} {x : Int} (hx : -2147483648 ≤ x ∧ x ≤ 2147483648) :
    -8380416 ≤ montgomeryReduce (i32 (-zetas k) * x) ∧ montgomeryReduce (i32 (-zetas k) * x) ≤ 8380416 ∧
    ((montgomeryReduce (i32 (-zetas k) * x) : Int) : Zq) = zt k * (-(x : Zq)) := by
  have hz := zetas_bound k
  rw [i32_eq (by omega) (by omega)]
  have e : -zetas k * x = zetas k * (-x) := by ring
  have := mont_zeta (k := k) (x := -x) (by omega)
  rw [e]
  rw [Int.cast_neg] at this
  exact this

theorem layer_step {len k0 : Nat} (hf : Fits len) {B : Int} (hB : B + 8380416 ≤ 2147483647) {r : Poly} (hr : Bnd B r) :
    Bnd (B + 8380416) (layerI len k0 r) ∧
    ∀ i < 256, cast (layerI len k0 r) i = fwdLayer len (fun b => zt (k0 + b)) (cast r) i := by
  have key : ∀ i < 256, (-(B + 8380416) ≤ layerI len k0 r i ∧ layerI len k0 r i ≤ B + 8380416) ∧
      cast (layerI len k0 r) i = fwdLayer len (fun b => zt (k0 + b)) (cast r) i := by
    intro i hi
    obtain ⟨f1, f2⟩ := hf.2 i hi
    have hri := hr i hi
    by_cases hlt : i % (len + len) < len
    · have hrl := hr _ (f1 hlt)
      obtain ⟨g1, g2, g3⟩ := mont_zeta (k := k0 + i / (len + len)) (x := r (i + len)) (by omega)
      have e : layerI len k0 r i = r i + montgomeryReduce (zetas (k0 + i / (len + len)) * r (i + len)) := by
        unfold layerI; rw [if_pos hlt, i32_eq (by omega) (by omega)]
      refine ⟨by rw [e]; omega, ?_⟩
      unfold cast fwdLayer
      dsimp only
      rw [e, if_pos hlt, Int.cast_add, g3]
    · have hrl := hr (i - len) (by omega)
      obtain ⟨g1, g2, g3⟩ := mont_zeta (k := k0 + i / (len + len)) (x := r i) (by omega)
      have e : layerI len k0 r i = r (i - len) - montgomeryReduce (zetas (k0 + i / (len + len)) * r i) := by
        unfold layerI; rw [if_neg hlt, i32_eq (by omega) (by omega)]
      refine ⟨by rw [e]; omega, ?_⟩
      unfold cast fwdLayer
      dsimp only
      rw [e, if_neg hlt, Int.cast_sub, g3]
  exact ⟨fun i hi => (key i hi).1, fun i hi => (key i hi).2⟩

theorem layer_split {len k0 : Nat} (hf : Fits len) (h0 : 1 ≤ k0) (h1 : k0 ≤ 128) (hn : len * (2 * k0) = 256) {B : Int} (hB : B + 8380416 ≤ 2147483647) {r : Poly} (hr : Bnd B r)
    {P : Zq[X]} (h : Split (len + len) k0 cz (cast r) P) : Split len (2 * k0) cz (cast (layerI len k0 r)) P := by
  refine Split.congr ?_ (h.fwd (roots k0 h0 h1))
  intro i hi
  rw [hn] at hi
  exact ((layer_step hf hB hr).2 i hi).symm

theorem cast_same {a b : Poly} (h : Same a b) : ∀ i < 256, cast a i = cast b i := fun i hi => by
  unfold cast; rw [h i hi]

/-- `ntt` splits: no `int32_t` overflow, and entry `b` of the result is the value of the polynomial at
`cz (256 + b)`. -/
theorem ntt_split {B : Int} (hB : B ≤ 2080440319) {r : Poly} (hr : Bnd B r) :
    Bnd (B + 67043328) (ntt r) ∧ Split 1 256 cz (cast (ntt r)) (toPoly 256 (cast r)) := by
  have s0 : Split (128 + 128) 1 cz (cast r) (toPoly 256 (cast r)) := by
    intro b hb
    have : b = 0 := by omega
    subst this
    exact (Rep.self 256 _ (cast r)).congr fun j _ => by rw [Nat.mul_zero, Nat.zero_add]
  have b1 := (layer_step (k0 := 1) (fits_of (len := 128) (by decide)) (by omega) hr).1
  have s1 := layer_split (len := 128) (fits_of (by decide)) (by decide) (by decide) (by decide) (by omega) hr s0
  have b2 := (layer_step (k0 := 2) (fits_of (len := 64) (by decide)) (by omega) b1).1
  have s2 := layer_split (len := 64) (fits_of (by decide)) (by decide) (by decide) (by decide) (by omega) b1 s1
  have b3 := (layer_step (k0 := 4) (fits_of (len := 32) (by decide)) (by omega) b2).1
  have s3 := layer_split (len := 32) (fits_of (by decide)) (by decide) (by decide) (by decide) (by omega) b2 s2
  have b4 := (layer_step (k0 := 8) (fits_of (len := 16) (by decide)) (by omega) b3).1
  have s4 := layer_split (len := 16) (fits_of (by decide)) (by decide) (by decide) (by decide) (by omega) b3 s3
  have b5 := (layer_step (k0 := 16) (fits_of (len := 8) (by decide)) (by omega) b4).1
  have s5 := layer_split (len := 8) (fits_of (by decide)) (by decide) (by decide) (by decide) (by omega) b4 s4
  have b6 := (layer_step (k0 := 32) (fits_of (len := 4) (by decide)) (by omega) b5).1
  have s6 := layer_split (len := 4) (fits_of (by decide)) (by decide) (by decide) (by decide) (by omega) b5 s5
  have b7 := (layer_step (k0 := 64) (fits_of (len := 2) (by decide)) (by omega) b6).1
  have s7 := layer_split (len := 2) (fits_of (by decide)) (by decide) (by decide) (by decide) (by omega) b6 s6
  have b8 := (layer_step (k0 := 128) (fits_of (len := 1) (by decide)) (by omega) b7).1
  have s8 := layer_split (len := 1) (fits_of (by decide)) (by decide) (by decide) (by decide) (by omega) b7 s7
  refine ⟨(b8.same (ntt_layers r)).mono (by omega), ?_⟩
  exact Split.congr (fun i hi => (cast_same (ntt_layers r) i hi).symm) s8

theorem invLayer_step {len kt : Nat} (hf : Fits len) (hkt : 1 ≤ kt) {B : Int} (hB1 : 4190208 ≤ B) (hB : B ≤ 1073741823) {r : Poly} (hr : Bnd B r) :
    Bnd (2 * B) (invLayerI len kt r) ∧
    ∀ i < 256, cast (invLayerI len kt r) i = invLayer len (fun b => zt (kt - 1 - b)) (cast r) i := by
  have key : ∀ i < 256, (-(2 * B) ≤ invLayerI len kt r i ∧ invLayerI len kt r i ≤ 2 * B) ∧
      cast (invLayerI len kt r) i = invLayer len (fun b => zt (kt - 1 - b)) (cast r) i := by
    intro i hi
    obtain ⟨f1, f2⟩ := hf.2 i hi
    have hri := hr i hi
    by_cases hlt : i % (len + len) < len
    · have hrl := hr _ (f1 hlt)
      have e : invLayerI len kt r i = r i + r (i + len) := by
        unfold invLayerI; rw [if_pos hlt, i32_eq (by omega) (by omega)]
      refine ⟨by rw [e]; omega, ?_⟩
      unfold cast invLayer
      dsimp only
      rw [e, if_pos hlt, Int.cast_add]
    · have hrl := hr (i - len) (by omega)
      obtain ⟨g1, g2, g3⟩ := mont_negzeta (k := kt - i / (len + len) - 1) (x := r (i - len) - r i) (by omega)
      have e : invLayerI len kt r i = montgomeryReduce (i32 (-zetas (kt - i / (len + len) - 1)) * (r (i - len) - r i)) := by
        unfold invLayerI; rw [if_neg hlt, i32_eq (x := r (i - len) - r i) (by omega) (by omega)]
      refine ⟨by rw [e]; omega, ?_⟩
      unfold cast invLayer
      dsimp only
      rw [e, if_neg hlt, g3, Int.cast_sub, show kt - 1 - i / (len + len) = kt - i / (len + len) - 1 by omega]
      ring
  exact ⟨fun i hi => (key i hi).1, fun i hi => (key i hi).2⟩

theorem half : (2 : Zq) * ((4190209 : Int) : Zq) = 1 := by
  have : ((2 * 4190209 : Int) : Zq) = ((1 : Int) : Zq) := zq_eq (by decide)
  rw [Int.cast_mul, Int.cast_one] at this
  exact this

theorem invLayer_split {len l : Nat} (hl : l < 8) (hf : Fits len) (hn : (len + len) * 2 ^ l = 256) {B : Int} (hB1 : 4190208 ≤ B) (hB : B ≤ 1073741823)
    {r : Poly} (hr : Bnd B r)
    {P : Zq[X]} (h : Split len (2 * 2 ^ l) cz (cast r) P) :
    Split (len + len) (2 ^ l) cz (cast (invLayerI len (2 * 2 ^ l) r)) (C 2 * P) := by
  have h1 : 1 ≤ 2 ^ l := Nat.one_le_two_pow
  have h2 : 2 ^ l ≤ 128 := by
    have : 2 ^ l ≤ 2 ^ 7 := Nat.pow_le_pow_right (by omega) (by omega)
    omega
  refine Split.congr ?_ (h.inv half (roots (2 ^ l) h1 h2) (w := fun b => zt (2 * 2 ^ l - 1 - b)) (fun b hb => zt_inv l hl b hb))
  intro i hi
  rw [hn] at hi
  exact ((invLayer_step hf (by omega) hB1 hB hr).2 i hi).symm

/-- `invntt_tomont` recombines and multiplies by `2^32`; its results stay below `0.51 q`. -/
theorem invntt_rep {r : Poly} (hr : Bnd 8388607 r) {P : Zq[X]} (h : Split 1 256 cz (cast r) P) :
    Bnd 4211197 (invntt r) ∧ Rep 256 (-1) (cast (invntt r)) (C ((4294967296 : Int) : Zq) * P) := by
  have b1 := (invLayer_step (kt := 256) (fits_of (len := 1) (by decide)) (by decide) (by decide) (by decide) hr).1
  have s1 := invLayer_split (len := 1) (l := 7) (by decide) (fits_of (by decide)) (by decide) (by decide) (by decide) hr h
  have b2 := (invLayer_step (kt := 128) (fits_of (len := 2) (by decide)) (by decide) (by decide) (by decide) b1).1
  have s2 := invLayer_split (len := 2) (l := 6) (by decide) (fits_of (by decide)) (by decide) (by decide) (by decide) b1 s1
  have b3 := (invLayer_step (kt := 64) (fits_of (len := 4) (by decide)) (by decide) (by decide) (by decide) b2).1
  have s3 := invLayer_split (len := 4) (l := 5) (by decide) (fits_of (by decide)) (by decide) (by decide) (by decide) b2 s2
  have b4 := (invLayer_step (kt := 32) (fits_of (len := 8) (by decide)) (by decide) (by decide) (by decide) b3).1
  have s4 := invLayer_split (len := 8) (l := 4) (by decide) (fits_of (by decide)) (by decide) (by decide) (by decide) b3 s3
  have b5 := (invLayer_step (kt := 16) (fits_of (len := 16) (by decide)) (by decide) (by decide) (by decide) b4).1
  have s5 := invLayer_split (len := 16) (l := 3) (by decide) (fits_of (by decide)) (by decide) (by decide) (by decide) b4 s4
  have b6 := (invLayer_step (kt := 8) (fits_of (len := 32) (by decide)) (by decide) (by decide) (by decide) b5).1
  have s6 := invLayer_split (len := 32) (l := 2) (by decide) (fits_of (by decide)) (by decide) (by decide) (by decide) b5 s5
  have b7 := (invLayer_step (kt := 4) (fits_of (len := 64) (by decide)) (by decide) (by decide) (by decide) b6).1
  have s7 := invLayer_split (len := 64) (l := 1) (by decide) (fits_of (by decide)) (by decide) (by decide) (by decide) b6 s6
  have b8 := (invLayer_step (kt := 2) (fits_of (len := 128) (by decide)) (by decide) (by decide) (by decide) b7).1
  have s8 := invLayer_split (len := 128) (l := 0) (by decide) (fits_of (by decide)) (by decide) (by decide) (by decide) b7 s7
  have hl := invntt_layers r
  have r8 := s8 0 (by decide)
  have hc : cz (2 ^ 0 + 0) = -1 := by
    unfold cz cI
    rw [if_pos (by decide), Int.cast_neg, Int.cast_one]
  rw [hc] at r8
  have hb8 : Bnd 2147483392 (invLayerI 128 2 (invLayerI 64 4 (invLayerI 32 8 (invLayerI 16 16 (invLayerI 8 32 (invLayerI 4 64 (invLayerI 2 128 (invLayerI 1 256 r)))))))) :=
    b8.mono (by decide)
  constructor
  · intro i hi
    rw [hl i hi]
    have hb := hb8 i hi
    dsimp only
    generalize invLayerI 128 2 _ i = v at hb ⊢
    have := montgomery_bound (41978 * v) (by omega) (by omega)
    omega
  · have hP : (C ((4294967296 : Int) : Zq) * P : Zq[X]) = C ((16777216 : Int) : Zq) * (C 2 * (C 2 * (C 2 * (C 2 * (C 2 * (C 2 * (C 2 * (C 2 * P)))))))) := by
      have h256 : ((4294967296 : Int) : Zq) = ((16777216 : Int) : Zq) * (2 * (2 * (2 * (2 * (2 * (2 * (2 * 2))))))) := by
        rw [show (4294967296 : Int) = 16777216 * 256 by decide, Int.cast_mul]
        norm_num
      rw [h256]
      simp only [C_mul]
      ring
    rw [hP]
    refine (r8.smul _).congr fun i hi => ?_
    unfold cast
    rw [hl i hi]
    have hb := hb8 i hi
    rw [Nat.mul_zero, Nat.zero_add]
    show _ * ((invLayerI 128 2 _ i : Int) : Zq) = _
    dsimp only
    generalize invLayerI 128 2 _ i = v at hb ⊢
    rw [montgomery_cast (by omega) (by omega), Int.cast_mul]
    have hf : ((16777216 : Int) : Zq) = ((41978 : Int) : Zq) * rinv := by
      unfold rinv
      rw [← Int.cast_mul]
      exact zq_eq (by decide)
    rw [hf]
    ring

/-! ### Products -/

/-- `poly_pointwise_montgomery` multiplies, with a factor `2^-32`. -/
theorem polyPointwise_split {A B : Int} (hAB : A * B < 8380417 * 2147483648) {a b : Poly} (ha : Bnd A a) (hb : Bnd B b)
    {P Q : Zq[X]} (hP : Split 1 256 cz (cast a) P) (hQ : Split 1 256 cz (cast b) Q) :
    Bnd 8380416 (polyPointwise a b) ∧ Split 1 256 cz (cast (polyPointwise a b)) (C rinv * (P * Q)) := by
  constructor
  · intro i hi
    have hm := mul_bound (ha i hi) (hb i hi)
    unfold polyPointwise
    have := montgomery_reduce_exact_partial (a i * b i) (by omega) (by omega)
    omega
  · intro y hy
    have hm := mul_bound (ha y hy) (hb y hy)
    have h := (Rep.mul1 (hP y hy) (hQ y hy) (fun j => cast a (1 * y + j) * cast b (1 * y + j)) rfl).smul rinv
    refine h.congr fun j hj => ?_
    have : j = 0 := by omega
    subst this
    unfold cast polyPointwise
    rw [show 1 * y + 0 = y by omega, montgomery_cast (by omega) (by omega), Int.cast_mul]
    ring

/-! ### C52 -/

/-- Reversal of eight bits, FIPS 204 section 7.5. -/
def Spec.bitRev8 (b : Nat) : Nat :=
  (List.range 8).foldl (fun acc i => acc + b / 2 ^ i % 2 * 2 ^ (7 - i)) 0

theorem node_eq : ∀ b < 256, (cI (256 + b) - 1753 ^ (2 * Spec.bitRev8 b + 1)) % 8380417 = 0 := by decide +kernel

/-- The polynomial with the given coefficients, over the integers modulo `q`. -/
noncomputable def Spec.poly (r : Poly) : Zq[X] := ∑ i ∈ Finset.range 256, C ((r i : Int) : Zq) * X ^ i

theorem poly_eq (r : Poly) : Spec.poly r = toPoly 256 (cast r) := by unfold Spec.poly toPoly cast; rfl

theorem rep_iff' {n : Nat} {f : Nat → Zq} {P : Zq[X]} : Rep n (-1) f P ↔ (X ^ n + 1) ∣ P - toPoly n f := by
  unfold Rep
  rw [C_neg, C_1, sub_neg_eq_add]

/-- **C52 (forward)**: for every polynomial with `int32_t` coefficients up to `2^31 - 8 q` in absolute
value `ntt` does not leave `int32_t`, and entry `b` of its result is the value of the polynomial at
`1753^(2 BitRev8(b) + 1)`: the transform of FIPS 204 section 2.5 and 7.5, in normal order. -/
theorem ntt_is_fips204 (r : Poly) (hr : ∀ i < 256, -2080440319 ≤ r i ∧ r i ≤ 2080440319) :
    (∀ i < 256, -2147483647 ≤ ntt r i ∧ ntt r i ≤ 2147483647) ∧
    ∀ b < 256, ((ntt r b : Int) : Zq) = (Spec.poly r).eval ((1753 : Zq) ^ (2 * Spec.bitRev8 b + 1)) := by
  obtain ⟨h1, h2⟩ := ntt_split (Int.le_refl 2080440319) hr
  refine ⟨fun i hi => by have := h1 i hi; omega, fun b hb => ?_⟩
  have h := h2 b hb
  have hc : cz (256 + b) = (1753 : Zq) ^ (2 * Spec.bitRev8 b + 1) := by
    unfold cz
    rw [zq_eq (node_eq b hb), Int.cast_pow, Int.cast_ofNat]
  rw [hc] at h
  unfold Rep at h
  have e : ∀ f : Nat → Zq, toPoly 1 f = C (f 0) := by
    intro f; unfold toPoly; rw [Finset.sum_range_succ, Finset.sum_range_zero]; ring
  rw [e] at h
  rw [poly_eq]
  obtain ⟨w, hw⟩ := h
  have := congrArg (fun p => p.eval ((1753 : Zq) ^ (2 * Spec.bitRev8 b + 1))) hw
  rw [eval_sub, eval_mul, eval_sub, eval_pow, eval_X, eval_C, eval_C, pow_one, sub_self, zero_mul, sub_eq_zero] at this
  rw [this, show 1 * b + 0 = b by omega]
  rfl

/-- **C52 (product)**: for all polynomials with coefficients below `q` in absolute value: transforming
both, multiplying pointwise and transforming back gives the product modulo `q` and `X^256 + 1`; the
factors `2^-32` and `2^32` cancel; nothing overflows. -/
theorem ntt_product (a b : Poly) (ha : ∀ i < 256, -8380417 ≤ a i ∧ a i ≤ 8380417) (hb : ∀ i < 256, -8380417 ≤ b i ∧ b i ≤ 8380417) :
    (∀ i < 256, -8380417 < invntt (polyPointwise (ntt a) (ntt b)) i ∧ invntt (polyPointwise (ntt a) (ntt b)) i < 8380417) ∧
    (X ^ 256 + 1) ∣ Spec.poly a * Spec.poly b - Spec.poly (invntt (polyPointwise (ntt a) (ntt b))) := by
  obtain ⟨a1, a2⟩ := ntt_split (B := 8380417) (by decide) ha
  obtain ⟨b1, b2⟩ := ntt_split (B := 8380417) (by decide) hb
  obtain ⟨m1, m2⟩ := polyPointwise_split (by decide) a1 b1 a2 b2
  obtain ⟨i1, i2⟩ := invntt_rep (m1.mono (by decide)) m2
  refine ⟨fun i hi => by have := i1 i hi; omega, ?_⟩
  have hone : ((4294967296 : Int) : Zq) * rinv = 1 := by
    unfold rinv
    rw [← Int.cast_mul, zq_eq (b := 1) (by decide), Int.cast_one]
  rw [← mul_assoc, ← C_mul, hone, C_1, one_mul] at i2
  rw [poly_eq, poly_eq, poly_eq]
  exact rep_iff'.1 i2

theorem cast_sum (f : Nat → Int) : ∀ n, ((((List.range n).map f).sum : Int) : Zq) = ∑ i ∈ Finset.range n, ((f i : Int) : Zq)
  | 0 => by simp
  | n + 1 => by
    rw [List.range_succ, List.map_append, List.sum_append, Int.cast_add, cast_sum f n, Finset.sum_range_succ]
    simp

/-- **C52 (product, coefficients)**: coefficient `k` of the result is, modulo `q`,
`sum_{i<=k} a_i b_{k-i} - sum_{i>k} a_i b_{256+k-i}` (`LC.Kyber.Spec.negacyclic`). -/
theorem ntt_convolution (a b : Poly) (ha : ∀ i < 256, -8380417 ≤ a i ∧ a i ≤ 8380417) (hb : ∀ i < 256, -8380417 ≤ b i ∧ b i ≤ 8380417)
    (k : Nat) (hk : k < 256) :
    (invntt (polyPointwise (ntt a) (ntt b)) k - LC.Kyber.Spec.negacyclic a b k) % 8380417 = 0 := by
  have h1 := (ntt_product a b ha hb).2
  rw [poly_eq, poly_eq, poly_eq] at h1
  have h2 := (Rep.self 256 (-1 : Zq) (cast b)).conv (cast a)
  have h3 : Rep 256 (-1 : Zq) (cast (invntt (polyPointwise (ntt a) (ntt b)))) (toPoly 256 (cast a) * toPoly 256 (cast b)) := by
    exact rep_iff'.2 h1
  have h4 := Rep.unique (by decide) h3 h2 k hk
  refine Int.emod_eq_zero_of_dvd ((ZMod.intCast_zmod_eq_zero_iff_dvd _ 8380417).1 ?_)
  rw [Int.cast_sub, sub_eq_zero]
  refine h4.trans ?_
  unfold LC.Kyber.Spec.negacyclic
  rw [cast_sum]
  refine Finset.sum_congr rfl fun i _ => ?_
  unfold cast
  by_cases h : i ≤ k
  · rw [if_pos h, if_pos h, Int.cast_mul]
  · rw [if_neg h, if_neg h, Int.cast_neg, Int.cast_mul]; ring

/-- **C52 (inverse)**: `invntt_tomont` after `ntt` and a reduction multiplies every coefficient by
`2^32` modulo `q`. -/
theorem ntt_roundtrip (a : Poly) (ha : ∀ i < 256, -8380417 ≤ a i ∧ a i ≤ 8380417) (i : Nat) (hi : i < 256) :
    (invntt (polyReduce (ntt a)) i - 4294967296 * a i) % 8380417 = 0 := by
  obtain ⟨a1, a2⟩ := ntt_split (B := 8380417) (by decide) ha
  have r1 : Bnd 8388607 (polyReduce (ntt a)) := fun i hi => by
    have := a1 i hi
    have := reduce32_exact_partial (ntt a i) (by omega) (by omega)
    unfold polyReduce; omega
  have r2 : Split 1 256 cz (cast (polyReduce (ntt a))) (toPoly 256 (cast a)) := by
    refine Split.congr (fun i hi => ?_) a2
    have := a1 i (by omega)
    unfold cast polyReduce
    exact (zq_eq (reduce32_exact_partial (ntt a i) (by omega) (by omega)).2.2.1).symm
  obtain ⟨-, i2⟩ := invntt_rep r1 r2
  have hs := (Rep.self 256 (-1 : Zq) (cast a)).smul ((4294967296 : Int) : Zq)
  have := Rep.unique (by decide) i2 hs i hi
  unfold cast at this
  have h2 : ((invntt (polyReduce (ntt a)) i - 4294967296 * a i : Int) : Zq) = 0 := by
    rw [Int.cast_sub, this, Int.cast_mul]
    exact sub_self _
  exact Int.emod_eq_zero_of_dvd ((ZMod.intCast_zmod_eq_zero_iff_dvd _ 8380417).1 h2)

/-- A polynomial meeting the hypotheses. -/
example : ∀ i < 256, -8380417 ≤ (fun i : Nat => (i : Int) * 65000 - 8380417) i ∧ (fun i : Nat => (i : Int) * 65000 - 8380417) i ≤ 8380417 := by
  intro i hi; dsimp only; omega

end LC.Dilithium
