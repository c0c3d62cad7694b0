import Verif.Kyber.NttLemmas
/-
C42: the NTT of ML-KEM and products in `Z_q[X]/(X^256 + 1)`.
-/
namespace LC.Kyber
open LC.Ntt Polynomial

/-- Every entry is at most `B` in absolute value. -/
def Bnd (B : Int) (r : Poly) : Prop := ∀ i < 256, -B ≤ r i ∧ r i ≤ B

theorem Bnd.mono {B B' : Int} {r : Poly} (h : Bnd B r) (hb : B ≤ B') : Bnd B' r :=
  fun i hi => ⟨by have := h i hi; omega, by have := h i hi; omega⟩

theorem Bnd.same {B : Int} {r s : Poly} (h : Bnd B r) (e : Same s r) : Bnd B s := fun i hi => by rw [e i hi]; exact h i hi

/-! ### The root table -/

/-- `zetas[k] / 2^16`. -/
def zt (k : Nat) : Zq := ((zetas k : Int) : Zq) * 169

/-- The constant of node `k` of the splitting tree. -/
def cI (k : Nat) : Int := if k ≤ 1 then -1 else if k % 2 = 0 then zetas (k / 2) * 169 else -(zetas (k / 2) * 169)

def cz (k : Nat) : Zq := ((cI k : Int) : Zq)

theorem zt_eq (k : Nat) : zt k = ((zetas k * 169 : Int) : Zq) := by unfold zt; rw [Int.cast_mul]; rfl

theorem zetas_bound (k : Nat) : -1664 ≤ zetas k ∧ zetas k ≤ 1664 := by
  by_cases h : k < 128
  · revert k; decide +kernel
  · have : zetas k = 0 := by
      unfold zetas
      rw [List.getD_eq_getElem?_getD, List.getElem?_eq_none (by simpa [zetaList] using h)]
      rfl
    rw [this]; omega

theorem table_sq : ∀ k < 128, 1 ≤ k → (cI k - zetas k * 169 * (zetas k * 169)) % 3329 = 0 := by decide +kernel

theorem table_inv : ∀ l < 7, ∀ b < 2 ^ l, (zetas (2 ^ l + b) * 169 * (zetas (2 * 2 ^ l - 1 - b) * 169) - (-1)) % 3329 = 0 := by
  decide +kernel

theorem roots (k0 : Nat) (h0 : 1 ≤ k0) (h1 : k0 ≤ 64) : Roots k0 cz zt := by
  intro k hk1 hk2
  refine ⟨?_, ?_, ?_⟩
  · rw [zt_eq, ← Int.cast_mul]; exact zq_eq (table_sq k (by omega) (by omega))
  · unfold cz cI
    rw [if_neg (by omega), if_pos (by omega), show 2 * k / 2 = k by omega, zt_eq]
  · unfold cz cI
    rw [if_neg (by omega), if_neg (by omega), show (2 * k + 1) / 2 = k by omega, zt_eq, Int.cast_neg]

theorem zt_inv (l : Nat) (hl : l < 7) (b : Nat) (hb : b < 2 ^ l) : zt (2 ^ l + b) * zt (2 * 2 ^ l - 1 - b) = -1 := by
  rw [zt_eq, zt_eq, ← Int.cast_mul, zq_eq (table_inv l hl b hb), Int.cast_neg, Int.cast_one]

/-! ### Layers modulo q -/

theorem fqmul_zeta {k : Nat} {x : Int} (hx : -32768 ≤ x ∧ x ≤ 32768) :
    -3328 ≤ fqmul (zetas k) x ∧ fqmul (zetas k) x ≤ 3328 ∧ ((fqmul (zetas k) x : Int) : Zq) = zt k * (x : Zq) := by
  have hz := zetas_bound k
  have hb := mul_bound (A := 1664) (B := 32768) hz hx
  obtain ⟨h1, h2, _⟩ := fqmul_exact (zetas k) x (by omega) (by omega)
  refine ⟨by omega, by omega, ?_⟩
  rw [fqmul_cast (by omega) (by omega)]
  unfold zt; ring

theorem layer_step {len k0 : Nat} (hf : Fits len) {B : Int} (hB : B + 3328 ≤ 32767) {r : Poly} (hr : Bnd B r) :
    Bnd (B + 3328) (layerI len k0 r) ∧
    ∀ i < 256, cast (layerI len k0 r) i = fwdLayer len (fun b => zt (k0 + b)) (cast r) i := by
  have key : ∀ i < 256, (-(B + 3328) ≤ layerI len k0 r i ∧ layerI len k0 r i ≤ B + 3328) ∧
      cast (layerI len k0 r) i = fwdLayer len (fun b => zt (k0 + b)) (cast r) i := by
    intro i hi
    obtain ⟨f1, f2⟩ := hf.2 i hi
    have hri := hr i hi
    by_cases hlt : i % (len + len) < len
    · have hrl := hr _ (f1 hlt)
      obtain ⟨g1, g2, g3⟩ := fqmul_zeta (k := k0 + i / (len + len)) (x := r (i + len)) (by omega)
      have e : layerI len k0 r i = r i + fqmul (zetas (k0 + i / (len + len))) (r (i + len)) := by
        unfold layerI; rw [if_pos hlt, i16_eq (by omega) (by omega)]
      refine ⟨by rw [e]; omega, ?_⟩
      unfold cast fwdLayer
      dsimp only
      rw [e, if_pos hlt, Int.cast_add, g3]
    · have hrl := hr (i - len) (by omega)
      obtain ⟨g1, g2, g3⟩ := fqmul_zeta (k := k0 + i / (len + len)) (x := r i) (by omega)
      have e : layerI len k0 r i = r (i - len) - fqmul (zetas (k0 + i / (len + len))) (r i) := by
        unfold layerI; rw [if_neg hlt, i16_eq (by omega) (by omega)]
      refine ⟨by rw [e]; omega, ?_⟩
      unfold cast fwdLayer
      dsimp only
      rw [e, if_neg hlt, Int.cast_sub, g3]
  exact ⟨fun i hi => (key i hi).1, fun i hi => (key i hi).2⟩

theorem layer_split {len k0 : Nat} (hf : Fits len) (h0 : 1 ≤ k0) (h1 : k0 ≤ 64) (hn : len * (2 * k0) = 256) {B : Int} (hB : B + 3328 ≤ 32767) {r : Poly} (hr : Bnd B r)
    {P : Zq[X]} (h : Split (len + len) k0 cz (cast r) P) : Split len (2 * k0) cz (cast (layerI len k0 r)) P := by
  refine Split.congr ?_ (h.fwd (roots k0 h0 h1))
  intro i hi
  rw [hn] at hi
  exact ((layer_step hf hB hr).2 i hi).symm

theorem cast_same {a b : Poly} (h : Same a b) : ∀ i < 256, cast a i = cast b i := fun i hi => by
  unfold cast; rw [h i hi]

/-- `kyber_ntt` splits: no `int16_t` overflow, and block `b` of the result is the polynomial modulo
`X^2 - cz (128 + b)`. -/
theorem kyberNtt_split {B : Int} (hB : B ≤ 9471) {r : Poly} (hr : Bnd B r) :
    Bnd (B + 23296) (kyberNtt r) ∧ Split 2 128 cz (cast (kyberNtt r)) (toPoly 256 (cast r)) := by
  have s0 : Split (128 + 128) 1 cz (cast r) (toPoly 256 (cast r)) := by
    intro b hb
    have : b = 0 := by omega
    subst this
    exact (Rep.self 256 _ (cast r)).congr fun j _ => by rw [Nat.mul_zero, Nat.zero_add]
  have b1 := (layer_step (k0 := 1) (fits_of (len := 128) (by decide)) (by omega) hr).1
  have s1 := layer_split (fits_of (by decide)) (by decide) (by decide) (by decide) (by omega) hr s0
  have b2 := (layer_step (k0 := 2) (fits_of (len := 64) (by decide)) (by omega) b1).1
  have s2 := layer_split (len := 64) (fits_of (by decide)) (by decide) (by decide) (by decide) (by omega) b1 s1
  have b3 := (layer_step (k0 := 4) (fits_of (len := 32) (by decide)) (by omega) b2).1
  have s3 := layer_split (len := 32) (fits_of (by decide)) (by decide) (by decide) (by decide) (by omega) b2 s2
  have b4 := (layer_step (k0 := 8) (fits_of (len := 16) (by decide)) (by omega) b3).1
  have s4 := layer_split (len := 16) (fits_of (by decide)) (by decide) (by decide) (by decide) (by omega) b3 s3
  have b5 := (layer_step (k0 := 16) (fits_of (len := 8) (by decide)) (by omega) b4).1
  have s5 := layer_split (len := 8) (fits_of (by decide)) (by decide) (by decide) (by decide) (by omega) b4 s4
  have b6 := (layer_step (k0 := 32) (fits_of (len := 4) (by decide)) (by omega) b5).1
  have s6 := layer_split (len := 4) (fits_of (by decide)) (by decide) (by decide) (by decide) (by omega) b5 s5
  have b7 := (layer_step (k0 := 64) (fits_of (len := 2) (by decide)) (by omega) b6).1
  have s7 := layer_split (len := 2) (fits_of (by decide)) (by decide) (by decide) (by decide) (by omega) b6 s6
  refine ⟨(b7.same (kyberNtt_layers r)).mono (by omega), ?_⟩
  exact Split.congr (fun i hi => (cast_same (kyberNtt_layers r) i hi).symm) s7

theorem invLayer_step {len kt : Nat} (hf : Fits len) {r : Poly} (hr : Bnd 16383 r) :
    Bnd 3328 (invLayerI len kt r) ∧
    ∀ i < 256, cast (invLayerI len kt r) i = invLayer len (fun b => zt (kt - b)) (cast r) i := by
  have key : ∀ i < 256, (-3328 ≤ invLayerI len kt r i ∧ invLayerI len kt r i ≤ 3328) ∧
      cast (invLayerI len kt r) i = invLayer len (fun b => zt (kt - b)) (cast r) i := by
    intro i hi
    obtain ⟨f1, f2⟩ := hf.2 i hi
    have hri := hr i hi
    by_cases hlt : i % (len + len) < len
    · have hrl := hr _ (f1 hlt)
      have e : invLayerI len kt r i = barrettReduce (r i + r (i + len)) := by
        unfold invLayerI; rw [if_pos hlt, i16_eq (by omega) (by omega)]
      have hb := barrett_reduce_exact (r i + r (i + len)) (by omega) (by omega)
      refine ⟨by rw [e]; omega, ?_⟩
      unfold cast invLayer
      dsimp only
      rw [e, if_pos hlt, barrett_cast (by omega) (by omega), Int.cast_add]
    · have hrl := hr (i - len) (by omega)
      obtain ⟨g1, g2, g3⟩ := fqmul_zeta (k := kt - i / (len + len)) (x := r i - r (i - len)) (by omega)
      have e : invLayerI len kt r i = fqmul (zetas (kt - i / (len + len))) (r i - r (i - len)) := by
        unfold invLayerI; rw [if_neg hlt, i16_eq (by omega) (by omega)]
      refine ⟨by rw [e]; omega, ?_⟩
      unfold cast invLayer
      dsimp only
      rw [e, if_neg hlt, g3, Int.cast_sub]
  exact ⟨fun i hi => (key i hi).1, fun i hi => (key i hi).2⟩

theorem invLayer_split {len l : Nat} (hl : l < 7) (hf : Fits len) (hn : (len + len) * 2 ^ l = 256) {r : Poly} (hr : Bnd 16383 r)
    {P : Zq[X]} (h : Split len (2 * 2 ^ l) cz (cast r) P) :
    Split (len + len) (2 ^ l) cz (cast (invLayerI len (2 * 2 ^ l - 1) r)) (C 2 * P) := by
  have hu : (2 : Zq) * 1665 = 1 := by decide
  have h1 : 1 ≤ 2 ^ l := Nat.one_le_two_pow
  have h2 : 2 ^ l ≤ 64 := by
    have : 2 ^ l ≤ 2 ^ 6 := Nat.pow_le_pow_right (by omega) (by omega)
    omega
  refine Split.congr ?_ (h.inv hu (roots (2 ^ l) h1 h2) (w := fun b => zt (2 * 2 ^ l - 1 - b)) (fun b hb => zt_inv l hl b hb))
  intro i hi
  rw [hn] at hi
  exact ((invLayer_step hf hr).2 i hi).symm

/-- `kyber_invntt` recombines and multiplies by `2^16`. -/
theorem kyberInvntt_rep {r : Poly} (hr : Bnd 16383 r) {P : Zq[X]} (h : Split 2 128 cz (cast r) P) :
    Bnd 3328 (kyberInvntt r) ∧ Rep 256 (-1) (cast (kyberInvntt r)) (C 65536 * P) := by
  have b1 := (invLayer_step (kt := 127) (fits_of (len := 2) (by decide)) hr).1.mono (B' := 16383) (by decide)
  have s1 := invLayer_split (len := 2) (l := 6) (by decide) (fits_of (by decide)) (by decide) hr h
  have b2 := (invLayer_step (kt := 63) (fits_of (len := 4) (by decide)) b1).1.mono (B' := 16383) (by decide)
  have s2 := invLayer_split (len := 4) (l := 5) (by decide) (fits_of (by decide)) (by decide) b1 s1
  have b3 := (invLayer_step (kt := 31) (fits_of (len := 8) (by decide)) b2).1.mono (B' := 16383) (by decide)
  have s3 := invLayer_split (len := 8) (l := 4) (by decide) (fits_of (by decide)) (by decide) b2 s2
  have b4 := (invLayer_step (kt := 15) (fits_of (len := 16) (by decide)) b3).1.mono (B' := 16383) (by decide)
  have s4 := invLayer_split (len := 16) (l := 3) (by decide) (fits_of (by decide)) (by decide) b3 s3
  have b5 := (invLayer_step (kt := 7) (fits_of (len := 32) (by decide)) b4).1.mono (B' := 16383) (by decide)
  have s5 := invLayer_split (len := 32) (l := 2) (by decide) (fits_of (by decide)) (by decide) b4 s4
  have b6 := (invLayer_step (kt := 3) (fits_of (len := 64) (by decide)) b5).1.mono (B' := 16383) (by decide)
  have s6 := invLayer_split (len := 64) (l := 1) (by decide) (fits_of (by decide)) (by decide) b5 s5
  have b7 := (invLayer_step (kt := 1) (fits_of (len := 128) (by decide)) b6).1
  have s7 := invLayer_split (len := 128) (l := 0) (by decide) (fits_of (by decide)) (by decide) b6 s6
  have hl := kyberInvntt_layers r
  have r7 := s7 0 (by decide)
  have hc : cz (2 ^ 0 + 0) = -1 := by decide
  rw [hc] at r7
  constructor
  · intro i hi
    rw [hl i hi]
    have hb := b7 i hi
    have hm := mul_bound (A := 3328) (B := 1441) hb (b := 1441) (by decide)
    dsimp only
    generalize invLayerI 128 1 _ i = v at hb hm ⊢
    have := fqmul_exact v 1441 (by omega) (by omega)
    omega
  · have hP : (C 65536 * P : Zq[X]) = C 512 * (C 2 * (C 2 * (C 2 * (C 2 * (C 2 * (C 2 * (C 2 * P))))))) := by
      have h512 : (65536 : Zq) = 512 * (2 * (2 * (2 * (2 * (2 * (2 * 2)))))) := by decide
      rw [h512]
      simp only [C_mul]
      ring
    rw [hP]
    refine (r7.smul 512).congr fun i hi => ?_
    unfold cast
    rw [hl i hi]
    have hb := b7 i hi
    have hm := mul_bound (A := 3328) (B := 1441) hb (b := 1441) (by decide)
    rw [Nat.mul_zero, Nat.zero_add]
    show _ * ((invLayerI 128 1 _ i : Int) : Zq) = _
    dsimp only
    change -3328 ≤ invLayerI 128 1 _ i ∧ _ at hb
    generalize invLayerI 128 1 _ i = v at hb hm ⊢
    rw [fqmul_cast (by omega) (by omega)]
    have h512 : (512 : Zq) = ((1441 : Int) : Zq) * 169 := by decide
    rw [h512]
    ring

/-! ### Products -/

theorem basemul_spec {a0 a1 b0 b1 zeta : Int} {A B : Int} (hAB : A * B < 3329 * 32768)
    (h0 : -A ≤ a0 ∧ a0 ≤ A) (h1 : -A ≤ a1 ∧ a1 ≤ A) (g0 : -B ≤ b0 ∧ b0 ≤ B) (g1 : -B ≤ b1 ∧ b1 ≤ B)
    (hz : -1664 ≤ zeta ∧ zeta ≤ 1664) :
    (-6656 ≤ (basemul a0 a1 b0 b1 zeta).1 ∧ (basemul a0 a1 b0 b1 zeta).1 ≤ 6656) ∧
    (-6656 ≤ (basemul a0 a1 b0 b1 zeta).2 ∧ (basemul a0 a1 b0 b1 zeta).2 ≤ 6656) ∧
    (((basemul a0 a1 b0 b1 zeta).1 : Int) : Zq) = 169 * ((a0 : Zq) * b0 + (zeta : Zq) * 169 * ((a1 : Zq) * b1)) ∧
    (((basemul a0 a1 b0 b1 zeta).2 : Int) : Zq) = 169 * ((a0 : Zq) * b1 + (a1 : Zq) * b0) := by
  have m11 := mul_bound h1 g1
  have m00 := mul_bound h0 g0
  have m01 := mul_bound h0 g1
  have m10 := mul_bound h1 g0
  have f11 := fqmul_exact a1 b1 (by omega) (by omega)
  have f00 := fqmul_exact a0 b0 (by omega) (by omega)
  have f01 := fqmul_exact a0 b1 (by omega) (by omega)
  have f10 := fqmul_exact a1 b0 (by omega) (by omega)
  have mz := mul_bound (a := fqmul a1 b1) (A := 3328) (by omega) hz
  have fz := fqmul_exact (fqmul a1 b1) zeta (by omega) (by omega)
  have e1 : (basemul a0 a1 b0 b1 zeta).1 = fqmul (fqmul a1 b1) zeta + fqmul a0 b0 := by
    unfold basemul; dsimp only; rw [i16_eq (by omega) (by omega)]
  have e2 : (basemul a0 a1 b0 b1 zeta).2 = fqmul a0 b1 + fqmul a1 b0 := by
    unfold basemul; dsimp only; rw [i16_eq (by omega) (by omega)]
  rw [e1, e2]
  refine ⟨by omega, by omega, ?_, ?_⟩
  · rw [Int.cast_add, fqmul_cast (by omega) (by omega), fqmul_cast (a := a1) (by omega) (by omega),
      fqmul_cast (a := a0) (by omega) (by omega)]
    ring
  · rw [Int.cast_add, fqmul_cast (by omega) (by omega), fqmul_cast (a := a1) (by omega) (by omega)]
    ring

/-- `poly_basemul_montgomery` multiplies, with a factor `2^-16`. -/
theorem polyBasemul_split {A B : Int} (hAB : A * B < 3329 * 32768) {a b : Poly} (ha : Bnd A a) (hb : Bnd B b)
    {P Q : Zq[X]} (hP : Split 2 128 cz (cast a) P) (hQ : Split 2 128 cz (cast b) Q) :
    Bnd 6656 (polyBasemul a b) ∧ Split 2 128 cz (cast (polyBasemul a b)) (C 169 * (P * Q)) := by
  have key : ∀ y < 128, ∃ zeta : Int, (-1664 ≤ zeta ∧ zeta ≤ 1664) ∧ (zeta : Zq) * 169 = cz (128 + y) ∧
      polyBasemul a b (2 * y) = (basemul (a (2 * y)) (a (2 * y + 1)) (b (2 * y)) (b (2 * y + 1)) zeta).1 ∧
      polyBasemul a b (2 * y + 1) = (basemul (a (2 * y)) (a (2 * y + 1)) (b (2 * y)) (b (2 * y + 1)) zeta).2 := by
    intro y hy
    have hzb := zetas_bound (64 + y / 2)
    rcases Nat.mod_two_eq_zero_or_one y with h | h
    · obtain ⟨w, rfl⟩ : ∃ w, y = 2 * w := ⟨y / 2, by omega⟩
      have hw : 2 * w / 2 = w := by omega
      rw [hw] at hzb
      refine ⟨zetas (64 + w), hzb, ?_, ?_, ?_⟩
      · have := (roots 64 (by decide) (by decide) (64 + w) (by omega) (by omega)).2.1
        rw [show 128 + 2 * w = 2 * (64 + w) by omega, this, zt]
      · unfold polyBasemul
        dsimp only
        rw [if_pos (by omega), show 2 * (2 * w) / 4 = w by omega, show 4 * w = 2 * (2 * w) by omega]
      · unfold polyBasemul
        dsimp only
        rw [if_neg (by omega), if_pos (by omega), show (2 * (2 * w) + 1) / 4 = w by omega, show 4 * w = 2 * (2 * w) by omega]
    · obtain ⟨w, rfl⟩ : ∃ w, y = 2 * w + 1 := ⟨y / 2, by omega⟩
      have hw : (2 * w + 1) / 2 = w := by omega
      rw [hw] at hzb
      refine ⟨i16 (-zetas (64 + w)), ?_, ?_, ?_, ?_⟩
      · rw [i16_eq (by omega) (by omega)]; omega
      · have := (roots 64 (by decide) (by decide) (64 + w) (by omega) (by omega)).2.2
        rw [show 128 + (2 * w + 1) = 2 * (64 + w) + 1 by omega, this, i16_eq (by omega) (by omega), Int.cast_neg, zt]
        ring
      · unfold polyBasemul
        dsimp only
        rw [if_neg (by omega), if_neg (by omega), if_pos (by omega), show 2 * (2 * w + 1) / 4 = w by omega,
          show 4 * w + 2 = 2 * (2 * w + 1) by omega, show 4 * w + 3 = 2 * (2 * w + 1) + 1 by omega]
      · unfold polyBasemul
        dsimp only
        rw [if_neg (by omega), if_neg (by omega), if_neg (by omega), show (2 * (2 * w + 1) + 1) / 4 = w by omega,
          show 4 * w + 2 = 2 * (2 * w + 1) by omega, show 4 * w + 3 = 2 * (2 * w + 1) + 1 by omega]
  constructor
  · intro i hi
    obtain ⟨zeta, hz, -, e0, e1⟩ := key (i / 2) (by omega)
    have hs := basemul_spec hAB (ha (2 * (i / 2)) (by omega)) (ha (2 * (i / 2) + 1) (by omega)) (hb (2 * (i / 2)) (by omega))
      (hb (2 * (i / 2) + 1) (by omega)) hz
    rcases Nat.mod_two_eq_zero_or_one i with h | h
    · rw [show i = 2 * (i / 2) by omega, e0]; exact hs.1
    · rw [show i = 2 * (i / 2) + 1 by omega, e1]
      exact hs.2.1
  · intro y hy
    obtain ⟨zeta, hz, hc, e0, e1⟩ := key y hy
    have hs := basemul_spec hAB (ha (2 * y) (by omega)) (ha (2 * y + 1) (by omega)) (hb (2 * y) (by omega))
      (hb (2 * y + 1) (by omega)) hz
    have hm := Rep.mul2 (hP y hy) (hQ y hy)
      (fun j => if j = 0 then cast a (2 * y) * cast b (2 * y) + cz (128 + y) * (cast a (2 * y + 1) * cast b (2 * y + 1))
        else cast a (2 * y) * cast b (2 * y + 1) + cast a (2 * y + 1) * cast b (2 * y)) rfl rfl
    refine (hm.smul 169).congr fun j hj => ?_
    have hj : j = 0 ∨ j = 1 := by omega
    rcases hj with rfl | rfl
    · rw [if_pos rfl]
      unfold cast
      show _ = ((polyBasemul a b (2 * y) : Int) : Zq)
      rw [e0, hs.2.2.1, hc]
    · rw [if_neg (by decide)]
      unfold cast
      rw [e1, hs.2.2.2]

theorem polyReduce_same (r : Poly) : Same (polyReduce r) (fun i => barrettReduce (r i)) := by
  intro i hi; unfold polyReduce; rw [mapLoop_spec, if_pos (by omega)]

theorem polyReduce_spec {r : Poly} (hr : Bnd 32767 r) : Bnd 1664 (polyReduce r) ∧ ∀ i < 256, cast (polyReduce r) i = cast r i := by
  refine ⟨fun i hi => ?_, fun i hi => ?_⟩
  · rw [polyReduce_same r i hi]
    have := hr i hi
    have := barrett_reduce_exact (r i) (by omega) (by omega)
    dsimp only; omega
  · unfold cast
    rw [polyReduce_same r i hi]
    have := hr i hi
    exact barrett_cast (by omega) (by omega)

theorem polyNtt_split {r : Poly} (hr : Bnd 9471 r) :
    Bnd 1664 (polyNtt r) ∧ Split 2 128 cz (cast (polyNtt r)) (toPoly 256 (cast r)) := by
  obtain ⟨h1, h2⟩ := kyberNtt_split (Int.le_refl _) hr
  obtain ⟨g1, g2⟩ := polyReduce_spec (h1.mono (by decide))
  exact ⟨g1, Split.congr (fun i hi => (g2 i hi).symm) h2⟩

/-! ### C42 -/

/-- Reversal of seven bits, FIPS 203 section 4.3. -/
def Spec.bitRev7 (b : Nat) : Nat :=
  (List.range 7).foldl (fun acc i => acc + b / 2 ^ i % 2 * 2 ^ (6 - i)) 0

theorem node_eq : ∀ b < 128, (cI (128 + b) - 17 ^ (2 * Spec.bitRev7 b + 1)) % 3329 = 0 := by decide +kernel

/-- The polynomial with the given coefficients, over the integers modulo `q`. -/
noncomputable def Spec.poly (r : Poly) : Zq[X] := ∑ i ∈ Finset.range 256, C ((r i : Int) : Zq) * X ^ i

theorem poly_eq (r : Poly) : Spec.poly r = toPoly 256 (cast r) := by unfold Spec.poly toPoly cast; rfl

theorem rep_iff {n : Nat} {f : Nat → Zq} {P : Zq[X]} : Rep n (-1) f P ↔ (X ^ n + 1) ∣ P - toPoly n f := by
  unfold Rep
  rw [C_neg, C_1, sub_neg_eq_add]

/-- **C42 (forward)**: for every polynomial with coefficients in `[-q, q]` (even `[-9471, 9471]`)
`kyber_ntt` does not leave `int16_t`, and the pair `2 b, 2 b + 1` of its result is the polynomial
modulo `X^2 - 17^(2 BitRev7(b) + 1)`: FIPS 203 equation (4.12), in normal order of the pairs. -/
theorem ntt_is_fips203 (r : Poly) (hr : ∀ i < 256, -9471 ≤ r i ∧ r i ≤ 9471) :
    (∀ i < 256, -32767 ≤ kyberNtt r i ∧ kyberNtt r i ≤ 32767) ∧
    ∀ b < 128, (X ^ 2 - C ((17 : Zq) ^ (2 * Spec.bitRev7 b + 1))) ∣
      Spec.poly r - (C ((kyberNtt r (2 * b) : Int) : Zq) + C ((kyberNtt r (2 * b + 1) : Int) : Zq) * X) := by
  obtain ⟨h1, h2⟩ := kyberNtt_split (Int.le_refl 9471) hr
  refine ⟨fun i hi => by have := h1 i hi; omega, fun b hb => ?_⟩
  have h := h2 b hb
  have hc : cz (128 + b) = (17 : Zq) ^ (2 * Spec.bitRev7 b + 1) := by
    unfold cz
    rw [zq_eq (node_eq b hb), Int.cast_pow, Int.cast_ofNat]
  rw [hc] at h
  unfold Rep at h
  have e : ∀ f : Nat → Zq, toPoly 2 f = C (f 0) + C (f 1) * X := by
    intro f; unfold toPoly; rw [Finset.sum_range_succ, Finset.sum_range_succ, Finset.sum_range_zero]; ring
  rw [e] at h
  rw [poly_eq]
  exact h

/-- **C42 (product)**: for all polynomials with coefficients in `[-9471, 9471]`: transforming both,
multiplying with `poly_basemul_montgomery` and transforming back gives the product modulo `q` and
`X^256 + 1`, with coefficients in `[-q + 1, q - 1]`. -/
theorem ntt_product (a b : Poly) (ha : ∀ i < 256, -9471 ≤ a i ∧ a i ≤ 9471) (hb : ∀ i < 256, -9471 ≤ b i ∧ b i ≤ 9471) :
    (∀ i < 256, -3329 < kyberInvntt (polyBasemul (polyNtt a) (polyNtt b)) i ∧
      kyberInvntt (polyBasemul (polyNtt a) (polyNtt b)) i < 3329) ∧
    (X ^ 256 + 1) ∣ Spec.poly a * Spec.poly b - Spec.poly (kyberInvntt (polyBasemul (polyNtt a) (polyNtt b))) := by
  obtain ⟨a1, a2⟩ := polyNtt_split ha
  obtain ⟨b1, b2⟩ := polyNtt_split hb
  obtain ⟨m1, m2⟩ := polyBasemul_split (by decide) a1 b1 a2 b2
  obtain ⟨i1, i2⟩ := kyberInvntt_rep (m1.mono (by decide)) m2
  refine ⟨fun i hi => by have := i1 i hi; omega, ?_⟩
  rw [← mul_assoc, ← C_mul, show (65536 : Zq) * 169 = 1 by decide, C_1, one_mul] at i2
  rw [poly_eq, poly_eq, poly_eq]
  exact rep_iff.1 i2

/-- The negacyclic convolution, coefficient by coefficient. -/
def Spec.negacyclic (a b : Poly) (k : Nat) : Int :=
  ((List.range 256).map fun i => if i ≤ k then a i * b (k - i) else -(a i * b (256 + k - i))).sum

theorem cast_sum (f : Nat → Int) : ∀ n, ((((List.range n).map f).sum : Int) : Zq) = ∑ i ∈ Finset.range n, ((f i : Int) : Zq)
  | 0 => by simp
  | n + 1 => by
    rw [List.range_succ, List.map_append, List.sum_append, Int.cast_add, cast_sum f n, Finset.sum_range_succ]
    simp

/-- **C42 (product, coefficients)**: coefficient `k` of the result is, modulo `q`,
`sum_{i<=k} a_i b_{k-i} - sum_{i>k} a_i b_{256+k-i}`. -/
theorem ntt_convolution (a b : Poly) (ha : ∀ i < 256, -9471 ≤ a i ∧ a i ≤ 9471) (hb : ∀ i < 256, -9471 ≤ b i ∧ b i ≤ 9471)
    (k : Nat) (hk : k < 256) :
    (kyberInvntt (polyBasemul (polyNtt a) (polyNtt b)) k - Spec.negacyclic a b k) % 3329 = 0 := by
  have h1 := (ntt_product a b ha hb).2
  rw [poly_eq, poly_eq, poly_eq] at h1
  have h2 := (Rep.self 256 (-1 : Zq) (cast b)).conv (cast a)
  have h3 : Rep 256 (-1 : Zq) (cast (kyberInvntt (polyBasemul (polyNtt a) (polyNtt b)))) (toPoly 256 (cast a) * toPoly 256 (cast b)) := by
    exact rep_iff.2 h1
  have h4 := Rep.unique (by decide) h3 h2 k hk
  refine Int.emod_eq_zero_of_dvd ((ZMod.intCast_zmod_eq_zero_iff_dvd _ 3329).1 ?_)
  rw [Int.cast_sub, sub_eq_zero]
  refine h4.trans ?_
  unfold Spec.negacyclic
  rw [cast_sum]
  refine Finset.sum_congr rfl fun i _ => ?_
  unfold cast
  by_cases h : i ≤ k
  · rw [if_pos h, if_pos h, Int.cast_mul]
  · rw [if_neg h, if_neg h, Int.cast_neg, Int.cast_mul]; ring

/-- **C42 (inverse)**: `kyber_invntt` after `poly_ntt` multiplies every coefficient by `2^16` modulo
`q`. -/
theorem ntt_roundtrip (a : Poly) (ha : ∀ i < 256, -9471 ≤ a i ∧ a i ≤ 9471) (i : Nat) (hi : i < 256) :
    (kyberInvntt (polyNtt a) i - 65536 * a i) % 3329 = 0 := by
  obtain ⟨a1, a2⟩ := polyNtt_split ha
  obtain ⟨-, i2⟩ := kyberInvntt_rep (a1.mono (by decide)) a2
  have hs := (Rep.self 256 (-1 : Zq) (cast a)).smul 65536
  have := Rep.unique (by decide) i2 hs i hi
  unfold cast at this
  have h2 : ((kyberInvntt (polyNtt a) i - 65536 * a i : Int) : Zq) = 0 := by
    rw [Int.cast_sub, this, Int.cast_mul]
    exact sub_self _
  exact Int.emod_eq_zero_of_dvd ((ZMod.intCast_zmod_eq_zero_iff_dvd _ 3329).1 h2)

/-- A polynomial meeting the hypotheses, with a product that wraps around. -/
example : (∀ i < 256, -9471 ≤ (fun i : Nat => (i : Int) * 26 - 3329) i ∧ (fun i : Nat => (i : Int) * 26 - 3329) i ≤ 9471) ∧
    Spec.negacyclic (fun i => if i = 255 then 1 else 0) (fun i => if i = 1 then 1 else 0) 0 = -1 := by
  refine ⟨fun i hi => by dsimp only; omega, by decide +kernel⟩

end LC.Kyber
