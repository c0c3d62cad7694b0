import Verif.Dilithium.Scheme
import Verif.Dilithium.Ntt
import Verif.Dilithium.Rounding
import Verif.Kyber.Correct
/-
Lemmas about the vector operations of ML-DSA.
-/
namespace LC.Dilithium
open LC.Ntt Polynomial
open LC.Kyber (Poly Byte upd mapLoop at8 b8 memcmpB Bnd flatMap_slice flatMap_rest)

/-! ### Every array is a transform -/

theorem exists_level (l : Nat) (hl : l < 8) {n : Nat} (hn : 0 < n) (h : ∀ g : Nat → Zq, ∃ P, Split (n + n) (2 ^ l) cz g P) (f : Nat → Zq) :
    ∃ P, Split n (2 * 2 ^ l) cz f P := by
  have h0 : 1 ≤ 2 ^ l := Nat.two_pow_pos l
  have h1 : 2 ^ l ≤ 128 := by
    have : 2 ^ l ≤ 2 ^ 7 := Nat.pow_le_pow_right (by decide) (by omega)
    simpa using this
  exact Split.exists_step hn (w := fun b => zt (2 * 2 ^ l - 1 - b)) half (roots _ h0 h1) (fun b hb => zt_inv l hl b hb) h f

theorem cz_one : cz 1 = -1 := by
  unfold cz cI
  rw [if_pos (by decide), Int.cast_neg, Int.cast_one]

theorem split_exists (f : Nat → Zq) : ∃ P, Split 1 256 cz f P := by
  have h0 : ∀ g : Nat → Zq, ∃ P, Split 256 1 cz g P := fun g =>
    ⟨toPoly 256 g, fun b hb => by
      have : b = 0 := by omega
      subst this
      simpa using Rep.self 256 (cz 1) g⟩
  have h1 := exists_level 0 (by decide) (n := 128) (by decide) h0
  have h2 := exists_level 1 (by decide) (n := 64) (by decide) h1
  have h3 := exists_level 2 (by decide) (n := 32) (by decide) h2
  have h4 := exists_level 3 (by decide) (n := 16) (by decide) h3
  have h5 := exists_level 4 (by decide) (n := 8) (by decide) h4
  have h6 := exists_level 5 (by decide) (n := 4) (by decide) h5
  have h7 := exists_level 6 (by decide) (n := 2) (by decide) h6
  exact exists_level 7 (by decide) (n := 1) (by decide) h7 f

theorem split_sub {n k0 : Nat} {c f g : Nat → Zq} {P Q : Zq[X]} (h : Split n k0 c f P) (h' : Split n k0 c g Q) :
    Split n k0 c (fun i => f i - g i) (P - Q) := fun b hb => (h b hb).sub (h' b hb)

/-! ### Element-wise operations -/

theorem polyAdd_spec {A B : Int} (hAB : A + B ≤ 2147483647) {a b : Poly} (ha : Bnd A a) (hb : Bnd B b) :
    Bnd (A + B) (polyAdd a b) ∧ ∀ i < 256, polyAdd a b i = a i + b i := by
  have key : ∀ i < 256, polyAdd a b i = a i + b i := fun i hi => by
    have := ha i hi; have := hb i hi
    exact i32_eq (by omega) (by omega)
  exact ⟨fun i hi => by have := ha i hi; have := hb i hi; rw [key i hi]; omega, key⟩

theorem polySub_spec {A B : Int} (hAB : A + B ≤ 2147483647) {a b : Poly} (ha : Bnd A a) (hb : Bnd B b) :
    Bnd (A + B) (polySub a b) ∧ ∀ i < 256, polySub a b i = a i - b i := by
  have key : ∀ i < 256, polySub a b i = a i - b i := fun i hi => by
    have := ha i hi; have := hb i hi
    exact i32_eq (by omega) (by omega)
  exact ⟨fun i hi => by have := ha i hi; have := hb i hi; rw [key i hi]; omega, key⟩

theorem polyReduce_spec {a : Poly} (ha : Bnd 2143289343 a) :
    Bnd 6283009 (polyReduce a) ∧ ∀ i < 256, cast (polyReduce a) i = cast a i := by
  refine ⟨fun i hi => ?_, fun i hi => ?_⟩ <;> have := ha i hi <;> have h := reduce32_exact_partial (a i) (by omega) (by omega)
  · unfold polyReduce; omega
  · unfold cast polyReduce; exact zq_eq h.2.2.1

theorem polyCaddq_spec {a : Poly} (ha : Bnd 8380416 a) :
    ∀ i < 256, 0 ≤ polyCaddq a i ∧ polyCaddq a i < 8380417 ∧ cast (polyCaddq a) i = cast a i := fun i hi => by
  have := ha i hi
  have h := caddq_mod (a := a i) (by omega) (by omega)
  unfold cast polyCaddq
  rw [h]
  exact ⟨by omega, by omega, zq_eq (by omega)⟩

theorem cast_inj {x y : Int} (hx : 0 ≤ x ∧ x < 8380417) (h : ((x : Int) : Zq) = ((y : Int) : Zq)) : x = y % 8380417 := by
  have h1 : ((x - y : Int) : Zq) = 0 := by rw [Int.cast_sub, h, sub_self]
  have h2 := (ZMod.intCast_zmod_eq_zero_iff_dvd _ 8380417).1 h1
  have h3 : (x - y) % 8380417 = 0 := Int.emod_eq_zero_of_dvd h2
  omega

/-! ### Products -/

theorem acc_spec {B : Int} (hB : 8380416 * B < 8380417 * 2147483648) {u v : Nat → Poly} {P Q : Nat → Zq[X]} : ∀ n, n ≤ 7 →
    (∀ i ≤ n, Bnd 8380416 (u i) ∧ Split 1 256 cz (cast (u i)) (P i)) →
    (∀ i ≤ n, Bnd B (v i) ∧ Split 1 256 cz (cast (v i)) (Q i)) →
    Bnd (8380416 * (n + 1)) (pointwiseAcc u v n) ∧
      Split 1 256 cz (cast (pointwiseAcc u v n)) (C rinv * ∑ i ∈ Finset.range (n + 1), P i * Q i) := by
  intro n
  induction n with
  | zero =>
    intro _ hu hv
    obtain ⟨h1, h2⟩ := polyPointwise_split hB (hu 0 (Nat.le_refl 0)).1 (hv 0 (Nat.le_refl 0)).1 (hu 0 (Nat.le_refl 0)).2 (hv 0 (Nat.le_refl 0)).2
    refine ⟨h1.mono (by decide), ?_⟩
    rw [Finset.sum_range_one]
    exact h2
  | succ n ih =>
    intro hn hu hv
    obtain ⟨h1, h2⟩ := ih (by omega) (fun i hi => hu i (by omega)) (fun i hi => hv i (by omega))
    obtain ⟨h3, h4⟩ := polyPointwise_split hB (hu _ (Nat.le_refl (n + 1))).1 (hv _ (Nat.le_refl (n + 1))).1 (hu _ (Nat.le_refl (n + 1))).2
      (hv _ (Nat.le_refl (n + 1))).2
    obtain ⟨h5, h6⟩ := polyAdd_spec (by omega) h1 h3
    refine ⟨h5.mono (by push_cast; omega), ?_⟩
    rw [Finset.sum_range_succ, mul_add]
    exact (h2.add h4).congr fun i hi => by
      unfold cast
      rw [show pointwiseAcc u v (n + 1) = polyAdd (pointwiseAcc u v n) (polyPointwise (u (n + 1)) (v (n + 1))) from rfl, h6 i (by omega), Int.cast_add]

theorem rinv_inv : ((4294967296 : Int) : Zq) * rinv = 1 := by
  unfold rinv
  rw [← Int.cast_mul, ← Int.cast_one]
  exact zq_eq (by decide)

/-- Multiplication by `2^32 * 2^-32 = 1`. -/
theorem undo_mont (P : Zq[X]) : C ((4294967296 : Int) : Zq) * (C rinv * P) = P := by
  rw [← mul_assoc, ← C_mul, rinv_inv, C_1, one_mul]

/-- `invntt(reduce(A v))` for a vector of transformed polynomials. -/
theorem row_spec {n : Nat} (hn1 : 1 ≤ n) (hn : n ≤ 7) {B : Int} (hB : B ≤ 8388608) {A v : Nat → Poly} {PA : Nat → Zq[X]}
    (hA : ∀ j < n, Bnd 8380416 (A j) ∧ Split 1 256 cz (cast (A j)) (PA j)) (hv : ∀ j < n, Bnd B (v j)) :
    Bnd 4211197 (invntt (polyReduce (pointwiseAcc A (fun j => ntt (v j)) (n - 1)))) ∧
    Rep 256 (-1) (cast (invntt (polyReduce (pointwiseAcc A (fun j => ntt (v j)) (n - 1)))))
      (∑ j ∈ Finset.range n, PA j * toPoly 256 (cast (v j))) := by
  have hq : ∀ j < n, Bnd (B + 67043328) (ntt (v j)) ∧ Split 1 256 cz (cast (ntt (v j))) (toPoly 256 (cast (v j))) := fun j hj =>
    ntt_split (by omega) (hv j hj)
  obtain ⟨h1, h2⟩ := acc_spec (B := B + 67043328) (by omega) (n - 1) (by omega) (fun i hi => hA i (by omega)) (fun i hi => hq i (by omega))
  obtain ⟨h3, h4⟩ := polyReduce_spec (h1.mono (B' := 2143289343) (by omega))
  have h5 := h2.congr fun i hi => (h4 i (by omega)).symm
  obtain ⟨h6, h7⟩ := invntt_rep (h3.mono (by decide)) h5
  rw [undo_mont, show n - 1 + 1 = n by omega] at h7
  exact ⟨h6, h7⟩

/-- `invntt(c s)` for two transformed polynomials. -/
theorem prod_spec {A B : Int} (hA : A ≤ 1) (hB : B ≤ 8388608) (hA0 : 0 ≤ A) (hB0 : 0 ≤ B) {a b : Poly} (ha : Bnd A a) (hb : Bnd B b) :
    Bnd 4211197 (invntt (polyPointwise (ntt a) (ntt b))) ∧
    Rep 256 (-1) (cast (invntt (polyPointwise (ntt a) (ntt b)))) (toPoly 256 (cast a) * toPoly 256 (cast b)) := by
  obtain ⟨a1, a2⟩ := ntt_split (B := 1) (by decide) (ha.mono hA)
  obtain ⟨b1, b2⟩ := ntt_split (B := 8388608) (by decide) (hb.mono hB)
  obtain ⟨m1, m2⟩ := polyPointwise_split (by decide) a1 b1 a2 b2
  obtain ⟨i1, i2⟩ := invntt_rep (m1.mono (by decide)) m2
  rw [undo_mont] at i2
  exact ⟨i1, i2⟩

/-- `invntt(reduce(A z - c t))`. -/
theorem verify_row {n : Nat} (hn1 : 1 ≤ n) (hn : n ≤ 7) {B : Int} (hB : B ≤ 8388608) {A v : Nat → Poly} {PA : Nat → Zq[X]} {c t : Poly}
    (hA : ∀ j < n, Bnd 8380416 (A j) ∧ Split 1 256 cz (cast (A j)) (PA j)) (hv : ∀ j < n, Bnd B (v j)) (hc : Bnd 1 c) (ht : Bnd 8388608 t) :
    Bnd 4211197 (invntt (polyReduce (polySub (pointwiseAcc A (fun j => ntt (v j)) (n - 1)) (polyPointwise (ntt c) (ntt t))))) ∧
    Rep 256 (-1) (cast (invntt (polyReduce (polySub (pointwiseAcc A (fun j => ntt (v j)) (n - 1)) (polyPointwise (ntt c) (ntt t))))))
      ((∑ j ∈ Finset.range n, PA j * toPoly 256 (cast (v j))) - toPoly 256 (cast c) * toPoly 256 (cast t)) := by
  have hq : ∀ j < n, Bnd (B + 67043328) (ntt (v j)) ∧ Split 1 256 cz (cast (ntt (v j))) (toPoly 256 (cast (v j))) := fun j hj =>
    ntt_split (by omega) (hv j hj)
  obtain ⟨h1, h2⟩ := acc_spec (B := B + 67043328) (by omega) (n - 1) (by omega) (fun i hi => hA i (by omega)) (fun i hi => hq i (by omega))
  obtain ⟨a1, a2⟩ := ntt_split (B := 1) (by decide) hc
  obtain ⟨b1, b2⟩ := ntt_split (B := 8388608) (by decide) ht
  obtain ⟨m1, m2⟩ := polyPointwise_split (by decide) a1 b1 a2 b2
  obtain ⟨d1, d2⟩ := polySub_spec (by omega) h1 m1
  have d3 : Split 1 256 cz (cast (polySub (pointwiseAcc A (fun j => ntt (v j)) (n - 1)) (polyPointwise (ntt c) (ntt t))))
      (C rinv * ((∑ j ∈ Finset.range n, PA j * toPoly 256 (cast (v j))) - toPoly 256 (cast c) * toPoly 256 (cast t))) := by
    rw [mul_sub]
    rw [show n - 1 + 1 = n by omega] at h2
    exact (split_sub h2 m2).congr fun i hi => by
      unfold cast
      rw [d2 i (by omega), Int.cast_sub]
  obtain ⟨h3, h4⟩ := polyReduce_spec (d1.mono (B' := 2143289343) (by omega))
  have h5 := d3.congr fun i hi => (h4 i (by omega)).symm
  obtain ⟨h6, h7⟩ := invntt_rep (h3.mono (by decide)) h5
  rw [undo_mont] at h7
  exact ⟨h6, h7⟩

/-! ### The identity behind verification -/

theorem sig_identity {R : Type} [CommRing R] {l : Nat} {D e : R} {PA S Y Z : Nat → R} {c S2 T T0 T1 W W' U V : R}
    (hT : D ∣ (∑ j ∈ Finset.range l, PA j * S j) + S2 - T) (hTs : T = e * T1 + T0)
    (hw : D ∣ (∑ j ∈ Finset.range l, PA j * Y j) - W) (hz : ∀ j < l, D ∣ c * S j + Y j - Z j)
    (hU : D ∣ c * S2 - U) (hV : D ∣ c * T0 - V) (hW' : D ∣ (∑ j ∈ Finset.range l, PA j * Z j) - c * (e * T1) - W') :
    D ∣ (W - U + V) - W' := by
  have h1 : D ∣ ∑ j ∈ Finset.range l, PA j * (c * S j + Y j - Z j) :=
    Finset.dvd_sum fun j hj => (hz j (Finset.mem_range.1 hj)).mul_left _
  have e1 : ∑ j ∈ Finset.range l, PA j * (c * S j + Y j - Z j) =
      c * (∑ j ∈ Finset.range l, PA j * S j) + (∑ j ∈ Finset.range l, PA j * Y j) - ∑ j ∈ Finset.range l, PA j * Z j := by
    rw [Finset.mul_sum, ← Finset.sum_add_distrib, ← Finset.sum_sub_distrib]
    exact Finset.sum_congr rfl fun j _ => by ring
  rw [e1] at h1
  have h2 := dvd_sub (dvd_add (dvd_sub (dvd_sub (dvd_add h1 hW') (hT.mul_left c)) hw) hU) hV
  rw [hTs] at h2
  convert h2 using 1
  ring

theorem sig_rep {n l : Nat} {k e : Zq} {PA : Nat → Zq[X]} {S Y z : Nat → Nat → Zq} {c s2 t t0 t1 w w' u v : Nat → Zq}
    (hT : Rep n k t ((∑ j ∈ Finset.range l, PA j * toPoly n (S j)) + toPoly n s2)) (hTs : ∀ i < n, t i = e * t1 i + t0 i)
    (hw : Rep n k w (∑ j ∈ Finset.range l, PA j * toPoly n (Y j)))
    (hz : ∀ j < l, Rep n k (z j) (toPoly n c * toPoly n (S j) + toPoly n (Y j)))
    (hU : Rep n k u (toPoly n c * toPoly n s2)) (hV : Rep n k v (toPoly n c * toPoly n t0))
    (hW' : Rep n k w' ((∑ j ∈ Finset.range l, PA j * toPoly n (z j)) - toPoly n c * (C e * toPoly n t1))) :
    Rep n k w' (toPoly n w - toPoly n u + toPoly n v) := by
  have hT2 : toPoly n t = C e * toPoly n t1 + toPoly n t0 := by
    rw [← toPoly_smul, ← toPoly_add]
    exact toPoly_congr hTs
  exact sig_identity hT hT2 hw hz hU hV hW'

/-! ### Norms -/

theorem chkLoop_congr {a b : Poly} {B : Int} : ∀ cnt i, (∀ x, i ≤ x → x < i + cnt → a x = b x) → chkLoop a B cnt i = chkLoop b B cnt i
  | 0, _, _ => rfl
  | cnt + 1, i, h => by
    unfold chkLoop
    dsimp only
    rw [h i (by omega) (by omega), chkLoop_congr cnt (i + 1) (fun x h1 h2 => h x (by omega) (by omega))]

theorem vecChknorm_congr {n : Nat} {a b : Nat → Poly} {B : Int} (h : ∀ i < n, ∀ x < 256, a i x = b i x) : vecChknorm n a B = vecChknorm n b B := by
  have : ∀ i < n, polyChknorm (a i) B = polyChknorm (b i) B := fun i hi => by
    unfold polyChknorm
    rw [chkLoop_congr (a := a i) (b := b i) 256 0 (fun x _ hx => h i hi x (by omega))]
  unfold vecChknorm
  rw [Bool.eq_iff_iff, List.any_eq_true, List.any_eq_true]
  constructor <;> rintro ⟨i, hi, h⟩ <;> refine ⟨i, hi, ?_⟩
  · rw [← this i (List.mem_range.1 hi)]; exact h
  · rw [this i (List.mem_range.1 hi)]; exact h

theorem chkLoop_false {a : Poly} {B : Int} : ∀ cnt i, i + cnt ≤ 256 → Bnd 1000000000 a → chkLoop a B cnt i = false →
    ∀ x, i ≤ x → x < i + cnt → -B < a x ∧ a x < B
  | 0, _, _, _, _, x, h1, h2 => by omega
  | cnt + 1, i, hi, ha, h, x, h1, h2 => by
    unfold chkLoop at h
    dsimp only at h
    by_cases hn : i32 (a i - (if a i < 0 then i32 (2 * a i) else 0)) ≥ B
    · rw [if_pos hn] at h; cases h
    · rw [if_neg hn] at h
      by_cases e : x = i
      · subst e
        have hb := ha x (by omega)
        revert hn
        split
        · rw [i32_eq (x := 2 * a x) (by omega) (by omega), i32_eq (by omega) (by omega)]; intro hn; omega
        · rw [i32_eq (by omega) (by omega)]; intro hn; omega
      · exact chkLoop_false cnt (i + 1) (by omega) ha h x (by omega) (by omega)

/-- What a passed norm check says. -/
theorem vecChknorm_false {n : Nat} {v : Nat → Poly} {B : Int} (hv : ∀ i < n, Bnd 1000000000 (v i)) (h : vecChknorm n v B = false) :
    ∀ i < n, ∀ x < 256, -B < v i x ∧ v i x < B := by
  intro i hi x hx
  unfold vecChknorm at h
  have h1 : polyChknorm (v i) B = false := by
    rw [List.any_eq_false] at h
    have := h i (List.mem_range.2 hi)
    revert this
    cases polyChknorm (v i) B <;> simp
  unfold polyChknorm at h1
  split at h1
  · cases h1
  · exact chkLoop_false 256 0 (by omega) (hv i hi) h1 x (by omega) (by omega)

/-! ### Sampling -/

theorem optVec_some {n : Nat} {f : Nat → Option (List Int)} {v : Nat → Poly} (h : optVec n f = some v) :
    ∀ i < n, ∃ out, f i = some out ∧ v i = fun x => out.getD x 0 := by
  unfold optVec at h
  split at h
  · rename_i hall
    intro i hi
    rw [List.all_eq_true] at hall
    obtain ⟨out, ho⟩ := Option.isSome_iff_exists.1 (hall i (List.mem_range.2 hi))
    cases h
    exact ⟨out, ho, by dsimp only; rw [ho]; rfl⟩
  · cases h

theorem getD_range {B C : Int} {out : List Int} (h0 : B ≤ 0 ∧ 0 ≤ C) (h : ∀ v ∈ out, B ≤ v ∧ v ≤ C) (x : Nat) : B ≤ out.getD x 0 ∧ out.getD x 0 ≤ C := by
  rw [List.getD_eq_getElem?_getD]
  by_cases hx : x < out.length
  · rw [List.getElem?_eq_getElem hx, Option.getD_some]
    exact h _ (List.getElem_mem hx)
  · rw [List.getElem?_eq_none (by omega)]
    exact h0

theorem uniformEta_bnd {e : Env} {fuel eta n : Nat} (he : eta = 2 ∨ eta = 4) {seed : List Byte} {nonce : Nat} {v : Nat → Poly}
    (h : uniformEta e fuel eta n seed nonce = some v) : ∀ i < n, ∀ x, -(eta : Int) ≤ v i x ∧ v i x ≤ eta := by
  intro i hi x
  obtain ⟨out, ho, hv⟩ := optVec_some h i hi
  rw [hv]
  exact getD_range ⟨by omega, by omega⟩ (polyUniformEta_range eta he _ _ _ ho).2 x

theorem matrixExpand_bnd {e : Env} {fuel k l : Nat} {rho : List Byte} {A : Nat → Nat → Poly} (h : matrixExpand e fuel k l rho = some A) :
    ∀ i < k, ∀ j < l, Bnd 8380416 (A i j) := by
  unfold matrixExpand at h
  split at h
  · rename_i hall
    intro i hi j hj
    rw [List.all_eq_true] at hall
    have h1 := hall i (List.mem_range.2 hi)
    rw [List.all_eq_true] at h1
    obtain ⟨out, ho⟩ := Option.isSome_iff_exists.1 (h1 j (List.mem_range.2 hj))
    cases h
    intro x _
    dsimp only
    rw [ho, Option.getD_some]
    exact getD_range (B := -8380416) (C := 8380416) ⟨by decide, by decide⟩ (fun v hv => by
      have := (polyUniform_range _ _ _ ho).2 v hv; omega) x
  · cases h

theorem uniformGamma1_bnd (e : Env) (g : Nat) (hg : g = 131072 ∨ g = 524288) (seed : List Byte) (nonce x : Nat) :
    -(g : Int) < uniformGamma1 e g seed nonce x ∧ uniformGamma1 e g seed nonce x ≤ g := by
  unfold uniformGamma1
  generalize squeeze _ 0 680 = b
  rcases hg with rfl | rfl
  · rw [zUnpack17]; have := Spec.bitUnpack_range 18 131072 b x; omega
  · rw [zUnpack19]; have := Spec.bitUnpack_range 20 524288 b x; omega

theorem challenge_bnd {tau : Nat} (ht : tau ≤ 256) {s : Nat → Byte} {fuel : Nat} {c : Poly} (h : polyChallenge tau s fuel = some c) : Bnd 1 c := by
  intro x _
  rcases (polyChallenge_weight tau ht s fuel c h).2.1 x with h | h | h <;> omega

/-! ### Byte strings -/

theorem squeeze_length (s : Nat → Byte) (pos n : Nat) : (squeeze s pos n).length = n := by unfold squeeze; simp

theorem slice_length {b : List Byte} {off n : Nat} (h : off + n ≤ b.length) : (slice b off n).length = n := by
  unfold slice; rw [List.length_take, List.length_drop]; omega

theorem slice_append_left {a b : List Byte} {n : Nat} (h : a.length = n) : slice (a ++ b) 0 n = a := by
  unfold slice; rw [List.drop_zero, List.take_left' h]

theorem slice_append_right {a b : List Byte} {m off n : Nat} (h : a.length = m) : slice (a ++ b) (m + off) n = slice b off n := by
  unfold slice; rw [← List.drop_drop, List.drop_left' h]

theorem slice_flatMap {g : Nat → List Byte} {n : Nat} (hg : ∀ i, (g i).length = n) (k i : Nat) (rest : List Byte) (hi : i < k) :
    slice ((List.range k).flatMap g ++ rest) (n * i) n = g i := flatMap_slice hg k i rest hi

theorem flatMap_congr' {f g : Nat → List Byte} {l : List Nat} (h : ∀ i ∈ l, f i = g i) : l.flatMap f = l.flatMap g := by
  induction l with
  | nil => rfl
  | cons a l ih => rw [List.flatMap_cons, List.flatMap_cons, h a (List.mem_cons_self ..), ih fun i hi => h i (List.mem_cons_of_mem _ hi)]

theorem polyw1Pack_congr {g : Nat} {a b : Poly} (h : ∀ x < 256, a x = b x) : polyw1Pack g a = polyw1Pack g b := by
  unfold polyw1Pack
  split
  · refine flatMap_congr' fun i hi => ?_
    have hi := List.mem_range.1 hi
    dsimp only
    rw [h (4 * i + 0) (by omega), h (4 * i + 1) (by omega), h (4 * i + 2) (by omega), h (4 * i + 3) (by omega)]
  · refine flatMap_congr' fun i hi => ?_
    have hi := List.mem_range.1 hi
    dsimp only
    rw [h (2 * i + 0) (by omega), h (2 * i + 1) (by omega)]

theorem packW1_congr {p : Params} {a b : Nat → Poly} (h : ∀ i < p.k, ∀ x < 256, a i x = b i x) : packW1 p a = packW1 p b := by
  unfold packW1
  exact flatMap_congr' fun i hi => polyw1Pack_congr (h i (List.mem_range.1 hi))

/-! ### Counting hints -/

theorem ones_sum (h : Poly) (h01 : ∀ x, h x = 0 ∨ h x = 1) : ((Spec.ones h).length : Int) = ((List.range 256).map fun x => h x).sum := by
  unfold Spec.ones
  generalize List.range 256 = l
  induction l with
  | nil => rfl
  | cons x l ih =>
    rw [List.map_cons, List.sum_cons, ← ih, List.filter_cons]
    rcases h01 x with e | e <;> rw [e] <;> simp <;> omega

theorem pos_count (h : Nat → Poly) (h01 : ∀ r x, h r x = 0 ∨ h r x = 1) : ∀ n, ((Spec.pos h n).length : Int) =
    ((List.range n).map fun i => ((List.range 256).map fun x => h i x).sum).sum
  | 0 => rfl
  | n + 1 => by
    rw [Spec.pos_succ, List.length_append, List.range_succ (n := n), List.map_append, List.sum_append, ← pos_count h h01 n]
    simp only [List.map_cons, List.map_nil, List.sum_cons, List.sum_nil]
    rw [← ones_sum _ (h01 n)]
    omega

theorem makeHint_01 (g : Nat) (a b : Int) : makeHint g a b = 0 ∨ makeHint g a b = 1 := by
  unfold makeHint; split
  · exact Or.inr rfl
  · exact Or.inl rfl

end LC.Dilithium
