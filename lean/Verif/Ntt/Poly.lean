import Mathlib.Algebra.Polynomial.Monic
import Mathlib.Algebra.Polynomial.Degree.Lemmas
import Mathlib.RingTheory.Coprime.Basic
import Mathlib.Tactic.Ring
import Mathlib.Tactic.LinearCombination
/-
Algebra of number theoretic transforms, for any commutative ring: arrays as polynomials, residues
modulo `X^n - c`, one transform layer, and the whole forward/backward transform over a binary tree
of roots.  Used for ML-KEM and ML-DSA.
-/
namespace LC.Ntt
open Polynomial Finset

variable {K : Type} [CommRing K]

/-- The polynomial `∑ f i X^i` of the first `n` array entries. -/
noncomputable def toPoly (n : Nat) (f : Nat → K) : K[X] := ∑ i ∈ range n, C (f i) * X ^ i

/-- The first `n` entries of `f` represent `P` modulo `X^n - c`. -/
def Rep (n : Nat) (c : K) (f : Nat → K) (P : K[X]) : Prop := (X ^ n - C c) ∣ P - toPoly n f

theorem toPoly_congr {n : Nat} {f g : Nat → K} (h : ∀ i < n, f i = g i) : toPoly n f = toPoly n g := by
  unfold toPoly
  exact sum_congr rfl fun i hi => by rw [h i (mem_range.1 hi)]

theorem toPoly_split (n : Nat) (f : Nat → K) :
    toPoly (n + n) f = toPoly n f + X ^ n * toPoly n (fun j => f (n + j)) := by
  unfold toPoly
  rw [sum_range_add, mul_sum]
  congr 1
  exact sum_congr rfl fun i _ => by rw [pow_add]; ring

theorem toPoly_add (n : Nat) (f g : Nat → K) : toPoly n (fun i => f i + g i) = toPoly n f + toPoly n g := by
  unfold toPoly
  rw [← sum_add_distrib]
  exact sum_congr rfl fun i _ => by rw [C_add]; ring

theorem toPoly_sub (n : Nat) (f g : Nat → K) : toPoly n (fun i => f i - g i) = toPoly n f - toPoly n g := by
  unfold toPoly
  rw [← sum_sub_distrib]
  exact sum_congr rfl fun i _ => by rw [C_sub]; ring

theorem toPoly_smul (n : Nat) (u : K) (f : Nat → K) : toPoly n (fun i => u * f i) = C u * toPoly n f := by
  unfold toPoly
  rw [mul_sum]
  exact sum_congr rfl fun i _ => by rw [C_mul]; ring

theorem Rep.congr {n : Nat} {c : K} {f g : Nat → K} {P : K[X]} (h : ∀ i < n, f i = g i) (hr : Rep n c f P) : Rep n c g P := by
  unfold Rep at *
  rw [← toPoly_congr h]; exact hr

theorem Rep.self (n : Nat) (c : K) (f : Nat → K) : Rep n c f (toPoly n f) := by
  unfold Rep; rw [sub_self]; exact dvd_zero _

theorem Rep.smul {n : Nat} {c : K} {f : Nat → K} {P : K[X]} (u : K) (h : Rep n c f P) : Rep n c (fun i => u * f i) (C u * P) := by
  unfold Rep at *
  rw [toPoly_smul, ← mul_sub]
  exact h.mul_left _

theorem Rep.add {n : Nat} {c : K} {f g : Nat → K} {P Q : K[X]} (h : Rep n c f P) (h' : Rep n c g Q) :
    Rep n c (fun i => f i + g i) (P + Q) := by
  unfold Rep at *
  rw [toPoly_add]
  have := dvd_add h h'
  rwa [show P - toPoly n f + (Q - toPoly n g) = P + Q - (toPoly n f + toPoly n g) by ring] at this

/-- One butterfly of the forward transform. -/
theorem Rep.fwd {n : Nat} {z : K} {f : Nat → K} {P : K[X]} (h : Rep (n + n) (z * z) f P) :
    Rep n z (fun j => f j + z * f (n + j)) P ∧ Rep n (-z) (fun j => f j - z * f (n + j)) P := by
  unfold Rep at *
  have hfac : (X ^ (n + n) - C (z * z) : K[X]) = (X ^ n - C z) * (X ^ n - C (-z)) := by
    rw [pow_add, C_mul, C_neg]; ring
  rw [hfac, toPoly_split] at h
  constructor
  · rw [toPoly_add, toPoly_smul]
    have h1 : (X ^ n - C z) ∣ P - (toPoly n f + X ^ n * toPoly n fun j => f (n + j)) := dvd_trans (dvd_mul_right _ _) h
    have h2 : (X ^ n - C z : K[X]) ∣ (X ^ n - C z) * toPoly n (fun j => f (n + j)) := dvd_mul_right _ _
    have := dvd_add h1 h2
    refine (this.trans (dvd_of_eq ?_))
    ring
  · rw [toPoly_sub, toPoly_smul]
    have h1 : (X ^ n - C (-z)) ∣ P - (toPoly n f + X ^ n * toPoly n fun j => f (n + j)) := dvd_trans (dvd_mul_left _ _) h
    have h2 : (X ^ n - C (-z) : K[X]) ∣ (X ^ n - C (-z)) * toPoly n (fun j => f (n + j)) := dvd_mul_right _ _
    have := dvd_add h1 h2
    refine (this.trans (dvd_of_eq ?_))
    rw [C_neg]; ring

/-- One butterfly of the backward transform, `w = -1/z`: the represented polynomial doubles. -/
theorem Rep.inv {n : Nat} {z w u : K} (hw : z * w = -1) (hu : 2 * u = 1) {lo hi : Nat → K} {P : K[X]}
    (hl : Rep n z lo P) (hh : Rep n (-z) hi P) (f : Nat → K) (h1 : ∀ j < n, f j = lo j + hi j)
    (h2 : ∀ j < n, f (n + j) = w * (hi j - lo j)) : Rep (n + n) (z * z) f (C 2 * P) := by
  unfold Rep at *
  have hfac : (X ^ (n + n) - C (z * z) : K[X]) = (X ^ n - C z) * (X ^ n - C (-z)) := by
    rw [pow_add, C_mul, C_neg]; ring
  rw [hfac, toPoly_split, toPoly_congr (g := fun j => lo j + hi j) (fun j hj => h1 j hj),
    toPoly_congr (f := fun j => f (n + j)) (g := fun j => w * (hi j - lo j)) (fun j hj => h2 j hj),
    toPoly_add, toPoly_smul, toPoly_sub]
  have hc : (C z * C w : K[X]) = -1 := by rw [← C_mul, hw, C_neg, C_1]
  have hC2 : (C 2 : K[X]) = 2 := rfl
  apply IsCoprime.mul_dvd
  · refine ⟨C (u * w), - C (u * w), ?_⟩
    have hcu : (2 * C u : K[X]) = 1 := by rw [← hC2, ← C_mul, hu, C_1]
    rw [C_mul, C_neg]
    linear_combination (-(2 * C u)) * hc + hcu
  · have k1 := hl.mul_left 2
    have k2 : (X ^ n - C z : K[X]) ∣ (X ^ n - C z) * (C w * (toPoly n hi - toPoly n lo)) := dvd_mul_right _ _
    have := dvd_sub k1 k2
    refine this.trans (dvd_of_eq ?_)
    rw [hC2]
    linear_combination (toPoly n hi - toPoly n lo) * hc
  · have k1 := hh.mul_left 2
    have k2 : (X ^ n - C (-z) : K[X]) ∣ (X ^ n - C (-z)) * (C w * (toPoly n hi - toPoly n lo)) := dvd_mul_right _ _
    have := dvd_sub k1 k2
    refine this.trans (dvd_of_eq ?_)
    rw [hC2, C_neg]
    linear_combination (-(toPoly n hi - toPoly n lo)) * hc

/-- Product of two residues modulo `X^2 - c`. -/
theorem Rep.mul2 {c : K} {f g : Nat → K} {P Q : K[X]} (hf : Rep 2 c f P) (hg : Rep 2 c g Q) (h : Nat → K)
    (h0 : h 0 = f 0 * g 0 + c * (f 1 * g 1)) (h1 : h 1 = f 0 * g 1 + f 1 * g 0) : Rep 2 c h (P * Q) := by
  unfold Rep at *
  have e : ∀ f : Nat → K, toPoly 2 f = C (f 0) + C (f 1) * X := by
    intro f; unfold toPoly; rw [sum_range_succ, sum_range_succ, sum_range_zero]; ring
  rw [e] at *
  rw [h0, h1]
  simp only [C_add, C_mul]
  obtain ⟨p, hp⟩ := hf
  obtain ⟨q, hq⟩ := hg
  refine ⟨p * Q + q * (C (f 0) + C (f 1) * X) + C (f 1) * C (g 1), ?_⟩
  linear_combination Q * hp + (C (f 0) + C (f 1) * X) * hq

/-- Product of two residues modulo `X - c`. -/
theorem Rep.mul1 {c : K} {f g : Nat → K} {P Q : K[X]} (hf : Rep 1 c f P) (hg : Rep 1 c g Q) (h : Nat → K)
    (h0 : h 0 = f 0 * g 0) : Rep 1 c h (P * Q) := by
  unfold Rep at *
  have e : ∀ f : Nat → K, toPoly 1 f = C (f 0) := by
    intro f; unfold toPoly; rw [sum_range_succ, sum_range_zero]; ring
  rw [e] at *
  rw [h0, C_mul]
  obtain ⟨p, hp⟩ := hf
  obtain ⟨q, hq⟩ := hg
  refine ⟨p * Q + q * C (f 0), ?_⟩
  linear_combination Q * hp + C (f 0) * hq

theorem toPoly_degree (n : Nat) (f : Nat → K) : (toPoly n f).degree < n := by
  unfold toPoly
  refine lt_of_le_of_lt (degree_sum_le _ _) ?_
  rw [Finset.sup_lt_iff (by exact WithBot.bot_lt_coe n)]
  intro i hi
  refine lt_of_le_of_lt (degree_C_mul_X_pow_le _ _) ?_
  exact_mod_cast mem_range.1 hi

theorem toPoly_coeff (n : Nat) (f : Nat → K) (i : Nat) (hi : i < n) : (toPoly n f).coeff i = f i := by
  unfold toPoly
  rw [finset_sum_coeff, Finset.sum_eq_single i]
  · rw [coeff_C_mul, coeff_X_pow_self, mul_one]
  · intro j _ hj
    rw [coeff_C_mul, coeff_X_pow, if_neg (fun h => hj h.symm), mul_zero]
  · intro h; exact absurd (mem_range.2 hi) h

/-- The representative is unique. -/
theorem Rep.unique [Nontrivial K] {n : Nat} (hn : n ≠ 0) {c : K} {f g : Nat → K} {P : K[X]} (hf : Rep n c f P) (hg : Rep n c g P) :
    ∀ i < n, f i = g i := by
  intro i hi
  unfold Rep at *
  have hd : (X ^ n - C c : K[X]) ∣ toPoly n f - toPoly n g := by
    have := dvd_sub hg hf
    rwa [show P - toPoly n g - (P - toPoly n f) = toPoly n f - toPoly n g by ring] at this
  have hm : (X ^ n - C c : K[X]).Monic := monic_X_pow_sub_C c hn
  have hz : toPoly n f - toPoly n g = 0 := by
    by_contra hne
    have h1 : (toPoly n f - toPoly n g).degree < n :=
      lt_of_le_of_lt (degree_sub_le _ _) (max_lt (toPoly_degree n f) (toPoly_degree n g))
    exact absurd hd (hm.not_dvd_of_degree_lt hne (by rw [degree_X_pow_sub_C (Nat.pos_of_ne_zero hn)]; exact h1))
  have := congrArg (fun p => coeff p i) hz
  simp only [coeff_sub, coeff_zero, toPoly_coeff n _ i hi] at this
  exact sub_eq_zero.1 this

/-- Multiplication by `X`. -/
theorem Rep.mulX {m : Nat} {c : K} {f : Nat → K} {P : K[X]} (h : Rep (m + 1) c f P) :
    Rep (m + 1) c (fun i => if i = 0 then c * f m else f (i - 1)) (X * P) := by
  unfold Rep at *
  have e : X * P - toPoly (m + 1) (fun i => if i = 0 then c * f m else f (i - 1)) =
      X * (P - toPoly (m + 1) f) + C (f m) * (X ^ (m + 1) - C c) := by
    unfold toPoly
    rw [sum_range_succ', sum_range_succ (fun i => C (f i) * X ^ i)]
    have : ∀ i, (if i + 1 = 0 then c * f m else f (i + 1 - 1)) = f i := fun i => by
      rw [if_neg (by omega), Nat.add_sub_cancel]
    simp only [this, if_true, pow_zero, mul_one, C_mul, pow_succ]
    rw [mul_sub, mul_add, mul_sum, sum_congr rfl (fun i _ => show C (f i) * (X ^ i * X) = X * (C (f i) * X ^ i) by ring)]
    ring
  rw [e]
  exact dvd_add (h.mul_left _) (dvd_mul_left _ _)

/-- Multiplication by `X^k`. -/
theorem Rep.mulXpow {n : Nat} {c : K} {g : Nat → K} {Q : K[X]} (h : Rep n c g Q) : ∀ k ≤ n,
    Rep n c (fun i => if k ≤ i then g (i - k) else c * g (n + i - k)) (X ^ k * Q) := by
  intro k
  induction k with
  | zero =>
    intro _
    rw [pow_zero, one_mul]
    exact h.congr fun i _ => by rw [if_pos (by omega), Nat.sub_zero]
  | succ k ih =>
    intro hk
    obtain ⟨m, rfl⟩ : ∃ m, n = m + 1 := ⟨n - 1, by omega⟩
    have hx := (ih (by omega)).mulX
    rw [← mul_assoc, ← pow_succ'] at hx
    refine hx.congr fun i hi => ?_
    by_cases h0 : i = 0
    · subst h0
      rw [if_pos rfl, if_pos (by omega), if_neg (by omega)]
      congr 2
      omega
    · rw [if_neg h0]
      by_cases h1 : k + 1 ≤ i
      · rw [if_pos (by omega), if_pos h1]; congr 1; omega
      · rw [if_neg (by omega), if_neg h1]; congr 2; omega

/-- The product modulo `X^n - c`, coefficient by coefficient. -/
theorem Rep.conv {n : Nat} {c : K} {g : Nat → K} {Q : K[X]} (h : Rep n c g Q) (f : Nat → K) :
    Rep n c (fun i => ∑ k ∈ range n, f k * (if k ≤ i then g (i - k) else c * g (n + i - k))) (toPoly n f * Q) := by
  have key : ∀ m ≤ n, Rep n c (fun i => ∑ k ∈ range m, f k * (if k ≤ i then g (i - k) else c * g (n + i - k)))
      (toPoly m f * Q) := by
    intro m
    induction m with
    | zero =>
      intro _
      unfold Rep toPoly
      simp
    | succ m ih =>
      intro hm
      have := (ih (by omega)).add ((h.mulXpow m (by omega)).smul (f m))
      have e : toPoly (m + 1) f * Q = toPoly m f * Q + C (f m) * (X ^ m * Q) := by
        unfold toPoly
        rw [sum_range_succ]; ring
      rw [e]
      exact this.congr fun i _ => by rw [sum_range_succ]
  exact key n (Nat.le_refl _)

end LC.Ntt
