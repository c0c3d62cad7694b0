import Verif.Ntt.Layer
/-
Every array is the transform of some polynomial; sums of representations.
-/
namespace LC.Ntt
open Polynomial Finset

variable {K : Type} [CommRing K]

/-- A forward layer after half of the backward layer is the identity. -/
theorem fwd_inv_layer {n k0 : Nat} (hn : 0 < n) {z w : Nat → K} {u : K} (hu : 2 * u = 1) (hw : ∀ b < k0, z b * w b = -1) (f : Nat → K) :
    ∀ i < (n + n) * k0, fwdLayer n z (fun i => u * invLayer n w f i) i = f i := by
  intro i hi
  have hb : i / (n + n) < k0 := Nat.div_lt_of_lt_mul hi
  have hz := hw _ hb
  have hlt : i % (n + n) < n + n := Nat.mod_lt _ (by omega)
  have hdm := Nat.div_add_mod i (n + n)
  generalize hB : i / (n + n) = b at *
  generalize hJ : i % (n + n) = j at *
  unfold fwdLayer
  rw [hB, hJ]
  by_cases h : j < n
  · rw [if_pos h]
    obtain ⟨e1, e2⟩ := idx_lo (b := b) h
    obtain ⟨e3, e4⟩ := idx_hi (b := b) h
    unfold invLayer; dsimp only
    rw [hJ, if_pos h, show i + n = (n + n) * b + (n + j) by omega, e3, e4, if_neg (by omega)]
    rw [show (n + n) * b + (n + j) - n = i by omega]
    linear_combination (f ((n + n) * b + (n + j)) - f i) * u * hz + f i * hu
  · rw [if_neg h]
    have h' : j - n < n := by omega
    obtain ⟨e1, e2⟩ := idx_lo (b := b) h'
    unfold invLayer; dsimp only
    rw [hJ, hB, if_neg h, show i - n = (n + n) * b + (j - n) by omega, e1, if_pos h']
    rw [show (n + n) * b + (j - n) + n = i by omega]
    linear_combination (f ((n + n) * b + (j - n)) - f i) * u * hz + f i * hu

/-- One level of the tree. -/
theorem Split.exists_step {n k0 : Nat} (hn : 0 < n) {c z w : Nat → K} {u : K} (hu : 2 * u = 1) (hr : Roots k0 c z)
    (hw : ∀ b < k0, z (k0 + b) * w b = -1) (h : ∀ g : Nat → K, ∃ P, Split (n + n) k0 c g P) (f : Nat → K) :
    ∃ P, Split n (2 * k0) c f P := by
  obtain ⟨P, hP⟩ := h (fun i => u * invLayer n w f i)
  refine ⟨P, (hP.fwd hr).congr fun i hi => ?_⟩
  exact fwd_inv_layer hn hu hw f i (by rw [show (n + n) * k0 = n * (2 * k0) by ring]; exact hi)

theorem Rep.of_dvd {n : Nat} {c : K} {f : Nat → K} {P Q : K[X]} (h : Rep n c f P) (hd : (X ^ n - C c) ∣ Q - P) : Rep n c f Q := by
  unfold Rep at *
  have := dvd_add hd h
  rwa [show Q - P + (P - toPoly n f) = Q - toPoly n f by ring] at this

theorem Rep.dvd_sub {n : Nat} {c : K} {f : Nat → K} {P Q : K[X]} (h : Rep n c f P) (h' : Rep n c f Q) : (X ^ n - C c) ∣ Q - P := by
  unfold Rep at *
  have := _root_.dvd_sub h' h
  rwa [show Q - toPoly n f - (P - toPoly n f) = Q - P by ring] at this

theorem Rep.sub {n : Nat} {c : K} {f g : Nat → K} {P Q : K[X]} (h : Rep n c f P) (h' : Rep n c g Q) :
    Rep n c (fun i => f i - g i) (P - Q) := by
  unfold Rep at *
  rw [toPoly_sub]
  have := _root_.dvd_sub h h'
  rwa [show P - toPoly n f - (Q - toPoly n g) = P - Q - (toPoly n f - toPoly n g) by ring] at this

theorem Rep.zero (n : Nat) (c : K) : Rep n c (fun _ => 0) 0 := by
  unfold Rep toPoly
  simp

theorem Rep.sum {n : Nat} {c : K} {f : Nat → Nat → K} {P : Nat → K[X]} : ∀ k, (∀ j < k, Rep n c (f j) (P j)) →
    Rep n c (fun i => ∑ j ∈ range k, f j i) (∑ j ∈ range k, P j)
  | 0, _ => by simpa using Rep.zero n c
  | k + 1, h => by
    simp only [sum_range_succ]
    exact (Rep.sum k fun j hj => h j (by omega)).add (h k (by omega))

end LC.Ntt
