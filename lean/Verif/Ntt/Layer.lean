import Verif.Ntt.Poly
/-
Whole layers of a number theoretic transform over a binary tree of roots: node `k` (root 1) stands
for the modulus `X^n - c k`; `c k = z k ^ 2`, and its children are `c (2k) = z k`,
`c (2k+1) = - z k`.
-/
namespace LC.Ntt
open Polynomial Finset

variable {K : Type} [CommRing K]

/-- All `k0` blocks of length `n` represent `P` modulo their `X^n - c`. -/
def Split (n k0 : Nat) (c : Nat → K) (f : Nat → K) (P : K[X]) : Prop :=
  ∀ b < k0, Rep n (c (k0 + b)) (fun j => f (n * b + j)) P

/-- Forward layer: blocks of length `2n` become blocks of length `n`; block `b` uses root `z b`. -/
def fwdLayer (n : Nat) (z : Nat → K) (f : Nat → K) (i : Nat) : K :=
  if i % (n + n) < n then f i + z (i / (n + n)) * f (i + n) else f (i - n) - z (i / (n + n)) * f i

/-- Backward layer; block `b` uses `w b`. -/
def invLayer (n : Nat) (w : Nat → K) (f : Nat → K) (i : Nat) : K :=
  if i % (n + n) < n then f i + f (i + n) else w (i / (n + n)) * (f i - f (i - n))

/-- The relation between roots and moduli at the nodes `k0 .. 2*k0-1`. -/
def Roots (k0 : Nat) (c z : Nat → K) : Prop :=
  ∀ k, k0 ≤ k → k < 2 * k0 → c k = z k * z k ∧ c (2 * k) = z k ∧ c (2 * k + 1) = -z k

theorem idx_lo {n b j : Nat} (hj : j < n) : ((n + n) * b + j) % (n + n) = j ∧ ((n + n) * b + j) / (n + n) = b := by
  have hn : 0 < n + n := by omega
  exact ⟨by rw [Nat.mul_add_mod, Nat.mod_eq_of_lt (by omega)],
    by rw [Nat.mul_add_div hn, Nat.div_eq_of_lt (by omega), Nat.add_zero]⟩

theorem idx_hi {n b j : Nat} (hj : j < n) :
    ((n + n) * b + (n + j)) % (n + n) = n + j ∧ ((n + n) * b + (n + j)) / (n + n) = b := by
  have hn : 0 < n + n := by omega
  exact ⟨by rw [Nat.mul_add_mod, Nat.mod_eq_of_lt (by omega)],
    by rw [Nat.mul_add_div hn, Nat.div_eq_of_lt (by omega), Nat.add_zero]⟩

theorem Split.congr {n k0 : Nat} {c : Nat → K} {f g : Nat → K} {P : K[X]} (h : ∀ i < n * k0, f i = g i)
    (hs : Split n k0 c f P) : Split n k0 c g P := by
  intro b hb
  refine (hs b hb).congr fun j hj => h _ ?_
  have : n * (b + 1) ≤ n * k0 := Nat.mul_le_mul_left n hb
  rw [Nat.mul_add] at this
  omega

theorem Split.fwd {n k0 : Nat} {c z : Nat → K} {f : Nat → K} {P : K[X]} (hr : Roots k0 c z) (h : Split (n + n) k0 c f P) :
    Split n (2 * k0) c (fwdLayer n (fun b => z (k0 + b)) f) P := by
  intro b' hb'
  have hb : b' / 2 < k0 := by omega
  obtain ⟨hc, hc0, hc1⟩ := hr (k0 + b' / 2) (by omega) (by omega)
  have hB := h (b' / 2) hb
  rw [hc] at hB
  have hF := hB.fwd
  rcases Nat.mod_two_eq_zero_or_one b' with he | he
  · have hk : 2 * k0 + b' = 2 * (k0 + b' / 2) := by omega
    rw [hk, hc0]
    refine hF.1.congr fun j hj => ?_
    have hi : n * b' + j = (n + n) * (b' / 2) + j := by
      have : b' = 2 * (b' / 2) := by omega
      rw [this, ← Nat.mul_assoc, ← this, Nat.mul_two]
    obtain ⟨e1, e2⟩ := idx_lo (b := b' / 2) hj
    rw [hi]
    unfold fwdLayer
    rw [e1, e2, if_pos hj, Nat.add_assoc, Nat.add_comm j n]
  · have hk : 2 * k0 + b' = 2 * (k0 + b' / 2) + 1 := by omega
    rw [hk, hc1]
    refine hF.2.congr fun j hj => ?_
    have hi : n * b' + j = (n + n) * (b' / 2) + (n + j) := by
      have : b' = 2 * (b' / 2) + 1 := by omega
      rw [this, Nat.mul_add, ← Nat.mul_assoc, ← this, Nat.mul_two]; omega
    obtain ⟨e1, e2⟩ := idx_hi (b := b' / 2) hj
    rw [hi]
    unfold fwdLayer
    rw [e1, e2, if_neg (by omega)]
    congr 2
    omega

theorem Split.inv {n k0 : Nat} {c z w : Nat → K} {u : K} (hu : 2 * u = 1) {f : Nat → K} {P : K[X]} (hr : Roots k0 c z)
    (hw : ∀ b < k0, z (k0 + b) * w b = -1) (h : Split n (2 * k0) c f P) :
    Split (n + n) k0 c (invLayer n w f) (C 2 * P) := by
  intro b hb
  obtain ⟨hc, hc0, hc1⟩ := hr (k0 + b) (by omega) (by omega)
  have hlo := h (2 * b) (by omega)
  have hhi := h (2 * b + 1) (by omega)
  rw [show 2 * k0 + 2 * b = 2 * (k0 + b) by omega, hc0] at hlo
  rw [show 2 * k0 + (2 * b + 1) = 2 * (k0 + b) + 1 by omega, hc1] at hhi
  rw [hc]
  refine Rep.inv (hw b hb) hu hlo hhi _ ?_ ?_
  · intro j hj
    obtain ⟨e1, e2⟩ := idx_lo (b := b) hj
    unfold invLayer
    rw [e1, if_pos hj]
    congr 2 <;> (simp only [Nat.mul_add, Nat.add_mul, Nat.mul_one, Nat.two_mul] <;> omega)
  · intro j hj
    obtain ⟨e1, e2⟩ := idx_hi (b := b) hj
    unfold invLayer
    rw [e1, e2, if_neg (by omega)]
    congr 3 <;> (simp only [Nat.mul_add, Nat.add_mul, Nat.mul_one, Nat.two_mul] <;> omega)

theorem Split.smul {n k0 : Nat} {c : Nat → K} {f : Nat → K} {P : K[X]} (u : K) (h : Split n k0 c f P) :
    Split n k0 c (fun i => u * f i) (C u * P) :=
  fun b hb => (h b hb).smul u

theorem Split.add {n k0 : Nat} {c : Nat → K} {f g : Nat → K} {P Q : K[X]} (h : Split n k0 c f P) (h' : Split n k0 c g Q) :
    Split n k0 c (fun i => f i + g i) (P + Q) :=
  fun b hb => (h b hb).add (h' b hb)

end LC.Ntt
