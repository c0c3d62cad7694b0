import Mathlib.Algebra.MonoidAlgebra.Basic
import Mathlib.Algebra.CharP.Frobenius
import Mathlib.Algebra.CharP.Lemmas
import Mathlib.Algebra.CharP.Two
import Mathlib.Algebra.CharP.Algebra
import Mathlib.Data.ZMod.Basic
import Mathlib.Algebra.Field.ZMod
import Mathlib.Tactic.Ring
import Mathlib.Tactic.LinearCombination

/-! The ring F_2[x]/(x^R - 1) as the group algebra of Z/R over F_2: squaring is a permutation of
the coefficients, and inversion by exponentiation. -/

namespace LC.Bike

open AddMonoidAlgebra

/-- F_2[x]/(x^R - 1): coefficients indexed by Z/R, multiplication is cyclic convolution. -/
abbrev A (R : Nat) := AddMonoidAlgebra (ZMod 2) (ZMod R)

/-- The class of `x^g`. -/
noncomputable def mono {R : Nat} (g : ZMod R) : A R := single g 1

theorem mono_mul {R : Nat} (g h : ZMod R) : mono g * mono h = mono (g + h) := by
  unfold mono; rw [single_mul_single, one_mul]

theorem mono_zero {R : Nat} : (mono (0 : ZMod R)) = 1 := rfl

instance charA (R : Nat) : CharP (A R) 2 :=
  charP_of_injective_ringHom (f := (singleZeroRingHom : ZMod 2 →+* A R))
    (by intro a b h
        have := congrArg (fun z : A R => z.coeff 0) h
        simpa [singleZeroRingHom] using this) 2

theorem addSelf {R : Nat} (a : A R) : a + a = 0 := CharTwo.add_self_eq_zero a

variable {R : Nat} [NeZero R]

theorem sum_single (a : A R) : ∑ g : ZMod R, single g (a.coeff g) = a := by
  ext h
  rw [coeff_sum, Finsupp.finset_sum_apply, Finset.sum_eq_single h]
  · simp
  · intro b _ hb; simp [hb]
  · simp

theorem coeff_sum_single (f : ZMod R → ZMod 2) (h : ZMod R) :
    (∑ g : ZMod R, (single g (f g) : A R)).coeff h = f h := by
  rw [coeff_sum, Finsupp.finset_sum_apply, Finset.sum_eq_single h]
  · simp
  · intro b _ hb; simp [hb]
  · simp

theorem zmod2_pow (c : ZMod 2) (k : Nat) : c ^ (2 ^ k) = c := by
  have h : c = 0 ∨ c = 1 := by revert c; decide
  rcases h with h | h
  · rw [h, zero_pow (by positivity)]
  · rw [h, one_pow]

/-- Raising to the power `2^k` moves coefficient `g` to `2^k g`. -/
theorem frob (a : A R) (k l : Nat) (hl : (l : ZMod R) * 2 ^ k = 1) (g : ZMod R) :
    (a ^ (2 ^ k)).coeff g = a.coeff (l * g) := by
  conv_lhs => rw [← sum_single a]
  rw [sum_pow_char_pow]
  simp only [single_pow, zmod2_pow]
  rw [coeff_sum, Finsupp.finset_sum_apply, Finset.sum_eq_single ((l : ZMod R) * g)]
  · rw [coeff_single, nsmul_eq_mul, Nat.cast_pow, Nat.cast_ofNat,
      show (2 : ZMod R) ^ k * (l * g) = g by linear_combination g * hl]
    simp
  · intro b _ hb
    rw [coeff_single, Finsupp.single_apply, if_neg]
    intro hc
    apply hb
    rw [nsmul_eq_mul, Nat.cast_pow, Nat.cast_ofNat] at hc
    rw [← hc]; linear_combination (-b) * hl
  · simp

theorem frob_full (h : (2 : ZMod R) ^ (R - 1) = 1) (a : A R) : a ^ (2 ^ (R - 1)) = a := by
  ext g
  rw [frob a (R - 1) 1 (by rw [h]; simp), Nat.cast_one, one_mul]

/-- The all-ones polynomial. -/
noncomputable def J (R : Nat) [NeZero R] : A R := ∑ g : ZMod R, single g 1

theorem J_coeff (g : ZMod R) : (J R).coeff g = 1 := coeff_sum_single (fun _ => 1) g

theorem mono_J (g : ZMod R) : mono g * J R = J R := by
  unfold J
  rw [Finset.mul_sum]
  unfold mono
  simp only [single_mul_single, one_mul]
  exact Fintype.sum_equiv (Equiv.addLeft g) _ _ (fun _ => rfl)

theorem single_J (g : ZMod R) (c : ZMod 2) : single g c * J R = single 0 c * J R := by
  have h : c = 0 ∨ c = 1 := by revert c; decide
  rcases h with rfl | rfl
  · simp
  · exact (mono_J g).trans (mono_J 0).symm

/-- Multiplying by the all-ones polynomial only depends on the parity of the weight. -/
theorem mul_J (a : A R) : a * J R = single 0 (∑ g : ZMod R, a.coeff g) * J R := by
  conv_lhs => rw [← sum_single a]
  rw [Finset.sum_mul]
  simp only [single_J]
  rw [← Finset.sum_mul]
  congr 1
  ext h
  rw [coeff_sum, Finsupp.finset_sum_apply, coeff_single, Finsupp.single_apply]
  simp only [coeff_single, Finsupp.single_apply]
  split
  · rfl
  · exact Finset.sum_const_zero

theorem J_J (hodd : R % 2 = 1) : J R * J R = J R := by
  rw [mul_J]
  simp only [J_coeff]
  rw [Finset.sum_const, Finset.card_univ, ZMod.card, nsmul_eq_mul, mul_one]
  have : ((R : Nat) : ZMod 2) = 1 := by
    have := ZMod.natCast_mod R 2
    rw [← this, hodd, Nat.cast_one]
  rw [this]
  exact mono_J 0

theorem J_ne_zero : J R ≠ 0 := by
  intro h
  have := J_coeff (0 : ZMod R)
  rw [h] at this
  simp at this

/-- If 2 generates the units modulo `R`, the idempotents are 0, 1, `J` and `1 + J`. -/
theorem idem (hodd : R % 2 = 1) (hgen : ∀ g : ZMod R, g ≠ 0 → ∃ n : Nat, g = 2 ^ n)
    (e : A R) (he : e * e = e) : e = 0 ∨ e = 1 ∨ e = J R ∨ e = J R + 1 := by
  obtain ⟨l, hl⟩ : ∃ l : Nat, (l : ZMod R) * 2 ^ 1 = 1 := by
    refine ⟨(R + 1) / 2, ?_⟩
    have h : (((R + 1) / 2 * 2 : Nat) : ZMod R) = ((R + 1 : Nat) : ZMod R) := by
      congr 1; omega
    push_cast at h
    simpa using h
  have hd : ∀ g : ZMod R, e.coeff (2 * g) = e.coeff g := by
    intro g
    have h := frob e 1 l hl (2 * g)
    rw [pow_one, pow_two, he] at h
    rw [h]
    congr 1
    linear_combination g * hl
  have hn : ∀ n : Nat, e.coeff (2 ^ n) = e.coeff 1 := by
    intro n
    induction n with
    | zero => rw [pow_zero]
    | succ n ih => rw [pow_succ', hd, ih]
  have hc : ∀ g : ZMod R, g ≠ 0 → e.coeff g = e.coeff 1 := by
    intro g hg
    obtain ⟨n, rfl⟩ := hgen g hg
    exact hn n
  have h01 : ∀ c : ZMod 2, c = 0 ∨ c = 1 := by decide
  have one_c : ∀ g : ZMod R, (1 : A R).coeff g = if g = 0 then 1 else 0 := by
    intro g
    rw [← mono_zero]
    unfold mono
    rw [coeff_single, Finsupp.single_apply]
    simp [eq_comm]
  rcases h01 (e.coeff 0) with h0 | h0 <;> rcases h01 (e.coeff 1) with h1 | h1
  · left
    ext g
    by_cases hg : g = 0
    · rw [hg, h0]; simp
    · rw [hc g hg, h1]; simp
  · right; right; right
    ext g
    rw [coeff_add, Finsupp.add_apply, J_coeff, one_c]
    by_cases hg : g = 0
    · rw [hg, h0, if_pos rfl]; decide
    · rw [hc g hg, h1, if_neg hg, add_zero]
  · right; left
    ext g
    rw [one_c]
    by_cases hg : g = 0
    · rw [hg, h0, if_pos rfl]
    · rw [hc g hg, h1, if_neg hg]
  · right; right; left
    ext g
    rw [J_coeff]
    by_cases hg : g = 0
    · rw [hg, h0]
    · rw [hc g hg, h1]

/-- Odd-weight polynomials other than the all-ones one are inverted by the power `2^(R-1) - 2`. -/
theorem inv_pow (hodd : R % 2 = 1) (h3 : 3 ≤ R)
    (hgen : ∀ g : ZMod R, g ≠ 0 → ∃ n : Nat, g = 2 ^ n) (hfer : (2 : ZMod R) ^ (R - 1) = 1)
    (a : A R) (hJ : a * J R = J R) (hne : a ≠ J R) : a * a ^ (2 ^ (R - 1) - 2) = 1 := by
  obtain ⟨m, hm⟩ : ∃ m, 2 ^ (R - 1) = m + 2 := by
    refine ⟨2 ^ (R - 1) - 2, ?_⟩
    have : 2 ^ 1 ≤ 2 ^ (R - 1) := Nat.pow_le_pow_right (by omega) (by omega)
    omega
  rw [hm, Nat.add_sub_cancel]
  have hf := frob_full hfer a
  rw [hm] at hf
  have he : a * a ^ m = a ^ (m + 1) := by rw [pow_succ, mul_comm]
  rw [he]
  have hae : a * a ^ (m + 1) = a := by rw [← pow_succ', hf]
  have hee : a ^ (m + 1) * a ^ (m + 1) = a ^ (m + 1) := by
    calc a ^ (m + 1) * a ^ (m + 1) = a ^ m * (a * a ^ (m + 1)) := by ring
      _ = a ^ (m + 1) := by rw [hae, pow_succ]
  have heJ : ∀ n, a ^ n * J R = J R := by
    intro n
    induction n with
    | zero => rw [pow_zero, one_mul]
    | succ n ih => rw [pow_succ, mul_assoc, hJ, ih]
  rcases idem hodd hgen _ hee with h | h | h | h
  · exfalso
    have := heJ (m + 1)
    rw [h, zero_mul] at this
    exact J_ne_zero this.symm
  · exact h
  · exfalso
    apply hne
    rw [← hae, h, hJ]
  · exfalso
    have := heJ (m + 1)
    rw [h, add_mul, J_J hodd, one_mul, addSelf] at this
    exact J_ne_zero this.symm

end LC.Bike
