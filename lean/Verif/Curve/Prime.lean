import Verif.Curve.Encode
import Mathlib.NumberTheory.LucasPrimality
import Mathlib.FieldTheory.Finite.Basic
import Mathlib.Tactic.NormNum.Prime
/-!
# `2^255 - 19` is a prime

Pratt certificates, evaluated by the kernel.
-/
namespace LC.Curve

/-- `r * b^e mod m` by repeated squaring, for exponents of at most `fuel` bits. -/
def powMod (m : Nat) : Nat → Nat → Nat → Nat → Nat
  | 0, _, _, r => r % m
  | fuel + 1, b, e, r => powMod m fuel (b * b % m) (e / 2) (if e % 2 = 1 then r * b % m else r)

theorem powMod_eq (m fuel b e r : Nat) (he : e < 2 ^ fuel) :
    ((powMod m fuel b e r : Nat) : ZMod m) = (r : ZMod m) * (b : ZMod m) ^ e := by
  induction fuel generalizing b e r with
  | zero =>
    have : e = 0 := by simpa using he
    rw [powMod, ZMod.natCast_mod, this, pow_zero, mul_one]
  | succ fuel ih =>
    rw [powMod, ih _ _ _ (by rw [Nat.pow_succ] at he; omega), ZMod.natCast_mod, Nat.cast_mul, ← pow_two, ← pow_mul]
    have h2 : e = 2 * (e / 2) + e % 2 := by omega
    split
    · rename_i h
      rw [ZMod.natCast_mod, Nat.cast_mul]
      conv_rhs => rw [h2, h, pow_add, pow_one]
      ring
    · rename_i h
      conv_rhs => rw [h2, show e % 2 = 0 by omega, Nat.add_zero]

/-- Lucas' test with the prime factors of `p - 1` (with multiplicity) at hand. -/
theorem pratt (p a fuel : Nat) (fs : List Nat) (hfs : ∀ f ∈ fs, f.Prime) (h1 : 1 < p) (hp : fs.prod = p - 1)
    (hlen : p < 2 ^ fuel) (ha : powMod p fuel a (p - 1) 1 = 1)
    (hq : ∀ f ∈ fs, powMod p fuel a ((p - 1) / f) 1 ≠ 1 ∧ powMod p fuel a ((p - 1) / f) 1 < p) : p.Prime := by
  refine lucas_primality p (a : ZMod p) ?_ ?_
  · have := powMod_eq p fuel a (p - 1) 1 (by omega)
    rw [ha, Nat.cast_one, one_mul] at this
    exact this.symm
  · intro q hqp hqd hc
    rw [← hp, hqp.prime.dvd_prod_iff] at hqd
    obtain ⟨f, hf, hqf⟩ := hqd
    have hqf' := (Nat.prime_dvd_prime_iff_eq hqp (hfs f hf)).mp hqf
    rw [hqf'] at hc
    have h := powMod_eq p fuel a ((p - 1) / f) 1 (Nat.lt_of_le_of_lt (Nat.div_le_self _ _) (by omega))
    rw [hc, Nat.cast_one, one_mul] at h
    obtain ⟨n1, n2⟩ := hq f hf
    have h' : ((powMod p fuel a ((p - 1) / f) 1 : Nat) : ZMod p) = ((1 : Nat) : ZMod p) := by rw [h, Nat.cast_one]
    rw [ZMod.natCast_eq_natCast_iff', Nat.mod_eq_of_lt n2, Nat.mod_eq_of_lt h1] at h'
    exact n1 h'

theorem prime_1923133 : Nat.Prime 1923133 := by
  refine pratt 1923133 2 22 [2, 2, 3, 43, 3727] ?_ (by decide) (by decide +kernel) (by decide +kernel)
    (by decide +kernel) (by decide +kernel)
  intro f hf
  simp only [List.mem_cons, List.not_mem_nil, or_false] at hf
  rcases hf with rfl | rfl | rfl | rfl | rfl
  · norm_num
  · norm_num
  · norm_num
  · norm_num
  · norm_num

theorem prime_31757755568855353 : Nat.Prime 31757755568855353 := by
  refine pratt 31757755568855353 10 56 [2, 2, 2, 3, 31, 107, 223, 4153, 430751] ?_ (by decide) (by decide +kernel) (by decide +kernel)
    (by decide +kernel) (by decide +kernel)
  intro f hf
  simp only [List.mem_cons, List.not_mem_nil, or_false] at hf
  rcases hf with rfl | rfl | rfl | rfl | rfl | rfl | rfl | rfl | rfl
  · norm_num
  · norm_num
  · norm_num
  · norm_num
  · norm_num
  · norm_num
  · norm_num
  · norm_num
  · norm_num

theorem prime_2773320623 : Nat.Prime 2773320623 := by
  refine pratt 2773320623 5 33 [2, 2437, 569003] ?_ (by decide) (by decide +kernel) (by decide +kernel)
    (by decide +kernel) (by decide +kernel)
  intro f hf
  simp only [List.mem_cons, List.not_mem_nil, or_false] at hf
  rcases hf with rfl | rfl | rfl
  · norm_num
  · norm_num
  · norm_num

theorem prime_72106336199 : Nat.Prime 72106336199 := by
  refine pratt 72106336199 7 38 [2, 13, 2773320623] ?_ (by decide) (by decide +kernel) (by decide +kernel)
    (by decide +kernel) (by decide +kernel)
  intro f hf
  simp only [List.mem_cons, List.not_mem_nil, or_false] at hf
  rcases hf with rfl | rfl | rfl
  · norm_num
  · norm_num
  · exact prime_2773320623

theorem prime_8574133 : Nat.Prime 8574133 := by
  refine pratt 8574133 2 25 [2, 2, 3, 7, 103, 991] ?_ (by decide) (by decide +kernel) (by decide +kernel)
    (by decide +kernel) (by decide +kernel)
  intro f hf
  simp only [List.mem_cons, List.not_mem_nil, or_false] at hf
  rcases hf with rfl | rfl | rfl | rfl | rfl | rfl
  · norm_num
  · norm_num
  · norm_num
  · norm_num
  · norm_num
  · norm_num

theorem prime_1919519569386763 : Nat.Prime 1919519569386763 := by
  refine pratt 1919519569386763 2 52 [2, 3, 7, 19, 47, 47, 127, 8574133] ?_ (by decide) (by decide +kernel) (by decide +kernel)
    (by decide +kernel) (by decide +kernel)
  intro f hf
  simp only [List.mem_cons, List.not_mem_nil, or_false] at hf
  rcases hf with rfl | rfl | rfl | rfl | rfl | rfl | rfl | rfl
  · norm_num
  · norm_num
  · norm_num
  · norm_num
  · norm_num
  · norm_num
  · norm_num
  · exact prime_8574133

theorem prime_75445702479781427272750846543864801 : Nat.Prime 75445702479781427272750846543864801 := by
  refine pratt 75445702479781427272750846543864801 7 117 [2, 2, 2, 2, 2, 3, 3, 5, 5, 75707, 72106336199, 1919519569386763] ?_ (by decide) (by decide +kernel) (by decide +kernel)
    (by decide +kernel) (by decide +kernel)
  intro f hf
  simp only [List.mem_cons, List.not_mem_nil, or_false] at hf
  rcases hf with rfl | rfl | rfl | rfl | rfl | rfl | rfl | rfl | rfl | rfl | rfl | rfl
  · norm_num
  · norm_num
  · norm_num
  · norm_num
  · norm_num
  · norm_num
  · norm_num
  · norm_num
  · norm_num
  · norm_num
  · exact prime_72106336199
  · exact prime_1919519569386763

theorem prime_74058212732561358302231226437062788676166966415465897661863160754340907 : Nat.Prime 74058212732561358302231226437062788676166966415465897661863160754340907 := by
  refine pratt 74058212732561358302231226437062788676166966415465897661863160754340907 2 237 [2, 3, 353, 57467, 132049, 1923133, 31757755568855353, 75445702479781427272750846543864801] ?_ (by decide) (by decide +kernel) (by decide +kernel)
    (by decide +kernel) (by decide +kernel)
  intro f hf
  simp only [List.mem_cons, List.not_mem_nil, or_false] at hf
  rcases hf with rfl | rfl | rfl | rfl | rfl | rfl | rfl | rfl
  · norm_num
  · norm_num
  · norm_num
  · norm_num
  · norm_num
  · exact prime_1923133
  · exact prime_31757755568855353
  · exact prime_75445702479781427272750846543864801

theorem P_prime : Nat.Prime 57896044618658097711785492504343953926634992332820282019728792003956564819949 := by
  refine pratt 57896044618658097711785492504343953926634992332820282019728792003956564819949 2 256 [2, 2, 3, 65147, 74058212732561358302231226437062788676166966415465897661863160754340907] ?_ (by decide) (by decide +kernel) (by decide +kernel)
    (by decide +kernel) (by decide +kernel)
  intro f hf
  simp only [List.mem_cons, List.not_mem_nil, or_false] at hf
  rcases hf with rfl | rfl | rfl | rfl | rfl
  · norm_num
  · norm_num
  · norm_num
  · norm_num
  · exact prime_74058212732561358302231226437062788676166966415465897661863160754340907


instance : Fact (Nat.Prime P) := ⟨P_prime⟩

/-- `fe25519_invert` computes the inverse (and 0 from 0). -/
theorem feInvert_inv (z : Fe) (h : z.lt loose) : toF (feInvert z) = (toF z)⁻¹ := by
  rw [(feInvert_spec z h).2]
  by_cases hz : toF z = 0
  · rw [hz, inv_zero, zero_pow (by decide)]
  · refine eq_inv_of_mul_eq_one_left ?_
    rw [← pow_succ]
    exact ZMod.pow_card_sub_one_eq_one hz

end LC.Curve
