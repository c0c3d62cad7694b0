import Verif.Kyber.Model
/-
Property theorems: C41 (ML-KEM modular reductions).
-/
namespace LC.Kyber

theorem i16_eq {x : Int} (h1 : -32768 ≤ x) (h2 : x < 32768) : i16 x = x := by unfold i16; omega
theorem i16_range (x : Int) : -32768 ≤ i16 x ∧ i16 x < 32768 := by unfold i16; omega

/-- **C41 (no signed overflow in `montgomery_reduce`)**: `(int16_t)a * QINV`, `t * q` and `a - t * q`
fit `int32_t`, and the value stored in the second line fits `int16_t`. -/
theorem montgomery_reduce_no_overflow (a : Int) (h1 : -(3329 * 32768) ≤ a) (h2 : a < 3329 * 32768) :
    -2147483648 ≤ i16 a * (-3327) ∧ i16 a * (-3327) < 2147483648 ∧
    -2147483648 ≤ i16 (i16 a * (-3327)) * 3329 ∧ i16 (i16 a * (-3327)) * 3329 < 2147483648 ∧
    -2147483648 ≤ a - i16 (i16 a * (-3327)) * 3329 ∧ a - i16 (i16 a * (-3327)) * 3329 < 2147483648 ∧
    montgomeryReduce a = (a - i16 (i16 a * (-3327)) * 3329) / 65536 := by
  unfold montgomeryReduce i16
  dsimp only
  omega

/-- **C41 (Montgomery)**: for every `a` in `[-q 2^15, q 2^15)` the result is in `(-q, q)` and
congruent to `a / 2^16` modulo `q`. -/
theorem montgomery_reduce_exact (a : Int) (h1 : -(3329 * 32768) ≤ a) (h2 : a < 3329 * 32768) :
    -3329 < montgomeryReduce a ∧ montgomeryReduce a < 3329 ∧ (montgomeryReduce a * 65536 - a) % 3329 = 0 := by
  obtain ⟨_, _, _, _, _, _, h⟩ := montgomery_reduce_no_overflow a h1 h2
  rw [h]
  have ht : (a - i16 (i16 a * (-3327)) * 3329) % 65536 = 0 := by unfold i16; omega
  have hr := i16_range (i16 a * (-3327))
  omega

/-- **C41 (no signed overflow in `barrett_reduce`)**. -/
theorem barrett_reduce_no_overflow (a : Int) (h1 : -32768 ≤ a) (h2 : a < 32768) :
    -2147483648 ≤ 20159 * a + 33554432 ∧ 20159 * a + 33554432 < 2147483648 ∧
    barrettReduce a = a - (20159 * a + 33554432) / 67108864 * 3329 := by
  refine ⟨by omega, by omega, ?_⟩
  unfold barrettReduce
  dsimp only
  have hc : -10 ≤ (20159 * a + 33554432) / 67108864 ∧ (20159 * a + 33554432) / 67108864 ≤ 10 := by omega
  rw [i16_eq (x := (20159 * a + 33554432) / 67108864) (by omega) (by omega)]
  by_cases h : -32768 ≤ (20159 * a + 33554432) / 67108864 * 3329 ∧ (20159 * a + 33554432) / 67108864 * 3329 < 32768
  · rw [i16_eq (x := (20159 * a + 33554432) / 67108864 * 3329) (by omega) (by omega), i16_eq (by omega) (by omega)]
  · unfold i16; omega

/-- **C41 (Barrett)**: for every `int16_t` the result is the centred representative. -/
theorem barrett_reduce_exact (a : Int) (h1 : -32768 ≤ a) (h2 : a < 32768) :
    -1664 ≤ barrettReduce a ∧ barrettReduce a ≤ 1664 ∧ (barrettReduce a - a) % 3329 = 0 := by
  rw [(barrett_reduce_no_overflow a h1 h2).2.2]
  omega

/-- **C41 (multiplication)**: whenever the product is in range, `fqmul a b` is `a b / 2^16` modulo
`q`, in `(-q, q)`. -/
theorem fqmul_exact (a b : Int) (h1 : -(3329 * 32768) ≤ a * b) (h2 : a * b < 3329 * 32768) :
    -3329 < fqmul a b ∧ fqmul a b < 3329 ∧ (fqmul a b * 65536 - a * b) % 3329 = 0 :=
  montgomery_reduce_exact (a * b) h1 h2

theorem mul_bound {a b A B : Int} (ha : -A ≤ a ∧ a ≤ A) (hb : -B ≤ b ∧ b ≤ B) : -(A * B) ≤ a * b ∧ a * b ≤ A * B := by
  have hA : 0 ≤ A := by omega
  have hB : 0 ≤ B := by omega
  have h1 : 0 ≤ (A - a) * (B - b) := Int.mul_nonneg (by omega) (by omega)
  have h2 : 0 ≤ (A + a) * (B + b) := Int.mul_nonneg (by omega) (by omega)
  have h3 : 0 ≤ (A - a) * (B + b) := Int.mul_nonneg (by omega) (by omega)
  have h4 : 0 ≤ (A + a) * (B - b) := Int.mul_nonneg (by omega) (by omega)
  rw [Int.sub_mul, Int.mul_sub, Int.mul_sub] at h1
  rw [Int.add_mul, Int.mul_add, Int.mul_add] at h2
  rw [Int.sub_mul, Int.mul_add, Int.mul_add] at h3
  rw [Int.add_mul, Int.mul_sub, Int.mul_sub] at h4
  constructor <;> omega

/-- Any `int16_t` times a value of absolute value at most `q - 1` is in range. -/
theorem fqmul_int16 (a b : Int) (ha : -3328 ≤ a ∧ a ≤ 3328) (hb : -32768 ≤ b ∧ b ≤ 32768) :
    -3329 < fqmul a b ∧ fqmul a b < 3329 ∧ (fqmul a b * 65536 - a * b) % 3329 = 0 := by
  have h := mul_bound (A := 3328) (B := 32768) ha hb
  exact fqmul_exact a b (by omega) (by omega)

/-- The hypotheses are met, and the results are not trivial. -/
example : montgomeryReduce 100000000 = 1929 ∧ barrettReduce (-30000) = -39 ∧ fqmul 3328 (-32768) = -1664 := by decide

end LC.Kyber
