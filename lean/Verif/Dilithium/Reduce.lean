import Verif.Dilithium.Model
/-
Property theorems: C51 (ML-DSA modular reductions).
-/
namespace LC.Dilithium

theorem i32_eq {x : Int} (h1 : -2147483648 ≤ x) (h2 : x < 2147483648) : i32 x = x := by unfold i32; omega
theorem i32_range (x : Int) : -2147483648 ≤ i32 x ∧ i32 x < 2147483648 := by unfold i32; omega

/-- **C51 (`montgomery_reduce`, partial)**: for every `a` in `[-2^31 q, 2^31 q)` the result is in
`(-q, q)` and congruent to `a / 2^32` modulo `q`.  The header also promises the strict bound for
`a = 2^31 q`, where it fails (`montgomery_reduce_documented_false`). -/
theorem montgomery_reduce_exact_partial (a : Int) (h1 : -(8380417 * 2147483648) ≤ a) (h2 : a < 8380417 * 2147483648) :
    -8380417 < montgomeryReduce a ∧ montgomeryReduce a < 8380417 ∧ (montgomeryReduce a * 4294967296 - a) % 8380417 = 0 := by
  unfold montgomeryReduce
  dsimp only
  have ht : (a - i32 (i32 a * 58728449) * 8380417) % 4294967296 = 0 := by unfold i32; omega
  have hr := i32_range (i32 a * 58728449)
  generalize i32 (i32 a * 58728449) = t at ht hr
  rw [i32_eq (by omega) (by omega)]
  omega

/-- **C51**: the bound in the comment of `montgomery_reduce` (`-2^31 q <= a <= 2^31 q` implies
`-q < r < q`) does not hold at the upper end of the interval. -/
theorem montgomery_reduce_documented_false :
    ¬ ∀ a : Int, -(2147483648 * 8380417) ≤ a → a ≤ 8380417 * 2147483648 →
      -8380417 < montgomeryReduce a ∧ montgomeryReduce a < 8380417 := by
  intro h
  have := h (8380417 * 2147483648) (by decide) (by decide)
  revert this
  decide

/-- The subtraction in `montgomery_reduce` does not leave `int64_t`, and the final conversion to
`int32_t` keeps the value. -/
theorem montgomery_reduce_no_overflow (a : Int) (h1 : -(8380417 * 2147483648) ≤ a) (h2 : a ≤ 8380417 * 2147483648) :
    -9223372036854775808 ≤ a - i32 (i32 a * 58728449) * 8380417 ∧ a - i32 (i32 a * 58728449) * 8380417 < 9223372036854775808 ∧
    montgomeryReduce a = (a - i32 (i32 a * 58728449) * 8380417) / 4294967296 := by
  have hr := i32_range (i32 a * 58728449)
  unfold montgomeryReduce
  dsimp only
  generalize i32 (i32 a * 58728449) = t at hr
  refine ⟨by omega, by omega, ?_⟩
  rw [i32_eq (by omega) (by omega)]

/-- The multiplication `(int32_t)a * QINV` is done in `int` and does overflow for admissible
arguments: `montgomery_reduce` depends on the compiler flag `-fwrapv`. -/
theorem montgomery_reduce_needs_fwrapv :
    ∃ a : Int, -(8380417 * 2147483648) ≤ a ∧ a < 8380417 * 2147483648 ∧ ¬ (i32 a * 58728449 < 2147483648) :=
  ⟨37, by decide, by decide, by decide⟩

/-- **C51 (`reduce32`, partial)**: for every `int32_t` up to `2^31 - 2^22 - 1` the result is congruent
to `a` modulo `q` and in `[-6283009, 6283008]`.  The header promises 6283007
(`reduce32_documented_false`). -/
theorem reduce32_exact_partial (a : Int) (h1 : -2147483648 ≤ a) (h2 : a ≤ 2143289343) :
    -6283009 ≤ reduce32 a ∧ reduce32 a ≤ 6283008 ∧ (reduce32 a - a) % 8380417 = 0 ∧
    reduce32 a = a - (a + 4194304) / 8388608 * 8380417 := by
  unfold reduce32
  dsimp only
  rw [i32_eq (x := a + 4194304) (by omega) (by omega)]
  have h3 : -256 ≤ (a + 4194304) / 8388608 ∧ (a + 4194304) / 8388608 ≤ 255 := by omega
  rw [i32_eq (x := (a + 4194304) / 8388608 * 8380417) (by omega) (by omega), i32_eq (by omega) (by omega)]
  omega

/-- **C51**: the upper bound in the comment of `reduce32` is off by one. -/
theorem reduce32_documented_false :
    ¬ ∀ a : Int, -2147483648 ≤ a → a ≤ 2147483648 - 4194304 - 1 → -6283009 ≤ reduce32 a ∧ reduce32 a ≤ 6283007 := by
  intro h
  have := h 2143289343 (by decide) (by decide)
  revert this
  decide

/-- Both ends of the proved interval are reached. -/
example : reduce32 2143289343 = 6283008 ∧ reduce32 (-2143289344) = -6283009 := by decide

/-- **C51 (`caddq`)**: adds `q` to negative values, no overflow for any `int32_t`. -/
theorem caddq_exact (a : Int) (h1 : -2147483648 ≤ a) (h2 : a < 2147483648) :
    caddq a = if a < 0 then a + 8380417 else a := by
  unfold caddq
  split
  · rw [i32_eq (by omega) (by omega)]
  · rw [Int.add_zero, i32_eq h1 h2]

theorem caddq_mod {a : Int} (h1 : -8380417 ≤ a) (h2 : a < 8380417) : caddq a = a % 8380417 := by
  rw [caddq_exact a (by omega) (by omega)]
  split <;> omega

/-- **C51 (`freeze`)**: the standard representative, for every `int32_t` up to `2^31 - 2^22 - 1`. -/
theorem freeze_exact (a : Int) (h1 : -2147483648 ≤ a) (h2 : a ≤ 2143289343) : freeze a = a % 8380417 := by
  unfold freeze
  dsimp only
  obtain ⟨h3, h4, h5, h6⟩ := reduce32_exact_partial a h1 h2
  rw [caddq_mod (by omega) (by omega)]
  omega

/-- Above that bound `a + (1 << 22)` wraps and the result is not reduced. -/
theorem freeze_wraps : freeze 2143289344 ≠ 2143289344 % 8380417 := by decide

/-- The hypotheses are met, and the results are not trivial. -/
example : montgomeryReduce 17996808470921215 = 114592 ∧ montgomeryReduce 123456789012345 = -3424520 ∧
    freeze (-2147483648) = 6283521 ∧ freeze 1234567890 = 2646591 := by decide

end LC.Dilithium
