import Mathlib.Algebra.Polynomial.Coeff
import Mathlib.Algebra.Polynomial.Degree.Defs
import Mathlib.Data.ZMod.Basic
import Mathlib.Data.Nat.Bitwise
import Mathlib.Algebra.CharP.Two
import Mathlib.Tactic.Ring
import Mathlib.Tactic.LinearCombination
import Mathlib.Tactic.IntervalCases
import Verif.Bike.Gf2x

/-! Polynomials over F_2 behind the words of BIKE, and the 64 x 64 multiplication. -/

namespace LC.Bike

open Polynomial

/-- The polynomial whose coefficients are the bits of `n`. -/
noncomputable def P (n : Nat) : (ZMod 2)[X] :=
  ∑ i ∈ Finset.range (n + 1), if n.testBit i then X ^ i else 0

/-- A bit as an element of F_2. -/
def b2 (b : Bool) : ZMod 2 := if b then 1 else 0

theorem b2_xor (a b : Bool) : b2 (a ^^ b) = b2 a + b2 b := by
  cases a <;> cases b <;> decide

theorem b2_inj {a b : Bool} (h : b2 a = b2 b) : a = b := by
  revert h; cases a <;> cases b <;> decide

theorem P_coeff (n k : Nat) : (P n).coeff k = b2 (n.testBit k) := by
  unfold P b2
  rw [finset_sum_coeff]
  by_cases hk : k < n + 1
  · rw [Finset.sum_eq_single k]
    · split <;> simp [*]
    · intro b _ hb
      split
      · simp [coeff_X_pow, Ne.symm hb]
      · simp
    · intro h; exact absurd (Finset.mem_range.2 hk) h
  · rw [Finset.sum_eq_zero]
    · have : n.testBit k = false := Nat.testBit_lt_two_pow (by
        have := @Nat.lt_two_pow_self k; omega)
      simp [this]
    · intro b hb
      have : b < n + 1 := Finset.mem_range.1 hb
      split
      · simp [coeff_X_pow, show ¬ k = b by omega]
      · simp

theorem P_inj {a b : Nat} (h : P a = P b) : a = b := by
  apply Nat.eq_of_testBit_eq
  intro i
  apply b2_inj
  rw [← P_coeff, ← P_coeff, h]

@[simp] theorem P_zero : P 0 = 0 := by
  ext k; rw [P_coeff]; simp [b2]

theorem P_one : P 1 = 1 := by
  ext k
  rw [P_coeff, coeff_one]
  unfold b2
  rcases k with _ | k
  · simp
  · simp [Nat.testBit_succ]

theorem P_xor (a b : Nat) : P (a ^^^ b) = P a + P b := by
  ext k; rw [coeff_add, P_coeff, P_coeff, P_coeff, Nat.testBit_xor, b2_xor]

theorem P_shl (a k : Nat) : P (a <<< k) = X ^ k * P a := by
  ext i
  rw [P_coeff, coeff_X_pow_mul', P_coeff, Nat.testBit_shiftLeft]
  by_cases h : k ≤ i <;> simp [h, b2]

theorem P_split (a k : Nat) : P (a % 2 ^ k) + X ^ k * P (a >>> k) = P a := by
  ext i
  rw [coeff_add, P_coeff, coeff_X_pow_mul', P_coeff, P_coeff, Nat.testBit_mod_two_pow,
    Nat.testBit_shiftRight]
  by_cases h : k ≤ i
  · simp [h, show ¬ i < k by omega, b2]
  · simp [h, show i < k by omega, b2]

theorem P_dbl_add (n b : Nat) (hb : b < 2) : P (2 * n + b) = X * P n + P b := by
  have h := P_split (2 * n + b) 1
  rw [← h, Nat.shiftRight_eq_div_pow, show (2 * n + b) % 2 ^ 1 = b by omega,
    show (2 * n + b) / 2 ^ 1 = n by omega]
  ring

/-- Shifting a word left by `i` into a pair of words. -/
theorem P_pair (g i : Nat) (hi : i ≤ 64) :
    P ((g <<< i) % W) + X ^ 64 * P (g >>> (64 - i)) = X ^ i * P g := by
  have h := P_split (g <<< i) 64
  rw [P_shl] at h
  rw [← h]
  congr 3
  apply Nat.eq_of_testBit_eq
  intro j
  rw [Nat.testBit_shiftRight, Nat.testBit_shiftRight, Nat.testBit_shiftLeft]
  rw [show decide (64 + j ≥ i) = true by simp; omega, Bool.true_and]
  congr 1; omega

theorem xor_lt_W {a b : Nat} (ha : a < W) (hb : b < W) : a ^^^ b < W := Nat.xor_lt_two_pow ha hb

/-! ## The base multiplication -/

theorem cmpeqMask_eq (v j : Nat) (hv : v < 8) (hj : j < 8) :
    cmpeqMask v j = if v = j then W - 1 else 0 := by
  revert j; revert v
  decide +kernel

theorem and_ones {x : Nat} (hx : x < W) : x &&& (W - 1) = x := by
  rw [show W - 1 = 2 ^ 64 - 1 from rfl, Nat.and_two_pow_sub_one_eq_mod, Nat.mod_eq_of_lt hx]

theorem lsb3_lt (x : Nat) : lsb3 x < 8 := by
  unfold lsb3
  rw [show 7 = 2 ^ 3 - 1 from rfl, Nat.and_two_pow_sub_one_eq_mod]; omega

theorem sel_eq (u : List Nat) (hu : ∀ j, u.getD j 0 < W) (v : Nat) (hv : v < 8) :
    sel u v = u.getD v 0 := by
  have h0 := hu 0; have h1 := hu 1; have h2 := hu 2; have h3 := hu 3
  have h4 := hu 4; have h5 := hu 5; have h6 := hu 6; have h7 := hu 7
  have e : List.range 8 = [0, 1, 2, 3, 4, 5, 6, 7] := by decide
  unfold sel
  rw [e]
  simp only [List.foldl_cons, List.foldl_nil]
  rw [cmpeqMask_eq v 0 hv (by omega), cmpeqMask_eq v 1 hv (by omega), cmpeqMask_eq v 2 hv (by omega),
    cmpeqMask_eq v 3 hv (by omega), cmpeqMask_eq v 4 hv (by omega), cmpeqMask_eq v 5 hv (by omega),
    cmpeqMask_eq v 6 hv (by omega), cmpeqMask_eq v 7 hv (by omega)]
  have hA : ∀ j, u.getD j 0 &&& (W - 1) = u.getD j 0 := fun j => and_ones (hu j)
  generalize W - 1 = M at hA
  clear h0 h1 h2 h3 h4 h5 h6 h7 hu e
  interval_cases v <;> simp [-List.getD_eq_getElem?_getD, hA]

theorem mulWin0_eq (u : List Nat) (hu : ∀ j, u.getD j 0 < W) (a : Nat) :
    mulWin0 u a = (u.getD (lsb3 a) 0 ^^^ ((u.getD (lsb3 (a >>> 3)) 0 <<< 3) % W),
      u.getD (lsb3 (a >>> 3)) 0 >>> 61) := by
  have e : List.range 8 = [0, 1, 2, 3, 4, 5, 6, 7] := by decide
  have hs : ∀ j, (u.getD j 0 <<< 3) % W < W := fun j => Nat.mod_lt _ (by decide)
  have hr : ∀ j, u.getD j 0 >>> 61 < W := fun j =>
    Nat.lt_of_le_of_lt (Nat.shiftRight_le _ _) (hu j)
  have key : ∀ v w, v < 8 → w < 8 →
      (List.range 8).foldl (fun lh i =>
        ((lh.1 ^^^ (u.getD i 0 &&& cmpeqMask v i)) ^^^
            (((u.getD i 0 <<< 3) % W) &&& cmpeqMask w i),
          lh.2 ^^^ ((u.getD i 0 >>> 61) &&& cmpeqMask w i))) ((0, 0) : Nat × Nat)
        = (u.getD v 0 ^^^ ((u.getD w 0 <<< 3) % W), u.getD w 0 >>> 61) := by
    intro v w hv hw
    have h1 : ∀ (l : List Nat) (x : Nat × Nat),
        l.foldl (fun lh i =>
          ((lh.1 ^^^ (u.getD i 0 &&& cmpeqMask v i)) ^^^
            (((u.getD i 0 <<< 3) % W) &&& cmpeqMask w i),
          lh.2 ^^^ ((u.getD i 0 >>> 61) &&& cmpeqMask w i))) x
        = ((l.foldl (fun g i => g ^^^ (u.getD i 0 &&& cmpeqMask v i)) x.1) ^^^
            (l.foldl (fun g i => g ^^^ (((u.getD i 0 <<< 3) % W) &&& cmpeqMask w i)) 0),
          l.foldl (fun g i => g ^^^ ((u.getD i 0 >>> 61) &&& cmpeqMask w i)) x.2) := by
      have h2 : ∀ (f : Nat → Nat) (l : List Nat) (x : Nat),
          l.foldl (fun g i => g ^^^ f i) x = x ^^^ l.foldl (fun g i => g ^^^ f i) 0 := by
        intro f l
        induction l with
        | nil => intro x; simp
        | cons c l ih =>
          intro x
          simp only [List.foldl_cons]
          rw [ih (x ^^^ f c), ih (0 ^^^ f c), Nat.zero_xor, Nat.xor_assoc]
      intro l
      induction l with
      | nil => intro x; simp
      | cons c l ih =>
        intro x
        simp only [List.foldl_cons]
        rw [ih]
        dsimp only
        rw [h2 (fun i => u.getD i 0 &&& cmpeqMask v i) l (_ ^^^ _),
          h2 (fun i => u.getD i 0 &&& cmpeqMask v i) l (x.1 ^^^ _),
          h2 (fun i => ((u.getD i 0 <<< 3) % W) &&& cmpeqMask w i) l (0 ^^^ _), Nat.zero_xor]
        congr 1
        ac_rfl
    rw [h1]
    have hm : ∀ (f : Nat → Nat), f 0 = 0 → ∀ j, (u.map f).getD j 0 = f (u.getD j 0) := by
      intro f hf j
      rw [List.getD_eq_getElem?_getD, List.getD_eq_getElem?_getD, List.getElem?_map]
      cases u[j]? <;> simp [hf]
    have a1 := sel_eq u hu v hv
    have a2 := sel_eq (u.map (fun x => (x <<< 3) % W))
      (by intro j; rw [hm _ (by decide)]; exact hs j) w hw
    have a3 := sel_eq (u.map (fun x => x >>> 61))
      (by intro j; rw [hm _ (by decide)]; exact hr j) w hw
    unfold sel at a1 a2 a3
    simp only [hm (fun x => (x <<< 3) % W) (by decide)] at a2
    simp only [hm (fun x => x >>> 61) (by decide)] at a3
    rw [a1, a2, a3]
  exact key _ _ (lsb3_lt _) (lsb3_lt _)

theorem P_lt_shift {b k : Nat} (h : b <<< k < W) : P ((b <<< k) % W) = X ^ k * P b := by
  rw [Nat.mod_eq_of_lt h, P_shl]

theorem mulTable_spec (b : Nat) (hb : b < 2 ^ 61) (v : Nat) (hv : v < 8) :
    (mulTable b).getD v 0 < W ∧ P ((mulTable b).getD v 0) = P v * P b := by
  have hW : b < W := by have : (2:Nat) ^ 61 < W := by decide
                        omega
  have hWv : W = 18446744073709551616 := by decide
  have h2 : (b <<< 1) % W = b <<< 1 := Nat.mod_eq_of_lt (by rw [Nat.shiftLeft_eq]; omega)
  have h2l : b <<< 1 < 2 ^ 62 := by rw [Nat.shiftLeft_eq]; omega
  have h3l : b <<< 1 ^^^ b < 2 ^ 62 := Nat.xor_lt_two_pow h2l (by omega)
  have h4 : ((b <<< 1) <<< 1) % W = (b <<< 1) <<< 1 := Nat.mod_eq_of_lt (by
    rw [Nat.shiftLeft_eq _ 1]; omega)
  have h4l : (b <<< 1) <<< 1 < W := by rw [Nat.shiftLeft_eq _ 1]; omega
  have h6 : ((b <<< 1 ^^^ b) <<< 1) % W = (b <<< 1 ^^^ b) <<< 1 := Nat.mod_eq_of_lt (by
    rw [Nat.shiftLeft_eq _ 1]; omega)
  have h6l : (b <<< 1 ^^^ b) <<< 1 < W := by rw [Nat.shiftLeft_eq _ 1]; omega
  have e : mulTable b = [0, b, b <<< 1, b <<< 1 ^^^ b, (b <<< 1) <<< 1, (b <<< 1) <<< 1 ^^^ b,
      (b <<< 1 ^^^ b) <<< 1, (b <<< 1 ^^^ b) <<< 1 ^^^ b] := by
    unfold mulTable
    simp only [h2, h4, h6]
  have p2 : P 2 = X := by rw [P_dbl_add 1 0 (by omega), P_one, P_zero]; ring
  have p3 : P 3 = X + 1 := by rw [P_dbl_add 1 1 (by omega), P_one]; ring
  have p4 : P 4 = X ^ 2 := by rw [P_dbl_add 2 0 (by omega), p2, P_zero]; ring
  have p5 : P 5 = X ^ 2 + 1 := by rw [P_dbl_add 2 1 (by omega), p2, P_one]; ring
  have p6 : P 6 = X ^ 2 + X := by rw [P_dbl_add 3 0 (by omega), p3, P_zero]; ring
  have p7 : P 7 = X ^ 2 + X + 1 := by rw [P_dbl_add 3 1 (by omega), p3, P_one]; ring
  have s2 : P (b <<< 1) = X * P b := by rw [P_shl]; ring
  have s3 : P (b <<< 1 ^^^ b) = (X + 1) * P b := by rw [P_xor, s2]; ring
  have s4 : P ((b <<< 1) <<< 1) = X ^ 2 * P b := by rw [P_shl, s2]; ring
  have s6 : P ((b <<< 1 ^^^ b) <<< 1) = (X ^ 2 + X) * P b := by rw [P_shl, s3]; ring
  rw [e]
  interval_cases v
  · exact ⟨by simp, by simp⟩
  · exact ⟨hW, by simp [P_one]⟩
  · exact ⟨by have : (2:Nat) ^ 62 < W := by decide
              simp; omega, by simp [s2, p2]⟩
  · exact ⟨by have : (2:Nat) ^ 62 < W := by decide
              simp; omega, by simp [s3, p3]⟩
  · exact ⟨by simpa using h4l, by simp [s4, p4]⟩
  · exact ⟨by simpa using xor_lt_W h4l hW, by simp [P_xor, s4, p5]; ring⟩
  · exact ⟨by simpa using h6l, by simp [s6, p6]⟩
  · exact ⟨by simpa using xor_lt_W h6l hW, by simp [P_xor, s6, p7]; ring⟩

/-- The value of a pair of words. -/
noncomputable def V (lh : Nat × Nat) : (ZMod 2)[X] := P lh.1 + X ^ 64 * P lh.2

def Wf2 (lh : Nat × Nat) : Prop := lh.1 < W ∧ lh.2 < W

theorem mulTable_lt (b : Nat) (hb : b < 2 ^ 61) (j : Nat) : (mulTable b).getD j 0 < W := by
  by_cases hj : j < 8
  · exact (mulTable_spec b hb j hj).1
  · rw [List.getD_eq_getElem?_getD, List.getElem?_eq_none (by
      unfold mulTable; simp; omega)]
    decide

theorem shr_lt_W {x k : Nat} (hx : x < W) : x >>> k < W :=
  Nat.lt_of_le_of_lt (Nat.shiftRight_le _ _) hx

theorem mod_lt_W (x : Nat) : x % W < W := Nat.mod_lt _ (by decide)

theorem mulWin_spec (b : Nat) (hb : b < 2 ^ 61) (a : Nat) (lh : Nat × Nat) (hw : Wf2 lh) (i : Nat)
    (hi : i ≤ 60) :
    Wf2 (mulWin (mulTable b) a lh i) ∧
    V (mulWin (mulTable b) a lh i) =
      V lh + (X ^ i * P (lsb3 (a >>> i)) + X ^ (i + 3) * P (lsb3 (a >>> (i + 3)))) * P b := by
  have h1 := mulTable_spec b hb _ (lsb3_lt (a >>> i))
  have h2 := mulTable_spec b hb _ (lsb3_lt (a >>> (i + 3)))
  have q1 := P_pair ((mulTable b).getD (lsb3 (a >>> i)) 0) i (by omega)
  have q2 := P_pair ((mulTable b).getD (lsb3 (a >>> (i + 3))) 0) (i + 3) (by omega)
  rw [h1.2] at q1
  rw [h2.2] at q2
  unfold mulWin
  rw [sel_eq _ (mulTable_lt b hb) _ (lsb3_lt _), sel_eq _ (mulTable_lt b hb) _ (lsb3_lt _)]
  constructor
  · exact ⟨xor_lt_W hw.1 (xor_lt_W (mod_lt_W _) (mod_lt_W _)),
      xor_lt_W hw.2 (xor_lt_W (shr_lt_W h1.1) (shr_lt_W h2.1))⟩
  · unfold V
    simp only [P_xor]
    linear_combination q1 + q2

theorem mulWin0_spec (b : Nat) (hb : b < 2 ^ 61) (a : Nat) :
    Wf2 (mulWin0 (mulTable b) a) ∧
    V (mulWin0 (mulTable b) a) = (P (lsb3 a) + X ^ 3 * P (lsb3 (a >>> 3))) * P b := by
  have h1 := mulTable_spec b hb _ (lsb3_lt a)
  have h2 := mulTable_spec b hb _ (lsb3_lt (a >>> 3))
  have q2 := P_pair ((mulTable b).getD (lsb3 (a >>> 3)) 0) 3 (by omega)
  rw [h2.2] at q2
  rw [mulWin0_eq _ (mulTable_lt b hb)]
  constructor
  · exact ⟨xor_lt_W h1.1 (mod_lt_W _), shr_lt_W h2.1⟩
  · unfold V
    simp only [P_xor]
    rw [h1.2]
    linear_combination q2

theorem P_win (a i : Nat) : P (a >>> i) = P (lsb3 (a >>> i)) + X ^ 3 * P (a >>> (i + 3)) := by
  have h := P_split (a >>> i) 3
  rw [← Nat.shiftRight_add] at h
  rw [← h]
  unfold lsb3
  rw [show 7 = 2 ^ 3 - 1 from rfl, Nat.and_two_pow_sub_one_eq_mod]

theorem negMask (x i : Nat) (hx : x < W) (b : Nat) :
    x &&& ((W - ((b >>> i) &&& 1)) % W) = if b.testBit i then x else 0 := by
  have h : (b >>> i) &&& 1 = if b.testBit i then 1 else 0 := by
    rw [Nat.and_one_is_mod, Nat.testBit_eq_decide_div_mod_eq, Nat.shiftRight_eq_div_pow]
    have := Nat.mod_two_eq_zero_or_one (b / 2 ^ i)
    rcases this with h | h <;> simp [h]
  rw [h]
  split
  · rw [show (W - 1) % W = W - 1 by decide, and_ones hx]
  · simp

theorem mulTop_spec (a b : Nat) (ha : a < W) (lh : Nat × Nat) (hw : Wf2 lh) (i : Nat) (hi : i ≤ 64) :
    Wf2 (mulTop a b lh i) ∧
    V (mulTop a b lh i) = V lh + X ^ i * C (b2 (b.testBit i)) * P a := by
  have q := P_pair a i hi
  unfold mulTop
  rw [negMask _ _ (mod_lt_W _), negMask _ _ (shr_lt_W ha)]
  cases hb : b.testBit i
  · simp only [Bool.false_eq_true, if_false, Nat.xor_zero]
    exact ⟨hw, by simp [b2]⟩
  · simp only [if_true]
    refine ⟨⟨xor_lt_W hw.1 (mod_lt_W _), xor_lt_W hw.2 (shr_lt_W ha)⟩, ?_⟩
    unfold V
    simp only [P_xor, b2, if_true, map_one]
    linear_combination q

theorem P_bit (b i : Nat) : P (b >>> i) = C (b2 (b.testBit i)) + X * P (b >>> (i + 1)) := by
  have h := P_split (b >>> i) 1
  rw [← Nat.shiftRight_add] at h
  rw [← h, pow_one X]
  congr 1
  ext k
  rw [P_coeff, Nat.testBit_mod_two_pow, coeff_C]
  rcases k with _ | k
  · simp [Nat.testBit_shiftRight]
  · simp [b2]

/-- `gf2x_mul_base_port` multiplies two 64-bit polynomials. -/
theorem mulBase_spec (a b : Nat) (ha : a < W) (hb : b < W) :
    Wf2 (mulBase a b) ∧ V (mulBase a b) = P a * P b := by
  have hm : b &&& (2 ^ 61 - 1) = b % 2 ^ 61 := Nat.and_two_pow_sub_one_eq_mod _ _
  have hml : b % 2 ^ 61 < 2 ^ 61 := Nat.mod_lt _ (by decide)
  unfold mulBase
  dsimp only
  rw [hm]
  simp only [List.foldl_cons, List.foldl_nil]
  generalize hw0 : mulWin0 (mulTable (b % 2 ^ 61)) a = x0
  have s0 := mulWin0_spec _ hml a
  rw [hw0] at s0
  generalize hw1 : mulWin (mulTable (b % 2 ^ 61)) a x0 6 = x1
  have s1 := mulWin_spec _ hml a x0 s0.1 6 (by omega)
  rw [hw1] at s1
  generalize hw2 : mulWin (mulTable (b % 2 ^ 61)) a x1 12 = x2
  have s2 := mulWin_spec _ hml a x1 s1.1 12 (by omega)
  rw [hw2] at s2
  generalize hw3 : mulWin (mulTable (b % 2 ^ 61)) a x2 18 = x3
  have s3 := mulWin_spec _ hml a x2 s2.1 18 (by omega)
  rw [hw3] at s3
  generalize hw4 : mulWin (mulTable (b % 2 ^ 61)) a x3 24 = x4
  have s4 := mulWin_spec _ hml a x3 s3.1 24 (by omega)
  rw [hw4] at s4
  generalize hw5 : mulWin (mulTable (b % 2 ^ 61)) a x4 30 = x5
  have s5 := mulWin_spec _ hml a x4 s4.1 30 (by omega)
  rw [hw5] at s5
  generalize hw6 : mulWin (mulTable (b % 2 ^ 61)) a x5 36 = x6
  have s6 := mulWin_spec _ hml a x5 s5.1 36 (by omega)
  rw [hw6] at s6
  generalize hw7 : mulWin (mulTable (b % 2 ^ 61)) a x6 42 = x7
  have s7 := mulWin_spec _ hml a x6 s6.1 42 (by omega)
  rw [hw7] at s7
  generalize hw8 : mulWin (mulTable (b % 2 ^ 61)) a x7 48 = x8
  have s8 := mulWin_spec _ hml a x7 s7.1 48 (by omega)
  rw [hw8] at s8
  generalize hw9 : mulWin (mulTable (b % 2 ^ 61)) a x8 54 = x9
  have s9 := mulWin_spec _ hml a x8 s8.1 54 (by omega)
  rw [hw9] at s9
  generalize hw10 : mulWin (mulTable (b % 2 ^ 61)) a x9 60 = x10
  have s10 := mulWin_spec _ hml a x9 s9.1 60 (by omega)
  rw [hw10] at s10
  generalize hw11 : mulTop a b x10 61 = x11
  have s11 := mulTop_spec a b ha x10 s10.1 61 (by omega)
  rw [hw11] at s11
  generalize hw12 : mulTop a b x11 62 = x12
  have s12 := mulTop_spec a b ha x11 s11.1 62 (by omega)
  rw [hw12] at s12
  have s13 := mulTop_spec a b ha x12 s12.1 63 (by omega)
  refine ⟨s13.1, ?_⟩
  rw [s13.2, s12.2, s11.2, s10.2, s9.2, s8.2, s7.2, s6.2, s5.2, s4.2, s3.2, s2.2, s1.2, s0.2]
  have eb : P b = P (b % 2 ^ 61) + X ^ 61 * (C (b2 (b.testBit 61)) +
      X * (C (b2 (b.testBit 62)) + X * C (b2 (b.testBit 63)))) := by
    rw [← P_split b 61, P_bit b 61, P_bit b 62, P_bit b 63, show b >>> (63 + 1) = 0 by
      rw [Nat.shiftRight_eq_div_pow]; exact Nat.div_eq_of_lt hb, P_zero, mul_zero, add_zero]
  have ea : P a = P (lsb3 a) + X ^ 3 * P (a >>> 3) := by simpa using P_win a 0
  have ez : P (a >>> 66) = 0 := by
    rw [show a >>> 66 = 0 by
      rw [Nat.shiftRight_eq_div_pow]; exact Nat.div_eq_of_lt (Nat.lt_trans ha (by decide)), P_zero]
  have e3 := P_win a 3
  have e6 := P_win a 6
  have e9 := P_win a 9
  have e12 := P_win a 12
  have e15 := P_win a 15
  have e18 := P_win a 18
  have e21 := P_win a 21
  have e24 := P_win a 24
  have e27 := P_win a 27
  have e30 := P_win a 30
  have e33 := P_win a 33
  have e36 := P_win a 36
  have e39 := P_win a 39
  have e42 := P_win a 42
  have e45 := P_win a 45
  have e48 := P_win a 48
  have e51 := P_win a 51
  have e54 := P_win a 54
  have e57 := P_win a 57
  have e60 := P_win a 60
  have e63 := P_win a 63
  rw [show (63 + 3) = 66 from rfl, ez] at e63
  have el : P a = P (lsb3 a) + X ^ 3 * P (lsb3 (a >>> 3)) + X ^ 6 * P (lsb3 (a >>> 6)) +
      X ^ 9 * P (lsb3 (a >>> 9)) + X ^ 12 * P (lsb3 (a >>> 12)) + X ^ 15 * P (lsb3 (a >>> 15)) +
      X ^ 18 * P (lsb3 (a >>> 18)) + X ^ 21 * P (lsb3 (a >>> 21)) + X ^ 24 * P (lsb3 (a >>> 24)) +
      X ^ 27 * P (lsb3 (a >>> 27)) + X ^ 30 * P (lsb3 (a >>> 30)) + X ^ 33 * P (lsb3 (a >>> 33)) +
      X ^ 36 * P (lsb3 (a >>> 36)) + X ^ 39 * P (lsb3 (a >>> 39)) + X ^ 42 * P (lsb3 (a >>> 42)) +
      X ^ 45 * P (lsb3 (a >>> 45)) + X ^ 48 * P (lsb3 (a >>> 48)) + X ^ 51 * P (lsb3 (a >>> 51)) +
      X ^ 54 * P (lsb3 (a >>> 54)) + X ^ 57 * P (lsb3 (a >>> 57)) + X ^ 60 * P (lsb3 (a >>> 60)) +
      X ^ 63 * P (lsb3 (a >>> 63)) := by
    rw [ea, e3, e6, e9, e12, e15, e18, e21, e24, e27, e30, e33, e36, e39, e42, e45, e48, e51, e54,
      e57, e60, e63]
    ring
  rw [eb]
  generalize P (b % 2 ^ 61) = B
  linear_combination (-B) * el

end LC.Bike
