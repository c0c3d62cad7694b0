import Verif.Kyber.Pack
/-
C50: samplers of ML-KEM.
-/
namespace LC.Kyber

/-! ### Specification -/

/-- Number of ones among the bits `from .. from + n - 1`. -/
def Spec.ones (b : List Byte) (start : Nat) : Nat → Nat
  | 0 => 0
  | n + 1 => Spec.ones b start n + (if Spec.bit b (start + n) then 1 else 0)

/-- `SamplePolyCBD_eta`, algorithm 8 of FIPS 203 (before the reduction modulo `q`). -/
def Spec.cbd (eta : Nat) (b : List Byte) (i : Nat) : Int :=
  (Spec.ones b (2 * i * eta) eta : Int) - (Spec.ones b (2 * i * eta + eta) eta : Int)

/-- The two candidates of three bytes, algorithm 7 lines 6-7. -/
def Spec.candidates : List Byte → List Nat
  | c0 :: c1 :: c2 :: l => (c0.toNat + 256 * (c1.toNat % 16)) :: (c1.toNat / 16 + 16 * c2.toNat) :: Spec.candidates l
  | _ => []

/-- The accepted candidates. -/
def Spec.accepted (l : List Byte) : List Nat := (Spec.candidates l).filter (· < 3329)

/-! ### Centred binomial distribution -/

theorem loadLe_eq (b : List Byte) (off : Nat) : ∀ n, loadLe b off n = sumDigits 8 (fun k => at8 b (off + k)) n
  | 0 => rfl
  | n + 1 => by
    unfold loadLe
    rw [loadLe_eq b off n]
    have hlt : ∀ (n : Nat) (e : Nat → Nat), (∀ j, e j < 256) → sumDigits 8 e n < 2 ^ (8 * n) := by
      intro n
      induction n with
      | zero => intro e _; exact Nat.one_pos
      | succ n ih =>
        intro e he
        unfold sumDigits
        have := ih (fun j => e (j + 1)) (fun j => he _)
        have h0 := he 0
        rw [Nat.mul_add, Nat.mul_one, Nat.pow_add, Nat.mul_comm (2 ^ (8 * n))]
        omega
    rw [or_add (hlt n _ (fun j => at8_lt _ _))]
    have hs : ∀ (n : Nat) (e : Nat → Nat), sumDigits 8 e n + e n * 2 ^ (8 * n) = sumDigits 8 e (n + 1) := by
      intro n
      induction n with
      | zero => intro e; simp [sumDigits]
      | succ n ih =>
        intro e
        have h1 := ih (fun j => e (j + 1))
        unfold sumDigits
        rw [← h1, Nat.mul_add (2 ^ 8), ← Nat.add_assoc]
        congr 1
        rw [Nat.mul_add 8, Nat.pow_add, Nat.mul_comm (2 ^ 8), Nat.mul_assoc]
    exact hs n _

theorem loadLe_testBit (b : List Byte) (off n k : Nat) (hk : k < 8 * n) :
    (loadLe b off n).testBit k = Spec.bit b (8 * off + k) := by
  rw [loadLe_eq, digits_testBit 8 (by decide) n _ (fun j _ => at8_lt _ _) k hk]
  unfold Spec.bit at8
  rw [show (8 * off + k) / 8 = off + k / 8 by omega, show (8 * off + k) % 8 = k % 8 by omega]

/-- Bit as a number. -/
def bitN (t k : Nat) : Nat := t / 2 ^ k % 2

theorem bitN_eq (t k : Nat) : bitN t k = if t.testBit k then 1 else 0 := by
  unfold bitN
  rw [Nat.testBit_eq_decide_div_mod_eq]
  have : t / 2 ^ k % 2 < 2 := Nat.mod_lt _ (by decide)
  by_cases h : t / 2 ^ k % 2 = 1
  · simp [h]
  · simp [h]; omega

/-- The mask with a one at the bottom of each of `n` digits of width `w`. -/
def maskN (w : Nat) : Nat → Nat
  | 0 => 0
  | n + 1 => 1 + 2 ^ w * maskN w n

/-- Masking selects one bit per digit. -/
theorem and_mask (w : Nat) (hw : 0 < w) : ∀ n t, t &&& maskN w n = sumDigits w (fun j => bitN t (w * j)) n := by
  intro n
  induction n with
  | zero => intro t; simp [maskN, sumDigits]
  | succ n ih =>
    intro t
    unfold maskN sumDigits
    have e : (fun j => bitN t (w * (j + 1))) = fun j => bitN (t / 2 ^ w) (w * j) := by
      funext j; unfold bitN; rw [Nat.mul_add, Nat.mul_one, Nat.add_comm, Nat.pow_add, ← Nat.div_div_eq_div_mul]
    rw [e, ← ih]
    apply Nat.eq_of_testBit_eq
    intro k
    have h1 : (1 : Nat) < 2 ^ w := Nat.one_lt_two_pow (by omega)
    have h2 : bitN t (w * 0) < 2 ^ w := by unfold bitN; omega
    rw [Nat.testBit_and, Nat.add_comm 1, Nat.testBit_two_pow_mul_add _ h1, Nat.add_comm (bitN _ _), Nat.testBit_two_pow_mul_add _ h2]
    by_cases hk : k < w
    · rw [if_pos hk, if_pos hk]
      unfold bitN
      rw [Nat.mul_zero, Nat.pow_zero, Nat.div_one]
      cases k with
      | zero => simp [Nat.testBit_zero]
      | succ k => 
        rw [Nat.testBit_succ, Nat.testBit_succ, Nat.testBit_succ]
        have : t % 2 / 2 = 0 := by omega
        rw [this]; simp
    · rw [if_neg hk, if_neg hk, Nat.testBit_and, Nat.testBit_div_two_pow]
      congr 2
      omega

/-- A digit of a number given by its digits. -/
theorem digit_at (w : Nat) (hw : 0 < w) : ∀ m e j, j < m → (∀ i < m, e i < 2 ^ w) → (sumDigits w e m) / 2 ^ (w * j) % 2 ^ w = e j := by
  intro m
  induction m with
  | zero => intro e j h; omega
  | succ m ih =>
    intro e j hj he
    unfold sumDigits
    have h0 := he 0 (by omega)
    cases j with
    | zero =>
      rw [Nat.mul_zero, Nat.pow_zero, Nat.div_one, Nat.add_mul_mod_self_left, Nat.mod_eq_of_lt h0]
    | succ j =>
      rw [Nat.mul_add, Nat.mul_one, Nat.add_comm (w * j), Nat.pow_add, ← Nat.div_div_eq_div_mul, Nat.add_mul_div_left _ _ (Nat.two_pow_pos w),
        Nat.div_eq_of_lt h0, Nat.zero_add]
      exact ih _ j (by omega) (fun i hi => he (i + 1) (by omega))

theorem sumDigits_add (w : Nat) : ∀ m e f, sumDigits w e m + sumDigits w f m = sumDigits w (fun j => e j + f j) m
  | 0, _, _ => rfl
  | m + 1, e, f => by
    unfold sumDigits
    rw [← sumDigits_add w m, Nat.mul_add]
    omega

theorem bitN_bit (buf : List Byte) (off n k : Nat) (hk : k < 8 * n) :
    bitN (loadLe buf off n) k = if Spec.bit buf (8 * off + k) then 1 else 0 := by
  rw [bitN_eq, loadLe_testBit buf off n k hk]

theorem bitN_shift (t s k : Nat) : bitN (t >>> s) k = bitN t (k + s) := by
  unfold bitN
  rw [Nat.shiftRight_eq_div_pow, Nat.div_div_eq_div_mul, ← Nat.pow_add, Nat.add_comm]

theorem bitN_le (t k : Nat) : bitN t k ≤ 1 := by unfold bitN; omega

/-- **C50 (`cbd2`)**: the difference of two sums of two bits, in `[-2, 2]`, for every buffer. -/
theorem cbd2_is_fips (buf : List Byte) (x : Nat) : cbd2 buf x = Spec.cbd 2 buf x ∧ -2 ≤ cbd2 buf x ∧ cbd2 buf x ≤ 2 := by
  have hm : (0x55555555 : Nat) = maskN 2 16 := by decide
  have hd : ∀ t : Nat, (t &&& 0x55555555) + ((t >>> 1) &&& 0x55555555) = sumDigits 2 (fun j => bitN t (2 * j) + bitN t (2 * j + 1)) 16 := by
    intro t
    rw [hm, and_mask 2 (by decide), and_mask 2 (by decide), sumDigits_add]
    congr 1
    funext j
    rw [bitN_shift]
  have hj : x % 8 < 8 := by omega
  have key : ∀ i j, j < 8 → cbd2 buf (8 * i + j) = Spec.cbd 2 buf (8 * i + j) ∧ -2 ≤ cbd2 buf (8 * i + j) ∧ cbd2 buf (8 * i + j) ≤ 2 := by
    intro i j hj
    unfold cbd2
    dsimp only
    rw [show (8 * i + j) / 8 = i by omega, show (8 * i + j) % 8 = j by omega, hd]
    have e3 : ∀ y, y &&& 0x3 = y % 2 ^ 2 := fun y => Nat.and_two_pow_sub_one_eq_mod y 2
    have hb : ∀ k < 16, (fun j => bitN (loadLe buf (4 * i) 4) (2 * j) + bitN (loadLe buf (4 * i) 4) (2 * j + 1)) k < 2 ^ 2 := by
      intro k _
      have := bitN_le (loadLe buf (4 * i) 4) (2 * k)
      have := bitN_le (loadLe buf (4 * i) 4) (2 * k + 1)
      dsimp only
      omega
    rw [e3, e3, Nat.shiftRight_eq_div_pow, Nat.shiftRight_eq_div_pow, show 4 * j + 0 = 2 * (2 * j) by omega,
      show 4 * j + 2 = 2 * (2 * j + 1) by omega, digit_at 2 (by decide) 16 _ _ (by omega) hb, digit_at 2 (by decide) 16 _ _ (by omega) hb]
    rw [bitN_bit _ _ _ _ (by omega), bitN_bit _ _ _ _ (by omega), bitN_bit _ _ _ _ (by omega), bitN_bit _ _ _ _ (by omega)]
    unfold Spec.cbd Spec.ones Spec.ones Spec.ones
    rw [show 8 * (4 * i) + 2 * (2 * j) = 2 * (8 * i + j) * 2 + 0 by omega,
      show 8 * (4 * i) + (2 * (2 * j) + 1) = 2 * (8 * i + j) * 2 + 1 by omega,
      show 8 * (4 * i) + 2 * (2 * j + 1) = 2 * (8 * i + j) * 2 + 2 + 0 by omega,
      show 8 * (4 * i) + (2 * (2 * j + 1) + 1) = 2 * (8 * i + j) * 2 + 2 + 1 by omega]
    generalize Spec.bit buf (2 * (8 * i + j) * 2 + 0) = c0
    generalize Spec.bit buf (2 * (8 * i + j) * 2 + 1) = c1
    generalize Spec.bit buf (2 * (8 * i + j) * 2 + 2 + 0) = c2
    generalize Spec.bit buf (2 * (8 * i + j) * 2 + 2 + 1) = c3
    revert c0 c1 c2 c3
    decide
  have := key (x / 8) (x % 8) hj
  rwa [Nat.div_add_mod] at this

/-- **C50 (`cbd3`)**: the difference of two sums of three bits, in `[-3, 3]`. -/
theorem cbd3_is_fips (buf : List Byte) (x : Nat) : cbd3 buf x = Spec.cbd 3 buf x ∧ -3 ≤ cbd3 buf x ∧ cbd3 buf x ≤ 3 := by
  have hm : (0x00249249 : Nat) = maskN 3 8 := by decide
  have hd : ∀ t : Nat, (t &&& 0x00249249) + ((t >>> 1) &&& 0x00249249) + ((t >>> 2) &&& 0x00249249) =
      sumDigits 3 (fun j => bitN t (3 * j) + bitN t (3 * j + 1) + bitN t (3 * j + 2)) 8 := by
    intro t
    rw [hm, and_mask 3 (by decide), and_mask 3 (by decide), and_mask 3 (by decide), sumDigits_add, sumDigits_add]
    congr 1
    funext j
    rw [bitN_shift, bitN_shift]
  have key : ∀ i j, j < 4 → cbd3 buf (4 * i + j) = Spec.cbd 3 buf (4 * i + j) ∧ -3 ≤ cbd3 buf (4 * i + j) ∧ cbd3 buf (4 * i + j) ≤ 3 := by
    intro i j hj
    unfold cbd3
    dsimp only
    rw [show (4 * i + j) / 4 = i by omega, show (4 * i + j) % 4 = j by omega, hd]
    have e3 : ∀ y, y &&& 0x7 = y % 2 ^ 3 := fun y => Nat.and_two_pow_sub_one_eq_mod y 3
    have hb : ∀ k < 8, (fun j => bitN (loadLe buf (3 * i) 3) (3 * j) + bitN (loadLe buf (3 * i) 3) (3 * j + 1) +
        bitN (loadLe buf (3 * i) 3) (3 * j + 2)) k < 2 ^ 3 := by
      intro k _
      have := bitN_le (loadLe buf (3 * i) 3) (3 * k)
      have := bitN_le (loadLe buf (3 * i) 3) (3 * k + 1)
      have := bitN_le (loadLe buf (3 * i) 3) (3 * k + 2)
      dsimp only
      omega
    rw [e3, e3, Nat.shiftRight_eq_div_pow, Nat.shiftRight_eq_div_pow, show 6 * j + 0 = 3 * (2 * j) by omega,
      show 6 * j + 3 = 3 * (2 * j + 1) by omega, digit_at 3 (by decide) 8 _ _ (by omega) hb, digit_at 3 (by decide) 8 _ _ (by omega) hb]
    rw [bitN_bit _ _ _ _ (by omega), bitN_bit _ _ _ _ (by omega), bitN_bit _ _ _ _ (by omega), bitN_bit _ _ _ _ (by omega),
      bitN_bit _ _ _ _ (by omega), bitN_bit _ _ _ _ (by omega)]
    unfold Spec.cbd Spec.ones Spec.ones Spec.ones Spec.ones
    rw [show 8 * (3 * i) + 3 * (2 * j) = 2 * (4 * i + j) * 3 + 0 by omega,
      show 8 * (3 * i) + (3 * (2 * j) + 1) = 2 * (4 * i + j) * 3 + 1 by omega,
      show 8 * (3 * i) + (3 * (2 * j) + 2) = 2 * (4 * i + j) * 3 + 2 by omega,
      show 8 * (3 * i) + 3 * (2 * j + 1) = 2 * (4 * i + j) * 3 + 3 + 0 by omega,
      show 8 * (3 * i) + (3 * (2 * j + 1) + 1) = 2 * (4 * i + j) * 3 + 3 + 1 by omega,
      show 8 * (3 * i) + (3 * (2 * j + 1) + 2) = 2 * (4 * i + j) * 3 + 3 + 2 by omega]
    generalize Spec.bit buf (2 * (4 * i + j) * 3 + 0) = c0
    generalize Spec.bit buf (2 * (4 * i + j) * 3 + 1) = c1
    generalize Spec.bit buf (2 * (4 * i + j) * 3 + 2) = c2
    generalize Spec.bit buf (2 * (4 * i + j) * 3 + 3 + 0) = c3
    generalize Spec.bit buf (2 * (4 * i + j) * 3 + 3 + 1) = c4
    generalize Spec.bit buf (2 * (4 * i + j) * 3 + 3 + 2) = c5
    revert c0 c1 c2 c3 c4 c5
    decide
  have := key (x / 4) (x % 4) (by omega)
  rwa [Nat.div_add_mod] at this

/-! ### Rejection sampling -/

theorem rejLoop_spec (len : Nat) (buf : List Byte) : ∀ fuel ctr pos, buf.length < fuel + pos → ctr ≤ len →
    rejLoop len buf fuel ctr pos = ((Spec.accepted (buf.drop pos)).take (len - ctr)).map Int.ofNat := by
  intro fuel
  induction fuel with
  | zero =>
    intro ctr pos h _
    rw [List.drop_eq_nil_of_le (by omega), show Spec.accepted [] = [] from rfl, List.take_nil]
    rfl
  | succ fuel ih =>
    intro ctr pos h hc
    unfold rejLoop
    by_cases hcond : ctr < len ∧ pos + 3 ≤ buf.length
    · rw [if_pos hcond]
      dsimp only
      obtain ⟨h1, h2⟩ := hcond
      have e : buf.drop pos = buf.getD pos 0 :: buf.getD (pos + 1) 0 :: buf.getD (pos + 2) 0 :: buf.drop (pos + 3) := by
        have g : ∀ p < buf.length, buf.drop p = buf.getD p 0 :: buf.drop (p + 1) := by
          intro p hp
          rw [List.drop_eq_getElem_cons hp, List.getD_eq_getElem?_getD, List.getElem?_eq_getElem hp, Option.getD_some]
        rw [g pos (by omega), g (pos + 1) (by omega), g (pos + 2) (by omega)]
      have b0 := at8_lt buf pos
      have b1 := at8_lt buf (pos + 1)
      have b2 := at8_lt buf (pos + 2)
      have e12 : ∀ y, y &&& 0xfff = y % 4096 := fun y => Nat.and_two_pow_sub_one_eq_mod y 12
      have v0 : ((at8 buf pos >>> 0) ||| (at8 buf (pos + 1) <<< 8)) &&& 0xfff = (buf.getD pos 0).toNat + 256 * ((buf.getD (pos + 1) 0).toNat % 16) := by
        rw [e12, Nat.shiftRight_zero, or_add8 b0]
        unfold at8 at *
        omega
      have v1 : ((at8 buf (pos + 1) >>> 4) ||| (at8 buf (pos + 2) <<< 4)) &&& 0xfff = (buf.getD (pos + 1) 0).toNat / 16 + 16 * (buf.getD (pos + 2) 0).toNat := by
        rw [e12, Nat.shiftRight_eq_div_pow, or_add4 (by omega)]
        unfold at8 at *
        omega
      rw [v0, v1, e]
      unfold Spec.accepted
      rw [Spec.candidates]
      generalize (buf.getD pos 0).toNat + 256 * ((buf.getD (pos + 1) 0).toNat % 16) = w0
      generalize (buf.getD (pos + 1) 0).toNat / 16 + 16 * (buf.getD (pos + 2) 0).toNat = w1
      have hacc := fun c hc' => ih c (pos + 3) (by omega) hc'
      unfold Spec.accepted at hacc
      obtain ⟨n, hn⟩ : ∃ n, len - ctr = n + 1 := ⟨len - ctr - 1, by omega⟩
      by_cases g0 : w0 < 3329
      · rw [if_pos g0, List.filter_cons_of_pos (by simpa using g0)]
        by_cases g1 : w1 < 3329
        · by_cases hl : ctr + [(w0 : Int)].length < len
          · rw [if_pos ⟨hl, g1⟩, List.filter_cons_of_pos (by simpa using g1)]
            simp only [List.length_cons, List.length_nil] at *
            rw [hacc _ (by omega)]
            obtain ⟨n', hn'⟩ : ∃ n', n = n' + 1 := ⟨n - 1, by omega⟩
            rw [hn, hn', List.take_succ_cons, List.take_succ_cons, show len - (ctr + (0 + 1) + (0 + 1)) = n' by omega]
            rfl
          · rw [if_neg (fun h => hl h.1)]
            simp only [List.length_cons, List.length_nil] at *
            rw [hacc _ (by omega), show len - (ctr + (0 + 1) + 0) = 0 by omega, hn, show n = 0 by omega]
            rfl
        · rw [if_neg (fun h => g1 h.2), List.filter_cons_of_neg (by simpa using g1)]
          simp only [List.length_cons, List.length_nil] at *
          rw [hacc _ (by omega), hn, List.take_succ_cons, show len - (ctr + (0 + 1) + 0) = n by omega]
          rfl
      · rw [if_neg g0, List.filter_cons_of_neg (by simpa using g0)]
        by_cases g1 : w1 < 3329
        · rw [if_pos ⟨by simpa using h1, g1⟩, List.filter_cons_of_pos (by simpa using g1)]
          simp only [List.length_cons, List.length_nil] at *
          rw [hacc _ (by omega), hn, List.take_succ_cons, show len - (ctr + 0 + (0 + 1)) = n by omega]
          rfl
        · rw [if_neg (fun h => g1 h.2), List.filter_cons_of_neg (by simpa using g1)]
          simp only [List.length_nil, Nat.add_zero, List.nil_append] at *
          rw [hacc _ (by omega)]
    · rw [if_neg hcond]
      by_cases hl : ctr < len
      · have hshort : (buf.drop pos).length < 3 := by rw [List.length_drop]; omega
        have : Spec.candidates (buf.drop pos) = [] := by
          match h : buf.drop pos with
          | [] => rfl
          | [_] => rfl
          | [_, _] => rfl
          | _ :: _ :: _ :: _ => rw [h] at hshort; simp at hshort; omega
        unfold Spec.accepted
        rw [this]; simp
      · rw [show len - ctr = 0 by omega]; rfl

/-- **C50 (`rej_uniform`)**: exactly the accepted 12-bit candidates of the buffer, in order, as many as
requested; nothing is written past the requested number. -/
theorem rejUniform_spec (len : Nat) (buf : List Byte) :
    rejUniform len buf = ((Spec.accepted buf).take len).map Int.ofNat ∧ (rejUniform len buf).length ≤ len := by
  have h := rejLoop_spec len buf (buf.length + 1) 0 0 (by omega) (Nat.zero_le _)
  rw [List.drop_zero, Nat.sub_zero] at h
  unfold rejUniform
  rw [h]
  refine ⟨rfl, ?_⟩
  rw [List.length_map, List.length_take]
  omega

theorem candidates_append : ∀ (n : Nat) (a b : List Byte), a.length = 3 * n →
    Spec.candidates (a ++ b) = Spec.candidates a ++ Spec.candidates b
  | 0, a, b, h => by
    have : a = [] := List.length_eq_zero_iff.1 h
    subst this; rfl
  | n + 1, a, b, h => by
    match a, h with
    | c0 :: c1 :: c2 :: l, h =>
      simp only [List.length_cons] at h
      rw [List.cons_append, List.cons_append, List.cons_append, Spec.candidates, Spec.candidates, candidates_append n l b (by omega)]
      rfl

/-- The first `n` bytes of a stream. -/
def Spec.prefix (s : Nat → Byte) (n : Nat) : List Byte := (List.range n).map s

theorem prefix_add (s : Nat → Byte) (n m : Nat) : Spec.prefix s (n + m) = Spec.prefix s n ++ (List.range m).map fun i => s (n + i) := by
  unfold Spec.prefix
  rw [List.range_add, List.map_append, List.map_map]
  rfl

theorem genLoop_spec (s : Nat → Byte) : ∀ fuel k buf acc out, buf.length % 3 = 0 →
    acc = ((Spec.accepted (Spec.prefix s (3 * k))).take 256).map Int.ofNat →
    genLoop s fuel (3 * k) buf acc = some out →
    out.length = 256 ∧ ∃ n, out = ((Spec.accepted (Spec.prefix s n)).take 256).map Int.ofNat := by
  intro fuel
  induction fuel with
  | zero =>
    intro k buf acc out _ hacc h
    unfold genLoop at h
    by_cases hl : acc.length < 256
    · rw [if_pos hl] at h; cases h
    · rw [if_neg hl] at h
      cases h
      refine ⟨?_, 3 * k, hacc⟩
      have : acc.length ≤ 256 := by rw [hacc, List.length_map, List.length_take]; omega
      omega
  | succ fuel ih =>
    intro k buf acc out hb hacc h
    unfold genLoop at h
    by_cases hl : acc.length < 256
    · rw [if_pos hl] at h
      dsimp only at h
      rw [hb, Nat.sub_zero, List.drop_length, List.nil_append, show 3 * k + 168 = 3 * (k + 56) by omega] at h
      refine ih (k + 56) _ _ out ?_ ?_ h
      · rw [List.length_map, List.length_range]
      · rw [(rejUniform_spec _ _).1, show 3 * (k + 56) = 3 * k + 168 by omega, prefix_add]
        unfold Spec.accepted
        rw [candidates_append k _ _ (by unfold Spec.prefix; rw [List.length_map, List.length_range]), List.filter_append,
          List.take_append, List.map_append]
        have hlen : acc.length = (Spec.accepted (Spec.prefix s (3 * k))).length := by
          rw [hacc, List.length_map, List.length_take] at hl ⊢
          omega
        rw [hlen, ← Spec.accepted, ← Spec.accepted]
        congr 1
    · rw [if_neg hl] at h
      cases h
      refine ⟨?_, 3 * k, hacc⟩
      have : acc.length ≤ 256 := by rw [hacc, List.length_map, List.length_take]; omega
      omega

/-- **C50 (`gen_matrix`)**: one entry of the matrix consists of the first 256 accepted candidates of
the XOF's output stream (`SampleNTT`, algorithm 7), for every stream, however many refills are
needed. -/
theorem genEntry_spec (s : Nat → Byte) (fuel : Nat) (out : List Int) (h : genEntry s fuel = some out) :
    out.length = 256 ∧ ∃ n, out = ((Spec.accepted (Spec.prefix s n)).take 256).map Int.ofNat := by
  unfold genEntry at h
  dsimp only at h
  refine genLoop_spec s fuel 168 _ _ out ?_ ?_ h
  · rw [List.length_map, List.length_range]
  · exact (rejUniform_spec _ _).1

/-- Non-trivial buffers. -/
example : rejUniform 2 [0x34, 0x12, 0xff, 0xff, 0xff, 0x01] = [0x234, 0x01f] ∧ Spec.cbd 3 [0x07, 0x02] 0 = 3 ∧ Spec.cbd 2 [0x0c] 0 = -2 := by
  decide

end LC.Kyber
