import Verif.Curve.ScalarLemmas
/-!
# Loading and storing scalars, products
-/
namespace LC.Curve.Sc

/-! ### Loads -/

theorem or_shift {a b k : Nat} (ha : a < 2 ^ k) : a ||| b <<< k = a + b * 2 ^ k := by
  rw [Nat.or_comm, Nat.shiftLeft_eq, Nat.mul_comm, ← Nat.two_pow_add_eq_or_of_lt ha, Nat.mul_comm]; omega

theorem or3 {a b c : Nat} (ha : a < 256) (hb : b < 256) : a ||| b <<< 8 ||| c <<< 16 = a + 256 * b + 65536 * c := by
  rw [or_shift (a := a) (k := 8) ha, or_shift (by omega)]; omega

theorem or4 {a b c d : Nat} (ha : a < 256) (hb : b < 256) (hc : c < 256) :
    a ||| b <<< 8 ||| c <<< 16 ||| d <<< 24 = a + 256 * b + 65536 * c + 16777216 * d := by
  rw [or3 ha hb, or_shift (by omega)]; omega

theorem getD_lt {α : Type} (s : List α) (d : α) {o : Nat} (h : o < s.length) : s.getD o d = s[o] := by simp [h]
theorem getD_ge {α : Type} (s : List α) (d : α) {o : Nat} (h : s.length ≤ o) : s.getD o d = d := by simp [h]

/-- The bytes from `o` on. -/
def digits (s : List Byte) (o : Nat) : Nat → Nat
  | 0 => 0
  | k + 1 => (s.getD o 0).toNat + 256 * digits s (o + 1) k

theorem leNum_drop (s : List Byte) (o : Nat) : leNum (s.drop o) = (s.getD o 0).toNat + 256 * leNum (s.drop (o + 1)) := by
  by_cases h : o < s.length
  · rw [List.drop_eq_getElem_cons h, leNum, getD_lt _ _ h]
  · rw [List.drop_eq_nil_of_le (by omega), List.drop_eq_nil_of_le (by omega), getD_ge _ _ (by omega)]
    rfl

theorem digits_eq (s : List Byte) : ∀ (k o : Nat), digits s o k = leNum (s.drop o) % 256 ^ k
  | 0, o => by simp [digits, Nat.mod_one]
  | k + 1, o => by
    rw [digits, digits_eq s k, leNum_drop s o, Nat.pow_succ, Nat.mul_comm (256 ^ k) 256, Nat.mod_mul]
    have := (s.getD o 0).toNat_lt
    rw [Nat.add_mul_mod_self_left, Nat.mod_eq_of_lt this, Nat.add_mul_div_left _ _ (by decide), Nat.div_eq_of_lt this, Nat.zero_add]

theorem leNum_drop_div (s : List Byte) (o : Nat) : leNum (s.drop o) = leNum s / 256 ^ o := by
  induction o with
  | zero => simp
  | succ o ih =>
    have h := leNum_drop s o
    have hb := (s.getD o 0).toNat_lt
    rw [Nat.pow_succ, ← Nat.div_div_eq_div_mul, ← ih]
    omega

theorem load3_eq (s : List Byte) (o : Nat) : load3 s o = leNum s / 256 ^ o % 256 ^ 3 := by
  rw [← leNum_drop_div, ← digits_eq]
  have h0 := (s.getD o 0).toNat_lt
  have h1 := (s.getD (o + 1) 0).toNat_lt
  have h2 := (s.getD (o + 2) 0).toNat_lt
  unfold load3
  rw [or3 h0 h1]
  simp only [digits, Nat.add_assoc, Nat.reduceAdd]
  omega

theorem load4_eq (s : List Byte) (o : Nat) : load4 s o = leNum s / 256 ^ o % 256 ^ 4 := by
  rw [← leNum_drop_div, ← digits_eq]
  have h0 := (s.getD o 0).toNat_lt
  have h1 := (s.getD (o + 1) 0).toNat_lt
  have h2 := (s.getD (o + 2) 0).toNat_lt
  have h3 := (s.getD (o + 3) 0).toNat_lt
  unfold load4
  rw [or4 h0 h1 h2]
  simp only [digits, Nat.add_assoc, Nat.reduceAdd]
  omega

theorem and_21 (x : Nat) : x &&& 2097151 = x % 2097152 := Nat.and_two_pow_sub_one_eq_mod x 21

theorem limb_eq (s : List Byte) (o sh : Nat) (four : Bool) (h : sh + 21 ≤ if four then 32 else 24) :
    limb s (o, four, sh) = ((leNum s / 2 ^ (8 * o + sh) % 2097152 : Nat) : Int) := by
  rw [limb]
  congr 1
  rw [and_21, Nat.shiftRight_eq_div_pow, pow_add, pow_mul, ← Nat.div_div_eq_div_mul]
  have key : ∀ N w : Nat, sh + 21 ≤ w → N % 2 ^ w / 2 ^ sh % 2097152 = N / 2 ^ sh % 2097152 := by
    intro N w hw
    obtain ⟨d, rfl⟩ : ∃ d, w = sh + (21 + d) := ⟨w - (sh + 21), by omega⟩
    rw [pow_add, Nat.mod_mul_right_div_self, show (2097152 : Nat) = 2 ^ 21 by norm_num, pow_add, Nat.mod_mul_right_mod]
  cases four with
  | true => rw [if_pos rfl, load4_eq]; exact key _ 32 h
  | false => rw [if_neg (by decide), load3_eq]; exact key _ 24 h

/-- The table reads the 21 bit digits. -/
theorem limbAt_ok : ∀ i, i < 23 → ∃ o f sh, limbAt[i]? = some (o, f, sh) ∧ 8 * o + sh = 21 * i ∧ (sh + 21 ≤ if f then 32 else 24) := by
  intro i hi
  have : (limbAt[i]?.map fun t => decide (8 * t.1 + t.2.2 = 21 * i ∧ (t.2.2 + 21 ≤ if t.2.1 then 32 else 24))) = some true := by
    revert i; decide
  rw [Option.map_eq_some_iff] at this
  obtain ⟨⟨o, f, sh⟩, h1, h2⟩ := this
  exact ⟨o, f, sh, h1, of_decide_eq_true h2⟩

/-- The digits of a number to the base `2^21`. -/
theorem vl_digits {s : List Int} {N : Nat} : ∀ n, (∀ i, i < n → get s i = ((N / 2 ^ (21 * i) % 2097152 : Nat) : Int)) →
    vl s n = ((N % 2 ^ (21 * n) : Nat) : Int)
  | 0, _ => by simp [vl, Nat.mod_one]
  | n + 1, h => by
    rw [vl, vl_digits n fun i hi => h i (by omega), h n (by omega), Nat.mul_add, pow_add, Nat.mod_mul]
    push_cast
    norm_num
    ring

theorem limbs64_get (s : List Byte) (i : Nat) (hi : i < 23) : get (limbs64 s) i = ((leNum s / 2 ^ (21 * i) % 2097152 : Nat) : Int) := by
  obtain ⟨o, f, sh, h1, h2, h3⟩ := limbAt_ok i hi
  have hl : limbAt.length = 23 := rfl
  unfold get limbs64
  rw [List.getD_eq_getElem?_getD, List.getElem?_append_left (by rw [List.length_map, hl]; exact hi), List.getElem?_map, h1]
  rw [Option.map_some, Option.getD_some, limb_eq _ _ _ _ h3, h2]

theorem limbs64_last (s : List Byte) (hs : s.length = 64) : get (limbs64 s) 23 = ((leNum s / 2 ^ (21 * 23) : Nat) : Int) ∧
    leNum s / 2 ^ (21 * 23) < 536870912 := by
  have hlt := leNum_lt s
  rw [hs] at hlt
  have e : get (limbs64 s) 23 = ((load4 s 60 >>> 3 : Nat) : Int) := rfl
  rw [e, load4_eq, Nat.shiftRight_eq_div_pow]
  have h1 : leNum s / 256 ^ 60 < 256 ^ 4 := by rw [Nat.div_lt_iff_lt_mul (by positivity), ← pow_add]; exact hlt
  rw [Nat.mod_eq_of_lt h1, Nat.div_div_eq_div_mul, show 256 ^ 60 * 2 ^ 3 = 2 ^ (21 * 23) by decide +kernel]
  refine ⟨rfl, ?_⟩
  rw [Nat.div_lt_iff_lt_mul (by positivity)]
  exact hlt

theorem limbs64_in (s : List Byte) (hs : s.length = 64) : In (limbs64 s) iv64 := by
  refine ⟨rfl, rfl, fun i => ?_⟩
  by_cases h : i < 23
  · rw [limbs64_get s i h]
    have : geti iv64 i = (0, 2097151) := by revert i; decide
    rw [this]
    dsimp only
    omega
  · by_cases h2 : i = 23
    · subst h2
      obtain ⟨e, hb⟩ := limbs64_last s hs
      rw [e]
      have : geti iv64 23 = (0, 536870911) := by decide
      rw [this]
      dsimp only
      omega
    · have e1 : get (limbs64 s) i = 0 := getD_ge _ _ (by show 24 ≤ i; omega)
      have e2 : geti iv64 i = (0, 0) := getD_ge _ _ (by show 24 ≤ i; omega)
      rw [e1, e2]; decide

theorem limbs64_val (s : List Byte) (hs : s.length = 64) : vl (limbs64 s) 24 = (leNum s : Int) := by
  rw [vl, vl_digits 23 (fun i hi => limbs64_get s i hi), (limbs64_last s hs).1]
  have := Nat.mod_add_div (leNum s) (2 ^ (21 * 23))
  calc ((leNum s % 2 ^ (21 * 23) : Nat) : Int) + ((leNum s / 2 ^ (21 * 23) : Nat) : Int) * 2 ^ (21 * 23)
      = ((leNum s % 2 ^ (21 * 23) + 2 ^ (21 * 23) * (leNum s / 2 ^ (21 * 23)) : Nat) : Int) := by push_cast; ring
    _ = _ := by rw [this]

/-! ### Operands of a product -/

theorem limbs32_get (s : List Byte) (i : Nat) (hi : i < 11) : get (limbs32 s) i = ((leNum s / 2 ^ (21 * i) % 2097152 : Nat) : Int) := by
  obtain ⟨o, f, sh, h1, h2, h3⟩ := limbAt_ok i (by omega)
  have hl : (limbAt.take 11).length = 11 := rfl
  unfold get limbs32
  rw [List.getD_eq_getElem?_getD, List.getElem?_append_left (by rw [List.length_map, hl]; exact hi), List.getElem?_map,
    List.getElem?_take_of_lt hi, h1]
  rw [Option.map_some, Option.getD_some, limb_eq _ _ _ _ h3, h2]

theorem limbs32_last (s : List Byte) (hs : s.length = 32) : get (limbs32 s) 11 = ((leNum s / 2 ^ (21 * 11) : Nat) : Int) ∧
    leNum s / 2 ^ (21 * 11) < 33554432 := by
  have hlt := leNum_lt s
  rw [hs] at hlt
  have e : get (limbs32 s) 11 = ((load4 s 28 >>> 7 : Nat) : Int) := rfl
  rw [e, load4_eq, Nat.shiftRight_eq_div_pow]
  have h1 : leNum s / 256 ^ 28 < 256 ^ 4 := by rw [Nat.div_lt_iff_lt_mul (by positivity), ← pow_add]; exact hlt
  rw [Nat.mod_eq_of_lt h1, Nat.div_div_eq_div_mul, show 256 ^ 28 * 2 ^ 7 = 2 ^ (21 * 11) by decide +kernel]
  refine ⟨rfl, ?_⟩
  rw [Nat.div_lt_iff_lt_mul (by positivity)]
  exact hlt

theorem limbs32_val (s : List Byte) (hs : s.length = 32) : vl (limbs32 s) 12 = (leNum s : Int) := by
  rw [vl, vl_digits 11 (fun i hi => limbs32_get s i hi), (limbs32_last s hs).1]
  have := Nat.mod_add_div (leNum s) (2 ^ (21 * 11))
  calc ((leNum s % 2 ^ (21 * 11) : Nat) : Int) + ((leNum s / 2 ^ (21 * 11) : Nat) : Int) * 2 ^ (21 * 11)
      = ((leNum s % 2 ^ (21 * 11) + 2 ^ (21 * 11) * (leNum s / 2 ^ (21 * 11)) : Nat) : Int) := by push_cast; ring
    _ = _ := by rw [this]

theorem limbs32_bound (s : List Byte) (hs : s.length = 32) (i : Nat) : 0 ≤ get (limbs32 s) i ∧ get (limbs32 s) i < 33554432 := by
  by_cases h : i < 11
  · rw [limbs32_get s i h]; omega
  · by_cases h2 : i = 11
    · subst h2
      obtain ⟨e, hb⟩ := limbs32_last s hs
      rw [e]; omega
    · have e1 : get (limbs32 s) i = 0 := getD_ge _ _ (by show 12 ≤ i; omega)
      rw [e1]; decide

/-! ### The product -/

/-- The sum of a row. -/
def rowSum (a b : List Int) (n : Nat) : Nat → Nat → Int
  | _, 0 => 0
  | i, cnt + 1 => get a i * get b (n - i) + rowSum a b n (i + 1) cnt

theorem row_eq (a b : List Int) (n : Nat) (ha : ∀ i, 0 ≤ get a i ∧ get a i < 33554432) (hb : ∀ i, 0 ≤ get b i ∧ get b i < 33554432) :
    ∀ (cnt i : Nat) (acc : Int), cnt ≤ 12 → 0 ≤ acc → acc ≤ 33554432 + (12 - cnt) * 1125899906842624 →
      row a b n i cnt acc = some (acc + rowSum a b n i cnt) ∧
      0 ≤ rowSum a b n i cnt ∧ rowSum a b n i cnt ≤ cnt * 1125899906842624
  | 0, i, acc, _, _, _ => by simp [row, rowSum]
  | cnt + 1, i, acc, hc, h0, h1 => by
    have hp0 : 0 ≤ get a i * get b (n - i) := Int.mul_nonneg (ha i).1 (hb _).1
    have hp1 : get a i * get b (n - i) ≤ 1125899906842624 := by
      calc get a i * get b (n - i) ≤ 33554432 * 33554432 :=
            Int.mul_le_mul (Int.le_of_lt (ha i).2) (Int.le_of_lt (hb _).2) (hb _).1 (by decide)
        _ = 1125899906842624 := by norm_num
    push_cast at h1
    have e1 : i64 (get a i * get b (n - i)) = some (get a i * get b (n - i)) := by unfold i64; rw [if_pos (by omega)]
    have e2 : i64 (acc + get a i * get b (n - i)) = some (acc + get a i * get b (n - i)) := by unfold i64; rw [if_pos (by omega)]
    obtain ⟨r1, r2, r3⟩ := row_eq a b n ha hb cnt (i + 1) (acc + get a i * get b (n - i)) (by omega) (by omega) (by omega)
    rw [row, e1]
    dsimp only
    rw [e2]
    dsimp only
    rw [r1, rowSum]
    refine ⟨by rw [Int.add_assoc], by omega, by push_cast; omega⟩

theorem row_ok (a b c : List Int) (n i k : Nat) (ha : ∀ i, 0 ≤ get a i ∧ get a i < 33554432)
    (hb : ∀ i, 0 ≤ get b i ∧ get b i < 33554432) (hc : ∀ i, 0 ≤ get c i ∧ get c i < 33554432) (hk : k ≤ 12) :
    row a b n i k (get c n) = some (get c n + rowSum a b n i k) :=
  (row_eq a b n ha hb k i (get c n) hk (hc n).1 (by
    have := (hc n).2
    have : (k : Int) ≤ 12 := by exact_mod_cast hk
    omega)).1

theorem row_bound (a b c : List Int) (n i k : Nat) (ha : ∀ i, 0 ≤ get a i ∧ get a i < 33554432)
    (hb : ∀ i, 0 ≤ get b i ∧ get b i < 33554432) (hc : ∀ i, 0 ≤ get c i ∧ get c i < 33554432) (hk : k ≤ 11) :
    0 ≤ get c n + rowSum a b n i k ∧ get c n + rowSum a b n i k ≤ 33554432 + k * 1125899906842624 := by
  obtain ⟨-, r2, r3⟩ := row_eq a b n ha hb k i 0 (by omega) (Int.le_refl _) (by
    have : (k : Int) ≤ 11 := by exact_mod_cast hk
    omega)
  have := hc n
  omega

theorem prod_eq (a b c : List Int) (ha : ∀ i, 0 ≤ get a i ∧ get a i < 33554432)
    (hb : ∀ i, 0 ≤ get b i ∧ get b i < 33554432) (hc : ∀ i, 0 ≤ get c i ∧ get c i < 33554432) :
    ∀ (rs : List (Nat × Nat)) (n : Nat), (∀ r ∈ rs, r.2 ≤ 12) →
      prod a b c n rs = some ((rs.zipIdx n).map (fun r => get c r.2 + rowSum a b r.2 r.1.1 r.1.2) ++ [0])
  | [], n, _ => rfl
  | (i, k) :: rs, n, h => by
    rw [prod, row_ok a b c n i k ha hb hc (h (i, k) List.mem_cons_self)]
    dsimp only
    rw [prod_eq a b c ha hb hc rs (n + 1) fun r hr => h r (List.mem_cons_of_mem _ hr)]
    rfl

end LC.Curve.Sc
