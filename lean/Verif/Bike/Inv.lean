import Verif.Bike.Mod
import Mathlib.NumberTheory.LucasPrimality
import Mathlib.GroupTheory.OrderOfElement
import Mathlib.Tactic.NormNum.Prime
import Mathlib.FieldTheory.Finite.Basic

/-! k-squaring and inversion in F_2[x]/(x^R - 1). -/

namespace LC.Bike

/-! ## Bytes and words -/

/-- Bit `i` of a byte string. -/
def bitB (bs : List Nat) (i : Nat) : Bool := (bs.getD (i / 8) 0).testBit (i % 8)

/-- All entries are bytes. -/
def Bf (bs : List Nat) : Prop := ∀ b ∈ bs, b < 256

theorem Bf_getD {x : List Nat} (hx : Bf x) (n : Nat) : x.getD n 0 < 256 := by
  rw [List.getD_eq_getElem?_getD]
  rcases h : x[n]? with _ | v
  · decide
  · exact hx v (List.mem_of_getElem? h)

theorem testBit_bitB {bs : List Nat} (h : Bf bs) (i j : Nat) :
    (bs.getD i 0).testBit j = (decide (j < 8) && bitB bs (8 * i + j)) := by
  by_cases hj : j < 8
  · unfold bitB
    rw [show (8 * i + j) / 8 = i by omega, show (8 * i + j) % 8 = j by omega]
    simp [hj]
  · rw [Nat.testBit_lt_two_pow (Nat.lt_of_lt_of_le (Bf_getD h i)
      (show 256 ≤ 2 ^ j from Nat.pow_le_pow_right (show 2 > 0 by decide) (Nat.le_of_not_lt hj)))]
    simp [hj]

theorem byteW_lt (ws : List Nat) (i : Nat) : byteW ws i < 256 := by
  unfold byteW
  rw [show 255 = 2 ^ 8 - 1 from rfl, Nat.and_two_pow_sub_one_eq_mod]; omega

theorem byteW_bit {ws : List Nat} (h : Wf ws) (i j : Nat) (hj : j < 8) :
    (byteW ws i).testBit j = bitW ws (8 * i + j) := by
  unfold byteW
  rw [Nat.testBit_and, Nat.testBit_shiftRight, testBit_bitW h, show 255 = 2 ^ 8 - 1 from rfl,
    Nat.testBit_two_pow_sub_one]
  rw [show 64 * (i / 8) + (8 * (i % 8) + j) = 8 * i + j by omega]
  simp [hj]
  omega

theorem foldl_or_testBit (f : Nat → Nat) (l : List Nat) (x m : Nat) :
    (l.foldl (fun w j => w ||| f j) x).testBit m = (x.testBit m || l.any fun j => (f j).testBit m) := by
  induction l generalizing x with
  | nil => simp
  | cons c l ih =>
    simp only [List.foldl_cons, List.any_cons]
    rw [ih, Nat.testBit_or, Bool.or_assoc]

theorem foldl_or_testBit' {f : Nat → Nat} (l : List Nat) (x m : Nat) :
    (l.foldl (fun w j => w ||| f j) x).testBit m = (x.testBit m || l.any fun j => (f j).testBit m) :=
  foldl_or_testBit f l x m

theorem any_one (n j : Nat) (f : Nat → Bool) (hj : j < n) (h : ∀ i, i < n → i ≠ j → f i = false) :
    (List.range n).any f = f j := by
  cases hf : f j
  · rw [List.any_eq_false]
    intro i hi
    by_cases he : i = j
    · rw [he, hf]; simp
    · rw [h i (List.mem_range.1 hi) he]; simp
  · rw [List.any_eq_true]
    exact ⟨j, List.mem_range.2 hj, hf⟩

theorem wordB_bit {bs : List Nat} (h : Bf bs) (i m : Nat) (hm : m < 64) :
    (wordB bs i).testBit m = bitB bs (64 * i + m) := by
  unfold wordB
  rw [foldl_or_testBit, any_one 8 (m / 8) _ (by omega)]
  · rw [Nat.testBit_shiftLeft, testBit_bitB h, show decide (m ≥ 8 * (m / 8)) = true by simp; omega,
      show decide (m - 8 * (m / 8) < 8) = true by simp; omega,
      show 8 * (8 * i + m / 8) + (m - 8 * (m / 8)) = 64 * i + m by omega]
    simp
  · intro j hj hne
    rw [Nat.testBit_shiftLeft, testBit_bitB h]
    by_cases h1 : m ≥ 8 * j
    · rw [show decide (m - 8 * j < 8) = false by simp; omega]; simp
    · simp [h1]

theorem foldl_or_lt (f : Nat → Nat) (l : List Nat) (x k : Nat) (hx : x < 2 ^ k)
    (hf : ∀ j ∈ l, f j < 2 ^ k) : l.foldl (fun w j => w ||| f j) x < 2 ^ k := by
  induction l generalizing x with
  | nil => exact hx
  | cons c l ih =>
    simp only [List.foldl_cons]
    exact ih _ (Nat.or_lt_two_pow hx (hf c List.mem_cons_self))
      (fun j hj => hf j (List.mem_cons_of_mem _ hj))

theorem wordB_lt {bs : List Nat} (h : Bf bs) (i : Nat) : wordB bs i < W := by
  unfold wordB
  refine foldl_or_lt _ _ _ 64 (by decide) ?_
  intro j hj
  have hj := List.mem_range.1 hj
  have hb := Bf_getD h (8 * i + j)
  rw [Nat.shiftLeft_eq]
  calc bs.getD (8 * i + j) 0 * 2 ^ (8 * j) < 2 ^ 8 * 2 ^ (8 * j) :=
        Nat.mul_lt_mul_of_pos_right hb (Nat.two_pow_pos _)
    _ = 2 ^ (8 + 8 * j) := by rw [pow_add]
    _ ≤ 2 ^ 64 := Nat.pow_le_pow_right (by omega) (by omega)

theorem wordsOf_wf {bs : List Nat} (h : Bf bs) (n : Nat) : Wf (wordsOf n bs) := by
  intro w hw
  obtain ⟨i, _, rfl⟩ := List.mem_map.1 hw
  exact wordB_lt h i

theorem wordsOf_length (n : Nat) (bs : List Nat) : (wordsOf n bs).length = n := by
  simp [wordsOf]

theorem wordsOf_bit {bs : List Nat} (h : Bf bs) (n i : Nat) :
    bitW (wordsOf n bs) i = (decide (i < 64 * n) && bitB bs i) := by
  by_cases hi : i < 64 * n
  · unfold bitW wordsOf
    rw [getD_map_range _ _ _ (by omega), wordB_bit h _ _ (Nat.mod_lt _ (by omega)),
      show 64 * (i / 64) + i % 64 = i by omega]
    simp [hi]
  · rw [bitW_ge _ (by rw [wordsOf_length]; omega)]
    simp [hi]

theorem bytesOf_bit {ws : List Nat} (h : Wf ws) (n i : Nat) :
    bitB (bytesOf n ws) i = (decide (i < 8 * n) && bitW ws i) := by
  by_cases hi : i < 8 * n
  · unfold bitB bytesOf
    rw [getD_map_range _ _ _ (by omega), byteW_bit h _ _ (Nat.mod_lt _ (by omega)),
      show 8 * (i / 8) + i % 8 = i by omega]
    simp [hi]
  · unfold bitB bytesOf
    rw [List.getD_eq_getElem?_getD, List.getElem?_eq_none (by simp; omega)]
    simp [hi]

theorem bytesOf_bf (n : Nat) (ws : List Nat) : Bf (bytesOf n ws) := by
  intro b hb
  obtain ⟨i, _, rfl⟩ := List.mem_map.1 hb
  exact byteW_lt ws i

/-! ## k-squaring -/

theorem bit_read {a : List Nat} (ha : Wf a) (pos j m : Nat) :
    ((((byteW a (pos >>> 3)) >>> (pos &&& 7)) &&& 1) <<< j).testBit m =
      (decide (m = j) && bitW a pos) := by
  have h7 : pos &&& 7 = pos % 8 := Nat.and_two_pow_sub_one_eq_mod pos 3
  rw [Nat.testBit_shiftLeft, Nat.testBit_and, Nat.testBit_shiftRight, h7,
    Nat.shiftRight_eq_div_pow]
  by_cases hm : m = j
  · subst hm
    rw [Nat.sub_self, byteW_bit ha _ _ (by omega)]
    rw [show 8 * (pos / 2 ^ 3) + (pos % 8 + 0) = pos by omega]
    simp
  · by_cases hj : m ≥ j
    · have : Nat.testBit 1 (m - j) = false := by
        rw [Nat.testBit_lt_two_pow]
        exact Nat.one_lt_two_pow (by omega)
      rw [this]
      simp [hm]
    · simp [hj]; omega

theorem ksqrByte_bit (p : Par) {a : List Nat} (ha : Wf a) (l i m : Nat) (hm : m < 8) :
    (ksqrByte p a l i).testBit m = bitW a ((l * (8 * i + m)) % p.R) := by
  unfold ksqrByte
  rw [foldl_or_testBit, any_one 8 m _ hm]
  · rw [bit_read ha]; simp
  · intro j _ hne
    rw [bit_read ha]
    simp [Ne.symm hne]

theorem ksqrByte_lt (p : Par) (a : List Nat) (l i : Nat) : ksqrByte p a l i < 256 := by
  unfold ksqrByte
  refine foldl_or_lt _ _ _ 8 (by decide) ?_
  intro j hj
  have hj := List.mem_range.1 hj
  rw [Nat.shiftLeft_eq]
  have : (byteW a (((l * (8 * i + j)) % p.R) >>> 3) >>>
      (((l * (8 * i + j)) % p.R) &&& 7)) &&& 1 ≤ 1 := Nat.and_le_right
  calc _ ≤ 1 * 2 ^ j := Nat.mul_le_mul_right _ this
    _ < 2 ^ 8 := by rw [one_mul]; exact Nat.pow_lt_pow_right (by omega) hj

theorem ksqr_bf (p : Par) (a : List Nat) (l : Nat) :
    Bf ((List.range (p.rb - 1)).map (ksqrByte p a l) ++
      [ksqrByte p a l (p.rb - 1) &&& (2 ^ (p.R % 8) - 1)]) := by
  intro b hb
  rcases List.mem_append.1 hb with h | h
  · obtain ⟨i, _, rfl⟩ := List.mem_map.1 h
    exact ksqrByte_lt p a l i
  · rw [List.mem_singleton.1 h]
    exact Nat.lt_of_le_of_lt Nat.and_le_left (ksqrByte_lt p a l _)

theorem ksqr_bit {p : Par} (hp : POk p) {a : List Nat} (ha : Wf a) (l i : Nat) :
    bitW (ksqr p a l) i = (decide (i < p.R) && bitW a ((l * i) % p.R)) := by
  have ho := hp.oct
  have hrb : p.rb = p.R / 8 + 1 := by unfold Par.rb; omega
  have hfit := hp.fit
  have hrq : p.R ≤ 64 * p.rq := by unfold Par.rq; omega
  have hRpq : p.R ≤ 64 * p.pq := by omega
  unfold ksqr
  rw [wordsOf_bit (ksqr_bf p a l)]
  unfold bitB
  by_cases h1 : i / 8 < p.rb - 1
  · rw [getD_append_left (by simpa using h1), getD_map_range _ _ _ h1,
      ksqrByte_bit p ha _ _ _ (Nat.mod_lt _ (by omega)), show 8 * (i / 8) + i % 8 = i by omega,
      show decide (i < 64 * p.pq) = true by simp; omega, show decide (i < p.R) = true by simp; omega]
  · by_cases h2 : i / 8 = p.rb - 1
    · rw [getD_append_right (by simp; omega), List.length_map, List.length_range,
        show i / 8 - (p.rb - 1) = 0 by omega, List.getD_cons_zero, Nat.testBit_and,
        Nat.testBit_two_pow_sub_one, ← h2, ksqrByte_bit p ha _ _ _ (Nat.mod_lt _ (by omega)),
        show 8 * (i / 8) + i % 8 = i by omega]
      by_cases h3 : i < p.R
      · rw [show decide (i < 64 * p.pq) = true by simp; omega,
          show decide (i % 8 < p.R % 8) = true by simp; omega]
        simp [h3]
      · rw [show decide (i % 8 < p.R % 8) = false by simp; omega]
        simp [h3]
    · rw [List.getD_eq_getElem?_getD, List.getElem?_eq_none (by simp; omega)]
      simp; omega

theorem ksqr_spec {p : Par} [NeZero p.R] (hp : POk p) {a : List Nat} (ha : Pad p a) (k l : Nat)
    (hl : l * 2 ^ k % p.R = 1) :
    Pad p (ksqr p a l) ∧ el p.R (ksqr p a l) = el p.R a ^ (2 ^ k) := by
  refine ⟨⟨by unfold ksqr; rw [wordsOf_length], wordsOf_wf (ksqr_bf p a l) _, ?_⟩, ?_⟩
  · intro i hi
    rw [ksqr_bit hp ha.wf, show decide (i < p.R) = false by simp; omega, Bool.false_and]
  · have hl' : (l : ZMod p.R) * 2 ^ k = 1 := by
      have h := ZMod.natCast_mod (l * 2 ^ k) p.R
      rw [hl] at h
      push_cast at h
      exact h.symm
    ext g
    rw [frob _ k l hl', el_coeff, el_coeff, ksqr_bit hp ha.wf, ZMod.val_mul, ZMod.val_natCast,
      Nat.mod_mul_mod]
    rw [show decide (g.val < p.R) = true by simp [ZMod.val_lt], Bool.true_and]

/-! ## Inversion -/

theorem expK_spec {p : Par} [NeZero p.R] (hp : POk p) {f : List Nat} (hf : Pad p f) (k l : Nat)
    (hl : k ≤ 64 ∨ l * 2 ^ k % p.R = 1) :
    Pad p (expK p f k l) ∧ el p.R (expK p f k l) = el p.R f ^ (2 ^ k) := by
  unfold expK
  split
  · exact repSqr_spec hp k hf
  · rcases hl with h | h
    · omega
    · exact ksqr_spec hp hf k l h

/-- The exponents `2^m - 1` of `f` and `2^q - 1` of `t` through the loop of `gf2x_mod_inv`, with
the conditions on the tables under which they are right. -/
def simStep (p : Par) (mq : Option (Nat × Nat)) (i : Nat) : Option (Nat × Nat) :=
  mq.bind fun mq =>
    let k0 := p.exp0k.getD (i - 1) 0
    let k1 := p.exp1k.getD i 0
    if k0 = mq.1 ∧ (k0 ≤ 64 ∨ p.exp0l.getD (i - 1) 0 * 2 ^ k0 % p.R = 1) then
      if k1 ≠ 0 then
        if k1 = mq.2 ∧ (k1 ≤ 64 ∨ p.exp1l.getD i 0 * 2 ^ k1 % p.R = 1) then
          some (2 * mq.1, 2 * mq.1 + mq.2)
        else none
      else some (2 * mq.1, mq.2)
    else none

def InvI (p : Par) [NeZero p.R] (a : A p.R) (ft : List Nat × List Nat) (mq : Nat × Nat) : Prop :=
  Pad p ft.1 ∧ Pad p ft.2 ∧ el p.R ft.1 = a ^ (2 ^ mq.1 - 1) ∧ el p.R ft.2 = a ^ (2 ^ mq.2 - 1)

theorem pow_comb {M : Type*} [Monoid M] (a : M) (m q : Nat) :
    (a ^ (2 ^ m - 1)) ^ (2 ^ q) * a ^ (2 ^ q - 1) = a ^ (2 ^ (m + q) - 1) := by
  rw [← pow_mul, ← pow_add]
  congr 1
  have h1 : 1 ≤ 2 ^ m := Nat.one_le_two_pow
  have h2 : 1 ≤ 2 ^ q := Nat.one_le_two_pow
  rw [pow_add, Nat.sub_mul, one_mul]
  have h3 : 2 ^ q ≤ 2 ^ m * 2 ^ q := Nat.le_mul_of_pos_left _ h1
  omega

theorem invStep_spec {p : Par} [NeZero p.R] (hp : POk p) (a : A p.R) (ft : List Nat × List Nat)
    (mq mq' : Nat × Nat) (i : Nat) (h : InvI p a ft mq) (hs : simStep p (some mq) i = some mq') :
    InvI p a (invStep p ft i) mq' := by
  obtain ⟨pf, pt, ef, et⟩ := h
  unfold simStep at hs
  simp only [Option.bind_some] at hs
  unfold invStep
  dsimp only
  split at hs
  · rename_i h0
    obtain ⟨hk, hl⟩ := h0
    have hg := expK_spec hp pf _ _ hl
    have hm := modMul_pad hp hg.1 pf
    have he := modMul_el hp hg.1 pf
    rw [hg.2, ef, hk, pow_comb] at he
    rw [hk] at hm
    split at hs
    · rename_i h1
      split at hs
      · rename_i h2
        obtain ⟨hk1, hl1⟩ := h2
        obtain rfl := Option.some.inj hs
        rw [if_pos h1]
        rw [← hk] at hm he
        have hg1 := expK_spec hp hm _ _ hl1
        have hm1 := modMul_pad hp hg1.1 pt
        have he1 := modMul_el hp hg1.1 pt
        rw [hg1.2] at he1
        rw [hk] at he
        rw [hk] at he1
        rw [he, et] at he1
        conv at he1 => rhs; rw [hk1]
        rw [pow_comb] at he1
        refine ⟨hm, hm1, ?_, ?_⟩
        · dsimp only
          rw [hk, he]; congr 3; omega
        · dsimp only
          rw [hk, he1]; congr 3; omega
      · cases hs
    · rename_i h1
      obtain rfl := Option.some.inj hs
      rw [if_neg h1]
      refine ⟨by rw [hk]; exact hm, pt, ?_, et⟩
      dsimp only
      rw [hk, he]; congr 3; omega
  · cases hs

theorem sim_none (p : Par) (l : List Nat) : l.foldl (simStep p) none = none := by
  induction l with
  | nil => rfl
  | cons i l ih => exact ih

theorem inv_fold {p : Par} [NeZero p.R] (hp : POk p) (a : A p.R) (l : List Nat)
    (ft : List Nat × List Nat) (mq mq' : Nat × Nat) (h : InvI p a ft mq)
    (hs : l.foldl (simStep p) (some mq) = some mq') : InvI p a (l.foldl (invStep p) ft) mq' := by
  induction l generalizing ft mq with
  | nil => obtain rfl := Option.some.inj hs; exact h
  | cons i l ih =>
    simp only [List.foldl_cons] at hs ⊢
    rcases he : simStep p (some mq) i with _ | mq1
    · rw [he, sim_none] at hs; cases hs
    · rw [he] at hs
      exact ih _ _ (invStep_spec hp a ft mq mq1 i h he) hs

/-- The tables of a level are right: the exponent of the result is `2^(R-1) - 2`. -/
def tabOk (p : Par) : Bool :=
  ((((List.range (p.exp0k.length - 1)).map (· + 1)).foldl (simStep p) (some (1, 1))).map (·.2)) ==
    some (p.R - 2)

theorem modInv_el {p : Par} [NeZero p.R] (hp : POk p) (ht : tabOk p = true) {a : List Nat}
    (ha : Pad p a) :
    Pad p (modInv p a) ∧ el p.R (modInv p a) = el p.R a ^ (2 ^ (p.R - 1) - 2) := by
  unfold tabOk at ht
  have ht := eq_of_beq ht
  rcases hs : ((List.range (p.exp0k.length - 1)).map (· + 1)).foldl (simStep p) (some (1, 1)) with
    _ | mq
  · rw [hs] at ht; cases ht
  · rw [hs] at ht
    have hq : mq.2 = p.R - 2 := Option.some.inj ht
    have h := inv_fold hp (el p.R a) _ (a, a) (1, 1) mq ⟨ha, ha, by simp, by simp⟩ hs
    obtain ⟨_, h2, _, h4⟩ := h
    unfold modInv
    refine ⟨modSqr_pad hp h2, ?_⟩
    rw [modSqr_el hp h2, h4, hq, ← pow_mul]
    congr 1
    have := hp.ge
    rw [show p.R - 1 = p.R - 2 + 1 by omega, pow_succ]
    have : 1 ≤ 2 ^ (p.R - 2) := Nat.one_le_two_pow
    omega

/-! ## Weight -/

/-- Number of ones among the first `n` bits of a buffer. -/
def weight (n : Nat) (a : List Nat) : Nat := ((List.range n).filter (bitW a)).length

theorem sum_b2 {R : Nat} [NeZero R] (a : List Nat) :
    ∑ g : ZMod R, b2 (bitW a g.val) = (weight R a : ZMod 2) := by
  have h1 : ∑ g : ZMod R, b2 (bitW a g.val) = ∑ i ∈ Finset.range R, b2 (bitW a i) := by
    refine Finset.sum_bij (fun g _ => g.val) (fun g _ => Finset.mem_range.2 (ZMod.val_lt g))
      (fun g _ h _ he => ZMod.val_injective R he) ?_ (fun _ _ => rfl)
    intro i hi
    exact ⟨(i : ZMod R), Finset.mem_univ _, by
      rw [ZMod.val_natCast, Nat.mod_eq_of_lt (Finset.mem_range.1 hi)]⟩
  rw [h1]
  generalize R = n
  unfold weight
  induction n with
  | zero => simp
  | succ n ih =>
    rw [Finset.sum_range_succ, ih, List.range_succ, List.filter_append, List.length_append]
    cases h : bitW a n <;> simp [h, b2]

/-- Requirements of inversion: 2 generates the units modulo the prime `R`. -/
structure ROk (p : Par) : Prop where
  prime : p.R.Prime
  gen : ∀ g : ZMod p.R, g ≠ 0 → ∃ n : Nat, g = 2 ^ n
  fer : (2 : ZMod p.R) ^ (p.R - 1) = 1

theorem modInv_mul {p : Par} [NeZero p.R] (hp : POk p) (hr : ROk p) (ht : tabOk p = true)
    {a : List Nat} (ha : Pad p a) (hw : weight p.R a % 2 = 1) (hlt : weight p.R a < p.R) :
    el p.R a * el p.R (modInv p a) = 1 := by
  rw [(modInv_el hp ht ha).2]
  refine inv_pow hp.odd (by have := hp.ge; omega) hr.gen hr.fer _ ?_ ?_
  · rw [mul_J]
    simp only [el_coeff]
    rw [sum_b2]
    have : ((weight p.R a : Nat) : ZMod 2) = 1 := by
      rw [← ZMod.natCast_mod, hw, Nat.cast_one]
    rw [this]
    exact mono_J 0
  · intro h
    have hb : ∀ i, i < p.R → bitW a i = true := by
      intro i hi
      have := congrArg (fun z : A p.R => z.coeff (i : ZMod p.R)) h
      rw [el_coeff, J_coeff, ZMod.val_natCast, Nat.mod_eq_of_lt hi] at this
      exact b2_inj (b := true) this
    have : weight p.R a = p.R := by
      unfold weight
      rw [List.filter_eq_self.2 (fun i hi => hb i (List.mem_range.1 hi)), List.length_range]
    omega

/-- A primitive root test. -/
theorem rok_of {p : Par} (h1 : (2 : ZMod p.R) ^ (p.R - 1) = 1)
    (h2 : ∀ q, q.Prime → q ∣ p.R - 1 → (2 : ZMod p.R) ^ ((p.R - 1) / q) ≠ 1)
    (hodd : p.R % 2 = 1) (hge : 2 < p.R) : ROk p := by
  have hpr := lucas_primality p.R 2 h1 h2
  haveI : Fact p.R.Prime := ⟨hpr⟩
  refine ⟨hpr, ?_, h1⟩
  have hord : orderOf (2 : ZMod p.R) = p.R - 1 :=
    orderOf_eq_of_pow_and_pow_div_prime (by omega) h1 h2
  have h20 : (2 : ZMod p.R) ≠ 0 := by
    intro h
    rw [h, zero_pow (by omega)] at h1
    exact zero_ne_one h1
  let u : (ZMod p.R)ˣ := Units.mk0 2 h20
  have hou : orderOf u = p.R - 1 := by
    rw [← orderOf_units, Units.val_mk0, hord]
  have htop : Subgroup.zpowers u = ⊤ := by
    apply Subgroup.eq_top_of_card_eq
    rw [Nat.card_zpowers, hou, Nat.card_eq_fintype_card, ZMod.card_units]
  intro g hg
  have hm : Units.mk0 g hg ∈ Subgroup.zpowers u := by rw [htop]; trivial
  rw [← mem_powers_iff_mem_zpowers] at hm
  obtain ⟨n, hn⟩ := hm
  refine ⟨n, ?_⟩
  have := congrArg Units.val hn
  simpa [u] using this.symm

theorem two_pow_cast (R n v : Nat) (h : 2 ^ n % R = v) : (2 : ZMod R) ^ n = (v : ZMod R) := by
  rw [← h, ZMod.natCast_mod]; push_cast; rfl

theorem two_pow_ne (R n : Nat) (h1 : 1 < R) (h : 2 ^ n % R ≠ 1) : (2 : ZMod R) ^ n ≠ 1 := by
  intro hc
  apply h
  have h3 : ((2 ^ n : Nat) : ZMod R) = ((1 : Nat) : ZMod R) := by push_cast; exact hc
  rw [ZMod.natCast_eq_natCast_iff'] at h3
  rw [h3, Nat.mod_eq_of_lt h1]

theorem prime_dvd_three {a b c q : Nat} (ha : a.Prime) (hb : b.Prime) (hc : c.Prime) (hq : q.Prime)
    (h : q ∣ a * b * c) : q = a ∨ q = b ∨ q = c := by
  rcases (Nat.Prime.dvd_mul hq).1 h with h | h
  · rcases (Nat.Prime.dvd_mul hq).1 h with h | h
    · exact Or.inl ((Nat.prime_dvd_prime_iff_eq hq ha).1 h)
    · exact Or.inr (Or.inl ((Nat.prime_dvd_prime_iff_eq hq hb).1 h))
  · exact Or.inr (Or.inr ((Nat.prime_dvd_prime_iff_eq hq hc).1 h))

theorem L1_rok : ROk L1 := by
  refine rok_of ?_ ?_ (by decide) (by decide)
  · have := two_pow_cast 12323 12322 1 (by decide +kernel)
    rw [Nat.cast_one] at this
    exact this
  · intro q hq hd
    have hd' : q ∣ 2 * 61 * 101 := hd
    rcases prime_dvd_three Nat.prime_two (by norm_num) (by norm_num) hq hd' with rfl | rfl | rfl
    · exact two_pow_ne 12323 _ (by decide) (by decide +kernel)
    · exact two_pow_ne 12323 _ (by decide) (by decide +kernel)
    · exact two_pow_ne 12323 _ (by decide) (by decide +kernel)

theorem L3_rok : ROk L3 := by
  refine rok_of ?_ ?_ (by decide) (by decide)
  · have := two_pow_cast 24659 24658 1 (by decide +kernel)
    rw [Nat.cast_one] at this
    exact this
  · intro q hq hd
    have hd' : q ∣ 2 * 12329 := hd
    rcases (Nat.Prime.dvd_mul hq).1 hd' with h | h
    · rw [(Nat.prime_dvd_prime_iff_eq hq Nat.prime_two).1 h]
      exact two_pow_ne 24659 _ (by decide) (by decide +kernel)
    · rw [(Nat.prime_dvd_prime_iff_eq hq (by norm_num)).1 h]
      exact two_pow_ne 24659 _ (by decide) (by decide +kernel)

theorem L5_rok : ROk L5 := by
  refine rok_of ?_ ?_ (by decide) (by decide)
  · have := two_pow_cast 40973 40972 1 (by decide +kernel)
    rw [Nat.cast_one] at this
    exact this
  · intro q hq hd
    have hd' : q ∣ 2 * 2 * 10243 := hd
    rcases prime_dvd_three Nat.prime_two Nat.prime_two (by norm_num) hq hd' with rfl | rfl | rfl
    · exact two_pow_ne 40973 _ (by decide) (by decide +kernel)
    · exact two_pow_ne 40973 _ (by decide) (by decide +kernel)
    · exact two_pow_ne 40973 _ (by decide) (by decide +kernel)

theorem L1_pok : POk L1 := ⟨by decide, by decide, by decide, by decide, by decide⟩
theorem L3_pok : POk L3 := ⟨by decide, by decide, by decide, by decide, by decide⟩
theorem L5_pok : POk L5 := ⟨by decide, by decide, by decide, by decide, by decide⟩

theorem L1_tab : tabOk L1 = true := by decide +kernel
theorem L3_tab : tabOk L3 = true := by decide +kernel
theorem L5_tab : tabOk L5 = true := by decide +kernel

end LC.Bike
