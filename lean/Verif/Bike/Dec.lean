import Verif.Bike.Upc
import Verif.Bike.Spec

/-! The decoder computes the bit-flipping specification. -/

namespace LC.Bike

open AddMonoidAlgebra

/-! ## Convolution and the ring -/

/-- The ring element with the bits `f`. -/
noncomputable def elF (R : Nat) [NeZero R] (f : Nat → Bool) : A R :=
  ∑ g : ZMod R, single g (b2 (f g.val))

theorem elF_coeff {R : Nat} [NeZero R] (f : Nat → Bool) (g : ZMod R) :
    (elF R f).coeff g = b2 (f g.val) :=
  coeff_sum_single (fun g : ZMod R => b2 (f g.val)) g

theorem elF_congr {R : Nat} [NeZero R] {f f' : Nat → Bool} (h : ∀ i, i < R → f i = f' i) :
    elF R f = elF R f' := by
  unfold elF
  exact Finset.sum_congr rfl (fun g _ => (by rw [h _ (ZMod.val_lt g)]))

theorem el_eq_elF {R : Nat} [NeZero R] (a : List Nat) : el R a = elF R (bitW a) := rfl

theorem elF_inj {R : Nat} [NeZero R] {f f' : Nat → Bool} (h : elF R f = elF R f') (i : Nat)
    (hi : i < R) : f i = f' i := by
  apply b2_inj
  have := congrArg (fun z : A R => z.coeff (i : ZMod R)) h
  rw [elF_coeff, elF_coeff, ZMod.val_natCast, Nat.mod_eq_of_lt hi] at this
  exact this

theorem elF_xor {R : Nat} [NeZero R] (f f' : Nat → Bool) :
    elF R (fun i => f i ^^ f' i) = elF R f + elF R f' := by
  ext g
  rw [coeff_add, Finsupp.add_apply, elF_coeff, elF_coeff, elF_coeff, b2_xor]

theorem b2_parity (n : Nat) : b2 (n % 2 == 1) = (n : ZMod 2) := by
  rw [← ZMod.natCast_mod n 2]
  rcases Nat.mod_two_eq_zero_or_one n with h | h <;> rw [h] <;> rfl

theorem sum_filter_range (R : Nat) (q : Nat → Bool) :
    (((List.range R).filter q).length : ZMod 2) = ∑ j ∈ Finset.range R, b2 (q j) := by
  induction R with
  | zero => simp
  | succ n ih =>
    rw [Finset.sum_range_succ, ← ih, List.range_succ, List.filter_append, List.length_append]
    cases h : q n <;> simp [h, b2]

theorem sum_zmod_range {R : Nat} [NeZero R] (q : Nat → ZMod 2) :
    ∑ g : ZMod R, q g.val = ∑ j ∈ Finset.range R, q j := by
  refine Finset.sum_bij (fun g _ => g.val) (fun g _ => Finset.mem_range.2 (ZMod.val_lt g))
    (fun g _ h _ he => ZMod.val_injective R he) ?_ (fun _ _ => rfl)
  intro i hi
  exact ⟨(i : ZMod R), Finset.mem_univ _, by
    rw [ZMod.val_natCast, Nat.mod_eq_of_lt (Finset.mem_range.1 hi)]⟩

theorem b2_and (a b : Bool) : b2 (a && b) = b2 a * b2 b := by
  cases a <;> cases b <;> simp [b2]

theorem elF_cyc {R : Nat} [NeZero R] (a b : Nat → Bool) :
    elF R (Spec.cyc R a b) = elF R a * elF R b := by
  ext g
  rw [elF_coeff]
  unfold Spec.cyc
  rw [b2_parity, sum_filter_range]
  have h1 : elF R a * elF R b = ∑ x : ZMod R, single x (b2 (a x.val)) * elF R b := by
    conv_lhs => rw [elF, Finset.sum_mul]
  rw [h1, AddMonoidAlgebra.coeff_sum, Finsupp.finset_sum_apply,
    ← sum_zmod_range (fun j => b2 (a j && b ((g.val + (R - j)) % R)))]
  refine Finset.sum_congr rfl (fun x _ => ?_)
  rw [AddMonoidAlgebra.coeff_single_mul_apply, elF_coeff, b2_and]
  congr 3
  have hx := ZMod.val_lt x
  have : (-x + g) = ((g.val + (R - x.val) : Nat) : ZMod R) := by
    rw [Nat.cast_add, Nat.cast_sub hx.le, ZMod.natCast_self, ZMod.natCast_zmod_val,
      ZMod.natCast_zmod_val]
    ring
  rw [this, ZMod.val_natCast]

theorem modMul_bits {p : Par} [NeZero p.R] (hp : POk p) {a b : List Nat} (ha : Pad p a)
    (hb : Pad p b) (i : Nat) (hi : i < p.R) :
    bitW (modMul p a b) i = Spec.cyc p.R (bitW a) (bitW b) i := by
  apply elF_inj (R := p.R) _ i hi
  rw [elF_cyc, ← el_eq_elF, ← el_eq_elF, ← el_eq_elF]
  exact modMul_el hp ha hb

/-! ## Weight and threshold -/

theorem pop8_eq (x : Nat) : pop8 x = ((List.range 8).filter fun j => x.testBit j).length := by
  have hb : ∀ j, (x >>> j) &&& 1 = (x.testBit j).toNat := by
    intro j
    rw [Nat.and_one_is_mod, Nat.shiftRight_eq_div_pow, ← Nat.toNat_testBit]
  unfold pop8
  simp only [hb, show List.range 8 = [0, 1, 2, 3, 4, 5, 6, 7] from rfl, List.foldl_cons,
    List.foldl_nil, List.filter_cons]
  cases x.testBit 0 <;> cases x.testBit 1 <;> cases x.testBit 2 <;> cases x.testBit 3 <;>
    cases x.testBit 4 <;> cases x.testBit 5 <;> cases x.testBit 6 <;> cases x.testBit 7 <;> rfl

theorem filter_range_mask (r : Nat) (hr : r ≤ 8) (q : Nat → Bool) :
    ((List.range 8).filter fun j => decide (j < r) && q j).length =
      ((List.range r).filter q).length := by
  have h8 : List.range 8 = List.range r ++ (List.range (8 - r)).map (r + ·) := by
    rw [← List.range_add]; congr 1; omega
  rw [h8, List.filter_append, List.length_append]
  have h1 : (List.range r).filter (fun j => decide (j < r) && q j) = (List.range r).filter q := by
    apply List.filter_congr
    intro j hj
    simp [List.mem_range.1 hj]
  have h2 : ((List.range (8 - r)).map (r + ·)).filter (fun j => decide (j < r) && q j) = [] := by
    rw [List.filter_eq_nil_iff]
    intro j hj
    obtain ⟨i, _, rfl⟩ := List.mem_map.1 hj
    simp
  rw [h1, h2, List.length_nil, Nat.add_zero]

theorem weight_byte {s : List Nat} (hs : Wf s) (i r : Nat) (hr : r ≤ 8) :
    weight (8 * i + r) s = weight (8 * i) s + pop8 (byteW s i &&& (2 ^ r - 1)) := by
  unfold weight
  rw [List.range_add, List.filter_append, List.length_append, pop8_eq]
  congr 1
  rw [List.filter_map, List.length_map, ← filter_range_mask r hr]
  congr 1
  apply List.filter_congr
  intro j hj
  rw [Nat.testBit_and, Nat.testBit_two_pow_sub_one, byteW_bit hs _ _ (List.mem_range.1 hj),
    Bool.and_comm]
  rfl

theorem rWeight_eq {p : Par} (hp : POk p) {s : List Nat} (hs : Wf s) :
    rWeight p s = weight p.R s := by
  have hfold : ∀ n, (List.range n).foldl (fun acc i => acc + pop8 (byteW s i)) 0 =
      weight (8 * n) s := by
    intro n
    induction n with
    | zero => rfl
    | succ n ih =>
      rw [List.range_succ, List.foldl_append, ih]
      simp only [List.foldl_cons, List.foldl_nil]
      have h := weight_byte hs n 8 le_rfl
      rw [Nat.mul_succ, h, Nat.and_two_pow_sub_one_eq_mod,
        Nat.mod_eq_of_lt (show byteW s n < 2 ^ 8 from byteW_lt s n)]
  have ho := hp.oct
  unfold rWeight
  rw [hfold, ← weight_byte hs (p.rb - 1) (p.R % 8) (by omega)]
  congr 1
  unfold Par.rb
  omega

theorem thr_ring (A B C h l : Nat) : C * (h * A) + (h * B + l * A) = A * (C * h + l) + h * B := by
  ring

theorem thr_div (u t e : Nat) (h : 4294967296 * u + t = e) :
    u + t / 4294967296 = e / 4294967296 := by omega

theorem thr_core (h l k r : Nat) (hh : h < 16) (hl : l < 4294967296)
    (hx : 4294967296 * h + l = 100000000 * k + r) (hr : 2 ≤ r) (hr2 : r < 100000000) :
    (h * 2882303761 + (h * 2221002493 + l * 2882303761) / 4294967296) / 67108864 = k := by
  have e : 4294967296 * (h * 2882303761) + (h * 2221002493 + l * 2882303761) =
      2882303761 * (100000000 * k + r) + h * 2221002493 := by
    exact (thr_ring 2882303761 2221002493 4294967296 h l).trans (congrArg (2882303761 * · + h * 2221002493) hx)
  have h3 : (h * 2882303761 + (h * 2221002493 + l * 2882303761) / 4294967296) =
      (2882303761 * (100000000 * k + r) + h * 2221002493) / 4294967296 := by
    exact thr_div _ _ _ e
  rw [h3, Nat.div_div_eq_div_mul]
  clear h3 e
  refine Nat.div_eq_of_lt_le ?_ ?_
  · nlinarith
  · nlinarith

theorem thr_arith (x : Nat) (hx : x < 2 ^ 36) (h : 2 ≤ x % 10 ^ 8) :
    mul64High x 12379400392853802749 >>> 26 = x / 10 ^ 8 := by
  unfold mul64High
  dsimp only
  have hW : W = 18446744073709551616 := by decide
  have h1 : x &&& 0xffffffff = x % 4294967296 := Nat.and_two_pow_sub_one_eq_mod x 32
  have h2 : 12379400392853802749 &&& 0xffffffff = 2221002493 := by decide
  have h3 : 12379400392853802749 >>> 32 = 2882303761 := by decide
  rw [h1, h2, h3, hW, Nat.shiftRight_eq_div_pow, Nat.shiftRight_eq_div_pow,
    Nat.shiftRight_eq_div_pow]
  have hc := thr_core (x / 2 ^ 32) (x % 4294967296) (x / 10 ^ 8) (x % 10 ^ 8) (by omega)
    (by omega) (by omega) h (by omega)
  have hh : x / 2 ^ 32 < 16 := by omega
  have hl : x % 4294967296 < 4294967296 := by omega
  generalize x / 2 ^ 32 = a at *
  generalize x % 4294967296 = l at *
  rw [Nat.mod_eq_of_lt (show a * 2882303761 < 18446744073709551616 by omega),
    Nat.mod_eq_of_lt (show a * 2221002493 < 18446744073709551616 by omega),
    Nat.mod_eq_of_lt (show l * 2882303761 < 18446744073709551616 by omega),
    Nat.mod_eq_of_lt (show a * 2221002493 + l * 2882303761 < 18446744073709551616 by omega)]
  rw [Nat.mod_eq_of_lt (show a * 2882303761 + (a * 2221002493 + l * 2882303761) / 2 ^ 32 <
    18446744073709551616 by omega)]
  exact hc

theorem threshold_of {p : Par} (w : Nat) (hx : p.coeff0 + p.coeff1 * w < 2 ^ 36)
    (h : 2 ≤ (p.coeff0 + p.coeff1 * w) % 10 ^ 8) (hm : p.thrMin < 256)
    (hlt : (p.coeff0 + p.coeff1 * w) / 10 ^ 8 < 256) : threshold p w = Spec.thr p w := by
  unfold threshold Spec.thr
  have hW : W = 18446744073709551616 := by decide
  have e1 : (p.coeff0 + p.coeff1 * w % W) % W = p.coeff0 + p.coeff1 * w := by
    rw [hW, Nat.add_mod_mod, Nat.mod_eq_of_lt (by omega)]
  dsimp only
  rw [e1, thr_arith _ hx h]
  generalize (p.coeff0 + p.coeff1 * w) / 10 ^ 8 = t at *
  rw [Nat.mod_eq_of_lt (show t < 2 ^ 32 by omega), l32Mask_eq _ _ (by omega) (by omega)]
  by_cases hc : t < p.thrMin
  · rw [if_pos hc, Nat.zero_and, Nat.zero_or, Nat.zero_xor, Nat.and_comm,
      Nat.and_two_pow_sub_one_eq_mod, Nat.mod_eq_of_lt (show p.thrMin < 2 ^ 32 by omega), Nat.mod_eq_of_lt hm,
      Nat.max_eq_left (by omega)]
  · rw [if_neg hc, Nat.xor_self, Nat.zero_and, Nat.or_zero, Nat.and_comm,
      Nat.and_two_pow_sub_one_eq_mod, Nat.mod_eq_of_lt (show t < 2 ^ 32 by omega), Nat.mod_eq_of_lt hlt,
      Nat.max_eq_right (by omega)]

/-- The threshold computation is exact for every weight up to `R`. -/
def ThrOk (p : Par) : Prop := ∀ w, w ≤ p.R → threshold p w = Spec.thr p w

theorem L1_coeff : L1.coeff0 = 1353000000 ∧ L1.coeff1 = 697220 ∧ L1.R = 12323 := ⟨rfl, rfl, rfl⟩

theorem L1_arith (w : Nat) (hw : w ≤ 12323) : 1353000000 + 697220 * w < 2 ^ 36 ∧
    2 ≤ (1353000000 + 697220 * w) % 10 ^ 8 ∧ (1353000000 + 697220 * w) / 10 ^ 8 < 256 := by
  refine ⟨by omega, ?_, by omega⟩
  have h0 : 1353000000 + 697220 * w = 20 * (67650000 + 34861 * w) := by ring
  by_contra hc
  rw [h0] at hc
  have h1 : 67650000 + 34861 * w = 5000000 * ((20 * (67650000 + 34861 * w)) / 10 ^ 8) := by
    clear h0
    generalize 67650000 + 34861 * w = y at *
    omega
  generalize 20 * (67650000 + 34861 * w) / 10 ^ 8 = k at h1
  clear hc h0
  -- `2488741` is the inverse of `34861` modulo `5000000`
  have h2 : 2488741 * (67650000 + 34861 * w) = 2488741 * (5000000 * k) := congrArg _ h1
  have h3 : 2488741 * (67650000 + 34861 * w) = 5000000 * (33672665 + 17352 * w) + 3650000 + w := by
    rw [Nat.mul_add, Nat.mul_add, ← Nat.mul_assoc, ← Nat.mul_assoc]
    generalize w = x
    omega
  have h4 : 5000000 * (33672665 + 17352 * w) + 3650000 + w = 5000000 * (2488741 * k) := by
    rw [← h3, h2, Nat.mul_left_comm]
  clear h1 h2 h3
  generalize 33672665 + 17352 * w = y at h4
  generalize 2488741 * k = z at h4
  omega

theorem L1_thr : ThrOk L1 := by
  intro w hw
  rw [L1_coeff.2.2] at hw
  have h := L1_arith w hw
  apply threshold_of <;> (try rw [L1_coeff.1, L1_coeff.2.1]) <;> first | tauto | decide

theorem L3_coeff : L3.coeff0 = 1525880000 ∧ L3.coeff1 = 526500 ∧ L3.R = 24659 := ⟨rfl, rfl, rfl⟩

theorem L3_arith (w : Nat) (hw : w ≤ 24659) : 1525880000 + 526500 * w < 2 ^ 36 ∧
    2 ≤ (1525880000 + 526500 * w) % 10 ^ 8 ∧ (1525880000 + 526500 * w) / 10 ^ 8 < 256 := by
  refine ⟨?_, ?_, ?_⟩ <;> omega

theorem L3_thr : ThrOk L3 := by
  intro w hw
  rw [L3_coeff.2.2] at hw
  have h := L3_arith w hw
  apply threshold_of <;> (try rw [L3_coeff.1, L3_coeff.2.1]) <;> first | tauto | decide

theorem L5_coeff : L5.coeff0 = 1787850000 ∧ L5.coeff1 = 402312 ∧ L5.R = 40973 := ⟨rfl, rfl, rfl⟩

theorem L5_arith (w : Nat) (hw : w ≤ 40973) : 1787850000 + 402312 * w < 2 ^ 36 ∧
    2 ≤ (1787850000 + 402312 * w) % 10 ^ 8 ∧ (1787850000 + 402312 * w) / 10 ^ 8 < 256 := by
  refine ⟨by omega, ?_, by omega⟩
  have h0 : 1787850000 + 402312 * w = 8 * (223481250 + 50289 * w) := by ring
  by_contra hc
  rw [h0] at hc
  have h1 : 223481250 + 50289 * w = 12500000 * ((8 * (223481250 + 50289 * w)) / 10 ^ 8) := by
    clear h0
    generalize 223481250 + 50289 * w = y at *
    omega
  generalize 8 * (223481250 + 50289 * w) / 10 ^ 8 = k at h1
  clear hc h0
  -- `7766609` is the inverse of `50289` modulo `12500000`
  have h2 : 7766609 * (223481250 + 50289 * w) = 7766609 * (12500000 * k) := congrArg _ h1
  have h3 : 7766609 * (223481250 + 50289 * w) = 12500000 * (138855319 + 31246 * w) + 81250 + w := by
    rw [Nat.mul_add, Nat.mul_add, ← Nat.mul_assoc, ← Nat.mul_assoc]
    generalize w = x
    omega
  have h4 : 12500000 * (138855319 + 31246 * w) + 81250 + w = 12500000 * (7766609 * k) := by
    rw [← h3, h2, Nat.mul_left_comm]
  clear h1 h2 h3
  generalize 138855319 + 31246 * w = y at h4
  generalize 7766609 * k = z at h4
  omega

theorem L5_thr : ThrOk L5 := by
  intro w hw
  rw [L5_coeff.2.2] at hw
  have h := L5_arith w hw
  apply threshold_of <;> (try rw [L5_coeff.1, L5_coeff.2.1]) <;> first | tauto | decide

theorem wt_le (R : Nat) (f : Nat → Bool) : Spec.wt R f ≤ R := by
  unfold Spec.wt
  exact Nat.le_trans (List.length_filter_le _ _) (by simp)

/-! ## Bytes of the error vectors -/

/-- A byte string with the bits `f` below `R`. -/
structure Byt (p : Par) (f : Nat → Bool) (bs : List Nat) : Prop where
  len : bs.length = p.rb
  bf : Bf bs
  bits : ∀ i, i < p.R → bitB bs i = f i

theorem byt_zip {p : Par} {f g : Nat → Bool} {a b : List Nat} (op : Nat → Nat → Nat)
    (bop : Bool → Bool → Bool) (hop : ∀ x y, x < 256 → y < 256 → op x y < 256)
    (hbit : ∀ x y j, j < 8 → (op x y).testBit j = bop (x.testBit j) (y.testBit j))
    (ha : Byt p f a) (hb : Byt p g b) : Byt p (fun i => bop (f i) (g i)) (List.zipWith op a b) := by
  refine ⟨by simp [ha.len, hb.len], ?_, ?_⟩
  · intro w hw
    obtain ⟨i, hi, rfl⟩ := List.getElem_of_mem hw
    rw [List.getElem_zipWith]
    exact hop _ _ (ha.bf _ (List.getElem_mem _)) (hb.bf _ (List.getElem_mem _))
  · intro i hi
    rw [← ha.bits i hi, ← hb.bits i hi]
    unfold bitB
    have h1 := ha.len
    have h2 := hb.len
    unfold Par.rb at h1 h2
    rw [getD_zipWith _ (by omega) (by omega), hbit _ _ _ (Nat.mod_lt _ (by omega))]

theorem maskLast_rt {p : Par} (hp : POk p) {f : Nat → Bool} {a : List Nat} (ha : Byt p f a) :
    Rt p (maskLast p a) ∧ ∀ i, i < p.R → bitB (maskLast p a) i = f i := by
  have ho := hp.oct
  have hrb : p.rb = p.R / 8 + 1 := by unfold Par.rb; omega
  have hlen := ha.len
  have hbit : ∀ i, bitB (maskLast p a) i = (decide (i < p.R) && bitB a i) := by
    intro i
    unfold maskLast bitB
    by_cases h1 : i / 8 < p.rb - 1
    · rw [getD_append_left (by rw [List.length_take, hlen]; omega), List.getD_eq_getElem?_getD,
        List.getElem?_take, if_pos h1, ← List.getD_eq_getElem?_getD,
        show decide (i < p.R) = true by simp; omega]
      simp
    · by_cases h2 : i / 8 = p.rb - 1
      · rw [getD_append_right (by rw [List.length_take, hlen]; omega), List.length_take, hlen,
          show i / 8 - min (p.rb - 1) p.rb = 0 by omega, List.getD_cons_zero, Nat.testBit_and,
          Nat.testBit_two_pow_sub_one, ← h2]
        by_cases h3 : i < p.R
        · rw [show decide (i % 8 < p.R % 8) = true by simp; omega]; simp [h3]
        · rw [show decide (i % 8 < p.R % 8) = false by simp; omega]; simp [h3]
      · rw [List.getD_eq_getElem?_getD, List.getElem?_eq_none (by simp [hlen]; omega)]
        simp; omega
  refine ⟨⟨?_, ?_, ?_⟩, ?_⟩
  · unfold maskLast
    simp [hlen]; omega
  · intro b hb
    unfold maskLast at hb
    rcases List.mem_append.1 hb with hb | hb
    · exact ha.bf b (List.mem_of_mem_take hb)
    · rw [List.mem_singleton.1 hb]
      exact Nat.lt_of_le_of_lt Nat.and_le_left (Bf_getD ha.bf _)
  · intro i hi
    rw [hbit, show decide (i < p.R) = false by simp; omega, Bool.false_and]
  · intro i hi
    rw [hbit, show decide (i < p.R) = true by simp; omega, Bool.true_and, ha.bits i hi]

theorem sumMsb_byt {p : Par} (hp : POk p) {u : List (List Nat)} (hu : Sl p.rq u)
    (hl : u.length = p.slices) : Byt p (fun b => decide (sval u b < 2 ^ (p.slices - 1))) (sumMsb p u) := by
  have hs0 : 1 ≤ p.slices := by unfold Par.slices; omega
  have hne : u ≠ [] := by
    intro h
    rw [h] at hl
    simp at hl
    omega
  have hmem : u.getD (p.slices - 1) [] ∈ u := by
    rw [List.getD_eq_getElem?_getD, List.getElem?_eq_getElem (by omega)]
    exact List.getElem_mem _
  refine ⟨by simp [sumMsb], ?_, ?_⟩
  · intro b hb
    obtain ⟨i, _, rfl⟩ := List.mem_map.1 hb
    exact not8_lt (byteW_lt _ _)
  · intro i hi
    unfold bitB sumMsb
    rw [getD_map_range _ _ _ (by unfold Par.rb; omega), not8_bit _ _ (Nat.mod_lt _ (by omega)),
      byteW_bit (hu _ hmem).2 _ _ (Nat.mod_lt _ (by omega)), show 8 * (i / 8) + i % 8 = i by omega]
    have h := sval_msb u hne i
    rw [hl] at h
    by_cases hc : 2 ^ (p.slices - 1) ≤ sval u i
    · rw [h.2 hc]; simp; omega
    · have : bitW (u.getD (p.slices - 1) []) i = false := by
        rw [Bool.eq_false_iff]; exact fun hb => hc (h.1 hb)
      rw [this]; simp; omega

/-! ## find_err1 and find_err2 -/

theorem setOnes_spec {p : Par} (hp : POk p) {rot : List Nat} (hr : rot.length = p.rq ∧ Wf rot) :
    ((setOnes p rot).length = p.rq ∧ Wf (setOnes p rot)) ∧
      ∀ b, b < p.R → bitW (setOnes p rot) b = true := by
  have hge := hp.ge
  have hsh : 8 * (p.rb - 8 * (p.rq - 1)) ≤ 64 := by unfold Par.rb Par.rq; omega
  refine ⟨⟨by simp [setOnes], ?_⟩, ?_⟩
  · intro w hw
    obtain ⟨i, _, rfl⟩ := List.mem_map.1 hw
    split
    · decide
    · refine Nat.or_lt_two_pow (n := 64) (Wf_getD hr.2 _) ?_
      have : 2 ^ (8 * (p.rb - 8 * (p.rq - 1))) ≤ 2 ^ 64 := Nat.pow_le_pow_right (by omega) hsh
      have : 0 < 2 ^ (8 * (p.rb - 8 * (p.rq - 1))) := Nat.two_pow_pos _
      omega
  · intro b hb
    unfold bitW setOnes
    rw [getD_map_range _ _ _ (by unfold Par.rq; omega)]
    split
    · rw [Nat.testBit_two_pow_sub_one]; simp; omega
    · rw [Nat.testBit_or, Nat.testBit_two_pow_sub_one]
      rw [show decide (b % 64 < 8 * (p.rb - 8 * (p.rq - 1))) = true by
        simp
        rename_i h
        have : b / 64 = p.rq - 1 := by unfold Par.rq at h ⊢; omega
        unfold Par.rb
        omega]
      simp

theorem t_lt {p : Par} {t : Nat} (ht : t ≤ 2 ^ (p.slices - 1)) : t < 2 ^ p.slices := by
  have h1 : 2 ^ p.slices = 2 * 2 ^ (p.slices - 1) := by
    rw [← pow_succ']
    congr 1
  have h2 : 0 < 2 ^ (p.slices - 1) := Nat.two_pow_pos _
  omega

/-- Counters after the subtraction of the threshold. -/
theorem sub_val {p : Par} {h : Nat} (hd : DOk p h) (hD : p.D < 512) {f : Nat → Bool} {s : List Nat}
    (hs : Syn p f s) {wl : List Nat} (hl : wl.length = p.D) (hw : ∀ w ∈ wl, w < p.R) (t : Nat)
    (ht : t < 2 ^ p.slices) :
    let u := subSlices (upcOf p s wl).1 (List.replicate p.rq 0) t
    Sl p.rq u ∧ u.length = p.slices ∧ ∀ b, b < p.R →
      (t ≤ Spec.upc p.R f wl b → sval u b + t = Spec.upc p.R f wl b) ∧
      (Spec.upc p.R f wl b < t → sval u b + t = Spec.upc p.R f wl b + 2 ^ p.slices) := by
  obtain ⟨h1, h2, _, h4⟩ := upcOf_spec hd hD hs hl hw
  have hz : (List.replicate p.rq 0).length = p.rq ∧ Wf (List.replicate p.rq 0) :=
    ⟨by simp, Wf_replicate _⟩
  obtain ⟨g1, g2, g3⟩ := subSlices_spec (upcOf p s wl).1 (List.replicate p.rq 0) t h1 hz
  intro u
  refine ⟨g1, by rw [g2, h2], ?_⟩
  intro b hb
  obtain ⟨o, ho, g4⟩ := g3 b (by unfold Par.rq; omega)
  have hlt := sval_lt u b
  rw [show u.length = p.slices from (by rw [g2, h2])] at hlt
  have hp2 : 2 ^ p.slices = 2 * 2 ^ (p.slices - 1) := by
    rw [← pow_succ']
    congr 1
  have hpos : 0 < 2 ^ (p.slices - 1) := Nat.two_pow_pos _
  have hz0 : bitW (List.replicate p.rq 0) b = false := by
    unfold bitW; rw [getD_replicate]; simp
  rw [h2, h4 b hb, hz0, Nat.mod_eq_of_lt (by omega)] at g4
  have hu : upc p f wl b = Spec.upc p.R f wl b := rfl
  rw [hu] at g4
  have hub : Spec.upc p.R f wl b < 2 ^ (p.slices - 1) := by
    have : Spec.upc p.R f wl b ≤ p.D := by
      rw [← hl]; exact List.length_filter_le _ _
    exact Nat.lt_of_le_of_lt this (log2Msb_lt hD)
  simp only [Bool.toNat_false, Nat.add_zero] at g4
  change sval u b + t = _ at g4
  rcases (show o = 0 ∨ o = 1 by omega) with rfl | rfl
  · simp only [Nat.mul_zero, Nat.add_zero] at g4
    exact ⟨fun _ => g4, fun hc => (by omega)⟩
  · simp only [Nat.mul_one] at g4
    exact ⟨fun hc => (by omega), fun _ => g4⟩

theorem pow_slices (p : Par) : 2 ^ p.slices = 2 * 2 ^ (p.slices - 1) := by
  rw [← pow_succ']
  congr 1

theorem gray_arith (v t u P : Nat) (ht : t ≤ P) (hu : u < P) (hP : 4 ≤ P)
    (h1 : t ≤ u → v + t = u) (h2 : u < t → v + t = u + 2 * P) :
    (!decide (v < P) && decide ((v + 3) % (2 * P) < P)) =
      (decide (u < t) && decide (t ≤ u + 3)) := by
  rcases Nat.lt_or_ge u t with h | h
  · have h3 := h2 h
    rw [show decide (v < P) = false by simp; omega, show decide (u < t) = true by simp; omega]
    simp only [Bool.not_false, Bool.true_and]
    rw [decide_eq_decide]
    rcases Nat.lt_or_ge (v + 3) (2 * P) with h4 | h4
    · rw [Nat.mod_eq_of_lt h4]; omega
    · rw [Nat.mod_eq_sub_mod h4, Nat.mod_eq_of_lt (by omega)]; omega
  · have h3 := h1 h
    rw [show decide (v < P) = true by simp; omega, show decide (u < t) = false by simp; omega]
    simp

theorem flip_arith (v t u P : Nat) (ht : t ≤ P) (hu : u < P)
    (h1 : t ≤ u → v + t = u) (h2 : u < t → v + t = u + 2 * P) :
    decide (v < P) = decide (t ≤ u) := by
  rw [decide_eq_decide]
  rcases Nat.lt_or_ge u t with h | h
  · have := h2 h; omega
  · have := h1 h; omega

theorem addOnes {p : Par} (hp : POk p) {u : List (List Nat)} {rot : List Nat} (hu : Sl p.rq u)
    (hl : u.length = p.slices) (hr : rot.length = p.rq ∧ Wf rot) :
    let r := addSlices u (setOnes p rot) p.slices
    Sl p.rq r.1 ∧ r.1.length = p.slices ∧ (r.2.length = p.rq ∧ Wf r.2) ∧
      ∀ b, b < p.R → sval r.1 b = (sval u b + 1) % 2 ^ p.slices := by
  have ho := setOnes_spec hp hr
  have h := addSlices_spec p.slices u _ hu ho.1 (by omega)
  intro r
  refine ⟨h.1, by rw [h.2.1, hl], h.2.2.1, ?_⟩
  intro b hb
  have h4 := h.2.2.2 b (by unfold Par.rq; omega)
  rw [ho.2 b hb] at h4
  change sval r.1 b + _ = _ at h4
  have hlt := sval_lt r.1 b
  rw [show r.1.length = p.slices by rw [h.2.1, hl]] at hlt
  rw [show (true).toNat = 1 from rfl] at h4
  rw [← h4, Nat.add_mul_mod_self_left, Nat.mod_eq_of_lt hlt]

theorem byt_of_rt {p : Par} {f : Nat → Bool} {e : List Nat} (h : Rt p e)
    (hb : ∀ i, i < p.R → bitB e i = f i) : Byt p f e := ⟨h.len, h.bf, hb⟩

theorem xor_byt {p : Par} {f g : Nat → Bool} {a b : List Nat} (ha : Byt p f a) (hb : Byt p g b) :
    Byt p (fun i => f i ^^ g i) (List.zipWith (· ^^^ ·) a b) :=
  byt_zip _ (· ^^ ·) (fun _ _ hx hy => Nat.xor_lt_two_pow (n := 8) hx hy)
    (fun x y j _ => Nat.testBit_xor x y j) ha hb

theorem and_byt {p : Par} {f g : Nat → Bool} {a b : List Nat} (ha : Byt p f a) (hb : Byt p g b) :
    Byt p (fun i => f i && g i) (List.zipWith (· &&& ·) a b) :=
  byt_zip _ (· && ·) (fun _ _ hx _ => Nat.lt_of_le_of_lt Nat.and_le_left hx)
    (fun x y j _ => Nat.testBit_and x y j) ha hb

theorem andNot_byt {p : Par} {f g : Nat → Bool} {a b : List Nat} (ha : Byt p f a)
    (hb : Byt p g b) :
    Byt p (fun i => !f i && g i) (List.zipWith (fun b m => not8 b &&& m) a b) :=
  byt_zip _ (fun x y => !x && y) (fun _ _ _ hy => Nat.lt_of_le_of_lt Nat.and_le_right hy)
    (fun x y j hj => (by rw [Nat.testBit_and, not8_bit _ _ hj])) ha hb

theorem byt_congr {p : Par} {f g : Nat → Bool} {a : List Nat} (ha : Byt p f a)
    (h : ∀ i, i < p.R → f i = g i) : Byt p g a :=
  ⟨ha.len, ha.bf, fun i hi => (by rw [ha.bits i hi, h i hi])⟩

theorem findErr1_spec {p : Par} {h : Nat} (hp : POk p) (hd : DOk p h) (hD : p.D < 512)
    (hS : 3 ≤ p.slices) {f fe : Nat → Bool} {s e : List Nat} (hs : Syn p f s)
    (he : Byt p fe e) {wl : List Nat} (hl : wl.length = p.D)
    (hw : ∀ w ∈ wl, w < p.R) (t : Nat) (ht : t ≤ 2 ^ (p.slices - 1)) :
    Rt p (findErr1 p e s wl t).1 ∧
      (∀ b, b < p.R → bitB (findErr1 p e s wl t).1 b = Spec.flip p.R f wl t fe b) ∧
      Byt p (Spec.gray p.R f wl t) (findErr1 p e s wl t).2 := by
  obtain ⟨h1, h2, h3⟩ := sub_val hd hD hs hl hw t (t_lt ht)
  have hrot := (upcOf_spec hd hD hs hl hw).2.2.1
  have hub : ∀ b, Spec.upc p.R f wl b < 2 ^ (p.slices - 1) := by
    intro b
    have : Spec.upc p.R f wl b ≤ p.D := by
      rw [← hl]; exact List.length_filter_le _ _
    exact Nat.lt_of_le_of_lt this (log2Msb_lt hD)
  have hP : 4 ≤ 2 ^ (p.slices - 1) :=
    Nat.le_trans (show 4 ≤ 2 ^ 2 by decide) (Nat.pow_le_pow_right (by omega) (by omega))
  unfold findErr1
  dsimp only
  generalize subSlices (upcOf p s wl).1 (List.replicate p.rq 0) t = u0 at *
  generalize (upcOf p s wl).2 = rot at *
  have hb0 := sumMsb_byt hp h1 h2
  have hblack : Byt p (fun b => decide (t ≤ Spec.upc p.R f wl b)) (sumMsb p u0) := by
    refine byt_congr hb0 ?_
    intro b hb
    have := h3 b hb
    rw [pow_slices] at this
    exact flip_arith _ _ _ _ ht (hub b) this.1 this.2
  obtain ⟨hm1, hm2⟩ := maskLast_rt hp (xor_byt he hblack)
  refine ⟨hm1, hm2, ?_⟩
  simp only [show List.range 3 = [0, 1, 2] from rfl, List.foldl_cons, List.foldl_nil]
  obtain ⟨a1, a2, a3, a4⟩ := addOnes hp h1 h2 hrot
  generalize addSlices u0 (setOnes p rot) p.slices = r1 at *
  obtain ⟨b1, b2, b3, b4⟩ := addOnes hp a1 a2 a3
  generalize addSlices r1.1 (setOnes p r1.2) p.slices = r2 at *
  obtain ⟨c1, c2, c3, c4⟩ := addOnes hp b1 b2 b3
  generalize addSlices r2.1 (setOnes p r2.2) p.slices = r3 at *
  have hb3 := sumMsb_byt hp c1 c2
  refine byt_congr (andNot_byt hb0 hb3) ?_
  intro b hb
  have h5 := h3 b hb
  rw [c4 b hb, b4 b hb, a4 b hb, Nat.mod_add_mod, Nat.add_assoc, Nat.mod_add_mod, pow_slices]
  rw [pow_slices] at h5
  exact gray_arith _ _ _ _ ht (hub b) hP h5.1 h5.2

theorem findErr2_spec {p : Par} {h : Nat} (hp : POk p) (hd : DOk p h) (hD : p.D < 512)
    {f fe m : Nat → Bool} {s e pos : List Nat} (hs : Syn p f s)
    (he : Byt p fe e) (hm : Byt p m pos) {wl : List Nat} (hl : wl.length = p.D)
    (hw : ∀ w ∈ wl, w < p.R) (t : Nat) (ht : t ≤ 2 ^ (p.slices - 1)) :
    Rt p (findErr2 p e pos s wl t) ∧
      ∀ b, b < p.R → bitB (findErr2 p e pos s wl t) b = Spec.flipIn p.R m f wl t fe b := by
  obtain ⟨h1, h2, h3⟩ := sub_val hd hD hs hl hw t (t_lt ht)
  have hub : ∀ b, Spec.upc p.R f wl b < 2 ^ (p.slices - 1) := by
    intro b
    have : Spec.upc p.R f wl b ≤ p.D := by
      rw [← hl]; exact List.length_filter_le _ _
    exact Nat.lt_of_le_of_lt this (log2Msb_lt hD)
  unfold findErr2
  dsimp only
  generalize subSlices (upcOf p s wl).1 (List.replicate p.rq 0) t = u0 at *
  have hblack : Byt p (fun b => decide (t ≤ Spec.upc p.R f wl b)) (sumMsb p u0) := by
    refine byt_congr (sumMsb_byt hp h1 h2) ?_
    intro b hb
    have := h3 b hb
    rw [pow_slices] at this
    exact flip_arith _ _ _ _ ht (hub b) this.1 this.2
  exact maskLast_rt hp (xor_byt he (and_byt hm hblack))

end LC.Bike
