import Verif.Bike.Sample

/-! The decoder's bit operations: rotation, duplication, sliced counters. -/

namespace LC.Bike

theorem getD_zipWith (f : Nat → Nat → Nat) {a b : List Nat} {j : Nat} (ha : j < a.length)
    (hb : j < b.length) :
    (List.zipWith f a b).getD j 0 = f (a.getD j 0) (b.getD j 0) := by
  simp [List.getD_eq_getElem?_getD, List.getElem?_zipWith, List.getElem?_eq_getElem ha,
    List.getElem?_eq_getElem hb]

theorem not64_bit (x j : Nat) (hj : j < 64) : (not64 x).testBit j = !x.testBit j := by
  unfold not64
  rw [Nat.testBit_xor, Nat.testBit_two_pow_sub_one]
  simp [hj]

theorem not64_lt {x : Nat} (h : x < W) : not64 x < W :=
  Nat.xor_lt_two_pow (n := 64) h (by decide)

theorem not8_bit (x j : Nat) (hj : j < 8) : (not8 x).testBit j = !x.testBit j := by
  unfold not8
  rw [Nat.testBit_xor, Nat.testBit_two_pow_sub_one]
  simp [hj]

theorem not8_lt {x : Nat} (h : x < 256) : not8 x < 256 :=
  Nat.xor_lt_two_pow (n := 8) h (by decide)

theorem and_onesW {x : Nat} (h : x < W) : x &&& (W - 1) = x := by
  rw [Nat.and_two_pow_sub_one_eq_mod, Nat.mod_eq_of_lt h]

/-! ## Rotation -/

theorem bigMask_eq (q idx : Nat) (hq : q < 2 ^ 32) (hi : idx < 2 ^ 32) :
    bigMask q idx = if q < idx then 0 else W - 1 := by
  unfold bigMask
  rw [l32Mask_eq q idx hq hi]
  split <;> decide

/-- `2^h, ..., 2, 1`. -/
def pows : Nat → List Nat
  | 0 => [1]
  | h + 1 => 2 ^ (h + 1) :: pows h

theorem bigStep_ge (p : Par) (q idx : Nat) (s : List Nat) (hs : Wf s) (hi : idx < 2 ^ 32)
    (hq : q < 2 ^ 32) (hge : idx ≤ q) :
    (bigStep p (q, s) idx).1 = q - idx ∧
      ∀ i, i < p.rq + idx → (bigStep p (q, s) idx).2.getD i 0 = s.getD (i + idx) 0 := by
  unfold bigStep
  dsimp only
  rw [bigMask_eq q idx hq hi, if_neg (by omega)]
  refine ⟨?_, ?_⟩
  · rw [show (W - 1) % 2 ^ 32 = 2 ^ 32 - 1 by decide, Nat.and_two_pow_sub_one_eq_mod,
      Nat.mod_eq_of_lt hi]
  · intro i hlt
    by_cases hl : i < s.length
    · rw [getD_map_range _ _ _ hl, if_pos hlt, and_onesW (Wf_getD hs _),
        show not64 (W - 1) = 0 by decide, Nat.and_zero, Nat.zero_or]
    · rw [List.getD_eq_getElem?_getD, List.getElem?_eq_none (by simp; omega),
        List.getD_eq_getElem?_getD, List.getElem?_eq_none (by omega)]

theorem bigStep_lt (p : Par) (q idx : Nat) (s : List Nat) (hs : Wf s) (hi : idx < 2 ^ 32)
    (hq : q < 2 ^ 32) (hlt : q < idx) :
    (bigStep p (q, s) idx).1 = q ∧
      ∀ i, i < p.rq + idx → (bigStep p (q, s) idx).2.getD i 0 = s.getD i 0 := by
  unfold bigStep
  dsimp only
  rw [bigMask_eq q idx hq hi, if_pos hlt]
  refine ⟨?_, ?_⟩
  · rw [Nat.zero_mod, Nat.and_zero, Nat.sub_zero]
  · intro i hlt
    by_cases hl : i < s.length
    · rw [getD_map_range _ _ _ hl, if_pos hlt, show not64 0 = W - 1 by decide,
        and_onesW (Wf_getD hs _), Nat.and_zero, Nat.or_zero]
    · rw [List.getD_eq_getElem?_getD, List.getElem?_eq_none (by simp; omega),
        List.getD_eq_getElem?_getD, List.getElem?_eq_none (by omega)]

theorem bigStep_wf (p : Par) (q idx : Nat) (s : List Nat) (hs : Wf s) :
    Wf (bigStep p (q, s) idx).2 := by
  intro w hw
  unfold bigStep at hw
  obtain ⟨i, _, rfl⟩ := List.mem_map.1 hw
  dsimp only
  split
  · exact Nat.or_lt_two_pow (n := 64) (Nat.lt_of_le_of_lt Nat.and_le_left (Wf_getD hs _))
      (Nat.lt_of_le_of_lt Nat.and_le_left (Wf_getD hs _))
  · exact Wf_getD hs _

theorem big_fold (p : Par) (h : Nat) (hh : h < 31) (q : Nat) (hq : q < 2 ^ (h + 1)) (s : List Nat)
    (hs : Wf s) :
    Wf ((pows h).foldl (bigStep p) (q, s)).2 ∧ ∀ i, i < p.rq + 1 →
      ((pows h).foldl (bigStep p) (q, s)).2.getD i 0 = s.getD (i + q) 0 := by
  induction h generalizing q s with
  | zero =>
    simp only [pows, List.foldl_cons, List.foldl_nil]
    refine ⟨bigStep_wf p q 1 s hs, ?_⟩
    intro i hi
    by_cases hge : 1 ≤ q
    · rw [(bigStep_ge p q 1 s hs (by decide) (by omega) hge).2 i hi]
      congr 1; omega
    · rw [(bigStep_lt p q 1 s hs (by decide) (by omega) (by omega)).2 i hi]
      congr 1; omega
  | succ h ih =>
    simp only [pows, List.foldl_cons]
    have hp1 : 2 ^ (h + 1) < 2 ^ 32 := Nat.pow_lt_pow_right (by omega) (by omega)
    have hp2 : 2 ^ (h + 1 + 1) ≤ 2 ^ 32 := Nat.pow_le_pow_right (by omega) (by omega)
    have hp3 : 2 ^ (h + 1 + 1) = 2 * 2 ^ (h + 1) := by rw [pow_succ]; omega
    generalize hx : 2 ^ (h + 1) = idx at *
    by_cases hge : idx ≤ q
    · obtain ⟨h1, h2⟩ := bigStep_ge p q idx s hs hp1 (by omega) hge
      have h3 := bigStep_wf p q idx s hs
      generalize bigStep p (q, s) idx = st at *
      obtain ⟨q', s'⟩ := st
      dsimp only at h1 h2 h3
      obtain ⟨g1, g2⟩ := ih (by omega) q' (by omega) s' h3
      refine ⟨g1, fun i hi => ?_⟩
      rw [g2 i hi, h2 _ (by omega)]
      congr 1; omega
    · obtain ⟨h1, h2⟩ := bigStep_lt p q idx s hs hp1 (by omega) (by omega)
      have h3 := bigStep_wf p q idx s hs
      generalize bigStep p (q, s) idx = st at *
      obtain ⟨q', s'⟩ := st
      dsimp only at h1 h2 h3
      obtain ⟨g1, g2⟩ := ih (by omega) q' (by omega) s' h3
      refine ⟨g1, fun i hi => ?_⟩
      rw [g2 i hi, h2 _ (by omega)]
      congr 1; omega

theorem rotrSmall_wf (p : Par) (s : List Nat) (hs : Wf s) (bits : Nat) : Wf (rotrSmall p s bits) := by
  intro w hw
  unfold rotrSmall at hw
  obtain ⟨i, _, rfl⟩ := List.mem_map.1 hw
  refine Nat.or_lt_two_pow (n := 64) (Nat.lt_of_le_of_lt (Nat.shiftRight_le _ _) (Wf_getD hs _)) ?_
  exact Nat.lt_of_le_of_lt Nat.and_le_left (Nat.mod_lt _ (by decide))

theorem rotrSmall_bit (p : Par) (s : List Nat) (hs : Wf s) (bits : Nat) (hb : bits < 64) (b : Nat)
    (hlt : b < 64 * p.rq) : bitW (rotrSmall p s bits) b = bitW s (b + bits) := by
  unfold rotrSmall
  dsimp only
  conv_lhs => unfold bitW
  rw [getD_map_range _ _ _ (by omega), Nat.testBit_or, Nat.testBit_shiftRight, testBit_bitW hs]
  by_cases h0 : bits = 0
  · rw [if_pos h0, Nat.and_zero, Nat.zero_testBit, Bool.or_false, h0,
      show 64 * (b / 64) + (0 + b % 64) = b + 0 by omega]
    simp; omega
  · rw [if_neg h0, show (64 - bits) &&& (W - 1) = 64 - bits from
      and_onesW (Nat.lt_of_lt_of_le (show 64 - bits < 64 by omega) (by decide)),
      and_onesW (Nat.mod_lt _ (by decide)), Nat.testBit_mod_two_pow, Nat.testBit_shiftLeft,
      testBit_bitW hs]
    by_cases h1 : bits + b % 64 < 64
    · rw [show decide (b % 64 ≥ 64 - bits) = false by simp; omega,
        show 64 * (b / 64) + (bits + b % 64) = b + bits by omega]
      simp [h1]
    · rw [show decide (b % 64 ≥ 64 - bits) = true by simp; omega,
        show 64 * (b / 64 + 1) + (b % 64 - (64 - bits)) = b + bits by omega,
        show decide (bits + b % 64 < 64) = false by simp; omega,
        show decide (b % 64 < 64) = true by simp; omega,
        show decide (b % 64 - (64 - bits) < 64) = true by simp; omega]
      simp

/-- Requirements of the decoder: the rotation covers all distances. -/
structure DOk (p : Par) (h : Nat) : Prop where
  pows : halves 32 (upToPow2 (p.rq / 2)) = pows h
  small : h < 31
  cover : p.rq ≤ 2 ^ (h + 1)

theorem rotr_bit {p : Par} {h : Nat} (hd : DOk p h) (s : List Nat) (hs : Wf s) (n : Nat)
    (hn : n < p.R) (b : Nat) (hb : b < 64 * p.rq) : bitW (rotr p s n) b = bitW s (b + n) := by
  have hq : n / 64 < 2 ^ (h + 1) := by
    have := hd.cover
    unfold Par.rq at this
    omega
  obtain ⟨h1, h2⟩ := big_fold p h hd.small (n / 64) hq s hs
  unfold rotr
  rw [rotrSmall_bit p _ (by unfold rotrBig; rw [hd.pows]; exact h1) _ (Nat.mod_lt _ (by omega)) _ hb]
  unfold rotrBig
  rw [hd.pows]
  unfold bitW
  rw [h2 _ (by omega), show (b + n % 64) / 64 + n / 64 = (b + n) / 64 by omega,
    show (b + n % 64) % 64 = (b + n) % 64 by omega]

theorem rotr_wf {p : Par} {h : Nat} (hd : DOk p h) (s : List Nat) (hs : Wf s) (n : Nat)
    (hn : n < p.R) : Wf (rotr p s n) ∧ (rotr p s n).length = p.rq := by
  have hq : n / 64 < 2 ^ (h + 1) := by
    have := hd.cover
    unfold Par.rq at this
    omega
  obtain ⟨h1, _⟩ := big_fold p h hd.small (n / 64) hq s hs
  unfold rotr
  refine ⟨rotrSmall_wf p _ (by unfold rotrBig; rw [hd.pows]; exact h1) _, by simp [rotrSmall]⟩

/-! ## Duplication -/

theorem dup_base_wf (p : Par) (s : List Nat) (hs : Wf s) :
    Wf (s.take (p.rq - 1) ++
      [((s.getD 0 0 <<< p.lead) % W) ||| (s.getD (p.rq - 1) 0 &&& (2 ^ p.lead - 1))]) := by
  refine Wf_append (Wf_take hs _) (Wf_cons ?_ Wf_nil)
  exact Nat.or_lt_two_pow (n := 64) (Nat.mod_lt _ (by decide))
    (Nat.lt_of_le_of_lt Nat.and_le_left (Wf_getD hs _))

theorem dup_base_bit {p : Par} (hp : POk p) (s : List Nat) (hs : Wf s) (hl : p.rq ≤ s.length)
    (b : Nat) (hb : b < 64 * p.rq) :
    bitW (s.take (p.rq - 1) ++
      [((s.getD 0 0 <<< p.lead) % W) ||| (s.getD (p.rq - 1) 0 &&& (2 ^ p.lead - 1))]) b =
      bitW s (b % p.R) := by
  have hle := hp.lead
  have hge := hp.ge
  have hR : p.R = 64 * (p.rq - 1) + p.lead := by unfold Par.rq Par.lead; omega
  have hl64 : p.lead < 64 := Nat.mod_lt _ (by omega)
  by_cases h1 : b / 64 < p.rq - 1
  · unfold bitW
    rw [getD_append_left (by simp; omega), List.getD_eq_getElem?_getD, List.getElem?_take,
      if_pos h1, ← List.getD_eq_getElem?_getD, Nat.mod_eq_of_lt (show b < p.R by omega)]
  · conv_lhs => unfold bitW
    rw [getD_append_right (by simp; omega), List.length_take,
      show b / 64 - min (p.rq - 1) s.length = 0 by omega, List.getD_cons_zero, Nat.testBit_or,
      Nat.testBit_mod_two_pow, Nat.testBit_shiftLeft, Nat.testBit_and, Nat.testBit_two_pow_sub_one,
      testBit_bitW hs, testBit_bitW hs]
    by_cases h2 : b % 64 < p.lead
    · rw [show decide (b % 64 ≥ p.lead) = false by simp; omega,
        Nat.mod_eq_of_lt (show b < p.R by omega), show 64 * (p.rq - 1) + b % 64 = b by omega]
      simp [h2]; omega
    · have hm : b % p.R = 0 * 64 + (b % 64 - p.lead) := by
        have h5 : b % p.R = (b - p.R) % p.R := Nat.mod_eq_sub_mod (by omega)
        rw [h5, Nat.mod_eq_of_lt (by omega)]
        omega
      rw [show decide (b % 64 ≥ p.lead) = true by simp; omega,
        show decide (b % 64 < p.lead) = false by simp; omega, hm,
        show 64 * 0 + (b % 64 - p.lead) = 0 * 64 + (b % 64 - p.lead) by omega,
        show decide (b % 64 < 64) = true by simp; omega,
        show decide (b % 64 - p.lead < 64) = true by simp; omega]
      simp

theorem dup_fold {p : Par} (hp : POk p) (f : Nat → Bool) (n : Nat) (l : List Nat) (hw : Wf l)
    (hl : l.length = p.rq) (hf : ∀ b, b < 64 * p.rq → bitW l b = f (b % p.R)) :
    let r := (List.range n).foldl
      (fun l i => l ++ [(l.getD i 0 >>> p.trail) ||| ((l.getD (i + 1) 0 <<< p.lead) % W)]) l
    Wf r ∧ r.length = p.rq + n ∧ ∀ b, b < 64 * (p.rq + n) → bitW r b = f (b % p.R) := by
  induction n with
  | zero => exact ⟨hw, hl, hf⟩
  | succ n ih =>
    obtain ⟨h1, h2, h3⟩ := ih
    rw [List.range_succ, List.foldl_append]
    simp only [List.foldl_cons, List.foldl_nil]
    generalize (List.range n).foldl
      (fun l i => l ++ [(l.getD i 0 >>> p.trail) ||| ((l.getD (i + 1) 0 <<< p.lead) % W)]) l = r at *
    have hle := hp.lead
    have hge := hp.ge
    have hR : p.R = 64 * (p.rq - 1) + p.lead := by unfold Par.rq Par.lead; omega
    have hl64 : p.lead < 64 := Nat.mod_lt _ (by omega)
    have hl0 : 0 < p.lead := by unfold Par.lead; omega
    have hrq : 2 ≤ p.rq := by unfold Par.rq; omega
    have htr : p.trail = 64 - p.lead := rfl
    refine ⟨Wf_append h1 (Wf_cons ?_ Wf_nil), by simp [h2]; omega, ?_⟩
    · exact Nat.or_lt_two_pow (n := 64)
        (Nat.lt_of_le_of_lt (Nat.shiftRight_le _ _) (Wf_getD h1 _)) (Nat.mod_lt _ (by decide))
    · intro b hb
      by_cases hlt : b < 64 * (p.rq + n)
      · rw [← h3 b hlt]
        unfold bitW
        rw [getD_append_left (by rw [h2]; omega)]
      · have hmod : b % p.R = (b - p.R) % p.R := by
          conv_lhs => rw [show b = (b - p.R) + p.R by omega, Nat.add_mod_right]
        rw [hmod, ← h3 (b - p.R) (by omega)]
        conv_lhs => unfold bitW
        rw [getD_append_right (by rw [h2]; omega), h2, show b / 64 - (p.rq + n) = 0 by omega,
          List.getD_cons_zero, Nat.testBit_or, Nat.testBit_shiftRight, Nat.testBit_mod_two_pow,
          Nat.testBit_shiftLeft, testBit_bitW h1, testBit_bitW h1]
        by_cases hm : b % 64 < p.lead
        · rw [show decide (b % 64 ≥ p.lead) = false by simp; omega,
            show 64 * n + (p.trail + b % 64) = b - p.R by omega,
            show decide (p.trail + b % 64 < 64) = true by simp; omega]
          simp
        · rw [show decide (b % 64 ≥ p.lead) = true by simp; omega,
            show decide (p.trail + b % 64 < 64) = false by simp; omega,
            show 64 * (n + 1) + (b % 64 - p.lead) = b - p.R by omega,
            show decide (b % 64 - p.lead < 64) = true by simp; omega,
            show decide (b % 64 < 64) = true by simp; omega]
          simp

theorem dup_spec {p : Par} (hp : POk p) (s : List Nat) (hs : Wf s) (hl : p.rq ≤ s.length) :
    Wf (dup p s) ∧ (dup p s).length = p.rq + (2 * p.rq - 1) ∧
      ∀ b, b < 64 * (p.rq + (2 * p.rq - 1)) → bitW (dup p s) b = bitW s (b % p.R) := by
  have hge := hp.ge
  have hrq : 2 ≤ p.rq := by unfold Par.rq; omega
  exact dup_fold hp (bitW s) (2 * p.rq - 1) _ (dup_base_wf p s hs) (by simp; omega)
    (dup_base_bit hp s hs hl)

/-- A syndrome buffer that holds copies of the `R` bits `f`. -/
structure Syn (p : Par) (f : Nat → Bool) (s : List Nat) : Prop where
  wf : Wf s
  bits : ∀ b, b < 2 * p.R → bitW s b = f (b % p.R)

theorem dup_syn {p : Par} (hp : POk p) (s : List Nat) (hs : Wf s) (hl : p.rq ≤ s.length) :
    Syn p (bitW s) (dup p s) := by
  have h := dup_spec hp s hs hl
  have hge := hp.ge
  exact ⟨h.1, fun b hb => h.2.2 b (by unfold Par.rq; omega)⟩

theorem syn_rot {p : Par} {h : Nat} (hd : DOk p h) {f : Nat → Bool} {s : List Nat}
    (hs : Syn p f s) (n : Nat) (hn : n < p.R) (b : Nat) (hb : b < p.R) :
    bitW (rotr p s n) b = f ((b + n) % p.R) := by
  rw [rotr_bit hd s hs.wf n hn b (by unfold Par.rq; omega), hs.bits _ (by omega)]

/-! ## Sliced counters -/

/-- Slices of `n` words. -/
def Sl (n : Nat) (u : List (List Nat)) : Prop := ∀ s ∈ u, s.length = n ∧ Wf s

/-- The counter at bit `b`. -/
def sval : List (List Nat) → Nat → Nat
  | [], _ => 0
  | s :: u, b => (bitW s b).toNat + 2 * sval u b

theorem zip_and {n : Nat} {a b : List Nat} (ha : a.length = n ∧ Wf a) (hb : b.length = n ∧ Wf b) :
    ((List.zipWith (· &&& ·) a b).length = n ∧ Wf (List.zipWith (· &&& ·) a b)) ∧
      ∀ i, i < 64 * n → bitW (List.zipWith (· &&& ·) a b) i = (bitW a i && bitW b i) := by
  refine ⟨⟨by simp [ha.1, hb.1], ?_⟩, ?_⟩
  · intro w hw
    obtain ⟨i, hi, rfl⟩ := List.getElem_of_mem hw
    rw [List.getElem_zipWith]
    exact Nat.lt_of_le_of_lt Nat.and_le_left (ha.2 _ (List.getElem_mem _))
  · intro i hi
    unfold bitW
    rw [getD_zipWith _ (by omega) (by omega), Nat.testBit_and]

theorem zip_xor {n : Nat} {a b : List Nat} (ha : a.length = n ∧ Wf a) (hb : b.length = n ∧ Wf b) :
    ((List.zipWith (· ^^^ ·) a b).length = n ∧ Wf (List.zipWith (· ^^^ ·) a b)) ∧
      ∀ i, i < 64 * n → bitW (List.zipWith (· ^^^ ·) a b) i = (bitW a i ^^ bitW b i) := by
  refine ⟨⟨by simp [ha.1, hb.1], Wf_xorL a b ha.2 hb.2⟩, ?_⟩
  intro i hi
  unfold bitW
  rw [getD_zipWith _ (by omega) (by omega), Nat.testBit_xor]

theorem add_arith (sb rb : Bool) (v w y : Nat) (h : v + w = y + (sb && rb).toNat) :
    (sb ^^ rb).toNat + 2 * v + 2 * w = sb.toNat + 2 * y + rb.toNat := by
  revert h
  cases sb <;> cases rb <;> simp <;> omega

theorem sub_arith (sb bb : Bool) (m v x y w : Nat) (hm : m = 0 ∨ m = 1)
    (h : x + v + ((!sb && decide (m = 1) && !bb) || ((!sb || decide (m = 1)) && bb)).toNat = y + w) :
    (sb ^^ decide (m = 1) ^^ bb).toNat + 2 * x + (m + 2 * v) + bb.toNat =
      sb.toNat + 2 * y + 2 * w := by
  revert h
  rcases hm with rfl | rfl <;> cases sb <;> cases bb <;> simp <;> omega

theorem addSlices_spec {n : Nat} (k : Nat) (u : List (List Nat)) (rot : List Nat) (hu : Sl n u)
    (hr : rot.length = n ∧ Wf rot) (hk : k ≤ u.length) :
    Sl n (addSlices u rot k).1 ∧ (addSlices u rot k).1.length = u.length ∧
      ((addSlices u rot k).2.length = n ∧ Wf (addSlices u rot k).2) ∧
      ∀ b, b < 64 * n → sval (addSlices u rot k).1 b + 2 ^ k * (bitW (addSlices u rot k).2 b).toNat =
        sval u b + (bitW rot b).toNat := by
  induction u generalizing rot k with
  | nil =>
    simp only [List.length_nil, Nat.le_zero] at hk
    subst hk
    unfold addSlices
    exact ⟨hu, rfl, hr, fun b _ => (by simp)⟩
  | cons s u ih =>
    cases k with
    | zero =>
      unfold addSlices
      exact ⟨hu, rfl, hr, fun b _ => (by simp)⟩
    | succ k =>
      have hs := hu s List.mem_cons_self
      have hc := zip_and hs hr
      have hx := zip_xor hs hr
      obtain ⟨h1, h2, h3, h4⟩ := ih k (List.zipWith (· &&& ·) s rot)
        (fun t ht => hu t (List.mem_cons_of_mem _ ht)) hc.1 (by simpa using hk)
      unfold addSlices
      dsimp only
      refine ⟨?_, by simp [h2], h3, ?_⟩
      · intro t ht
        rcases List.mem_cons.1 ht with rfl | ht
        · exact hx.1
        · exact h1 t ht
      · intro b hb
        have h5 := h4 b hb
        rw [hc.2 b hb] at h5
        simp only [sval]
        rw [hx.2 b hb, pow_succ]
        generalize (bitW (addSlices u (List.zipWith (· &&& ·) s rot) k).2 b).toNat = o at *
        generalize sval (addSlices u (List.zipWith (· &&& ·) s rot) k).1 b = v at *
        have h6 : 2 ^ k * 2 * o = 2 * (2 ^ k * o) := by rw [Nat.mul_comm (2 ^ k) 2, Nat.mul_assoc]
        rw [h6]
        exact add_arith _ _ _ _ _ h5

theorem sval_lt (u : List (List Nat)) (b : Nat) : sval u b < 2 ^ u.length := by
  induction u with
  | nil => simp [sval]
  | cons s u ih =>
    simp only [sval, List.length_cons]
    rw [pow_succ]
    have : (bitW s b).toNat ≤ 1 := Bool.toNat_le _
    omega

/-- Counting without overflow. -/
theorem addSlices_count {n : Nat} (k : Nat) (u : List (List Nat)) (rot : List Nat) (hu : Sl n u)
    (hr : rot.length = n ∧ Wf rot) (hk : k ≤ u.length) (b : Nat) (hb : b < 64 * n)
    (ho : sval u b + (bitW rot b).toNat < 2 ^ k) :
    sval (addSlices u rot k).1 b = sval u b + (bitW rot b).toNat := by
  have h := (addSlices_spec k u rot hu hr hk).2.2.2 b hb
  cases hc : bitW (addSlices u rot k).2 b
  · rw [hc] at h; simpa using h
  · rw [hc] at h
    simp only [Bool.toNat_true, Nat.mul_one] at h
    omega

theorem brw_bits {n : Nat} (m : Nat) (hm : m = 0 ∨ m = 1) {s br : List Nat}
    (hs : s.length = n ∧ Wf s) (hr : br.length = n ∧ Wf br) :
    let b := (W - m) % W
    (((List.zipWith (fun a c => a ^^^ b ^^^ c) s br).length = n ∧
      Wf (List.zipWith (fun a c => a ^^^ b ^^^ c) s br)) ∧
    ∀ i, i < 64 * n → bitW (List.zipWith (fun a c => a ^^^ b ^^^ c) s br) i =
      (bitW s i ^^ decide (m = 1) ^^ bitW br i)) ∧
    (((List.zipWith (fun a c => (not64 a &&& b &&& not64 c) ||| ((not64 a ||| b) &&& c)) s br).length
        = n ∧
      Wf (List.zipWith (fun a c => (not64 a &&& b &&& not64 c) ||| ((not64 a ||| b) &&& c)) s br)) ∧
    ∀ i, i < 64 * n →
      bitW (List.zipWith (fun a c => (not64 a &&& b &&& not64 c) ||| ((not64 a ||| b) &&& c)) s br) i =
      ((!bitW s i && decide (m = 1) && !bitW br i) || ((!bitW s i || decide (m = 1)) && bitW br i))) := by
  intro b
  have hb : b < W := Nat.mod_lt _ (by decide)
  have hbit : ∀ j, j < 64 → b.testBit j = decide (m = 1) := by
    intro j hj
    rcases hm with h | h
    · subst h
      have : b = 0 := by decide
      rw [this]; simp
    · subst h
      have : b = 2 ^ 64 - 1 := by decide
      rw [this, Nat.testBit_two_pow_sub_one]; simp [hj]
  refine ⟨⟨⟨by simp [hs.1, hr.1], ?_⟩, ?_⟩, ⟨⟨by simp [hs.1, hr.1], ?_⟩, ?_⟩⟩
  · intro w hw
    obtain ⟨i, hi, rfl⟩ := List.getElem_of_mem hw
    rw [List.getElem_zipWith]
    exact Nat.xor_lt_two_pow (n := 64)
      (Nat.xor_lt_two_pow (n := 64) (hs.2 _ (List.getElem_mem _)) hb) (hr.2 _ (List.getElem_mem _))
  · intro i hi
    unfold bitW
    rw [getD_zipWith _ (by omega) (by omega), Nat.testBit_xor, Nat.testBit_xor,
      hbit _ (Nat.mod_lt _ (by omega))]
  · intro w hw
    obtain ⟨i, hi, rfl⟩ := List.getElem_of_mem hw
    rw [List.getElem_zipWith]
    refine Nat.or_lt_two_pow (n := 64) ?_ ?_
    · exact Nat.lt_of_le_of_lt Nat.and_le_left (Nat.lt_of_le_of_lt Nat.and_le_right hb)
    · exact Nat.lt_of_le_of_lt Nat.and_le_right (hr.2 _ (List.getElem_mem _))
  · intro i hi
    have hj : i % 64 < 64 := Nat.mod_lt _ (by omega)
    unfold bitW
    rw [getD_zipWith _ (by omega) (by omega), Nat.testBit_or, Nat.testBit_and, Nat.testBit_and,
      Nat.testBit_and, Nat.testBit_or, not64_bit _ _ hj, not64_bit _ _ hj, hbit _ hj]

theorem subSlices_spec {n : Nat} (u : List (List Nat)) (br : List Nat) (val : Nat) (hu : Sl n u)
    (hr : br.length = n ∧ Wf br) :
    Sl n (subSlices u br val) ∧ (subSlices u br val).length = u.length ∧
      ∀ b, b < 64 * n → ∃ o : Nat, o ≤ 1 ∧
        sval (subSlices u br val) b + val % 2 ^ u.length + (bitW br b).toNat =
          sval u b + 2 ^ u.length * o := by
  induction u generalizing br val with
  | nil =>
    unfold subSlices
    refine ⟨hu, rfl, fun b _ => ⟨(bitW br b).toNat, Bool.toNat_le _, ?_⟩⟩
    simp [sval, Nat.mod_one]
  | cons s u ih =>
    have hs := hu s List.mem_cons_self
    have hv1 : val &&& 1 = val % 2 := Nat.and_two_pow_sub_one_eq_mod val 1
    have hm : val &&& 1 = 0 ∨ val &&& 1 = 1 := by omega
    have hb := brw_bits (val &&& 1) hm hs hr
    dsimp only at hb
    obtain ⟨hx, hc⟩ := hb
    obtain ⟨h1, h2, h3⟩ := ih _ (val >>> 1) (fun t ht => hu t (List.mem_cons_of_mem _ ht)) hc.1
    unfold subSlices
    dsimp only
    refine ⟨?_, by rw [List.length_cons, List.length_cons, h2], ?_⟩
    · intro t ht
      rcases List.mem_cons.1 ht with rfl | ht
      · exact hx.1
      · exact h1 t ht
    · intro b hb
      obtain ⟨o, ho, h4⟩ := h3 b hb
      refine ⟨o, ho, ?_⟩
      rw [hc.2 b hb] at h4
      simp only [sval, List.length_cons]
      rw [hx.2 b hb]
      have e1 : val % 2 ^ (u.length + 1) = val % 2 + 2 * ((val >>> 1) % 2 ^ u.length) := by
        rw [Nat.shiftRight_eq_div_pow, pow_one, pow_succ, Nat.mul_comm (2 ^ u.length) 2,
          Nat.mod_mul]
      have e2 : 2 ^ (u.length + 1) * o = 2 * (2 ^ u.length * o) := by
        rw [pow_succ, Nat.mul_comm (2 ^ u.length) 2, Nat.mul_assoc]
      rw [e1, e2]
      rw [hv1] at h4 ⊢
      exact sub_arith _ _ _ _ _ _ _ (by omega) h4

theorem sval_msb (u : List (List Nat)) (hne : u ≠ []) (b : Nat) :
    bitW (u.getD (u.length - 1) []) b = true ↔ 2 ^ (u.length - 1) ≤ sval u b := by
  induction u with
  | nil => exact absurd rfl hne
  | cons s u ih =>
    by_cases hu : u = []
    · subst hu
      show bitW s b = true ↔ 1 ≤ (bitW s b).toNat + 2 * 0
      cases bitW s b <;> simp
    · have hl : 1 ≤ u.length := List.length_pos_iff.2 hu
      have h1 : (s :: u).length - 1 = (u.length - 1) + 1 := by simp; omega
      rw [h1, List.getD_cons_succ, ih hu, pow_succ]
      show _ ↔ _ ≤ (bitW s b).toNat + 2 * sval u b
      have : (bitW s b).toNat ≤ 1 := Bool.toNat_le _
      omega

/-! ## The counters of the decoder -/

theorem log2Msb_lt {v : Nat} (h1 : v < 512) : v < 2 ^ log2Msb v := by
  unfold log2Msb
  split
  · omega
  repeat' split
  all_goals omega

theorem log2Msb_succ : ∀ v, v < 511 → log2Msb v ≤ log2Msb (v + 1) := by decide +kernel

theorem log2Msb_mono {v w : Nat} (h : v ≤ w) (hw : w < 512) : log2Msb v ≤ log2Msb w := by
  induction w with
  | zero => rw [Nat.le_zero.1 h]
  | succ w ih =>
    rcases Nat.lt_or_ge w v with h1 | h1
    · rw [show v = w + 1 by omega]
    · exact Nat.le_trans (ih h1 (by omega)) (log2Msb_succ w (by omega))

theorem sval_zero (k n b : Nat) : sval (List.replicate k (List.replicate n 0)) b = 0 := by
  induction k with
  | zero => rfl
  | succ k ih =>
    rw [List.replicate_succ]
    simp only [sval]
    rw [ih]
    unfold bitW
    rw [getD_replicate]
    simp

/-- Number of unsatisfied parity checks of position `b`, for the syndrome bits `f`. -/
def upc (p : Par) (f : Nat → Bool) (wl : List Nat) (b : Nat) : Nat :=
  (wl.filter fun w => f ((b + w) % p.R)).length

theorem upcOf_spec {p : Par} {h : Nat} (hd : DOk p h) (hD : p.D < 512) {f : Nat → Bool}
    {s : List Nat} (hs : Syn p f s) {wl : List Nat} (hl : wl.length = p.D)
    (hw : ∀ w ∈ wl, w < p.R) :
    Sl p.rq (upcOf p s wl).1 ∧ (upcOf p s wl).1.length = p.slices ∧
      ((upcOf p s wl).2.length = p.rq ∧ Wf (upcOf p s wl).2) ∧
      ∀ b, b < p.R → sval (upcOf p s wl).1 b = upc p f wl b := by
  have key : ∀ n, n ≤ p.D →
      let r := (List.range n).foldl
        (fun u j => addSlices u.1 (rotr p s (wl.getD j 0)) (log2Msb (j + 1)))
        (List.replicate p.slices (List.replicate p.rq 0), List.replicate p.rq 0)
      Sl p.rq r.1 ∧ r.1.length = p.slices ∧ (r.2.length = p.rq ∧ Wf r.2) ∧
        ∀ b, b < p.R → sval r.1 b = upc p f (wl.take n) b := by
    intro n
    induction n with
    | zero =>
      intro _
      refine ⟨?_, by simp, ⟨by simp, Wf_replicate _⟩, ?_⟩
      · intro t ht
        rw [List.eq_of_mem_replicate ht]
        exact ⟨by simp, Wf_replicate _⟩
      · intro b _
        dsimp only [List.range_zero, List.foldl_nil]
        rw [sval_zero]
        simp [upc]
    | succ n ih =>
      intro hn
      obtain ⟨h1, h2, h3, h4⟩ := ih (by omega)
      rw [List.range_succ, List.foldl_append]
      simp only [List.foldl_cons, List.foldl_nil]
      generalize (List.range n).foldl
        (fun u j => addSlices u.1 (rotr p s (wl.getD j 0)) (log2Msb (j + 1)))
        (List.replicate p.slices (List.replicate p.rq 0), List.replicate p.rq 0) = r at *
      have hn' : n < wl.length := by omega
      have hg : wl.getD n 0 = wl[n] := by
        rw [List.getD_eq_getElem?_getD, List.getElem?_eq_getElem hn']; rfl
      have hlt : wl.getD n 0 < p.R := by rw [hg]; exact hw _ (List.getElem_mem _)
      have hrot := rotr_wf hd s hs.wf _ hlt
      have hk : log2Msb (n + 1) ≤ r.1.length := by
        rw [h2]
        unfold Par.slices
        exact Nat.le_succ_of_le (log2Msb_mono hn hD)
      have ha := addSlices_spec (log2Msb (n + 1)) r.1 _ h1 ⟨hrot.2, hrot.1⟩ hk
      refine ⟨ha.1, by rw [ha.2.1, h2], ha.2.2.1, ?_⟩
      intro b hb
      have hb64 : b < 64 * p.rq := by unfold Par.rq; omega
      have hle : upc p f (wl.take n) b ≤ n := by
        unfold upc
        refine Nat.le_trans (List.length_filter_le _ _) ?_
        rw [List.length_take]; omega
      have hone : (bitW (rotr p s (wl.getD n 0)) b).toNat ≤ 1 := Bool.toNat_le _
      have hpow := log2Msb_lt (v := n + 1) (by omega)
      rw [addSlices_count _ r.1 _ h1 ⟨hrot.2, hrot.1⟩ hk b hb64 (by rw [h4 b hb]; omega), h4 b hb,
        syn_rot hd hs _ hlt b hb, List.take_succ_eq_append_getElem hn', hg]
      unfold upc
      rw [List.filter_append, List.length_append]
      congr 1
      cases hf : f ((b + wl[n]) % p.R) <;> simp [hf]
  have h := key p.D le_rfl
  rw [List.take_of_length_le (by omega)] at h
  exact h

end LC.Bike
