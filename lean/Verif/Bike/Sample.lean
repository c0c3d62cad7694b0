import Verif.Bike.Inv
import Verif.Bike.Kem
import Mathlib.Data.List.NodupEquivFin

/-! Sampling: index lists and weights. -/

namespace LC.Bike

theorem l32Mask_eq (v1 v2 : Nat) (h1 : v1 < 2 ^ 32) (h2 : v2 < 2 ^ 32) :
    l32Mask v1 v2 = if v1 < v2 then 0 else 2 ^ 32 - 1 := by
  unfold l32Mask
  have hW : W = 18446744073709551616 := by decide
  rw [hW]
  split <;> omega

theorem cmp_fold (l : Nat) (out : List Nat) (d : Nat) (hd : d = 0 ∨ d = 1) :
    out.foldl (fun d o => d ||| cmp32 l o) d = if d = 1 ∨ l ∈ out then 1 else 0 := by
  induction out generalizing d with
  | nil => rcases hd with rfl | rfl <;> simp
  | cons o out ih =>
    simp only [List.foldl_cons]
    rw [ih _ (by unfold cmp32; rcases hd with rfl | rfl <;> split <;> simp)]
    unfold cmp32
    by_cases h : l = o
    · rcases hd with rfl | rfl <;> simp [h]
    · rcases hd with rfl | rfl <;> simp [h]

theorem fyPick_eq (max i rand : Nat) (out : List Nat) (hi : i < max) (hm : max < 2 ^ 32)
    (hr : rand < 2 ^ 32) :
    i ≤ i + rand * (max - i) / 2 ^ 32 ∧ i + rand * (max - i) / 2 ^ 32 < max ∧
      fyPick max i rand out =
        if i + rand * (max - i) / 2 ^ 32 ∈ out then i else i + rand * (max - i) / 2 ^ 32 := by
  have hlt : rand * (max - i) / 2 ^ 32 < max - i := by
    rw [Nat.div_lt_iff_lt_mul (by decide), Nat.mul_comm (max - i)]
    exact Nat.mul_lt_mul_of_pos_right hr (by omega)
  refine ⟨by omega, by omega, ?_⟩
  unfold fyPick
  dsimp only
  rw [Nat.shiftRight_eq_div_pow, Nat.mod_eq_of_lt (show i + rand * (max - i) / 2 ^ 32 < 2 ^ 32 by
    omega)]
  generalize hl : i + rand * (max - i) / 2 ^ 32 = l at *
  have hl32 : l < 2 ^ 32 := by omega
  rw [cmp_fold l out 0 (Or.inl rfl)]
  by_cases h : l ∈ out
  · rw [if_pos (Or.inr h), if_pos h, show (2 ^ 32 - 1) % 2 ^ 32 = 2 ^ 32 - 1 by decide,
      Nat.xor_self, Nat.zero_and, Nat.xor_zero, Nat.and_comm, Nat.and_two_pow_sub_one_eq_mod,
      Nat.mod_eq_of_lt (by omega)]
  · rw [if_neg (by simp [h]), if_neg h, show (2 ^ 32 - 0) % 2 ^ 32 = 0 by decide, Nat.zero_and,
      Nat.zero_xor, Nat.zero_xor, Nat.and_comm, Nat.and_two_pow_sub_one_eq_mod,
      Nat.mod_eq_of_lt hl32]

theorem fisherYates_inv (max n : Nat) (rnd : Nat → Nat) (pos : Nat) (hn : n ≤ max)
    (hm : max < 2 ^ 32) (hr : ∀ i, rnd i < 2 ^ 32) (t : Nat) (ht : t ≤ n) :
    let out := (List.range t).foldl
      (fun out t => fyPick max (n - 1 - t) (rnd (pos + t)) out :: out) []
    out.length = t ∧ out.Nodup ∧ ∀ x ∈ out, n - t ≤ x ∧ x < max := by
  induction t with
  | zero => simp
  | succ t ih =>
    obtain ⟨h1, h2, h3⟩ := ih (by omega)
    rw [List.range_succ, List.foldl_append]
    simp only [List.foldl_cons, List.foldl_nil]
    generalize (List.range t).foldl
      (fun out t => fyPick max (n - 1 - t) (rnd (pos + t)) out :: out) [] = out at *
    obtain ⟨h4, h5, h6⟩ := fyPick_eq max (n - 1 - t) (rnd (pos + t)) out (by omega) hm (hr _)
    rw [h6]
    refine ⟨by simp [h1], ?_, ?_⟩
    · rw [List.nodup_cons]
      refine ⟨?_, h2⟩
      split
      · intro h
        have := (h3 _ h).1
        omega
      · assumption
    · intro x hx
      rcases List.mem_cons.1 hx with rfl | hx
      · split <;> omega
      · have := h3 x hx
        omega

theorem fisherYates_spec (max n : Nat) (rnd : Nat → Nat) (pos : Nat) (hn : n ≤ max)
    (hm : max < 2 ^ 32) (hr : ∀ i, rnd i < 2 ^ 32) :
    (fisherYates max n rnd pos).length = n ∧ (fisherYates max n rnd pos).Nodup ∧
      ∀ x ∈ fisherYates max n rnd pos, x < max := by
  have h := fisherYates_inv max n rnd pos hn hm hr n le_rfl
  exact ⟨h.1, h.2.1, fun x hx => (h.2.2 x hx).2⟩

/-! ## Setting bits -/

theorem setBits_word (first i m : Nat) (wl : List Nat) (x : Nat) (hm : m < 64) :
    (wl.foldl (fun val w =>
      let w' := (w + 2 ^ 32 - first) % 2 ^ 32
      let mask := ((W - 1) + (1 - cmp32 (w' >>> 6) i)) % W
      val ||| ((1 <<< (w' &&& 63)) &&& mask)) x).testBit m =
      (x.testBit m || wl.any fun w => decide ((w + 2 ^ 32 - first) % 2 ^ 32 = 64 * i + m)) := by
  dsimp only
  rw [foldl_or_testBit' (f := fun w =>
    (1 <<< (((w + 2 ^ 32 - first) % 2 ^ 32) &&& 63)) &&&
      (((W - 1) + (1 - cmp32 (((w + 2 ^ 32 - first) % 2 ^ 32) >>> 6) i)) % W))]
  congr 2
  funext w
  generalize (w + 2 ^ 32 - first) % 2 ^ 32 = v
  have h63 : v &&& 63 = v % 64 := Nat.and_two_pow_sub_one_eq_mod v 6
  rw [h63, Nat.shiftRight_eq_div_pow, Nat.testBit_and, Nat.one_shiftLeft, Nat.testBit_two_pow]
  unfold cmp32
  by_cases h : v / 2 ^ 6 = i
  · rw [if_pos h, show ((W - 1) + (1 - 1)) % W = 2 ^ 64 - 1 by decide, Nat.testBit_two_pow_sub_one]
    have hi : v / 64 = i := h
    by_cases h2 : v % 64 = m
    · simp [h2, hm]; omega
    · simp [h2]; omega
  · have hi : ¬ v / 64 = i := h
    rw [if_neg h, show ((W - 1) + (1 - 0)) % W = 0 by decide]
    simp; omega

theorem setBits_lt (first i : Nat) (wl : List Nat) (x : Nat) (hx : x < W) :
    (wl.foldl (fun val w =>
      let w' := (w + 2 ^ 32 - first) % 2 ^ 32
      let mask := ((W - 1) + (1 - cmp32 (w' >>> 6) i)) % W
      val ||| ((1 <<< (w' &&& 63)) &&& mask)) x) < W := by
  dsimp only
  induction wl generalizing x with
  | nil => exact hx
  | cons w wl ih =>
    simp only [List.foldl_cons]
    apply ih
    refine Nat.or_lt_two_pow (n := 64) hx ?_
    exact Nat.lt_of_le_of_lt Nat.and_le_right (Nat.mod_lt _ (by decide))

theorem setBits_wf (p : Par) (first : Nat) (wl : List Nat) : Wf (setBits p first wl) := by
  intro w hw
  obtain ⟨i, _, rfl⟩ := List.mem_map.1 hw
  exact setBits_lt first i wl 0 (by decide)

theorem setBits_length (p : Par) (first : Nat) (wl : List Nat) :
    (setBits p first wl).length = p.pq := by
  simp [setBits]

theorem setBits_bit (p : Par) (first : Nat) (wl : List Nat) (b : Nat) :
    bitW (setBits p first wl) b =
      (decide (b < 64 * p.pq) && wl.any fun w => decide ((w + 2 ^ 32 - first) % 2 ^ 32 = b)) := by
  by_cases hb : b < 64 * p.pq
  · unfold bitW setBits
    rw [getD_map_range _ _ _ (by omega), setBits_word _ _ _ _ _ (Nat.mod_lt _ (by omega)),
      Nat.zero_testBit, Bool.false_or, show 64 * (b / 64) + b % 64 = b by omega]
    simp [hb]
  · rw [bitW_ge _ (by rw [setBits_length]; omega)]
    simp [hb]

theorem any_eq_mem (wl : List Nat) (b : Nat) :
    (wl.any fun w => decide (w = b)) = decide (b ∈ wl) := by
  rw [Bool.eq_iff_iff]
  simp

theorem any_congr' {wl : List Nat} {f g : Nat → Bool} (h : ∀ w ∈ wl, f w = g w) :
    wl.any f = wl.any g := by
  induction wl with
  | nil => rfl
  | cons w wl ih =>
    simp only [List.any_cons]
    rw [h w List.mem_cons_self, ih (fun v hv => h v (List.mem_cons_of_mem _ hv))]

/-- `setBits` with `first_pos` 0 sets exactly the listed bits. -/
theorem setBits_zero {p : Par} (wl : List Nat) (hR : p.R ≤ 64 * p.pq) (h : ∀ w ∈ wl, w < p.R)
    (h32 : p.R < 2 ^ 32) (b : Nat) : bitW (setBits p 0 wl) b = decide (b ∈ wl) := by
  rw [setBits_bit, any_congr' (g := fun w => decide (w = b)) (fun w hw => (by
    have := h w hw
    rw [show (w + 2 ^ 32 - 0) % 2 ^ 32 = w by omega])), any_eq_mem]
  by_cases hb : b ∈ wl
  · have := h b hb
    simp [hb]; omega
  · simp [hb]

theorem weight_mem (n : Nat) (a wl : List Nat) (f : Nat → Nat) (hf : Function.Injective f)
    (h : ∀ i, i < n → bitW a i = decide (f i ∈ wl)) (hnd : wl.Nodup) :
    weight n a = (wl.filter fun w => decide (∃ i, i < n ∧ f i = w)).length := by
  unfold weight
  have h1 : ((List.range n).filter (bitW a)).length =
      (((List.range n).filter (bitW a)).map f).length := by rw [List.length_map]
  rw [h1]
  apply List.Perm.length_eq
  rw [List.perm_ext_iff_of_nodup]
  · intro x
    simp only [List.mem_map, List.mem_filter, List.mem_range, decide_eq_true_eq]
    constructor
    · rintro ⟨i, ⟨hi, hb⟩, rfl⟩
      rw [h i hi] at hb
      exact ⟨by simpa using hb, i, hi, rfl⟩
    · rintro ⟨hx, i, hi, rfl⟩
      exact ⟨i, ⟨hi, by rw [h i hi]; simpa using hx⟩, rfl⟩
  · exact (List.nodup_range.filter _).map hf
  · exact hnd.filter _

/-! ## Bytes of an element -/

theorem cleanR_bit {p : Par} (hp : POk p) {ws : List Nat} (h : Wf ws) (i : Nat) :
    bitB (cleanR p ws) i = (decide (i < p.R) && bitW ws i) := by
  have ho := hp.oct
  have hrb : p.rb = p.R / 8 + 1 := by unfold Par.rb; omega
  have hlen : (bytesOf p.rb ws).length = p.rb := by simp [bytesOf]
  unfold cleanR bitB
  dsimp only
  by_cases h1 : i / 8 < p.rb - 1
  · rw [getD_append_left (by rw [List.length_take, hlen]; omega), List.getD_eq_getElem?_getD,
      List.getElem?_take, if_pos h1, ← List.getD_eq_getElem?_getD, testBit_bitB (bytesOf_bf _ _),
      bytesOf_bit h, show 8 * (i / 8) + i % 8 = i by omega]
    rw [show decide (i % 8 < 8) = true by simp; omega,
      show decide (i < 8 * p.rb) = true by simp; omega, show decide (i < p.R) = true by simp; omega]
    simp
  · by_cases h2 : i / 8 = p.rb - 1
    · rw [getD_append_right (by rw [List.length_take, hlen]; omega), List.length_take, hlen,
        show i / 8 - min (p.rb - 1) p.rb = 0 by omega, List.getD_cons_zero, Nat.testBit_and,
        Nat.testBit_two_pow_sub_one, ← h2, testBit_bitB (bytesOf_bf _ _), bytesOf_bit h,
        show 8 * (i / 8) + i % 8 = i by omega, show decide (i % 8 < 8) = true by simp; omega,
        show decide (i < 8 * p.rb) = true by simp; omega]
      by_cases h3 : i < p.R
      · rw [show decide (i % 8 < p.R % 8) = true by simp; omega]; simp [h3]
      · rw [show decide (i % 8 < p.R % 8) = false by simp; omega]; simp [h3]
    · rw [List.getD_eq_getElem?_getD, List.getElem?_eq_none (by simp [hlen]; omega)]
      simp; omega

/-- An `r_t` whose padding bits are clear. -/
structure Rt (p : Par) (bs : List Nat) : Prop where
  len : bs.length = p.rb
  bf : Bf bs
  hi : ∀ i, p.R ≤ i → bitB bs i = false

theorem cleanR_rt {p : Par} (hp : POk p) {ws : List Nat} (h : Wf ws) : Rt p (cleanR p ws) := by
  have hge := hp.ge
  have hrb : 1 ≤ p.rb := by unfold Par.rb; omega
  refine ⟨?_, ?_, fun i hi => ?_⟩
  · simp [cleanR, bytesOf]; omega
  · intro b hb
    unfold cleanR at hb
    rcases List.mem_append.1 hb with hb | hb
    · exact bytesOf_bf _ _ b (List.mem_of_mem_take hb)
    · rw [List.mem_singleton.1 hb]
      exact Nat.lt_of_le_of_lt Nat.and_le_left (Bf_getD (bytesOf_bf _ _) _)
  · rw [cleanR_bit hp h, show decide (i < p.R) = false by simp; omega, Bool.false_and]

theorem rt_pad {p : Par} (hp : POk p) {bs : List Nat} (h : Rt p bs) :
    Pad p (wordsOf p.pq bs) ∧ ∀ i, bitW (wordsOf p.pq bs) i = bitB bs i := by
  have hfit := hp.fit
  have hrq : p.R ≤ 64 * p.rq := by unfold Par.rq; omega
  have hb : ∀ i, bitW (wordsOf p.pq bs) i = bitB bs i := by
    intro i
    rw [wordsOf_bit h.bf]
    by_cases hi : i < 64 * p.pq
    · simp [hi]
    · rw [h.hi i (by omega)]; simp
  exact ⟨⟨wordsOf_length _ _, wordsOf_wf h.bf _, fun i hi => (by rw [hb, h.hi i hi])⟩, hb⟩

theorem pad_rt {p : Par} (hp : POk p) {a : List Nat} (h : Pad p a) :
    Rt p (bytesOf p.rb a) ∧ ∀ i, bitB (bytesOf p.rb a) i = bitW a i := by
  have hb : ∀ i, bitB (bytesOf p.rb a) i = bitW a i := by
    intro i
    rw [bytesOf_bit h.wf]
    by_cases hi : i < 8 * p.rb
    · simp [hi]
    · rw [h.hi i (by unfold Par.rb at hi; omega)]; simp
  exact ⟨⟨by simp [bytesOf], bytesOf_bf _ _, fun i hi => (by rw [hb, h.hi i hi])⟩, hb⟩

theorem wordsOf_bytesOf {p : Par} (hp : POk p) {a : List Nat} (h : Pad p a) :
    wordsOf p.pq (bytesOf p.rb a) = a := by
  have h1 := pad_rt hp h
  have h2 := rt_pad hp h1.1
  refine words_ext h2.1.wf h.wf (by rw [h2.1.len, h.len]) ?_
  intro i
  rw [h2.2, h1.2]

theorem rt_ext {p : Par} {a b : List Nat} (ha : Rt p a) (hb : Rt p b)
    (h : ∀ i, i < p.R → bitB a i = bitB b i) : a = b := by
  apply List.ext_getElem (by rw [ha.len, hb.len])
  intro n h1 h2
  have hall : ∀ i, bitB a i = bitB b i := by
    intro i
    by_cases hi : i < p.R
    · exact h i hi
    · rw [ha.hi i (by omega), hb.hi i (by omega)]
  have e1 : a[n] = a.getD n 0 := by rw [List.getD_eq_getElem?_getD, List.getElem?_eq_getElem h1]; rfl
  have e2 : b[n] = b.getD n 0 := by rw [List.getD_eq_getElem?_getD, List.getElem?_eq_getElem h2]; rfl
  rw [e1, e2]
  apply Nat.eq_of_testBit_eq
  intro j
  rw [testBit_bitB ha.bf, testBit_bitB hb.bf, hall]

end LC.Bike
