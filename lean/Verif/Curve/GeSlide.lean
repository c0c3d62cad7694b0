import Verif.Curve.GeSmall
/-!
# Ed25519: the signed digits of `slide_vartime`
-/
namespace LC.Curve

/-- Value of binary digits, least significant first. -/
def evI : List Int → Int
  | [] => 0
  | d :: l => d + 2 * evI l

theorem evI_append (a b : List Int) : evI (a ++ b) = evI a + 2 ^ a.length * evI b := by
  induction a with
  | nil => simp [evI]
  | cons d a ih => rw [List.cons_append, evI, evI, ih, List.length_cons, pow_succ]; ring

theorem evI_zeros (n : Nat) : evI (List.replicate n 0) = 0 := by
  induction n with
  | zero => rfl
  | succ n ih => rw [List.replicate_succ, evI, ih]; rfl

def IsBits (l : List Int) : Prop := ∀ d ∈ l, d = 0 ∨ d = 1

theorem IsBits.cons {d : Int} {l : List Int} : IsBits (d :: l) ↔ (d = 0 ∨ d = 1) ∧ IsBits l := List.forall_mem_cons

theorem evI_nonneg {l : List Int} (h : IsBits l) : 0 ≤ evI l := by
  induction l with
  | nil => simp [evI]
  | cons d l ih =>
    have := ih (IsBits.cons.mp h).2
    have := (IsBits.cons.mp h).1
    rw [evI]; omega

/-- Adding 1 to binary digits. -/
def inc : List Int → List Int
  | [] => []
  | d :: l => if d = 0 then 1 :: l else 0 :: inc l

theorem inc_length (l : List Int) : (inc l).length = l.length := by
  induction l with
  | nil => rfl
  | cons d l ih => rw [inc]; split <;> simp [ih]

theorem inc_bits {l : List Int} (h : IsBits l) : IsBits (inc l) := by
  induction l with
  | nil => exact h
  | cons d l ih =>
    rw [inc]
    split
    · exact IsBits.cons.mpr ⟨Or.inr rfl, (IsBits.cons.mp h).2⟩
    · exact IsBits.cons.mpr ⟨Or.inl rfl, ih (IsBits.cons.mp h).2⟩

theorem inc_val {l : List Int} (h : IsBits l) (hlt : evI l + 1 < 2 ^ l.length) : evI (inc l) = evI l + 1 := by
  induction l with
  | nil => simp [evI] at hlt
  | cons d l ih =>
    rw [inc]
    rw [evI, List.length_cons, pow_succ] at hlt
    have := (IsBits.cons.mp h).1
    split
    · next h0 => rw [h0, evI, evI]; omega
    · next h0 =>
      have h1 : d = 1 := this.resolve_left h0
      rw [evI, evI, ih (IsBits.cons.mp h).2 (by rw [h1] at hlt; omega), h1]; ring

theorem getD_at (pre t : List Int) (d x : Int) : (pre ++ d :: t).getD pre.length x = d := by
  rw [List.getD_eq_getElem?_getD, List.getElem?_append_right (Nat.le_refl _), Nat.sub_self]; rfl

theorem set_at (pre t : List Int) (d x : Int) : (pre ++ d :: t).set pre.length x = pre ++ x :: t := by
  rw [List.set_append_right _ _ (Nat.le_refl _), Nat.sub_self]; rfl

theorem slideCarry_eq (l : List Int) : ∀ pre, slideCarry l.length pre.length (pre ++ l) = pre ++ inc l := by
  induction l with
  | nil => intro pre; rfl
  | cons d l ih =>
    intro pre
    rw [List.length_cons, slideCarry, getD_at, set_at, set_at, inc]
    by_cases h : d = 0
    · rw [if_pos h, if_pos h]
    · rw [if_neg h, if_neg h]
      have := ih (pre ++ [0])
      rw [List.length_append, List.append_assoc, List.append_assoc] at this
      exact this

/-- What the digits must satisfy. -/
def Dig (d : Int) : Prop := d = 0 ∨ (d % 2 = 1 ∧ -15 ≤ d ∧ d ≤ 15)

theorem slideInner_spec (pre : List Int) : ∀ (n b : Nat) (c : Int) (bits : List Int), n + b = 7 → 1 ≤ b → IsBits bits → pre.length + b + bits.length = 256 →
    c % 2 = 1 → -15 ≤ c → c ≤ 15 → 2 ^ (pre.length + b) * evI bits ≤ 2 ^ 253 → (c + 2 ^ b * evI bits) * 2 ^ pre.length ≤ 2 ^ 253 →
    ∃ c' tail, slideInner pre.length n b (pre ++ c :: (List.replicate (b - 1) 0 ++ bits)) = pre ++ c' :: tail ∧
      c' % 2 = 1 ∧ -15 ≤ c' ∧ c' ≤ 15 ∧ IsBits tail ∧ tail.length + 1 + pre.length = 256 ∧
      c' + 2 * evI tail = c + 2 ^ b * evI bits ∧ 2 ^ (pre.length + 1) * evI tail ≤ 2 ^ 253 := by
  have stop : ∀ (b : Nat) (c : Int) (bits : List Int), 1 ≤ b → IsBits bits → pre.length + b + bits.length = 256 →
      c % 2 = 1 → -15 ≤ c → c ≤ 15 → 2 ^ (pre.length + b) * evI bits ≤ 2 ^ 253 → 
      ∃ c' tail, pre ++ c :: (List.replicate (b - 1) 0 ++ bits) = pre ++ c' :: tail ∧
      c' % 2 = 1 ∧ -15 ≤ c' ∧ c' ≤ 15 ∧ IsBits tail ∧ tail.length + 1 + pre.length = 256 ∧
      c' + 2 * evI tail = c + 2 ^ b * evI bits ∧ 2 ^ (pre.length + 1) * evI tail ≤ 2 ^ 253 := by
    intro b c bits hb hbits hlen h1 h2 h3 h4
    obtain ⟨b, rfl⟩ : ∃ b', b = b' + 1 := ⟨b - 1, by omega⟩
    rw [Nat.add_sub_cancel]
    have e : evI (List.replicate b 0 ++ bits) = 2 ^ b * evI bits := by
      rw [evI_append, evI_zeros, List.length_replicate, zero_add]
    refine ⟨c, _, rfl, h1, h2, h3, ?_, ?_, ?_, ?_⟩
    · intro d hd
      rcases List.mem_append.mp hd with hd | hd
      · exact Or.inl (List.eq_of_mem_replicate hd)
      · exact hbits d hd
    · rw [List.length_append, List.length_replicate]; omega
    · rw [e, pow_succ]; ring
    · rw [e]
      refine le_trans (le_of_eq ?_) h4
      rw [pow_add, pow_add, pow_add]; ring
  intro n
  induction n with
  | zero =>
    intro b c bits _ hb hbits hlen h1 h2 h3 h4 h5
    exact stop b c bits hb hbits hlen h1 h2 h3 h4
  | succ n ih =>
    intro b c bits hn hb hbits hlen h1 h2 h3 h4 h5
    rw [slideInner]
    by_cases hr : pre.length + b < 256
    · rw [if_pos hr]
      match bits, hbits, hlen with
      | [], _, hlen => simp at hlen; omega
      | d :: t, hbits, hlen =>
        obtain ⟨hd, ht⟩ := IsBits.cons.mp hbits
        rw [List.length_cons] at hlen
        have hz : pre ++ c :: (List.replicate (b - 1) 0 ++ d :: t) = (pre ++ c :: List.replicate (b - 1) 0) ++ d :: t := by
          rw [List.append_assoc, List.cons_append]
        have hzl : ∀ c, (pre ++ c :: List.replicate (b - 1) (0 : Int)).length = pre.length + b := by
          intro c; rw [List.length_append, List.length_cons, List.length_replicate]; omega
        have hg : (pre ++ c :: (List.replicate (b - 1) 0 ++ d :: t)).getD (pre.length + b) 0 = d := by
          rw [hz, ← hzl c, getD_at]
        have hs : ∀ c, (pre ++ c :: (List.replicate (b - 1) 0 ++ d :: t)).set (pre.length + b) 0 =
            pre ++ c :: (List.replicate (b + 1 - 1) 0 ++ t) := by
          intro c
          have hz : pre ++ c :: (List.replicate (b - 1) 0 ++ d :: t) = (pre ++ c :: List.replicate (b - 1) 0) ++ d :: t := by
            rw [List.append_assoc, List.cons_append]
          rw [hz, ← hzl c, set_at, List.append_assoc, List.cons_append]
          congr 2
          rw [Nat.add_sub_cancel]
          conv_rhs => rw [show b = b - 1 + 1 by omega, List.replicate_succ']
          rw [List.append_assoc]; rfl
        rw [hg]
        rw [evI] at h4 h5 ⊢
        have hp : (0 : Int) < 2 ^ pre.length := by positivity
        have hpb : (2 : Int) ^ (pre.length + b) = 2 ^ pre.length * 2 ^ b := pow_add _ _ _
        have hM := evI_nonneg ht
        by_cases h0 : d = 0
        · rw [if_pos h0]
          subst h0
          have := ih (b + 1) c t (by omega) (by omega) ht (by omega) h1 h2 h3
            (by rw [← add_assoc, pow_succ]; linarith [h4]) (by rw [pow_succ]; linarith [h5])
          have e : pre ++ c :: (List.replicate (b - 1) 0 ++ 0 :: t) = pre ++ c :: (List.replicate (b + 1 - 1) 0 ++ t) := by
            rw [← hs c, hz, ← hzl c, set_at]
          rw [e]
          obtain ⟨c', tail, r1, r2, r3, r4, r5, r6, r7, r8⟩ := this
          refine ⟨c', tail, r1, r2, r3, r4, r5, r6, ?_, r8⟩
          rw [r7, pow_succ]; ring
        · rw [if_neg h0]
          have hd1 : d = 1 := hd.resolve_left h0
          subst hd1
          dsimp only
          rw [getD_at, set_at, set_at, one_mul]
          have h2b : (2 : Int) ^ b % 2 = 0 := by
            obtain ⟨b, rfl⟩ : ∃ b', b = b' + 1 := ⟨b - 1, by omega⟩
            rw [pow_succ]; omega
          have h2p : (2 : Int) ^ b ≥ 2 := by
            obtain ⟨b, rfl⟩ : ∃ b', b = b' + 1 := ⟨b - 1, by omega⟩
            have : (0 : Int) < 2 ^ b := by positivity
            rw [pow_succ]; omega
          by_cases hc : c + 2 ^ b ≤ 15
          · rw [if_pos hc, s8_id _ ⟨by omega, by omega⟩, hs]
            have := ih (b + 1) (c + 2 ^ b) t (by omega) (by omega) ht (by omega) (by omega) (by omega) hc
              (by rw [← add_assoc, pow_succ]; nlinarith [h4]) (by rw [pow_succ]; linarith [h5])
            obtain ⟨c', tail, r1, r2, r3, r4, r5, r6, r7, r8⟩ := this
            refine ⟨c', tail, r1, r2, r3, r4, r5, r6, ?_, r8⟩
            rw [r7, pow_succ]; ring
          · rw [if_neg hc]
            by_cases hm : c - 2 ^ b < -15
            · rw [if_pos hm]
              have := stop b c (1 :: t) hb hbits (by rw [List.length_cons]; exact hlen) h1 h2 h3 (by rw [evI]; exact h4)
              rw [evI] at this
              exact this
            · rw [if_neg hm, s8_id _ ⟨by omega, by omega⟩]
              -- the carry
              have hb4 : b ≤ 4 := by
                by_contra hb'
                have : (2 : Int) ^ b ≥ 32 := by
                  have : (2 : Int) ^ 5 ≤ 2 ^ b := pow_le_pow_right₀ (by norm_num) (by omega)
                  linarith
                omega
              have hc1 : 1 ≤ c := by
                have : (2 : Int) ^ b ≤ 16 := by
                  have : (2 : Int) ^ b ≤ 2 ^ 4 := pow_le_pow_right₀ (by norm_num) hb4
                  linarith
                omega
              have hib : pre.length + b < 253 := by
                by_contra hge
                have e253 : (2 : Int) ^ 253 ≤ 2 ^ (pre.length + b) := pow_le_pow_right₀ (by norm_num) (by omega)
                rw [hpb] at e253
                have : (c + 2 ^ b * (1 + 2 * evI t)) * 2 ^ pre.length ≥ (1 + 2 ^ b) * 2 ^ pre.length := by
                  apply mul_le_mul_of_nonneg_right _ hp.le
                  nlinarith
                nlinarith
              obtain ⟨k, hk⟩ : ∃ k, pre.length + b + (k + 1) = 253 := ⟨252 - (pre.length + b), by omega⟩
              have hMk : 1 + 2 * evI t < 2 ^ (k + 1) := by
                have hq : (2 : Int) ^ 253 = 2 ^ (pre.length + b) * 2 ^ (k + 1) := by rw [← pow_add, hk]
                rw [hq] at h4
                have := le_of_mul_le_mul_left h4 (by positivity)
                rw [pow_succ] at this ⊢
                omega
              have hcar : slideCarry (256 - (pre.length + b)) (pre.length + b) (pre ++ (c - 2 ^ b) :: (List.replicate (b - 1) 0 ++ 1 :: t)) =
                  pre ++ (c - 2 ^ b) :: (List.replicate (b + 1 - 1) 0 ++ inc t) := by
                have := slideCarry_eq (1 :: t) (pre ++ (c - 2 ^ b) :: List.replicate (b - 1) 0)
                rw [hzl, List.length_cons, show t.length + 1 = 256 - (pre.length + b) by omega, List.append_assoc, List.cons_append] at this
                rw [this, inc, if_neg (by decide), List.append_assoc, List.cons_append]
                congr 2
                rw [Nat.add_sub_cancel]
                conv_rhs => rw [show b = b - 1 + 1 by omega, List.replicate_succ']
                rw [List.append_assoc]; rfl
              rw [hcar]
              have hinc : evI (inc t) = evI t + 1 := by
                apply inc_val ht
                have : (2 : Int) ^ (k + 1) ≤ 2 ^ t.length := pow_le_pow_right₀ (by norm_num) (by omega)
                have h0k : (0 : Int) < 2 ^ k := by positivity
                rw [pow_succ] at this hMk
                omega
              have hq : (2 : Int) ^ 253 = 2 ^ (pre.length + b) * 2 ^ (k + 1) := by rw [← pow_add, hk]
              have := ih (b + 1) (c - 2 ^ b) (inc t) (by omega) (by omega) (inc_bits ht) (by rw [inc_length]; omega) (by omega) (by omega) (by omega)
                (by
                  rw [hinc, ← add_assoc, pow_succ, hq, mul_assoc]
                  apply mul_le_mul_of_nonneg_left _ (by positivity)
                  rw [pow_succ] at hMk ⊢
                  omega)
                (by rw [hinc, pow_succ]; linarith [h5])
              obtain ⟨c', tail, r1, r2, r3, r4, r5, r6, r7, r8⟩ := this
              refine ⟨c', tail, r1, r2, r3, r4, r5, r6, ?_, r8⟩
              rw [r7, hinc, pow_succ]; ring
    · rw [if_neg hr]
      exact stop b c bits hb hbits hlen h1 h2 h3 h4

theorem slideLoop_spec : ∀ (n : Nat) (pre bits : List Int), bits.length = n → pre.length + n = 256 → IsBits bits →
    (∀ d ∈ pre, Dig d) → 2 ^ pre.length * evI bits ≤ 2 ^ 253 →
    (slideLoop n pre.length (pre ++ bits)).length = 256 ∧ (∀ d ∈ slideLoop n pre.length (pre ++ bits), Dig d) ∧
      evI (slideLoop n pre.length (pre ++ bits)) = evI (pre ++ bits) := by
  intro n
  induction n with
  | zero =>
    intro pre bits hl hp hb hd _
    rw [List.length_eq_zero_iff.mp hl, List.append_nil, slideLoop]
    exact ⟨by omega, hd, rfl⟩
  | succ n ih =>
    intro pre bits hl hp hb hd hv
    match bits, hl, hb, hv with
    | d :: t, hl, hb, hv =>
      obtain ⟨hd01, ht⟩ := IsBits.cons.mp hb
      rw [slideLoop, getD_at]
      have htl : t.length = n := by simpa using hl
      have hp0 : (0 : Int) < 2 ^ pre.length := by positivity
      rw [evI] at hv
      by_cases h0 : d = 0
      · rw [if_pos h0]
        subst h0
        have := ih (pre ++ [0]) t htl (by rw [List.length_append, List.length_singleton]; omega) ht
          (by
            intro d h
            rcases List.mem_append.mp h with h | h
            · exact hd d h
            · rw [List.mem_singleton.mp h]; exact Or.inl rfl)
          (by rw [List.length_append, List.length_singleton, pow_succ]; linarith)
        rw [List.length_append, List.append_assoc] at this
        exact this
      · rw [if_neg h0]
        have hd1 := hd01.resolve_left h0
        subst hd1
        have := slideInner_spec pre 6 1 1 t rfl (by decide) ht (by omega) (by decide) (by decide) (by decide)
          (by rw [pow_succ]; nlinarith) (by rw [pow_one]; linarith)
        obtain ⟨c', tail, r1, r2, r3, r4, r5, r6, r7, r8⟩ := this
        rw [Nat.sub_self, List.replicate_zero, List.nil_append] at r1
        rw [r1]
        have := ih (pre ++ [c']) tail (by omega) (by rw [List.length_append, List.length_singleton]; omega) r5
          (by
            intro d h
            rcases List.mem_append.mp h with h | h
            · exact hd d h
            · rw [List.mem_singleton.mp h]; exact Or.inr ⟨r2, r3, r4⟩)
          (by rw [List.length_append, List.length_singleton]; exact r8)
        rw [List.length_append, List.append_assoc] at this
        refine ⟨this.1, this.2.1, this.2.2.trans ?_⟩
        rw [List.singleton_append, evI_append, evI_append, evI, evI, r7, pow_one]

theorem bits8 (b : Byte) : evI ((List.range 8).map fun i => ((1 &&& (b.toNat >>> (i &&& 7)) : Nat) : Int)) = b.toNat := by
  revert b; apply byte_forall; decide +kernel

theorem bits_eval : ∀ a : List Byte,
    evI ((List.range (8 * a.length)).map fun i => ((1 &&& ((a.getD (i >>> 3) 0).toNat >>> (i &&& 7)) : Nat) : Int)) = leNum a := by
  intro a
  induction a with
  | nil => rfl
  | cons b a ih =>
    rw [List.length_cons, Nat.mul_succ, Nat.add_comm, List.range_add, List.map_append, evI_append, List.map_map]
    have e1 : (List.range 8).map (fun i => ((1 &&& (((b :: a).getD (i >>> 3) 0).toNat >>> (i &&& 7)) : Nat) : Int)) =
        (List.range 8).map fun i => ((1 &&& (b.toNat >>> (i &&& 7)) : Nat) : Int) := by
      apply List.map_congr_left
      intro i hi
      have : i < 8 := List.mem_range.mp hi
      rw [show i >>> 3 = 0 by rw [Nat.shiftRight_eq_div_pow]; omega]; rfl
    have e2 : (List.range (8 * a.length)).map ((fun i => ((1 &&& (((b :: a).getD (i >>> 3) 0).toNat >>> (i &&& 7)) : Nat) : Int)) ∘ fun x => 8 + x) =
        (List.range (8 * a.length)).map fun i => ((1 &&& ((a.getD (i >>> 3) 0).toNat >>> (i &&& 7)) : Nat) : Int) := by
      apply List.map_congr_left
      intro i _
      have e3 : (8 + i) >>> 3 = i >>> 3 + 1 := by simp only [Nat.shiftRight_eq_div_pow]; omega
      have e4 : (8 + i) &&& 7 = i &&& 7 := by
        have h (x : Nat) : x &&& 7 = x % 8 := Nat.and_two_pow_sub_one_eq_mod x 3
        rw [h, h]; omega
      rw [Function.comp, e3, e4]; rfl
    rw [e1, e2, ih, bits8, List.length_map, List.length_range, leNum]
    push_cast; ring

/-- **The digits of `slide_vartime`** represent the scalar and are 0 or odd and at most 15 in absolute
value, for a scalar up to `2^253`. -/
theorem slide_spec (a : List Byte) (ha : a.length = 32) (hv : leNum a ≤ 2 ^ 253) :
    (slide a).length = 256 ∧ (∀ d ∈ slide a, Dig d) ∧ evI (slide a) = leNum a := by
  have e := bits_eval a
  rw [ha] at e
  have hb : IsBits (slideBits a) := by
    intro d hd
    obtain ⟨i, -, rfl⟩ := List.mem_map.mp hd
    rw [Nat.and_comm, Nat.and_one_is_mod]
    omega
  have := slideLoop_spec 256 [] (slideBits a) (by simp [slideBits]) rfl hb (by simp) (by
    rw [List.length_nil, pow_zero, one_mul]
    unfold slideBits
    rw [e]; exact_mod_cast hv)
  refine ⟨this.1, this.2.1, this.2.2.trans ?_⟩
  exact e

/-! `_ge25519_double_scalarmult_vartime` -/

theorem oddMultiples_rep {A2 : P3} {Q : Pt} (h2 : R3 A2 (2 • Q)) : ∀ (n : Nat) (c : Cached) (m : Nat), RC c (m • Q) → ∀ j, j < n →
    RC ((oddMultiples A2 n c).getD j cachedZero) ((m + 2 * (j + 1)) • Q) := by
  intro n
  induction n with
  | zero => intro c m _ j hj; omega
  | succ n ih =>
    intro c m hc j hj
    have h1 : RC (addCached A2 c).toP3.toCached ((m + 2) • Q) := by
      have := P3.toCached_rep (P11.toP3_rep (addCached_rep h2 hc))
      rw [← add_nsmul, Nat.add_comm] at this
      exact this
    rw [oddMultiples]
    match j with
    | 0 => exact h1
    | j + 1 =>
      rw [List.getD_cons_succ, show m + 2 * (j + 1 + 1) = m + 2 + 2 * (j + 1) by ring]
      exact ih _ _ h1 j (by omega)

theorem tableA_rep {A : P3} {Q : Pt} (h : R3 A Q) (j : Nat) (hj : j < 8) : RC ((tableA A).getD j cachedZero) ((2 * j + 1) • Q) := by
  have h1 := P3.toCached_rep h
  have h2 := P11.toP3_rep (P3.dbl_rep h)
  rw [← two_nsmul] at h2
  unfold tableA
  match j with
  | 0 => rw [Nat.mul_zero, zero_add, one_nsmul]; exact h1
  | j + 1 =>
    rw [List.getD_cons_succ, show 2 * (j + 1) + 1 = 1 + 2 * (j + 1) by ring]
    exact oddMultiples_rep h2 7 _ 1 (by rw [one_nsmul]; exact h1) j (by omega)

theorem dig_pos {d : Int} (h : Dig d) (hp : 0 < d) : (d.tdiv 2).toNat < 8 ∧ d = ((2 * (d.tdiv 2).toNat + 1 : Nat) : Int) := by
  have e : d.tdiv 2 = d / 2 := Int.tdiv_eq_ediv_of_nonneg hp.le
  rw [e]
  unfold Dig at h
  omega

theorem dig_neg {d : Int} (h : Dig d) (hp : d < 0) : ((-d).tdiv 2).toNat < 8 ∧ d = -((2 * ((-d).tdiv 2).toNat + 1 : Nat) : Int) := by
  have e : (-d).tdiv 2 = (-d) / 2 := Int.tdiv_eq_ediv_of_nonneg (by omega)
  rw [e]
  unfold Dig at h
  omega

theorem stepA_rep {A : P3} {Q : Pt} (h : R3 A Q) {d : Int} (hd : Dig d) {t : P11} {S : Pt} (ht : R11 t S) :
    R11 (stepA (tableA A) d t) (S + d • Q) := by
  unfold stepA
  by_cases h1 : d > 0
  · rw [if_pos h1]
    obtain ⟨hj, e⟩ := dig_pos hd h1
    have := addCached_rep (P11.toP3_rep ht) (tableA_rep h _ hj)
    rw [← natCast_zsmul, ← e] at this
    exact this
  · rw [if_neg h1]
    by_cases h2 : d < 0
    · rw [if_pos h2]
      obtain ⟨hj, e⟩ := dig_neg hd h2
      have := subCached_rep (P11.toP3_rep ht) (tableA_rep h _ hj)
      rw [← natCast_zsmul, sub_eq_add_neg, ← neg_zsmul, ← e] at this
      exact this
    · rw [if_neg h2, show d = 0 by omega, zero_zsmul, add_zero]; exact ht

theorem stepB_rep {d : Int} (hd : Dig d) {t : P11} {S : Pt} (ht : R11 t S) : R11 (stepB d t) (S + d • Bp) := by
  unfold stepB
  by_cases h1 : d > 0
  · rw [if_pos h1]
    obtain ⟨hj, e⟩ := dig_pos hd h1
    have := addPrecomp_rep (P11.toP3_rep ht) (base2_rep _ hj precompZero)
    rw [← natCast_zsmul, ← e] at this
    exact this
  · rw [if_neg h1]
    by_cases h2 : d < 0
    · rw [if_pos h2]
      obtain ⟨hj, e⟩ := dig_neg hd h2
      have := subPrecomp_rep (P11.toP3_rep ht) (base2_rep _ hj precompZero)
      rw [← natCast_zsmul, sub_eq_add_neg, ← neg_zsmul, ← e] at this
      exact this
    · rw [if_neg h2, show d = 0 by omega, zero_zsmul, add_zero]; exact ht

theorem evI_drop (l : List Int) (i : Nat) (hi : i < l.length) : evI (l.drop i) = l.getD i 0 + 2 * evI (l.drop (i + 1)) := by
  rw [List.drop_eq_getElem_cons hi, evI, List.getD_eq_getElem?_getD, List.getElem?_eq_getElem hi]; rfl

theorem dig_getD {l : List Int} (h : ∀ d ∈ l, Dig d) (i : Nat) : Dig (l.getD i 0) := by
  rw [List.getD_eq_getElem?_getD]
  by_cases hi : i < l.length
  · rw [List.getElem?_eq_getElem hi]; exact h _ (List.getElem_mem hi)
  · rw [List.getElem?_eq_none (by omega)]; exact Or.inl rfl

theorem dblLoop_rep {A : P3} {Q : Pt} (h : R3 A Q) {as bs : List Int} (ha : ∀ d ∈ as, Dig d) (hb : ∀ d ∈ bs, Dig d) :
    ∀ (n : Nat) (r : P2), n ≤ as.length → n ≤ bs.length → R2 r (evI (as.drop n) • Q + evI (bs.drop n) • Bp) →
      R2 (dblLoop (tableA A) as bs n r) (evI as • Q + evI bs • Bp) := by
  intro n
  induction n with
  | zero => intro r _ _ hr; exact hr
  | succ n ih =>
    intro r h1 h2 hr
    rw [dblLoop]
    apply ih _ (by omega) (by omega)
    have := P11.toP2_rep (stepB_rep (dig_getD hb n) (stepA_rep h (dig_getD ha n) (P2.dbl_rep hr)))
    rw [evI_drop as n (by omega), evI_drop bs n (by omega)]
    convert this using 1
    simp only [add_zsmul, two_mul]
    abel

theorem topDigit_spec (as bs : List Int) : ∀ n, n ≤ as.length → n ≤ bs.length → topDigit as bs n ≤ n ∧
    evI (as.drop (topDigit as bs n)) = 2 ^ (n - topDigit as bs n) * evI (as.drop n) ∧
    evI (bs.drop (topDigit as bs n)) = 2 ^ (n - topDigit as bs n) * evI (bs.drop n) := by
  intro n
  induction n with
  | zero => intro _ _; simp [topDigit]
  | succ n ih =>
    intro h1 h2
    rw [topDigit]
    by_cases h : as.getD n 0 ≠ 0 ∨ bs.getD n 0 ≠ 0
    · rw [if_pos h]; simp
    · rw [if_neg h]
      obtain ⟨i1, i2, i3⟩ := ih (by omega) (by omega)
      have ha : as.getD n 0 = 0 := by by_contra hc; exact h (Or.inl hc)
      have hb : bs.getD n 0 = 0 := by by_contra hc; exact h (Or.inr hc)
      have e1 := evI_drop as n (by omega)
      have e2 := evI_drop bs n (by omega)
      rw [ha, zero_add] at e1
      rw [hb, zero_add] at e2
      refine ⟨by omega, ?_, ?_⟩
      · rw [i2, e1, show n + 1 - topDigit as bs n = n - topDigit as bs n + 1 by omega, pow_succ]; ring
      · rw [i3, e2, show n + 1 - topDigit as bs n = n - topDigit as bs n + 1 by omega, pow_succ]; ring

/-- **`_ge25519_double_scalarmult_vartime` computes `a A + b B`.** -/
theorem doubleScalarmult_rep {A : P3} {Q : Pt} (h : R3 A Q) (a b : List Byte) (ha : a.length = 32) (hb : b.length = 32)
    (va : leNum a ≤ 2 ^ 253) (vb : leNum b ≤ 2 ^ 253) :
    R2 (doubleScalarmult a A b) (leNum a • Q + leNum b • Bp) := by
  obtain ⟨a1, a2, a3⟩ := slide_spec a ha va
  obtain ⟨b1, b2, b3⟩ := slide_spec b hb vb
  unfold doubleScalarmult
  dsimp only
  obtain ⟨t1, t2, t3⟩ := topDigit_spec (slide a) (slide b) 256 (by omega) (by omega)
  have d1 : (slide a).drop 256 = [] := List.drop_eq_nil_of_le (by omega)
  have d2 : (slide b).drop 256 = [] := List.drop_eq_nil_of_le (by omega)
  rw [d1, evI, mul_zero] at t2
  rw [d2, evI, mul_zero] at t3
  have := dblLoop_rep h a2 b2 (topDigit (slide a) (slide b) 256) p2zero (by omega) (by omega) (by
    rw [t2, t3, zero_zsmul, zero_zsmul, add_zero]; exact p2zero_rep)
  rw [a3, b3, natCast_zsmul, natCast_zsmul] at this
  exact this

end LC.Curve
