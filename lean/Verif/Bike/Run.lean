import Verif.Bike.Keys

/-! The levels of the library, the decoder on honest ciphertexts, the counter of level 3. -/

namespace LC.Bike

/-! ## Levels -/

theorem L1_lvl : Lvl L1 where
  pok := L1_pok
  rok := L1_rok
  tab := L1_tab
  cok := ⟨by decide, by decide, by decide, L1_thr⟩
  dok := ⟨7, by decide, by decide, by decide⟩
  small := by decide
  dodd := by decide
  dlt := by decide
  tle := by decide

theorem L3_lvl : Lvl L3 where
  pok := L3_pok
  rok := L3_rok
  tab := L3_tab
  cok := ⟨by decide, by decide, by decide, L3_thr⟩
  dok := ⟨8, by decide, by decide, by decide⟩
  small := by decide
  dodd := by decide
  dlt := by decide
  tle := by decide

theorem L5_lvl : Lvl L5 where
  pok := L5_pok
  rok := L5_rok
  tab := L5_tab
  cok := ⟨by decide, by decide, by decide, L5_thr⟩
  dok := ⟨9, by decide, by decide, by decide⟩
  small := by decide
  dodd := by decide
  dlt := by decide
  tle := by decide

theorem Lvl.ne {p : Par} (hl : Lvl p) : NeZero p.R := ⟨by have := hl.pok.ge; omega⟩

/-- The thresholds of levels 1 and 5 fit the counters. -/
theorem L1_fit (w : Nat) (h : w ≤ L1.R) : Spec.thr L1 w ≤ 2 ^ (L1.slices - 1) := by
  have h : w ≤ 12323 := h
  have hs : (2 : Nat) ^ (L1.slices - 1) = 128 := by decide
  have := (L1_arith w h).2.2
  rw [hs]
  unfold Spec.thr
  rw [L1_coeff.1, L1_coeff.2.1, show L1.thrMin = 36 from rfl]
  clear this
  omega

theorem L5_fit (w : Nat) (h : w ≤ L5.R) : Spec.thr L5 w ≤ 2 ^ (L5.slices - 1) := by
  have h : w ≤ 40973 := h
  have hs : (2 : Nat) ^ (L5.slices - 1) = 256 := by decide
  rw [hs]
  unfold Spec.thr
  rw [L5_coeff.1, L5_coeff.2.1, show L5.thrMin = 69 from rfl]
  omega

/-- At level 3 the thresholds fit for syndromes of weight up to 21603. -/
theorem L3_fit (w : Nat) (h : w ≤ 21603) : Spec.thr L3 w ≤ 2 ^ (L3.slices - 1) := by
  have hs : (2 : Nat) ^ (L3.slices - 1) = 128 := by decide
  rw [hs]
  unfold Spec.thr
  rw [L3_coeff.1, L3_coeff.2.1, show L3.thrMin = 52 from rfl]
  omega

/-! ## The fixed point -/

theorem upc_zero {R : Nat} (hR : 0 < R) {f : Nat → Bool} (h : ∀ i, i < R → f i = false)
    (wl : List Nat) (b : Nat) : Spec.upc R f wl b = 0 := by
  unfold Spec.upc
  rw [List.length_eq_zero_iff, List.filter_eq_nil_iff]
  intro w _
  rw [h _ (Nat.mod_lt _ hR)]
  decide

theorem flip_zero {R : Nat} (hR : 0 < R) {f : Nat → Bool} (h : ∀ i, i < R → f i = false)
    (wl : List Nat) (t : Nat) (ht : 0 < t) (e : Nat → Bool) : Spec.flip R f wl t e = e := by
  funext b
  unfold Spec.flip
  rw [upc_zero hR h, show decide (t ≤ 0) = false by simp; omega, Bool.xor_false]

theorem gray_zero {R : Nat} (hR : 0 < R) {f : Nat → Bool} (h : ∀ i, i < R → f i = false)
    (wl : List Nat) (t : Nat) (ht : 3 < t) (b : Nat) : Spec.gray R f wl t b = false := by
  unfold Spec.gray
  rw [upc_zero hR h, show decide (t ≤ 0 + 3) = false by simp; omega, Bool.and_false]

/-- A zero syndrome is a fixed point. -/
theorem iter_zero {p : Par} (hR : 0 < p.R) (ht : 3 < p.thrMin) (wl0 wl1 : List Nat)
    (c0 : Nat → Bool) (e : (Nat → Bool) × (Nat → Bool))
    (h : ∀ i, i < p.R → Spec.synd p.R wl0 wl1 c0 e i = false) :
    Spec.iter p wl0 wl1 c0 e = e := by
  have ht' : 3 < Spec.thr p (Spec.wt p.R (Spec.synd p.R wl0 wl1 c0 e)) :=
    Nat.lt_of_lt_of_le ht (Nat.le_max_left _ _)
  unfold Spec.iter
  dsimp only
  rw [flip_zero hR h _ _ (by omega), flip_zero hR h _ _ (by omega)]
  unfold Spec.flipIn
  apply Prod.ext
  · funext b
    dsimp only
    rw [gray_zero hR h _ _ ht', Bool.false_and, Bool.xor_false]
  · funext b
    dsimp only
    rw [gray_zero hR h _ _ ht', Bool.false_and, Bool.xor_false]

theorem run_stay {p : Par} (hR : 0 < p.R) (ht : 3 < p.thrMin) (wl0 wl1 : List Nat)
    (c0 : Nat → Bool) (n : Nat)
    (h : ∀ i, i < p.R → Spec.synd p.R wl0 wl1 c0 (Spec.run p wl0 wl1 c0 n) i = false) (k : Nat) :
    Spec.run p wl0 wl1 c0 (n + k) = Spec.run p wl0 wl1 c0 n := by
  induction k with
  | zero => rfl
  | succ k ih =>
    change Spec.iter p wl0 wl1 c0 (Spec.run p wl0 wl1 c0 (n + k)) = _
    rw [ih]
    exact iter_zero hR ht _ _ _ _ h

theorem wt_zero {R : Nat} {f : Nat → Bool} (h : ∀ i, i < R → f i = false) : Spec.wt R f = 0 := by
  unfold Spec.wt
  rw [List.length_eq_zero_iff, List.filter_eq_nil_iff]
  intro i hi
  rw [h i (List.mem_range.1 hi)]
  decide

/-! ## Honest ciphertexts -/

theorem synd_honest {p : Par} [NeZero p.R] (hl : Lvl p) (h : Hash) {sk : Sk} (hk : SkOk p sk)
    {e : List Nat × List Nat} (h1 : Rt p e.1) (h2 : Rt p e.2) (m : List Nat)
    {f : (Nat → Bool) × (Nat → Bool)} (f1 : ∀ i, i < p.R → bitB e.1 i = f.1 i)
    (f2 : ∀ i, i < p.R → bitB e.2 i = f.2 i) (i : Nat) (hi : i < p.R) :
    Spec.synd p.R sk.wl0 sk.wl1 (bitB (encrypt p h e sk.pk m).c0) f i = false := by
  refine elF_inj (R := p.R) (f' := fun _ => false) ?_ i hi
  rw [elF_synd, (encrypt_c0 hl h h1 h2 hk.pk m).2, elF_congr f1, elF_congr f2, elF_false,
    ← elF_congr hk.eqn, elF_cyc]
  generalize elF p.R f.1 = x
  generalize elF p.R f.2 = y
  generalize elF p.R (bitB sk.pk) = z
  generalize elF p.R (Spec.ind sk.wl0) = w
  have : w * (x + y * z + x) + w * z * y = w * ((x + x) + (y * z + y * z)) := by ring
  rw [this, addSelf, addSelf, add_zero, mul_zero]

/-- If the specification of the decoder reaches the error vector of an honest ciphertext in at
most five iterations, with thresholds that fit the counters, the decoder returns it. -/
theorem decode_hit {p : Par} [NeZero p.R] (hl : Lvl p) (hmin : 3 < p.thrMin)
    (hmax : p.thrMin ≤ 2 ^ (p.slices - 1)) (hc0 : p.coeff0 / 10 ^ 8 ≤ p.thrMin) (h : Hash) {sk : Sk}
    (hk : SkOk p sk) {e : List Nat × List Nat} (h1 : Rt p e.1) (h2 : Rt p e.2) (m : List Nat)
    (n : Nat) (hn : n ≤ 5)
    (hit : ∀ i, i < p.R →
      bitB e.1 i = (Spec.run p sk.wl0 sk.wl1 (bitB (encrypt p h e sk.pk m).c0) n).1 i ∧
      bitB e.2 i = (Spec.run p sk.wl0 sk.wl1 (bitB (encrypt p h e sk.pk m).c0) n).2 i)
    (ht : ∀ j, j < n → Spec.thr p (Spec.wt p.R (Spec.synd p.R sk.wl0 sk.wl1
      (bitB (encrypt p h e sk.pk m).c0)
      (Spec.run p sk.wl0 sk.wl1 (bitB (encrypt p h e sk.pk m).c0) j))) ≤ 2 ^ (p.slices - 1)) :
    decode p sk (encrypt p h e sk.pk m) = e := by
  obtain ⟨hh, hd⟩ := hl.dok
  have hR : 0 < p.R := by have := hl.pok.ge; omega
  have hz := synd_honest hl h hk h1 h2 m (fun i hi => (hit i hi).1) (fun i hi => (hit i hi).2)
  have hc := (encrypt_c0 hl h h1 h2 hk.pk m).1
  generalize encrypt p h e sk.pk m = ct at *
  have hst := run_stay hR hmin sk.wl0 sk.wl1 (bitB ct.c0) n hz
  have hd := decode_sim hl.pok hd hl.cok hk hc (by
    intro j hj
    by_cases hjn : j < n
    · exact ht j hjn
    · rw [show j = n + (j - n) by omega, hst, wt_zero hz]
      unfold Spec.thr
      rw [Nat.mul_zero, Nat.add_zero, Nat.max_eq_left hc0]
      exact hmax)
  rw [show 5 = n + (5 - n) by omega, hst] at hd
  exact Prod.ext (rt_ext hd.1.1 h1 (fun i hi => (by rw [(hd.2 i hi).1, (hit i hi).1])))
    (rt_ext hd.1.2 h2 (fun i hi => (by rw [(hd.2 i hi).2, (hit i hi).2])))

/-! ## Level 3 -/

/-- Which positions `find_err1` flips, for every threshold below `2^slices`: the counter minus the
threshold, modulo `2^slices`, is compared with half of the range. -/
theorem findErr1_wrap {p : Par} {h : Nat} (hp : POk p) (hd : DOk p h) (hD : p.D < 512)
    {f fe : Nat → Bool} {s e : List Nat} (hs : Syn p f s)
    (he : Byt p fe e) {wl : List Nat} (hl : wl.length = p.D)
    (hw : ∀ w ∈ wl, w < p.R) (t : Nat) (ht : t < 2 ^ p.slices) (b : Nat) (hb : b < p.R) :
    bitB (findErr1 p e s wl t).1 b =
      (fe b ^^ decide (t ≤ Spec.upc p.R f wl b ∨ Spec.upc p.R f wl b + 2 ^ (p.slices - 1) < t)) := by
  obtain ⟨h1, h2, h3⟩ := sub_val hd hD hs hl hw t ht
  have hub : ∀ b, Spec.upc p.R f wl b < 2 ^ (p.slices - 1) := by
    intro b
    have : Spec.upc p.R f wl b ≤ p.D := by
      rw [← hl]; exact List.length_filter_le _ _
    exact Nat.lt_of_le_of_lt this (log2Msb_lt hD)
  have hp2 := pow_slices p
  unfold findErr1
  dsimp only
  generalize subSlices (upcOf p s wl).1 (List.replicate p.rq 0) t = u0 at *
  have hblack : Byt p (fun b => decide (t ≤ Spec.upc p.R f wl b ∨
      Spec.upc p.R f wl b + 2 ^ (p.slices - 1) < t)) (sumMsb p u0) := by
    refine byt_congr (sumMsb_byt hp h1 h2) ?_
    intro b hb
    have := h3 b hb
    have hub := hub b
    rw [hp2] at this ht
    rw [decide_eq_decide]
    generalize Spec.upc p.R f wl b = u at *
    generalize 2 ^ (p.slices - 1) = P at *
    rcases Nat.lt_or_ge u t with hc | hc
    · have := this.2 hc; omega
    · have := this.1 hc; omega
  exact (maskLast_rt hp (xor_byt he hblack)).2 b hb

theorem wt_compl (n : Nat) (f : Nat → Bool) : Spec.wt n (fun i => !f i) + Spec.wt n f = n := by
  unfold Spec.wt
  induction n with
  | zero => rfl
  | succ n ih =>
    rw [List.range_succ, List.filter_append, List.filter_append, List.length_append,
      List.length_append]
    cases h : f n <;> simp [h] <;> omega

end LC.Bike
