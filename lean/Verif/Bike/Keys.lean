import Verif.Bike.Refine

/-! Key generation, error vectors and the KEM. -/

namespace LC.Bike

/-- Everything the proofs need of a parameter set. -/
structure Lvl (p : Par) : Prop where
  pok : POk p
  rok : ROk p
  tab : tabOk p = true
  cok : COk p
  dok : ∃ h, DOk p h
  small : p.R < 2 ^ 31
  dodd : p.D % 2 = 1
  dlt : p.D < p.R
  tle : p.T ≤ 2 * p.R

/-- The words squeezed from the XOF are 32-bit words. -/
def Hash.Ok (h : Hash) : Prop := ∀ s i, h.shake s i < 2 ^ 32

theorem wt_mem (n : Nat) (wl : List Nat) (g : Nat → Bool) (f : Nat → Nat)
    (hf : Function.Injective f) (h : ∀ i, i < n → g i = decide (f i ∈ wl)) (hnd : wl.Nodup) :
    Spec.wt n g = (wl.filter fun w => decide (∃ i, i < n ∧ f i = w)).length := by
  unfold Spec.wt
  have h1 : ((List.range n).filter g).length =
      (((List.range n).filter g).map f).length := by rw [List.length_map]
  rw [h1]
  apply List.Perm.length_eq
  rw [List.perm_ext_iff_of_nodup]
  · intro x
    simp only [List.mem_map, List.mem_filter, List.mem_range, decide_eq_true_eq]
    constructor
    · rintro ⟨i, ⟨hi, hb⟩, rfl⟩
      rw [h i hi] at hb
      exact ⟨by simpa using hb, i, hi, rfl⟩
    · rintro ⟨hx, i, hi, rfl⟩
      exact ⟨i, ⟨hi, by rw [h i hi]; simpa using hx⟩, rfl⟩
  · exact (List.nodup_range.filter _).map hf
  · exact hnd.filter _

theorem wt_ind {n : Nat} {wl : List Nat} (hnd : wl.Nodup) (h : ∀ w ∈ wl, w < n) :
    Spec.wt n (Spec.ind wl) = wl.length := by
  rw [wt_mem n wl (Spec.ind wl) id Function.injective_id (fun _ _ => rfl) hnd]
  congr 1
  rw [List.filter_eq_self]
  intro w hw
  exact decide_eq_true ⟨w, h w hw, rfl⟩

theorem wt_congr {n : Nat} {f g : Nat → Bool} (h : ∀ i, i < n → f i = g i) :
    Spec.wt n f = Spec.wt n g := by
  unfold Spec.wt
  congr 1
  exact List.filter_congr (fun i hi => h i (List.mem_range.1 hi))

/-! ## Sparse polynomials -/

theorem setBits_pad {p : Par} (hl : Lvl p) {wl : List Nat} (h : ∀ w ∈ wl, w < p.R) :
    Pad p (setBits p 0 wl) ∧ ∀ b, bitW (setBits p 0 wl) b = Spec.ind wl b := by
  have hfit := hl.pok.fit
  have hR : p.R ≤ 64 * p.pq := by
    have : p.R ≤ 64 * p.rq := by unfold Par.rq; omega
    omega
  have hb := setBits_zero wl hR h (by have := hl.small; omega)
  refine ⟨⟨setBits_length _ _ _, setBits_wf _ _ _, fun i hi => ?_⟩, hb⟩
  rw [hb]
  simp only [decide_eq_false_iff_not]
  intro hm
  have := h i hm
  omega

theorem list_ok {p : Par} (hl : Lvl p) {h : Hash} (hh : h.Ok) (seed : List Nat) (pos : Nat) :
    let wl := fisherYates p.R p.D (h.shake seed) pos
    wl.length = p.D ∧ wl.Nodup ∧ ∀ w ∈ wl, w < p.R :=
  fisherYates_spec p.R p.D (h.shake seed) pos hl.dlt.le (by have := hl.small; omega) (hh seed)

/-! ## Key generation -/

theorem elF_ind {p : Par} [NeZero p.R] (hl : Lvl p) {wl : List Nat} (h : ∀ w ∈ wl, w < p.R) :
    elF p.R (Spec.ind wl) = el p.R (setBits p 0 wl) := by
  rw [el_eq_elF]
  exact elF_congr (fun i _ => ((setBits_pad hl h).2 i).symm)

/-- The secret key generated from any seed satisfies what the decoder relies on. -/
theorem keypair_ok {p : Par} [NeZero p.R] (hl : Lvl p) {h : Hash} (hh : h.Ok) (seeds : List Nat) :
    SkOk p (keypair p h seeds).2 := by
  obtain ⟨a1, a2, a3⟩ := list_ok hl hh (seeds.take 32) 0
  obtain ⟨b1, b2, b3⟩ := list_ok hl hh (seeds.take 32) p.D
  unfold keypair
  dsimp only at *
  generalize fisherYates p.R p.D (h.shake (seeds.take 32)) 0 = wl0 at *
  generalize fisherYates p.R p.D (h.shake (seeds.take 32)) p.D = wl1 at *
  obtain ⟨p0, q0⟩ := setBits_pad hl a3
  obtain ⟨p1, q1⟩ := setBits_pad hl b3
  have hw : weight p.R (setBits p 0 wl0) = p.D := by
    have : weight p.R (setBits p 0 wl0) = Spec.wt p.R (bitW (setBits p 0 wl0)) := rfl
    rw [this, wt_congr (fun i _ => q0 i), wt_ind a2 a3, a1]
  have pi := (modInv_el hl.pok hl.tab p0).1
  have hinv := modInv_mul hl.pok hl.rok hl.tab p0 (by rw [hw]; exact hl.dodd)
    (by rw [hw]; exact hl.dlt)
  have pm := modMul_pad hl.pok p1 pi
  have r0 := pad_rt hl.pok p0
  have rk := pad_rt hl.pok pm
  refine ⟨a1, a3, b1, b3, r0.1, fun i _ => (by rw [r0.2, q0]), rk.1, ?_⟩
  dsimp only
  refine elF_inj (R := p.R) ?_
  rw [elF_cyc, el_bytes hl.pok pm, modMul_el hl.pok p1 pi, elF_ind hl a3, elF_ind hl b3,
    mul_left_comm, hinv, mul_one]

/-! ## Error vectors -/

theorem errorVector_bits {p : Par} (hl : Lvl p) {h : Hash} (hh : h.Ok) (seed : List Nat) :
    let wl := fisherYates (2 * p.R) p.T (h.shake seed) 0
    let e := errorVector p h seed
    (Rt p e.1 ∧ Rt p e.2) ∧ ∀ i, i < p.R → bitB e.1 i = decide (i ∈ wl) ∧
      bitB e.2 i = decide (p.R + i ∈ wl) := by
  obtain ⟨a1, a2, a3⟩ := fisherYates_spec (2 * p.R) p.T (h.shake seed) 0 hl.tle
    (by have := hl.small; omega) (hh seed)
  unfold errorVector
  dsimp only
  generalize fisherYates (2 * p.R) p.T (h.shake seed) 0 = wl at *
  have hfit := hl.pok.fit
  have hsm := hl.small
  have hR : p.R ≤ 64 * p.pq := by
    have : p.R ≤ 64 * p.rq := by unfold Par.rq; omega
    omega
  refine ⟨⟨cleanR_rt hl.pok (setBits_wf _ _ _), cleanR_rt hl.pok (setBits_wf _ _ _)⟩, ?_⟩
  intro i hi
  constructor
  · rw [cleanR_bit hl.pok (setBits_wf _ _ _), setBits_bit,
      any_congr' (g := fun w => decide (w = i)) (fun w hw => (by
        have := a3 w hw
        rw [show (w + 2 ^ 32 - 0) % 2 ^ 32 = w by omega])), any_eq_mem]
    rw [show decide (i < p.R) = true by simp; omega,
      show decide (i < 64 * p.pq) = true by simp; omega]
    simp
  · rw [cleanR_bit hl.pok (setBits_wf _ _ _), setBits_bit,
      any_congr' (g := fun w => decide (w = p.R + i)) (fun w hw => (by
        have := a3 w hw
        rw [decide_eq_decide]
        omega)), any_eq_mem]
    rw [show decide (i < p.R) = true by simp; omega,
      show decide (i < 64 * p.pq) = true by simp; omega]
    simp

theorem filter_split (wl : List Nat) (R : Nat) (h : ∀ w ∈ wl, w < 2 * R) :
    (wl.filter fun w => decide (∃ i, i < R ∧ i = w)).length +
      (wl.filter fun w => decide (∃ i, i < R ∧ R + i = w)).length = wl.length := by
  induction wl with
  | nil => rfl
  | cons w wl ih =>
    have ih := ih (fun v hv => h v (List.mem_cons_of_mem _ hv))
    have hw := h w List.mem_cons_self
    simp only [List.filter_cons]
    by_cases hc : w < R
    · rw [if_pos (by simpa using hc), if_neg (by simp; omega)]
      simp only [List.length_cons]; omega
    · rw [if_neg (by simpa using hc), if_pos (decide_eq_true ⟨w - R, by omega, by omega⟩)]
      simp only [List.length_cons]; omega

theorem errorVector_weight {p : Par} (hl : Lvl p) {h : Hash} (hh : h.Ok) (seed : List Nat) :
    Spec.wt p.R (bitB (errorVector p h seed).1) + Spec.wt p.R (bitB (errorVector p h seed).2) =
      p.T := by
  obtain ⟨a1, a2, a3⟩ := fisherYates_spec (2 * p.R) p.T (h.shake seed) 0 hl.tle
    (by have := hl.small; omega) (hh seed)
  obtain ⟨_, hb⟩ := errorVector_bits hl hh seed
  rw [wt_mem p.R _ _ id Function.injective_id (fun i hi => (hb i hi).1) a2,
    wt_mem p.R _ _ (p.R + ·) (fun a b hab => Nat.add_left_cancel hab) (fun i hi => (hb i hi).2) a2]
  conv_rhs => rw [← a1]
  exact filter_split _ _ a3

/-! ## Encapsulation -/

/-- `c0 = e0 + e1 · pk`. -/
theorem encrypt_c0 {p : Par} [NeZero p.R] (hl : Lvl p) (h : Hash) {e : List Nat × List Nat}
    (h1 : Rt p e.1) (h2 : Rt p e.2) {pk : List Nat} (hk : Rt p pk) (m : List Nat) :
    Rt p (encrypt p h e pk m).c0 ∧
      elF p.R (bitB (encrypt p h e pk m).c0) =
        elF p.R (bitB e.1) + elF p.R (bitB e.2) * elF p.R (bitB pk) := by
  have p1 := (rt_pad hl.pok h1).1
  have p2 := (rt_pad hl.pok h2).1
  have pk' := (rt_pad hl.pok hk).1
  have pm := modMul_pad hl.pok p2 pk'
  have px := (xorL_pad pm p1).1
  refine ⟨(pad_rt hl.pok px).1, ?_⟩
  unfold encrypt
  dsimp only
  rw [el_bytes hl.pok px, xorL_el pm p1, modMul_el hl.pok p2 pk', el_words hl.pok h1,
    el_words hl.pok h2, el_words hl.pok hk, add_comm]

theorem xorL_cancel (a b : List Nat) (h : b.length ≤ a.length) : xorL a (xorL a b) = b := by
  unfold xorL
  apply List.ext_getElem
  · simp; omega
  · intro i h1 h2
    simp only [List.getElem_zipWith]
    rw [← Nat.xor_assoc, Nat.xor_self, Nat.zero_xor]

/-! ## Decapsulation -/

theorem sel_zero (x y : Nat) (hx : x < 256) : (x &&& not8 0) ||| (0 &&& y) = x := by
  rw [show not8 0 = 2 ^ 8 - 1 from rfl, Nat.zero_and, Nat.or_zero,
    Nat.and_two_pow_sub_one_eq_mod, Nat.mod_eq_of_lt hx]

theorem sel_ones (x y : Nat) (hy : y < 256) : (x &&& not8 255) ||| (255 &&& y) = y := by
  rw [show not8 255 = 0 from rfl, Nat.and_zero, Nat.zero_or, Nat.and_comm,
    show (255 : Nat) = 2 ^ 8 - 1 from rfl, Nat.and_two_pow_sub_one_eq_mod, Nat.mod_eq_of_lt hy]

theorem select_eq {a b : List Nat} (ha : ∀ x ∈ a, x < 256) (hb : ∀ x ∈ b, x < 256)
    (hl : a.length = b.length) (m : Nat) (hm : m = 0 ∨ m = 255) :
    List.zipWith (fun x s => (x &&& not8 m) ||| (m &&& s)) a b = if m = 0 then a else b := by
  apply List.ext_getElem
  · split <;> simp [hl]
  · intro i h1 h2
    have i1 : i < a.length := by simp at h1; omega
    have i2 : i < b.length := by omega
    have g1 := ha _ (List.getElem_mem i1)
    have g2 := hb _ (List.getElem_mem i2)
    rw [List.getElem_zipWith]
    rcases hm with rfl | rfl
    · exact sel_zero _ _ g1
    · exact sel_ones _ _ g2

/-- The message recovered by decapsulation. -/
theorem dec_eq {p : Par} {h : Hash} {sk : Sk} {ct : Ct}
    (hm : ∀ x ∈ xorL (functionL h (decode p sk ct)) ct.c1, x < 256)
    (hs : ∀ x ∈ sk.sigma, x < 256)
    (hl : (xorL (functionL h (decode p sk ct)) ct.c1).length = sk.sigma.length) :
    dec p h sk ct = functionK h (if decode p sk ct =
      errorVector p h (xorL (functionL h (decode p sk ct)) ct.c1)
      then xorL (functionL h (decode p sk ct)) ct.c1 else sk.sigma) ct := by
  unfold dec
  dsimp only
  generalize xorL (functionL h (decode p sk ct)) ct.c1 = m at *
  generalize errorVector p h m = e' at *
  generalize decode p sk ct = e at *
  have h1 : l32Mask 0 1 % 256 = 0 := by decide
  have h0 : l32Mask 0 0 % 256 = 255 := by decide
  by_cases hc : e = e'
  · rw [if_pos hc, hc, if_pos rfl, if_pos rfl, show (1 : Nat) &&& 1 = 1 from rfl, h1,
      select_eq hm hs hl _ (Or.inl rfl), if_pos rfl]
  · have : ((if e.1 = e'.1 then 1 else 0) &&& (if e.2 = e'.2 then 1 else 0)) = 0 := by
      by_cases x1 : e.1 = e'.1
      · have x2 : e.2 ≠ e'.2 := fun x2 => hc (Prod.ext x1 x2)
        rw [if_neg x2, Nat.and_zero]
      · rw [if_neg x1, Nat.zero_and]
    rw [if_neg hc, this, h0, select_eq hm hs hl _ (Or.inr rfl), if_neg (by decide)]

end LC.Bike
