import Verif.Bike.Run

/-!
Properties C80 - C84: the arithmetic, key generation, sampling, decapsulation and decoder of BIKE.
-/

namespace LC.Bike.Props

open LC.Bike

/-- The parameter sets of the library. -/
def Level (p : Par) : Prop := p = L1 ∨ p = L3 ∨ p = L5

theorem Level.lvl {p : Par} (h : Level p) : Lvl p := by
  rcases h with rfl | rfl | rfl
  · exact L1_lvl
  · exact L3_lvl
  · exact L5_lvl

/-! ## C80: multiplication -/

/-- C80: `gf2x_mod_mul` computes the cyclic convolution of its operands, and its result is reduced,
for all reduced operands. -/
theorem mod_mul_exact {p : Par} (hl : Level p) {a b : List Nat} (ha : Pad p a) (hb : Pad p b) :
    Pad p (modMul p a b) ∧
      ∀ i, i < p.R → bitW (modMul p a b) i = Spec.cyc p.R (bitW a) (bitW b) i :=
  haveI := hl.lvl.ne
  ⟨modMul_pad hl.lvl.pok ha hb, modMul_bits hl.lvl.pok ha hb⟩

/-- C80: `gf2x_mod_sqr` is multiplication with itself. -/
theorem mod_sqr_exact {p : Par} (hl : Level p) {a : List Nat} (ha : Pad p a) :
    Pad p (modSqr p a) ∧
      ∀ i, i < p.R → bitW (modSqr p a) i = Spec.cyc p.R (bitW a) (bitW a) i :=
  haveI := hl.lvl.ne
  ⟨modSqr_pad hl.lvl.pok ha, fun i hi => (by
    refine elF_inj (R := p.R) ?_ i hi
    rw [elF_cyc, ← el_eq_elF, ← el_eq_elF, modSqr_el hl.lvl.pok ha, pow_two])⟩

/-- A reduced element: bit 0, bit 64 and the top bit. -/
def exA : List Nat := 1 :: 1 :: (List.replicate 190 0 ++ 2 ^ 34 :: List.replicate 63 0)

theorem exA_pad : Pad L1 exA := by
  refine ⟨by decide +kernel, fun w hw => ?_, fun i hi => ?_⟩
  · have : ∀ w ∈ exA, w < W := by decide +kernel
    exact this w hw
  · have hi : 12323 ≤ i := hi
    have h1 : ∀ j, j < 63 → exA.getD (193 + j) 0 = 0 := by decide +kernel
    have h2 : exA.getD 192 0 = 2 ^ 34 := by decide +kernel
    unfold bitW
    by_cases hc : i / 64 = 192
    · rw [hc, h2, Nat.testBit_two_pow]; simp; omega
    · by_cases hd : i / 64 < 256
      · rw [show i / 64 = 193 + (i / 64 - 193) by omega, h1 _ (by omega), Nat.zero_testBit]
      · rw [List.getD_eq_getElem?_getD, List.getElem?_eq_none (by
          have : exA.length = 256 := by decide +kernel
          omega)]
        simp

example : Level L1 ∧ Pad L1 exA := ⟨Or.inl rfl, exA_pad⟩
example := mod_mul_exact (Or.inl rfl) exA_pad exA_pad

/-! ## C81: inversion and the key equation -/

/-- C81: `gf2x_mod_inv` computes the multiplicative inverse of every element of odd weight other than
the all-ones polynomial. -/
theorem mod_inv_exact {p : Par} (hl : Level p) {a : List Nat} (ha : Pad p a)
    (hw : Spec.wt p.R (bitW a) % 2 = 1) (hlt : Spec.wt p.R (bitW a) < p.R) :
    Pad p (modInv p a) ∧
      ∀ i, i < p.R → Spec.cyc p.R (bitW a) (bitW (modInv p a)) i = decide (i = 0) := by
  haveI := hl.lvl.ne
  refine ⟨(modInv_el hl.lvl.pok hl.lvl.tab ha).1, fun i hi => ?_⟩
  refine elF_inj (R := p.R) (f' := fun i => decide (i = 0)) ?_ i hi
  rw [elF_cyc, ← el_eq_elF, ← el_eq_elF, modInv_mul hl.lvl.pok hl.lvl.rok hl.lvl.tab ha hw hlt]
  ext g
  rw [elF_coeff, AddMonoidAlgebra.one_def, AddMonoidAlgebra.coeff_single, Finsupp.single_apply]
  by_cases hg : g = 0
  · subst hg; simp [b2]
  · rw [if_neg (Ne.symm hg), show decide (g.val = 0) = false by simp [hg]]
    rfl

theorem exA_wt : Spec.wt L1.R (bitW exA) = 3 := by decide +kernel

example := mod_inv_exact (Or.inl rfl) exA_pad (by rw [exA_wt]) (by rw [exA_wt]; decide)

/-- C81: Whatever the seed, the key pair satisfies `h0 · pk = h1`, with the public key and both secret
polynomials reduced; the public key inside the secret key is the one returned. -/
theorem keypair_equation {p : Par} (hl : Level p) {h : Hash} (hh : h.Ok) (seeds : List Nat) :
    let k := keypair p h seeds
    (∀ i, i < p.R → Spec.cyc p.R (bitB k.2.h0) (bitB k.1) i = bitB k.2.h1 i) ∧
      Rt p k.1 ∧ Rt p k.2.h0 ∧ Rt p k.2.h1 ∧ k.2.pk = k.1 := by
  haveI := hl.lvl.ne
  have hk := keypair_ok hl.lvl hh seeds
  obtain ⟨b1, b2, b3⟩ := list_ok hl.lvl hh (seeds.take 32) p.D
  have hp1 := setBits_pad hl.lvl b3
  have hr1 := pad_rt hl.lvl.pok hp1.1
  refine ⟨fun i hi => ?_, hk.pk, hk.h0, hr1.1, rfl⟩
  have e1 : bitB (keypair p h seeds).2.h1 i = Spec.ind (keypair p h seeds).2.wl1 i := by
    refine (hr1.2 i).trans (hp1.2 i)
  rw [e1, ← hk.eqn i hi]
  refine elF_inj (R := p.R) ?_ i hi
  rw [elF_cyc, elF_cyc, elF_congr hk.b0]
  rfl

/-- A hash for the examples. -/
def exH : Hash := ⟨fun s i => (s.sum * 40503 + i * 2654435761 + 12345) % 2 ^ 32,
  fun m => (List.range 48).map fun j => (m.sum * (j + 3) + 7 * j) % 256⟩

theorem exH_ok : exH.Ok := fun _ _ => Nat.mod_lt _ (by decide)

example := keypair_equation (p := L5) (Or.inr (Or.inr rfl)) exH_ok (List.range 64)

/-! ## C82: weights -/

/-- C82: The index lists of the secret key are `D` different positions, `h0` and `h1` are exactly the
polynomials with these positions, and therefore have weight `D`. -/
theorem keypair_weights {p : Par} (hl : Level p) {h : Hash} (hh : h.Ok) (seeds : List Nat) :
    let sk := (keypair p h seeds).2
    (sk.wl0.length = p.D ∧ sk.wl0.Nodup ∧ ∀ i, bitB sk.h0 i = decide (i ∈ sk.wl0)) ∧
      (sk.wl1.length = p.D ∧ sk.wl1.Nodup ∧ ∀ i, bitB sk.h1 i = decide (i ∈ sk.wl1)) ∧
      Spec.wt p.R (bitB sk.h0) = p.D ∧ Spec.wt p.R (bitB sk.h1) = p.D := by
  obtain ⟨a1, a2, a3⟩ := list_ok hl.lvl hh (seeds.take 32) 0
  obtain ⟨b1, b2, b3⟩ := list_ok hl.lvl hh (seeds.take 32) p.D
  have p0 := setBits_pad hl.lvl a3
  have p1 := setBits_pad hl.lvl b3
  have r0 := pad_rt hl.lvl.pok p0.1
  have r1 := pad_rt hl.lvl.pok p1.1
  have q0 : ∀ i, bitB (keypair p h seeds).2.h0 i = Spec.ind (keypair p h seeds).2.wl0 i :=
    fun i => (r0.2 i).trans (p0.2 i)
  have q1 : ∀ i, bitB (keypair p h seeds).2.h1 i = Spec.ind (keypair p h seeds).2.wl1 i :=
    fun i => (r1.2 i).trans (p1.2 i)
  refine ⟨⟨a1, a2, q0⟩, ⟨b1, b2, q1⟩, ?_, ?_⟩
  · rw [wt_congr (fun i _ => q0 i)]; exact (wt_ind a2 a3).trans a1
  · rw [wt_congr (fun i _ => q1 i)]; exact (wt_ind b2 b3).trans b1

/-- C82: The error vector of every message has exactly `T` ones in its `2R` positions. -/
theorem error_weight {p : Par} (hl : Level p) {h : Hash} (hh : h.Ok) (m : List Nat) :
    let e := errorVector p h m
    Rt p e.1 ∧ Rt p e.2 ∧ Spec.wt p.R (bitB e.1) + Spec.wt p.R (bitB e.2) = p.T :=
  ⟨(errorVector_bits hl.lvl hh m).1.1, (errorVector_bits hl.lvl hh m).1.2,
    errorVector_weight hl.lvl hh m⟩

example := keypair_weights (p := L3) (Or.inr (Or.inl rfl)) exH_ok (List.range 64)
example := error_weight (p := L1) (Or.inl rfl) exH_ok (List.range 32)

/-! ## C83: decapsulation -/

/-- What SHA3-384 delivers. -/
def Hash.Sha (h : Hash) : Prop := ∀ m, (h.sha m).length = 48 ∧ ∀ x ∈ h.sha m, x < 256

theorem functionL_ok {h : Hash} (hs : Hash.Sha h) (e : List Nat × List Nat) :
    (functionL h e).length = 32 ∧ ∀ x ∈ functionL h e, x < 256 := by
  have := hs (e.1 ++ e.2)
  exact ⟨by simp [functionL, this.1], fun x hx => this.2 x (List.mem_of_mem_take hx)⟩

theorem xorL_bytes {a b : List Nat} (ha : ∀ x ∈ a, x < 256) (hb : ∀ x ∈ b, x < 256) :
    ∀ x ∈ xorL a b, x < 256 := by
  intro x hx
  obtain ⟨i, hi, rfl⟩ := List.getElem_of_mem hx
  simp only [xorL, List.getElem_zipWith]
  exact Nat.xor_lt_two_pow (n := 8) (ha _ (List.getElem_mem _)) (hb _ (List.getElem_mem _))

/-- C83: Decapsulation of any ciphertext under any secret key: with `e` the output of the decoder and
`m = c1 + L(e)`, the secret is `K(m, c)` if `m` generates `e`, and `K(sigma, c)` otherwise. -/
theorem dec_value (p : Par) {h : Hash} (hs : Hash.Sha h) (sk : Sk) (ct : Ct)
    (hsig : sk.sigma.length = 32 ∧ ∀ x ∈ sk.sigma, x < 256)
    (hc : ct.c1.length = 32 ∧ ∀ x ∈ ct.c1, x < 256) :
    let e := decode p sk ct
    let m := List.zipWith (· ^^^ ·) ((h.sha (e.1 ++ e.2)).take 32) ct.c1
    (errorVector p h m = e → dec p h sk ct = (h.sha (m ++ ct.c0 ++ ct.c1)).take 32) ∧
    (errorVector p h m ≠ e → dec p h sk ct = (h.sha (sk.sigma ++ ct.c0 ++ ct.c1)).take 32) := by
  have hL := functionL_ok hs (decode p sk ct)
  have hd := dec_eq (p := p) (h := h) (sk := sk) (ct := ct) (xorL_bytes hL.2 hc.2) hsig.2
    (by simp [xorL, hL.1, hc.1, hsig.1])
  refine ⟨fun he => ?_, fun he => ?_⟩
  · rw [hd]
    exact congrArg (functionK h · ct) (if_pos (show decode p sk ct = _ from he.symm))
  · rw [hd]
    exact congrArg (functionK h · ct) (if_neg (show ¬ decode p sk ct = _ from fun x => he x.symm))

/-- C83: The holder of the secret key computes the secret of the sender whenever the decoder finds the
error vector. -/
theorem dec_enc (p : Par) {h : Hash} (hs : Hash.Sha h) (sk : Sk) (seeds : List Nat)
    (hsig : sk.sigma.length = 32 ∧ ∀ x ∈ sk.sigma, x < 256)
    (hlen : 32 ≤ seeds.length) (hseed : ∀ x ∈ seeds, x < 256)
    (hdec : decode p sk (enc p h sk.pk seeds).1 = errorVector p h (seeds.take 32)) :
    dec p h sk (enc p h sk.pk seeds).1 = (enc p h sk.pk seeds).2 := by
  have hm : (seeds.take 32).length = 32 := by rw [List.length_take]; omega
  have hmb : ∀ x ∈ seeds.take 32, x < 256 := fun x hx => hseed x (List.mem_of_mem_take hx)
  have hL := functionL_ok hs (errorVector p h (seeds.take 32))
  have hc1 : (enc p h sk.pk seeds).1.c1 =
    xorL (functionL h (errorVector p h (seeds.take 32))) (seeds.take 32) := rfl
  have hcb : (enc p h sk.pk seeds).1.c1.length = 32 ∧ ∀ x ∈ (enc p h sk.pk seeds).1.c1, x < 256 := by
    rw [hc1]
    exact ⟨by simp [xorL, hL.1, hlen], xorL_bytes hL.2 hmb⟩
  have hv := (dec_value p hs sk (enc p h sk.pk seeds).1 hsig hcb).1
  have hx : List.zipWith (· ^^^ ·) ((h.sha ((decode p sk (enc p h sk.pk seeds).1).1 ++
      (decode p sk (enc p h sk.pk seeds).1).2)).take 32) (enc p h sk.pk seeds).1.c1 =
      seeds.take 32 := by
    rw [hdec, hc1]
    exact xorL_cancel _ _ (by rw [hm]; exact hL.1.ge)
  rw [hx] at hv
  rw [hv hdec.symm]
  rfl

/-- C83: Key generation, encapsulation and decapsulation together, for every parameter
set that meets the requirements: if the bit-flipping
decoder of the specification reaches the error vector within five iterations, and its thresholds
fit the counters until then, decapsulation returns the secret of the sender. -/
theorem kem_roundtrip_par {p : Par} (hl : Lvl p)
    (hc : 3 < p.thrMin ∧ p.thrMin ≤ 2 ^ (p.slices - 1) ∧ p.coeff0 / 10 ^ 8 ≤ p.thrMin) {h : Hash} (hh : h.Ok) (hs : Hash.Sha h)
    (kseeds seeds : List Nat) (hk : kseeds.length = 64 ∧ ∀ x ∈ kseeds, x < 256)
    (hlen : 32 ≤ seeds.length) (hseed : ∀ x ∈ seeds, x < 256) (n : Nat) (hn : n ≤ 5)
    (hit : let k := keypair p h kseeds
      let c := enc p h k.1 seeds
      let e := errorVector p h (seeds.take 32)
      (∀ i, i < p.R → bitB e.1 i = (Spec.run p k.2.wl0 k.2.wl1 (bitB c.1.c0) n).1 i ∧
        bitB e.2 i = (Spec.run p k.2.wl0 k.2.wl1 (bitB c.1.c0) n).2 i) ∧
      ∀ j, j < n → Spec.thr p (Spec.wt p.R (Spec.synd p.R k.2.wl0 k.2.wl1 (bitB c.1.c0)
        (Spec.run p k.2.wl0 k.2.wl1 (bitB c.1.c0) j))) ≤ 2 ^ (p.slices - 1)) :
    let k := keypair p h kseeds
    let c := enc p h k.1 seeds
    dec p h k.2 c.1 = c.2 := by
  haveI := hl.ne
  have hok := keypair_ok hl hh kseeds
  have he := (errorVector_bits hl hh (seeds.take 32)).1
  refine dec_enc p hs (keypair p h kseeds).2 seeds ?_ hlen hseed ?_
  · change ((kseeds.drop 32).take 32).length = 32 ∧ ∀ x ∈ (kseeds.drop 32).take 32, x < 256
    exact ⟨by simp [hk.1], fun x hx => hk.2 x (List.mem_of_mem_drop (List.mem_of_mem_take hx))⟩
  · exact decode_hit hl hc.1 hc.2.1 hc.2.2 h hok he.1 he.2 _ n hn hit.1 hit.2

/-- C83: The same at every level of the library. -/
theorem kem_roundtrip {p : Par} (hl : Level p) {h : Hash} (hh : h.Ok) (hs : Hash.Sha h)
    (kseeds seeds : List Nat) (hk : kseeds.length = 64 ∧ ∀ x ∈ kseeds, x < 256)
    (hlen : 32 ≤ seeds.length) (hseed : ∀ x ∈ seeds, x < 256) (n : Nat) (hn : n ≤ 5)
    (hit : let k := keypair p h kseeds
      let c := enc p h k.1 seeds
      let e := errorVector p h (seeds.take 32)
      (∀ i, i < p.R → bitB e.1 i = (Spec.run p k.2.wl0 k.2.wl1 (bitB c.1.c0) n).1 i ∧
        bitB e.2 i = (Spec.run p k.2.wl0 k.2.wl1 (bitB c.1.c0) n).2 i) ∧
      ∀ j, j < n → Spec.thr p (Spec.wt p.R (Spec.synd p.R k.2.wl0 k.2.wl1 (bitB c.1.c0)
        (Spec.run p k.2.wl0 k.2.wl1 (bitB c.1.c0) j))) ≤ 2 ^ (p.slices - 1)) :
    let k := keypair p h kseeds
    let c := enc p h k.1 seeds
    dec p h k.2 c.1 = c.2 :=
  kem_roundtrip_par hl.lvl (by rcases hl with rfl | rfl | rfl <;> decide) hh hs kseeds seeds hk hlen
    hseed n hn hit

/-- A small parameter set, for examples only. -/
def toy : Par where
  R := 67
  D := 7
  T := 2
  coeff0 := 10000000
  coeff1 := 0
  thrMin := 5
  k := 1
  exp0k := [1, 2, 4, 8, 16, 32, 64]
  exp0l := [0, 0, 0, 0, 0, 0, 0]
  exp1k := [0, 0, 0, 0, 0, 0, 1]
  exp1l := [0, 0, 0, 0, 0, 0, 0]

theorem toy_lvl : Lvl toy where
  pok := ⟨by decide, by decide, by decide, by decide, by decide⟩
  rok := by
    refine rok_of ?_ ?_ (by decide) (by decide)
    · have := two_pow_cast 67 66 1 (by decide +kernel)
      rw [Nat.cast_one] at this
      exact this
    · intro q hq hd
      have hd' : q ∣ 2 * 3 * 11 := hd
      rcases prime_dvd_three Nat.prime_two (by norm_num) (by norm_num) hq hd' with rfl | rfl | rfl
      · exact two_pow_ne 67 _ (by decide) (by decide +kernel)
      · exact two_pow_ne 67 _ (by decide) (by decide +kernel)
      · exact two_pow_ne 67 _ (by decide) (by decide +kernel)
  tab := by decide +kernel
  cok := ⟨by decide, by decide, by decide, fun w _ => (by
    apply threshold_of <;> (simp only [toy, Nat.zero_mul, Nat.add_zero]; decide))⟩
  dok := ⟨0, by decide, by decide, by decide⟩
  small := by decide
  dodd := by decide
  dlt := by decide
  tle := by decide

theorem exH_sha : Hash.Sha exH := fun m => ⟨by simp [exH], fun x hx => (by
  simp only [exH, List.mem_map] at hx
  obtain ⟨j, _, rfl⟩ := hx
  exact Nat.mod_lt _ (by decide))⟩

theorem toy_decodes : decode toy (keypair toy exH (List.range 64)).2
    (enc toy exH (keypair toy exH (List.range 64)).1 (List.range 32)).1 =
      errorVector toy exH ((List.range 32).take 32) := by decide +kernel

theorem range_bytes {n : Nat} (h : n ≤ 256) : ∀ x ∈ List.range n, x < 256 :=
  fun _ hx => Nat.lt_of_lt_of_le (List.mem_range.1 hx) h

example := dec_enc toy exH_sha (keypair toy exH (List.range 64)).2 (List.range 32)
  ⟨by decide, by decide⟩ (by decide) (range_bytes (by decide)) toy_decodes

/-- The hypotheses of `kem_roundtrip_par` hold for a key pair and an encapsulation. -/
example : dec toy exH (keypair toy exH (List.range 64)).2
    (enc toy exH (keypair toy exH (List.range 64)).1 (List.range 32)).1 =
    (enc toy exH (keypair toy exH (List.range 64)).1 (List.range 32)).2 := by
  haveI := toy_lvl.ne
  obtain ⟨_, hdok⟩ := toy_lvl.dok
  have hok := keypair_ok toy_lvl exH_ok (List.range 64)
  have he := (errorVector_bits toy_lvl exH_ok ((List.range 32).take 32)).1
  have hfit : ∀ w, Spec.thr toy w ≤ 2 ^ (toy.slices - 1) := by
    intro w
    unfold Spec.thr
    simp only [toy, Nat.zero_mul, Nat.add_zero]
    decide
  have hd := decode_sim toy_lvl.pok hdok toy_lvl.cok hok
    (ct := (enc toy exH (keypair toy exH (List.range 64)).1 (List.range 32)).1) (encrypt_c0 toy_lvl exH he.1 he.2 hok.pk ((List.range 32).take 32)).1 (fun n _ => hfit _)
  rw [toy_decodes] at hd
  exact kem_roundtrip_par toy_lvl (by decide) exH_ok exH_sha (List.range 64) (List.range 32)
    ⟨by decide, range_bytes (by decide)⟩ (by decide) (range_bytes (by decide)) 5 le_rfl
    ⟨hd.2, fun j _ => hfit _⟩

/-! ## C84: the decoder -/

/-- C84: At levels 1 and 5 the decoder computes exactly five iterations of the bit-flipping
specification, for every key the library generates and every ciphertext with clear padding. -/
theorem decode_exact {p : Par} (hl : p = L1 ∨ p = L5) {h : Hash} (hh : h.Ok) (seeds : List Nat)
    {ct : Ct} (hc : Rt p ct.c0) :
    let sk := (keypair p h seeds).2
    let e := decode p sk ct
    Rt p e.1 ∧ Rt p e.2 ∧ ∀ i, i < p.R →
      bitB e.1 i = (Spec.run p sk.wl0 sk.wl1 (bitB ct.c0) 5).1 i ∧
      bitB e.2 i = (Spec.run p sk.wl0 sk.wl1 (bitB ct.c0) 5).2 i := by
  have hlv : Lvl p := by
    rcases hl with rfl | rfl
    · exact L1_lvl
    · exact L5_lvl
  haveI := hlv.ne
  obtain ⟨hd, hdok⟩ := hlv.dok
  have := decode_sim hlv.pok hdok hlv.cok (keypair_ok hlv hh seeds) hc (by
    intro n _
    rcases hl with rfl | rfl
    · exact L1_fit _ (wt_le _ _)
    · exact L5_fit _ (wt_le _ _))
  exact ⟨this.1.1, this.1.2, this.2⟩

/-- C84: At level 3 this holds for ciphertexts whose syndromes stay at weight 21603 or below. -/
theorem decode_exact_L3_partial {h : Hash} (hh : h.Ok) (seeds : List Nat) {ct : Ct}
    (hc : Rt L3 ct.c0)
    (hw : ∀ n, n < 5 → Spec.wt L3.R (Spec.synd L3.R (keypair L3 h seeds).2.wl0
      (keypair L3 h seeds).2.wl1 (bitB ct.c0) (Spec.run L3 (keypair L3 h seeds).2.wl0
      (keypair L3 h seeds).2.wl1 (bitB ct.c0) n)) ≤ 21603) :
    let sk := (keypair L3 h seeds).2
    let e := decode L3 sk ct
    Rt L3 e.1 ∧ Rt L3 e.2 ∧ ∀ i, i < L3.R →
      bitB e.1 i = (Spec.run L3 sk.wl0 sk.wl1 (bitB ct.c0) 5).1 i ∧
      bitB e.2 i = (Spec.run L3 sk.wl0 sk.wl1 (bitB ct.c0) 5).2 i := by
  haveI := L3_lvl.ne
  obtain ⟨hd, hdok⟩ := L3_lvl.dok
  have := decode_sim L3_lvl.pok hdok L3_lvl.cok (keypair_ok L3_lvl hh seeds) hc
    (fun n hn => L3_fit _ (hw n hn))
  exact ⟨this.1.1, this.1.2, this.2⟩

theorem zero_ct (p : Par) : Rt p (List.replicate p.rb 0) := zero_rt p

example := decode_exact (p := L1) (Or.inl rfl) exH_ok (List.range 64)
  (ct := ⟨List.replicate L1.rb 0, []⟩) (zero_ct L1)

/-- C84: Finding, level 3: the counters are too narrow for the largest thresholds.  For every key there
is a ciphertext whose first iteration flips a position that takes part in no unsatisfied check,
although the threshold is 144. -/
theorem decode_L3_wraps {h : Hash} (hh : h.Ok) (seeds : List Nat) :
    let sk := (keypair L3 h seeds).2
    ∃ c0, Rt L3 c0 ∧
      let f := Spec.synd L3.R sk.wl0 sk.wl1 (bitB c0) (fun _ => false, fun _ => false)
      let s := syndrome L3 (wordsOf L3.pq c0) (wordsOf L3.pq sk.h0)
      let t := threshold L3 (rWeight L3 s)
      (∀ i, i < L3.R → bitW s i = f i) ∧ t = 144 ∧ Spec.thr L3 (Spec.wt L3.R f) = 144 ∧
      Spec.upc L3.R f sk.wl0 0 = 0 ∧
      bitB (findErr1 L3 (List.replicate L3.rb 0) s sk.wl0 t).1 0 = true := by
  haveI := L3_lvl.ne
  have hp := L3_lvl.pok
  obtain ⟨hd, hdok⟩ := L3_lvl.dok
  have hk := keypair_ok L3_lvl hh seeds
  obtain ⟨a1, a2, a3⟩ := list_ok L3_lvl hh (seeds.take 32) 0
  change (keypair L3 h seeds).2.wl0.length = L3.D at a1
  change (keypair L3 h seeds).2.wl0.Nodup at a2
  change ∀ w ∈ (keypair L3 h seeds).2.wl0, w < L3.R at a3
  generalize (keypair L3 h seeds).2 = sk at *
  -- the syndrome: ones everywhere except on the first column
  let cl := (List.range L3.R).filter fun i => decide (i ∉ sk.wl0)
  have hcl : ∀ w ∈ cl, w < L3.R := fun w hw => List.mem_range.1 (List.mem_filter.1 hw).1
  have hci : ∀ i, i < L3.R → Spec.ind cl i = !Spec.ind sk.wl0 i := by
    intro i hi
    simp only [Spec.ind, cl, List.mem_filter, List.mem_range]
    by_cases hm : i ∈ sk.wl0 <;> simp [hm, hi]
  obtain ⟨ps, qs⟩ := setBits_pad L3_lvl hcl
  obtain ⟨p0, q0⟩ := setBits_pad L3_lvl a3
  have hw : weight L3.R (setBits L3 0 sk.wl0) = L3.D := by
    have : weight L3.R (setBits L3 0 sk.wl0) = Spec.wt L3.R (bitW (setBits L3 0 sk.wl0)) := rfl
    rw [this, wt_congr (fun i _ => q0 i), wt_ind a2 a3, a1]
  have pi := (modInv_el hp L3_lvl.tab p0).1
  have hinv := modInv_mul hp L3_lvl.rok L3_lvl.tab p0 (by rw [hw]; exact L3_lvl.dodd)
    (by rw [hw]; exact L3_lvl.dlt)
  have pm := modMul_pad hp ps pi
  have rc := pad_rt hp pm
  refine ⟨bytesOf L3.rb (modMul L3 (setBits L3 0 cl) (modInv L3 (setBits L3 0 sk.wl0))), rc.1, ?_⟩
  have hel := (el_bytes hp pm).trans (modMul_el hp ps pi)
  generalize bytesOf L3.rb (modMul L3 (setBits L3 0 cl) (modInv L3 (setBits L3 0 sk.wl0))) = c0 at *
  have hf : ∀ i, i < L3.R → Spec.synd L3.R sk.wl0 sk.wl1 (bitB c0)
      (fun _ => false, fun _ => false) i = !Spec.ind sk.wl0 i := by
    intro i hi
    rw [← hci i hi]
    refine elF_inj (R := L3.R) ?_ i hi
    rw [elF_synd]
    simp only [elF_false]
    rw [add_zero, mul_zero, add_zero, hel, elF_ind L3_lvl a3, elF_ind L3_lvl hcl, mul_left_comm,
      hinv, mul_one]
  have pc := (rt_pad hp rc.1).1
  have ph := (rt_pad hp hk.h0).1
  have hsyn : Syn L3 (Spec.synd L3.R sk.wl0 sk.wl1 (bitB c0) (fun _ => false, fun _ => false))
      (syndrome L3 (wordsOf L3.pq c0) (wordsOf L3.pq sk.h0)) := by
    refine syn_congr hp (syndrome_syn hp pc ph) ?_
    refine elF_inj (R := L3.R) ?_
    rw [← el_eq_elF, modMul_el hp pc ph, el_words hp rc.1, el_words hp hk.h0, elF_synd,
      elF_congr hk.b0]
    simp only [elF_false]
    ring
  have hwt : Spec.wt L3.R (Spec.synd L3.R sk.wl0 sk.wl1 (bitB c0)
      (fun _ => false, fun _ => false)) = 24556 := by
    rw [wt_congr hf]
    have h1 := wt_compl L3.R (Spec.ind sk.wl0)
    rw [wt_ind a2 a3, a1] at h1
    have h2 : L3.D = 103 := rfl
    have h3 : L3.R = 24659 := rfl
    omega
  have hthr : Spec.thr L3 24556 = 144 := by decide
  have ht : threshold L3 (rWeight L3 (syndrome L3 (wordsOf L3.pq c0) (wordsOf L3.pq sk.h0))) =
      144 := by
    rw [rWeight_syn hp hsyn, hwt, L3_lvl.cok.thr _ (by decide), hthr]
  have hupc : Spec.upc L3.R (Spec.synd L3.R sk.wl0 sk.wl1 (bitB c0)
      (fun _ => false, fun _ => false)) sk.wl0 0 = 0 := by
    unfold Spec.upc
    rw [List.length_eq_zero_iff, List.filter_eq_nil_iff]
    intro w hw
    have hlt := a3 w hw
    rw [Nat.zero_add, Nat.mod_eq_of_lt hlt, hf w hlt]
    simp [Spec.ind, hw]
  refine ⟨fun i hi => ?_, ht, by rw [hwt, hthr], hupc, ?_⟩
  · rw [hsyn.bits i (by omega), Nat.mod_eq_of_lt hi]
  · rw [ht, findErr1_wrap hp hdok L3_lvl.cok.dist hsyn
      (byt_of_rt (zero_rt L3) (f := fun _ => false) (fun i _ => zero_bit L3 i)) hk.l0 hk.r0 144
      (by decide) 0 (by decide), hupc]
    decide

/-- C84: A zero syndrome is a fixed point of the decoder: once the error is found, the remaining
iterations do not change it. -/
theorem decode_fixed {p : Par} (hl : Level p) (wl0 wl1 : List Nat) (c0 : Nat → Bool) (n k : Nat)
    (h : ∀ i, i < p.R → Spec.synd p.R wl0 wl1 c0 (Spec.run p wl0 wl1 c0 n) i = false) :
    Spec.run p wl0 wl1 c0 (n + k) = Spec.run p wl0 wl1 c0 n := by
  refine run_stay (by have := hl.lvl.pok.ge; omega) ?_ wl0 wl1 c0 n h k
  rcases hl with rfl | rfl | rfl <;> decide

theorem synd_zero (p : Par) (hR : 0 < p.R) (wl0 wl1 : List Nat) (i : Nat) (hi : i < p.R) :
    Spec.synd p.R wl0 wl1 (fun _ => false) (fun _ => false, fun _ => false) i = false := by
  haveI : NeZero p.R := ⟨by omega⟩
  refine elF_inj (R := p.R) (f' := fun _ => false) ?_ i hi
  rw [elF_synd]
  simp only [elF_false]
  rw [add_zero, mul_zero, mul_zero, add_zero]

example (k : Nat) := decode_fixed (p := L3) (Or.inr (Or.inl rfl)) [1, 5] [2, 7] (fun _ => false) 0 k
  (synd_zero L3 (by decide) _ _)

example := decode_exact_L3_partial exH_ok (List.range 64) (ct := ⟨List.replicate L3.rb 0, []⟩)
  (zero_ct L3) (fun n _ => (by
    have hz : bitB (List.replicate L3.rb 0) = fun _ => false := funext (zero_bit L3)
    have h0 := synd_zero L3 (by decide) (keypair L3 exH (List.range 64)).2.wl0
      (keypair L3 exH (List.range 64)).2.wl1
    have hr := decode_fixed (p := L3) (Or.inr (Or.inl rfl)) _ _ (fun _ => false) 0 n h0
    rw [Nat.zero_add] at hr
    dsimp only
    rw [hz, hr]
    exact Nat.le_trans (wt_zero h0).le (Nat.zero_le _)))

end LC.Bike.Props
