import Verif.Dilithium.Reduce
import Verif.Kyber.NttLemmas
/-
The loops of `ntt` and `invntt_tomont` as layers, and the layers modulo `q`.
-/
namespace LC.Dilithium
open LC.Ntt
open LC.Kyber (Poly Byte upd mapLoop at8 b8 div_eq_of Same Fits fits_of mapLoop_spec)

abbrev Zq := ZMod 8380417

instance : Fact (1 < 8380417) := ⟨by decide⟩

/-- Coefficients as residues. -/
def cast (r : Poly) : Nat → Zq := fun i => ((r i : Int) : Zq)

theorem zq_eq {a b : Int} (h : (a - b) % 8380417 = 0) : ((a : Int) : Zq) = ((b : Int) : Zq) := by
  rw [← sub_eq_zero, ← Int.cast_sub]
  exact (ZMod.intCast_zmod_eq_zero_iff_dvd _ 8380417).2 (Int.dvd_of_emod_eq_zero h)

/-- `R^-1 = 8265825` modulo `q`. -/
def rinv : Zq := ((8265825 : Int) : Zq)

theorem mont_cast {x y : Int} (h : (x * 4294967296 - y) % 8380417 = 0) : ((x : Int) : Zq) = (y : Zq) * rinv := by
  have h1 : ((x * 4294967296 * 8265825 : Int) : Zq) = ((y * 8265825 : Int) : Zq) := zq_eq (by omega)
  have h2 : ((x * 4294967296 * 8265825 : Int) : Zq) = ((x : Int) : Zq) := zq_eq (by omega)
  rw [← h2, h1, Int.cast_mul]
  rfl

theorem montgomery_cast {a : Int} (h1 : -(8380417 * 2147483648) ≤ a) (h2 : a < 8380417 * 2147483648) :
    ((montgomeryReduce a : Int) : Zq) = (a : Zq) * rinv :=
  mont_cast (montgomery_reduce_exact_partial a h1 h2).2.2

/-- The bound by size of the argument. -/
theorem montgomery_bound (a : Int) (h1 : -(8380417 * 2147483648) ≤ a) (h2 : a ≤ 8380417 * 2147483648) :
    -(8380417 * 2147483648) + a < montgomeryReduce a * 4294967296 + 1 ∧ montgomeryReduce a * 4294967296 ≤ a + 8380417 * 2147483648 := by
  have h := (montgomery_reduce_no_overflow a h1 h2).2.2
  have hr := i32_range (i32 a * 58728449)
  have ht : (a - i32 (i32 a * 58728449) * 8380417) % 4294967296 = 0 := by unfold i32; omega
  rw [h]
  generalize i32 (i32 a * 58728449) = t at *
  omega

/-! ### Forward loops -/

theorem nttInner_spec (len : Nat) (z : Int) : ∀ cnt j r i, cnt ≤ len →
    nttInner len z cnt j r i =
      if j ≤ i ∧ i < j + cnt then i32 (r i + montgomeryReduce (z * r (i + len)))
      else if j + len ≤ i ∧ i < j + len + cnt then i32 (r (i - len) - montgomeryReduce (z * r i)) else r i := by
  intro cnt
  induction cnt with
  | zero => intro j r i _; rw [if_neg (by omega), if_neg (by omega)]; rfl
  | succ cnt ih =>
    intro j r i hc
    unfold nttInner
    dsimp only
    rw [ih _ _ _ (by omega)]
    have hlen : j ≠ j + len := by omega
    by_cases h1 : i = j
    · subst h1
      rw [if_neg (by omega), if_neg (by omega), if_pos (by omega)]
      have hl0 : len ≠ 0 := by omega
      simp [upd, hl0]
    by_cases h2 : i = j + len
    · subst h2
      rw [if_neg (by omega), if_neg (by omega), if_neg (by omega), if_pos (by omega)]
      simp only [upd, if_neg hlen.symm, if_true, Nat.add_sub_cancel]
    by_cases h3 : j ≤ i ∧ i < j + (cnt + 1)
    · rw [if_pos h3, if_pos (by omega)]
      have e1 : i + len ≠ j := by omega
      have e2 : i + len ≠ j + len := by omega
      simp only [upd, if_neg h1, if_neg h2, if_neg e1, if_neg e2]
    by_cases h4 : j + len ≤ i ∧ i < j + len + (cnt + 1)
    · rw [if_neg h3, if_neg (by omega), if_pos h4, if_pos (by omega)]
      have e1 : i - len ≠ j := by omega
      have e2 : i - len ≠ j + len := by omega
      simp only [upd, if_neg h1, if_neg h2, if_neg e1, if_neg e2]
    rw [if_neg h3, if_neg h4, if_neg (by omega), if_neg (by omega)]
    simp only [upd, if_neg h1, if_neg h2]

/-- One layer of `ntt`, pointwise. -/
def layerI (len k0 : Nat) (r : Poly) : Poly := fun i =>
  if i % (len + len) < len then i32 (r i + montgomeryReduce (zetas (k0 + i / (len + len)) * r (i + len)))
  else i32 (r (i - len) - montgomeryReduce (zetas (k0 + i / (len + len)) * r i))

theorem nttBlocks_spec (len nb : Nat) (hl : 0 < len) (hn : (len + len) * nb = 256) (k0 : Nat) : ∀ fuel s r, s ≤ nb → nb < fuel + s →
    (nttBlocks len fuel (k0 + s) ((len + len) * s) r).1 = k0 + nb ∧
    ∀ i < 256, (nttBlocks len fuel (k0 + s) ((len + len) * s) r).2 i =
      if (len + len) * s ≤ i then layerI len (k0 + 1) r i else r i := by
  intro fuel
  induction fuel with
  | zero => intro s r h1 h2; omega
  | succ fuel ih =>
    intro s r h1 h2
    unfold nttBlocks
    by_cases hs : s = nb
    · subst hs
      rw [hn, if_neg (by omega)]
      refine ⟨rfl, fun i hi => ?_⟩
      rw [if_neg (by omega)]
    · have hsn : (len + len) * (s + 1) ≤ 256 := by rw [← hn]; exact Nat.mul_le_mul_left _ (by omega)
      have hm : (len + len) * (s + 1) = (len + len) * s + len + len := by rw [Nat.mul_add]; omega
      rw [if_pos (by omega), show k0 + s + 1 = k0 + (s + 1) by omega, ← hm, show zetas (k0 + (s + 1)) = zetas (k0 + 1 + s) by rw [show k0 + (s + 1) = k0 + 1 + s by omega]]
      obtain ⟨g1, g2⟩ := ih (s + 1) (nttInner len (zetas (k0 + 1 + s)) len ((len + len) * s) r) (by omega) (by omega)
      refine ⟨g1, fun i hi => ?_⟩
      rw [g2 i hi]
      have hsp := nttInner_spec len (zetas (k0 + 1 + s)) len ((len + len) * s) r
      by_cases hA : (len + len) * (s + 1) ≤ i
      · rw [if_pos hA, if_pos (by omega)]
        -- a later block: the inner loop did not touch it
        have hq : s + 1 ≤ i / (len + len) := by
          rw [Nat.le_div_iff_mul_le (by omega), Nat.mul_comm]; exact hA
        have hb : (len + len) * (i / (len + len)) + i % (len + len) = i := Nat.div_add_mod _ _
        have hb2 : (len + len) * (s + 1) ≤ (len + len) * (i / (len + len)) := Nat.mul_le_mul_left _ hq
        have hr : i % (len + len) < len + len := Nat.mod_lt _ (by omega)
        unfold layerI
        by_cases hlt : i % (len + len) < len
        · rw [if_pos hlt, if_pos hlt, hsp i (Nat.le_refl _), hsp (i + len) (Nat.le_refl _),
            if_neg (by omega), if_neg (by omega), if_neg (by omega), if_neg (by omega)]
        · rw [if_neg hlt, if_neg hlt, hsp i (Nat.le_refl _), hsp (i - len) (Nat.le_refl _),
            if_neg (by omega), if_neg (by omega), if_neg (by omega), if_neg (by omega)]
      · rw [if_neg hA]
        rw [hsp i (Nat.le_refl _)]
        by_cases hB : (len + len) * s ≤ i
        · rw [if_pos hB]
          obtain ⟨e1, e2⟩ := div_eq_of (d := len + len) hB (by omega)
          unfold layerI
          rw [e1, e2]
          by_cases hlt : i - (len + len) * s < len
          · rw [if_pos (by omega), if_pos hlt]
          · rw [if_neg (by omega), if_pos (by omega), if_neg hlt]
        · rw [if_neg hB, if_neg (by omega), if_neg (by omega)]

theorem layerI_same {len k0 : Nat} (hf : Fits len) {a b : Poly} (h : Same a b) : Same (layerI len k0 a) (layerI len k0 b) := by
  intro i hi
  obtain ⟨f1, f2⟩ := hf.2 i hi
  unfold layerI
  by_cases hlt : i % (len + len) < len
  · rw [if_pos hlt, if_pos hlt, h i hi, h _ (f1 hlt)]
  · rw [if_neg hlt, if_neg hlt, h i hi, h _ (by omega)]

theorem nttBlocks_layer (len nb k0 : Nat) (hl : 0 < len) (hn : (len + len) * nb = 256) (hnb : nb < 256) (r : Poly) :
    (nttBlocks len 256 k0 0 r).1 = k0 + nb ∧ Same (nttBlocks len 256 k0 0 r).2 (layerI len (k0 + 1) r) := by
  have := nttBlocks_spec len nb hl hn k0 256 0 r (by omega) (by omega)
  rw [Nat.mul_zero, Nat.add_zero] at this
  refine ⟨this.1, fun i hi => ?_⟩
  rw [this.2 i hi, if_pos (by omega)]

/-- `ntt` is eight layers. -/
theorem ntt_layers (r : Poly) : Same (ntt r)
    (layerI 1 128 (layerI 2 64 (layerI 4 32 (layerI 8 16 (layerI 16 8 (layerI 32 4 (layerI 64 2 (layerI 128 1 r)))))))) := by
  have step : ∀ (fuel len nb k0 : Nat) (s g : Poly), 0 < len → (len + len) * nb = 256 → nb < 256 → Fits len → Same s g →
      ∃ s', Same s' (layerI len (k0 + 1) g) ∧ nttLayers (fuel + 1) len k0 s = nttLayers fuel (len / 2) (k0 + nb) s' := by
    intro fuel len nb k0 s g h1 h2 h3 h4 h5
    obtain ⟨e1, e2⟩ := nttBlocks_layer len nb k0 (by omega) h2 h3 s
    refine ⟨(nttBlocks len 256 k0 0 s).2, e2.trans (layerI_same h4 h5), ?_⟩
    rw [nttLayers, if_pos h1]
    dsimp only
    rw [e1]
  unfold ntt
  obtain ⟨s1, h1, e1⟩ := step 8 128 1 0 r r (by decide) (by decide) (by decide) (fits_of (by decide)) (fun _ _ => rfl)
  obtain ⟨s2, h2, e2⟩ := step 7 64 2 1 s1 _ (by decide) (by decide) (by decide) (fits_of (by decide)) h1
  obtain ⟨s3, h3, e3⟩ := step 6 32 4 3 s2 _ (by decide) (by decide) (by decide) (fits_of (by decide)) h2
  obtain ⟨s4, h4, e4⟩ := step 5 16 8 7 s3 _ (by decide) (by decide) (by decide) (fits_of (by decide)) h3
  obtain ⟨s5, h5, e5⟩ := step 4 8 16 15 s4 _ (by decide) (by decide) (by decide) (fits_of (by decide)) h4
  obtain ⟨s6, h6, e6⟩ := step 3 4 32 31 s5 _ (by decide) (by decide) (by decide) (fits_of (by decide)) h5
  obtain ⟨s7, h7, e7⟩ := step 2 2 64 63 s6 _ (by decide) (by decide) (by decide) (fits_of (by decide)) h6
  obtain ⟨s8, h8, e8⟩ := step 1 1 128 127 s7 _ (by decide) (by decide) (by decide) (fits_of (by decide)) h7
  have : nttLayers 9 128 0 r = s8 := by
    rw [e1]
    show nttLayers 8 64 1 s1 = s8
    rw [e2]
    show nttLayers 7 32 3 s2 = s8
    rw [e3]
    show nttLayers 6 16 7 s3 = s8
    rw [e4]
    show nttLayers 5 8 15 s4 = s8
    rw [e5]
    show nttLayers 4 4 31 s5 = s8
    rw [e6]
    show nttLayers 3 2 63 s6 = s8
    rw [e7]
    show nttLayers 2 1 127 s7 = s8
    rw [e8]
    show nttLayers 1 0 255 s8 = s8
    rw [nttLayers, if_neg (by decide)]
  rw [this]
  exact h8

/-! ### Backward loops -/

theorem invInner_spec (len : Nat) (z : Int) : ∀ cnt j r i, cnt ≤ len →
    invInner len z cnt j r i =
      if j ≤ i ∧ i < j + cnt then i32 (r i + r (i + len))
      else if j + len ≤ i ∧ i < j + len + cnt then montgomeryReduce (z * i32 (r (i - len) - r i)) else r i := by
  intro cnt
  induction cnt with
  | zero => intro j r i _; rw [if_neg (by omega), if_neg (by omega)]; rfl
  | succ cnt ih =>
    intro j r i hc
    unfold invInner
    dsimp only
    rw [ih _ _ _ (by omega)]
    have hlen : j ≠ j + len := by omega
    by_cases h1 : i = j
    · subst h1
      rw [if_neg (by omega), if_neg (by omega), if_pos (by omega)]
      have hl0 : len ≠ 0 := by omega
      simp [upd, hl0]
    by_cases h2 : i = j + len
    · subst h2
      rw [if_neg (by omega), if_neg (by omega), if_neg (by omega), if_pos (by omega)]
      simp only [upd, if_neg hlen.symm, if_true, Nat.add_sub_cancel]
    by_cases h3 : j ≤ i ∧ i < j + (cnt + 1)
    · rw [if_pos h3, if_pos (by omega)]
      have e1 : i + len ≠ j := by omega
      have e2 : i + len ≠ j + len := by omega
      simp only [upd, if_neg h1, if_neg h2, if_neg e1, if_neg e2]
    by_cases h4 : j + len ≤ i ∧ i < j + len + (cnt + 1)
    · rw [if_neg h3, if_neg (by omega), if_pos h4, if_pos (by omega)]
      have e1 : i - len ≠ j := by omega
      have e2 : i - len ≠ j + len := by omega
      simp only [upd, if_neg h1, if_neg h2, if_neg e1, if_neg e2]
    rw [if_neg h3, if_neg h4, if_neg (by omega), if_neg (by omega)]
    simp only [upd, if_neg h1, if_neg h2]

/-- One layer of `invntt_tomont`, pointwise; block `b` uses `-zetas (kt - b - 1)`. -/
def invLayerI (len kt : Nat) (r : Poly) : Poly := fun i =>
  if i % (len + len) < len then i32 (r i + r (i + len))
  else montgomeryReduce (i32 (-zetas (kt - i / (len + len) - 1)) * i32 (r (i - len) - r i))

theorem invBlocks_spec (len nb : Nat) (hl : 0 < len) (hn : (len + len) * nb = 256) (kt : Nat) : ∀ fuel s r, s ≤ nb → nb < fuel + s →
    (invBlocks len fuel (kt - s) ((len + len) * s) r).1 = kt - nb ∧
    ∀ i < 256, (invBlocks len fuel (kt - s) ((len + len) * s) r).2 i =
      if (len + len) * s ≤ i then invLayerI len kt r i else r i := by
  intro fuel
  induction fuel with
  | zero => intro s r h1 h2; omega
  | succ fuel ih =>
    intro s r h1 h2
    unfold invBlocks
    by_cases hs : s = nb
    · subst hs
      rw [hn, if_neg (by omega)]
      refine ⟨rfl, fun i hi => ?_⟩
      rw [if_neg (by omega)]
    · have hsn : (len + len) * (s + 1) ≤ 256 := by rw [← hn]; exact Nat.mul_le_mul_left _ (by omega)
      have hm : (len + len) * (s + 1) = (len + len) * s + len + len := by rw [Nat.mul_add]; omega
      rw [if_pos (by omega), ← hm]
      have hk : invBlocks len fuel (kt - s - 1) = invBlocks len fuel (kt - (s + 1)) := by rw [show kt - s - 1 = kt - (s + 1) by omega]
      rw [hk]
      obtain ⟨g1, g2⟩ := ih (s + 1) (invInner len (i32 (-zetas (kt - s - 1))) len ((len + len) * s) r) (by omega) (by omega)
      refine ⟨g1, fun i hi => ?_⟩
      rw [g2 i hi]
      have hsp := invInner_spec len (i32 (-zetas (kt - s - 1))) len ((len + len) * s) r
      by_cases hA : (len + len) * (s + 1) ≤ i
      · rw [if_pos hA, if_pos (by omega)]
        have hq : s + 1 ≤ i / (len + len) := by
          rw [Nat.le_div_iff_mul_le (by omega), Nat.mul_comm]; exact hA
        have hb : (len + len) * (i / (len + len)) + i % (len + len) = i := Nat.div_add_mod _ _
        have hb2 : (len + len) * (s + 1) ≤ (len + len) * (i / (len + len)) := Nat.mul_le_mul_left _ hq
        have hr : i % (len + len) < len + len := Nat.mod_lt _ (by omega)
        unfold invLayerI
        by_cases hlt : i % (len + len) < len
        · rw [if_pos hlt, if_pos hlt, hsp i (Nat.le_refl _), hsp (i + len) (Nat.le_refl _),
            if_neg (by omega), if_neg (by omega), if_neg (by omega), if_neg (by omega)]
        · rw [if_neg hlt, if_neg hlt, hsp i (Nat.le_refl _), hsp (i - len) (Nat.le_refl _),
            if_neg (by omega), if_neg (by omega), if_neg (by omega), if_neg (by omega)]
      · rw [if_neg hA]
        rw [hsp i (Nat.le_refl _)]
        by_cases hB : (len + len) * s ≤ i
        · rw [if_pos hB]
          obtain ⟨e1, e2⟩ := div_eq_of (d := len + len) hB (by omega)
          unfold invLayerI
          rw [e1, e2]
          by_cases hlt : i - (len + len) * s < len
          · rw [if_pos (by omega), if_pos hlt]
          · rw [if_neg (by omega), if_pos (by omega), if_neg hlt]
        · rw [if_neg hB, if_neg (by omega), if_neg (by omega)]

theorem invLayerI_same {len kt : Nat} (hf : Fits len) {a b : Poly} (h : Same a b) : Same (invLayerI len kt a) (invLayerI len kt b) := by
  intro i hi
  obtain ⟨f1, f2⟩ := hf.2 i hi
  unfold invLayerI
  by_cases hlt : i % (len + len) < len
  · rw [if_pos hlt, if_pos hlt, h i hi, h _ (f1 hlt)]
  · rw [if_neg hlt, if_neg hlt, h i hi, h _ (by omega)]

/-- `invntt_tomont` is eight layers and a scaling. -/
theorem invntt_layers (r : Poly) : Same (invntt r) (fun i => montgomeryReduce (41978 *
    invLayerI 128 2 (invLayerI 64 4 (invLayerI 32 8 (invLayerI 16 16 (invLayerI 8 32 (invLayerI 4 64 (invLayerI 2 128 (invLayerI 1 256 r))))))) i)) := by
  have step : ∀ (fuel len nb kt : Nat) (s g : Poly), 0 < len → len < 256 → (len + len) * nb = 256 → nb < 256 → Fits len → Same s g →
      ∃ s', Same s' (invLayerI len kt g) ∧ invLayers (fuel + 1) len kt s = invLayers fuel (len * 2) (kt - nb) s' := by
    intro fuel len nb kt s g h0 h1 h2 h3 h4 h5
    have hb := invBlocks_spec len nb h0 h2 kt 256 0 s (by omega) (by omega)
    rw [Nat.mul_zero, Nat.sub_zero] at hb
    refine ⟨(invBlocks len 256 kt 0 s).2, Same.trans (fun i hi => ?_) (invLayerI_same h4 h5), ?_⟩
    · rw [hb.2 i hi, if_pos (by omega)]
    · rw [invLayers, if_pos h1]
      dsimp only
      rw [hb.1]
  obtain ⟨s1, h1, e1⟩ := step 8 1 128 256 r r (by decide) (by decide) (by decide) (by decide) (fits_of (by decide)) (fun _ _ => rfl)
  obtain ⟨s2, h2, e2⟩ := step 7 2 64 128 s1 _ (by decide) (by decide) (by decide) (by decide) (fits_of (by decide)) h1
  obtain ⟨s3, h3, e3⟩ := step 6 4 32 64 s2 _ (by decide) (by decide) (by decide) (by decide) (fits_of (by decide)) h2
  obtain ⟨s4, h4, e4⟩ := step 5 8 16 32 s3 _ (by decide) (by decide) (by decide) (by decide) (fits_of (by decide)) h3
  obtain ⟨s5, h5, e5⟩ := step 4 16 8 16 s4 _ (by decide) (by decide) (by decide) (by decide) (fits_of (by decide)) h4
  obtain ⟨s6, h6, e6⟩ := step 3 32 4 8 s5 _ (by decide) (by decide) (by decide) (by decide) (fits_of (by decide)) h5
  obtain ⟨s7, h7, e7⟩ := step 2 64 2 4 s6 _ (by decide) (by decide) (by decide) (by decide) (fits_of (by decide)) h6
  obtain ⟨s8, h8, e8⟩ := step 1 128 1 2 s7 _ (by decide) (by decide) (by decide) (by decide) (fits_of (by decide)) h7
  have : invLayers 9 1 256 r = s8 := by
    rw [e1]
    show invLayers 8 2 128 s1 = s8
    rw [e2]
    show invLayers 7 4 64 s2 = s8
    rw [e3]
    show invLayers 6 8 32 s3 = s8
    rw [e4]
    show invLayers 5 16 16 s4 = s8
    rw [e5]
    show invLayers 4 32 8 s5 = s8
    rw [e6]
    show invLayers 3 64 4 s6 = s8
    rw [e7]
    show invLayers 2 128 2 s7 = s8
    rw [e8]
    show invLayers 1 256 1 s8 = s8
    rw [invLayers, if_neg (by decide)]
  intro i hi
  unfold invntt
  rw [mapLoop_spec, if_pos (by omega), this, h8 i hi]

end LC.Dilithium
