import Verif.Kyber.Reduce
import Verif.Ntt.Layer
import Mathlib.Data.ZMod.Basic
/-
The loops of `kyber_ntt` and `kyber_invntt` as layers, and the layers modulo `q`.
-/
namespace LC.Kyber
open LC.Ntt

abbrev Zq := ZMod 3329

instance : Fact (1 < 3329) := ⟨by decide⟩

/-- Coefficients as residues. -/
def cast (r : Poly) : Nat → Zq := fun i => ((r i : Int) : Zq)

theorem zq_eq {a b : Int} (h : (a - b) % 3329 = 0) : ((a : Int) : Zq) = ((b : Int) : Zq) := by
  rw [← sub_eq_zero, ← Int.cast_sub]
  exact (ZMod.intCast_zmod_eq_zero_iff_dvd _ 3329).2 (Int.dvd_of_emod_eq_zero h)

/-- `R^-1 = 169` modulo `q`. -/
theorem mont_cast {x y : Int} (h : (x * 65536 - y) % 3329 = 0) : ((x : Int) : Zq) = (y : Zq) * 169 := by
  have h1 : ((x * 65536 * 169 : Int) : Zq) = ((y * 169 : Int) : Zq) := zq_eq (by omega)
  have h2 : ((x * 65536 * 169 : Int) : Zq) = ((x : Int) : Zq) := zq_eq (by omega)
  rw [← h2, h1, Int.cast_mul]
  rfl

theorem fqmul_cast {a b : Int} (h1 : -(3329 * 32768) ≤ a * b) (h2 : a * b < 3329 * 32768) :
    ((fqmul a b : Int) : Zq) = (a : Zq) * (b : Zq) * 169 := by
  rw [mont_cast (fqmul_exact a b h1 h2).2.2, Int.cast_mul]

theorem barrett_cast {a : Int} (h1 : -32768 ≤ a) (h2 : a < 32768) : ((barrettReduce a : Int) : Zq) = (a : Zq) :=
  zq_eq (barrett_reduce_exact a h1 h2).2.2

/-! ### Forward loops -/

theorem nttInner_spec (len : Nat) (z : Int) : ∀ cnt j r i, cnt ≤ len →
    nttInner len z cnt j r i =
      if j ≤ i ∧ i < j + cnt then i16 (r i + fqmul z (r (i + len)))
      else if j + len ≤ i ∧ i < j + len + cnt then i16 (r (i - len) - fqmul z (r i)) else r i := by
  intro cnt
  induction cnt with
  | zero => intro j r i _; rw [if_neg (by omega), if_neg (by omega)]; rfl
  | succ cnt ih =>
    intro j r i hc
    unfold nttInner
    dsimp only
    rw [ih _ _ _ (by omega)]
    have hlen : j ≠ j + len := by omega
    by_cases h1 : i = j
    · subst h1
      rw [if_neg (by omega), if_neg (by omega), if_pos (by omega)]
      have hl0 : len ≠ 0 := by omega
      simp [upd, hl0]
    by_cases h2 : i = j + len
    · subst h2
      rw [if_neg (by omega), if_neg (by omega), if_neg (by omega), if_pos (by omega)]
      simp only [upd, if_neg hlen.symm, if_true, Nat.add_sub_cancel]
    by_cases h3 : j ≤ i ∧ i < j + (cnt + 1)
    · rw [if_pos h3, if_pos (by omega)]
      have e1 : i + len ≠ j := by omega
      have e2 : i + len ≠ j + len := by omega
      simp only [upd, if_neg h1, if_neg h2, if_neg e1, if_neg e2]
    by_cases h4 : j + len ≤ i ∧ i < j + len + (cnt + 1)
    · rw [if_neg h3, if_neg (by omega), if_pos h4, if_pos (by omega)]
      have e1 : i - len ≠ j := by omega
      have e2 : i - len ≠ j + len := by omega
      simp only [upd, if_neg h1, if_neg h2, if_neg e1, if_neg e2]
    rw [if_neg h3, if_neg h4, if_neg (by omega), if_neg (by omega)]
    simp only [upd, if_neg h1, if_neg h2]

/-- One layer of `kyber_ntt`, pointwise. -/
def layerI (len k0 : Nat) (r : Poly) : Poly := fun i =>
  if i % (len + len) < len then i16 (r i + fqmul (zetas (k0 + i / (len + len))) (r (i + len)))
  else i16 (r (i - len) - fqmul (zetas (k0 + i / (len + len))) (r i))

theorem div_eq_of {d i s : Nat} (h1 : d * s ≤ i) (h2 : i < d * s + d) : i / d = s ∧ i % d = i - d * s := by
  have hd : 0 < d := by omega
  obtain ⟨x, hx⟩ : ∃ x, i = d * s + x := ⟨i - d * s, by omega⟩
  subst hx
  constructor
  · rw [Nat.mul_add_div hd, Nat.div_eq_of_lt (by omega), Nat.add_zero]
  · rw [Nat.mul_add_mod, Nat.mod_eq_of_lt (by omega)]; omega

theorem nttBlocks_spec (len nb : Nat) (hl : 0 < len) (hn : (len + len) * nb = 256) (k0 : Nat) : ∀ fuel s r, s ≤ nb → nb < fuel + s →
    (nttBlocks len fuel (k0 + s) ((len + len) * s) r).1 = k0 + nb ∧
    ∀ i < 256, (nttBlocks len fuel (k0 + s) ((len + len) * s) r).2 i =
      if (len + len) * s ≤ i then layerI len k0 r i else r i := by
  intro fuel
  induction fuel with
  | zero => intro s r h1 h2; omega
  | succ fuel ih =>
    intro s r h1 h2
    unfold nttBlocks
    by_cases hs : s = nb
    · subst hs
      rw [hn, if_neg (by omega)]
      refine ⟨rfl, fun i hi => ?_⟩
      rw [if_neg (by omega)]
    · have hsn : (len + len) * (s + 1) ≤ 256 := by rw [← hn]; exact Nat.mul_le_mul_left _ (by omega)
      have hm : (len + len) * (s + 1) = (len + len) * s + len + len := by rw [Nat.mul_add]; omega
      rw [if_pos (by omega), show k0 + s + 1 = k0 + (s + 1) by omega, ← hm]
      obtain ⟨g1, g2⟩ := ih (s + 1) (nttInner len (zetas (k0 + s)) len ((len + len) * s) r) (by omega) (by omega)
      refine ⟨g1, fun i hi => ?_⟩
      rw [g2 i hi]
      have hsp := nttInner_spec len (zetas (k0 + s)) len ((len + len) * s) r
      by_cases hA : (len + len) * (s + 1) ≤ i
      · rw [if_pos hA, if_pos (by omega)]
        -- a later block: the inner loop did not touch it
        have hq : s + 1 ≤ i / (len + len) := by
          rw [Nat.le_div_iff_mul_le (by omega), Nat.mul_comm]; exact hA
        have hb : (len + len) * (i / (len + len)) + i % (len + len) = i := Nat.div_add_mod _ _
        have hb2 : (len + len) * (s + 1) ≤ (len + len) * (i / (len + len)) := Nat.mul_le_mul_left _ hq
        have hr : i % (len + len) < len + len := Nat.mod_lt _ (by omega)
        unfold layerI
        by_cases hlt : i % (len + len) < len
        · rw [if_pos hlt, if_pos hlt, hsp i (Nat.le_refl _), hsp (i + len) (Nat.le_refl _),
            if_neg (by omega), if_neg (by omega), if_neg (by omega), if_neg (by omega)]
        · rw [if_neg hlt, if_neg hlt, hsp i (Nat.le_refl _), hsp (i - len) (Nat.le_refl _),
            if_neg (by omega), if_neg (by omega), if_neg (by omega), if_neg (by omega)]
      · rw [if_neg hA]
        rw [hsp i (Nat.le_refl _)]
        by_cases hB : (len + len) * s ≤ i
        · rw [if_pos hB]
          obtain ⟨e1, e2⟩ := div_eq_of (d := len + len) hB (by omega)
          unfold layerI
          rw [e1, e2]
          by_cases hlt : i - (len + len) * s < len
          · rw [if_pos (by omega), if_pos hlt]
          · rw [if_neg (by omega), if_pos (by omega), if_neg hlt]
        · rw [if_neg hB, if_neg (by omega), if_neg (by omega)]

/-- Equality on the 256 array entries. -/
def Same (a b : Poly) : Prop := ∀ i < 256, a i = b i

/-- Lengths for which layers stay inside the array. -/
def Fits (len : Nat) : Prop :=
  0 < len ∧ ∀ i < 256, (i % (len + len) < len → i + len < 256) ∧ (¬ i % (len + len) < len → len ≤ i)

theorem layerI_same {len k0 : Nat} (hf : Fits len) {a b : Poly} (h : Same a b) : Same (layerI len k0 a) (layerI len k0 b) := by
  intro i hi
  obtain ⟨f1, f2⟩ := hf.2 i hi
  unfold layerI
  by_cases hlt : i % (len + len) < len
  · rw [if_pos hlt, if_pos hlt, h i hi, h _ (f1 hlt)]
  · rw [if_neg hlt, if_neg hlt, h i hi, h _ (by omega)]

theorem Same.trans {a b c : Poly} (h : Same a b) (h' : Same b c) : Same a c := fun i hi => (h i hi).trans (h' i hi)

theorem fits_of {len : Nat} (h : len = 1 ∨ len = 2 ∨ len = 4 ∨ len = 8 ∨ len = 16 ∨ len = 32 ∨ len = 64 ∨ len = 128) : Fits len := by
  refine ⟨by omega, fun i hi => ?_⟩
  rcases h with h | h | h | h | h | h | h | h <;> subst h <;> omega

theorem nttBlocks_layer (len nb k0 : Nat) (hl : 0 < len) (hn : (len + len) * nb = 256) (hnb : nb < 256) (r : Poly) :
    (nttBlocks len 256 k0 0 r).1 = k0 + nb ∧ Same (nttBlocks len 256 k0 0 r).2 (layerI len k0 r) := by
  have := nttBlocks_spec len nb hl hn k0 256 0 r (by omega) (by omega)
  rw [Nat.mul_zero, Nat.add_zero] at this
  refine ⟨this.1, fun i hi => ?_⟩
  rw [this.2 i hi, if_pos (by omega)]

/-- `kyber_ntt` is seven layers. -/
theorem kyberNtt_layers (r : Poly) : Same (kyberNtt r)
    (layerI 2 64 (layerI 4 32 (layerI 8 16 (layerI 16 8 (layerI 32 4 (layerI 64 2 (layerI 128 1 r))))))) := by
  have step : ∀ (fuel len nb k0 : Nat) (s g : Poly), 2 ≤ len → (len + len) * nb = 256 → nb < 256 → Fits len → Same s g →
      ∃ s', Same s' (layerI len k0 g) ∧ nttLayers (fuel + 1) len k0 s = nttLayers fuel (len / 2) (k0 + nb) s' := by
    intro fuel len nb k0 s g h1 h2 h3 h4 h5
    obtain ⟨e1, e2⟩ := nttBlocks_layer len nb k0 (by omega) h2 h3 s
    refine ⟨(nttBlocks len 256 k0 0 s).2, e2.trans (layerI_same h4 h5), ?_⟩
    rw [nttLayers, if_pos h1]
    dsimp only
    rw [e1]
  unfold kyberNtt
  obtain ⟨s1, h1, e1⟩ := step 7 128 1 1 r r (by decide) (by decide) (by decide) (fits_of (by decide)) (fun _ _ => rfl)
  obtain ⟨s2, h2, e2⟩ := step 6 64 2 2 s1 _ (by decide) (by decide) (by decide) (fits_of (by decide)) h1
  obtain ⟨s3, h3, e3⟩ := step 5 32 4 4 s2 _ (by decide) (by decide) (by decide) (fits_of (by decide)) h2
  obtain ⟨s4, h4, e4⟩ := step 4 16 8 8 s3 _ (by decide) (by decide) (by decide) (fits_of (by decide)) h3
  obtain ⟨s5, h5, e5⟩ := step 3 8 16 16 s4 _ (by decide) (by decide) (by decide) (fits_of (by decide)) h4
  obtain ⟨s6, h6, e6⟩ := step 2 4 32 32 s5 _ (by decide) (by decide) (by decide) (fits_of (by decide)) h5
  obtain ⟨s7, h7, e7⟩ := step 1 2 64 64 s6 _ (by decide) (by decide) (by decide) (fits_of (by decide)) h6
  have : nttLayers 8 128 1 r = s7 := by
    rw [e1]
    show nttLayers 7 64 2 s1 = s7
    rw [e2]
    show nttLayers 6 32 4 s2 = s7
    rw [e3]
    show nttLayers 5 16 8 s3 = s7
    rw [e4]
    show nttLayers 4 8 16 s4 = s7
    rw [e5]
    show nttLayers 3 4 32 s5 = s7
    rw [e6]
    show nttLayers 2 2 64 s6 = s7
    rw [e7]
    show nttLayers 1 1 128 s7 = s7
    rw [nttLayers, if_neg (by decide)]
  rw [this]
  exact h7

/-! ### Backward loops -/

theorem invInner_spec (len : Nat) (z : Int) : ∀ cnt j r i, cnt ≤ len →
    invInner len z cnt j r i =
      if j ≤ i ∧ i < j + cnt then barrettReduce (i16 (r i + r (i + len)))
      else if j + len ≤ i ∧ i < j + len + cnt then fqmul z (i16 (r i - r (i - len))) else r i := by
  intro cnt
  induction cnt with
  | zero => intro j r i _; rw [if_neg (by omega), if_neg (by omega)]; rfl
  | succ cnt ih =>
    intro j r i hc
    unfold invInner
    dsimp only
    rw [ih _ _ _ (by omega)]
    have hlen : j ≠ j + len := by omega
    by_cases h1 : i = j
    · subst h1
      rw [if_neg (by omega), if_neg (by omega), if_pos (by omega)]
      have hl0 : len ≠ 0 := by omega
      simp [upd, hl0]
    by_cases h2 : i = j + len
    · subst h2
      rw [if_neg (by omega), if_neg (by omega), if_neg (by omega), if_pos (by omega)]
      simp only [upd, if_neg hlen.symm, if_true, Nat.add_sub_cancel]
    by_cases h3 : j ≤ i ∧ i < j + (cnt + 1)
    · rw [if_pos h3, if_pos (by omega)]
      have e1 : i + len ≠ j := by omega
      have e2 : i + len ≠ j + len := by omega
      simp only [upd, if_neg h1, if_neg h2, if_neg e1, if_neg e2]
    by_cases h4 : j + len ≤ i ∧ i < j + len + (cnt + 1)
    · rw [if_neg h3, if_neg (by omega), if_pos h4, if_pos (by omega)]
      have e1 : i - len ≠ j := by omega
      have e2 : i - len ≠ j + len := by omega
      simp only [upd, if_neg h1, if_neg h2, if_neg e1, if_neg e2]
    rw [if_neg h3, if_neg h4, if_neg (by omega), if_neg (by omega)]
    simp only [upd, if_neg h1, if_neg h2]

/-- One layer of `kyber_invntt`, pointwise; block `b` uses `zetas (kt - b)`. -/
def invLayerI (len kt : Nat) (r : Poly) : Poly := fun i =>
  if i % (len + len) < len then barrettReduce (i16 (r i + r (i + len)))
  else fqmul (zetas (kt - i / (len + len))) (i16 (r i - r (i - len)))

theorem invBlocks_spec (len nb : Nat) (hl : 0 < len) (hn : (len + len) * nb = 256) (kt : Nat) : ∀ fuel s r, s ≤ nb → nb < fuel + s →
    (invBlocks len fuel (kt - s) ((len + len) * s) r).1 = kt - nb ∧
    ∀ i < 256, (invBlocks len fuel (kt - s) ((len + len) * s) r).2 i =
      if (len + len) * s ≤ i then invLayerI len kt r i else r i := by
  intro fuel
  induction fuel with
  | zero => intro s r h1 h2; omega
  | succ fuel ih =>
    intro s r h1 h2
    unfold invBlocks
    by_cases hs : s = nb
    · subst hs
      rw [hn, if_neg (by omega)]
      refine ⟨rfl, fun i hi => ?_⟩
      rw [if_neg (by omega)]
    · have hsn : (len + len) * (s + 1) ≤ 256 := by rw [← hn]; exact Nat.mul_le_mul_left _ (by omega)
      have hm : (len + len) * (s + 1) = (len + len) * s + len + len := by rw [Nat.mul_add]; omega
      rw [if_pos (by omega), show kt - s - 1 = kt - (s + 1) by omega, ← hm]
      obtain ⟨g1, g2⟩ := ih (s + 1) (invInner len (zetas (kt - s)) len ((len + len) * s) r) (by omega) (by omega)
      refine ⟨g1, fun i hi => ?_⟩
      rw [g2 i hi]
      have hsp := invInner_spec len (zetas (kt - s)) len ((len + len) * s) r
      by_cases hA : (len + len) * (s + 1) ≤ i
      · rw [if_pos hA, if_pos (by omega)]
        have hq : s + 1 ≤ i / (len + len) := by
          rw [Nat.le_div_iff_mul_le (by omega), Nat.mul_comm]; exact hA
        have hb : (len + len) * (i / (len + len)) + i % (len + len) = i := Nat.div_add_mod _ _
        have hb2 : (len + len) * (s + 1) ≤ (len + len) * (i / (len + len)) := Nat.mul_le_mul_left _ hq
        have hr : i % (len + len) < len + len := Nat.mod_lt _ (by omega)
        unfold invLayerI
        by_cases hlt : i % (len + len) < len
        · rw [if_pos hlt, if_pos hlt, hsp i (Nat.le_refl _), hsp (i + len) (Nat.le_refl _),
            if_neg (by omega), if_neg (by omega), if_neg (by omega), if_neg (by omega)]
        · rw [if_neg hlt, if_neg hlt, hsp i (Nat.le_refl _), hsp (i - len) (Nat.le_refl _),
            if_neg (by omega), if_neg (by omega), if_neg (by omega), if_neg (by omega)]
      · rw [if_neg hA]
        rw [hsp i (Nat.le_refl _)]
        by_cases hB : (len + len) * s ≤ i
        · rw [if_pos hB]
          obtain ⟨e1, e2⟩ := div_eq_of (d := len + len) hB (by omega)
          unfold invLayerI
          rw [e1, e2]
          by_cases hlt : i - (len + len) * s < len
          · rw [if_pos (by omega), if_pos hlt]
          · rw [if_neg (by omega), if_pos (by omega), if_neg hlt]
        · rw [if_neg hB, if_neg (by omega), if_neg (by omega)]

theorem invLayerI_same {len kt : Nat} (hf : Fits len) {a b : Poly} (h : Same a b) : Same (invLayerI len kt a) (invLayerI len kt b) := by
  intro i hi
  obtain ⟨f1, f2⟩ := hf.2 i hi
  unfold invLayerI
  by_cases hlt : i % (len + len) < len
  · rw [if_pos hlt, if_pos hlt, h i hi, h _ (f1 hlt)]
  · rw [if_neg hlt, if_neg hlt, h i hi, h _ (by omega)]

theorem mapLoop_spec (f : Int → Int) : ∀ cnt j r i, mapLoop f cnt j r i = if j ≤ i ∧ i < j + cnt then f (r i) else r i := by
  intro cnt
  induction cnt with
  | zero => intro j r i; rw [if_neg (by omega)]; rfl
  | succ cnt ih =>
    intro j r i
    unfold mapLoop
    rw [ih]
    by_cases h : i = j
    · subst h; rw [if_neg (by omega), if_pos (by omega)]; simp [upd]
    · by_cases h2 : j ≤ i ∧ i < j + (cnt + 1)
      · rw [if_pos (by omega), if_pos h2]; simp only [upd, if_neg h]
      · rw [if_neg (by omega), if_neg h2]; simp only [upd, if_neg h]

/-- `kyber_invntt` is seven layers and a scaling. -/
theorem kyberInvntt_layers (r : Poly) : Same (kyberInvntt r) (fun i => fqmul
    (invLayerI 128 1 (invLayerI 64 3 (invLayerI 32 7 (invLayerI 16 15 (invLayerI 8 31 (invLayerI 4 63 (invLayerI 2 127 r)))))) i) 1441) := by
  have step : ∀ (fuel len nb kt : Nat) (s g : Poly), 0 < len → len ≤ 128 → (len + len) * nb = 256 → nb < 256 → Fits len → Same s g →
      ∃ s', Same s' (invLayerI len kt g) ∧ invLayers (fuel + 1) len kt s = invLayers fuel (len * 2) (kt - nb) s' := by
    intro fuel len nb kt s g h0 h1 h2 h3 h4 h5
    have hb := invBlocks_spec len nb h0 h2 kt 256 0 s (by omega) (by omega)
    rw [Nat.mul_zero, Nat.sub_zero] at hb
    refine ⟨(invBlocks len 256 kt 0 s).2, Same.trans (fun i hi => ?_) (invLayerI_same h4 h5), ?_⟩
    · rw [hb.2 i hi, if_pos (by omega)]
    · rw [invLayers, if_pos h1]
      dsimp only
      rw [hb.1]
  obtain ⟨s1, h1, e1⟩ := step 7 2 64 127 r r (by decide) (by decide) (by decide) (by decide) (fits_of (by decide)) (fun _ _ => rfl)
  obtain ⟨s2, h2, e2⟩ := step 6 4 32 63 s1 _ (by decide) (by decide) (by decide) (by decide) (fits_of (by decide)) h1
  obtain ⟨s3, h3, e3⟩ := step 5 8 16 31 s2 _ (by decide) (by decide) (by decide) (by decide) (fits_of (by decide)) h2
  obtain ⟨s4, h4, e4⟩ := step 4 16 8 15 s3 _ (by decide) (by decide) (by decide) (by decide) (fits_of (by decide)) h3
  obtain ⟨s5, h5, e5⟩ := step 3 32 4 7 s4 _ (by decide) (by decide) (by decide) (by decide) (fits_of (by decide)) h4
  obtain ⟨s6, h6, e6⟩ := step 2 64 2 3 s5 _ (by decide) (by decide) (by decide) (by decide) (fits_of (by decide)) h5
  obtain ⟨s7, h7, e7⟩ := step 1 128 1 1 s6 _ (by decide) (by decide) (by decide) (by decide) (fits_of (by decide)) h6
  have : invLayers 8 2 127 r = s7 := by
    rw [e1]
    show invLayers 7 4 63 s1 = s7
    rw [e2]
    show invLayers 6 8 31 s2 = s7
    rw [e3]
    show invLayers 5 16 15 s3 = s7
    rw [e4]
    show invLayers 4 32 7 s4 = s7
    rw [e5]
    show invLayers 3 64 3 s5 = s7
    rw [e6]
    show invLayers 2 128 1 s6 = s7
    rw [e7]
    show invLayers 1 256 0 s7 = s7
    rw [invLayers, if_neg (by decide)]
  intro i hi
  unfold kyberInvntt
  rw [mapLoop_spec, if_pos (by omega), this, h7 i hi]

end LC.Kyber
