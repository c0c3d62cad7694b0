import Verif.Kyber.Kem
import Verif.Kyber.Ntt
import Verif.Kyber.Sample
import Verif.Kyber.Compress
import Verif.Ntt.Exist
/-
Lemmas about the vector operations of K-PKE: products with shared scratch space, the matrix, the
serialisation of vectors.
-/
namespace LC.Kyber
open LC.Ntt Polynomial

/-! ### Every array is a transform -/

theorem two_half : (2 : Zq) * 1665 = 1 := by decide

theorem exists_level (l : Nat) (hl : l < 7) {n : Nat} (hn : 0 < n) (h : ∀ g : Nat → Zq, ∃ P, Split (n + n) (2 ^ l) cz g P) (f : Nat → Zq) :
    ∃ P, Split n (2 * 2 ^ l) cz f P := by
  have h0 : 1 ≤ 2 ^ l := Nat.two_pow_pos l
  have h1 : 2 ^ l ≤ 64 := by
    have : 2 ^ l ≤ 2 ^ 6 := Nat.pow_le_pow_right (by decide) (by omega)
    simpa using this
  exact Split.exists_step hn (w := fun b => zt (2 * 2 ^ l - 1 - b)) two_half (roots _ h0 h1) (fun b hb => zt_inv l hl b hb) h f

theorem cz_one : cz 1 = -1 := by decide

theorem split_exists (f : Nat → Zq) : ∃ P, Split 2 128 cz f P := by
  have h0 : ∀ g : Nat → Zq, ∃ P, Split 256 1 cz g P := fun g =>
    ⟨toPoly 256 g, fun b hb => by
      have : b = 0 := by omega
      subst this
      simpa using Rep.self 256 (cz 1) g⟩
  have h1 := exists_level 0 (by decide) (n := 128) (by decide) h0
  have h2 := exists_level 1 (by decide) (n := 64) (by decide) h1
  have h3 := exists_level 2 (by decide) (n := 32) (by decide) h2
  have h4 := exists_level 3 (by decide) (n := 16) (by decide) h3
  have h5 := exists_level 4 (by decide) (n := 8) (by decide) h4
  have h6 := exists_level 5 (by decide) (n := 4) (by decide) h5
  exact exists_level 6 (by decide) (n := 2) (by decide) h6 f

/-! ### `polyvec_basemul_acc_montgomery` -/

theorem PMem.set_same (m : PMem) (a : Nat) (v : Poly) : (m.set a v) a = v := by unfold PMem.set; rw [if_pos rfl]
theorem PMem.set_other (m : PMem) {a x : Nat} (v : Poly) (h : x ≠ a) : (m.set a v) x = m x := by unfold PMem.set; rw [if_neg h]

/-- The accumulated product without shared memory. -/
def accSum (A B : Nat → Poly) : Nat → Poly
  | 0 => polyBasemul (A 0) (B 0)
  | n + 1 => polyAdd (accSum A B n) (polyBasemul (A (n + 1)) (B (n + 1)))

theorem accLoop_spec {r t : Nat} (hrt : r ≠ t) {a b : Nat → Nat} {A B : Nat → Poly} {k : Nat} : ∀ cnt i m, 1 ≤ i → i + cnt = k →
    (∀ j, i ≤ j → j < k → a j ≠ r ∧ a j ≠ t ∧ b j ≠ r ∧ b j ≠ t ∧ m (a j) = A j ∧ m (b j) = B j) →
    m r = accSum A B (i - 1) →
    (∀ x, x ≠ r → x ≠ t → accLoop r t a b cnt i m x = m x) ∧ accLoop r t a b cnt i m r = accSum A B (k - 1) := by
  intro cnt
  induction cnt with
  | zero =>
    intro i m h1 hk hm hr
    refine ⟨fun _ _ _ => rfl, ?_⟩
    rw [show k = i by omega]; exact hr
  | succ cnt ih =>
    intro i m h1 hk hm hr
    unfold accLoop
    dsimp only
    obtain ⟨e1, e2, e3, e4, e5, e6⟩ := hm i (by omega) (by omega)
    rw [e5, e6, PMem.set_same, PMem.set_other _ _ hrt, hr]
    obtain ⟨g1, g2⟩ := ih (i + 1) ((m.set t (polyBasemul (A i) (B i))).set r (polyAdd (accSum A B (i - 1)) (polyBasemul (A i) (B i))))
      (by omega) (by omega) (fun j hj1 hj2 => by
        obtain ⟨d1, d2, d3, d4, d5, d6⟩ := hm j (by omega) hj2
        refine ⟨d1, d2, d3, d4, ?_, ?_⟩
        · rw [PMem.set_other _ _ d1, PMem.set_other _ _ d2, d5]
        · rw [PMem.set_other _ _ d3, PMem.set_other _ _ d4, d6]) (by
        obtain ⟨n, rfl⟩ : ∃ n, i = n + 1 := ⟨i - 1, by omega⟩
        rw [PMem.set_same]; rfl)
    refine ⟨fun x hx1 hx2 => ?_, g2⟩
    rw [g1 x hx1 hx2, PMem.set_other _ _ hx1, PMem.set_other _ _ hx2]

/-- The result, provided that the scratch space and the result do not overlap the operands from index 1
on; everything else is unchanged. -/
theorem basemulAcc_spec {k r t : Nat} (hk : 1 ≤ k) (hrt : r ≠ t) {a b : Nat → Nat} {A B : Nat → Poly} {m : PMem}
    (h0 : m (a 0) = A 0 ∧ m (b 0) = B 0)
    (h : ∀ j, 1 ≤ j → j < k → a j ≠ r ∧ a j ≠ t ∧ b j ≠ r ∧ b j ≠ t ∧ m (a j) = A j ∧ m (b j) = B j) :
    (∀ x, x ≠ r → x ≠ t → basemulAcc k r t a b m x = m x) ∧ basemulAcc k r t a b m r = polyReduce (accSum A B (k - 1)) := by
  unfold basemulAcc
  rw [h0.1, h0.2]
  obtain ⟨g1, g2⟩ := accLoop_spec hrt (A := A) (B := B) (k := k) (k - 1) 1 (m.set r (polyBasemul (A 0) (B 0))) (Nat.le_refl 1) (by omega)
    (fun j hj1 hj2 => by
      obtain ⟨d1, d2, d3, d4, d5, d6⟩ := h j hj1 hj2
      exact ⟨d1, d2, d3, d4, by rw [PMem.set_other _ _ d1, d5], by rw [PMem.set_other _ _ d3, d6]⟩)
    (by rw [PMem.set_same]; rfl)
  refine ⟨fun x hx1 hx2 => ?_, ?_⟩
  · rw [PMem.set_other _ _ hx1, g1 x hx1 hx2, PMem.set_other _ _ hx1]
  · rw [PMem.set_same, g2]

theorem i16_id {x : Int} (h : -32768 ≤ x ∧ x ≤ 32767) : i16 x = x := by unfold i16; omega

theorem polyAdd_spec {A B : Int} (hAB : A + B ≤ 32767) {a b : Poly} (ha : Bnd A a) (hb : Bnd B b) :
    Bnd (A + B) (polyAdd a b) ∧ ∀ i < 256, cast (polyAdd a b) i = cast a i + cast b i := by
  have key : ∀ i < 256, polyAdd a b i = a i + b i := fun i hi => by
    have := ha i hi; have := hb i hi
    exact i16_id (by omega)
  refine ⟨fun i hi => ?_, fun i hi => ?_⟩
  · have := ha i hi; have := hb i hi
    rw [key i hi]; omega
  · unfold cast; rw [key i hi, Int.cast_add]

theorem polySub_spec {A B : Int} (hAB : A + B ≤ 32767) {a b : Poly} (ha : Bnd A a) (hb : Bnd B b) :
    Bnd (A + B) (polySub a b) ∧ ∀ i < 256, cast (polySub a b) i = cast a i - cast b i := by
  have key : ∀ i < 256, polySub a b i = a i - b i := fun i hi => by
    have := ha i hi; have := hb i hi
    exact i16_id (by omega)
  refine ⟨fun i hi => ?_, fun i hi => ?_⟩
  · have := ha i hi; have := hb i hi
    rw [key i hi]; omega
  · unfold cast; rw [key i hi, Int.cast_sub]

theorem accSum_spec {A B : Nat → Poly} {P Q : Nat → Zq[X]} : ∀ n, n ≤ 3 → (∀ i ≤ n, Bnd 4095 (A i) ∧ Split 2 128 cz (cast (A i)) (P i)) →
    (∀ i ≤ n, Bnd 1664 (B i) ∧ Split 2 128 cz (cast (B i)) (Q i)) →
    Bnd (6656 * (n + 1)) (accSum A B n) ∧ Split 2 128 cz (cast (accSum A B n)) (C 169 * ∑ i ∈ Finset.range (n + 1), P i * Q i) := by
  have hp : ∀ i, (Bnd 4095 (A i) ∧ Split 2 128 cz (cast (A i)) (P i)) → (Bnd 1664 (B i) ∧ Split 2 128 cz (cast (B i)) (Q i)) →
      Bnd 6656 (polyBasemul (A i) (B i)) ∧ Split 2 128 cz (cast (polyBasemul (A i) (B i))) (C 169 * (P i * Q i)) :=
    fun i h1 h2 => polyBasemul_split (by decide) h1.1 h2.1 h1.2 h2.2
  intro n
  induction n with
  | zero =>
    intro _ hA hB
    obtain ⟨h1, h2⟩ := hp 0 (hA 0 (Nat.le_refl 0)) (hB 0 (Nat.le_refl 0))
    refine ⟨h1.mono (by decide), ?_⟩
    rw [Finset.sum_range_one]
    exact h2
  | succ n ih =>
    intro hn hA hB
    obtain ⟨h1, h2⟩ := ih (by omega) (fun i hi => hA i (by omega)) (fun i hi => hB i (by omega))
    obtain ⟨h3, h4⟩ := hp (n + 1) (hA _ (Nat.le_refl _)) (hB _ (Nat.le_refl _))
    obtain ⟨h5, h6⟩ := polyAdd_spec (by omega) h1 h3
    refine ⟨h5.mono (by push_cast; omega), ?_⟩
    rw [Finset.sum_range_succ, mul_add]
    exact (h2.add h4).congr fun i hi => (h6 i (by omega)).symm

/-- The product as computed: reduced, `2^-16` times the sum of the products. -/
theorem acc_reduce_spec {k : Nat} (hk : 1 ≤ k) (hk4 : k ≤ 4) {A B : Nat → Poly} {P Q : Nat → Zq[X]}
    (hA : ∀ i < k, Bnd 4095 (A i) ∧ Split 2 128 cz (cast (A i)) (P i))
    (hB : ∀ i < k, Bnd 1664 (B i) ∧ Split 2 128 cz (cast (B i)) (Q i)) :
    Bnd 1664 (polyReduce (accSum A B (k - 1))) ∧
      Split 2 128 cz (cast (polyReduce (accSum A B (k - 1)))) (C 169 * ∑ i ∈ Finset.range k, P i * Q i) := by
  obtain ⟨h1, h2⟩ := accSum_spec (k - 1) (by omega) (fun i hi => hA i (by omega)) (fun i hi => hB i (by omega))
  obtain ⟨h3, h4⟩ := polyReduce_spec (h1.mono (B' := 32767) (by omega))
  refine ⟨h3, ?_⟩
  rw [show k - 1 + 1 = k by omega] at h2
  exact h2.congr fun i hi => (h4 i (by omega)).symm

theorem cast_mul_const {u v : Zq} (h : u * v = 1) {n k0 : Nat} {c f : Nat → Zq} {P : Zq[X]} (hs : Split n k0 c f (C u * P)) :
    Split n k0 c (fun i => v * f i) P := by
  have := hs.smul v
  rwa [← mul_assoc, ← C_mul, mul_comm v u, h, C_1, one_mul] at this

/-- `poly_tomont` multiplies by `2^16`. -/
theorem polyTomont_spec {r : Poly} (hr : Bnd 1664 r) :
    Bnd 3328 (polyTomont r) ∧ ∀ i < 256, cast (polyTomont r) i = 65536 * cast r i := by
  have key : ∀ i < 256, polyTomont r i = montgomeryReduce (r i * 1353) := fun i hi => by
    unfold polyTomont
    rw [mapLoop_spec, if_pos (by omega)]
  have hm : ∀ i < 256, -3329 < montgomeryReduce (r i * 1353) ∧ montgomeryReduce (r i * 1353) < 3329 ∧
      (montgomeryReduce (r i * 1353) * 65536 - r i * 1353) % 3329 = 0 := fun i hi => by
    have := hr i hi
    exact montgomery_reduce_exact _ (by omega) (by omega)
  refine ⟨fun i hi => ?_, fun i hi => ?_⟩
  · have := hm i hi
    rw [key i hi]; omega
  · unfold cast
    rw [key i hi, mont_cast (hm i hi).2.2, Int.cast_mul]
    have : ((1353 : Int) : Zq) * 169 = 65536 := by decide
    rw [mul_assoc, this, mul_comm]

/-! ### Sampling -/

theorem getnoise_bnd (f : Fns) (eta : Nat) (seed : List Byte) (nonce : Nat) : Bnd 3 (getnoise f eta seed nonce) := by
  intro i _
  unfold getnoise
  split
  · have := (cbd3_is_fips (f.prf seed (UInt8.ofNat nonce) 192) i).2; omega
  · have := (cbd2_is_fips (f.prf seed (UInt8.ofNat nonce) 128) i).2; omega

theorem genEntry_bnd {s : Nat → Byte} {fuel : Nat} {out : List Int} (h : genEntry s fuel = some out) (x : Nat) :
    0 ≤ out.getD x 0 ∧ out.getD x 0 ≤ 3328 := by
  obtain ⟨-, n, e⟩ := genEntry_spec s fuel out h
  rw [List.getD_eq_getElem?_getD]
  by_cases hx : x < out.length
  · rw [List.getElem?_eq_getElem hx, Option.getD_some]
    have hm : out[x] ∈ out := List.getElem_mem hx
    generalize out[x] = y at hm
    rw [e, List.mem_map] at hm
    obtain ⟨z, hz, rfl⟩ := hm
    have := List.mem_of_mem_take hz
    unfold Spec.accepted at this
    rw [List.mem_filter] at this
    have h2 : z < 3329 := by simpa using this.2
    simp only [Int.ofNat_eq_natCast]; omega
  · rw [List.getElem?_eq_none (by omega)]
    exact ⟨by decide, by decide⟩

/-- The entry of the matrix `A` in row `i`, column `j`. -/
theorem genMatrix_some {f : Fns} {fuel k : Nat} {seed : List Byte} {tr : Bool} {A : Nat → Nat → Poly}
    (h : genMatrix f fuel k seed tr = some A) : ∀ i < k, ∀ j < k, ∃ out, genEntry (f.xof (xofInput seed tr i j)) fuel = some out ∧
      A i j = fun x => out.getD x 0 := by
  unfold genMatrix at h
  dsimp only at h
  split at h
  · rename_i hall
    intro i hi j hj
    rw [List.all_eq_true] at hall
    have h1 := hall i (List.mem_range.2 hi)
    rw [List.all_eq_true] at h1
    have h2 := h1 j (List.mem_range.2 hj)
    obtain ⟨out, ho⟩ := Option.isSome_iff_exists.1 h2
    cases h
    exact ⟨out, ho, by dsimp only; rw [ho]; rfl⟩
  · cases h

/-- Generating the transposed matrix gives the transpose. -/
theorem genMatrix_transpose {f : Fns} {fuel k : Nat} {seed : List Byte} {A : Nat → Nat → Poly}
    (h : genMatrix f fuel k seed false = some A) : ∃ A', genMatrix f fuel k seed true = some A' ∧ ∀ i < k, ∀ j < k, A' i j = A j i := by
  have hs := genMatrix_some h
  have hx : ∀ i j, xofInput seed true i j = xofInput seed false j i := fun i j => by
    unfold xofInput; rw [if_pos rfl, if_neg (by decide)]
  have hall : ((List.range k).all fun i => (List.range k).all fun j => (genEntry (f.xof (xofInput seed true i j)) fuel).isSome) = true := by
    rw [List.all_eq_true]
    intro i hi
    rw [List.all_eq_true]
    intro j hj
    obtain ⟨out, ho, -⟩ := hs j (List.mem_range.1 hj) i (List.mem_range.1 hi)
    rw [hx, ho]; rfl
  refine ⟨fun i j x => ((genEntry (f.xof (xofInput seed true i j)) fuel).getD []).getD x 0, ?_, ?_⟩
  · unfold genMatrix
    dsimp only
    rw [if_pos hall]
  · intro i hi j hj
    obtain ⟨out, ho, ha⟩ := hs j hj i hi
    rw [ha]
    dsimp only
    rw [hx, ho]; rfl

theorem genMatrix_bnd {f : Fns} {fuel k : Nat} {seed : List Byte} {tr : Bool} {A : Nat → Nat → Poly}
    (h : genMatrix f fuel k seed tr = some A) (i j : Nat) (hi : i < k) (hj : j < k) : Bnd 4095 (A i j) := by
  obtain ⟨out, ho, ha⟩ := genMatrix_some h i hi j hj
  rw [ha]
  intro x _
  have := genEntry_bnd ho x
  dsimp only; omega

/-! ### Matrix products -/

theorem keygenMul_spec {k : Nat} (hk4 : k ≤ 4) {s : Nat → Poly} {A : Nat → Nat → Poly} : ∀ cnt i m, i + cnt = k →
    (∀ j < k, m (aS j) = s j) → (∀ i', i ≤ i' → i' < k → ∀ j < k, m (aM i' j) = A i' j) →
    (∀ i' < i, keygenMul k cnt i m (aR i') = m (aR i')) ∧
    ∀ i', i ≤ i' → i' < k → keygenMul k cnt i m (aR i') = polyTomont (polyReduce (accSum (A i') s (k - 1))) := by
  intro cnt
  induction cnt with
  | zero =>
    intro i m hk _ _
    exact ⟨fun _ _ => rfl, fun i' h1 h2 => absurd h1 (by omega)⟩
  | succ cnt ih =>
    intro i m hk hs hA
    unfold keygenMul
    dsimp only
    obtain ⟨g1, g2⟩ := basemulAcc_spec (k := k) (r := aR i) (t := aM 0 0) (a := aM i) (b := aS) (A := A i) (B := s) (m := m)
      (by omega) (by unfold aR aM; omega) ⟨hA i (Nat.le_refl i) (by omega) 0 (by omega), hs 0 (by omega)⟩
      (fun j h1 h2 => ⟨by unfold aM aR; omega, by unfold aM; omega, by unfold aS aR; omega, by unfold aS aM; omega,
        hA i (Nat.le_refl i) (by omega) j h2, hs j h2⟩)
    rw [g2]
    obtain ⟨f1, f2⟩ := ih (i + 1) ((basemulAcc k (aR i) (aM 0 0) (aM i) aS m).set (aR i) (polyTomont (polyReduce (accSum (A i) s (k - 1)))))
      (by omega)
      (fun j hj => by
        rw [PMem.set_other _ _ (by unfold aS aR; omega), g1 _ (by unfold aS aR; omega) (by unfold aS aM; omega), hs j hj])
      (fun i' h1 h2 j hj => by
        rw [PMem.set_other _ _ (by unfold aM aR; omega), g1 _ (by unfold aM aR; omega) (by unfold aM; omega),
          hA i' (by omega) h2 j hj])
    refine ⟨fun i' hi' => ?_, fun i' h1 h2 => ?_⟩
    · rw [f1 i' (by omega), PMem.set_other _ _ (by unfold aR; omega), g1 _ (by unfold aR; omega) (by unfold aR aM; omega)]
    · by_cases h : i' = i
      · subst h
        rw [f1 i' (by omega), PMem.set_same]
      · exact f2 i' (by omega) h2

theorem encMulLoop_spec {k : Nat} (hk4 : k ≤ 4) {s : Nat → Poly} {A : Nat → Nat → Poly} : ∀ cnt i m, i + cnt = k →
    (∀ j < k, m (aS j) = s j) → (∀ i', i' < k → ∀ j < k, m (aM i' j) = A i' j) →
    (∀ x, x < 10 ∨ 20 ≤ x → encMulLoop k cnt i m x = m x) ∧ (∀ i' < i, encMulLoop k cnt i m (aR i') = m (aR i')) ∧
    ∀ i', i ≤ i' → i' < k → encMulLoop k cnt i m (aR i') = polyReduce (accSum (A i') s (k - 1)) := by
  intro cnt
  induction cnt with
  | zero =>
    intro i m hk _ _
    exact ⟨fun _ _ => rfl, fun _ _ => rfl, fun i' h1 h2 => absurd h1 (by omega)⟩
  | succ cnt ih =>
    intro i m hk hs hA
    unfold encMulLoop
    obtain ⟨g1, g2⟩ := basemulAcc_spec (k := k) (r := aR i) (t := aV) (a := aM i) (b := aS) (A := A i) (B := s) (m := m)
      (by omega) (by unfold aR aV; omega) ⟨hA i (by omega) 0 (by omega), hs 0 (by omega)⟩
      (fun j h1 h2 => ⟨by unfold aM aR; omega, by unfold aM aV; omega, by unfold aS aR; omega, by unfold aS aV; omega,
        hA i (by omega) j h2, hs j h2⟩)
    have hout : ∀ x, x < 10 ∨ 20 ≤ x → basemulAcc k (aR i) aV (aM i) aS m x = m x := fun x hx =>
      g1 x (by unfold aR; omega) (by unfold aV; omega)
    obtain ⟨f0, f1, f2⟩ := ih (i + 1) (basemulAcc k (aR i) aV (aM i) aS m) (by omega)
      (fun j hj => by rw [hout _ (by unfold aS; omega), hs j hj])
      (fun i' h2 j hj => by rw [hout _ (by unfold aM; omega), hA i' h2 j hj])
    refine ⟨fun x hx => by rw [f0 x hx, hout x hx], fun i' hi' => ?_, fun i' h1 h2 => ?_⟩
    · rw [f1 i' (by omega), g1 _ (by unfold aR; omega) (by unfold aR aV; omega)]
    · by_cases h : i' = i
      · subst h
        rw [f1 i' (by omega), g2]
      · exact f2 i' (by omega) h2

theorem load2_S (s : Nat → Poly) (A : Nat → Nat → Poly) (pk : Nat → Poly) {j : Nat} (hj : j < 10) : load2 s A pk (aS j) = s j := by
  unfold load2 aS; rw [if_pos hj]
theorem load2_P (s : Nat → Poly) (A : Nat → Nat → Poly) (pk : Nat → Poly) (j : Nat) : load2 s A pk (aP j) = pk j := by
  unfold load2 aP; rw [if_neg (by omega), if_pos (by omega), show 80 + j - 80 = j by omega]
theorem load2_M (s : Nat → Poly) (A : Nat → Nat → Poly) (pk : Nat → Poly) {i j : Nat} (hi : i < 6) (hj : j < 10) :
    load2 s A pk (aM i j) = A i j := by
  unfold load2 aM
  rw [if_neg (by omega), if_neg (by omega), if_pos (by omega), show (20 + 10 * i + j - 20) / 10 = i by omega,
    show (20 + 10 * i + j - 20) % 10 = j by omega]

/-- All products of `indcpa_keypair`. -/
theorem keygen_products {k : Nat} (hk4 : k ≤ 4) (s : Nat → Poly) (A : Nat → Nat → Poly) (z : Nat → Poly) (i : Nat) (hi : i < k) :
    keygenMul k k 0 (load2 s A z) (aR i) = polyTomont (polyReduce (accSum (A i) s (k - 1))) :=
  (keygenMul_spec hk4 k 0 _ (by omega) (fun j hj => load2_S _ _ _ (by omega)) (fun i' _ h2 j hj => load2_M _ _ _ (by omega) (by omega))).2 i
    (by omega) hi

/-- All products of `indcpa_enc`. -/
theorem enc_products {k : Nat} (hk : 1 ≤ k) (hk4 : k ≤ 4) (s : Nat → Poly) (A : Nat → Nat → Poly) (pk : Nat → Poly) :
    (∀ i < k, encMul k (load2 s A pk) (aR i) = polyReduce (accSum (A i) s (k - 1))) ∧
    encMul k (load2 s A pk) aV = polyReduce (accSum pk s (k - 1)) := by
  obtain ⟨f0, -, f2⟩ := encMulLoop_spec hk4 (s := s) (A := A) k 0 (load2 s A pk) (by omega) (fun j hj => load2_S _ _ _ (by omega))
    (fun i' h2 j hj => load2_M _ _ _ (by omega) (by omega))
  have hP : ∀ j, encMulLoop k k 0 (load2 s A pk) (aP j) = pk j := fun j => by
    rw [f0 _ (by unfold aP; omega), load2_P]
  have hS : ∀ j < k, encMulLoop k k 0 (load2 s A pk) (aS j) = s j := fun j hj => by
    rw [f0 _ (by unfold aS; omega), load2_S _ _ _ (by omega)]
  obtain ⟨g1, g2⟩ := basemulAcc_spec (k := k) (r := aV) (t := aM 0 0) (a := aP) (b := aS) (A := pk) (B := s)
      (m := encMulLoop k k 0 (load2 s A pk)) hk (by unfold aV aM; omega) ⟨hP 0, hS 0 (by omega)⟩
      (fun j h1 h2 => ⟨by unfold aP aV; omega, by unfold aP aM; omega, by unfold aS aV; omega, by unfold aS aM; omega, hP j, hS j h2⟩)
  unfold encMul
  refine ⟨fun i hi => ?_, g2⟩
  rw [g1 _ (by unfold aR aV; omega) (by unfold aR aM; omega), f2 i (by omega) hi]

/-- The product of `indcpa_dec`. -/
theorem dec_product {k : Nat} (hk : 1 ≤ k) (hk4 : k ≤ 4) (s b : Nat → Poly) (z : Nat → Poly) :
    basemulAcc k (aR 0) (aM 0 0) aS (aM 0) (load2 s (fun _ => b) z) (aR 0) = polyReduce (accSum s b (k - 1)) :=
  (basemulAcc_spec hk (by unfold aR aM; omega) ⟨load2_S _ _ _ (by omega), load2_M _ _ _ (by omega) (by omega)⟩
    (fun j h1 h2 => ⟨by unfold aS aR; omega, by unfold aS aM; omega, by unfold aM aR; omega, by unfold aM; omega,
      load2_S _ _ _ (by omega), load2_M _ _ _ (by omega) (by omega)⟩)).2

/-! ### Serialised vectors -/

theorem flatMap_slice {g : Nat → List Byte} {n : Nat} (hg : ∀ i, (g i).length = n) : ∀ k i (rest : List Byte), i < k →
    (((List.range k).flatMap g ++ rest).drop (n * i)).take n = g i := by
  intro k
  induction k with
  | zero => intro i rest h; omega
  | succ k ih =>
    intro i rest hi
    have hlen : ((List.range k).flatMap g).length = n * k := by
      rw [flatMap_length hg]
    rw [List.range_succ, List.flatMap_append, List.append_assoc]
    by_cases h : i < k
    · exact ih i _ h
    · have : i = k := by omega
      subst this
      rw [List.drop_left' (by omega)]
      simp only [List.flatMap_cons, List.flatMap_nil, List.append_nil]
      rw [List.take_left' (hg i)]

theorem flatMap_rest {g : Nat → List Byte} {n : Nat} (hg : ∀ i, (g i).length = n) (k : Nat) (rest : List Byte) :
    ((List.range k).flatMap g ++ rest).drop (n * k) = rest := by
  rw [List.drop_left' (by rw [flatMap_length hg])]

end LC.Kyber
