import Verif.Dilithium.Reduce
/-
Property theorems: C53 (rounding and hints).
-/
namespace LC.Dilithium

/-- `Power2Round`, FIPS 204 algorithm 35, as a relation: `r = r1 2^13 + r0` with
`-2^12 < r0 <= 2^12`. -/
def Spec.Power2Round (r r1 r0 : Int) : Prop := r = r1 * 8192 + r0 ∧ -4096 < r0 ∧ r0 ≤ 4096

/-- `Decompose`, FIPS 204 algorithm 36, as a relation on the representative `r` in `[0, q)`:
`r = r1 (2 gamma2) + r0`, `-gamma2 < r0 <= gamma2`, except that `r1 = (q-1)/(2 gamma2)` becomes
`r1 = 0` with `r0 = r - q`. -/
def Spec.Decompose (gamma2 r r1 r0 : Int) : Prop :=
  ∃ c r0', r = c * (2 * gamma2) + r0' ∧ -gamma2 < r0' ∧ r0' ≤ gamma2 ∧
    if r - r0' = 8380416 then r1 = 0 ∧ r0 = r0' - 1 else r1 = c ∧ r0 = r0'

/-- `UseHint`, FIPS 204 algorithm 40, for the value of `Decompose`. -/
def Spec.useHint (m h r1 r0 : Int) : Int :=
  if h = 1 ∧ r0 > 0 then (r1 + 1) % m else if h = 1 ∧ r0 ≤ 0 then (r1 - 1) % m else r1

/-- The specifications determine their results. -/
theorem Spec.Power2Round.unique {r a b c d : Int} (h : Spec.Power2Round r a b) (h' : Spec.Power2Round r c d) : a = c ∧ b = d := by
  unfold Spec.Power2Round at *; omega

theorem Spec.Decompose.unique {g r a b c d : Int} (hg : g = 95232 ∨ g = 261888) (h : Spec.Decompose g r a b) (h' : Spec.Decompose g r c d) :
    a = c ∧ b = d := by
  obtain ⟨x, y, h1, h2, h3, h4⟩ := h
  obtain ⟨x', y', h1', h2', h3', h4'⟩ := h'
  rcases hg with rfl | rfl
  · have : x = x' ∧ y = y' := by omega
    obtain ⟨rfl, rfl⟩ := this
    split at h4 <;> rename_i hc
    · rw [if_pos hc] at h4'; omega
    · rw [if_neg hc] at h4'; omega
  · have : x = x' ∧ y = y' := by omega
    obtain ⟨rfl, rfl⟩ := this
    split at h4 <;> rename_i hc
    · rw [if_pos hc] at h4'; omega
    · rw [if_neg hc] at h4'; omega

/-- **C53 (`power2round`)**: for every standard representative, the decomposition of FIPS 204. -/
theorem power2round_exact (a : Int) (h1 : 0 ≤ a) (h2 : a < 8380417) :
    Spec.Power2Round a (power2round a).1 (power2round a).2 ∧ 0 ≤ (power2round a).1 ∧ (power2round a).1 < 1024 := by
  unfold power2round Spec.Power2Round
  dsimp only
  rw [i32_eq (x := a + 4096) (by omega) (by omega), i32_eq (x := a + 4096 - 1) (by omega) (by omega)]
  rw [i32_eq (x := (a + 4096 - 1) / 8192 * 8192) (by omega) (by omega), i32_eq (by omega) (by omega)]
  omega

/-- The value of `a1` in `decompose` before the wrap to zero: `ceil(a / 128)` times a fixed-point
reciprocal. -/
theorem high32 (a : Int) (h1 : 0 ≤ a) (h2 : a < 8380417) :
    ((a + 127) / 128 * 1025 + 2097152) / 4194304 = (a + 261887) / 523776 := by omega

theorem high88 (a : Int) (h1 : 0 ≤ a) (h2 : a < 8380417) :
    ((a + 127) / 128 * 11275 + 8388608) / 16777216 = (a + 95231) / 190464 := by omega

/-- What `decompose` computes for `gamma2 = (q-1)/32`. -/
theorem decompose32 (a : Int) (h1 : 0 ≤ a) (h2 : a < 8380417) :
    decompose 261888 a =
      if (a + 261887) / 523776 = 16 then (0, a - 8380417) else ((a + 261887) / 523776, a - (a + 261887) / 523776 * 523776) := by
  unfold decompose
  dsimp only
  rw [if_pos rfl, i32_eq (x := a + 127) (by omega) (by omega), i32_eq (x := (a + 127) / 128 * 1025) (by omega) (by omega),
    i32_eq (x := (a + 127) / 128 * 1025 + 2097152) (by omega) (by omega), high32 a h1 h2]
  have hc : 0 ≤ (a + 261887) / 523776 ∧ (a + 261887) / 523776 ≤ 16 := by omega
  by_cases h : (a + 261887) / 523776 = 16
  · rw [if_pos h, h]
    show ((0 : Int), i32 (i32 (a - i32 (i32 (0 * 2) * 261888)) - if i32 (4190208 - i32 (a - i32 (i32 (0 * 2) * 261888))) < 0 then 8380417 else 0)) = _
    have e : i32 (i32 (0 * 2) * 261888) = 0 := by decide
    rw [e, Int.sub_zero, i32_eq (x := a) (by omega) (by omega), i32_eq (x := 4190208 - a) (by omega) (by omega),
      if_pos (by omega), i32_eq (by omega) (by omega)]
  · rw [if_neg h]
    have e : (a + 261887) / 523776 % 16 = (a + 261887) / 523776 := by omega
    rw [e]
    generalize hx : (a + 261887) / 523776 = x at *
    rw [i32_eq (x := x * 2) (by omega) (by omega)]
    show (x, i32 (i32 (a - i32 (x * 2 * 261888)) - if i32 (4190208 - i32 (a - i32 (x * 2 * 261888))) < 0 then 8380417 else 0)) = _
    rw [i32_eq (x := x * 2 * 261888) (by omega) (by omega), i32_eq (x := a - x * 2 * 261888) (by omega) (by omega),
      i32_eq (x := 4190208 - (a - x * 2 * 261888)) (by omega) (by omega), if_neg (by omega), i32_eq (by omega) (by omega)]
    congr 1
    omega

/-- What `decompose` computes for `gamma2 = (q-1)/88`. -/
theorem decompose88 (a : Int) (h1 : 0 ≤ a) (h2 : a < 8380417) :
    decompose 95232 a =
      if (a + 95231) / 190464 = 44 then (0, a - 8380417) else ((a + 95231) / 190464, a - (a + 95231) / 190464 * 190464) := by
  unfold decompose
  dsimp only
  rw [if_neg (by decide), i32_eq (x := a + 127) (by omega) (by omega), i32_eq (x := (a + 127) / 128 * 11275) (by omega) (by omega),
    i32_eq (x := (a + 127) / 128 * 11275 + 8388608) (by omega) (by omega), high88 a h1 h2]
  have hc : 0 ≤ (a + 95231) / 190464 ∧ (a + 95231) / 190464 ≤ 44 := by omega
  by_cases h : (a + 95231) / 190464 = 44
  · rw [if_pos h, h]
    rw [if_pos (by decide)]
    show ((0 : Int), i32 (i32 (a - i32 (i32 (0 * 2) * 95232)) - if i32 (4190208 - i32 (a - i32 (i32 (0 * 2) * 95232))) < 0 then 8380417 else 0)) = _
    have e : i32 (i32 (0 * 2) * 95232) = 0 := by decide
    rw [e, Int.sub_zero, i32_eq (x := a) (by omega) (by omega), i32_eq (x := 4190208 - a) (by omega) (by omega),
      if_pos (by omega), i32_eq (by omega) (by omega)]
  · rw [if_neg h]
    rw [if_neg (by omega)]
    generalize hx : (a + 95231) / 190464 = x at *
    rw [i32_eq (x := x * 2) (by omega) (by omega)]
    show (x, i32 (i32 (a - i32 (x * 2 * 95232)) - if i32 (4190208 - i32 (a - i32 (x * 2 * 95232))) < 0 then 8380417 else 0)) = _
    rw [i32_eq (x := x * 2 * 95232) (by omega) (by omega), i32_eq (x := a - x * 2 * 95232) (by omega) (by omega),
      i32_eq (x := 4190208 - (a - x * 2 * 95232)) (by omega) (by omega), if_neg (by omega), i32_eq (by omega) (by omega)]
    congr 1
    omega

/-- **C53 (`decompose`)**: for every standard representative and both values of `gamma2`, the
decomposition of FIPS 204. -/
theorem decompose_exact (g : Nat) (hg : g = 95232 ∨ g = 261888) (a : Int) (h1 : 0 ≤ a) (h2 : a < 8380417) :
    Spec.Decompose g a (decompose g a).1 (decompose g a).2 := by
  rcases hg with rfl | rfl
  · rw [decompose88 a h1 h2]
    refine ⟨(a + 95231) / 190464, a - (a + 95231) / 190464 * 190464, by omega, by omega, by omega, ?_⟩
    by_cases h : (a + 95231) / 190464 = 44
    · rw [if_pos h, if_pos (by omega)]
      exact ⟨rfl, by show a - 8380417 = _; omega⟩
    · rw [if_neg h, if_neg (by omega)]
      exact ⟨rfl, rfl⟩
  · rw [decompose32 a h1 h2]
    refine ⟨(a + 261887) / 523776, a - (a + 261887) / 523776 * 523776, by omega, by omega, by omega, ?_⟩
    by_cases h : (a + 261887) / 523776 = 16
    · rw [if_pos h, if_pos (by omega)]
      exact ⟨rfl, by show a - 8380417 = _; omega⟩
    · rw [if_neg h, if_neg (by omega)]
      exact ⟨rfl, rfl⟩

/-- Ranges and the congruence of `decompose`. -/
theorem decompose_range (g : Nat) (hg : g = 95232 ∨ g = 261888) (a : Int) (h1 : 0 ≤ a) (h2 : a < 8380417) :
    0 ≤ (decompose g a).1 ∧ (decompose g a).1 * (2 * g) < 8380416 ∧ -(g : Int) ≤ (decompose g a).2 ∧ (decompose g a).2 ≤ g ∧
    (a - ((decompose g a).1 * (2 * g) + (decompose g a).2)) % 8380417 = 0 := by
  rcases hg with rfl | rfl
  · rw [decompose88 a h1 h2]; split <;> dsimp only <;> omega
  · rw [decompose32 a h1 h2]; split <;> dsimp only <;> omega

/-- The low part `-gamma2` only occurs with the high part zero. -/
theorem decompose_edge (g : Nat) (hg : g = 95232 ∨ g = 261888) (a : Int) (h1 : 0 ≤ a) (h2 : a < 8380417)
    (h : (decompose g a).2 = -(g : Int)) : (decompose g a).1 = 0 := by
  rcases hg with rfl | rfl
  · rw [decompose88 a h1 h2] at h ⊢; revert h; split <;> dsimp only <;> omega
  · rw [decompose32 a h1 h2] at h ⊢; revert h; split <;> dsimp only <;> omega

/-- **C53 (`use_hint`)**: `UseHint` of FIPS 204. -/
theorem use_hint_exact (g : Nat) (hg : g = 95232 ∨ g = 261888) (a h : Int) (h1 : 0 ≤ a) (h2 : a < 8380417) (hh : h = 0 ∨ h = 1) :
    useHint g a h = Spec.useHint (8380416 / (2 * g)) h (decompose g a).1 (decompose g a).2 := by
  obtain ⟨r1, r2, r3, r4, -⟩ := decompose_range g hg a h1 h2
  unfold useHint Spec.useHint
  dsimp only
  generalize (decompose g a).1 = x at *
  generalize (decompose g a).2 = y at *
  rcases hh with rfl | rfl
  · rw [if_pos rfl, if_neg (by omega), if_neg (by omega)]
  · rw [if_neg (by decide)]
    rcases hg with rfl | rfl
    · rw [if_neg (by decide)]
      by_cases hy : y > 0
      · rw [if_pos hy, if_pos (show (1 : Int) = 1 ∧ y > 0 from ⟨rfl, hy⟩)]
        split
        · omega
        · rw [i32_eq (by omega) (by omega)]; omega
      · rw [if_neg hy, if_neg (show ¬ ((1 : Int) = 1 ∧ y > 0) by omega), if_pos (show (1 : Int) = 1 ∧ y ≤ 0 by omega)]
        split
        · omega
        · rw [i32_eq (by omega) (by omega)]; omega
    · rw [if_pos rfl]
      by_cases hy : y > 0
      · rw [if_pos hy, if_pos (show (1 : Int) = 1 ∧ y > 0 from ⟨rfl, hy⟩), i32_eq (by omega) (by omega)]; omega
      · rw [if_neg hy, if_neg (show ¬ ((1 : Int) = 1 ∧ y > 0) by omega), if_pos (show (1 : Int) = 1 ∧ y ≤ 0 by omega), i32_eq (by omega) (by omega)]; omega

/-- Reduction to one case of the hint decision. -/
theorem hint_case (g : Nat) (hg : g = 95232 ∨ g = 261888) (v a1 a0 x y : Int) (hv1 : 0 ≤ v) (hv2 : v < 8380417)
    (hd : decompose g v = (x, y))
    (hc : ((a0 > g ∨ a0 < -g ∨ (a0 = -g ∧ a1 ≠ 0)) ∧ ((0 < y ∧ (x + 1) % (8380416 / (2 * g)) = a1) ∨ (y ≤ 0 ∧ (x - 1) % (8380416 / (2 * g)) = a1))) ∨
      (¬ (a0 > g ∨ a0 < -g ∨ (a0 = -g ∧ a1 ≠ 0)) ∧ x = a1)) :
    useHint g v (makeHint g a0 a1) = a1 := by
  have hm : makeHint g a0 a1 = 0 ∨ makeHint g a0 a1 = 1 := by unfold makeHint; split <;> simp
  rw [use_hint_exact g hg _ _ hv1 hv2 hm, hd]
  unfold Spec.useHint makeHint
  dsimp only
  rcases hc with ⟨h, h' | h'⟩ | ⟨h, h'⟩
  · rw [if_pos h, if_pos (show (1 : Int) = 1 ∧ y > 0 from ⟨rfl, h'.1⟩)]; exact h'.2
  · rw [if_pos h, if_neg (show ¬ ((1 : Int) = 1 ∧ y > 0) by omega), if_pos (show (1 : Int) = 1 ∧ y ≤ 0 from ⟨rfl, h'.1⟩)]; exact h'.2
  · rw [if_neg h, if_neg (show ¬ ((0 : Int) = 1 ∧ y > 0) by omega), if_neg (show ¬ ((0 : Int) = 1 ∧ y ≤ 0) by omega)]; exact h'

/-- **C53 (hints, as the signer uses them)**: for all high bits `a1` and every low part `a0` with
`-2 gamma2 < a0 <= 2 gamma2`, `use_hint` on the standard representative of `a1 (2 gamma2) + a0` with the hint
`make_hint a0 a1` returns `a1`. -/
theorem hint_recovers (g : Nat) (hg : g = 95232 ∨ g = 261888) (a1 a0 : Int) (h1 : 0 ≤ a1) (h2 : a1 * (2 * g) < 8380416)
    (h3 : -(2 * g) < a0 ∨ (a0 = -(2 * g) ∧ a1 = 0)) (h4 : a0 ≤ 2 * g) :
    useHint g ((a1 * (2 * g) + a0) % 8380417) (makeHint g a0 a1) = a1 := by
  rcases hg with rfl | rfl
  · have ha1 : a1 ≤ 43 := by omega
    have hq : ∀ v x : Int, x * 190464 ≤ v + 95231 → v + 95231 < x * 190464 + 190464 → (v + 95231) / 190464 = x := by
      intro v x e1 e2; omega
    have hd1 : ∀ v x : Int, 0 ≤ v → v < 8380417 → x ≠ 44 → x * 190464 ≤ v + 95231 → v + 95231 < x * 190464 + 190464 →
        decompose 95232 v = (x, v - x * 190464) := by
      intro v x e1 e2 e3 e4 e5
      rw [decompose88 v e1 e2, hq v x e4 e5, if_neg e3]
    have hd2 : ∀ v : Int, 0 ≤ v → v < 8380417 → 44 * 190464 ≤ v + 95231 →
        decompose 95232 v = (0, v - 8380417) := by
      intro v e1 e2 e3
      rw [decompose88 v e1 e2, hq v 44 e3 (by omega), if_pos rfl]
    by_cases hn : a1 * 190464 + a0 < 0
    · have h0 : a1 = 0 := by omega
      subst h0
      have hv : (0 * (2 * ((95232 : Nat) : Int)) + a0) % 8380417 = a0 + 8380417 := by omega
      rw [hv]
      by_cases hl : a0 < -95232
      · exact hint_case 95232 (by decide) _ 0 a0 _ _ (by omega) (by omega) (hd1 _ 43 (by omega) (by omega) (by decide) (by omega) (by omega)) (by omega)
      · exact hint_case 95232 (by decide) _ 0 a0 _ _ (by omega) (by omega) (hd2 _ (by omega) (by omega) (by omega)) (by omega)
    · have hv : (a1 * (2 * ((95232 : Nat) : Int)) + a0) % 8380417 = a1 * 190464 + a0 := by omega
      rw [hv]
      by_cases hl : a0 ≤ -95232
      · exact hint_case 95232 (by decide) _ a1 a0 _ _ (by omega) (by omega) (hd1 _ (a1 - 1) (by omega) (by omega) (by omega) (by omega) (by omega)) (by omega)
      · by_cases hu : a0 ≤ 95232
        · exact hint_case 95232 (by decide) _ a1 a0 _ _ (by omega) (by omega) (hd1 _ a1 (by omega) (by omega) (by omega) (by omega) (by omega)) (by omega)
        · by_cases hw : a1 = 43
          · exact hint_case 95232 (by decide) _ a1 a0 _ _ (by omega) (by omega) (hd2 _ (by omega) (by omega) (by omega)) (by omega)
          · exact hint_case 95232 (by decide) _ a1 a0 _ _ (by omega) (by omega) (hd1 _ (a1 + 1) (by omega) (by omega) (by omega) (by omega) (by omega)) (by omega)
  · have ha1 : a1 ≤ 15 := by omega
    have hq : ∀ v x : Int, x * 523776 ≤ v + 261887 → v + 261887 < x * 523776 + 523776 → (v + 261887) / 523776 = x := by
      intro v x e1 e2; omega
    have hd1 : ∀ v x : Int, 0 ≤ v → v < 8380417 → x ≠ 16 → x * 523776 ≤ v + 261887 → v + 261887 < x * 523776 + 523776 →
        decompose 261888 v = (x, v - x * 523776) := by
      intro v x e1 e2 e3 e4 e5
      rw [decompose32 v e1 e2, hq v x e4 e5, if_neg e3]
    have hd2 : ∀ v : Int, 0 ≤ v → v < 8380417 → 16 * 523776 ≤ v + 261887 →
        decompose 261888 v = (0, v - 8380417) := by
      intro v e1 e2 e3
      rw [decompose32 v e1 e2, hq v 16 e3 (by omega), if_pos rfl]
    by_cases hn : a1 * 523776 + a0 < 0
    · have h0 : a1 = 0 := by omega
      subst h0
      have hv : (0 * (2 * ((261888 : Nat) : Int)) + a0) % 8380417 = a0 + 8380417 := by omega
      rw [hv]
      by_cases hl : a0 < -261888
      · exact hint_case 261888 (by decide) _ 0 a0 _ _ (by omega) (by omega) (hd1 _ 15 (by omega) (by omega) (by decide) (by omega) (by omega)) (by omega)
      · exact hint_case 261888 (by decide) _ 0 a0 _ _ (by omega) (by omega) (hd2 _ (by omega) (by omega) (by omega)) (by omega)
    · have hv : (a1 * (2 * ((261888 : Nat) : Int)) + a0) % 8380417 = a1 * 523776 + a0 := by omega
      rw [hv]
      by_cases hl : a0 ≤ -261888
      · exact hint_case 261888 (by decide) _ a1 a0 _ _ (by omega) (by omega) (hd1 _ (a1 - 1) (by omega) (by omega) (by omega) (by omega) (by omega)) (by omega)
      · by_cases hu : a0 ≤ 261888
        · exact hint_case 261888 (by decide) _ a1 a0 _ _ (by omega) (by omega) (hd1 _ a1 (by omega) (by omega) (by omega) (by omega) (by omega)) (by omega)
        · by_cases hw : a1 = 15
          · exact hint_case 261888 (by decide) _ a1 a0 _ _ (by omega) (by omega) (hd2 _ (by omega) (by omega) (by omega)) (by omega)
          · exact hint_case 261888 (by decide) _ a1 a0 _ _ (by omega) (by omega) (hd1 _ (a1 + 1) (by omega) (by omega) (by omega) (by omega) (by omega)) (by omega)

/-- **C53 (hints, FIPS 204)**: for every residue `r` and every perturbation `|z| <= gamma2`: with the
hint computed from the low bits of `r` plus `z` and the high bits of `r`, `use_hint` on `r + z`
returns the high bits of `r`. -/
theorem hint_recovers_high (g : Nat) (hg : g = 95232 ∨ g = 261888) (r z : Int) (h1 : 0 ≤ r) (h2 : r < 8380417)
    (h3 : -(g : Int) ≤ z) (h4 : z ≤ g) :
    useHint g ((r + z) % 8380417) (makeHint g ((decompose g r).2 + z) (decompose g r).1) = (decompose g r).1 := by
  obtain ⟨r1, r2, r3, r4, r5⟩ := decompose_range g hg r h1 h2
  have he := decompose_edge g hg r h1 h2
  have := hint_recovers g hg (decompose g r).1 ((decompose g r).2 + z) r1 r2 (by omega) (by omega)
  have e : (r + z) % 8380417 = ((decompose g r).1 * (2 * g) + ((decompose g r).2 + z)) % 8380417 := by omega
  rw [e]; exact this

/-- The hypotheses are met, with a hint that changes the high bits. -/
example : (decompose 95232 8380416).1 = 0 ∧ (decompose 95232 95232) = (0, 95232) ∧ makeHint 95232 (95232 + 5) 0 = 1 ∧
    (decompose 95232 (95232 + 5)).1 = 1 ∧ useHint 95232 (95232 + 5) 1 = 0 ∧
    useHint 261888 ((0 - 261888 - 7) % 8380417) 1 = 0 ∧ (decompose 261888 ((0 - 261888 - 7) % 8380417)).1 = 15 := by decide

end LC.Dilithium
