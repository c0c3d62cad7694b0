import Verif.Curve.GeBase
/-!
# Ed25519: multiplication of the base point
-/
namespace LC.Curve

open Mont

/-! The constant time selection. -/

theorem ctEqual_spec (b k : Nat) (hb : b < 16) (hk : k < 16) : ctEqual b k = if b = k then 1 else 0 := by
  have : ∀ b < 16, ∀ k < 16, ctEqual b k = if b = k then 1 else 0 := by decide
  exact this b hb k hk

theorem ctNegative_spec (b : Int) (h : -128 ≤ b ∧ b < 128) : ctNegative b = if b < 0 then 1 else 0 := by
  unfold ctNegative
  rw [Nat.shiftRight_eq_div_pow]
  split <;> omega

theorem ctAbs_spec (b : Int) (h : -8 ≤ b ∧ b ≤ 8) : ctAbs b = b.natAbs := by
  unfold ctAbs
  rw [ctNegative_spec b (by omega)]
  by_cases hb : b < 0
  · rw [if_pos hb, if_pos rfl]; omega
  · rw [if_neg hb, if_neg (by decide)]; omega

theorem RP.cmov_zero (t u : Precomp) : t.cmov u 0 = t := by
  unfold Precomp.cmov; rw [feCmov_zero, feCmov_zero, feCmov_zero]

theorem RP.cmov_one {t u : Precomp} {Q R : Pt} (ht : RP t Q) (hu : RP u R) : t.cmov u 1 = u := by
  unfold Precomp.cmov
  rw [feCmov_one _ _ (Fe.lt_mono ht.bP (by decide)) (Fe.lt_mono hu.bP (by decide)),
    feCmov_one _ _ (Fe.lt_mono ht.bM (by decide)) (Fe.lt_mono hu.bM (by decide)),
    feCmov_one _ _ (Fe.lt_mono ht.bT (by decide)) (Fe.lt_mono hu.bT (by decide))]

theorem RP.neg {t : Precomp} {Q : Pt} (h : RP t Q) : RP ⟨t.yminusx, t.yplusx, feNeg t.xy2d⟩ (-Q) := by
  have a := feNeg_spec t.xy2d (Fe.lt_mono h.bT (by decide))
  refine ⟨h.bM, h.bP, a.1, ?_, ?_, ?_⟩
  · rw [h.m, xc_neg, yc_neg]; ring
  · rw [h.p, xc_neg, yc_neg]; ring
  · rw [a.2, h.t, xc_neg, yc_neg]; ring

theorem selPrecomp_rep {R : Pt} (n : Nat) (hn : n ≤ 8) (tab : List Precomp) (k : Nat) (hk : k + tab.length ≤ 8) {t : Precomp} {S : Pt}
    (ht : RP t S) (htab : ∀ j < tab.length, ∀ d, RP (tab.getD j d) ((k + j + 1) • R)) :
    RP (selPrecomp n tab k t) (if k < n ∧ n ≤ k + tab.length then n • R else S) := by
  induction tab generalizing k t S with
  | nil =>
    rw [if_neg (by simp only [List.length_nil]; omega)]; exact ht
  | cons u us ih =>
    have hu : RP u ((k + 1) • R) := htab 0 (Nat.succ_pos _) u
    have hus : ∀ j < us.length, ∀ d, RP (us.getD j d) ((k + 1 + j + 1) • R) := fun j hj d => by
      have := htab (j + 1) (Nat.succ_lt_succ hj) d
      rw [show k + 1 + j + 1 = k + (j + 1) + 1 by omega]; exact this
    rw [List.length_cons] at hk
    rw [selPrecomp, ctEqual_spec n (k + 1) (by omega) (by omega)]
    by_cases he : n = k + 1
    · rw [if_pos he, RP.cmov_one ht hu]
      have := ih (k + 1) (by omega) hu hus
      rw [if_neg (by omega)] at this
      rw [if_pos (by rw [List.length_cons]; omega)]
      have e : n • R = (k + 1) • R := by rw [he]
      rw [e]
      exact this
    · rw [if_neg he, RP.cmov_zero]
      have := ih (k + 1) (by omega) ht hus
      have e : (k + 1 < n ∧ n ≤ k + 1 + us.length) ↔ (k < n ∧ n ≤ k + (u :: us).length) := by rw [List.length_cons]; omega
      simp only [e] at this
      exact this

/-- `ge25519_cmov8` selects the signed multiple. -/
theorem cmov8_rep {R : Pt} (tab : List Precomp) (hl : tab.length = 8) (htab : ∀ j < 8, ∀ d, RP (tab.getD j d) ((j + 1) • R))
    (b : Int) (hb : -8 ≤ b ∧ b ≤ 8) : RP (cmov8 tab b) (b • R) := by
  have h := selPrecomp_rep (R := R) b.natAbs (by omega) tab 0 (by omega) precompZero_rep
    (fun j hj d => by rw [Nat.zero_add]; exact htab j (by omega) d)
  have h' : RP (selPrecomp (ctAbs b) tab 0 precompZero) (b.natAbs • R) := by
    rw [ctAbs_spec b hb]
    by_cases h0 : b.natAbs = 0
    · rw [if_neg (by omega)] at h
      rw [h0] at h ⊢
      rw [zero_nsmul]; exact h
    · rw [if_pos (by omega)] at h; exact h
  unfold cmov8
  dsimp only
  rw [ctNegative_spec b (by omega)]
  by_cases hn : b < 0
  · rw [if_pos hn, RP.cmov_one h' h'.neg]
    have e : b • R = -(b.natAbs • R) := by
      rw [← natCast_zsmul, ← neg_zsmul]; congr 1; omega
    rw [e]; exact h'.neg
  · rw [if_neg hn, RP.cmov_zero]
    have e : b • R = b.natAbs • R := by
      rw [← natCast_zsmul]; congr 1; omega
    rw [e]; exact h'

theorem cmov8Base_rep (i : Nat) (hi : i < 32) (b : Int) (hb : -8 ≤ b ∧ b ≤ 8) : RP (cmov8Base i b) ((b * 256 ^ i) • Bp) := by
  obtain ⟨hl, ht⟩ := base_rep i hi
  have := cmov8_rep _ hl ht b hb
  rw [mul_zsmul]
  have e : ((256 : Int) ^ i) • Bp = (256 ^ i : Nat) • Bp := by rw [← natCast_zsmul, Nat.cast_pow, Nat.cast_ofNat]
  rw [e]; exact this

/-! The digits. -/

theorem s8_id (x : Int) (h : -128 ≤ x ∧ x < 128) : s8 x = x := by unfold s8; omega

def eval16 : List Int → Int
  | [] => 0
  | x :: xs => x + 16 * eval16 xs

theorem nibbles_length (a : List Byte) : (nibbles a).length = 2 * a.length := by
  induction a with
  | nil => rfl
  | cons x xs ih => rw [nibbles, List.length_cons, List.length_cons, ih, List.length_cons]; omega

theorem nibbles_eval (a : List Byte) : eval16 (nibbles a) = leNum a := by
  induction a with
  | nil => rfl
  | cons x xs ih =>
    have e0 : x.toNat >>> 0 &&& 15 = x.toNat % 16 := by rw [Nat.shiftRight_zero]; exact Nat.and_two_pow_sub_one_eq_mod _ 4
    have e4 : x.toNat >>> 4 &&& 15 = x.toNat / 16 := by
      rw [Nat.shiftRight_eq_div_pow]
      have : x.toNat / 2 ^ 4 &&& 15 = x.toNat / 2 ^ 4 % 2 ^ 4 := Nat.and_two_pow_sub_one_eq_mod _ 4
      have hx := x.toNat_lt
      omega
    rw [nibbles, eval16, eval16, ih, leNum, e0, e4]
    push_cast
    omega

theorem nibbles_range (a : List Byte) : ∀ x ∈ nibbles a, 0 ≤ x ∧ x ≤ 15 := by
  induction a with
  | nil => intro x hx; cases hx
  | cons y ys ih =>
    intro x hx
    rw [nibbles, List.mem_cons, List.mem_cons] at hx
    rcases hx with h | h | h
    · have : y.toNat >>> 0 &&& 15 ≤ 15 := Nat.and_le_right
      omega
    · have : y.toNat >>> 4 &&& 15 ≤ 15 := Nat.and_le_right
      omega
    · exact ih x h

theorem recode_length (c : Int) (l : List Int) : (recode c l).length = l.length := by
  induction l generalizing c with
  | nil => rfl
  | cons x xs ih =>
    cases xs with
    | nil => rfl
    | cons y ys => rw [recode, List.length_cons, ih, List.length_cons, List.length_cons, List.length_cons]

/-- The recoding keeps the value; all digits are from -8 to 8 if the last one was at most 7. -/
theorem recode_spec (l : List Int) (hl : l ≠ []) (hr : ∀ x ∈ l, 0 ≤ x ∧ x ≤ 15) (hlast : l.getLast hl ≤ 7) (c : Int) (hc : 0 ≤ c ∧ c ≤ 1) :
    eval16 (recode c l) = c + eval16 l ∧ ∀ x ∈ recode c l, -8 ≤ x ∧ x ≤ 8 := by
  induction l generalizing c with
  | nil => exact absurd rfl hl
  | cons x xs ih =>
    have hx := hr x (List.mem_cons_self)
    cases xs with
    | nil =>
      rw [List.getLast_singleton] at hlast
      rw [recode, s8_id _ (by omega)]
      refine ⟨?_, ?_⟩
      · show x + c + 16 * 0 = c + (x + 16 * 0)
        omega
      · intro z hz; rw [List.mem_singleton] at hz; omega
    | cons y ys =>
      rw [List.getLast_cons (List.cons_ne_nil y ys)] at hlast
      have e1 : s8 (x + c) = x + c := s8_id _ (by omega)
      have e2 : s8 (x + c + 8) = x + c + 8 := s8_id _ (by omega)
      have e3 : (x + c + 8) >>> 4 = (x + c + 8) / 16 := by rw [Int.shiftRight_eq_div_pow]; rfl
      have e4 : s8 ((x + c + 8) / 16) = (x + c + 8) / 16 := s8_id _ (by omega)
      have e5 : s8 ((x + c + 8) / 16 * 16) = (x + c + 8) / 16 * 16 := s8_id _ (by omega)
      have e6 : s8 (x + c - (x + c + 8) / 16 * 16) = x + c - (x + c + 8) / 16 * 16 := s8_id _ (by omega)
      rw [recode]
      rw [e1, e2, e3, e4, e5, e6]
      obtain ⟨h1, h2⟩ := ih (List.cons_ne_nil y ys) (fun z hz => hr z (List.mem_cons_of_mem _ hz)) hlast ((x + c + 8) / 16) (by omega)
      refine ⟨?_, ?_⟩
      · show x + c - (x + c + 8) / 16 * 16 + 16 * eval16 (recode ((x + c + 8) / 16) (y :: ys)) = c + (x + 16 * eval16 (y :: ys))
        rw [h1]
        generalize eval16 (y :: ys) = E
        omega
      · intro z hz
        rw [List.mem_cons] at hz
        rcases hz with h | h
        · omega
        · exact h2 z h

theorem nibbles_last (a : List Byte) (ha : a ≠ []) (hl : nibbles a ≠ []) :
    (nibbles a).getLast hl = (((a.getLast ha).toNat >>> 4 &&& 15 : Nat) : Int) := by
  induction a with
  | nil => exact absurd rfl ha
  | cons x xs ih =>
    cases xs with
    | nil => rfl
    | cons y ys =>
      have hne : nibbles (y :: ys) ≠ [] := by rw [nibbles]; exact List.cons_ne_nil _ _
      have : (nibbles (x :: y :: ys)).getLast hl = (nibbles (y :: ys)).getLast hne := by
        simp only [nibbles]
        rw [List.getLast_cons (List.cons_ne_nil _ _), List.getLast_cons (List.cons_ne_nil _ _)]
      rw [this, ih (List.cons_ne_nil _ _) hne, List.getLast_cons (List.cons_ne_nil _ _)]

theorem digits_spec (a : List Byte) (ha : a.length = 32) (h31 : (a.getD 31 0).toNat ≤ 127) :
    (digits a).length = 64 ∧ eval16 (digits a) = leNum a ∧ ∀ x ∈ digits a, -8 ≤ x ∧ x ≤ 8 := by
  have hne : a ≠ [] := by intro h; rw [h] at ha; exact absurd ha (by decide)
  have hln := nibbles_length a
  rw [ha] at hln
  have hl : nibbles a ≠ [] := by intro h; rw [h] at hln; exact absurd hln (by decide)
  have hlast : (nibbles a).getLast hl ≤ 7 := by
    rw [nibbles_last a hne hl]
    have e : a.getLast hne = a.getD 31 0 := by
      rw [List.getLast_eq_getElem, List.getD_eq_getElem?_getD]
      have h1 : a.length - 1 = 31 := by rw [ha]
      simp only [h1]
      rw [List.getElem?_eq_getElem (by rw [ha]; decide)]; rfl
    rw [e, Nat.shiftRight_eq_div_pow]
    have : (a.getD 31 0).toNat / 2 ^ 4 &&& 15 = (a.getD 31 0).toNat / 2 ^ 4 % 2 ^ 4 := Nat.and_two_pow_sub_one_eq_mod _ 4
    omega
  obtain ⟨h1, h2⟩ := recode_spec (nibbles a) hl (nibbles_range a) hlast 0 (by decide)
  refine ⟨?_, ?_, h2⟩
  · show (recode 0 (nibbles a)).length = 64
    rw [recode_length, hln]
  · show eval16 (recode 0 (nibbles a)) = _
    rw [h1, nibbles_eval, zero_add]

/-- The sum of every other digit. -/
def sumD (e : List Int) (off : Nat) : Nat → Nat → Int
  | 0, _ => 0
  | n + 1, k => e.getD (2 * k + off) 0 * 256 ^ k + sumD e off n (k + 1)

theorem sumD_cons (x y : Int) (e : List Int) (off n k : Nat) : sumD (x :: y :: e) off n (k + 1) = 256 * sumD e off n k := by
  induction n generalizing k with
  | zero => rfl
  | succ n ih =>
    rw [sumD, sumD, ih, show 2 * (k + 1) + off = 2 * k + off + 1 + 1 by omega, List.getD_cons_succ, List.getD_cons_succ]
    ring

theorem sumD_eval (n : Nat) (e : List Int) (h : e.length = 2 * n) : eval16 e = sumD e 0 n 0 + 16 * sumD e 1 n 0 := by
  induction n generalizing e with
  | zero =>
    have : e = [] := List.eq_nil_of_length_eq_zero (by omega)
    rw [this]; rfl
  | succ n ih =>
    match e, h with
    | x :: y :: e', h =>
      have h' : e'.length = 2 * n := by simp only [List.length_cons] at h; omega
      rw [sumD, sumD, sumD_cons, sumD_cons, eval16, eval16, ih e' h']
      show _ = x * 256 ^ 0 + _ + 16 * (y * 256 ^ 0 + _)
      ring
    | [x], h => simp at h; omega
    | [], h => simp at h

theorem baseLoop_succ (e : List Int) (off n k : Nat) (h : P3) : baseLoop e off (n + 1) k h =
    baseLoop e off n (k + 1) (addPrecomp h (cmov8Base k (e.getD (2 * k + off) 0))).toP3 := by
  conv_lhs => unfold baseLoop

theorem baseLoop_rep (e : List Int) (he : ∀ x ∈ e, -8 ≤ x ∧ x ≤ 8) (off n k : Nat) (hk : k + n ≤ 32) {h : P3} {Q : Pt} (hh : R3 h Q) :
    R3 (baseLoop e off n k h) (Q + sumD e off n k • Bp) := by
  induction n generalizing k h Q with
  | zero => unfold baseLoop; rw [sumD, zero_zsmul, add_zero]; exact hh
  | succ n ih =>
    have hd : -8 ≤ e.getD (2 * k + off) 0 ∧ e.getD (2 * k + off) 0 ≤ 8 := by
      by_cases hlt : 2 * k + off < e.length
      · have := he e[2 * k + off] (List.getElem_mem hlt)
        rw [List.getD_eq_getElem?_getD, List.getElem?_eq_getElem hlt]; exact this
      · rw [List.getD_eq_getElem?_getD, List.getElem?_eq_none (by omega)]; decide
    have hr := P11.toP3_rep (addPrecomp_rep hh (cmov8Base_rep k (by omega) _ hd))
    have h2 := ih (k + 1) (by omega) hr
    rw [baseLoop_succ, sumD, add_zsmul, ← add_assoc]
    exact h2

/-- `ge25519_scalarmult_base` computes the multiple of the base point. -/
theorem scalarmultBase_rep (a : List Byte) (ha : a.length = 32) (h31 : (a.getD 31 0).toNat ≤ 127) :
    R3 (scalarmultBase a) (leNum a • Bp) := by
  obtain ⟨hl, hv, hr⟩ := digits_spec a ha h31
  have h1 := baseLoop_rep (digits a) hr 1 32 0 (by decide) p3zero_rep
  have h2 := P11.toP2_rep (P3.dbl_rep h1)
  have h3 := P11.toP2_rep (P2.dbl_rep h2)
  have h4 := P11.toP2_rep (P2.dbl_rep h3)
  have h5 := P11.toP3_rep (P2.dbl_rep h4)
  have h6 := baseLoop_rep (digits a) hr 0 32 0 (by decide) h5
  have e := sumD_eval 32 (digits a) hl
  rw [hv] at e
  have hQ : ∀ s : Int, ∀ t : Int, (leNum a : Int) = t + 16 * s → leNum a • Bp =
      (0 + s • Bp + (0 + s • Bp) + (0 + s • Bp + (0 + s • Bp)) + (0 + s • Bp + (0 + s • Bp) + (0 + s • Bp + (0 + s • Bp))) +
        (0 + s • Bp + (0 + s • Bp) + (0 + s • Bp + (0 + s • Bp)) + (0 + s • Bp + (0 + s • Bp) + (0 + s • Bp + (0 + s • Bp))))) + t • Bp := by
    intro s t h
    rw [zero_add, ← natCast_zsmul, h]
    simp only [← add_zsmul]
    congr 1
    ring
  rw [hQ _ _ e]
  exact h6

end LC.Curve
