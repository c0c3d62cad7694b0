import Verif.Bike.Poly
import Mathlib.Algebra.Polynomial.CoeffList
import Mathlib.Algebra.CharP.Frobenius

/-! Karatsuba multiplication of BIKE computes the product of polynomials. -/

namespace LC.Bike

open Polynomial

/-- The polynomial in a buffer of words. -/
noncomputable def PL : List Nat → (ZMod 2)[X]
  | [] => 0
  | w :: ws => P w + X ^ 64 * PL ws

/-- All words fit in 64 bits. -/
def Wf (ws : List Nat) : Prop := ∀ w ∈ ws, w < W

theorem Wf_nil : Wf [] := by intro w h; cases h
theorem Wf_cons {w : Nat} {ws : List Nat} (h : w < W) (hs : Wf ws) : Wf (w :: ws) := by
  intro x hx
  rcases List.mem_cons.1 hx with rfl | hx
  · exact h
  · exact hs x hx
theorem Wf_append {x y : List Nat} (hx : Wf x) (hy : Wf y) : Wf (x ++ y) := by
  intro w h
  rcases List.mem_append.1 h with h | h
  · exact hx w h
  · exact hy w h
theorem Wf_take {x : List Nat} (hx : Wf x) (n : Nat) : Wf (x.take n) :=
  fun w h => hx w (List.mem_of_mem_take h)
theorem Wf_drop {x : List Nat} (hx : Wf x) (n : Nat) : Wf (x.drop n) :=
  fun w h => hx w (List.mem_of_mem_drop h)
theorem Wf_getD {x : List Nat} (hx : Wf x) (n : Nat) : x.getD n 0 < W := by
  rw [List.getD_eq_getElem?_getD]
  rcases h : x[n]? with _ | v
  · decide
  · exact hx v (List.mem_of_getElem? h)
theorem Wf_replicate (n : Nat) : Wf (List.replicate n 0) := by
  intro w h
  rw [(List.mem_replicate.1 h).2]; decide

theorem PL_append (x y : List Nat) : PL (x ++ y) = PL x + X ^ (64 * x.length) * PL y := by
  induction x with
  | nil => simp [PL]
  | cons w x ih =>
    simp only [List.cons_append, PL, ih, List.length_cons]
    ring

theorem PL_zero {x : List Nat} (h : ∀ w ∈ x, w = 0) : PL x = 0 := by
  induction x with
  | nil => rfl
  | cons w x ih =>
    simp only [PL]
    rw [h w List.mem_cons_self, ih (fun v hv => h v (List.mem_cons_of_mem _ hv)), P_zero]
    ring

theorem xorL_length (x y : List Nat) (h : x.length = y.length) : (xorL x y).length = x.length := by
  unfold xorL; rw [List.length_zipWith]; omega

theorem PL_xorL : ∀ (x y : List Nat), x.length = y.length → PL (xorL x y) = PL x + PL y
  | [], [], _ => by simp [xorL, PL]
  | a :: x, b :: y, h => by
    have ih := PL_xorL x y (by simpa using h)
    unfold xorL at ih ⊢
    simp only [List.zipWith_cons_cons, PL, P_xor]
    rw [ih]; ring

theorem Wf_xorL : ∀ (x y : List Nat), Wf x → Wf y → Wf (xorL x y)
  | [], _, _, _ => by intro w h; simp [xorL] at h
  | _ :: _, [], _, _ => by intro w h; simp [xorL] at h
  | a :: x, b :: y, hx, hy => by
    have ih := Wf_xorL x y (fun w h => hx w (List.mem_cons_of_mem _ h))
      (fun w h => hy w (List.mem_cons_of_mem _ h))
    exact Wf_cons (xor_lt_W (hx a List.mem_cons_self) (hy b List.mem_cons_self)) ih

theorem PL_split (x : List Nat) (n : Nat) (h : n ≤ x.length) :
    PL x = PL (x.take n) + X ^ (64 * n) * PL (x.drop n) := by
  conv_lhs => rw [← List.take_append_drop n x]
  rw [PL_append, List.length_take, Nat.min_eq_left h]

theorem PL_single {x : List Nat} (h : ∀ w ∈ x.drop 1, w = 0) (hl : 1 ≤ x.length) :
    PL x = P (x.getD 0 0) := by
  rcases x with _ | ⟨w, x⟩
  · simp at hl
  · simp only [PL]
    rw [PL_zero (by simpa using h)]
    simp

/-- What a call of `karatzuba` guarantees. -/
def KarOk (k : Nat) : Prop :=
  ∀ (c a b : List Nat) (len : Nat), c.length = 2 * 2 ^ k → a.length = 2 ^ k → b.length = 2 ^ k →
    Wf c → Wf a → Wf b → 1 ≤ len → len ≤ 2 ^ k → (∀ w ∈ a.drop len, w = 0) →
    (∀ w ∈ b.drop len, w = 0) → ((∀ w ∈ c, w = 0) ∨ len = 2 ^ k) →
    (kar k c a b len).length = 2 * 2 ^ k ∧ Wf (kar k c a b len) ∧
      PL (kar k c a b len) = PL a * PL b

theorem base_ok (k : Nat) (c a b : List Nat) (hc : c.length = 2 * 2 ^ k) (ha : a.length = 2 ^ k)
    (hb : b.length = 2 ^ k) (wc : Wf c) (wa : Wf a) (wb : Wf b)
    (za : ∀ w ∈ a.drop 1, w = 0) (zb : ∀ w ∈ b.drop 1, w = 0) (zc : ∀ w ∈ c.drop 2, w = 0) :
    ((mulBase (a.getD 0 0) (b.getD 0 0)).1 :: (mulBase (a.getD 0 0) (b.getD 0 0)).2 ::
        c.drop 2).length = 2 * 2 ^ k ∧
      Wf ((mulBase (a.getD 0 0) (b.getD 0 0)).1 :: (mulBase (a.getD 0 0) (b.getD 0 0)).2 ::
        c.drop 2) ∧
      PL ((mulBase (a.getD 0 0) (b.getD 0 0)).1 :: (mulBase (a.getD 0 0) (b.getD 0 0)).2 ::
        c.drop 2) = PL a * PL b := by
  have h := mulBase_spec (a.getD 0 0) (b.getD 0 0) (Wf_getD wa 0) (Wf_getD wb 0)
  have ea := PL_single za (by rw [ha]; exact Nat.one_le_two_pow)
  have eb := PL_single zb (by rw [hb]; exact Nat.one_le_two_pow)
  rw [← ea, ← eb] at h
  generalize mulBase (a.getD 0 0) (b.getD 0 0) = m at h ⊢
  obtain ⟨l, u⟩ := m
  have hp : 1 ≤ 2 ^ k := Nat.one_le_two_pow
  refine ⟨?_, Wf_cons h.1.1 (Wf_cons h.1.2 (Wf_drop wc 2)), ?_⟩
  · simp only [List.length_cons, List.length_drop, hc]; omega
  · have h2 := h.2
    unfold V at h2
    simp only [PL]
    rw [PL_zero zc, ← h2]
    ring

/-- The identity behind `karatzuba_add3`. -/
theorem kar_ring (Y c0 c1 c2 c3 d1 d2 al ah bl bh : (ZMod 2)[X])
    (p01 : c0 + Y * c1 = al * bl) (p12 : d1 + Y * d2 = (al + ah) * (bl + bh))
    (p23 : c2 + Y * c3 = ah * bh) :
    c0 + Y * (c1 + c2 + c0 + d1) + Y * Y * (c1 + c2 + d2 + c3) + Y * Y * Y * c3 =
      (al + Y * ah) * (bl + Y * bh) := by
  have two : (2 : (ZMod 2)[X]) = 0 := CharTwo.two_eq_zero
  linear_combination (1 + Y) * p01 + Y * p12 + (Y + Y ^ 2) * p23 +
    (Y * al * bl + Y * ah * bh) * two

theorem kar_combine (n : Nat) (x0 x1 x2 x3 y1 y2 : List Nat) (al ah bl bh : (ZMod 2)[X])
    (h0 : x0.length = n) (h1 : x1.length = n) (h2 : x2.length = n) (h3 : x3.length = n)
    (g1 : y1.length = n) (g2 : y2.length = n)
    (w0 : Wf x0) (w1 : Wf x1) (w2 : Wf x2) (w3 : Wf x3) (v1 : Wf y1) (v2 : Wf y2)
    (p01 : PL x0 + X ^ (64 * n) * PL x1 = al * bl)
    (p12 : PL y1 + X ^ (64 * n) * PL y2 = (al + ah) * (bl + bh))
    (p23 : PL x2 + X ^ (64 * n) * PL x3 = ah * bh) :
    (x0 ++ xorL (xorL (xorL x1 x2) x0) y1 ++ xorL (xorL (xorL x1 x2) y2) x3 ++ x3).length = 4 * n ∧
      Wf (x0 ++ xorL (xorL (xorL x1 x2) x0) y1 ++ xorL (xorL (xorL x1 x2) y2) x3 ++ x3) ∧
      PL (x0 ++ xorL (xorL (xorL x1 x2) x0) y1 ++ xorL (xorL (xorL x1 x2) y2) x3 ++ x3) =
        (al + X ^ (64 * n) * ah) * (bl + X ^ (64 * n) * bh) := by
  have l1 : (xorL x1 x2).length = n := by rw [xorL_length _ _ (by omega), h1]
  have l2 : (xorL (xorL x1 x2) x0).length = n := by rw [xorL_length _ _ (by omega), l1]
  have l3 : (xorL (xorL x1 x2) y2).length = n := by rw [xorL_length _ _ (by omega), l1]
  have l4 : (xorL (xorL (xorL x1 x2) x0) y1).length = n := by rw [xorL_length _ _ (by omega), l2]
  have l5 : (xorL (xorL (xorL x1 x2) y2) x3).length = n := by rw [xorL_length _ _ (by omega), l3]
  refine ⟨?_, ?_, ?_⟩
  · simp only [List.length_append, h0, h3, l4, l5]; omega
  · have wt := Wf_xorL _ _ w1 w2
    exact Wf_append (Wf_append (Wf_append w0 (Wf_xorL _ _ (Wf_xorL _ _ wt w0) v1))
      (Wf_xorL _ _ (Wf_xorL _ _ wt v2) w3)) w3
  · simp only [PL_append, List.length_append, h0, l4, l5]
    rw [PL_xorL (xorL (xorL x1 x2) x0) y1 (by omega), PL_xorL (xorL (xorL x1 x2) y2) x3 (by omega),
      PL_xorL (xorL x1 x2) x0 (by omega), PL_xorL (xorL x1 x2) y2 (by omega),
      PL_xorL x1 x2 (by omega)]
    rw [show 64 * (n + n) = 64 * n + 64 * n by omega,
      show 64 * (n + n + n) = 64 * n + 64 * n + 64 * n by omega]
    generalize 64 * n = q at p01 p12 p23 ⊢
    have e2 : (X : (ZMod 2)[X]) ^ (q + q) = X ^ q * X ^ q := pow_add _ _ _
    have e3 : (X : (ZMod 2)[X]) ^ (q + q + q) = X ^ q * X ^ q * X ^ q := by rw [pow_add, e2]
    rw [e2, e3]
    generalize (X : (ZMod 2)[X]) ^ q = Y at p01 p12 p23 ⊢
    generalize PL x0 = z0 at p01 p12 p23 ⊢
    generalize PL x1 = z1 at p01 p12 p23 ⊢
    generalize PL x2 = z2 at p01 p12 p23 ⊢
    generalize PL x3 = z3 at p01 p12 p23 ⊢
    generalize PL y1 = u1 at p01 p12 p23 ⊢
    generalize PL y2 = u2 at p01 p12 p23 ⊢
    exact kar_ring Y z0 z1 z2 z3 u1 u2 al ah bl bh p01 p12 p23

theorem kar_ok (k : Nat) : KarOk k := by
  induction k with
  | zero =>
    intro c a b len hc ha hb wc wa wb h1 h2 za zb hz
    have : len = 1 := by simp at h2; omega
    subst this
    unfold kar
    refine base_ok 0 c a b hc ha hb wc wa wb za zb ?_
    intro w h
    rw [List.drop_eq_nil_of_le (by omega)] at h
    cases h
  | succ k ih =>
    intro c a b len hc ha hb wc wa wb h1 h2 za zb hz
    have hp : 1 ≤ 2 ^ k := Nat.one_le_two_pow
    have hp2 : 2 ^ (k + 1) = 2 * 2 ^ k := by rw [Nat.pow_succ]; omega
    unfold kar
    by_cases hlen : len ≤ 1
    · rw [if_pos hlen]
      have : len = 1 := by omega
      subst this
      have zc : ∀ w ∈ c, w = 0 := by
        rcases hz with h | h
        · exact h
        · omega
      exact base_ok (k + 1) c a b hc ha hb wc wa wb za zb (fun w h => zc w (List.mem_of_mem_drop h))
    · rw [if_neg hlen]
      dsimp only
      rw [hp2] at hc ha hb h2
      have i01 := ih (c.take (2 * 2 ^ k)) (a.take (2 ^ k)) (b.take (2 ^ k)) (2 ^ k)
        (by rw [List.length_take]; omega) (by rw [List.length_take]; omega)
        (by rw [List.length_take]; omega) (Wf_take wc _) (Wf_take wa _) (Wf_take wb _) hp
        (Nat.le_refl _)
        (by intro w h; rw [List.drop_eq_nil_of_le (by rw [List.length_take]; omega)] at h; cases h)
        (by intro w h; rw [List.drop_eq_nil_of_le (by rw [List.length_take]; omega)] at h; cases h)
        (Or.inr rfl)
      generalize hk01 : kar k (c.take (2 * 2 ^ k)) (a.take (2 ^ k)) (b.take (2 ^ k)) (2 ^ k) = c01
        at i01
      obtain ⟨l01, w01, p01⟩ := i01
      by_cases hgt : len > 2 ^ k
      · rw [if_pos hgt]
        have i23 := ih (c.drop (2 * 2 ^ k)) (a.drop (2 ^ k)) (b.drop (2 ^ k)) (len - 2 ^ k)
          (by rw [List.length_drop]; omega) (by rw [List.length_drop]; omega)
          (by rw [List.length_drop]; omega) (Wf_drop wc _) (Wf_drop wa _) (Wf_drop wb _) (by omega)
          (by omega)
          (by intro w h; rw [List.drop_drop, show 2 ^ k + (len - 2 ^ k) = len by omega] at h
              exact za w h)
          (by intro w h; rw [List.drop_drop, show 2 ^ k + (len - 2 ^ k) = len by omega] at h
              exact zb w h)
          (by rcases hz with h | h
              · exact Or.inl (fun w hw => h w (List.mem_of_mem_drop hw))
              · exact Or.inr (by omega))
        generalize hk23 : kar k (c.drop (2 * 2 ^ k)) (a.drop (2 ^ k)) (b.drop (2 ^ k)) (len - 2 ^ k)
          = c23 at i23
        obtain ⟨l23, w23, p23⟩ := i23
        have la : (a.take (2 ^ k)).length = (a.drop (2 ^ k)).length := by
          rw [List.length_take, List.length_drop]; omega
        have lb : (b.take (2 ^ k)).length = (b.drop (2 ^ k)).length := by
          rw [List.length_take, List.length_drop]; omega
        have i12 := ih (c01.drop (2 ^ k) ++ c23.take (2 ^ k))
          (xorL (a.take (2 ^ k)) (a.drop (2 ^ k))) (xorL (b.take (2 ^ k)) (b.drop (2 ^ k))) (2 ^ k)
          (by rw [List.length_append, List.length_drop, List.length_take]; omega)
          (by rw [xorL_length _ _ la, List.length_take]; omega)
          (by rw [xorL_length _ _ lb, List.length_take]; omega)
          (Wf_append (Wf_drop w01 _) (Wf_take w23 _))
          (Wf_xorL _ _ (Wf_take wa _) (Wf_drop wa _)) (Wf_xorL _ _ (Wf_take wb _) (Wf_drop wb _)) hp
          (Nat.le_refl _)
          (by intro w h
              rw [List.drop_eq_nil_of_le (by rw [xorL_length _ _ la, List.length_take]; omega)] at h
              cases h)
          (by intro w h
              rw [List.drop_eq_nil_of_le (by rw [xorL_length _ _ lb, List.length_take]; omega)] at h
              cases h)
          (Or.inr rfl)
        generalize hk12 : kar k (c01.drop (2 ^ k) ++ c23.take (2 ^ k))
          (xorL (a.take (2 ^ k)) (a.drop (2 ^ k))) (xorL (b.take (2 ^ k)) (b.drop (2 ^ k))) (2 ^ k)
          = c12 at i12
        obtain ⟨l12, w12, p12⟩ := i12
        rw [PL_xorL _ _ la, PL_xorL _ _ lb] at p12
        have s01 := PL_split c01 (2 ^ k) (by omega)
        have s12 := PL_split c12 (2 ^ k) (by omega)
        have s23 := PL_split c23 (2 ^ k) (by omega)
        rw [PL_split a (2 ^ k) (by omega), PL_split b (2 ^ k) (by omega)]
        rw [p01] at s01
        rw [p12] at s12
        rw [p23] at s23
        have := kar_combine (2 ^ k) (c01.take (2 ^ k)) (c01.drop (2 ^ k)) (c23.take (2 ^ k))
          (c23.drop (2 ^ k)) (c12.take (2 ^ k)) (c12.drop (2 ^ k)) _ _ _ _
          (by rw [List.length_take]; omega) (by rw [List.length_drop]; omega)
          (by rw [List.length_take]; omega) (by rw [List.length_drop]; omega)
          (by rw [List.length_take]; omega) (by rw [List.length_drop]; omega)
          (Wf_take w01 _) (Wf_drop w01 _) (Wf_take w23 _) (Wf_drop w23 _) (Wf_take w12 _)
          (Wf_drop w12 _) s01.symm s12.symm s23.symm
        refine ⟨?_, this.2⟩
        rw [this.1]; omega
      · rw [if_neg hgt]
        have zc : ∀ w ∈ c, w = 0 := by
          rcases hz with h | h
          · exact h
          · omega
        have zd : ∀ x : List Nat, (∀ w ∈ x.drop len, w = 0) → ∀ w ∈ x.drop (2 ^ k), w = 0 := by
          intro x hx w h
          rw [show 2 ^ k = len + (2 ^ k - len) by omega, ← List.drop_drop] at h
          exact hx w (List.mem_of_mem_drop h)
        refine ⟨?_, Wf_append w01 (Wf_drop wc _), ?_⟩
        · rw [List.length_append, List.length_drop, l01]; omega
        · rw [PL_append, PL_zero (fun w h => zc w (List.mem_of_mem_drop h)), p01,
            PL_split a (2 ^ k) (by omega), PL_split b (2 ^ k) (by omega), PL_zero (zd a za),
            PL_zero (zd b zb)]
          ring

end LC.Bike
