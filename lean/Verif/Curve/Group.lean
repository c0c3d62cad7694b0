import Verif.Curve.Mont
import Verif.Curve.Orders
import Mathlib.NumberTheory.LegendreSymbol.Basic
import Mathlib.GroupTheory.OrderOfElement
/-!
# Multiples, the orders of the two groups, the points of small order
-/
namespace LC.Curve.Mont

open WeierstrassCurve.Affine
open Spec (St)

/-! ### The ladder -/

section
variable {K : Type} [Field K] [DecidableEq K] {A B : K}

theorem mod_two_pow_succ (k t : Nat) : k % 2 ^ (t + 1) = 2 ^ t * (k.testBit t).toNat + k % 2 ^ t := by
  rw [Nat.toNat_testBit, Nat.pow_succ, Nat.mod_mul, Nat.add_comm]

/-- Both points of the ladder after the pending swap. -/
def Both (s : St K) (b : Bool) (D : (W A B).Point) (m : Nat) : Prop :=
  Rep (Spec.cswap b s).x2 (Spec.cswap b s).z2 (m • D) ∧ Rep (Spec.cswap b s).x3 (Spec.cswap b s).z3 ((m + 1) • D)

theorem rep_neg {X Z : K} {D : (W A B).Point} (h : Rep X Z D) : Rep X Z (-D) := by
  match D, h with
  | .zero, h => exact h
  | .some _ _ _, h => exact h

theorem both_step (g : Good A B) (ha : 4 * (121665 : K) = A - 2) {u : K} (hu : u ≠ 0) {D : (W A B).Point} (hD : Rep u 1 D)
    {s : St K} {b : Bool} {m : Nat} (h : Both s b D m) (c : Bool) :
    Both (Spec.step u (Spec.cswap (b ^^ c) s)) c D (2 * m + c.toNat) := by
  obtain ⟨h2, h3⟩ := h
  have e : Spec.cswap (b ^^ c) s = Spec.cswap c (Spec.cswap b s) := by cases b <;> cases c <;> rfl
  rw [e]
  generalize Spec.cswap b s = r at *
  cases c with
  | false =>
    have d1 := rep_double g ha _ h2
    have d2 := rep_add g _ _ D hD hu h2 h3 (by rw [succ_nsmul])
    rw [← add_nsmul, ← two_mul] at d1
    rw [← add_nsmul] at d2
    refine ⟨?_, ?_⟩
    · rw [Bool.toNat_false, Nat.add_zero]
      exact d1
    · rw [Bool.toNat_false, Nat.add_zero, show 2 * m + 1 = m + (m + 1) by omega]
      exact d2
  | true =>
    have d1 := rep_double g ha _ h3
    have d2 := rep_add g _ _ (-D) (rep_neg hD) hu h3 h2 (by rw [succ_nsmul]; abel)
    rw [← add_nsmul] at d1
    rw [← add_nsmul] at d2
    refine ⟨?_, ?_⟩
    · rw [Bool.toNat_true, show 2 * m + 1 = m + 1 + m by omega]
      exact d2
    · rw [Bool.toNat_true, show 2 * m + 1 + 1 = m + 1 + (m + 1) by omega]
      exact d1

theorem both_loop (g : Good A B) (ha : 4 * (121665 : K) = A - 2) {u : K} (hu : u ≠ 0) {D : (W A B).Point} (hD : Rep u 1 D)
    (k t : Nat) {s : St K} {b : Bool} {m : Nat} (h : Both s b D m) :
    Both (Spec.loop u k t s b).1 (Spec.loop u k t s b).2 D (2 ^ t * m + k % 2 ^ t) := by
  induction t generalizing s b m with
  | zero => rw [Nat.pow_zero, Nat.one_mul, Nat.mod_one, Nat.add_zero]; exact h
  | succ t ih =>
    have := ih (both_step g ha hu hD h (k.testBit t))
    rw [mod_two_pow_succ]
    have e : 2 ^ (t + 1) * m + (2 ^ t * (k.testBit t).toNat + k % 2 ^ t) = 2 ^ t * (2 * m + (k.testBit t).toNat) + k % 2 ^ t := by
      rw [Nat.pow_succ]; ring
    rw [e]
    exact this

/-- **The ladder computes the multiple.** -/
theorem final_rep (g : Good A B) (ha : 4 * (121665 : K) = A - 2) {u : K} (hu : u ≠ 0) {D : (W A B).Point} (hD : Rep u 1 D)
    (k bits : Nat) (hk : k < 2 ^ bits) : Rep (Spec.final u k bits).x2 (Spec.final u k bits).z2 (k • D) := by
  have h0 : Both (⟨1, 0, u, 1⟩ : St K) false D 0 :=
    ⟨by rw [zero_nsmul]; exact ⟨rfl, one_ne_zero⟩, by rw [Nat.zero_add, one_nsmul]; exact hD⟩
  have := (both_loop g ha hu hD k bits h0).1
  rw [Nat.mul_zero, Nat.zero_add, Nat.mod_eq_of_lt hk] at this
  exact this

theorem rep_eq_zero {X Z : K} {D : (W A B).Point} (h : Rep X Z D) : D = 0 ↔ Z = 0 := by
  match D, h with
  | .zero, h => exact ⟨fun _ => h.1, fun _ => rfl⟩
  | .some _ _ n, h => exact ⟨fun hc => absurd hc (Point.some_ne_zero n), fun hc => absurd hc h.1⟩

end

/-! ### Evaluation -/

/-- The ladder on numbers, for evaluation. -/
def nSub (a b : Nat) : Nat := (a + (P - b % P)) % P

theorem nSub_cast (a b : Nat) : ((nSub a b : Nat) : ZMod P) = (a : ZMod P) - b := by
  unfold nSub
  rw [ZMod.natCast_mod, Nat.cast_add, Nat.cast_sub (Nat.le_of_lt (Nat.mod_lt _ (by decide))), ZMod.natCast_self, ZMod.natCast_mod]
  ring

def nStep (x1 : Nat) (s : St Nat) : St Nat :=
  let A := s.x2 + s.z2
  let AA := A * A % P
  let B := nSub s.x2 s.z2
  let BB := B * B % P
  let E := nSub AA BB
  let C := s.x3 + s.z3
  let D := nSub s.x3 s.z3
  let DA := D * A % P
  let CB := C * B % P
  let S := DA + CB
  let F := nSub DA CB
  ⟨AA * BB % P, E * (AA + 121665 * E) % P, S * S % P, x1 * (F * F) % P⟩

def nSwap (b : Bool) (s : St Nat) : St Nat := if b then ⟨s.x3, s.z3, s.x2, s.z2⟩ else s

def nLoop (x1 k : Nat) : Nat → St Nat → Bool → St Nat × Bool
  | 0, s, swap => (s, swap)
  | t + 1, s, swap => nLoop x1 k t (nStep x1 (nSwap (swap ^^ (k / 2 ^ t % 2 == 1)) s)) (k / 2 ^ t % 2 == 1)

def nZ (x1 k bits : Nat) : Nat :=
  let r := nLoop x1 k bits ⟨1, 0, x1, 1⟩ false
  (nSwap r.2 r.1).z2 % P

/-- The residues. -/
def cast (s : St Nat) : St (ZMod P) := ⟨s.x2, s.z2, s.x3, s.z3⟩

theorem cast_step (x1 : Nat) (s : St Nat) : cast (nStep x1 s) = Spec.step (x1 : ZMod P) (cast s) := by
  unfold nStep Spec.step cast Spec.a24
  simp only [ZMod.natCast_mod, Nat.cast_mul, Nat.cast_add, nSub_cast, St.mk.injEq]
  refine ⟨by ring, by push_cast; ring, by ring, by ring⟩

theorem cast_swap (b : Bool) (s : St Nat) : cast (nSwap b s) = Spec.cswap b (cast s) := by
  cases b <;> rfl

theorem cast_loop (x1 k t : Nat) (s : St Nat) (b : Bool) :
    cast (nLoop x1 k t s b).1 = (Spec.loop (x1 : ZMod P) k t (cast s) b).1 ∧
      (nLoop x1 k t s b).2 = (Spec.loop (x1 : ZMod P) k t (cast s) b).2 := by
  induction t generalizing s b with
  | zero => exact ⟨rfl, rfl⟩
  | succ t ih =>
    have hb : (k / 2 ^ t % 2 == 1) = k.testBit t := by
      rw [Nat.testBit_eq_decide_div_mod_eq]; rfl
    rw [nLoop, Spec.loop, hb]
    rw [← cast_swap, ← cast_step]
    exact ih _ _

theorem nZ_cast (x1 k bits : Nat) : ((nZ x1 k bits : Nat) : ZMod P) = (Spec.final (x1 : ZMod P) k bits).z2 := by
  unfold nZ Spec.final
  dsimp only
  rw [ZMod.natCast_mod]
  have e : cast ⟨1, 0, x1, 1⟩ = ⟨1, 0, (x1 : ZMod P), 1⟩ := by
    unfold cast; rw [Nat.cast_one, Nat.cast_zero]
  obtain ⟨h1, h2⟩ := cast_loop x1 k bits ⟨1, 0, x1, 1⟩ false
  rw [e] at h1 h2
  rw [← h1, ← h2, ← cast_swap]
  rfl

theorem nZ_lt (x1 k bits : Nat) : nZ x1 k bits < P := Nat.mod_lt _ (by decide)

theorem nZ_zero (x1 k bits : Nat) : (Spec.final (x1 : ZMod P) k bits).z2 = 0 ↔ nZ x1 k bits = 0 := by
  rw [← nZ_cast, ZMod.natCast_eq_zero_iff]
  exact ⟨fun h => Nat.eq_zero_of_dvd_of_lt h (nZ_lt _ _ _), fun h => by rw [h]; exact Nat.dvd_zero _⟩

theorem natCast_ne (a b : Nat) (ha : a < P) (hb : b < P) (h : a ≠ b) : (a : ZMod P) ≠ b := fun hc => by
  rw [ZMod.natCast_eq_natCast_iff', Nat.mod_eq_of_lt ha, Nat.mod_eq_of_lt hb] at hc
  exact h hc

theorem natCast_ne_zero (a : Nat) (ha : a < P) (h : a ≠ 0) : (a : ZMod P) ≠ 0 := by
  have := natCast_ne a 0 ha (by decide) h
  rwa [Nat.cast_zero] at this

/-! ### The two curves over the field of `P` elements -/

/-- `A = 486662`. -/
abbrev cA : ZMod P := ((486662 : Nat) : ZMod P)
/-- The twist by 2. -/
abbrev c2 : ZMod P := ((2 : Nat) : ZMod P)

theorem two_ne : (2 : ZMod P) ≠ 0 := by
  have := natCast_ne_zero 2 (by decide) (by decide)
  simpa using this

theorem cA_p2 : cA + 2 ≠ 0 := by
  have h : cA + 2 = ((486664 : Nat) : ZMod P) := by push_cast; norm_num
  rw [h]; exact natCast_ne_zero _ (by decide) (by decide)

theorem cA_m2 : cA - 2 ≠ 0 := by
  have h : cA - 2 = ((486660 : Nat) : ZMod P) := by push_cast; norm_num
  rw [h]; exact natCast_ne_zero _ (by decide) (by decide)

theorem good1 : Good cA 1 := ⟨two_ne, one_ne_zero, cA_p2, cA_m2⟩
theorem good2 : Good cA c2 := ⟨two_ne, natCast_ne_zero _ (by decide) (by decide), cA_p2, cA_m2⟩

theorem a24_eq : 4 * (121665 : ZMod P) = cA - 2 := by push_cast; norm_num

/-! Counting. -/

/-- No more than two points for each x-coordinate. -/
theorem card_le (B : ZMod P) : Finite (W cA B).Point ∧ Nat.card (W cA B).Point ≤ 2 * P + 1 := by
  classical
  let r : ZMod P → ZMod P := fun x =>
    if h : ∃ y, y ^ 2 = x ^ 3 + B * cA * x ^ 2 + B ^ 2 * x then h.choose else 0
  let f : (W cA B).Point → Option (ZMod P × Bool) := fun Q =>
    match Q with
    | .zero => none
    | .some x y _ => some (x, decide (y = r x))
  have hr : ∀ x y : ZMod P, (W cA B).Nonsingular x y → y = r x ∨ y = -r x := by
    intro x y h
    have he : y ^ 2 = x ^ 3 + B * cA * x ^ 2 + B ^ 2 * x := eqn.mp h.1
    have hex : ∃ y, y ^ 2 = x ^ 3 + B * cA * x ^ 2 + B ^ 2 * x := ⟨y, he⟩
    have hc : (r x) ^ 2 = x ^ 3 + B * cA * x ^ 2 + B ^ 2 * x := by
      show (if h : ∃ y, y ^ 2 = x ^ 3 + B * cA * x ^ 2 + B ^ 2 * x then h.choose else 0) ^ 2 = _
      rw [dif_pos hex]; exact hex.choose_spec
    exact sq_eq_sq_iff_eq_or_eq_neg.mp (he.trans hc.symm)
  have hf : Function.Injective f := by
    intro Q R h
    match Q, R, h with
    | .zero, .zero, _ => rfl
    | .zero, .some _ _ _, h => cases h
    | .some _ _ _, .zero, h => cases h
    | .some x y n, .some x' y' n', h =>
      have h' : (x, decide (y = r x)) = (x', decide (y' = r x')) := Option.some.inj h
      have hx : x = x' := congrArg Prod.fst h'
      subst hx
      have hy : decide (y = r x) = decide (y' = r x) := congrArg Prod.snd h'
      have : y = y' := by
        rcases hr x y n with h1 | h1 <;> rcases hr x y' n' with h2 | h2
        · rw [h1, h2]
        · rw [decide_eq_true h1] at hy
          rw [h1, of_decide_eq_true hy.symm]
        · rw [decide_eq_true h2] at hy
          rw [h2, of_decide_eq_true hy]
        · rw [h1, h2]
      subst this
      rfl
  have hfin : Finite (W cA B).Point := Finite.of_injective f hf
  refine ⟨hfin, ?_⟩
  have := Nat.card_le_card_of_injective f hf
  refine this.trans (Nat.le_of_eq ?_)
  rw [Nat.card_eq_fintype_card, Fintype.card_option, Fintype.card_prod, ZMod.card, Fintype.card_bool]
  omega

end LC.Curve.Mont
