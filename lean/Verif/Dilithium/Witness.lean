import Verif.Dilithium.Correct
/-
The product of the challenge with a short vector is computed exactly and is short; and a run of key
generation and signing that ends, so that `verify_accepts` is not vacuous.
-/
namespace LC.Dilithium
open LC.Ntt Polynomial
open LC.Kyber (Poly Byte upd mapLoop at8 b8 memcmpB Bnd)

/-! ### The challenge times a short polynomial -/

theorem negacyclic_bound {c s : Poly} {B : Int} (hB : 0 ≤ B) (hc : ∀ x, c x = 0 ∨ c x = 1 ∨ c x = -1) (hs : Bnd B s) (k : Nat) (hk : k < 256) :
    -(B * (Spec.ones c).length) ≤ LC.Kyber.Spec.negacyclic c s k ∧ LC.Kyber.Spec.negacyclic c s k ≤ B * (Spec.ones c).length := by
  have key : ∀ n ≤ 256, -(B * (((List.range n).filter fun x => c x ≠ 0).length : Nat)) ≤
      ((List.range n).map fun i => if i ≤ k then c i * s (k - i) else -(c i * s (256 + k - i))).sum ∧
      ((List.range n).map fun i => if i ≤ k then c i * s (k - i) else -(c i * s (256 + k - i))).sum ≤ B * (((List.range n).filter fun x => c x ≠ 0).length : Nat) := by
    intro n
    induction n with
    | zero => intro _; simp
    | succ n ih =>
      intro hn
      obtain ⟨i1, i2⟩ := ih (by omega)
      rw [List.range_succ, List.filter_append, List.map_append, List.sum_append, List.length_append]
      simp only [List.map_cons, List.map_nil, List.sum_cons, List.sum_nil, List.filter_cons, List.filter_nil]
      generalize ((List.range n).map fun i => if i ≤ k then c i * s (k - i) else -(c i * s (256 + k - i))).sum = a at *
      generalize ((List.range n).filter fun x => c x ≠ 0).length = L at *
      have hterm : ∀ v : Int, v = (if n ≤ k then c n * s (k - n) else -(c n * s (256 + k - n))) → (c n = 0 → v = 0) ∧ -B ≤ v ∧ v ≤ B := by
        intro v hv
        split at hv
        · have := hs (k - n) (by omega)
          rcases hc n with e | e | e <;> rw [e] at hv <;> omega
        · have := hs (256 + k - n) (by omega)
          rcases hc n with e | e | e <;> rw [e] at hv <;> omega
      obtain ⟨t1, t2, t3⟩ := hterm _ rfl
      generalize (if n ≤ k then c n * s (k - n) else -(c n * s (256 + k - n))) = v at *
      by_cases e : c n = 0
      · have := t1 e
        simp [e]; omega
      · simp only [ne_eq, e, not_false_eq_true, decide_true, if_true, List.length_cons, List.length_nil, Nat.zero_add, Nat.cast_add, Nat.cast_one, mul_add, mul_one]
        constructor <;> omega
  have := key 256 (Nat.le_refl _)
  unfold LC.Kyber.Spec.negacyclic Spec.ones
  exact this

/-- For every challenge of weight `tau` and every polynomial bounded by `B` with `tau B < (q-1)/2`,
the product computed with the NTT is exactly the product over the integers, and bounded by `tau B`. -/
theorem challenge_product_exact {tau : Nat} (ht : tau ≤ 256) {st : Nat → Byte} {fuel : Nat} {c : Poly} (hc : polyChallenge tau st fuel = some c)
    {B : Int} (hB : 0 ≤ B) (hB2 : B ≤ 8388608) (htB : B * tau ≤ 4000000) {s : Poly} (hs : Bnd B s) (k : Nat) (hk : k < 256) :
    invntt (polyPointwise (ntt c) (ntt s)) k = LC.Kyber.Spec.negacyclic c s k ∧
    -(B * tau) ≤ invntt (polyPointwise (ntt c) (ntt s)) k ∧ invntt (polyPointwise (ntt c) (ntt s)) k ≤ B * tau := by
  obtain ⟨w1, w2, -⟩ := polyChallenge_weight tau ht st fuel c hc
  have cb : Bnd 1 c := challenge_bnd ht hc
  obtain ⟨b1, r1⟩ := prod_spec (A := 1) (B := B) (by decide) hB2 (by decide) hB cb hs
  have h2 := (Rep.self 256 (-1 : Zq) (cast s)).conv (cast c)
  have h3 := Rep.unique (by decide) r1 h2 k hk
  have hn := negacyclic_bound hB w2 hs k hk
  rw [w1] at hn
  have h4 : ((invntt (polyPointwise (ntt c) (ntt s)) k : Int) : Zq) = ((LC.Kyber.Spec.negacyclic c s k : Int) : Zq) := by
    refine h3.trans ?_
    unfold LC.Kyber.Spec.negacyclic
    rw [cast_sum]
    refine Finset.sum_congr rfl fun i _ => ?_
    unfold cast
    split
    · rw [Int.cast_mul]
    · rw [Int.cast_neg, Int.cast_mul]; ring
  have h5 : ((invntt (polyPointwise (ntt c) (ntt s)) k - LC.Kyber.Spec.negacyclic c s k : Int) : Zq) = 0 := by rw [Int.cast_sub, h4, sub_self]
  have h6 : (invntt (polyPointwise (ntt c) (ntt s)) k - LC.Kyber.Spec.negacyclic c s k) % 8380417 = 0 :=
    Int.emod_eq_zero_of_dvd ((ZMod.intCast_zmod_eq_zero_iff_dvd _ 8380417).1 h5)
  have b := b1 k hk
  have e : invntt (polyPointwise (ntt c) (ntt s)) k = LC.Kyber.Spec.negacyclic c s k := by omega
  rw [e]
  exact ⟨rfl, hn⟩

theorem chkLoop_of_lt {a : Poly} {B : Int} (hB : B ≤ 1047552) : ∀ cnt i, (∀ x, i ≤ x → x < i + cnt → -B < a x ∧ a x < B) → chkLoop a B cnt i = false
  | 0, _, _ => rfl
  | cnt + 1, i, h => by
    unfold chkLoop
    dsimp only
    have hi := h i (by omega) (by omega)
    have : ¬ i32 (a i - (if a i < 0 then i32 (2 * a i) else 0)) ≥ B := by
      split
      · rw [i32_eq (x := 2 * a i) (by omega) (by omega), i32_eq (by omega) (by omega)]; omega
      · rw [i32_eq (by omega) (by omega)]; omega
    rw [if_neg this]
    exact chkLoop_of_lt hB cnt (i + 1) fun x h1 h2 => h x (by omega) (by omega)

theorem vecChknorm_of_lt {n : Nat} {v : Nat → Poly} {B : Int} (hB : B ≤ 1047552) (h : ∀ i < n, ∀ x < 256, -B < v i x ∧ v i x < B) : vecChknorm n v B = false := by
  unfold vecChknorm
  rw [List.any_eq_false]
  intro i hi
  unfold polyChknorm
  rw [if_neg (by omega), chkLoop_of_lt hB 256 0 fun x _ hx => h i (List.mem_range.1 hi) x (by omega)]
  decide

theorem optVec_of {n : Nat} {f : Nat → Option (List Int)} (h : ∀ i < n, (f i).isSome = true) : ∃ v, optVec n f = some v := by
  unfold optVec
  rw [if_pos (List.all_eq_true.2 fun i hi => h i (List.mem_range.1 hi))]
  exact ⟨_, rfl⟩

theorem reduce32_small {a : Int} (h : -4194304 ≤ a ∧ a < 4194304) : reduce32 a = a := by
  have := (reduce32_exact_partial a (by omega) (by omega)).2.2.2
  rw [this]; omega

/-! ### A run that ends

The extendable output functions are chosen such that the matrix consists of the constant 8192, the
secret vectors are not zero, and the first mask is zero.  The signature then is `z = c s1`. -/

def etaStream (i : Nat) : Byte := UInt8.ofNat (i * 37 % 223)
def maskStream (i : Nat) : Byte := [0, 0, 0x02, 0, 0x08, 0, 0x20, 0, 0x80].getD (i % 9) 0
def chalStream (i : Nat) : Byte := UInt8.ofNat (i * 11 % 210)

def demo : Env where
  shake128 := fun _ i => if i % 3 = 1 then 0x20 else 0
  shake256 := fun m =>
    if m.length = 34 then fun _ => 1
    else if m.length = 128 then fun _ => 2
    else if m.length = 66 then (if m.head? = some 1 then etaStream else maskStream)
    else chalStream
  lp64 := true
  avx2 := false

theorem demo_mat : polyUniform (fun i => if i % 3 = 1 then 0x20 else 0) 1000 = some (List.replicate 256 8192) := by decide +kernel
theorem demo_eta : (polyUniformEta 2 etaStream 1000).isSome = true := by decide +kernel
theorem demo_chal : (polyChallenge 39 chalStream 1000).isSome = true := by decide +kernel
theorem demo_mask : ∀ x < 256, polyzUnpack 131072 (squeeze maskStream 0 680) x = 0 := by decide +kernel

theorem demo_expand (rho : List Byte) : matrixExpand demo 1000 4 4 rho = some (fun _ _ x => (List.replicate 256 (8192 : Int)).getD x 0) := by
  unfold matrixExpand
  have h : ∀ m, polyUniform (demo.shake128 m) 1000 = some (List.replicate 256 8192) := fun m => demo_mat
  rw [if_pos]
  · simp only [h, Option.getD_some]
  · simp only [h, Option.isSome_some]
    decide

theorem demo_A : Bnd 8380416 (fun x => (List.replicate 256 (8192 : Int)).getD x 0) ∧
    Split 1 256 cz (cast (fun x => (List.replicate 256 (8192 : Int)).getD x 0)) (C ((8192 : Int) : Zq)) := by
  have h : ∀ x < 256, (List.replicate 256 (8192 : Int)).getD x 0 = 8192 := fun x hx => by
    rw [List.getD_eq_getElem?_getD, List.getElem?_replicate, if_pos hx]; rfl
  refine ⟨fun x hx => by dsimp only; rw [h x hx]; decide, fun b hb => ?_⟩
  unfold Rep
  have : toPoly 1 (fun j => cast (fun x => (List.replicate 256 (8192 : Int)).getD x 0) (1 * b + j)) = C ((8192 : Int) : Zq) := by
    unfold toPoly
    rw [Finset.sum_range_one, pow_zero, mul_one]
    unfold cast
    dsimp only
    rw [h _ (by omega)]
  rw [this, sub_self]
  exact dvd_zero _

theorem demo_uniform (n nonce : Nat) (rp : List Byte) (hl : rp.length = 64) (hh : rp.head? = some 1) : ∃ v, uniformEta demo 1000 2 n rp nonce = some v := by
  unfold uniformEta
  refine optVec_of fun i _ => ?_
  have : demo.shake256 (rp ++ le16 (nonce + i)) = etaStream := by
    unfold demo
    dsimp only
    have h1 : (rp ++ le16 (nonce + i)).length = 66 := by rw [List.length_append, hl]; rfl
    rw [h1, if_neg (by decide), if_neg (by decide), if_pos rfl, if_pos]
    rw [List.head?_append, hh]; rfl
  rw [this]
  exact demo_eta

theorem demo_y (rp : List Byte) (hl : rp.length = 64) (hh : rp.head? = some 2) (j : Nat) : ∀ x < 256, signY mldsa44 demo rp 0 j x = 0 := by
  intro x hx
  unfold signY uniformGamma1
  have : ∀ n, demo.shake256 (rp ++ le16 n) = maskStream := fun n => by
    unfold demo
    dsimp only
    have h1 : (rp ++ le16 n).length = 66 := by rw [List.length_append, hl]; rfl
    rw [h1, if_neg (by decide), if_neg (by decide), if_pos rfl, if_neg]
    rw [List.head?_append, hh]
    exact fun h => absurd (show some (2 : Byte) = some 1 from h) (by decide)
  rw [this]
  exact demo_mask x hx

theorem demo_t {s1 s2 : Nat → Poly} (h1 : ∀ j < 4, ∀ x, -2 ≤ s1 j x ∧ s1 j x ≤ 2) (h2 : ∀ j < 4, ∀ x, -2 ≤ s2 j x ∧ s2 j x ≤ 2)
    (i : Nat) (hi : i < 4) (x : Nat) (hx : x < 256) :
    -3 ≤ (power2round (keyT mldsa44 (fun _ _ x => (List.replicate 256 (8192 : Int)).getD x 0) s1 s2 i x)).2 ∧
    (power2round (keyT mldsa44 (fun _ _ x => (List.replicate 256 (8192 : Int)).getD x 0) s1 s2 i x)).2 ≤ 3 := by
  obtain ⟨r1, r2⟩ := keyT_spec (p := mldsa44) (Params.Ok.fine (Or.inl rfl)) (mat := fun _ _ x => (List.replicate 256 (8192 : Int)).getD x 0)
    (PA := fun _ _ => C ((8192 : Int) : Zq)) (s1 := s1) (s2 := s2) (fun _ _ _ _ => demo_A.1) (fun _ _ _ _ => demo_A.2)
    (fun j hj x _ => by have := h1 j hj x; omega) (fun j hj x _ => by have := h2 j hj x; omega) i hi
  have r3 : Rep 256 (-1 : Zq) (fun x => ((8192 * (s1 0 x + s1 1 x + s1 2 x + s1 3 x) + s2 i x : Int) : Zq))
      ((∑ j ∈ Finset.range mldsa44.l, C ((8192 : Int) : Zq) * toPoly 256 (cast (s1 j))) + toPoly 256 (cast (s2 i))) := by
    have := (Rep.sum (f := fun j x => ((8192 : Int) : Zq) * cast (s1 j) x) mldsa44.l fun j _ => (Rep.self 256 (-1 : Zq) (cast (s1 j))).smul ((8192 : Int) : Zq)).add
      (Rep.self 256 (-1 : Zq) (cast (s2 i)))
    refine this.congr fun x _ => ?_
    rw [show mldsa44.l = 4 from rfl, Finset.sum_range_succ, Finset.sum_range_succ, Finset.sum_range_succ, Finset.sum_range_one]
    unfold cast
    simp only [Int.cast_add, Int.cast_mul]
    ring
  have r4 := cast_inj (r1 x hx) (Rep.unique (by decide) r2 r3 x hx)
  have hS : -8 ≤ s1 0 x + s1 1 x + s1 2 x + s1 3 x ∧ s1 0 x + s1 1 x + s1 2 x + s1 3 x ≤ 8 := by
    have := h1 0 (by decide) x; have := h1 1 (by decide) x; have := h1 2 (by decide) x; have := h1 3 (by decide) x; omega
  have hp := power2round_exact _ (r1 x hx).1 (r1 x hx).2
  generalize keyT mldsa44 _ s1 s2 i x = t at *
  have := h2 i hi x
  have hp1 := hp.1
  have hp2 := hp.2
  unfold Spec.Power2Round at hp1
  generalize s1 0 x + s1 1 x + s1 2 x + s1 3 x = S at *
  generalize (power2round t).1 = a at *
  generalize (power2round t).2 = b at *
  by_cases hneg : 8192 * S + s2 i x < 0
  · have e : t = 8192 * S + s2 i x + 8380417 := by omega
    omega
  · have e : t = 8192 * S + s2 i x := by omega
    omega

theorem signLoop_first {p : Params} {e : Env} {fuel : Nat} {mat : Nat → Nat → Poly} {s1 s2 t0 : Nat → Poly} {mu rhoprime sig : List Byte} {n nonce : Nat}
    (h : signAttempt p e fuel mat s1 s2 t0 mu rhoprime nonce = some (some sig)) : signLoop p e fuel mat s1 s2 t0 mu rhoprime (n + 1) nonce = some sig := by
  unfold signLoop
  rw [h, Option.bind_some]

theorem demo_attempt {s1 s2 t0 : Nat → Poly} (h1 : ∀ j < 4, Bnd 2 (s1 j)) (h2 : ∀ j < 4, Bnd 2 (s2 j)) (h3 : ∀ j < 4, Bnd 3 (t0 j))
    (mu rp : List Byte) (hl : rp.length = 64) (hh : rp.head? = some 2) :
    ∃ sig, signAttempt mldsa44 demo 1000 (fun _ _ x => (List.replicate 256 (8192 : Int)).getD x 0) (fun i => ntt (s1 i)) (fun i => ntt (s2 i)) (fun i => ntt (t0 i))
      mu rp 0 = some (some sig) := by
  have hy := demo_y rp hl hh
  unfold signAttempt
  dsimp only
  generalize signY mldsa44 demo rp 0 = y at *
  have hw : ∀ i, ∀ x < 256, signW mldsa44 (fun _ _ x => (List.replicate 256 (8192 : Int)).getD x 0) y i x = 0 := fun i x hx => by
    obtain ⟨b1, q1⟩ := row_spec (n := mldsa44.l) (by decide) (by decide) (B := 0) (by decide) (A := fun _ x => (List.replicate 256 (8192 : Int)).getD x 0) (v := y)
      (PA := fun _ => C ((8192 : Int) : Zq)) (fun j _ => demo_A) (fun j _ x hx => by rw [hy j x hx]; decide)
    obtain ⟨c1, c2, c3⟩ := polyCaddq_spec (b1.mono (B' := 8380416) (by decide)) x hx
    have z : ∀ j, toPoly 256 (cast (y j)) = (0 : Zq[X]) := fun j => by
      unfold toPoly
      refine Finset.sum_eq_zero fun i hi => ?_
      unfold cast
      rw [hy j i (Finset.mem_range.1 hi), Int.cast_zero, C_0, zero_mul]
    have q2 : ∑ j ∈ Finset.range mldsa44.l, C ((8192 : Int) : Zq) * toPoly 256 (cast (y j)) = 0 :=
      Finset.sum_eq_zero fun j _ => by rw [z, mul_zero]
    rw [q2] at q1
    have q3 := Rep.unique (by decide) q1 (Rep.zero 256 (-1 : Zq)) x hx
    have q4 := c3.trans q3
    have q5 := cast_inj (x := signW mldsa44 (fun _ _ x => (List.replicate 256 (8192 : Int)).getD x 0) y i x) (y := 0) ⟨c1, c2⟩ (q4.trans Int.cast_zero.symm)
    exact q5
  generalize signW mldsa44 (fun _ _ x => (List.replicate 256 (8192 : Int)).getD x 0) y = w at *
  have hd : ∀ i, ∀ x < 256, (decompose mldsa44.gamma2 (w i x)).2 = 0 := fun i x hx => by rw [hw i x hx]; rfl
  generalize hct : squeeze (demo.shake256 (mu ++ packW1 mldsa44 fun i x => (decompose mldsa44.gamma2 (w i x)).1)) 0 mldsa44.ctilde = ct
  have ctl : ct.length = 32 := by rw [← hct]; exact squeeze_length _ _ _
  have hcs : demo.shake256 ct = chalStream := by
    unfold demo
    dsimp only
    rw [ctl, if_neg (by decide), if_neg (by decide), if_neg (by decide)]
  rw [hcs]
  obtain ⟨c, hc⟩ := Option.isSome_iff_exists.1 demo_chal
  rw [show mldsa44.tau = 39 from rfl, hc, Option.bind_some]
  have pr : ∀ (B : Int) (s : Poly), 0 ≤ B → B ≤ 3 → Bnd B s → Bnd (B * 39) (invntt (polyPointwise (ntt c) (ntt s))) := fun B s hB hB2 hs k hk => by
    have := challenge_product_exact (tau := 39) (by decide) hc hB (by omega) (by omega) hs k hk
    omega
  have nz : ∀ j < 4, ∀ x < 256, -78 ≤ signZ (ntt c) (fun i => ntt (s1 i)) y j x ∧ signZ (ntt c) (fun i => ntt (s1 i)) y j x ≤ 78 := fun j hj x hx => by
    have := pr 2 (s1 j) (by decide) (by decide) (h1 j hj) x hx
    unfold signZ polyReduce polyAdd
    dsimp only
    rw [hy j x hx, i32_eq (by omega) (by omega), reduce32_small (by omega)]
    omega
  have nw : ∀ i < 4, ∀ x < 256, -78 ≤ signW0 (ntt c) (fun i => ntt (s2 i)) (fun i x => (decompose mldsa44.gamma2 (w i x)).2) i x ∧
      signW0 (ntt c) (fun i => ntt (s2 i)) (fun i x => (decompose mldsa44.gamma2 (w i x)).2) i x ≤ 78 := fun j hj x hx => by
    have := pr 2 (s2 j) (by decide) (by decide) (h2 j hj) x hx
    unfold signW0 polyReduce polySub
    dsimp only
    rw [hd j x hx, i32_eq (by omega) (by omega), reduce32_small (by omega)]
    omega
  have nh : ∀ i < 4, ∀ x < 256, -117 ≤ signH (ntt c) (fun i => ntt (t0 i)) i x ∧ signH (ntt c) (fun i => ntt (t0 i)) i x ≤ 117 := fun j hj x hx => by
    have := pr 3 (t0 j) (by decide) (by decide) (h3 j hj) x hx
    unfold signH polyReduce
    dsimp only
    rw [reduce32_small (by omega)]
    omega
  generalize signZ (ntt c) (fun i => ntt (s1 i)) y = z at *
  generalize signW0 (ntt c) (fun i => ntt (s2 i)) (fun i x => (decompose mldsa44.gamma2 (w i x)).2) = w0 at *
  generalize signH (ntt c) (fun i => ntt (t0 i)) = h at *
  have f1 : vecChknorm mldsa44.l z (mldsa44.gamma1 - mldsa44.beta) = false :=
    vecChknorm_of_lt (by decide) fun i hi x hx => by have := nz i hi x hx; show -((131072 : Nat) - (78 : Nat) : Int) < _ ∧ _ < ((131072 : Nat) - (78 : Nat) : Int); omega
  have f2 : vecChknorm mldsa44.k w0 (mldsa44.gamma2 - mldsa44.beta) = false :=
    vecChknorm_of_lt (by decide) fun i hi x hx => by have := nw i hi x hx; show -((95232 : Nat) - (78 : Nat) : Int) < _ ∧ _ < ((95232 : Nat) - (78 : Nat) : Int); omega
  have f3 : vecChknorm mldsa44.k h mldsa44.gamma2 = false :=
    vecChknorm_of_lt (by decide) fun i hi x hx => by have := nh i hi x hx; show -((95232 : Nat) : Int) < _ ∧ _ < ((95232 : Nat) : Int); omega
  rw [f1, f2, f3, if_neg (by decide), if_neg (by decide), if_neg (by decide), if_neg]
  · exact ⟨_, rfl⟩
  · have hz : ∀ i < 4, ∀ x < 256, signHint mldsa44 w0 h (fun i x => (decompose mldsa44.gamma2 (w i x)).1) i x = 0 := fun i hi x hx => by
      have := nw i hi x hx
      have := nh i hi x hx
      unfold signHint polyAdd makeHint
      dsimp only
      rw [i32_eq (by omega) (by omega), if_neg]
      show ¬ (_ > ((95232 : Nat) : Int) ∨ _ < -((95232 : Nat) : Int) ∨ (_ = -((95232 : Nat) : Int) ∧ _))
      omega
    have hsum : countHint mldsa44 (signHint mldsa44 w0 h (fun i x => (decompose mldsa44.gamma2 (w i x)).1)) = 0 := by
      unfold countHint
      generalize signHint mldsa44 w0 h (fun i x => (decompose mldsa44.gamma2 (w i x)).1) = g at hz
      have zero : ∀ (l : List Nat) (f : Nat → Int), (∀ i ∈ l, f i = 0) → (l.map f).sum = 0 := by
        intro l f
        induction l with
        | nil => intro _; rfl
        | cons a l ih => intro hf; rw [List.map_cons, List.sum_cons, hf a (List.mem_cons_self ..), ih fun i hi => hf i (List.mem_cons_of_mem _ hi)]; rfl
      exact zero _ _ fun i hi => zero _ _ fun x hx => hz i (List.mem_range.1 hi) x (List.mem_range.1 hx)
    rw [hsum]; decide

/-- The hypotheses of `verify_accepts` are met: with these functions key generation and signing end
for every seed and every message (and then verification accepts). -/
theorem demo_signs (seed m rnd : List Byte) (hs : seed.length = 32) (hr : rnd.length = 32) :
    ∃ pk sk sig, keypair mldsa44 demo 1000 seed = some (pk, sk) ∧ sign mldsa44 demo 1000 sk m rnd = some sig ∧
      verify mldsa44 demo 1000 pk m sig = some 0 := by
  suffices h : ∃ pk sk sig, keypair mldsa44 demo 1000 seed = some (pk, sk) ∧ sign mldsa44 demo 1000 sk m rnd = some sig by
    obtain ⟨pk, sk, sig, h1, h2⟩ := h
    exact ⟨pk, sk, sig, h1, h2, verify_accepts mldsa44 (Or.inl rfl) demo 1000 seed m rnd pk sk sig h1 h2⟩
  have hbuf : squeeze (demo.shake256 (seed ++ [b8 mldsa44.k, b8 mldsa44.l])) 0 128 = List.replicate 128 1 := by
    have : demo.shake256 (seed ++ [b8 mldsa44.k, b8 mldsa44.l]) = fun _ => 1 := by
      unfold demo
      dsimp only
      rw [List.length_append, hs]; rfl
    rw [this]; decide
  obtain ⟨s1, hs1⟩ := demo_uniform 4 0 (slice (List.replicate 128 1) 32 64) (by decide) (by decide)
  obtain ⟨s2, hs2⟩ := demo_uniform 4 4 (slice (List.replicate 128 1) 32 64) (by decide) (by decide)
  have b1 := uniformEta_bnd (Or.inl rfl) hs1
  have b2 := uniformEta_bnd (Or.inl rfl) hs2
  have bt := demo_t (s1 := s1) (s2 := s2) b1 b2
  have hk : ∃ pk tr, tr.length = 64 ∧ keypair mldsa44 demo 1000 seed = some (pk, packSk mldsa44 (slice (List.replicate 128 1) 0 32) (slice (List.replicate 128 1) 96 32) tr s1 s2
      (fun i x => (power2round (keyT mldsa44 (fun _ _ x => (List.replicate 256 (8192 : Int)).getD x 0) s1 s2 i x)).2)) := by
    unfold keypair
    dsimp only
    rw [hbuf, show mldsa44.eta = 2 from rfl, show mldsa44.l = 4 from rfl, show mldsa44.k = 4 from rfl, hs1, Option.bind_some, hs2, Option.bind_some, demo_expand,
      Option.bind_some]
    exact ⟨_, _, squeeze_length _ _ _, rfl⟩
  obtain ⟨pk, tr, htr, hk⟩ := hk
  generalize hsk : packSk mldsa44 _ _ tr s1 s2 _ = sk at hk
  refine ⟨pk, sk, ?_⟩
  suffices h : ∃ sig, sign mldsa44 demo 1000 sk m rnd = some sig by
    obtain ⟨sig, h⟩ := h; exact ⟨sig, hk, h⟩
  obtain ⟨k1, k2, k3, k4, k5, k6⟩ := packSk_parts (p := mldsa44) (rho := slice (List.replicate 128 1) 0 32) (key := slice (List.replicate 128 1) 96 32) (tr := tr)
    (by decide) (by decide) htr s1 s2 (fun i x => (power2round (keyT mldsa44 (fun _ _ x => (List.replicate 256 (8192 : Int)).getD x 0) s1 s2 i x)).2)
  rw [hsk] at k1 k2 k3 k4 k5 k6
  unfold sign
  rw [show mldsa44.l = 4 from rfl, show mldsa44.k = 4 from rfl, demo_expand, Option.bind_some]
  unfold signInternal
  dsimp only
  rw [k2]
  generalize hmu : muOf demo (slice sk 64 64) m = mu0
  have lmu : mu0.length = 64 := by rw [← hmu]; exact squeeze_length _ _ _
  have hrp : squeeze (demo.shake256 (slice (List.replicate 128 1) 96 32 ++ rnd ++ mu0)) 0 64 = List.replicate 64 2 := by
    have : demo.shake256 (slice (List.replicate 128 1) 96 32 ++ rnd ++ mu0) = fun _ => 2 := by
      unfold demo
      dsimp only
      have hl : (slice (List.replicate 128 (1 : Byte)) 96 32 ++ rnd ++ mu0).length = 128 := by
        rw [List.length_append, List.length_append, hr, lmu]; rfl
      rw [hl]; rfl
    rw [this]; decide
  rw [hrp]
  obtain ⟨sig, ha⟩ := demo_attempt
    (s1 := fun j => polyetaUnpack mldsa44.eta (slice sk (128 + etaLen mldsa44.eta * j) (etaLen mldsa44.eta)))
    (s2 := fun j => polyetaUnpack mldsa44.eta (slice sk (128 + etaLen mldsa44.eta * mldsa44.l + etaLen mldsa44.eta * j) (etaLen mldsa44.eta)))
    (t0 := fun j => polyt0Unpack (slice sk (128 + etaLen mldsa44.eta * mldsa44.l + etaLen mldsa44.eta * mldsa44.k + 416 * j) 416))
    (fun j hj x hx => by
      rw [k4 j hj, eta_roundtrip mldsa44.eta (Or.inl rfl) (s1 j) (fun x _ => b1 j hj x) x hx]; exact b1 j hj x)
    (fun j hj x hx => by
      rw [k5 j hj, eta_roundtrip mldsa44.eta (Or.inl rfl) (s2 j) (fun x _ => b2 j hj x) x hx]; exact b2 j hj x)
    (fun j hj x hx => by
      rw [k6 j hj, t0_roundtrip _ (fun x hx => by have := bt j hj x hx; omega) x hx]; exact bt j hj x hx)
    mu0 (List.replicate 64 2) (by decide) (by decide)
  exact ⟨sig, signLoop_first (n := 999) ha⟩

end LC.Dilithium
