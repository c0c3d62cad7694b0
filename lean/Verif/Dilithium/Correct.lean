import Verif.Dilithium.SchemeLemmas
/-
**C56**: verification accepts every signature the signer produces.
-/
namespace LC.Dilithium
open LC.Ntt Polynomial
open LC.Kyber (Poly Byte upd mapLoop at8 b8 memcmpB Bnd flatMap_slice flatMap_rest memcmpB_eq)

/-- What the proofs use of a parameter set. -/
structure Params.Fine (p : Params) : Prop where
  k1 : 1 ≤ p.k
  l1 : 1 ≤ p.l
  l7 : p.l ≤ 7
  eta : p.eta = 2 ∨ p.eta = 4
  tau : p.tau ≤ 256
  g1 : p.gamma1 = 131072 ∨ p.gamma1 = 524288
  g2 : p.gamma2 = 95232 ∨ p.gamma2 = 261888
  beta : p.beta ≤ 200
  omega : p.omega < 256

theorem Params.Ok.fine {p : Params} (h : p.Ok) : p.Fine := by
  rcases h with rfl | rfl | rfl <;> constructor <;> decide

/-- `t = A s1 + s2` modulo `q` and `X^256 + 1`, in standard representation. -/
theorem keyT_spec {p : Params} (hp : p.Fine) {mat : Nat → Nat → Poly} {s1 s2 : Nat → Poly} (hm : ∀ i < p.k, ∀ j < p.l, Bnd 8380416 (mat i j))
    {PA : Nat → Nat → Zq[X]} (hPA : ∀ i < p.k, ∀ j < p.l, Split 1 256 cz (cast (mat i j)) (PA i j))
    (h1 : ∀ j < p.l, Bnd 4 (s1 j)) (h2 : ∀ i < p.k, Bnd 4 (s2 i)) (i : Nat) (hi : i < p.k) :
    (∀ x < 256, 0 ≤ keyT p mat s1 s2 i x ∧ keyT p mat s1 s2 i x < 8380417) ∧
    Rep 256 (-1) (cast (keyT p mat s1 s2 i)) ((∑ j ∈ Finset.range p.l, PA i j * toPoly 256 (cast (s1 j))) + toPoly 256 (cast (s2 i))) := by
  obtain ⟨b1, r1⟩ := row_spec hp.l1 hp.l7 (B := 4) (by decide) (A := mat i) (v := s1) (PA := PA i) (fun j hj => ⟨hm i hi j hj, hPA i hi j hj⟩) h1
  obtain ⟨b2, a2⟩ := polyAdd_spec (by decide) b1 (h2 i hi)
  have hc := polyCaddq_spec (b2.mono (B' := 8380416) (by decide))
  refine ⟨fun x hx => ⟨(hc x hx).1, (hc x hx).2.1⟩, ?_⟩
  refine (r1.add (Rep.self 256 (-1) (cast (s2 i)))).congr fun x hx => ?_
  refine Eq.trans ?_ (hc x hx).2.2.symm
  unfold cast
  rw [a2 x hx, Int.cast_add]

/-- A signature of one pass of the signing loop is accepted, for every key whose parts satisfy
`t1 2^13 + t0 = A s1 + s2`. -/
theorem attempt_verifies {p : Params} (hp : p.Fine) (e : Env) (fuel : Nat) {mat : Nat → Nat → Poly} {s1 s2 t0 : Nat → Poly} {pk mu rhoprime sig : List Byte}
    {nonce : Nat} (hm : ∀ i < p.k, ∀ j < p.l, Bnd 8380416 (mat i j))
    {PA : Nat → Nat → Zq[X]} (hPA : ∀ i < p.k, ∀ j < p.l, Split 1 256 cz (cast (mat i j)) (PA i j))
    (h1 : ∀ j < p.l, Bnd 4 (s1 j)) (h2 : ∀ i < p.k, Bnd 4 (s2 i)) (h0 : ∀ i < p.k, Bnd 4096 (t0 i))
    (hT : ∀ i < p.k, Rep 256 (-1) (fun x => ((8192 : Int) : Zq) * cast (polyt1Unpack (slice pk (32 + 320 * i) 320)) x + cast (t0 i) x)
      ((∑ j ∈ Finset.range p.l, PA i j * toPoly 256 (cast (s1 j))) + toPoly 256 (cast (s2 i))))
    (h : signAttempt p e fuel mat (fun i => ntt (s1 i)) (fun i => ntt (s2 i)) (fun i => ntt (t0 i)) mu rhoprime nonce = some (some sig)) :
    verifyInternal p e fuel mat pk sig mu = some 0 := by
  have hg1 := hp.g1
  have hg2 := hp.g2
  have hbeta := hp.beta
  unfold signAttempt at h
  dsimp only at h
  generalize hy : signY p e rhoprime nonce = y at h
  have yb : ∀ j < p.l, Bnd 524288 (y j) := fun j _ x _ => by
    rw [← hy]
    have := uniformGamma1_bnd e p.gamma1 hp.g1 rhoprime ((p.l * nonce + j) % 65536) x
    unfold signY
    rcases hg1 with e | e <;> rw [e] at this ⊢ <;> omega
  -- w
  have hw : ∀ i < p.k, (∀ x < 256, 0 ≤ signW p mat y i x ∧ signW p mat y i x < 8380417) ∧
      Rep 256 (-1) (cast (signW p mat y i)) (∑ j ∈ Finset.range p.l, PA i j * toPoly 256 (cast (y j))) := fun i hi => by
    obtain ⟨b1, r1⟩ := row_spec hp.l1 hp.l7 (B := 524288) (by decide) (A := mat i) (v := y) (PA := PA i) (fun j hj => ⟨hm i hi j hj, hPA i hi j hj⟩) yb
    have hc := polyCaddq_spec (b1.mono (B' := 8380416) (by decide))
    exact ⟨fun x hx => ⟨(hc x hx).1, (hc x hx).2.1⟩, r1.congr fun x hx => (hc x hx).2.2.symm⟩
  generalize signW p mat y = w at h hw
  generalize hct : squeeze (e.shake256 (mu ++ packW1 p fun i x => (decompose p.gamma2 (w i x)).1)) 0 p.ctilde = ct at h
  have ctl : ct.length = p.ctilde := by rw [← hct]; exact squeeze_length _ _ _
  cases hch : polyChallenge p.tau (e.shake256 ct) fuel with
  | none => rw [hch] at h; cases h
  | some c =>
    rw [hch, Option.bind_some] at h
    have hc := challenge_bnd hp.tau hch
    -- z
    have hz : ∀ j < p.l, Bnd 6283009 (signZ (ntt c) (fun i => ntt (s1 i)) y j) ∧
        Rep 256 (-1) (cast (signZ (ntt c) (fun i => ntt (s1 i)) y j)) (toPoly 256 (cast c) * toPoly 256 (cast (s1 j)) + toPoly 256 (cast (y j))) := fun j hj => by
      obtain ⟨b1, r1⟩ := prod_spec (A := 1) (B := 4) (by decide) (by decide) (by decide) (by decide) hc (h1 j hj)
      obtain ⟨b2, a2⟩ := polyAdd_spec (by decide) b1 (yb j hj)
      obtain ⟨b3, a3⟩ := polyReduce_spec (b2.mono (by decide))
      refine ⟨b3, (r1.add (Rep.self 256 (-1) (cast (y j)))).congr fun x hx => ?_⟩
      refine Eq.trans ?_ (a3 x hx).symm
      unfold cast
      rw [a2 x hx, Int.cast_add]
    generalize signZ (ntt c) (fun i => ntt (s1 i)) y = z at h hz
    cases n1 : vecChknorm p.l z (p.gamma1 - p.beta) with
    | true => rw [n1, if_pos rfl] at h; cases h
    | false =>
    rw [n1, if_neg (by decide)] at h
    have zn := vecChknorm_false (fun j hj => (hz j hj).1.mono (by decide)) n1
    -- w0 - c s2
    have hd : ∀ i < p.k, ∀ x < 256, _ := fun i hi x hx => decompose_range p.gamma2 hg2 (w i x) ((hw i hi).1 x hx).1 ((hw i hi).1 x hx).2
    have hu : ∀ i < p.k, Rep 256 (-1) (cast (invntt (polyPointwise (ntt c) (ntt (s2 i))))) (toPoly 256 (cast c) * toPoly 256 (cast (s2 i))) :=
      fun i hi => (prod_spec (A := 1) (B := 4) (by decide) (by decide) (by decide) (by decide) hc (h2 i hi)).2
    have hw0 : ∀ i < p.k, Bnd 6283009 (signW0 (ntt c) (fun i => ntt (s2 i)) (fun i x => (decompose p.gamma2 (w i x)).2) i) ∧
        ∀ x < 256, cast (signW0 (ntt c) (fun i => ntt (s2 i)) (fun i x => (decompose p.gamma2 (w i x)).2) i) x =
          (((decompose p.gamma2 (w i x)).2 : Int) : Zq) - cast (invntt (polyPointwise (ntt c) (ntt (s2 i)))) x := fun i hi => by
      obtain ⟨b1, -⟩ := prod_spec (A := 1) (B := 4) (by decide) (by decide) (by decide) (by decide) hc (h2 i hi)
      have b0 : Bnd 261888 (fun x => (decompose p.gamma2 (w i x)).2) := fun x hx => by
        have := hd i hi x hx
        rcases hg2 with e | e <;> rw [e] at this ⊢ <;> dsimp only at this ⊢ <;> omega
      obtain ⟨b2, a2⟩ := polySub_spec (by decide) b0 b1
      obtain ⟨b3, a3⟩ := polyReduce_spec (b2.mono (by decide))
      refine ⟨b3, fun x hx => (a3 x hx).trans ?_⟩
      unfold cast
      rw [a2 x hx, Int.cast_sub]
    generalize signW0 (ntt c) (fun i => ntt (s2 i)) (fun i x => (decompose p.gamma2 (w i x)).2) = w0 at h hw0
    cases n2 : vecChknorm p.k w0 (p.gamma2 - p.beta) with
    | true => rw [n2, if_pos rfl] at h; cases h
    | false =>
    rw [n2, if_neg (by decide)] at h
    have wn := vecChknorm_false (fun j hj => (hw0 j hj).1.mono (by decide)) n2
    -- c t0
    have hv : ∀ i < p.k, Bnd 6283009 (signH (ntt c) (fun i => ntt (t0 i)) i) ∧
        Rep 256 (-1) (cast (signH (ntt c) (fun i => ntt (t0 i)) i)) (toPoly 256 (cast c) * toPoly 256 (cast (t0 i))) := fun i hi => by
      obtain ⟨b1, r1⟩ := prod_spec (A := 1) (B := 4096) (by decide) (by decide) (by decide) (by decide) hc (h0 i hi)
      obtain ⟨b3, a3⟩ := polyReduce_spec (b1.mono (by decide))
      exact ⟨b3, r1.congr fun x hx => (a3 x hx).symm⟩
    generalize signH (ntt c) (fun i => ntt (t0 i)) = v at h hv
    cases n3 : vecChknorm p.k v p.gamma2 with
    | true => rw [n3, if_pos rfl] at h; cases h
    | false =>
    rw [n3, if_neg (by decide)] at h
    have vn := vecChknorm_false (fun j hj => (hv j hj).1.mono (by decide)) n3
    -- hints
    generalize hhint : signHint p w0 v (fun i x => (decompose p.gamma2 (w i x)).1) = hint at h
    have h01 : ∀ r x, hint r x = 0 ∨ hint r x = 1 := fun r x => by rw [← hhint]; exact makeHint_01 _ _ _
    by_cases n4 : countHint p hint > p.omega
    · rw [if_pos n4] at h; cases h
    rw [if_neg n4] at h
    have hcount : (Spec.pos hint p.k).length ≤ p.omega := by
      have := pos_count hint h01 p.k
      unfold countHint at n4
      omega
    obtain ⟨hint', hu1, hu2⟩ := hint_roundtrip p hp.omega hint h01 hcount
    have hplen : (packHint p hint).length = p.omega + p.k := by
      rw [packHint_is_fips204 p hp.omega hint hcount]; exact hintBitPack_length _ _ _ hcount
    cases h
    -- the signature is taken apart again
    have s1e : ∀ rest, slice (ct ++ (List.range p.l).flatMap (fun i => polyzPack p.gamma1 (z i)) ++ rest) 0 p.ctilde = ct := fun rest => by
      rw [List.append_assoc]; exact slice_append_left ctl
    have s2e : ∀ j < p.l, ∀ rest, slice (ct ++ (List.range p.l).flatMap (fun i => polyzPack p.gamma1 (z i)) ++ rest) (p.ctilde + zLen p.gamma1 * j) (zLen p.gamma1) =
        polyzPack p.gamma1 (z j) := fun j hj rest => by
      rw [List.append_assoc, slice_append_right ctl]
      exact slice_flatMap (fun i => zPack_length _ _) p.l j rest hj
    have s3e : slice (ct ++ (List.range p.l).flatMap (fun i => polyzPack p.gamma1 (z i)) ++ packHint p hint) (p.ctilde + zLen p.gamma1 * p.l) (p.omega + p.k) =
        packHint p hint := by
      rw [List.append_assoc, slice_append_right ctl]
      unfold slice
      rw [flatMap_rest (fun i => zPack_length _ _), List.take_of_length_le (by omega)]
    unfold verifyInternal
    dsimp only
    rw [s1e, s3e, hch, Option.bind_some, hu1]
    generalize hze : (fun j => polyzUnpack p.gamma1 (slice (ct ++ (List.range p.l).flatMap (fun i => polyzPack p.gamma1 (z i)) ++ packHint p hint)
      (p.ctilde + zLen p.gamma1 * j) (zLen p.gamma1))) = z'
    have hz' : ∀ j < p.l, ∀ x < 256, z' j x = z j x := fun j hj x hx => by
      rw [← hze]
      dsimp only
      rw [s2e j hj]
      exact z_roundtrip p.gamma1 hg1 (z j) (fun x hx => by have := zn j hj x hx; omega) x hx
    rw [vecChknorm_congr hz', n1, if_neg (by decide)]
    -- the polynomials of the verifier
    generalize ht1 : (fun i => polyt1Unpack (slice pk (32 + 320 * i) 320)) = t1
    have t1r : ∀ i, ∀ x, 0 ≤ t1 i x ∧ t1 i x < 1024 := fun i x => by
      rw [← ht1]
      dsimp only
      rw [t1Unpack]
      unfold Spec.simpleBitUnpack
      have := LC.Kyber.byteDecode_lt 10 (slice pk (32 + 320 * i) 320) x
      omega
    have hT' : ∀ i < p.k, Rep 256 (-1) (fun x => ((8192 : Int) : Zq) * cast (t1 i) x + cast (t0 i) x)
      ((∑ j ∈ Finset.range p.l, PA i j * toPoly 256 (cast (s1 j))) + toPoly 256 (cast (s2 i))) := fun i hi => by rw [← ht1]; exact hT i hi
    have sh : ∀ i, Bnd 8388608 (polyShiftl (t1 i)) ∧ ∀ x < 256, cast (polyShiftl (t1 i)) x = ((8192 : Int) : Zq) * cast (t1 i) x := fun i => by
      have key : ∀ x, polyShiftl (t1 i) x = t1 i x * 8192 := fun x => by
        have := t1r i x
        exact i32_eq (by omega) (by omega)
      refine ⟨fun x _ => ?_, fun x _ => ?_⟩
      · have := t1r i x; rw [key]; omega
      · unfold cast; rw [key, Int.cast_mul, mul_comm]
    have zb : ∀ j < p.l, Bnd 6283009 (z' j) := fun j hj x hx => by rw [hz' j hj x hx]; exact (hz j hj).1 x hx
    have zr : ∀ j < p.l, Rep 256 (-1) (cast (z' j)) (toPoly 256 (cast c) * toPoly 256 (cast (s1 j)) + toPoly 256 (cast (y j))) := fun j hj =>
      (hz j hj).2.congr fun x hx => by unfold cast; rw [hz' j hj x hx]
    have main : ∀ i < p.k, ∀ x < 256, useHint p.gamma2 (verifyW p mat (ntt c) z' t1 i x) (hint' i x) = (decompose p.gamma2 (w i x)).1 := by
      intro i hi x hx
      obtain ⟨b1, r1⟩ := verify_row hp.l1 hp.l7 (B := 6283009) (by decide) (A := mat i) (v := z') (PA := PA i) (c := c) (t := polyShiftl (t1 i))
        (fun j hj => ⟨hm i hi j hj, hPA i hi j hj⟩) zb hc (sh i).1
      obtain ⟨c1, c2, c3⟩ := polyCaddq_spec (b1.mono (B' := 8380416) (by decide)) x hx
      have e1 : toPoly 256 (cast (polyShiftl (t1 i))) = C ((8192 : Int) : Zq) * toPoly 256 (cast (t1 i)) := by
        rw [← toPoly_smul]; exact toPoly_congr (sh i).2
      rw [e1] at r1
      have r2 := sig_rep (hT' i hi) (fun _ _ => rfl) (hw i hi).2 zr (hu i hi) (hv i hi).2 r1
      have r3 := ((Rep.self 256 (-1 : Zq) (cast (w i))).sub (Rep.self 256 (-1 : Zq) (cast (invntt (polyPointwise (ntt c) (ntt (s2 i))))))).add
        (Rep.self 256 (-1 : Zq) (cast (v i)))
      have r4 := Rep.unique (by decide) r2 r3 x hx
      obtain ⟨d1, d2, d3, d4, d5⟩ := hd i hi x hx
      have wr := wn i hi x hx
      have vr := vn i hi x hx
      obtain ⟨-, ad⟩ := polyAdd_spec (by decide) (hw0 i hi).1 (hv i hi).1
      have e2 : ((verifyW p mat (ntt c) z' t1 i x : Int) : Zq) = (((decompose p.gamma2 (w i x)).1 * (2 * p.gamma2) + (w0 i x + v i x) : Int) : Zq) := by
        have a1 : cast (w i) x = (((decompose p.gamma2 (w i x)).1 * (2 * p.gamma2) : Int) : Zq) + (((decompose p.gamma2 (w i x)).2 : Int) : Zq) := by
          unfold cast; rw [← Int.cast_add]; exact zq_eq d5
        have a2 := (hw0 i hi).2 x hx
        have a3 : ((verifyW p mat (ntt c) z' t1 i x : Int) : Zq) = cast (w i) x - cast (invntt (polyPointwise (ntt c) (ntt (s2 i)))) x + cast (v i) x :=
          c3.trans r4
        rw [a3, a1, Int.cast_add, Int.cast_add]
        have a4 : ((w0 i x : Int) : Zq) = cast (w0 i) x := rfl
        have a5 : ((v i x : Int) : Zq) = cast (v i) x := rfl
        rw [a4, a5, a2]
        ring
      have e3 : verifyW p mat (ntt c) z' t1 i x = ((decompose p.gamma2 (w i x)).1 * (2 * p.gamma2) + (w0 i x + v i x)) % 8380417 := cast_inj ⟨c1, c2⟩ e2
      have e4 : hint' i x = makeHint p.gamma2 (w0 i x + v i x) (decompose p.gamma2 (w i x)).1 := by
        rw [hu2 i hi x hx, ← hhint]
        unfold signHint
        rw [ad x hx]
      rw [e3, e4]
      exact hint_recovers p.gamma2 hg2 _ _ d1 d2 (Or.inl (by omega)) (by omega)
    have hpack : packW1 p (fun i x => useHint p.gamma2 (verifyW p mat (ntt c) z' t1 i x) (hint' i x)) =
        packW1 p (fun i x => (decompose p.gamma2 (w i x)).1) := packW1_congr main
    dsimp only
    rw [hpack, hct, if_neg]
    rw [not_not]
    exact (memcmpB_eq _ _ _ _).2 rfl

theorem signLoop_some {p : Params} {e : Env} {fuel : Nat} {mat : Nat → Nat → Poly} {s1 s2 t0 : Nat → Poly} {mu rhoprime sig : List Byte} : ∀ n nonce,
    signLoop p e fuel mat s1 s2 t0 mu rhoprime n nonce = some sig →
    ∃ nonce', signAttempt p e fuel mat s1 s2 t0 mu rhoprime nonce' = some (some sig)
  | 0, _, h => by cases h
  | n + 1, nonce, h => by
    unfold signLoop at h
    cases ha : signAttempt p e fuel mat s1 s2 t0 mu rhoprime nonce with
    | none => rw [ha] at h; cases h
    | some r =>
      rw [ha, Option.bind_some] at h
      cases r with
      | some s => cases h; exact ⟨nonce, ha⟩
      | none => exact signLoop_some n _ h

/-! ### Keys -/

theorem packPk_parts {p : Params} {rho : List Byte} (hr : rho.length = 32) (t1 : Nat → Poly) :
    slice (packPk p rho t1) 0 32 = rho ∧ ∀ i < p.k, slice (packPk p rho t1) (32 + 320 * i) 320 = polyt1Pack (t1 i) := by
  unfold packPk
  refine ⟨slice_append_left hr, fun i hi => ?_⟩
  rw [slice_append_right hr]
  have := slice_flatMap (g := fun i => polyt1Pack (t1 i)) (fun i => t1Pack_length (t1 i)) p.k i [] hi
  rwa [List.append_nil] at this

theorem packSk_parts {p : Params} {rho key tr : List Byte} (hr : rho.length = 32) (hk : key.length = 32) (ht : tr.length = 64) (s1 s2 t0 : Nat → Poly) :
    slice (packSk p rho key tr s1 s2 t0) 0 32 = rho ∧ slice (packSk p rho key tr s1 s2 t0) 32 32 = key ∧
    slice (packSk p rho key tr s1 s2 t0) 64 64 = tr ∧
    (∀ i < p.l, slice (packSk p rho key tr s1 s2 t0) (128 + etaLen p.eta * i) (etaLen p.eta) = polyetaPack p.eta (s1 i)) ∧
    (∀ i < p.k, slice (packSk p rho key tr s1 s2 t0) (128 + etaLen p.eta * p.l + etaLen p.eta * i) (etaLen p.eta) = polyetaPack p.eta (s2 i)) ∧
    (∀ i < p.k, slice (packSk p rho key tr s1 s2 t0) (128 + etaLen p.eta * p.l + etaLen p.eta * p.k + 416 * i) 416 = polyt0Pack (t0 i)) := by
  have l1 : ((List.range p.l).flatMap fun i => polyetaPack p.eta (s1 i)).length = etaLen p.eta * p.l := LC.Kyber.flatMap_length (fun i => etaPack_length _ _) _
  have l2 : ((List.range p.k).flatMap fun i => polyetaPack p.eta (s2 i)).length = etaLen p.eta * p.k := LC.Kyber.flatMap_length (fun i => etaPack_length _ _) _
  have l3 : (rho ++ key ++ tr).length = 128 := by simp only [List.length_append]; omega
  unfold packSk
  refine ⟨?_, ?_, ?_, fun i hi => ?_, fun i hi => ?_, fun i hi => ?_⟩
  · simp only [List.append_assoc]; exact slice_append_left hr
  · simp only [List.append_assoc]
    rw [show (32 : Nat) = 32 + 0 from rfl, slice_append_right hr]; exact slice_append_left hk
  · simp only [List.append_assoc]
    rw [show (64 : Nat) = 32 + (32 + 0) from rfl, slice_append_right hr, slice_append_right hk]; exact slice_append_left ht
  · rw [List.append_assoc, List.append_assoc, slice_append_right l3]
    exact slice_flatMap (fun i => etaPack_length _ _) p.l i _ hi
  · rw [List.append_assoc, List.append_assoc, Nat.add_assoc, slice_append_right l3, slice_append_right l1]
    exact slice_flatMap (fun i => etaPack_length _ _) p.k i _ hi
  · rw [List.append_assoc, List.append_assoc, Nat.add_assoc, Nat.add_assoc, slice_append_right l3, slice_append_right l1, slice_append_right l2]
    have := slice_flatMap (g := fun i => polyt0Pack (t0 i)) (fun i => t0Pack_length (t0 i)) p.k i [] hi
    rwa [List.append_nil] at this

/-- **C56**: for every parameter set, every seed, every message and every randomness: if key
generation and signing end within the bound, then verification of the signature with the public key
returns 0.  The extendable output functions are arbitrary. -/
theorem verify_accepts (p : Params) (hp : p.Ok) (e : Env) (fuel : Nat) (seed m rnd pk sk sig : List Byte)
    (hk : keypair p e fuel seed = some (pk, sk)) (hs : sign p e fuel sk m rnd = some sig) : verify p e fuel pk m sig = some 0 := by
  have hf := hp.fine
  unfold keypair at hk
  dsimp only at hk
  generalize hbuf : squeeze (e.shake256 (seed ++ [b8 p.k, b8 p.l])) 0 128 = buf at hk
  have bl : buf.length = 128 := by rw [← hbuf]; exact squeeze_length _ _ _
  have l1 : (slice buf 0 32).length = 32 := slice_length (by omega)
  have l2 : (slice buf 96 32).length = 32 := slice_length (by omega)
  cases hs1 : uniformEta e fuel p.eta p.l (slice buf 32 64) 0 with
  | none => rw [hs1] at hk; cases hk
  | some s1 =>
  rw [hs1, Option.bind_some] at hk
  cases hs2 : uniformEta e fuel p.eta p.k (slice buf 32 64) p.l with
  | none => rw [hs2] at hk; cases hk
  | some s2 =>
  rw [hs2, Option.bind_some] at hk
  cases hmat : matrixExpand e fuel p.k p.l (slice buf 0 32) with
  | none => rw [hmat] at hk; cases hk
  | some mat =>
  rw [hmat, Option.bind_some] at hk
  generalize slice buf 0 32 = rho at hk l1 hmat
  generalize slice buf 96 32 = key at hk l2
  have b1 := uniformEta_bnd hf.eta hs1
  have b2 := uniformEta_bnd hf.eta hs2
  have hm := matrixExpand_bnd hmat
  have hPA : ∃ PA : Nat → Nat → Zq[X], ∀ i j, Split 1 256 cz (cast (mat i j)) (PA i j) :=
    ⟨fun i j => (split_exists (cast (mat i j))).choose, fun i j => (split_exists (cast (mat i j))).choose_spec⟩
  obtain ⟨PA, hPA⟩ := hPA
  have n1 : ∀ j < p.l, Bnd 4 (s1 j) := fun j hj x _ => by
    have := b1 j hj x
    rcases hf.eta with e | e <;> rw [e] at this <;> omega
  have n2 : ∀ j < p.k, Bnd 4 (s2 j) := fun j hj x _ => by
    have := b2 j hj x
    rcases hf.eta with e | e <;> rw [e] at this <;> omega
  have ht := fun i (hi : i < p.k) => keyT_spec hf hm (fun i _ j _ => hPA i j) n1 n2 i hi
  generalize keyT p mat s1 s2 = t at hk ht
  have hpr : ∀ i < p.k, ∀ x < 256, _ := fun i hi x hx => power2round_exact (t i x) ((ht i hi).1 x hx).1 ((ht i hi).1 x hx).2
  injection hk with hk
  injection hk with hpk hsk
  have pl := packPk_parts (p := p) l1 (fun i x => (power2round (t i x)).1)
  rw [hpk] at pl hsk
  generalize htr : squeeze (e.shake256 pk) 0 64 = tr at hsk
  have l3 : tr.length = 64 := by rw [← htr]; exact squeeze_length _ _ _
  have sl := packSk_parts (p := p) l1 l2 l3 s1 s2 (fun i x => (power2round (t i x)).2)
  rw [hsk] at sl
  obtain ⟨k1, k2, k3, k4, k5, k6⟩ := sl
  unfold sign at hs
  rw [k1, hmat, Option.bind_some, k3] at hs
  unfold verify
  rw [pl.1, hmat, Option.bind_some, htr]
  unfold signInternal at hs
  dsimp only at hs
  obtain ⟨nonce, ha⟩ := signLoop_some _ _ hs
  have u1 : ∀ j < p.l, ∀ x < 256, polyetaUnpack p.eta (slice sk (128 + etaLen p.eta * j) (etaLen p.eta)) x = s1 j x := fun j hj x hx => by
    rw [k4 j hj]; exact eta_roundtrip p.eta hf.eta (s1 j) (fun x _ => b1 j hj x) x hx
  have u2 : ∀ j < p.k, ∀ x < 256, polyetaUnpack p.eta (slice sk (128 + etaLen p.eta * p.l + etaLen p.eta * j) (etaLen p.eta)) x = s2 j x := fun j hj x hx => by
    rw [k5 j hj]; exact eta_roundtrip p.eta hf.eta (s2 j) (fun x _ => b2 j hj x) x hx
  have u3 : ∀ j < p.k, ∀ x < 256, polyt0Unpack (slice sk (128 + etaLen p.eta * p.l + etaLen p.eta * p.k + 416 * j) 416) x = (power2round (t j x)).2 := fun j hj x hx => by
    rw [k6 j hj]
    exact t0_roundtrip (fun x => (power2round (t j x)).2) (fun x hx => by
      have := (hpr j hj x hx).1; unfold Spec.Power2Round at this; omega) x hx
  have u4 : ∀ j < p.k, ∀ x < 256, polyt1Unpack (slice pk (32 + 320 * j) 320) x = (power2round (t j x)).1 := fun j hj x hx => by
    rw [pl.2 j hj]
    exact t1_roundtrip (fun x => (power2round (t j x)).1) (fun x hx => by have := (hpr j hj x hx).2; omega) x hx
  refine attempt_verifies hf e fuel hm (fun i _ j _ => hPA i j)
    (s1 := fun j => polyetaUnpack p.eta (slice sk (128 + etaLen p.eta * j) (etaLen p.eta)))
    (s2 := fun j => polyetaUnpack p.eta (slice sk (128 + etaLen p.eta * p.l + etaLen p.eta * j) (etaLen p.eta)))
    (t0 := fun j => polyt0Unpack (slice sk (128 + etaLen p.eta * p.l + etaLen p.eta * p.k + 416 * j) 416))
    ?_ ?_ ?_ ?_ ha
  · intro j hj x hx; rw [u1 j hj x hx]; exact n1 j hj x hx
  · intro j hj x hx; rw [u2 j hj x hx]; exact n2 j hj x hx
  · intro j hj x hx
    rw [u3 j hj x hx]
    have := (hpr j hj x hx).1; unfold Spec.Power2Round at this; omega
  · intro i hi
    have e1 : ∀ j ∈ Finset.range p.l, PA i j * toPoly 256 (cast (polyetaUnpack p.eta (slice sk (128 + etaLen p.eta * j) (etaLen p.eta)))) =
        PA i j * toPoly 256 (cast (s1 j)) := fun j hj => by
      rw [toPoly_congr fun x hx => show cast (polyetaUnpack p.eta (slice sk (128 + etaLen p.eta * j) (etaLen p.eta))) x = cast (s1 j) x by
        unfold cast; rw [u1 j (Finset.mem_range.1 hj) x hx]]
    rw [Finset.sum_congr rfl e1, toPoly_congr fun x hx =>
      show cast (polyetaUnpack p.eta (slice sk (128 + etaLen p.eta * p.l + etaLen p.eta * i) (etaLen p.eta))) x = cast (s2 i) x by
        unfold cast; rw [u2 i hi x hx]]
    refine (ht i hi).2.congr fun x hx => ?_
    unfold cast
    rw [u3 i hi x hx, u4 i hi x hx, ← Int.cast_mul, ← Int.cast_add]
    have := (hpr i hi x hx).1
    unfold Spec.Power2Round at this
    exact zq_eq (by omega)

end LC.Dilithium
