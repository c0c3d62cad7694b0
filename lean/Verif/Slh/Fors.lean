import Verif.Slh.Wots

/-!
FORS: the indices are the bit strings of the digest, the signer's signature is the one of the specification, and the
verifier computes the same public key from it.
-/
namespace LC.Slh
open Spec (node nodeAddr sibling)

/-! ### Slices -/

theorem slice_append_left (a b : List Byte) (o n : Nat) (h : o + n ≤ a.length) : slice (a ++ b) o n = slice a o n := by
  unfold slice
  rw [List.drop_append_of_le_length (by omega), List.take_append_of_le_length (by rw [List.length_drop]; omega)]

theorem slice_append_right (a b : List Byte) (o n : Nat) : slice (a ++ b) (a.length + o) n = slice b o n := by
  unfold slice
  rw [List.drop_append, List.drop_eq_nil_of_le (by omega), List.nil_append, Nat.add_sub_cancel_left]

theorem slice_all (a : List Byte) (n : Nat) (h : a.length = n) : slice a 0 n = a := by
  unfold slice
  rw [List.drop_zero, List.take_of_length_le (by omega)]

theorem flat_length (f : Nat → List Byte) (L : Nat) : ∀ (k i : Nat), (∀ j, j < i + k → (f j).length = L) →
    (((List.range' i k).map f).flatten).length = k * L
  | 0, _, _ => by simp
  | k + 1, i, h => by
    rw [List.range'_succ, List.map_cons, List.flatten_cons, List.length_append, h i (by omega),
      flat_length f L k (i + 1) (fun j hj => h j (by omega)), Nat.succ_mul]
    omega

theorem flat_slice (f : Nat → List Byte) (L : Nat) : ∀ (k i j o n : Nat), (∀ t, t < i + k → (f t).length = L) → j < k →
    o + n ≤ L → slice (((List.range' i k).map f).flatten) (j * L + o) n = slice (f (i + j)) o n
  | 0, _, _, _, _, _, h, _ => by omega
  | k + 1, i, j, o, n, h, hj, ho => by
    rw [List.range'_succ, List.map_cons, List.flatten_cons]
    have hl := h i (by omega)
    cases j with
    | zero => rw [Nat.zero_mul, Nat.zero_add, slice_append_left _ _ _ _ (by omega), Nat.add_zero]
    | succ j =>
      rw [show (j + 1) * L + o = (f i).length + (j * L + o) by rw [Nat.succ_mul, hl]; omega, slice_append_right,
        flat_slice f L k (i + 1) j o n (fun t ht => h t (by omega)) (by omega) ho]
      rw [show i + 1 + j = i + (j + 1) by omega]

theorem flat_slice0 (f : Nat → List Byte) (L k j : Nat) (h : ∀ t, t < k → (f t).length = L) (hj : j < k) :
    slice (((List.range k).map f).flatten) (j * L) L = f j := by
  have := flat_slice f L k 0 j 0 L (fun t ht => h t (by omega)) hj (by omega)
  rw [List.range_eq_range', ← Nat.add_zero (j * L), this, Nat.zero_add, slice_all _ _ (h j hj)]

theorem map_flat_congr (f g : Nat → List Byte) (i k : Nat) (h : ∀ j, i ≤ j → j < i + k → f j = g j) :
    ((List.range' i k).map f).flatten = ((List.range' i k).map g).flatten := by
  congr 1
  apply List.map_congr_left
  intro j hj
  rw [List.mem_range'_1] at hj
  exact h j hj.1 hj.2

/-! ### Indices -/

/-- Bit `o` of a byte string, most significant bit of the first byte first. -/
def Spec.strBit (m : List Byte) (o : Nat) : Bool := (m.getD (o / 8) 0).toNat.testBit (7 - o % 8)

theorem and_one_testBit (x s t : Nat) : (((x >>> s) &&& 1) <<< t).testBit t = x.testBit s := by
  rw [Nat.testBit_shiftLeft]
  simp [Nat.testBit_and, Nat.testBit_shiftRight]

theorem and_one_testBit_ne (x s t u : Nat) (h : u ≠ t) : (((x >>> s) &&& 1) <<< t).testBit u = false := by
  rw [Nat.testBit_shiftLeft]
  by_cases hu : u ≥ t
  · rw [decide_eq_true hu, Bool.true_and, Nat.testBit_and]
    obtain ⟨v, hv⟩ : ∃ v, u - t = v + 1 := ⟨u - t - 1, by omega⟩
    rw [hv, Nat.testBit_succ (x := 1)]
    simp
  · rw [decide_eq_false hu]; rfl

theorem indexBits_lt (m : List Byte) (a : Nat) : ∀ (cnt j off acc : Nat), j + cnt ≤ a → acc < 2 ^ a →
    indexBits m a cnt j off acc < 2 ^ a
  | 0, _, _, _, _, h => h
  | cnt + 1, j, off, acc, hj, h => by
    unfold indexBits
    dsimp only
    apply indexBits_lt m a cnt (j + 1) (off + 1) _ (by omega)
    apply Nat.xor_lt_two_pow h
    rw [Nat.shiftLeft_eq]
    have h1 : ((m.getD (off / 8) 0).toNat >>> (7 - off % 8)) &&& 1 ≤ 1 := Nat.and_le_right
    calc _ ≤ 1 * 2 ^ (a - 1 - j) := Nat.mul_le_mul_right _ h1
      _ < 2 ^ a := by rw [Nat.one_mul]; exact Nat.pow_lt_pow_right (by decide) (by omega)

theorem forsIndex_lt (p : Params) (m : List Byte) (i : Nat) : forsIndex p m i < 2 ^ p.a :=
  indexBits_lt m p.a p.a 0 _ 0 (by omega) (Nat.two_pow_pos _)

theorem indexBits_bit (m : List Byte) (a : Nat) : ∀ (cnt j off acc t : Nat), j + cnt ≤ a → t < a →
    (indexBits m a cnt j off acc).testBit (a - 1 - t) =
      (acc.testBit (a - 1 - t) ^^ (decide (j ≤ t ∧ t < j + cnt) && Spec.strBit m (off + (t - j))))
  | 0, j, off, acc, t, _, _ => by
    rw [decide_eq_false (by omega), Bool.false_and, Bool.xor_false]; rfl
  | cnt + 1, j, off, acc, t, hj, ht => by
    unfold indexBits
    dsimp only
    rw [indexBits_bit m a cnt (j + 1) (off + 1) _ t (by omega) ht, Nat.testBit_xor]
    by_cases e : t = j
    · subst e
      rw [and_one_testBit, decide_eq_false (by omega), Bool.false_and, Bool.xor_false, decide_eq_true (by omega),
        Bool.true_and, Nat.sub_self]
      rfl
    · rw [and_one_testBit_ne _ _ _ _ (by omega), Bool.xor_false]
      by_cases h : j + 1 ≤ t ∧ t < j + 1 + cnt
      · rw [decide_eq_true h, decide_eq_true (by omega), show off + 1 + (t - (j + 1)) = off + (t - j) by omega]
      · rw [decide_eq_false h, decide_eq_false (by omega)]; rfl

/-- The index of tree `i` is the number with the `a` bits of the digest from bit `i a` on, the first bit being the most
significant one (base_2b of FIPS 205). -/
theorem forsIndex_bits (p : Params) (m : List Byte) (i t : Nat) (ht : t < p.a) :
    (forsIndex p m i).testBit (p.a - 1 - t) = Spec.strBit m (i * p.a + t) := by
  unfold forsIndex
  rw [indexBits_bit m p.a p.a 0 _ 0 t (by omega) ht, Nat.zero_testBit, Bool.false_xor, decide_eq_true (by omega), Bool.true_and,
    Nat.sub_zero]

example : forsIndex shake128f [0xa5, 0x3c, 0x71] 1 = 0x13 ∧ forsIndex shake128f [0xa5, 0x3c, 0x71] 2 = 0x31 := by decide

/-! ### Specification of FORS -/
namespace Spec

/-- The secret value of leaf `idx`. -/
def forsSk (e : Env) (pub skSeed : List Byte) (base : Addr) (idx : Nat) : Node :=
  e.prf pub (abytes (setType (setIndex base idx) 6)) skSeed

/-- The leaf. -/
def forsLeaf (e : Env) (pub skSeed : List Byte) (base : Addr) (idx : Nat) : Node :=
  e.T pub (abytes (setType (setIndex base idx) 3)) (forsSk e pub skSeed base idx)

/-- Node of tree `i`. -/
def forsNode (p : Params) (e : Env) (pub skSeed : List Byte) (base : Addr) (i : Nat) : Nat → Nat → Node :=
  node e.T pub (setType base 3) (i * 2 ^ p.a) (forsLeaf e pub skSeed base)

/-- The part of the signature of tree `i`, for index `ind`. -/
def forsPart (p : Params) (e : Env) (pub skSeed : List Byte) (base : Addr) (i ind : Nat) : List Byte :=
  forsSk e pub skSeed base (ind + i * 2 ^ p.a) ++
    ((List.range p.a).map fun h => forsNode p e pub skSeed base i h (sibling (ind / 2 ^ h))).flatten

/-- The FORS signature. -/
def forsSig (p : Params) (e : Env) (pub skSeed : List Byte) (base : Addr) (ind : Nat → Nat) : List Byte :=
  ((List.range p.k).map fun i => forsPart p e pub skSeed base i (ind i)).flatten

/-- The FORS public key. -/
def forsPk (p : Params) (e : Env) (pub skSeed : List Byte) (base : Addr) : Node :=
  e.T pub (abytes (setType base 4)) ((List.range p.k).map fun i => forsNode p e pub skSeed base i p.a 0).flatten

end Spec
open Spec (forsSk forsLeaf forsNode forsPart forsSig forsPk)

/-- An address that agrees with the base outside the bytes for type, height and index. -/
def AgreeF (a b : Addr) : Prop := ∀ i, (i < 27 ∨ 32 ≤ i) → i ≠ 19 → a i = b i

/-- The same, and the height is that of the base. -/
def AgreeL (a b : Addr) : Prop := ∀ i, (i < 28 ∨ 32 ≤ i) → i ≠ 19 → a i = b i

theorem AgreeL.eq {a b : Addr} (h : AgreeL a b) (x : Nat) (t : Byte) :
    setType (setIndex a x) t = setType (setIndex b x) t := by
  funext i
  unfold setType setAt setIndex setBe32
  repeat' split
  all_goals first
    | rfl
    | exact h i (by omega) (by assumption)

theorem AgreeF.eq {a b : Addr} (h : AgreeF a b) (hb : b 27 = 0) (x : Nat) (t : Byte) :
    setType (setIndex (setHeight a 0) x) t = setType (setIndex b x) t := by
  funext i
  unfold setType setAt setIndex setBe32 setHeight setAt
  repeat' split
  all_goals first
    | rfl
    | (next h' => subst h'; rw [hb]; rfl)
    | exact h i (by omega) (by assumption)

theorem agreeL_set (b : Addr) (x : Nat) (t : Byte) : AgreeL (setType (setIndex b x) t) b := by
  intro i h1 h2
  unfold setType setAt setIndex setBe32
  rw [if_neg h2, if_neg (by omega), if_neg (by omega), if_neg (by omega), if_neg (by omega)]

theorem agree_set (b : Addr) (x : Nat) (t : Byte) : Agree (setType (setIndex b x) t) (setType b t) := by
  intro i h1
  unfold setType setAt setIndex setBe32
  split
  · rfl
  · rw [if_neg (by omega), if_neg (by omega), if_neg (by omega), if_neg (by omega)]

theorem forsGenLeaf_spec (e : Env) (pub skSeed : List Byte) (base a : Addr) (h : AgreeL a base) (idx : Nat) :
    (forsGenLeaf e pub skSeed idx a).1 = forsLeaf e pub skSeed base idx ∧ AgreeL (forsGenLeaf e pub skSeed idx a).2 base := by
  unfold forsGenLeaf
  dsimp only
  rw [h.eq idx 6, setType_setType]
  exact ⟨rfl, agreeL_set base idx 3⟩

theorem forsNode_length (p : Params) (e : Env) (he : e.Len p.n) (pub skSeed : List Byte) (base : Addr) (i h j : Nat) :
    (forsNode p e pub skSeed base i h j).length = p.n :=
  node_length _ _ _ _ _ p.n (he.T pub) (fun _ => he.T _ _ _) h j

theorem forsPart_length (p : Params) (e : Env) (he : e.Len p.n) (pub skSeed : List Byte) (base : Addr) (i ind : Nat) :
    (forsPart p e pub skSeed base i ind).length = (p.a + 1) * p.n := by
  unfold forsPart forsSk
  rw [List.length_append, he.prf, List.range_eq_range', flat_length _ p.n _ _ (fun j _ => forsNode_length p e he ..), Nat.succ_mul]
  omega

theorem forsSig_length (p : Params) (e : Env) (he : e.Len p.n) (pub skSeed : List Byte) (base : Addr) (ind : Nat → Nat) :
    (forsSig p e pub skSeed base ind).length = (p.a + 1) * p.k * p.n := by
  unfold forsSig
  rw [List.range_eq_range', flat_length _ ((p.a + 1) * p.n) _ _ (fun j _ => forsPart_length p e he ..), Nat.mul_comm p.k,
    Nat.mul_assoc, Nat.mul_assoc, Nat.mul_comm p.n]

theorem forsSignLoop_spec (p : Params) (e : Env) (he : e.Len p.n) (pub skSeed m : List Byte) (auth0 : Nat → Nat → Node)
    (h0 : ∀ i h, (auth0 i h).length = p.n) (base : Addr) (hb : base 27 = 0) :
    ∀ (cnt i : Nat) (ta la : Addr) (stack : Nat → Node), AgreeF ta base → AgreeL la base →
      ∃ r, forsSignLoop p e pub skSeed m auth0 cnt i ta la stack = some r ∧
        r.1 = (List.range' i cnt).map (fun i => forsNode p e pub skSeed base i p.a 0) ∧
        forsBytes p r.2 = ((List.range' i cnt).map fun i => forsPart p e pub skSeed base i (forsIndex p m i)).flatten
  | 0, _, _, _, _, _, _ => ⟨_, rfl, rfl, rfl⟩
  | cnt + 1, i, ta, la, stack, hta, hla => by
    have e1 := hta.eq hb (forsIndex p m i + i * 2 ^ p.a) 6
    have hts := treehash_spec (I := Addr) e.T pub (setType base 3) (i * 2 ^ p.a) (forsLeaf e pub skSeed base) p.n p.a
      (forsIndex p m i) (he.T pub) (fun _ => he.T _ _ _) (forsGenLeaf e pub skSeed) (fun _ a => AgreeL a base)
      (fun j _ s hs => forsGenLeaf_spec e pub skSeed base s hs _)
      ⟨stack, auth0 i, setType (setIndex base (forsIndex p m i + i * 2 ^ p.a)) 3, la⟩
      (agree_set base _ 3) (fun g _ => h0 i g) hla
    unfold forsSignLoop
    dsimp only
    rw [e1, setType_setType]
    generalize treehash e.T pub (forsIndex p m i) (i * 2 ^ p.a) p.a (forsGenLeaf e pub skSeed)
      ⟨stack, auth0 i, setType (setIndex base (forsIndex p m i + i * 2 ^ p.a)) 3, la⟩ = t at hts ⊢
    obtain ⟨g1, g2, g3, g4, _⟩ := hts
    have g2 := g2 (forsIndex_lt p m i)
    obtain ⟨r, i1, i2, i3⟩ := forsSignLoop_spec p e he pub skSeed m auth0 h0 base hb cnt (i + 1) t.2.addr t.2.info t.2.stack
      (by
        intro j h1 h2
        rw [g3 j h1]
        show (if j = 19 then _ else _) = _
        rw [if_neg h2]) g4
    rw [g1, Option.bind_some, i1, Option.map_some]
    refine ⟨_, rfl, ?_, ?_⟩
    · rw [List.range'_succ, List.map_cons, ← i2]; rfl
    · unfold forsBytes at i3 ⊢
      rw [List.map_cons, List.flatten_cons, i3, List.range'_succ, List.map_cons, List.flatten_cons]
      congr 1
      unfold forsPart
      dsimp only
      congr 1
      rw [List.range_eq_range']
      apply map_flat_congr
      intro h _ hh
      exact g2 h (by omega)

/-- The signer's FORS signature is that of the specification. -/
theorem forsSign_spec (p : Params) (e : Env) (he : e.Len p.n) (pub skSeed m : List Byte) (forsAddr : Addr)
    (auth0 : Nat → Nat → Node) (h0 : ∀ i h, (auth0 i h).length = p.n) :
    ∃ s, forsSign p e pub skSeed m forsAddr auth0 = some (forsPk p e pub skSeed (copyKeypair zeroAddr forsAddr), s) ∧
      forsBytes p s = forsSig p e pub skSeed (copyKeypair zeroAddr forsAddr) (forsIndex p m) := by
  obtain ⟨r, h1, h2, h3⟩ := forsSignLoop_spec p e he pub skSeed m auth0 h0 (copyKeypair zeroAddr forsAddr) rfl p.k 0
    (copyKeypair zeroAddr forsAddr) (copyKeypair zeroAddr forsAddr) (fun _ => []) (fun _ _ _ => rfl) (fun _ _ _ => rfl)
  refine ⟨r.2, ?_, ?_⟩
  · unfold forsSign
    rw [h1, Option.map_some, h2, ← List.range_eq_range']; rfl
  · rw [h3, ← List.range_eq_range']; rfl

theorem forsPkLoop_spec (p : Params) (ha : 0 < p.a) (e : Env) (he : e.Len p.n) (pub skSeed m : List Byte) (base : Addr)
    (hb : base 27 = 0) :
    ∀ (cnt i : Nat) (ta : Addr), i + cnt ≤ p.k → Agree ta (setType base 3) →
      forsPkLoop p e pub (forsSig p e pub skSeed base (forsIndex p m)) m cnt i ta =
        (List.range' i cnt).map (fun i => forsNode p e pub skSeed base i p.a 0)
  | 0, _, _, _, _ => rfl
  | cnt + 1, i, ta, hi, hta => by
    have hpl : ∀ j, j < 0 + p.k → ((fun i => forsPart p e pub skSeed base i (forsIndex p m i)) j).length = (p.a + 1) * p.n :=
      fun j _ => forsPart_length p e he ..
    have hskl : ∀ x, (forsSk e pub skSeed base x).length = p.n := fun x => he.prf _ _ _
    -- the address of the leaf
    have e1 : setIndex (setHeight ta 0) (forsIndex p m i + i * 2 ^ p.a) =
        setType (setIndex base (forsIndex p m i + i * 2 ^ p.a)) 3 := by
      funext j
      show (if j = 28 then _ else if j = 28 + 1 then _ else if j = 28 + 2 then _ else if j = 28 + 3 then _ else
        if j = 27 then _ else _) = (if j = 19 then _ else if j = 28 then _ else if j = 28 + 1 then _ else if j = 28 + 2 then _
        else if j = 28 + 3 then _ else _)
      by_cases h19 : j = 19
      · subst h19
        rw [if_neg (by decide), if_neg (by decide), if_neg (by decide), if_neg (by decide), if_neg (by decide), if_pos rfl,
          hta 19 (by decide)]
        rfl
      · rw [if_neg h19]
        by_cases h27 : j = 27
        · subst h27
          rw [if_neg (by decide), if_neg (by decide), if_neg (by decide), if_neg (by decide), if_pos rfl,
            if_neg (by decide), if_neg (by decide), if_neg (by decide), if_neg (by decide), hb]
          rfl
        · rw [if_neg h27]
          repeat' split
          all_goals first
            | rfl
            | (rw [hta j (by omega)]; show (if j = 19 then _ else _) = _; rw [if_neg h19])
    have e2 : slice (forsSig p e pub skSeed base (forsIndex p m)) (i * ((p.a + 1) * p.n)) p.n =
        forsSk e pub skSeed base (forsIndex p m i + i * 2 ^ p.a) := by
      unfold forsSig
      rw [List.range_eq_range', ← Nat.add_zero (i * ((p.a + 1) * p.n)),
        flat_slice _ ((p.a + 1) * p.n) p.k 0 i 0 p.n hpl (by omega) (by rw [Nat.succ_mul]; omega), Nat.zero_add]
      show slice (forsPart ..) _ _ = _
      unfold forsPart
      rw [slice_append_left _ _ _ _ (by rw [hskl]; omega), slice_all _ _ (hskl _)]
    have e3 : ∀ h < p.a, slice (forsSig p e pub skSeed base (forsIndex p m)) (i * ((p.a + 1) * p.n) + p.n + h * p.n) p.n =
        forsNode p e pub skSeed base i h (sibling (forsIndex p m i / 2 ^ h)) := by
      intro h hh
      unfold forsSig
      have hle : (h + 1) * p.n ≤ p.a * p.n := Nat.mul_le_mul_right _ hh
      rw [Nat.succ_mul] at hle
      rw [List.range_eq_range', Nat.add_assoc, flat_slice _ ((p.a + 1) * p.n) p.k 0 i (p.n + h * p.n) p.n hpl (by omega)
        (by rw [Nat.succ_mul]; omega), Nat.zero_add]
      show slice (forsPart ..) _ _ = _
      unfold forsPart
      rw [show p.n + h * p.n = (forsSk e pub skSeed base (forsIndex p m i + i * 2 ^ p.a)).length + h * p.n by rw [hskl],
        slice_append_right]
      exact flat_slice0 _ p.n p.a h (fun t _ => forsNode_length p e he ..) hh
    have hcr := computeRoot_spec e.T pub (setType base 3) (i * 2 ^ p.a) (forsLeaf e pub skSeed base) p.a (forsIndex p m i)
      ha (forsIndex_lt p m i)
      (fun h => slice (forsSig p e pub skSeed base (forsIndex p m)) (i * ((p.a + 1) * p.n) + p.n + h * p.n) p.n)
      (setType (setIndex base (forsIndex p m i + i * 2 ^ p.a)) 3) (agree_set base _ 3) e3
    unfold forsPkLoop
    dsimp only
    rw [e1, e2]
    have e4 : e.T pub (abytes (setType (setIndex base (forsIndex p m i + i * 2 ^ p.a)) 3))
        (forsSk e pub skSeed base (forsIndex p m i + i * 2 ^ p.a)) =
        forsLeaf e pub skSeed base (forsIndex p m i + i * 2 ^ p.a) := rfl
    rw [e4, hcr.1, forsPkLoop_spec p ha e he pub skSeed m base hb cnt (i + 1) _ (by omega) hcr.2, List.range'_succ, List.map_cons]
    rfl

/-- The verifier computes the FORS public key from the signature. -/
theorem forsPkFromSig_spec (p : Params) (ha : 0 < p.a) (e : Env) (he : e.Len p.n) (pub skSeed m : List Byte) (forsAddr : Addr) :
    forsPkFromSig p e pub (forsSig p e pub skSeed (copyKeypair zeroAddr forsAddr) (forsIndex p m)) m forsAddr =
      forsPk p e pub skSeed (copyKeypair zeroAddr forsAddr) := by
  unfold forsPkFromSig
  rw [forsPkLoop_spec p ha e he pub skSeed m (copyKeypair zeroAddr forsAddr) rfl p.k 0 _ (by omega) (Agree.refl _),
    ← List.range_eq_range']
  rfl

end LC.Slh
