import Verif.Dilithium.Model
import Verif.Kyber.Pack
/-
C55: the encoding of the hint vector in an ML-DSA signature.
-/
namespace LC.Dilithium
open LC.Kyber (Poly Byte upd mapLoop at8 b8)

/-! ### Model -/

/-- Inner loop of the hint part of `pack_sig`, `dilithium_pack.h:215-217`: (`k`, buffer). -/
def packHintRow (h : Poly) : Nat → Nat → Nat × List Byte → Nat × List Byte
  | 0, _, st => st
  | cnt + 1, j, st => packHintRow h cnt (j + 1) (if h j ≠ 0 then (st.1 + 1, st.2.set st.1 (b8 j)) else st)

/-- Outer loop, `dilithium_pack.h:214-220`. -/
def packHintRows (omega : Nat) (h : Nat → Poly) : Nat → Nat → Nat × List Byte → Nat × List Byte
  | 0, _, st => st
  | cnt + 1, i, st =>
    let st := packHintRow (h i) 256 0 st
    packHintRows omega h cnt (i + 1) (st.1, st.2.set (omega + i) (b8 st.1))

/-- The hint part of `pack_sig`, `dilithium_pack.h:210-220`: the last `OMEGA + K` bytes of the
signature.  Stores beyond the buffer (more than `OMEGA + K` ones; the signer refuses more than
`OMEGA` before the call) are dropped here. -/
def packHint (p : Params) (h : Nat → Poly) : List Byte :=
  (packHintRows p.omega h p.k 0 (0, List.replicate (p.omega + p.k) 0)).2

/-- Inner loop of `unpack_sig_h`, `dilithium_pack.h:274-279`; `none` for `return 1`. -/
def unpackHintRow (s : List Byte) (k : Nat) : Nat → Nat → Poly → Option Poly
  | 0, _, h => some h
  | cnt + 1, j, h => if j > k ∧ at8 s j ≤ at8 s (j - 1) then none else unpackHintRow s k cnt (j + 1) (upd h (at8 s j) 1)

/-- Outer loop, `dilithium_pack.h:266-282`. -/
def unpackHintRows (omega : Nat) (s : List Byte) : Nat → Nat → Nat → (Nat → Poly) → Option (Nat × (Nat → Poly))
  | 0, _, k, h => some (k, h)
  | cnt + 1, i, k, h =>
    if at8 s (omega + i) < k ∨ at8 s (omega + i) > omega then none
    else (unpackHintRow s k (at8 s (omega + i) - k) k (fun _ => 0)).bind fun q =>
      unpackHintRows omega s cnt (i + 1) (at8 s (omega + i)) (fun r => if r = i then q else h r)

/-- Last loop, `dilithium_pack.h:285-287`: true if a byte is not zero. -/
def unpackHintTail (s : List Byte) : Nat → Nat → Bool
  | 0, _ => false
  | cnt + 1, j => if at8 s j ≠ 0 then true else unpackHintTail s cnt (j + 1)

/-- `unpack_sig_h`, `dilithium_pack.h:256-290`, on the last `OMEGA + K` bytes of the signature; rows of
the vector beyond `K` are zero here. -/
def unpackHint (p : Params) (s : List Byte) : Option (Nat → Poly) :=
  (unpackHintRows p.omega s p.k 0 0 (fun _ _ => 0)).bind fun r =>
    if unpackHintTail s (p.omega - r.1) r.1 then none else some r.2

/-! ### Specification -/

/-- The positions of the ones of a polynomial, ascending. -/
def Spec.ones (h : Poly) : List Nat := (List.range 256).filter (fun x => h x ≠ 0)

/-- The positions of the first `n` polynomials, one after the other. -/
def Spec.pos (h : Nat → Poly) (n : Nat) : List Nat := (List.range n).flatMap (fun i => Spec.ones (h i))

/-- `HintBitPack`, FIPS 204 algorithm 20: the positions, zeros up to `omega` bytes, and for every
polynomial the number of positions up to and including it. -/
def Spec.hintBitPack (omega k : Nat) (h : Nat → Poly) : List Byte :=
  (Spec.pos h k).map b8 ++ List.replicate (omega - (Spec.pos h k).length) 0 ++ (List.range k).map (fun i => b8 (Spec.pos h (i + 1)).length)

theorem Spec.pos_succ (h : Nat → Poly) (n : Nat) : Spec.pos h (n + 1) = Spec.pos h n ++ Spec.ones (h n) := by
  unfold Spec.pos; rw [List.range_succ, List.flatMap_append]; simp

theorem Spec.pos_mono (h : Nat → Poly) {m n : Nat} (hm : m ≤ n) : (Spec.pos h m).length ≤ (Spec.pos h n).length := by
  induction n with
  | zero => rw [Nat.le_zero.1 hm]; exact Nat.le_refl _
  | succ n ih =>
    by_cases e : m = n + 1
    · rw [e]; exact Nat.le_refl _
    · rw [Spec.pos_succ, List.length_append]
      have := ih (by omega)
      omega

theorem Spec.ones_congr {a b : Poly} (h : ∀ x < 256, (a x ≠ 0) = (b x ≠ 0)) : Spec.ones a = Spec.ones b := by
  unfold Spec.ones
  apply List.filter_congr
  intro x hx
  have := h x (List.mem_range.1 hx)
  simp only [decide_eq_decide]
  exact Iff.of_eq this

theorem Spec.pos_congr {a b : Nat → Poly} : ∀ n, (∀ i < n, Spec.ones (a i) = Spec.ones (b i)) → Spec.pos a n = Spec.pos b n
  | 0, _ => rfl
  | n + 1, h => by rw [Spec.pos_succ, Spec.pos_succ, Spec.pos_congr n (fun i hi => h i (by omega)), h n (by omega)]

theorem Spec.mem_ones {h : Poly} {x : Nat} : x ∈ Spec.ones h ↔ x < 256 ∧ h x ≠ 0 := by
  unfold Spec.ones; rw [List.mem_filter, List.mem_range]; simp

theorem Spec.ones_sorted (h : Poly) : (Spec.ones h).Pairwise (· < ·) := by
  unfold Spec.ones; exact List.Pairwise.filter _ List.pairwise_lt_range

/-- Two strictly ascending lists with the same elements are equal. -/
theorem sorted_ext : ∀ (a b : List Nat), a.Pairwise (· < ·) → b.Pairwise (· < ·) → (∀ x, x ∈ a ↔ x ∈ b) → a = b
  | [], [], _, _, _ => rfl
  | [], y :: b, _, _, h => absurd ((h y).2 (List.mem_cons_self)) (by simp)
  | x :: a, [], _, _, h => absurd ((h x).1 (List.mem_cons_self)) (by simp)
  | x :: a, y :: b, ha, hb, h => by
    rw [List.pairwise_cons] at ha hb
    have hxy : x = y := by
      have h1 := (h x).1 List.mem_cons_self
      have h2 := (h y).2 List.mem_cons_self
      rw [List.mem_cons] at h1 h2
      rcases h1 with h1 | h1
      · exact h1
      · rcases h2 with h2 | h2
        · exact h2.symm
        · have := ha.1 y h2; have := hb.1 x h1; omega
    subst hxy
    rw [sorted_ext a b ha.2 hb.2 fun z => ?_]
    have := h z
    rw [List.mem_cons, List.mem_cons] at this
    constructor
    · intro hz
      have hl := ha.1 z hz
      rcases this.1 (Or.inr hz) with e | e
      · omega
      · exact e
    · intro hz
      have hl := hb.1 z hz
      rcases this.2 (Or.inr hz) with e | e
      · omega
      · exact e

/-! ### Packing -/

theorem at8_set (s : List Byte) (i j : Nat) (b : Byte) (hi : i < s.length) : at8 (s.set i b) j = if j = i then b.toNat else at8 s j := by
  unfold at8
  rw [List.getD_eq_getElem?_getD, List.getD_eq_getElem?_getD, List.getElem?_set]
  by_cases h : i = j
  · subst h; rw [if_pos rfl, if_pos hi, if_pos rfl, Option.getD_some]
  · rw [if_neg h, if_neg (fun e => h e.symm)]

theorem b8_small {x : Nat} (h : x < 256) : (b8 x).toNat = x := by unfold b8; rw [UInt8.toNat_ofNat']; omega

theorem filter_range_succ (f : Nat → Bool) (j cnt : Nat) : (List.range' j (cnt + 1)).filter f =
    (if f j then [j] else []) ++ (List.range' (j + 1) cnt).filter f := by
  rw [List.range'_succ, List.filter_cons]; split <;> rfl

theorem packHintRow_spec (h : Poly) : ∀ cnt j st, j + cnt ≤ 256 →
    (∀ l, l = ((List.range' j cnt).filter (fun x => h x ≠ 0)) → st.1 + l.length ≤ st.2.length →
      (packHintRow h cnt j st).1 = st.1 + l.length ∧ (packHintRow h cnt j st).2.length = st.2.length ∧
      ∀ x, at8 (packHintRow h cnt j st).2 x = if st.1 ≤ x ∧ x < st.1 + l.length then l.getD (x - st.1) 0 else at8 st.2 x) := by
  intro cnt
  induction cnt with
  | zero =>
    intro j st _ l hl hs
    rw [List.range'_zero, List.filter_nil] at hl
    subst hl
    refine ⟨rfl, rfl, fun x => ?_⟩
    rw [if_neg (by simp)]
    rfl
  | succ cnt ih =>
    intro j st hj l hl hs
    rw [filter_range_succ] at hl
    unfold packHintRow
    by_cases h0 : h j ≠ 0
    · rw [if_pos (by simpa using h0)] at hl
      rw [if_pos h0]
      obtain ⟨g1, g2, g3⟩ := ih (j + 1) (st.1 + 1, st.2.set st.1 (b8 j)) (by omega) _ rfl (by
        rw [hl] at hs
        simp only [List.length_append, List.length_cons, List.length_nil, List.length_set] at hs ⊢
        omega)
      have hll : l.length = ((List.range' (j + 1) cnt).filter (fun x => h x ≠ 0)).length + 1 := by rw [hl]; simp
      refine ⟨by rw [g1, hll]; dsimp only; omega, by rw [g2, List.length_set], fun x => ?_⟩
      rw [g3 x]
      dsimp only
      rw [at8_set _ _ _ _ (by omega), b8_small (by omega)]
      by_cases hx : x = st.1
      · subst hx
        rw [if_neg (by omega), if_pos rfl, if_pos (by omega), hl, Nat.sub_self]
        rfl
      · by_cases hx2 : st.1 ≤ x ∧ x < st.1 + l.length
        · rw [if_pos (by omega), if_pos hx2, hl, List.singleton_append, show x - st.1 = (x - (st.1 + 1)) + 1 by omega, List.getD_cons_succ]
        · rw [if_neg (by omega), if_neg hx, if_neg hx2]
    · rw [if_neg (by simpa using h0), List.nil_append] at hl
      rw [if_neg h0]
      exact ih (j + 1) st (by omega) l hl hs

theorem range_eq (n : Nat) : List.range n = List.range' 0 n := List.range_eq_range'

/-- After `i` rows: the positions, then zeros, and the counts. -/
def PInv (omega k : Nat) (h : Nat → Poly) (i : Nat) (st : Nat × List Byte) : Prop :=
  st.1 = (Spec.pos h i).length ∧ st.2.length = omega + k ∧ ∀ x, at8 st.2 x =
    if x < st.1 then (Spec.pos h i).getD x 0 else if omega ≤ x ∧ x < omega + i then (Spec.pos h (x - omega + 1)).length else 0

theorem getD_append' (a b : List Nat) (x : Nat) : (a ++ b).getD x 0 = if x < a.length then a.getD x 0 else b.getD (x - a.length) 0 := by
  rw [List.getD_eq_getElem?_getD, List.getD_eq_getElem?_getD, List.getD_eq_getElem?_getD]
  split
  · rw [List.getElem?_append_left (by assumption)]
  · rw [List.getElem?_append_right (by omega)]

theorem packHintRows_spec (omega k : Nat) (h : Nat → Poly) (hw : omega < 256) (ht : (Spec.pos h k).length ≤ omega) : ∀ cnt i st, i + cnt = k →
    PInv omega k h i st → PInv omega k h k (packHintRows omega h cnt i st) := by
  intro cnt
  induction cnt with
  | zero => intro i st hi hI; rw [show k = i by omega] at hI ⊢; exact hI
  | succ cnt ih =>
    intro i st hi hI
    obtain ⟨h1, h2, h3⟩ := hI
    unfold packHintRows
    dsimp only
    apply ih (i + 1) _ (by omega)
    have hm := Spec.pos_mono h (show i + 1 ≤ k by omega)
    have hp := Spec.pos_succ h i
    have hpl := congrArg List.length hp
    rw [List.length_append] at hpl
    obtain ⟨g1, g2, g3⟩ := packHintRow_spec (h i) 256 0 st (by omega) (Spec.ones (h i)) (by unfold Spec.ones; rw [range_eq]) (by omega)
    refine ⟨by dsimp only; omega, by dsimp only; rw [List.length_set, g2, h2], fun x => ?_⟩
    dsimp only
    rw [at8_set _ _ _ _ (by omega), g3, g1, b8_small (by omega)]
    by_cases hx : x = omega + i
    · subst hx
      rw [if_pos rfl, if_neg (by omega), if_pos (by omega), show omega + i - omega + 1 = i + 1 by omega]
      omega
    · rw [if_neg hx]
      by_cases hx1 : st.1 ≤ x ∧ x < st.1 + (Spec.ones (h i)).length
      · rw [if_pos hx1, if_pos (by omega), hp, getD_append', if_neg (by omega), h1]
      · rw [if_neg hx1, h3]
        by_cases hx2 : x < st.1
        · rw [if_pos hx2, if_pos (by omega), hp, getD_append', if_pos (by omega)]
        · rw [if_neg hx2, if_neg (show ¬ x < st.1 + (Spec.ones (h i)).length by omega)]
          by_cases hx3 : omega ≤ x ∧ x < omega + i
          · rw [if_pos hx3, if_pos (show omega ≤ x ∧ x < omega + (i + 1) by omega)]
          · rw [if_neg hx3, if_neg (show ¬ (omega ≤ x ∧ x < omega + (i + 1)) by omega)]

theorem at8_ext {a b : List Byte} (hl : a.length = b.length) (h : ∀ x < a.length, at8 a x = at8 b x) : a = b := by
  apply List.ext_getElem hl
  intro i h1 h2
  have := h i h1
  unfold at8 at this
  rw [List.getD_eq_getElem?_getD, List.getD_eq_getElem?_getD, List.getElem?_eq_getElem h1, List.getElem?_eq_getElem h2] at this
  exact UInt8.toNat.inj this

theorem pos_lt (h : Nat → Poly) (n x : Nat) (hx : x < (Spec.pos h n).length) : (Spec.pos h n).getD x 0 < 256 := by
  rw [List.getD_eq_getElem?_getD, List.getElem?_eq_getElem hx, Option.getD_some]
  have := List.getElem_mem hx
  unfold Spec.pos at this
  rw [List.mem_flatMap] at this
  obtain ⟨i, -, hi⟩ := this
  exact (Spec.mem_ones.1 hi).1

theorem hintBitPack_length (omega k : Nat) (h : Nat → Poly) (ht : (Spec.pos h k).length ≤ omega) : (Spec.hintBitPack omega k h).length = omega + k := by
  unfold Spec.hintBitPack
  simp only [List.length_append, List.length_map, List.length_replicate, List.length_range]
  omega

theorem at8_append (a b : List Byte) (x : Nat) : at8 (a ++ b) x = if x < a.length then at8 a x else at8 b (x - a.length) := by
  unfold at8
  rw [List.getD_eq_getElem?_getD, List.getD_eq_getElem?_getD, List.getD_eq_getElem?_getD]
  split
  · rw [List.getElem?_append_left (by assumption)]
  · rw [List.getElem?_append_right (by omega)]

theorem at8_map (l : List Nat) (f : Nat → Nat) (x : Nat) (hx : x < l.length) : at8 (l.map fun i => b8 (f i)) x = f (l.getD x 0) % 256 := by
  unfold at8
  rw [List.getD_eq_getElem?_getD, List.getD_eq_getElem?_getD, List.getElem?_map, List.getElem?_eq_getElem hx]
  simp only [Option.map_some, Option.getD_some]
  unfold b8; rw [UInt8.toNat_ofNat']

/-- The bytes of `HintBitPack`. -/
theorem hintBitPack_at (omega k : Nat) (hw : omega < 256) (h : Nat → Poly) (ht : (Spec.pos h k).length ≤ omega) (x : Nat) :
    at8 (Spec.hintBitPack omega k h) x =
    if x < (Spec.pos h k).length then (Spec.pos h k).getD x 0
    else if omega ≤ x ∧ x < omega + k then (Spec.pos h (x - omega + 1)).length else 0 := by
  unfold Spec.hintBitPack
  rw [at8_append, at8_append]
  simp only [List.length_append, List.length_map, List.length_replicate]
  by_cases h1 : x < (Spec.pos h k).length
  · rw [if_pos (by omega), if_pos h1, if_pos h1, at8_map (Spec.pos h k) (fun i => i) x h1, Nat.mod_eq_of_lt (pos_lt h k x h1)]
  · rw [if_neg h1, if_neg h1]
    by_cases h2 : x < omega
    · rw [if_pos (by omega), if_neg (by omega)]
      unfold at8
      rw [List.getD_eq_getElem?_getD]
      by_cases h3 : x - (Spec.pos h k).length < omega - (Spec.pos h k).length
      · rw [List.getElem?_replicate, if_pos h3]; rfl
      · rw [List.getElem?_replicate, if_neg h3]; rfl
    · rw [if_neg (by omega)]
      by_cases h3 : x < omega + k
      · rw [if_pos (by omega), at8_map (List.range k) (fun i => (Spec.pos h (i + 1)).length) _ (by rw [List.length_range]; omega)]
        have e : (List.range k).getD (x - ((Spec.pos h k).length + (omega - (Spec.pos h k).length))) 0 = x - omega := by
          rw [List.getD_eq_getElem?_getD, List.getElem?_range (by omega), Option.getD_some]; omega
        rw [e]
        have := Spec.pos_mono h (show x - omega + 1 ≤ k by omega)
        omega
      · rw [if_neg (by omega)]
        unfold at8
        rw [List.getD_eq_getElem?_getD, List.getElem?_eq_none (by rw [List.length_map, List.length_range]; omega)]
        rfl

/-- **C55 (encoder)**: for every hint vector with at most `OMEGA` ones, the hint part of `pack_sig` is
`HintBitPack` of FIPS 204. -/
theorem packHint_is_fips204 (p : Params) (hw : p.omega < 256) (h : Nat → Poly) (ht : (Spec.pos h p.k).length ≤ p.omega) :
    packHint p h = Spec.hintBitPack p.omega p.k h := by
  have hI : PInv p.omega p.k h 0 (0, List.replicate (p.omega + p.k) 0) := by
    refine ⟨rfl, List.length_replicate, fun x => ?_⟩
    rw [if_neg (by simp), if_neg (by omega)]
    unfold at8
    rw [List.getD_eq_getElem?_getD, List.getElem?_replicate]
    split <;> rfl
  obtain ⟨h1, h2, h3⟩ := packHintRows_spec p.omega p.k h hw ht p.k 0 _ (by omega) hI
  refine at8_ext ?_ fun x _ => ?_
  · exact h2.trans (hintBitPack_length p.omega p.k h ht).symm
  · rw [hintBitPack_at p.omega p.k hw h ht, ← h1]
    exact h3 x

/-! ### Unpacking -/

theorem unpackHintRow_iff (s : List Byte) (k : Nat) : ∀ cnt j h h', unpackHintRow s k cnt j h = some h' ↔
    (∀ t, j ≤ t → t < j + cnt → k < t → at8 s (t - 1) < at8 s t) ∧
    h' = fun x => if x ∈ (List.range' j cnt).map (at8 s) then 1 else h x := by
  intro cnt
  induction cnt with
  | zero =>
    intro j h h'
    unfold unpackHintRow
    constructor
    · intro e
      refine ⟨fun t _ _ _ => by omega, ?_⟩
      rw [← Option.some.inj e]
      funext x
      simp
    · rintro ⟨-, e⟩
      rw [e]
      congr 1
  | succ cnt ih =>
    intro j h h'
    unfold unpackHintRow
    have hf : (fun x => if x ∈ (List.range' (j + 1) cnt).map (at8 s) then (1 : Int) else upd h (at8 s j) 1 x) =
        fun x => if x ∈ (List.range' j (cnt + 1)).map (at8 s) then 1 else h x := by
      funext x
      rw [List.range'_succ, List.map_cons]
      by_cases hx : x ∈ (List.range' (j + 1) cnt).map (at8 s)
      · rw [if_pos hx, if_pos (List.mem_cons_of_mem _ hx)]
      · rw [if_neg hx]
        by_cases hx2 : x = at8 s j
        · rw [if_pos (by rw [hx2]; exact List.mem_cons_self)]; unfold upd; rw [if_pos hx2]
        · rw [if_neg (by rw [List.mem_cons]; intro e; rcases e with e | e; exact hx2 e; exact hx e)]; unfold upd; rw [if_neg hx2]
    split
    · rename_i hc
      constructor
      · intro e; cases e
      · rintro ⟨e, -⟩
        have := e j (by omega) (by omega) hc.1
        omega
    · rename_i hc
      rw [ih, hf]
      constructor
      · rintro ⟨e1, e2⟩
        refine ⟨fun t h1 h2 h3 => ?_, e2⟩
        by_cases e : t = j
        · subst e; omega
        · exact e1 t (by omega) (by omega) h3
      · rintro ⟨e1, e2⟩
        exact ⟨fun t h1 h2 h3 => e1 t (by omega) (by omega) h3, e2⟩

/-- Bytes of a row that ascend are the positions of the ones of the resulting polynomial. -/
theorem row_ones (s : List Byte) (k cnt : Nat) (h : ∀ t, k < t → t < k + cnt → at8 s (t - 1) < at8 s t) :
    Spec.ones (fun x => if x ∈ (List.range' k cnt).map (at8 s) then (1 : Int) else 0) = (List.range' k cnt).map (at8 s) := by
  have asc : ∀ d t, k ≤ t → t + d + 1 < k + cnt → at8 s t < at8 s (t + d + 1) := by
    intro d
    induction d with
    | zero => intro t h1 h2; exact h (t + 1) (by omega) h2
    | succ d ih =>
      intro t h1 h2
      have := ih t h1 (by omega)
      have := h (t + d + 1 + 1) (by omega) (by omega)
      rw [show t + (d + 1) + 1 = t + d + 1 + 1 by omega]
      rw [Nat.add_sub_cancel] at this
      omega
  apply sorted_ext _ _ (Spec.ones_sorted _)
  · rw [List.pairwise_map]
    refine List.Pairwise.imp_of_mem ?_ List.pairwise_lt_range'
    intro a b ha hb hab
    rw [List.mem_range'_1] at ha hb
    have := asc (b - a - 1) a ha.1 (by omega)
    rwa [show a + (b - a - 1) + 1 = b by omega] at this
  · intro x
    rw [Spec.mem_ones]
    constructor
    · rintro ⟨-, h2⟩
      by_cases hx : x ∈ (List.range' k cnt).map (at8 s)
      · exact hx
      · rw [if_neg hx] at h2; exact absurd rfl h2
    · intro hx
      refine ⟨?_, by rw [if_pos hx]; decide⟩
      rw [List.mem_map] at hx
      obtain ⟨t, -, e⟩ := hx
      rw [← e]; exact LC.Kyber.at8_lt s t

/-- What the decoder knows after `i` rows. -/
def UInv (omega : Nat) (s : List Byte) (i k : Nat) (h : Nat → Poly) : Prop :=
  k = (Spec.pos h i).length ∧ k ≤ omega ∧ (∀ t < k, at8 s t = (Spec.pos h i).getD t 0) ∧
  (∀ r < i, at8 s (omega + r) = (Spec.pos h (r + 1)).length) ∧ ∀ r x, h r x = 0 ∨ (h r x = 1 ∧ r < i ∧ x < 256)

theorem unpackHintRows_sound (omega : Nat) (s : List Byte) : ∀ cnt i k h r, UInv omega s i k h →
    unpackHintRows omega s cnt i k h = some r → UInv omega s (i + cnt) r.1 r.2 := by
  intro cnt
  induction cnt with
  | zero => intro i k h r hI e; rw [← Option.some.inj e]; exact hI
  | succ cnt ih =>
    intro i k h r hI e
    obtain ⟨h1, h2, h3, h4, h5⟩ := hI
    unfold unpackHintRows at e
    split at e
    · cases e
    rename_i hc
    cases hq : unpackHintRow s k (at8 s (omega + i) - k) k (fun _ => 0) with
    | none => rw [hq] at e; cases e
    | some q =>
      rw [hq, Option.bind_some] at e
      have := ih (i + 1) _ _ r ?_ e
      · rwa [show i + (cnt + 1) = i + 1 + cnt by omega]
      · obtain ⟨g1, g2⟩ := (unpackHintRow_iff s k _ _ _ _).1 hq
        have hones : Spec.ones q = (List.range' k (at8 s (omega + i) - k)).map (at8 s) := by
          rw [g2]; exact row_ones s k _ (fun t e1 e2 => g1 t (by omega) (by omega) e1)
        have hpre : ∀ n ≤ i, Spec.pos (fun r => if r = i then q else h r) n = Spec.pos h n := by
          intro n hn
          apply Spec.pos_congr
          intro j hj
          rw [if_neg (by omega)]
        have hpos : Spec.pos (fun r => if r = i then q else h r) (i + 1) = Spec.pos h i ++ Spec.ones q := by
          rw [Spec.pos_succ, hpre i (Nat.le_refl _), if_pos rfl]
        have hlen : (Spec.ones q).length = at8 s (omega + i) - k := by rw [hones]; simp
        refine ⟨?_, by omega, ?_, ?_, ?_⟩
        · rw [hpos, List.length_append, hlen]; omega
        · intro t ht
          rw [hpos, getD_append']
          split
          · rw [h3 t (by omega)]
          · rw [hones, List.getD_eq_getElem?_getD, List.getElem?_map, List.getElem?_range' (by omega), Option.map_some, Option.getD_some]
            congr 1; omega
        · intro r' hr'
          by_cases e' : r' = i
          · subst e'; rw [hpos, List.length_append, hlen]; omega
          · rw [hpre (r' + 1) (by omega)]; exact h4 r' (by omega)
        · intro r' x
          dsimp only
          by_cases e' : r' = i
          · rw [if_pos e', g2]
            dsimp only
            split
            · rename_i hm
              refine Or.inr ⟨rfl, by omega, ?_⟩
              rw [List.mem_map] at hm
              obtain ⟨t, -, e''⟩ := hm
              rw [← e'']; exact LC.Kyber.at8_lt s t
            · exact Or.inl rfl
          · rw [if_neg e']
            rcases h5 r' x with e'' | ⟨e1, e2, e3⟩
            · exact Or.inl e''
            · exact Or.inr ⟨e1, by omega, e3⟩

theorem unpackHintTail_false (s : List Byte) : ∀ cnt j, unpackHintTail s cnt j = false ↔ ∀ t, j ≤ t → t < j + cnt → at8 s t = 0 := by
  intro cnt
  induction cnt with
  | zero => intro j; exact ⟨fun _ t _ _ => by omega, fun _ => rfl⟩
  | succ cnt ih =>
    intro j
    unfold unpackHintTail
    split
    · rename_i h
      exact ⟨(fun e => by cases e), fun e => absurd (e j (by omega) (by omega)) h⟩
    · rename_i h
      rw [ih]
      constructor
      · intro e t h1 h2
        by_cases ht : t = j
        · subst ht; exact Decidable.not_not.1 h
        · exact e t (by omega) (by omega)
      · intro e t h1 h2; exact e t (by omega) (by omega)

/-- **C55 (canonical)**: every byte string the decoder accepts is `HintBitPack` of the hint vector it
returns, which is a vector of zeros and ones with at most `OMEGA` ones. -/
theorem unpackHint_canonical (p : Params) (hw : p.omega < 256) (s : List Byte) (hs : s.length = p.omega + p.k) (h : Nat → Poly)
    (e : unpackHint p s = some h) :
    s = Spec.hintBitPack p.omega p.k h ∧ (Spec.pos h p.k).length ≤ p.omega ∧ ∀ r x, h r x = 0 ∨ h r x = 1 := by
  unfold unpackHint at e
  cases hq : unpackHintRows p.omega s p.k 0 0 (fun _ _ => 0) with
  | none => rw [hq] at e; cases e
  | some r =>
    rw [hq, Option.bind_some] at e
    split at e
    · cases e
    rename_i ht
    have er := Option.some.inj e
    have hI : UInv p.omega s 0 0 (fun _ _ => 0) :=
      ⟨rfl, Nat.zero_le _, fun t ht => by omega, fun r hr => by omega, fun _ _ => Or.inl rfl⟩
    have hU := unpackHintRows_sound p.omega s p.k 0 0 _ r hI hq
    rw [Nat.zero_add, er] at hU
    obtain ⟨h1, h2, h3, h4, h5⟩ := hU
    have hz := (unpackHintTail_false s _ _).1 (Bool.eq_false_iff.2 ht)
    refine ⟨at8_ext (by rw [hs, hintBitPack_length _ _ _ (by omega)]) fun x hx => ?_, by omega, fun r x => ?_⟩
    · rw [hintBitPack_at _ _ hw _ (by omega), ← h1]
      by_cases hx1 : x < r.1
      · rw [if_pos hx1, h3 x hx1]
      · rw [if_neg hx1]
        by_cases hx2 : x < p.omega
        · rw [if_neg (by omega)]; exact hz x (by omega) (by omega)
        · rw [if_pos (by omega)]
          have := h4 (x - p.omega) (by omega)
          rwa [show p.omega + (x - p.omega) = x by omega] at this
    · rcases h5 r x with e | e
      · exact Or.inl e
      · exact Or.inr e.1

/-- **C55 (no two encodings)**: two accepted strings with the same hint vector are equal. -/
theorem unpackHint_injective (p : Params) (hw : p.omega < 256) (s s' : List Byte) (hs : s.length = p.omega + p.k) (hs' : s'.length = p.omega + p.k)
    (h h' : Nat → Poly) (e : unpackHint p s = some h) (e' : unpackHint p s' = some h') (hh : ∀ i < p.k, ∀ x < 256, h i x = h' i x) : s = s' := by
  rw [(unpackHint_canonical p hw s hs h e).1, (unpackHint_canonical p hw s' hs' h' e').1]
  have : ∀ n ≤ p.k, Spec.pos h n = Spec.pos h' n := fun n hn =>
    Spec.pos_congr n fun i hi => Spec.ones_congr fun x hx => by rw [hh i (by omega) x hx]
  unfold Spec.hintBitPack
  rw [this p.k (Nat.le_refl _)]
  congr 1
  apply List.map_congr_left
  intro i hi
  rw [this (i + 1) (by have := List.mem_range.1 hi; omega)]

theorem unpackHintRows_complete (omega k : Nat) (hw : omega < 256) (s : List Byte) (h : Nat → Poly) (ht : (Spec.pos h k).length ≤ omega)
    (h01 : ∀ r x, h r x = 0 ∨ h r x = 1)
    (hat : ∀ x, at8 s x = if x < (Spec.pos h k).length then (Spec.pos h k).getD x 0
      else if omega ≤ x ∧ x < omega + k then (Spec.pos h (x - omega + 1)).length else 0) :
    ∀ cnt i g, i + cnt = k → (∀ r < i, ∀ x < 256, g r x = h r x) →
    ∃ g', unpackHintRows omega s cnt i (Spec.pos h i).length g = some ((Spec.pos h k).length, g') ∧ ∀ r < k, ∀ x < 256, g' r x = h r x := by
  intro cnt
  induction cnt with
  | zero =>
    intro i g hi hg
    have : i = k := by omega
    subst this
    exact ⟨g, rfl, hg⟩
  | succ cnt ih =>
    intro i g hi hg
    have hm := Spec.pos_mono h (show i + 1 ≤ k by omega)
    have hp := Spec.pos_succ h i
    have hpl := congrArg List.length hp
    rw [List.length_append] at hpl
    have hc : at8 s (omega + i) = (Spec.pos h (i + 1)).length := by
      rw [hat, if_neg (by omega), if_pos (by omega), show omega + i - omega + 1 = i + 1 by omega]
    unfold unpackHintRows
    rw [if_neg (by omega), hc, hpl, Nat.add_sub_cancel_left]
    -- the bytes of this row
    have hrow : ∀ t, t < (Spec.ones (h i)).length → at8 s ((Spec.pos h i).length + t) = (Spec.ones (h i)).getD t 0 := by
      intro t hlt
      have hpre : ∀ n, i + 1 ≤ n → n ≤ k → (Spec.pos h n).getD ((Spec.pos h i).length + t) 0 = (Spec.ones (h i)).getD t 0 := by
        intro n hn
        induction n with
        | zero => omega
        | succ n ihn =>
          intro hk
          by_cases e : n = i
          · subst e; rw [hp, getD_append', if_neg (by omega), Nat.add_sub_cancel_left]
          · rw [Spec.pos_succ, getD_append', if_pos (by have := Spec.pos_mono h (show i + 1 ≤ n by omega); omega)]
            exact ihn (by omega) (by omega)
      rw [hat, if_pos (by omega), hpre k (by omega) (Nat.le_refl _)]
    have hmap : (List.range' (Spec.pos h i).length (Spec.ones (h i)).length).map (at8 s) = Spec.ones (h i) := by
      apply List.ext_getElem
      · simp
      intro t e1 e2
      rw [List.getElem_map, List.getElem_range', Nat.one_mul, hrow t e2, List.getD_eq_getElem?_getD, List.getElem?_eq_getElem e2, Option.getD_some]
    have hq : unpackHintRow s (Spec.pos h i).length (Spec.ones (h i)).length (Spec.pos h i).length (fun _ => 0) =
        some (fun x => if x ∈ Spec.ones (h i) then 1 else 0) := by
      rw [unpackHintRow_iff, hmap]
      refine ⟨fun t e1 e2 e3 => ?_, rfl⟩
      obtain ⟨u, rfl⟩ : ∃ u, t = (Spec.pos h i).length + (u + 1) := ⟨t - (Spec.pos h i).length - 1, by omega⟩
      rw [show (Spec.pos h i).length + (u + 1) - 1 = (Spec.pos h i).length + u by omega, hrow u (by omega), hrow (u + 1) (by omega)]
      have := List.pairwise_iff_getElem.1 (Spec.ones_sorted (h i)) u (u + 1) (by omega) (by omega) (by omega)
      rwa [List.getD_eq_getElem?_getD, List.getD_eq_getElem?_getD, List.getElem?_eq_getElem (by omega), List.getElem?_eq_getElem (by omega),
        Option.getD_some, Option.getD_some]
    rw [hq, Option.bind_some, ← hpl]
    apply ih (i + 1) _ (by omega)
    intro r hr x hx
    by_cases e : r = i
    · subst e
      rw [if_pos rfl]
      rcases h01 r x with e' | e'
      · rw [if_neg (fun hm => (Spec.mem_ones.1 hm).2 e'), e']
      · rw [if_pos (Spec.mem_ones.2 ⟨hx, by rw [e']; decide⟩), e']
    · rw [if_neg e]; exact hg r (by omega) x hx

/-- **C55 (round trip)**: decoding an encoded hint vector of zeros and ones, with at most `OMEGA`
ones, returns it. -/
theorem hint_roundtrip (p : Params) (hw : p.omega < 256) (h : Nat → Poly) (h01 : ∀ r x, h r x = 0 ∨ h r x = 1)
    (ht : (Spec.pos h p.k).length ≤ p.omega) :
    ∃ h', unpackHint p (packHint p h) = some h' ∧ ∀ r < p.k, ∀ x < 256, h' r x = h r x := by
  rw [packHint_is_fips204 p hw h ht]
  have hat := hintBitPack_at p.omega p.k hw h ht
  obtain ⟨g, e, hg⟩ := unpackHintRows_complete p.omega p.k hw _ h ht h01 hat p.k 0 (fun _ _ => 0) (by omega) (fun r hr => by omega)
  refine ⟨g, ?_, hg⟩
  have e0 : unpackHintRows p.omega (Spec.hintBitPack p.omega p.k h) p.k 0 0 (fun _ _ => 0) = some ((Spec.pos h p.k).length, g) := e
  unfold unpackHint
  rw [e0, Option.bind_some]
  dsimp only
  rw [(unpackHintTail_false _ _ _).2]
  · rfl
  · intro t h1 h2
    rw [hat, if_neg (by omega), if_neg (by omega)]

/-- The parameter sets. -/
theorem Params.Ok.omega_lt {p : Params} (h : p.Ok) : p.omega < 256 := by
  rcases h with rfl | rfl | rfl <;> decide

/-- The hypotheses are met by a hint vector with ones in several rows; a non-canonical string is
refused. -/
example : let h : Nat → Poly := fun r x => if x = 7 * r + 3 ∨ x = 255 then 1 else 0
    (∀ r x, h r x = 0 ∨ h r x = 1) ∧ (Spec.pos h mldsa44.k).length ≤ mldsa44.omega ∧
    (packHint mldsa44 h).take 8 = [3, 255, 10, 255, 17, 255, 24, 255] ∧ (packHint mldsa44 h).drop 80 = [2, 4, 6, 8] ∧
    (unpackHint mldsa44 (packHint mldsa44 h)).isSome = true ∧
    (unpackHint mldsa44 ((packHint mldsa44 h).set 0 255)).isSome = false ∧
    (unpackHint mldsa44 ((packHint mldsa44 h).set 20 1)).isSome = false := by
  refine ⟨fun r x => by dsimp only; split <;> simp, by decide +kernel, by decide +kernel, by decide +kernel, by decide +kernel, by decide +kernel,
    by decide +kernel⟩

end LC.Dilithium
