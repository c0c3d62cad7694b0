import Verif.AsconHash.Spec
/- Helper lemmas for Ascon-Hash256 / Ascon-XOF128. -/
namespace LC.AsconHash
open LC.Sponge (Byte xorAt extract absorbTail absorbTail_eq absorbTail_small absorbTail_big
  absorbTail_aligned absorbTail_nil xorAt_nil xorAt_append xorAt_zeros xorAt_length xorBlock_eq
  extract_eq_map div_add_lt div_helper)
open LC.Sponge.Spec (block iter)

/-! ### Permutation -/

theorem ror64_eq (x : BitVec 64) (n : Nat) (h0 : 0 < n) (h : n < 64) :
    ror64 x n = x.rotateRight n := by
  rw [ror64, BitVec.rotateRight_def, Nat.mod_eq_of_lt h, Nat.mod_eq_of_lt (by omega : 64 - n < 64)]

theorem getLsbD_ofBits (f : Nat → Bool) : ∀ n i, i < n → (Spec.ofBits f n).getLsbD i = f i
  | 0, i, h => by omega
  | n + 1, i, h => by
    rw [Spec.ofBits, BitVec.getLsbD_cons]
    split
    · rename_i e; rw [e]
    · exact getLsbD_ofBits f n i (by omega)

theorem permOne_eq (s : Words) (c : Nat) : permOne s (BitVec.ofNat 64 c) = Spec.round c s := by
  have key : ∀ (x0 x1 x2 x3 x4 : BitVec 64),
      let s0 := x0 ^^^ x4
      let s4 := x4 ^^^ x3
      let s2 := x2 ^^^ x1
      let t0 := s0 ^^^ (~~~x1 &&& s2)
      let t1 := x1 ^^^ (~~~s2 &&& x3)
      let t2 := s2 ^^^ (~~~x3 &&& s4)
      let t3 := x3 ^^^ (~~~s4 &&& s0)
      let t4 := s4 ^^^ (~~~s0 &&& x1)
      t0 ^^^ t4 = Spec.sboxLayer ⟨x0, x1, x2, x3, x4⟩ 0 ∧
      t1 ^^^ t0 = Spec.sboxLayer ⟨x0, x1, x2, x3, x4⟩ 1 ∧
      ~~~t2 = Spec.sboxLayer ⟨x0, x1, x2, x3, x4⟩ 2 ∧
      t3 ^^^ t2 = Spec.sboxLayer ⟨x0, x1, x2, x3, x4⟩ 3 ∧
      t4 = Spec.sboxLayer ⟨x0, x1, x2, x3, x4⟩ 4 := by
    intro x0 x1 x2 x3 x4
    have hb : ∀ b0 b1 b2 b3 b4 : Bool,
        let s0 := b0 ^^ b4
        let s4 := b4 ^^ b3
        let s2 := b2 ^^ b1
        let t0 := s0 ^^ (!b1 && s2)
        let t1 := b1 ^^ (!s2 && b3)
        let t2 := s2 ^^ (!b3 && s4)
        let t3 := b3 ^^ (!s4 && s0)
        let t4 := s4 ^^ (!s0 && b1)
        let v := Spec.sbox.getD (Spec.column b0 b1 b2 b3 b4) 0
        (t0 ^^ t4) = v.testBit 4 ∧ (t1 ^^ t0) = v.testBit 3 ∧ (!t2) = v.testBit 2 ∧
        (t3 ^^ t2) = v.testBit 1 ∧ t4 = v.testBit 0 := by decide
    dsimp only at hb ⊢
    refine ⟨?_, ?_, ?_, ?_, ?_⟩ <;> apply BitVec.eq_of_getLsbD_eq <;> intro i hi <;>
      rw [Spec.sboxLayer, getLsbD_ofBits _ _ _ hi] <;> dsimp only <;>
      simp only [BitVec.getLsbD_xor, BitVec.getLsbD_and, BitVec.getLsbD_not, hi, decide_true,
        Bool.true_and]
    · exact (hb _ _ _ _ _).1
    · exact (hb _ _ _ _ _).2.1
    · exact (hb _ _ _ _ _).2.2.1
    · exact (hb _ _ _ _ _).2.2.2.1
    · exact (hb _ _ _ _ _).2.2.2.2
  obtain ⟨k0, k1, k2, k3, k4⟩ := key s.x0 s.x1 (s.x2 ^^^ BitVec.ofNat 64 c) s.x3 s.x4
  simp only [permOne, ← k0, ← k1, ← k2, ← k3, ← k4, Spec.round, Spec.linear, ror64_eq, Nat.reduceLT]

theorem perm12_eq (s : Words) : perm12 s = Spec.perm 12 s := by
  have : ([0xf0, 0xe1, 0xd2, 0xc3, 0xb4, 0xa5, 0x96, 0x87, 0x78, 0x69, 0x5a, 0x4b] :
      List (BitVec 64)) = (List.range 12).map fun i => BitVec.ofNat 64 (Spec.const 12 i) := by
    decide
  rw [perm12, this, List.foldl_map, Spec.perm]
  simp only [permOne_eq]

theorem perm8_eq (s : Words) : perm8 s = Spec.perm 8 s := by
  have : ([0xb4, 0xa5, 0x96, 0x87, 0x78, 0x69, 0x5a, 0x4b] :
      List (BitVec 64)) = (List.range 8).map fun i => BitVec.ofNat 64 (Spec.const 8 i) := by
    decide
  rw [perm8, this, List.foldl_map, Spec.perm]
  simp only [permOne_eq]

theorem ofWords_length (s : Words) : (ofWords s).length = 40 := by simp [ofWords, leBytes]

/-! ### Streaming -/

/-- `true` if no update call that starts inside a block ends exactly at a block
boundary; `n` is the number of bytes already absorbed. -/
def GoodCuts (r : Nat) : Nat → List (List Byte) → Prop
  | _, [] => True
  | n, x :: xs => (n % r ≠ 0 → x ≠ [] → (n + x.length) % r = 0 → r < n % r + x.length) ∧
      GoodCuts r (n + x.length) xs

def Inv (perm : List Byte → List Byte) (r : Nat) (iv : List Byte) (c : Ctx) (m : List Byte) : Prop :=
  c.state = absorbTail perm r iv m ∧ c.msgLen = m.length ∧ c.offset = 0 ∧ c.squeezeMore = false

theorem absorb_inv (perm : List Byte → List Byte) (r : Nat) (hr : 0 < r) (iv : List Byte)
    (c : Ctx) (m x : List Byte) (h : Inv perm r iv c m) (hlen : m.length + x.length < 2 ^ 64)
    (hg : m.length % r ≠ 0 → x ≠ [] → (m.length + x.length) % r = 0 → r < m.length % r + x.length) :
    Inv perm r iv (absorb perm r c x) (m ++ x) := by
  obtain ⟨hs, hm, ho, hq⟩ := h
  have hmod : (c.msgLen + x.length) % 2 ^ 64 = m.length + x.length := by
    rw [hm]; exact Nat.mod_eq_of_lt hlen
  have hlt := Nat.mod_lt m.length hr
  unfold absorb
  rw [hmod, hm]
  dsimp only
  split
  · rename_i hp
    split
    · rename_i hlt2
      refine ⟨?_, by simp, ho, rfl⟩
      rw [absorbTail_small perm r hr m.length _ m x (Nat.le_refl _) (by omega), hs]
    · rename_i hge
      refine ⟨?_, by simp, ho, rfl⟩
      rw [absorbTail_big perm r hr m.length _ m x (Nat.le_refl _) (by omega), hs]
      dsimp only
      rw [if_pos]
      rw [List.length_drop]
      intro h0
      have hx : m.length % r + x.length = r := by omega
      have h1 : (m.length + x.length) % r = 0 := by
        rw [← Nat.mod_add_mod, hx, Nat.mod_self]
      have h2 := hg hp (by rintro rfl; simp at hx; omega) h1
      omega
  · rename_i hp
    refine ⟨?_, by simp, ho, rfl⟩
    rw [absorbTail_aligned perm r hr _ m x (by omega), hs]

theorem updates_inv (perm : List Byte → List Byte) (r : Nat) (hr : 0 < r) (iv : List Byte) :
    ∀ (chunks : List (List Byte)) (c : Ctx) (m : List Byte), Inv perm r iv c m →
      m.length + chunks.flatten.length < 2 ^ 64 → GoodCuts r m.length chunks →
      Inv perm r iv (chunks.foldl (absorb perm r) c) (m ++ chunks.flatten)
  | [], c, m, h, _, _ => by simpa using h
  | x :: xs, c, m, h, hl, hg => by
    rw [List.flatten_cons, List.length_append] at hl
    rw [List.foldl_cons, List.flatten_cons, ← List.append_assoc]
    apply updates_inv perm r hr iv xs
    · exact absorb_inv perm r hr iv c m x h (by omega) hg.1
    · rw [List.length_append]; omega
    · rw [List.length_append]; exact hg.2

theorem absorbed_congr (perm : List Byte → List Byte) (r : Nat) (iv p q : List Byte) :
    ∀ n, (∀ i < n, block r p i = block r q i) →
      Spec.absorbed perm r iv p n = Spec.absorbed perm r iv q n
  | 0, _ => rfl
  | n + 1, h => by
    simp only [Spec.absorbed]
    rw [absorbed_congr perm r iv p q n (fun i hi => h i (by omega)), h n (by omega)]

theorem absorbTail_absorbed (perm : List Byte → List Byte) (r : Nat) (hr : 0 < r)
    (iv : List Byte) :
    ∀ (n : Nat) (p : List Byte), p.length = n * r →
      absorbTail perm r iv p = Spec.absorbed perm r iv p n := by
  intro n
  induction n with
  | zero =>
    intro p hp
    have : p = [] := List.eq_nil_of_length_eq_zero (by simpa using hp)
    subst this
    rw [absorbTail_nil]; rfl
  | succ n ih =>
    intro p hp
    have hlt : p.length = n * r + r := by rw [hp]; exact Nat.succ_mul n r
    have e : p = p.take (n * r) ++ p.drop (n * r) := (List.take_append_drop _ _).symm
    have hl1 : (p.take (n * r)).length = n * r := by rw [List.length_take]; omega
    have hl2 : (p.drop (n * r)).length = r := by rw [List.length_drop]; omega
    have hmod : (p.take (n * r)).length % r = 0 := by rw [hl1]; exact Nat.mul_mod_left n r
    conv => lhs; rw [e]
    rw [absorbTail_aligned perm r hr _ _ _ hmod, ih _ hl1, absorbTail_eq perm r hr]
    rw [if_pos (by omega)]
    rw [absorbTail_eq perm r hr, if_neg (by rw [List.length_drop]; omega)]
    have hd : (p.drop (n * r)).drop r = [] := List.drop_of_length_le (by omega)
    rw [hd, xorAt_nil]
    simp only [Spec.absorbed, xorBlock_eq]
    have hc : Spec.absorbed perm r iv (p.take (n * r)) n = Spec.absorbed perm r iv p n := by
      apply absorbed_congr
      intro i hi
      have hir : i * r + r ≤ n * r := by
        have : (i + 1) * r ≤ n * r := Nat.mul_le_mul_right r hi
        rw [Nat.succ_mul] at this; exact this
      unfold block
      rw [List.drop_take, List.take_take]
      congr 1
      omega
    rw [hc]; rfl

theorem pad_length (r : Nat) (hr : 0 < r) (m : List Byte) :
    (Spec.pad r m).length = (m.length / r + 1) * r := by
  have h1 := Nat.div_add_mod m.length r
  have h2 := Nat.mod_lt m.length hr
  have h3 : (m.length / r + 1) * r = r * (m.length / r) + r := by
    rw [Nat.succ_mul, Nat.mul_comm]
  simp only [Spec.pad, List.length_append, List.length_replicate, List.length_cons, List.length_nil]
  omega

theorem padded_state (perm : List Byte → List Byte) (r : Nat) (hr : 0 < r) (iv : List Byte)
    (m : List Byte) :
    perm (xorAt (absorbTail perm r iv m) (m.length % r) [0x01]) =
      Spec.absorbed perm r iv (Spec.pad r m) ((Spec.pad r m).length / r) := by
  have hlen := pad_length r hr m
  rw [hlen, Nat.mul_div_cancel _ hr, ← absorbTail_absorbed perm r hr iv _ _ hlen]
  have hk := Nat.mod_lt m.length hr
  rw [Spec.pad, List.append_assoc,
    absorbTail_big perm r hr m.length _ m _ (Nat.le_refl _) (by simp; omega)]
  have hl : ([0x01] ++ List.replicate (r - m.length % r - 1) (0 : Byte)).length
      = r - m.length % r := by simp; omega
  rw [List.take_of_length_le (by omega), List.drop_of_length_le (by omega), absorbTail_nil,
    xorAt_append, xorAt_zeros]

/-- Output stream starting from the state `s0`. -/
def stream (perm : List Byte → List Byte) (r : Nat) (s0 : List Byte) (k : Nat) : Byte :=
  (iter perm (k / r) s0).getD (k % r) 0

theorem iter_length (perm : List Byte → List Byte) (n : Nat)
    (hp : ∀ s, (perm s).length = n) (s : List Byte) (hs : s.length = n) :
    ∀ k, (iter perm k s).length = n
  | 0 => hs
  | _ + 1 => hp _

theorem squeezeLoop_spec (perm : List Byte → List Byte) (r N : Nat) (hr : 0 < r) (hrN : r ≤ N)
    (hp : ∀ s, (perm s).length = N) (s0 : List Byte) (hs0 : s0.length = N) :
    ∀ (fuel : Nat) (c : Ctx) (dlen k : Nat) (out : List Byte),
      dlen ≤ fuel → c.offset = k % r → c.state = iter perm (k / r) s0 →
      squeezeLoop perm r fuel c dlen out =
        ({ c with offset := (k + dlen) % r, state := iter perm ((k + dlen) / r) s0 },
          out ++ (List.range dlen).map (fun i => stream perm r s0 (k + i))) := by
  intro fuel
  induction fuel with
  | zero =>
    intro c dlen k out hf ho hst
    have : dlen = 0 := by omega
    subst this
    simp [squeezeLoop, ← ho, ← hst]
  | succ n ih =>
    intro c dlen k out hf ho hst
    simp only [squeezeLoop]
    by_cases h0 : dlen = 0
    · subst h0
      simp [← ho, ← hst]
    · simp only [h0, if_false]
      have hk := Nat.mod_lt k hr
      generalize htodo : (if dlen > r - c.offset then r - c.offset else dlen) = todo
      have ht : 0 < todo ∧ todo ≤ dlen ∧ k % r + todo ≤ r := by
        rw [ho] at htodo
        split at htodo <;> omega
      have hlen := iter_length perm N hp s0 hs0 (k / r)
      have hout : extract c.state c.offset todo =
          (List.range todo).map (fun i => stream perm r s0 (k + i)) := by
        rw [hst, extract_eq_map _ _ _ (by rw [hlen, ho]; omega)]
        apply List.map_congr_left
        intro i hi
        rw [List.mem_range] at hi
        obtain ⟨e1, e2⟩ := div_add_lt r k i hr (by omega)
        simp only [stream, e1, e2, ho]
      rw [hout]
      have hoff : (c.offset + todo) % r = (k + todo) % r := by
        rw [ho, Nat.mod_add_mod]
      have hst2 : (if (c.offset + todo) % r = 0 then perm c.state else c.state) =
          iter perm ((k + todo) / r) s0 := by
        have h := Nat.div_add_mod k r
        by_cases hfull : k % r + todo = r
        · have e : k + todo = r * (k / r + 1) := by rw [Nat.mul_add]; omega
          rw [hoff, e, Nat.mul_mod_right, if_pos rfl, Nat.mul_div_cancel_left _ hr, hst]
          rfl
        · obtain ⟨e1, e2⟩ := div_add_lt r k todo hr (by omega)
          rw [hoff, e2, if_neg (by omega), e1, hst]
      have key := ih { c with
          state := if (c.offset + todo) % r = 0 then perm c.state else c.state,
          offset := (c.offset + todo) % r }
        (dlen - todo) (k + todo) (out ++ (List.range todo).map (fun i => stream perm r s0 (k + i)))
        (by omega) hoff hst2
      rw [key]
      have e3 : k + todo + (dlen - todo) = k + dlen := by omega
      simp only [e3, List.append_assoc]
      congr 2
      have e4 : dlen = todo + (dlen - todo) := by omega
      conv => rhs; rw [e4, List.range_add]
      simp [Function.comp_def, Nat.add_assoc]

theorem finals_squeezed (perm : List Byte → List Byte) (r N : Nat) (hr : 0 < r) (hrN : r ≤ N)
    (hp : ∀ s, (perm s).length = N) (s0 : List Byte) (hs0 : s0.length = N) :
    ∀ (ds : List Nat) (c : Ctx) (k : Nat), c.squeezeMore = true → c.offset = k % r →
      c.state = iter perm (k / r) s0 →
      (finals perm r c ds).2.flatten =
        (List.range ds.sum).map (fun i => stream perm r s0 (k + i))
  | [], c, k, _, _, _ => by simp [finals]
  | d :: ds, c, k, hq, ho, hst => by
    have h := squeezeLoop_spec perm r N hr hrN hp s0 hs0 d { c with digestsize := d } d k []
      (Nat.le_refl _) ho hst
    rw [hq] at h
    simp only [finals, squeeze, hq, if_true]
    rw [h]
    simp only [List.flatten_cons, List.nil_append, List.sum_cons]
    rw [finals_squeezed perm r N hr hrN hp s0 hs0 ds _ (k + d) rfl rfl rfl, List.range_add,
      List.map_append, List.map_map]
    simp [Function.comp_def, Nat.add_assoc]

theorem finals_lengths (perm : List Byte → List Byte) (r N : Nat) (hr : 0 < r) (hrN : r ≤ N)
    (hp : ∀ s, (perm s).length = N) (s0 : List Byte) (hs0 : s0.length = N) :
    ∀ (ds : List Nat) (c : Ctx) (k : Nat), c.squeezeMore = true → c.offset = k % r →
      c.state = iter perm (k / r) s0 →
      (finals perm r c ds).2.map List.length = ds
  | [], c, k, _, _, _ => by simp [finals]
  | d :: ds, c, k, hq, ho, hst => by
    have h := squeezeLoop_spec perm r N hr hrN hp s0 hs0 d { c with digestsize := d } d k []
      (Nat.le_refl _) ho hst
    rw [hq] at h
    simp only [finals, squeeze, hq, if_true]
    rw [h]
    simp only [List.map_cons, List.nil_append]
    rw [finals_lengths perm r N hr hrN hp s0 hs0 ds _ (k + d) rfl rfl rfl]
    simp

/-- The padding step only changes where the squeezing starts. -/
theorem finals_pad (perm : List Byte → List Byte) (r : Nat) (c : Ctx) (hq : c.squeezeMore = false)
    (d : Nat) (ds : List Nat) :
    finals perm r c (d :: ds) =
      finals perm r { c with state := perm (xorAt c.state (c.msgLen % r) [0x01]), squeezeMore := true }
        (d :: ds) := by
  simp only [finals, squeeze, hq, Bool.false_eq_true, if_false, if_true]

end LC.AsconHash
