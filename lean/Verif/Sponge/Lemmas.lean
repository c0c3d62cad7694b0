import Verif.Sponge.Spec
/- Helper lemmas for the sponge refinement. -/
namespace LC.Sponge
open Spec

theorem xorAt_length (st : List Byte) (off : Nat) (d : List Byte) :
    (xorAt st off d).length = st.length := by simp [xorAt]

theorem xorAt_nil (st : List Byte) (off : Nat) : xorAt st off [] = st := by
  apply List.ext_getElem <;> simp [xorAt]

theorem xorAt_append (st : List Byte) (off : Nat) (a b : List Byte) :
    xorAt st off (a ++ b) = xorAt (xorAt st off a) (off + a.length) b := by
  apply List.ext_getElem
  · simp [xorAt]
  · intro i h1 h2
    simp only [xorAt, List.getElem_mapIdx]
    by_cases h : off ≤ i
    · by_cases h' : off + a.length ≤ i
      · simp only [h, h', if_true, List.getD_eq_getElem?_getD]
        rw [List.getElem?_append_right (by omega), List.getElem?_eq_none (by omega : a.length ≤ i - off)]
        simp only [Option.getD_none, UInt8.xor_zero]
        congr 3
        omega
      · simp only [h, h', if_true, if_false, List.getD_eq_getElem?_getD]
        rw [List.getElem?_append_left (by omega)]
        simp
    · have h' : ¬ (off + a.length ≤ i) := by omega
      simp [h, h']

theorem xorAt_zeros (st : List Byte) (off n : Nat) :
    xorAt st off (List.replicate n 0) = st := by
  apply List.ext_getElem
  · simp [xorAt]
  · intro i h1 h2
    simp only [xorAt, List.getElem_mapIdx]
    by_cases h : off ≤ i
    · simp only [h, if_true, List.getD_eq_getElem?_getD, List.getElem?_replicate]
      by_cases h3 : i - off < n <;> simp [h3]
    · simp [h]

theorem xorAt_comm_sing (st : List Byte) (i j : Nat) (a b : Byte) :
    xorAt (xorAt st i [a]) j [b] = xorAt (xorAt st j [b]) i [a] := by
  apply List.ext_getElem
  · simp [xorAt]
  · intro k h1 h2
    simp only [xorAt, List.getElem_mapIdx, UInt8.xor_assoc]
    congr 1
    rw [UInt8.xor_comm]

theorem xorAt_same_sing (st : List Byte) (i : Nat) (a b : Byte) :
    xorAt (xorAt st i [a]) i [b] = xorAt st i [a ^^^ b] := by
  apply List.ext_getElem
  · simp [xorAt]
  · intro k h1 h2
    simp only [xorAt, List.getElem_mapIdx, UInt8.xor_assoc]
    congr 1
    by_cases h : i ≤ k
    · simp only [h, if_true, List.getD_eq_getElem?_getD]
      cases hk : k - i <;> simp
    · simp [h]

theorem xorBlock_eq (s b : List Byte) : xorBlock s b = xorAt s 0 b := by
  induction s generalizing b with
  | nil => cases b <;> simp [xorBlock, xorAt]
  | cons x xs ih =>
    cases b with
    | nil => simp [xorBlock, xorAt_nil]
    | cons y ys =>
      simp only [xorBlock, ih]
      simp [xorAt, List.mapIdx_cons]

theorem fullBlocks_fuel (perm : List Byte → List Byte) (r : Nat) (hr : 0 < r) :
    ∀ (f1 f2 : Nat) (st inp : List Byte), inp.length ≤ f1 → inp.length ≤ f2 →
      fullBlocks perm r f1 st inp = fullBlocks perm r f2 st inp := by
  intro f1
  induction f1 with
  | zero =>
    intro f2 st inp h1 h2
    have : inp.length = 0 := by omega
    cases f2 with
    | zero => rfl
    | succ n => simp [fullBlocks, this, Nat.not_le.mpr hr]
  | succ n ih =>
    intro f2 st inp h1 h2
    cases f2 with
    | zero =>
      have : inp.length = 0 := by omega
      simp [fullBlocks, this, Nat.not_le.mpr hr]
    | succ m =>
      simp only [fullBlocks]
      split
      · apply ih <;> simp <;> omega
      · rfl

/-- Unfolding equation of `absorbTail`. -/
theorem absorbTail_eq (perm : List Byte → List Byte) (r : Nat) (hr : 0 < r)
    (st inp : List Byte) :
    absorbTail perm r st inp =
      if r ≤ inp.length then
        absorbTail perm r (perm (xorAt st 0 (inp.take r))) (inp.drop r)
      else xorAt st 0 inp := by
  by_cases h : r ≤ inp.length
  · simp only [h, if_true]
    unfold absorbTail
    have hl : inp.length = (inp.length - 1) + 1 := by omega
    have e : fullBlocks perm r inp.length st inp =
        fullBlocks perm r (inp.drop r).length (perm (xorAt st 0 (inp.take r))) (inp.drop r) := by
      rw [hl]
      simp only [fullBlocks, h, if_true]
      apply fullBlocks_fuel perm r hr <;> simp <;> omega
    rw [e]
  · simp only [h, if_false]
    unfold absorbTail
    have e : fullBlocks perm r inp.length st inp = (st, inp) := by
      cases hi : inp.length with
      | zero => simp [fullBlocks]
      | succ n =>
        simp only [fullBlocks]
        rw [if_neg (by omega)]
    rw [e]

theorem absorbTail_nil (perm : List Byte → List Byte) (r : Nat) (st : List Byte) :
    absorbTail perm r st [] = st := by
  simp [absorbTail, fullBlocks, xorAt_nil]

/-- Appending less than a block's remainder. -/
theorem absorbTail_small (perm : List Byte → List Byte) (r : Nat) (hr : 0 < r) :
    ∀ (n : Nat) (st m inp : List Byte), m.length ≤ n →
      m.length % r + inp.length < r →
      absorbTail perm r st (m ++ inp) = xorAt (absorbTail perm r st m) (m.length % r) inp := by
  intro n
  induction n with
  | zero =>
    intro st m inp hn hk
    have : m = [] := List.eq_nil_of_length_eq_zero (by omega)
    subst this
    simp at hk
    rw [absorbTail_eq perm r hr st ([] ++ inp), absorbTail_eq perm r hr st []]
    simp [Nat.not_le.mpr hk, Nat.not_le.mpr hr, xorAt_nil]
  | succ n ih =>
    intro st m inp hn hk
    by_cases h : r ≤ m.length
    · rw [absorbTail_eq perm r hr st (m ++ inp), absorbTail_eq perm r hr st m]
      have h2 : r ≤ (m ++ inp).length := by simp; omega
      simp only [h, h2, if_true]
      rw [List.take_append_of_le_length h, List.drop_append_of_le_length h]
      have hm : (m.drop r).length % r = m.length % r := by
        rw [List.length_drop]
        exact (Nat.mod_eq_sub_mod h).symm
      rw [← hm]
      apply ih
      · rw [List.length_drop]; omega
      · rw [hm]; exact hk
    · have hm : m.length % r = m.length := Nat.mod_eq_of_lt (by omega)
      rw [hm] at hk ⊢
      rw [absorbTail_eq perm r hr st (m ++ inp), absorbTail_eq perm r hr st m]
      have h2 : ¬ r ≤ (m ++ inp).length := by simp; omega
      simp only [h, h2, if_false]
      rw [xorAt_append]; simp

/-- Appending at least a block's remainder to a message with a partial block. -/
theorem absorbTail_big (perm : List Byte → List Byte) (r : Nat) (hr : 0 < r) :
    ∀ (n : Nat) (st m inp : List Byte), m.length ≤ n →
      r ≤ m.length % r + inp.length →
      absorbTail perm r st (m ++ inp) =
        absorbTail perm r
          (perm (xorAt (absorbTail perm r st m) (m.length % r) (inp.take (r - m.length % r))))
          (inp.drop (r - m.length % r)) := by
  intro n
  induction n with
  | zero =>
    intro st m inp hn hk
    have : m = [] := List.eq_nil_of_length_eq_zero (by omega)
    subst this
    simp at hk
    rw [absorbTail_eq perm r hr st ([] ++ inp), absorbTail_eq perm r hr st []]
    simp [hk, Nat.not_le.mpr hr, xorAt_nil]
  | succ n ih =>
    intro st m inp hn hk
    by_cases h : r ≤ m.length
    · rw [absorbTail_eq perm r hr st (m ++ inp), absorbTail_eq perm r hr st m]
      have h2 : r ≤ (m ++ inp).length := by simp; omega
      simp only [h, h2, if_true]
      rw [List.take_append_of_le_length h, List.drop_append_of_le_length h]
      have hm : (m.drop r).length % r = m.length % r := by
        rw [List.length_drop]
        exact (Nat.mod_eq_sub_mod h).symm
      rw [← hm]
      apply ih
      · rw [List.length_drop]; omega
      · rw [hm]; exact hk
    · have hm : m.length % r = m.length := Nat.mod_eq_of_lt (by omega)
      rw [hm] at hk ⊢
      rw [absorbTail_eq perm r hr st (m ++ inp), absorbTail_eq perm r hr st m]
      have h2 : r ≤ (m ++ inp).length := by simp; omega
      simp only [h, h2, if_true, if_false]
      rw [List.take_append, List.drop_append]
      have e1 : m.take r = m := List.take_of_length_le (by omega)
      have e2 : m.drop r = [] := List.drop_of_length_le (by omega)
      rw [e1, e2, xorAt_append]; simp

/-- Appending to a message that ends on a block boundary. -/
theorem absorbTail_aligned (perm : List Byte → List Byte) (r : Nat) (hr : 0 < r)
    (st m inp : List Byte) (h0 : m.length % r = 0) :
      absorbTail perm r st (m ++ inp) = absorbTail perm r (absorbTail perm r st m) inp := by
  by_cases h : r ≤ inp.length
  · rw [absorbTail_big perm r hr m.length st m inp (Nat.le_refl _) (by omega), h0]
    rw [absorbTail_eq perm r hr _ inp]
    simp [h]
  · rw [absorbTail_small perm r hr m.length st m inp (Nat.le_refl _) (by omega), h0]
    rw [absorbTail_eq perm r hr _ inp]
    simp [h]

/-- Context invariant: after absorbing `m` the state is the one of the one-shot
computation on `m`. -/
def Inv (perm : List Byte → List Byte) (c : Ctx) (m : List Byte) : Prop :=
  c.state = absorbTail perm c.r (List.replicate 200 0) m ∧ c.msgLen = m.length

theorem absorb_inv (perm : List Byte → List Byte) (c : Ctx) (m inp : List Byte)
    (hr : 0 < c.r) (hinv : Inv perm c m) (hlen : m.length + inp.length < 2 ^ 64) :
    Inv perm (absorb perm c inp) (m ++ inp) ∧ (absorb perm c inp).r = c.r ∧
      (absorb perm c inp).offset = c.offset ∧ (absorb perm c inp).padding = c.padding ∧
      (absorb perm c inp).squeezeMore = false ∧
      (absorb perm c inp).digestsize = c.digestsize := by
  obtain ⟨hs, hm⟩ := hinv
  have hmod : (c.msgLen + inp.length) % 2 ^ 64 = m.length + inp.length := by
    rw [hm]; exact Nat.mod_eq_of_lt hlen
  unfold absorb
  rw [hmod]
  by_cases hp : c.msgLen % c.r ≠ 0
  · rw [if_pos hp]
    by_cases hs' : inp.length < c.r - c.msgLen % c.r
    · simp only [hs', if_true]
      refine ⟨⟨?_, by simp⟩, trivial, trivial, trivial, trivial, trivial⟩
      show _ = absorbTail perm c.r _ (m ++ inp)
      rw [absorbTail_small perm c.r hr m.length _ m inp (Nat.le_refl _) (by rw [← hm]; omega), hs, hm]
    · simp only [hs', if_false]
      refine ⟨⟨?_, by simp⟩, trivial, trivial, trivial, trivial, trivial⟩
      show _ = absorbTail perm c.r _ (m ++ inp)
      rw [absorbTail_big perm c.r hr m.length _ m inp (Nat.le_refl _) (by rw [← hm]; omega), hs, hm]
  · rw [if_neg hp]
    refine ⟨⟨?_, by simp⟩, rfl, rfl, rfl, rfl, rfl⟩
    show _ = absorbTail perm c.r _ (m ++ inp)
    rw [absorbTail_aligned perm c.r hr _ m inp (by rw [← hm]; omega), hs]

theorem updates_inv (perm : List Byte → List Byte) (chunks : List (List Byte)) :
    ∀ (c : Ctx) (m : List Byte), 0 < c.r → Inv perm c m →
      m.length + chunks.flatten.length < 2 ^ 64 →
      Inv perm (updates perm c chunks) (m ++ chunks.flatten) ∧
      (updates perm c chunks).r = c.r ∧ (updates perm c chunks).offset = c.offset ∧
      (updates perm c chunks).padding = c.padding ∧
      (c.squeezeMore = false → (updates perm c chunks).squeezeMore = false) ∧
      (updates perm c chunks).digestsize = c.digestsize := by
  induction chunks with
  | nil => intro c m hr hi _; simpa [updates] using hi
  | cons x xs ih =>
    intro c m hr hi hl
    simp only [List.flatten_cons, List.length_append] at hl
    obtain ⟨h1, h2, h3, h4, h5, h6⟩ := absorb_inv perm c m x hr hi (by omega)
    have := ih (absorb perm c x) (m ++ x) (by rw [h2]; exact hr) h1 (by rw [List.length_append]; omega)
    simp only [updates, List.foldl_cons] at this ⊢
    rw [h2, h3, h4, h6] at this
    obtain ⟨g1, g2, g3, g4, g5, g6⟩ := this
    refine ⟨by simpa using g1, g2, g3, g4, fun _ => g5 h5, g6⟩

theorem absorbTail_length (perm : List Byte → List Byte)
    (hp : ∀ s, s.length = 200 → (perm s).length = 200) (r : Nat) (hr : 0 < r) :
    ∀ (n : Nat) (st m : List Byte), m.length ≤ n → st.length = 200 →
      (absorbTail perm r st m).length = 200 := by
  intro n
  induction n with
  | zero =>
    intro st m h1 h2
    rw [absorbTail_eq perm r hr]
    rw [if_neg (by omega), xorAt_length, h2]
  | succ n ih =>
    intro st m h1 h2
    rw [absorbTail_eq perm r hr]
    split
    · apply ih
      · rw [List.length_drop]; omega
      · apply hp; rw [xorAt_length, h2]
    · rw [xorAt_length, h2]

theorem absorbed_congr (perm : List Byte → List Byte) (r : Nat) (p q : List Byte) :
    ∀ n, (∀ i < n, block r p i = block r q i) → absorbed perm r p n = absorbed perm r q n := by
  intro n
  induction n with
  | zero => intro _; rfl
  | succ n ih =>
    intro h
    simp only [absorbed]
    rw [ih (fun i hi => h i (by omega)), h n (by omega)]

/-- On whole blocks, the code's absorbing is the FIPS 202 iteration. -/
theorem absorbTail_absorbed (perm : List Byte → List Byte) (r : Nat) (hr : 0 < r) :
    ∀ (n : Nat) (p : List Byte), p.length = n * r →
      absorbTail perm r (List.replicate 200 0) p = absorbed perm r p n := by
  intro n
  induction n with
  | zero =>
    intro p hp
    have : p = [] := List.eq_nil_of_length_eq_zero (by simpa using hp)
    subst this
    rw [absorbTail_eq perm r hr]
    simp [Nat.not_le.mpr hr, xorAt_nil, absorbed]
  | succ n ih =>
    intro p hp
    have hlt : p.length = n * r + r := by rw [hp]; exact Nat.succ_mul n r
    have e : p = p.take (n * r) ++ p.drop (n * r) := (List.take_append_drop _ _).symm
    have hl1 : (p.take (n * r)).length = n * r := by rw [List.length_take]; omega
    have hl2 : (p.drop (n * r)).length = r := by rw [List.length_drop]; omega
    have hmod : (p.take (n * r)).length % r = 0 := by rw [hl1]; exact Nat.mul_mod_left n r
    conv => lhs; rw [e]
    rw [absorbTail_aligned perm r hr _ _ _ hmod, ih _ hl1, absorbTail_eq perm r hr]
    rw [if_pos (by omega)]
    rw [absorbTail_eq perm r hr, if_neg (by rw [List.length_drop]; omega)]
    have hd : (p.drop (n * r)).drop r = [] := List.drop_of_length_le (by omega)
    rw [hd, xorAt_nil]
    simp only [absorbed, xorBlock_eq]
    have hc : absorbed perm r (p.take (n * r)) n = absorbed perm r p n := by
      apply absorbed_congr
      intro i hi
      have hir : i * r + r ≤ n * r := by
        have : (i + 1) * r ≤ n * r := Nat.mul_le_mul_right r hi
        rw [Nat.succ_mul] at this; exact this
      unfold block
      rw [List.drop_take, List.take_take]
      congr 1
      omega
    rw [hc]; rfl

theorem pad_length (r : Nat) (hr : 0 < r) (sfx : Byte) (m : List Byte) :
    (pad r sfx m).length = (m.length / r + 1) * r := by
  have h1 := Nat.div_add_mod m.length r
  have h2 := Nat.mod_lt m.length hr
  have h3 : (m.length / r + 1) * r = r * (m.length / r) + r := by
    rw [Nat.succ_mul, Nat.mul_comm]
  simp only [pad]
  split <;> simp <;> omega

/-- The padding inserted by the code plus the following permutation absorb the
padded message. -/
theorem padState_spec (perm : List Byte → List Byte) (c : Ctx) (m : List Byte)
    (hr : 0 < c.r) (hinv : Inv perm c m) (hsq : c.squeezeMore = false)
    (hpad : c.padding < 0x80) :
    perm (padState perm c).state =
      absorbed perm c.r (pad c.r c.padding m) ((pad c.r c.padding m).length / c.r) := by
  obtain ⟨hs, hm⟩ := hinv
  have hlen := pad_length c.r hr c.padding m
  rw [hlen, Nat.mul_div_cancel _ hr, ← absorbTail_absorbed perm c.r hr _ _ hlen]
  have hk := Nat.mod_lt m.length hr
  have hnp : ¬ (0x80 ≤ c.padding) := by
    intro h; exact absurd hpad (UInt8.not_lt.mpr h)
  simp only [padState, hsq, hm, hnp, false_and, if_false, Bool.false_eq_true]
  rw [hs]
  unfold pad
  dsimp only
  split
  · rename_i hq
    rw [absorbTail_big perm c.r hr m.length _ m _ (Nat.le_refl _) (by simp; omega)]
    have e1 : c.r - m.length % c.r = 1 := hq
    simp only [e1]
    have e2 : c.r - 1 = m.length % c.r := by omega
    rw [e2, xorAt_same_sing]
    simp only [List.take_succ_cons, List.take_zero, List.drop_succ_cons, List.drop_zero, absorbTail_nil]
  · rename_i hq
    rw [List.append_assoc, List.append_assoc]
    rw [absorbTail_big perm c.r hr m.length _ m _ (Nat.le_refl _) (by simp; omega)]
    have hl : ([c.padding] ++ (List.replicate (c.r - m.length % c.r - 2) (0 : Byte) ++ [0x80])).length
        = c.r - m.length % c.r := by simp; omega
    rw [List.take_of_length_le (by omega), List.drop_of_length_le (by omega)]
    rw [absorbTail_nil]
    rw [xorAt_append, xorAt_append, xorAt_zeros]
    congr 2
    simp; omega

theorem iter_length (perm : List Byte → List Byte)
    (hp : ∀ s, s.length = 200 → (perm s).length = 200) (s : List Byte) (hs : s.length = 200) :
    ∀ n, (iter perm n s).length = 200 := by
  intro n
  induction n with
  | zero => exact hs
  | succ n ih => exact hp _ ih

/-- `k`-th output byte when the squeezing starts from the padded state `s0`. -/
def stream (perm : List Byte → List Byte) (r : Nat) (s0 : List Byte) (k : Nat) : Byte :=
  (iter perm (k / r + 1) s0).getD (k % r) 0

theorem extract_eq_map (s : List Byte) (off len : Nat) (h : off + len ≤ s.length) :
    extract s off len = (List.range len).map (fun i => s.getD (off + i) 0) := by
  apply List.ext_getElem
  · simp [extract]; omega
  · intro i h1 h2
    simp [extract] at h1 h2 ⊢
    rw [List.getElem?_eq_getElem (by omega)]
    rfl

theorem div_add_lt (r k i : Nat) (hr : 0 < r) (h : k % r + i < r) :
    (k + i) / r = k / r ∧ (k + i) % r = k % r + i := by
  have e : k + i = r * (k / r) + (k % r + i) := by
    have := Nat.div_add_mod k r; omega
  constructor
  · rw [e, Nat.mul_add_div hr, Nat.div_eq_of_lt h]; rfl
  · rw [e, Nat.mul_add_mod, Nat.mod_eq_of_lt h]

theorem div_helper (r q s : Nat) (h : s < r) : (r * q + s) / r = q := by
  rw [Nat.mul_add_div (by omega), Nat.div_eq_of_lt h]; rfl

theorem ceil_eq (r k : Nat) (hr : 0 < r) :
    (k + r - 1) / r = if k % r = 0 then k / r else k / r + 1 := by
  have h := Nat.div_add_mod k r
  have h2 := Nat.mod_lt k hr
  split
  · rename_i h0
    have e : k + r - 1 = r * (k / r) + (r - 1) := by omega
    rw [e]; exact div_helper _ _ _ (by omega)
  · rename_i h0
    have e : k + r - 1 = r * (k / r + 1) + (k % r - 1) := by
      rw [Nat.mul_add]; omega
    rw [e]; exact div_helper _ _ _ (by omega)

/-- The squeeze loop continues the output stream at position `k`. -/
theorem squeezeLoop_spec (perm : List Byte → List Byte)
    (hp : ∀ s, s.length = 200 → (perm s).length = 200) (s0 : List Byte) (hs0 : s0.length = 200) :
    ∀ (fuel : Nat) (c : Ctx) (dlen k : Nat) (out : List Byte),
      0 < c.r → c.r ≤ 200 → dlen ≤ fuel → c.offset = k % c.r →
      c.state = iter perm ((k + c.r - 1) / c.r) s0 →
      squeezeLoop perm fuel c dlen out =
        ({ c with offset := (k + dlen) % c.r, state := iter perm ((k + dlen + c.r - 1) / c.r) s0 },
          out ++ (List.range dlen).map (fun i => stream perm c.r s0 (k + i))) := by
  intro fuel
  induction fuel with
  | zero =>
    intro c dlen k out hr hr2 hf ho hst
    have : dlen = 0 := by omega
    subst this
    simp [squeezeLoop, ← ho, ← hst]
  | succ n ih =>
    intro c dlen k out hr hr2 hf ho hst
    simp only [squeezeLoop]
    by_cases h0 : dlen = 0
    · subst h0
      simp [← ho, ← hst]
    · simp only [h0, if_false]
      have hk := Nat.mod_lt k hr
      generalize htodo : (if dlen > c.r - c.offset then c.r - c.offset else dlen) = todo
      have ht : 0 < todo ∧ todo ≤ dlen ∧ k % c.r + todo ≤ c.r := by
        rw [ho] at htodo
        split at htodo <;> omega
      -- the state used for extraction
      have hst' : (if c.offset = 0 then perm c.state else c.state) = iter perm (k / c.r + 1) s0 := by
        rw [hst, ceil_eq c.r k hr, ho]
        split <;> simp_all [iter]
      rw [hst']
      have hlen := iter_length perm hp s0 hs0 (k / c.r + 1)
      have hout : extract (iter perm (k / c.r + 1) s0) c.offset todo =
          (List.range todo).map (fun i => stream perm c.r s0 (k + i)) := by
        rw [extract_eq_map _ _ _ (by rw [hlen, ho]; omega)]
        apply List.map_congr_left
        intro i hi
        rw [List.mem_range] at hi
        obtain ⟨e1, e2⟩ := div_add_lt c.r k i hr (by omega)
        simp only [stream, e1, e2, ho]
      rw [hout]
      have hoff : (c.offset + todo) % c.r = (k + todo) % c.r := by
        rw [ho, Nat.mod_add_mod]
      have hst2 : iter perm (k / c.r + 1) s0 = iter perm ((k + todo + c.r - 1) / c.r) s0 := by
        congr 1
        have h := Nat.div_add_mod k c.r
        have e : k + todo + c.r - 1 = c.r * (k / c.r + 1) + (k % c.r + todo - 1) := by
          rw [Nat.mul_add]; omega
        rw [e]; exact (div_helper _ _ _ (by omega)).symm
      have key := ih { c with state := iter perm (k / c.r + 1) s0, offset := (c.offset + todo) % c.r }
        (dlen - todo) (k + todo) (out ++ (List.range todo).map (fun i => stream perm c.r s0 (k + i)))
        hr hr2 (by omega) hoff hst2
      rw [key]
      have e3 : k + todo + (dlen - todo) = k + dlen := by omega
      simp only [e3, List.append_assoc]
      congr 2
      have e4 : dlen = todo + (dlen - todo) := by omega
      conv => rhs; rw [e4, List.range_add]
      simp [Function.comp_def, Nat.add_assoc]

end LC.Sponge
