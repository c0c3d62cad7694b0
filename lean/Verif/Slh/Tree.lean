import Verif.Slh.Model

/-!
C62: the iterative tree hash computes the Merkle root and the authentication path of the selected leaf, and
`compute_root` of that leaf and path is the root.  For every height, every leaf generator, every hash.
-/
namespace LC.Slh

/-! ### Specification -/
namespace Spec

/-- The address of a node: the base address with the height of the node and its number in the layer. -/
def nodeAddr (base : Addr) (h i : Nat) : Addr := setIndex (setHeight base h) i

/-- A Merkle tree: leaf `i` at height 0, the hash of the two children above.  `off` is the number of the first leaf
(so the tree is one of several neighbours, as in FORS). -/
def node (T : List Byte → List Byte → List Byte → Node) (pub : List Byte) (base : Addr) (off : Nat)
    (leaf : Nat → Node) : (h i : Nat) → Node
  | 0, i => leaf (i + off)
  | h + 1, i => T pub (abytes (nodeAddr base (h + 1) (i + off / 2 ^ (h + 1))))
      (node T pub base off leaf h (2 * i) ++ node T pub base off leaf h (2 * i + 1))

/-- The sibling of node `i`. -/
def sibling (i : Nat) : Nat := if i % 2 = 0 then i + 1 else i - 1

end Spec

open Spec (node nodeAddr sibling)

/-! ### Lemmas -/

theorem xor_one (i : Nat) : i ^^^ 1 = sibling i := by
  have h : (i ^^^ 1) / 2 = i / 2 := by
    rw [Nat.xor_div_two]; simp
  have h2 : (i ^^^ 1) % 2 = (i + 1) % 2 := by
    have := Nat.xor_mod_two_eq_one (a := i) (b := 1)
    omega
  unfold sibling
  split <;> omega

theorem xor_eq_one (i j : Nat) : i ^^^ j = 1 ↔ i = sibling j := by
  constructor
  · intro h
    rw [← xor_one, ← h, Nat.xor_comm i j, ← Nat.xor_assoc, Nat.xor_self, Nat.zero_xor]
  · rintro rfl
    rw [← xor_one, Nat.xor_comm, ← Nat.xor_assoc, Nat.xor_self, Nat.zero_xor]

theorem cmov_eq (r x : List Byte) (b : Bool) (h : r.length = x.length) : cmov r x b = if b = true then x else r := by
  unfold cmov
  induction r generalizing x with
  | nil =>
    cases x with
    | nil => simp
    | cons y ys => cases h
  | cons a r ih =>
    cases x with
    | nil => cases h
    | cons y ys =>
      have ih := ih ys (by simpa using h)
      dsimp only at ih ⊢
      rw [List.zipWith_cons_cons, ih]
      cases b
      · simp
      · rw [if_pos rfl, if_pos rfl]
        congr 1
        have e : (0 - 1 : Byte) = 255 := by decide
        rw [e]
        rw [← UInt8.toBitVec_inj]
        rw [UInt8.toBitVec_xor, UInt8.toBitVec_and, UInt8.toBitVec_xor,
          show (255 : UInt8).toBitVec = BitVec.allOnes 8 by decide, BitVec.allOnes_and, ← BitVec.xor_assoc,
          BitVec.xor_self, BitVec.zero_xor]

theorem cmov_length (r x : List Byte) (b : Bool) (h : r.length = x.length) : (cmov r x b).length = r.length := by
  rw [cmov_eq r x b h]; split
  · exact h.symm
  · rfl

/-- Two addresses that agree outside the bytes for height and index. -/
def Agree (a b : Addr) : Prop := ∀ i, (i < 27 ∨ 32 ≤ i) → a i = b i

theorem Agree.refl (a : Addr) : Agree a a := fun _ _ => rfl

theorem Agree.nodeAddr {a b : Addr} (h : Agree a b) (x y : Nat) : nodeAddr a x y = nodeAddr b x y := by
  funext i
  unfold Spec.nodeAddr setIndex setBe32 setHeight setAt
  repeat' split
  all_goals first
    | rfl
    | exact h i (by omega)

theorem agree_nodeAddr (a : Addr) (x y : Nat) : Agree (nodeAddr a x y) a := by
  intro i hi
  unfold Spec.nodeAddr setIndex setBe32 setHeight setAt
  rw [if_neg (by omega), if_neg (by omega), if_neg (by omega), if_neg (by omega), if_neg (by omega)]

theorem Agree.trans {a b c : Addr} (h : Agree a b) (g : Agree b c) : Agree a c := fun i hi => (h i hi).trans (g i hi)

theorem succ_div_of_dvd {x m : Nat} (hm : 0 < m) (h : (x + 1) % m = 0) : (x + 1) / m = x / m + 1 := by
  obtain ⟨k, hk⟩ := Nat.dvd_of_mod_eq_zero h
  have hk0 : 0 < k := by
    rcases Nat.eq_zero_or_pos k with h0 | h0
    · subst h0; simp at hk
    · exact h0
  obtain ⟨j, rfl⟩ : ∃ j, k = j + 1 := ⟨k - 1, by omega⟩
  rw [hk, Nat.mul_div_cancel_left _ hm]
  have hx : x = (m - 1) + m * j := by
    rw [Nat.mul_add] at hk; omega
  rw [hx, Nat.add_mul_div_left _ _ hm, Nat.div_eq_of_lt (by omega)]; omega

theorem succ_div_of_not {x m : Nat} (hm : 0 < m) (h : (x + 1) % m ≠ 0) : (x + 1) / m = x / m := by
  have h1 := Nat.div_add_mod (x + 1) m
  have h3 := Nat.mod_lt (x + 1) hm
  have e : x = ((x + 1) % m - 1) + m * ((x + 1) / m) := by omega
  generalize (x + 1) / m = q at e ⊢
  generalize (x + 1) % m = t at e h h3
  rw [e, Nat.add_mul_div_left _ _ hm, Nat.div_eq_of_lt (by omega)]; omega

theorem mod_pow_succ (x h : Nat) : x % 2 ^ (h + 1) = 0 ↔ x % 2 ^ h = 0 ∧ x / 2 ^ h % 2 = 0 := by
  rw [Nat.pow_succ, Nat.mod_mul]
  constructor
  · intro e
    have := Nat.eq_zero_of_add_eq_zero e
    refine ⟨this.1, ?_⟩
    rcases Nat.mul_eq_zero.1 this.2 with h0 | h0
    · exact absurd h0 (Nat.pos_iff_ne_zero.1 (Nat.two_pow_pos h))
    · exact h0
  · rintro ⟨a, b⟩
    rw [a, b]; simp

theorem mod_pow_le {x g h : Nat} (hg : g ≤ h) (e : x % 2 ^ h = 0) : x % 2 ^ g = 0 :=
  Nat.mod_eq_zero_of_dvd (Nat.dvd_trans (Nat.pow_dvd_pow 2 hg) (Nat.dvd_of_mod_eq_zero e))

section
variable {I : Type} (T : List Byte → List Byte → List Byte → Node) (pub : List Byte) (base : Addr)
  (off : Nat) (leaf : Nat → Node) (n H leafIdx : Nat)

local notation "N" => node T pub base off leaf

theorem node_length (hT : ∀ a x, (T pub a x).length = n) (hl : ∀ i, (leaf i).length = n) (h i : Nat) :
    (N h i).length = n := by
  cases h with
  | zero => exact hl _
  | succ h => exact hT _ _

/-- The stack: at each height where the number of finished leaves has a one bit, the finished left sibling. -/
def Good (idx : Nat) (stack : Nat → Node) : Prop :=
  ∀ h < H, idx / 2 ^ h % 2 = 1 → stack h = N h (idx / 2 ^ h - 1)

/-- The authentication path after `idx` leaves on all levels, `idx + 1` leaves on the levels below `b`. -/
def AuthOk (b idx : Nat) (auth : Nat → Node) : Prop :=
  ∀ h < H, (sibling (leafIdx / 2 ^ h) + 1) * 2 ^ h ≤ idx + (if h < b then 1 else 0) →
    auth h = N h (sibling (leafIdx / 2 ^ h))

theorem climb_spec (hT : ∀ a x, (T pub a x).length = n) (hl : ∀ i, (leaf i).length = n) (idx : Nat) (hidx : idx < 2 ^ H) :
    ∀ (r h : Nat) (st : TH I), r + h = H → (idx + 1) % 2 ^ h = 0 →
      Good T pub base off leaf H idx st.stack → AuthOk T pub base off leaf H leafIdx h idx st.auth → Agree st.addr base →
      (∀ g < H, (st.auth g).length = n) →
      let c := climb T pub idx (2 ^ H - 1) r h (idx / 2 ^ h) (leafIdx / 2 ^ h) (off / 2 ^ h) (N h (idx / 2 ^ h)) st
      (if idx + 1 = 2 ^ H then c.1 = some (N H 0) else c.1 = none) ∧
      Good T pub base off leaf H (idx + 1) c.2.stack ∧ AuthOk T pub base off leaf H leafIdx 0 (idx + 1) c.2.auth ∧
      Agree c.2.addr base ∧ (∀ g < H, (c.2.auth g).length = n) ∧ c.2.info = st.info := by
  intro r
  induction r with
  | zero =>
    intro h st hr hm hG hA hag hlen
    obtain rfl : h = H := by omega
    have e : idx + 1 = 2 ^ h := by
      have := Nat.le_of_dvd (by omega) (Nat.dvd_of_mod_eq_zero hm)
      omega
    refine ⟨?_, ?_, ?_, hag, hlen, rfl⟩
    · rw [if_pos e]
      show some _ = _
      rw [Nat.div_eq_of_lt hidx]
    · intro g hg ho
      have := mod_pow_le (Nat.succ_le_of_lt hg) hm
      rw [mod_pow_succ] at this
      omega
    · intro g hg hs
      exact hA g hg (by rw [if_pos hg]; simpa using hs)
  | succ r ih =>
    intro h st hr hm hG hA hag hlen
    have hh : h < H := by omega
    have hp := Nat.two_pow_pos h
    have hd := succ_div_of_dvd hp hm
    have hcl := node_length T pub base off leaf n hT hl h (idx / 2 ^ h)
    -- the authentication path
    have hA' : AuthOk T pub base off leaf H leafIdx (h + 1) idx
        (upd st.auth h (cmov (st.auth h) (N h (idx / 2 ^ h)) ((idx / 2 ^ h ^^^ leafIdx / 2 ^ h) = 1))) := by
      intro g hg hs
      unfold upd
      by_cases e : g = h
      · subst e
        rw [if_pos rfl, cmov_eq _ _ _ (by rw [hcl, hlen g hg])]
        rw [if_pos (Nat.lt_succ_self g)] at hs
        by_cases c : idx / 2 ^ g = sibling (leafIdx / 2 ^ g)
        · rw [if_pos (by simpa using (xor_eq_one _ _).2 c), c]
        · rw [if_neg (by simpa using fun e => c ((xor_eq_one _ _).1 e))]
          apply hA g hg
          rw [if_neg (Nat.lt_irrefl g)]
          rcases Nat.lt_or_ge idx ((sibling (leafIdx / 2 ^ g) + 1) * 2 ^ g) with hlt | hge
          · exfalso
            apply c
            have : (idx + 1) / 2 ^ g = sibling (leafIdx / 2 ^ g) + 1 := by
              rw [show idx + 1 = (sibling (leafIdx / 2 ^ g) + 1) * 2 ^ g by omega, Nat.mul_div_cancel _ hp]
            omega
          · omega
      · rw [if_neg e]
        apply hA g hg
        by_cases c : g < h
        · rw [if_pos c]; rw [if_pos (by omega)] at hs; exact hs
        · rw [if_neg c]; rw [if_neg (by omega)] at hs; exact hs
    have hlen' : ∀ g < H, (upd st.auth h (cmov (st.auth h) (N h (idx / 2 ^ h)) ((idx / 2 ^ h ^^^ leafIdx / 2 ^ h) = 1)) g).length = n := by
      intro g hg
      unfold upd
      split
      · rw [cmov_length _ _ _ (by rw [hcl, hlen h hh]), hlen h hh]
      · exact hlen g hg
    unfold climb
    dsimp only
    by_cases hs : idx / 2 ^ h % 2 = 0 ∧ idx < 2 ^ H - 1
    · rw [if_pos hs]
      have hnd : ∀ g, h < g → (idx + 1) % 2 ^ g ≠ 0 := by
        intro g hg e
        have := mod_pow_le (Nat.succ_le_of_lt hg) e
        rw [mod_pow_succ, hd] at this
        omega
      refine ⟨?_, ?_, ?_, hag, hlen', rfl⟩
      · rw [if_neg (by omega)]
      · intro g hg ho
        show upd st.stack h _ g = _
        unfold upd
        rcases Nat.lt_trichotomy g h with hlt | rfl | hgt
        · have := mod_pow_le (Nat.succ_le_of_lt hlt) hm
          rw [mod_pow_succ] at this
          omega
        · rw [if_pos rfl, hd]; rfl
        · rw [if_neg (by omega), succ_div_of_not (Nat.two_pow_pos g) (hnd g hgt)]
          apply hG g hg
          rw [succ_div_of_not (Nat.two_pow_pos g) (hnd g hgt)] at ho
          exact ho
      · intro g hg hs'
        apply hA' g hg
        by_cases c : g < h + 1
        · rw [if_pos c]; simpa using hs'
        · rw [if_neg c]
          rw [if_neg (Nat.not_lt_zero g)] at hs'
          have h2 : (sibling (leafIdx / 2 ^ g) + 1) * 2 ^ g ≠ idx + 1 := by
            intro e
            apply hnd g (by omega)
            rw [← e, Nat.mul_mod_left]
          omega
    · rw [if_neg hs]
      have hodd : idx / 2 ^ h % 2 = 1 := by
        by_cases c : idx / 2 ^ h % 2 = 0
        · have e : idx + 1 = 2 ^ H := by omega
          exfalso
          have : (idx + 1) % 2 ^ (h + 1) = 0 := by
            rw [e]; exact Nat.mod_eq_zero_of_dvd (Nat.pow_dvd_pow 2 (by omega))
          rw [mod_pow_succ, hd] at this
          omega
        · omega
      have hm' : (idx + 1) % 2 ^ (h + 1) = 0 := by
        rw [mod_pow_succ, hd]; exact ⟨hm, by omega⟩
      have e1 : idx / 2 ^ h / 2 = idx / 2 ^ (h + 1) := by rw [Nat.div_div_eq_div_mul, Nat.pow_succ]
      have e2 : leafIdx / 2 ^ h / 2 = leafIdx / 2 ^ (h + 1) := by rw [Nat.div_div_eq_div_mul, Nat.pow_succ]
      have e3 : off / 2 ^ h / 2 = off / 2 ^ (h + 1) := by rw [Nat.div_div_eq_div_mul, Nat.pow_succ]
      have e4 : T pub (abytes (setIndex (setHeight st.addr (h + 1)) (idx / 2 ^ h / 2 + off / 2 ^ h / 2)))
          (st.stack h ++ N h (idx / 2 ^ h)) = N (h + 1) (idx / 2 ^ (h + 1)) := by
        show T pub (abytes (nodeAddr st.addr (h + 1) _)) _ = T pub (abytes (nodeAddr base (h + 1) _)) _
        rw [hag.nodeAddr, hG h hh hodd, e1, e3]
        rw [show 2 * (idx / 2 ^ (h + 1)) = idx / 2 ^ h - 1 by
          rw [← e1]; generalize idx / 2 ^ h = q at hodd; omega]
        rw [show idx / 2 ^ h - 1 + 1 = idx / 2 ^ h by generalize idx / 2 ^ h = q at hodd; omega]
      rw [e4, e1, e2, e3]
      exact ih (h + 1) _ (by omega) hm' hG hA' ((agree_nodeAddr _ _ _).trans hag) hlen'

theorem thLoop_spec (hT : ∀ a x, (T pub a x).length = n) (hl : ∀ i, (leaf i).length = n)
    (gen : Nat → I → Node × I) (P : Nat → I → Prop)
    (hgen : ∀ i < 2 ^ H, ∀ s, P i s → (gen (i + off) s).1 = leaf (i + off) ∧ P (i + 1) (gen (i + off) s).2) :
    ∀ (cnt idx : Nat) (st : TH I), cnt + idx = 2 ^ H → 0 < cnt →
      Good T pub base off leaf H idx st.stack → AuthOk T pub base off leaf H leafIdx 0 idx st.auth → Agree st.addr base →
      (∀ g < H, (st.auth g).length = n) → P idx st.info →
      let c := thLoop T pub leafIdx off H gen cnt idx st
      c.1 = some (N H 0) ∧ AuthOk T pub base off leaf H leafIdx 0 (2 ^ H) c.2.auth ∧ Agree c.2.addr base ∧
      P (2 ^ H) c.2.info ∧ (∀ g < H, (c.2.auth g).length = n) := by
  intro cnt
  induction cnt with
  | zero => intro idx st _ h; omega
  | succ cnt ih =>
    intro idx st hc _ hG hA hag hlen hP
    have hg := hgen idx (by omega) st.info hP
    have hcs := climb_spec (I := I) T pub base off leaf n H leafIdx hT hl idx (by omega) H 0
      { st with info := (gen (idx + off) st.info).2 } (by omega) (Nat.mod_one _) hG hA hag hlen
    unfold thLoop
    dsimp only at hcs ⊢
    rw [Nat.pow_zero, Nat.div_one, Nat.div_one, Nat.div_one] at hcs
    rw [hg.1]
    change (if idx + 1 = 2 ^ H then (climb T pub idx (2 ^ H - 1) H 0 idx leafIdx off (leaf (idx + off)) _).1 = some (N H 0)
      else (climb T pub idx (2 ^ H - 1) H 0 idx leafIdx off (leaf (idx + off)) _).1 = none) ∧
      Good T pub base off leaf H (idx + 1) (climb T pub idx (2 ^ H - 1) H 0 idx leafIdx off (leaf (idx + off)) _).2.stack ∧
      AuthOk T pub base off leaf H leafIdx 0 (idx + 1) (climb T pub idx (2 ^ H - 1) H 0 idx leafIdx off (leaf (idx + off)) _).2.auth ∧
      Agree (climb T pub idx (2 ^ H - 1) H 0 idx leafIdx off (leaf (idx + off)) _).2.addr base ∧
      (∀ g < H, ((climb T pub idx (2 ^ H - 1) H 0 idx leafIdx off (leaf (idx + off)) _).2.auth g).length = n) ∧
      (climb T pub idx (2 ^ H - 1) H 0 idx leafIdx off (leaf (idx + off)) _).2.info = _ at hcs
    generalize climb T pub idx (2 ^ H - 1) H 0 idx leafIdx off (leaf (idx + off))
      { st with info := (gen (idx + off) st.info).2 } = c at hcs ⊢
    obtain ⟨h1, h2, h3, h4, h5, h6⟩ := hcs
    by_cases e : idx + 1 = 2 ^ H
    · rw [if_pos e] at h1
      rw [h1]
      refine ⟨rfl, ?_, h4, ?_, h5⟩
      · rw [← e]; exact h3
      · show P _ c.2.info
        rw [h6, ← e]; exact hg.2
    · rw [if_neg e] at h1
      rw [h1]
      exact ih (idx + 1) c.2 (by omega) (by omega) h2 h3 h4 h5 (by rw [h6]; exact hg.2)

/-- **C62 (treehash)**: the root, the authentication path and the final state of the leaf generator. -/
theorem treehash_spec (hT : ∀ a x, (T pub a x).length = n) (hl : ∀ i, (leaf i).length = n)
    (gen : Nat → I → Node × I) (P : Nat → I → Prop)
    (hgen : ∀ i < 2 ^ H, ∀ s, P i s → (gen (i + off) s).1 = leaf (i + off) ∧ P (i + 1) (gen (i + off) s).2)
    (st : TH I) (hag : Agree st.addr base) (hlen : ∀ g < H, (st.auth g).length = n) (hP : P 0 st.info) :
    (treehash T pub leafIdx off H gen st).1 = some (N H 0) ∧
    (leafIdx < 2 ^ H → ∀ h < H, (treehash T pub leafIdx off H gen st).2.auth h = N h (sibling (leafIdx / 2 ^ h))) ∧
    Agree (treehash T pub leafIdx off H gen st).2.addr base ∧
    P (2 ^ H) (treehash T pub leafIdx off H gen st).2.info ∧
    (∀ g < H, ((treehash T pub leafIdx off H gen st).2.auth g).length = n) := by
  have hs := thLoop_spec (I := I) T pub base off leaf n H leafIdx hT hl gen P hgen (2 ^ H) 0 st (by omega)
    (Nat.two_pow_pos H) (by intro h _ ho; rw [Nat.zero_div] at ho; omega)
    (by
      intro h _ ho
      have := Nat.two_pow_pos h
      rw [if_neg (Nat.not_lt_zero h), Nat.le_zero, Nat.mul_eq_zero] at ho
      omega) hag hlen hP
  refine ⟨hs.1, ?_, hs.2.2⟩
  intro hlt h hh
  apply hs.2.1 h hh
  rw [if_neg (Nat.not_lt_zero h), Nat.add_zero]
  have e : 2 ^ H = 2 ^ (H - h) * 2 ^ h := by rw [← Nat.pow_add]; congr 1; omega
  rw [e]
  apply Nat.mul_le_mul_right
  have hq : leafIdx / 2 ^ h < 2 ^ (H - h) := Nat.div_lt_of_lt_mul (by rw [Nat.mul_comm, ← e]; exact hlt)
  have e2 : 2 ^ (H - h) = 2 ^ (H - h - 1) * 2 := by rw [← Nat.pow_succ]; congr 1; omega
  generalize leafIdx / 2 ^ h = q at hq
  generalize 2 ^ (H - h - 1) = z at e2
  rw [e2] at hq ⊢
  unfold sibling
  split <;> omega

/-! ### compute_root -/

theorem crLoop_spec (auth : Nat → Node) :
    ∀ (cnt i : Nat) (addr : Addr), Agree addr base →
      (∀ h, h ≤ i + cnt → auth h = N h (sibling (leafIdx / 2 ^ h))) →
      let c := crLoop T pub auth cnt i (leafIdx / 2 ^ i) (off / 2 ^ i)
        (N i (2 * (leafIdx / 2 ^ i / 2)), N i (2 * (leafIdx / 2 ^ i / 2) + 1)) addr
      c.1 = (N (i + cnt) (2 * (leafIdx / 2 ^ (i + cnt) / 2)), N (i + cnt) (2 * (leafIdx / 2 ^ (i + cnt) / 2) + 1)) ∧
      Agree c.2.1 base ∧ c.2.2 = (leafIdx / 2 ^ (i + cnt), off / 2 ^ (i + cnt)) := by
  intro cnt
  induction cnt with
  | zero => intro i addr hag _; exact ⟨rfl, hag, rfl⟩
  | succ cnt ih =>
    intro i addr hag hau
    have e2 : leafIdx / 2 ^ i / 2 = leafIdx / 2 ^ (i + 1) := by rw [Nat.div_div_eq_div_mul, Nat.pow_succ]
    have e3 : off / 2 ^ i / 2 = off / 2 ^ (i + 1) := by rw [Nat.div_div_eq_div_mul, Nat.pow_succ]
    have := ih (i + 1) (setIndex (setHeight addr (i + 1)) (leafIdx / 2 ^ (i + 1) + off / 2 ^ (i + 1)))
      ((agree_nodeAddr _ _ _).trans hag) (fun h hh => hau h (by omega))
    unfold crLoop
    dsimp only
    rw [e2, e3]
    have e4 : T pub (abytes (setIndex (setHeight addr (i + 1)) (leafIdx / 2 ^ (i + 1) + off / 2 ^ (i + 1))))
        (N i (2 * (leafIdx / 2 ^ (i + 1))) ++ N i (2 * (leafIdx / 2 ^ (i + 1)) + 1)) = N (i + 1) (leafIdx / 2 ^ (i + 1)) := by
      show T pub (abytes (nodeAddr addr (i + 1) _)) _ = T pub (abytes (nodeAddr base (i + 1) _)) _
      rw [hag.nodeAddr]
    rw [e4, hau (i + 1) (by omega)]
    have e5 : (if leafIdx / 2 ^ (i + 1) % 2 = 1 then (N (i + 1) (sibling (leafIdx / 2 ^ (i + 1))), N (i + 1) (leafIdx / 2 ^ (i + 1)))
        else (N (i + 1) (leafIdx / 2 ^ (i + 1)), N (i + 1) (sibling (leafIdx / 2 ^ (i + 1))))) =
        (N (i + 1) (2 * (leafIdx / 2 ^ (i + 1) / 2)), N (i + 1) (2 * (leafIdx / 2 ^ (i + 1) / 2) + 1)) := by
      unfold sibling
      generalize leafIdx / 2 ^ (i + 1) = q
      rcases Nat.mod_two_eq_zero_or_one q with hq | hq
      · rw [if_neg (by omega), if_pos hq, show 2 * (q / 2) = q by omega]
      · rw [if_pos hq, if_neg (by omega), show 2 * (q / 2) = q - 1 by omega, show q - 1 + 1 = q by omega]
    rw [e5]
    rw [show i + (cnt + 1) = i + 1 + cnt by omega]
    exact this

/-- **C62 (compute_root)**: the leaf and its authentication path give the root. -/
theorem computeRoot_spec (hH : 0 < H) (hlt : leafIdx < 2 ^ H) (auth : Nat → Node) (addr : Addr) (hag : Agree addr base)
    (hau : ∀ h < H, auth h = N h (sibling (leafIdx / 2 ^ h))) :
    (computeRoot T pub (leaf (leafIdx + off)) leafIdx off auth H addr).1 = N H 0 ∧
    Agree (computeRoot T pub (leaf (leafIdx + off)) leafIdx off auth H addr).2 base := by
  have h0 := crLoop_spec T pub base off leaf leafIdx auth (H - 1) 0 addr hag (fun h hh => hau h (by omega))
  unfold computeRoot
  dsimp only at h0 ⊢
  rw [Nat.pow_zero, Nat.div_one, Nat.div_one, show 0 + (H - 1) = H - 1 by omega] at h0
  have e5 : (if leafIdx % 2 = 1 then (auth 0, leaf (leafIdx + off)) else (leaf (leafIdx + off), auth 0)) =
      (N 0 (2 * (leafIdx / 2)), N 0 (2 * (leafIdx / 2) + 1)) := by
    rw [hau 0 hH, Nat.pow_zero, Nat.div_one]
    unfold sibling
    rcases Nat.mod_two_eq_zero_or_one leafIdx with hq | hq
    · rw [if_neg (by omega), if_pos hq, show 2 * (leafIdx / 2) = leafIdx by omega]; rfl
    · rw [if_pos hq, if_neg (by omega), show 2 * (leafIdx / 2) = leafIdx - 1 by omega,
        show leafIdx - 1 + 1 = leafIdx by omega]; rfl
  rw [e5]
  generalize crLoop T pub auth (H - 1) 0 leafIdx off (N 0 (2 * (leafIdx / 2)), N 0 (2 * (leafIdx / 2) + 1)) addr = c at h0 ⊢
  obtain ⟨h1, h2, h3⟩ := h0
  rw [h1, h3]
  dsimp only
  obtain ⟨G, rfl⟩ : ∃ G, H = G + 1 := ⟨H - 1, by omega⟩
  rw [show G + 1 - 1 = G by omega]
  have e2 : leafIdx / 2 ^ G / 2 = 0 := by
    rw [Nat.div_div_eq_div_mul, ← Nat.pow_succ]; exact Nat.div_eq_of_lt hlt
  have e3 : off / 2 ^ G / 2 = off / 2 ^ (G + 1) := by rw [Nat.div_div_eq_div_mul, Nat.pow_succ]
  rw [e2, e3]
  refine ⟨?_, (agree_nodeAddr _ _ _).trans h2⟩
  show T pub (abytes (nodeAddr c.2.1 (G + 1) _)) _ = T pub (abytes (nodeAddr base (G + 1) _)) _
  rw [h2.nodeAddr]

/-- **C62**: the root recomputed from a leaf and the path that treehash emits for it is the root that treehash emits. -/
theorem path_leads_to_root (hT : ∀ a x, (T pub a x).length = n) (hl : ∀ i, (leaf i).length = n)
    (gen : Nat → I → Node × I) (P : Nat → I → Prop)
    (hgen : ∀ i < 2 ^ H, ∀ s, P i s → (gen (i + off) s).1 = leaf (i + off) ∧ P (i + 1) (gen (i + off) s).2)
    (st : TH I) (hag : Agree st.addr base) (hlen : ∀ g < H, (st.auth g).length = n) (hP : P 0 st.info)
    (hH : 0 < H) (hlt : leafIdx < 2 ^ H) (addr : Addr) (hag' : Agree addr base) :
    some (computeRoot T pub (leaf (leafIdx + off)) leafIdx off (treehash T pub leafIdx off H gen st).2.auth H addr).1 =
      (treehash T pub leafIdx off H gen st).1 := by
  have h := treehash_spec (I := I) T pub base off leaf n H leafIdx hT hl gen P hgen st hag hlen hP
  rw [h.1, (computeRoot_spec T pub base off leaf H leafIdx hH hlt _ addr hag' (h.2.1 hlt)).1]

end

/-- The hypotheses can be met: a tree of four leaves with one byte each and a hash that depends on the address. -/
example : let T : List Byte → List Byte → List Byte → Node := fun _ a x => [a.getD 27 0 + x.getD 0 0 + 2 * x.getD 1 0]
    let gen : Nat → Unit → Node × Unit := fun i u => ([b8 (i * i)], u)
    let st : TH Unit := ⟨fun _ => [], fun _ => [7], zeroAddr, ()⟩
    (∀ a x, (T [] a x).length = 1) ∧ (∀ i < 4, ∀ s, (gen (i + 0) s).1 = (fun i => [b8 (i * i)]) (i + 0)) ∧
    Agree st.addr zeroAddr ∧ (∀ g < 2, (st.auth g).length = 1) ∧
    (treehash T [] 2 0 2 gen st).1 = some [2 + (1 + 0 + 2 * 1) + 2 * (1 + 4 + 2 * 9)] ∧
    (treehash T [] 2 0 2 gen st).2.auth 0 = [9] ∧ (treehash T [] 2 0 2 gen st).2.auth 1 = [3] :=
  ⟨fun _ _ => rfl, fun _ _ _ => rfl, fun _ _ => rfl, fun _ _ => rfl, by decide +kernel, by decide +kernel, by decide +kernel⟩

end LC.Slh
