import Verif.Sha2.Spec
/- Helper lemmas for the SHA-2 properties. -/
namespace LC.Sha2
open Spec (block chain pad zeros)

variable {σ : Type}

theorem overwrite_length (buf d : List Byte) (off : Nat) (h : off + d.length ≤ buf.length) :
    (overwrite buf off d).length = buf.length := by
  simp only [overwrite, List.length_append, List.length_take, List.length_drop]; omega

theorem overwrite_take (buf d : List Byte) (off : Nat) (h : off + d.length ≤ buf.length) :
    (overwrite buf off d).take (off + d.length) = buf.take off ++ d := by
  have : (buf.take off ++ d).length = off + d.length := by simp; omega
  rw [overwrite, ← this, List.take_left']
  rfl

theorem overwrite_all (buf d : List Byte) (off : Nat) (h : off + d.length = buf.length) :
    overwrite buf off d = buf.take off ++ d := by
  simp [overwrite, h]

theorem overwrite_zero (buf d : List Byte) (h : d.length ≤ buf.length) :
    (overwrite buf 0 d).take d.length = d := by
  simpa using overwrite_take buf d 0 (by omega)

theorem chain_append (f : σ → List Byte → σ) (iv : σ) (B : Nat) (a b : List Byte) :
    ∀ n, n * B ≤ a.length → chain f iv B (a ++ b) n = chain f iv B a n
  | 0, _ => rfl
  | n + 1, h => by
    have h1 : n * B + B ≤ a.length := by rw [← Nat.succ_mul]; exact h
    rw [chain, chain, chain_append f iv B a b n (by omega)]
    congr 1
    simp only [block]
    rw [List.drop_append_of_le_length (by omega), List.take_append_of_le_length (by simp; omega)]

theorem chain_add (f : σ → List Byte → σ) (iv : σ) (B k : Nat) (a b : List Byte)
    (hk : a.length = k * B) :
    ∀ n, chain f iv B (a ++ b) (k + n) = chain f (chain f iv B a k) B b n
  | 0 => by rw [Nat.add_zero, chain_append f iv B a b k (by omega), chain]
  | n + 1 => by
    rw [← Nat.add_assoc, chain, chain_add f iv B k a b hk n, chain]
    congr 1
    simp only [block, Nat.add_mul]
    rw [← hk, List.drop_append, List.drop_of_length_le (by omega), List.nil_append]
    congr 2; omega

theorem chain_succ (f : σ → List Byte → σ) (iv : σ) (B : Nat) (m : List Byte) (n : Nat)
    (h : B ≤ m.length) :
    chain f iv B m (1 + n) = chain f (f iv (m.take B)) B (m.drop B) n := by
  have e := chain_add f iv B 1 (m.take B) (m.drop B) (by simp; omega) n
  rw [List.take_append_drop] at e
  rw [e]
  congr 1
  simp [chain, block, List.take_take]

theorem fullBlocks_eq (f : σ → List Byte → σ) (B : Nat) (hB : 0 < B) :
    ∀ (fuel : Nat) (H : σ) (inp : List Byte), inp.length ≤ fuel →
      fullBlocks f B fuel H inp =
        (chain f H B inp (inp.length / B), inp.drop (inp.length / B * B))
  | 0, H, inp, h => by
    have : inp = [] := List.length_eq_zero_iff.mp (by omega)
    subst this; simp [fullBlocks, chain]
  | fuel + 1, H, inp, h => by
    rw [fullBlocks]
    split
    · rename_i hle
      rw [fullBlocks_eq f B hB fuel _ _ (by simp; omega)]
      have e : inp.length / B = 1 + (inp.drop B).length / B := by
        rw [List.length_drop, Nat.div_eq inp.length, if_pos ⟨hB, hle⟩]; omega
      rw [e, chain_succ f H B inp _ hle, List.drop_drop, Nat.add_mul, Nat.one_mul]
    · rename_i hlt
      have e : inp.length / B = 0 := Nat.div_eq_of_lt (by omega)
      simp [e, chain]

/-- The streaming invariant: the context represents the message `m`. -/
def Inv (f : σ → List Byte → σ) (iv : σ) (B : Nat) (m : List Byte) (c : Ctx σ) : Prop :=
  c.H = chain f iv B m (m.length / B) ∧ c.part.length = B ∧
  c.part.take (m.length % B) = m.drop (m.length / B * B) ∧ c.msgLen = m.length % 2 ^ 64

theorem div_mul_le' (a B : Nat) : a / B * B ≤ a := Nat.div_mul_le_self a B

theorem chain_split (f : σ → List Byte → σ) (iv : σ) (B : Nat) (hB : 0 < B) (m x : List Byte) :
    chain f iv B (m ++ x) ((m ++ x).length / B) =
      chain f (chain f iv B m (m.length / B)) B (m.drop (m.length / B * B) ++ x)
        ((m.drop (m.length / B * B) ++ x).length / B) := by
  have hle := div_mul_le' m.length B
  have e1 : m ++ x = m.take (m.length / B * B) ++ (m.drop (m.length / B * B) ++ x) := by
    rw [← List.append_assoc, List.take_append_drop]
  have e2 : (m ++ x).length / B =
      m.length / B + (m.drop (m.length / B * B) ++ x).length / B := by
    rw [List.length_append, List.length_append, List.length_drop]
    have : m.length + x.length = (m.length - m.length / B * B + x.length) + B * (m.length / B) := by
      have := Nat.mul_comm B (m.length / B); omega
    rw [this, Nat.add_mul_div_left _ _ hB]; omega
  rw [e2]
  conv => lhs; rw [e1]
  rw [chain_add f iv B (m.length / B) _ _ (by rw [List.length_take]; omega)]
  congr 1
  have := chain_append f iv B (m.take (m.length / B * B)) (m.drop (m.length / B * B))
    (m.length / B) (by rw [List.length_take]; omega)
  rw [List.take_append_drop] at this
  exact this.symm

theorem drop_split (B : Nat) (hB : 0 < B) (m x : List Byte) :
    (m ++ x).drop ((m ++ x).length / B * B) =
      (m.drop (m.length / B * B) ++ x).drop
        ((m.drop (m.length / B * B) ++ x).length / B * B) := by
  have hle := div_mul_le' m.length B
  have e2 : (m ++ x).length / B =
      m.length / B + (m.drop (m.length / B * B) ++ x).length / B := by
    rw [List.length_append, List.length_append, List.length_drop]
    have : m.length + x.length = (m.length - m.length / B * B + x.length) + B * (m.length / B) := by
      have := Nat.mul_comm B (m.length / B); omega
    rw [this, Nat.add_mul_div_left _ _ hB]; omega
  rw [e2, Nat.add_mul, ← List.drop_drop]
  congr 1
  rw [List.drop_append_of_le_length hle]

theorem mod_len (m : List Byte) (B : Nat) : (m.drop (m.length / B * B)).length = m.length % B := by
  have := Nat.div_add_mod m.length B
  have := Nat.mul_comm B (m.length / B)
  rw [List.length_drop]; omega

theorem update_inv (f : σ → List Byte → σ) (iv : σ) (B : Nat) (hB : 0 < B) (hd : B ∣ 2 ^ 64)
    (m : List Byte) (c : Ctx σ) (h : Inv f iv B m c) (x : List Byte) :
    Inv f iv B (m ++ x) (update f B c x) := by
  obtain ⟨hH, hl, hp, hm⟩ := h
  have hlt : m.length % B < B := Nat.mod_lt _ hB
  have hmod : c.msgLen % B = m.length % B := by rw [hm, Nat.mod_mod_of_dvd _ hd]
  have hml : (c.msgLen + x.length) % 2 ^ 64 = (m ++ x).length % 2 ^ 64 := by
    rw [hm, List.length_append]; omega
  have htl := mod_len m B
  unfold update
  simp only [hmod, hml]
  unfold Inv
  rw [chain_split f iv B hB, drop_split B hB, ← hH, ← mod_len (m ++ x) B, drop_split B hB]
  generalize hT : m.drop (m.length / B * B) = T at *
  split
  · rename_i hne
    split
    · rename_i hlt2
      have e0 : (T ++ x).length / B = 0 := Nat.div_eq_of_lt (by simp; omega)
      refine ⟨by rw [e0]; rfl, by rw [overwrite_length _ _ _ (by omega)]; exact hl, ?_, rfl⟩
      rw [e0, Nat.zero_mul, List.drop_zero, List.length_append, htl]
      dsimp only
      rw [overwrite_take _ _ _ (by omega), hp]
    · rename_i hge
      have hbuf : overwrite c.part (m.length % B) (x.take (B - m.length % B)) =
          T ++ x.take (B - m.length % B) := by
        rw [overwrite_all _ _ _ (by simp; omega), hp]
      simp only [hbuf]
      rw [fullBlocks_eq f B hB _ _ _ (Nat.le_refl _)]
      have hTx : (T ++ x).take B = T ++ x.take (B - m.length % B) := by
        rw [List.take_append, htl, List.take_of_length_le (by omega)]
      have hTd : (T ++ x).drop B = x.drop (B - m.length % B) := by
        rw [List.drop_append, htl, List.drop_of_length_le (by omega), List.nil_append]
      have hge2 : B ≤ (T ++ x).length := by simp; omega
      have e : (T ++ x).length / B = 1 + ((T ++ x).drop B).length / B := by
        rw [List.length_drop, Nat.div_eq (T ++ x).length, if_pos ⟨hB, hge2⟩]; omega
      have hd2 : (T ++ x).drop ((T ++ x).length / B * B) =
          (x.drop (B - m.length % B)).drop ((x.drop (B - m.length % B)).length / B * B) := by
        rw [e, Nat.add_mul, Nat.one_mul, ← List.drop_drop, hTd]
      have hr : ((x.drop (B - m.length % B)).drop
          ((x.drop (B - m.length % B)).length / B * B)).length < B := by
        rw [mod_len]; exact Nat.mod_lt _ hB
      have hbl : (T ++ x.take (B - m.length % B)).length = B := by
        simp; omega
      dsimp only
      refine ⟨?_, ?_, ?_, by trivial⟩
      · rw [e, chain_succ f c.H B _ _ hge2, hTx, hTd]
      · rw [overwrite_length _ _ _ (by omega)]; exact hbl
      · rw [hd2, overwrite_zero _ _ (by omega)]
  · rename_i h0
    have hT0 : T = [] := List.length_eq_zero_iff.mp (by omega)
    subst hT0
    simp only [List.nil_append]
    rw [fullBlocks_eq f B hB _ _ _ (Nat.le_refl _)]
    have hr : (x.drop (x.length / B * B)).length < B := by rw [mod_len]; exact Nat.mod_lt _ hB
    dsimp only
    refine ⟨rfl, ?_, ?_, by trivial⟩
    · rw [overwrite_length _ _ _ (by omega)]; exact hl
    · rw [overwrite_zero _ _ (by omega)]

theorem updates_inv (f : σ → List Byte → σ) (iv : σ) (B : Nat) (hB : 0 < B) (hd : B ∣ 2 ^ 64) :
    ∀ (chunks : List (List Byte)) (m : List Byte) (c : Ctx σ), Inv f iv B m c →
      Inv f iv B (m ++ chunks.flatten) (chunks.foldl (update f B) c)
  | [], m, c, h => by simpa using h
  | x :: xs, m, c, h => by
    rw [List.foldl_cons, List.flatten_cons, ← List.append_assoc]
    exact updates_inv f iv B hB hd xs _ _ (update_inv f iv B hB hd m c h x)

theorem init_inv (f : σ → List Byte → σ) (iv : σ) (B : Nat) (buf : List Byte) (h : buf.length = B) :
    Inv f iv B [] (initCtx iv buf) := by
  simp [Inv, initCtx, chain, h]

theorem beBytes_length : ∀ n v, (beBytes n v).length = n
  | 0, _ => rfl
  | n + 1, v => by simp [beBytes, beBytes_length n v]

theorem beBytes_small (v : Nat) (h : v < 2 ^ 64) :
    ∀ k, beBytes (k + 8) v = List.replicate k 0 ++ beBytes 8 v
  | 0 => by simp
  | k + 1 => by
    rw [show k + 1 + 8 = (k + 8) + 1 from by omega, beBytes, beBytes_small v h k,
      List.replicate_succ, List.cons_append]
    congr 1
    have : v / 256 ^ (k + 8) = 0 := by
      apply Nat.div_eq_of_lt
      calc v < 2 ^ 64 := h
        _ = 256 ^ 8 := by decide
        _ ≤ 256 ^ (k + 8) := Nat.pow_le_pow_right (by decide) (by omega)
    rw [this]; rfl

theorem finalH_eq (f : σ → List Byte → σ) (iv : σ) (B res : Nat) (hd : B ∣ 2 ^ 64)
    (hres : 8 ≤ res) (hrB : res + 1 ≤ B) (m : List Byte) (hm64 : 8 * m.length < 2 ^ 64)
    (c : Ctx σ) (h : Inv f iv B m c) :
    finalH f B res c = Spec.md f iv B res m := by
  obtain ⟨hH, hl, hp, hm⟩ := h
  have hB : 0 < B := by omega
  have hlt : m.length % B < B := Nat.mod_lt _ hB
  have hmod : c.msgLen % B = m.length % B := by rw [hm, Nat.mod_mod_of_dvd _ hd]
  have hml : (c.msgLen * 8) % 2 ^ 64 = 8 * m.length := by rw [hm]; omega
  have htl := mod_len m B
  unfold Spec.md pad finalH
  simp only [hmod, hml]
  rw [List.append_assoc, List.append_assoc, chain_split f iv B hB, ← hH]
  generalize hT : m.drop (m.length / B * B) = T at *
  obtain ⟨k, rfl⟩ : ∃ k, res = k + 8 := ⟨res - 8, by omega⟩
  rw [beBytes_small _ hm64 k]
  generalize hlen : beBytes 8 (8 * m.length) = lenb
  have hlenb : lenb.length = 8 := by rw [← hlen, beBytes_length]
  -- the number of zero bytes
  have hz : zeros B (k + 8) m.length = (B - (m.length % B + 1 + (k + 8)) % B) % B := by
    unfold zeros
    congr 2
    rw [Nat.add_assoc, Nat.add_assoc, Nat.mod_add_mod]
  rw [hz]
  generalize hr : m.length % B = r at *
  have hbuf : overwrite c.part r [0x80] = T ++ [0x80] ++ c.part.drop (r + 1) := by
    rw [overwrite, hp]; rfl
  have hTl : (T ++ [(0x80 : Byte)]).length = r + 1 := by simp; omega
  rw [hbuf]
  split
  · rename_i hgt
    -- two blocks
    have hzv : (B - (r + 1 + (k + 8)) % B) % B = 2 * B - (r + 1 + (k + 8)) := by
      by_cases e : r + 1 + (k + 8) = B
      · omega
      · have h1 : (r + 1 + (k + 8)) % B = r + 1 + (k + 8) - B := by
          rw [Nat.mod_eq_sub_mod (by omega), Nat.mod_eq_of_lt (by omega)]
        rw [h1, Nat.mod_eq_of_lt (by omega)]; omega
    have hb1 : overwrite (T ++ [0x80] ++ c.part.drop (r + 1)) (r + 1)
        (List.replicate (B - (r + 1)) 0) = T ++ [0x80] ++ List.replicate (B - (r + 1)) 0 := by
      rw [overwrite_all _ _ _ (by rw [List.length_append, hTl]; simp; omega), ← hTl,
        List.take_left']
      rfl
    simp only [hb1]
    rw [hzv]
    set_option maxRecDepth 4000 in
    have hb2 : ∀ X : List Byte, X.length = B →
        overwrite (overwrite X 0 (List.replicate (B - 0) 0)) (B - 8) lenb =
          List.replicate (B - 8) 0 ++ lenb := by
      intro X hX
      rw [overwrite_all X _ _ (by simp; omega),
        overwrite_all _ _ _ (by simp; omega)]
      congr 1
      simp
    rw [hb2 _ (by rw [List.length_append, hTl]; simp; omega)]
    have hsplit : T ++ ([0x80] ++ (List.replicate (2 * B - (r + 1 + (k + 8))) 0 ++
        (List.replicate k 0 ++ lenb))) =
        (T ++ [0x80] ++ List.replicate (B - (r + 1)) 0) ++ (List.replicate (B - 8) 0 ++ lenb) := by
      have : List.replicate (2 * B - (r + 1 + (k + 8))) (0 : Byte) ++ List.replicate k 0 =
          List.replicate (B - (r + 1)) 0 ++ List.replicate (B - 8) 0 := by
        rw [List.replicate_append_replicate, List.replicate_append_replicate]
        congr 1; omega
      rw [← List.append_assoc (List.replicate (2 * B - (r + 1 + (k + 8))) 0), this]
      simp only [List.append_assoc]
    rw [hsplit]
    have hl1 : (T ++ [(0x80 : Byte)] ++ List.replicate (B - (r + 1)) 0).length = B := by
      rw [List.length_append, hTl]; simp; omega
    have hl2 : (List.replicate (B - 8) (0 : Byte) ++ lenb).length = B := by simp; omega
    have hq : ((T ++ [(0x80 : Byte)] ++ List.replicate (B - (r + 1)) 0) ++
        (List.replicate (B - 8) (0 : Byte) ++ lenb)).length / B = 1 + 1 := by
      rw [List.length_append, hl1, hl2]
      rw [show B + B = 2 * B by omega]; exact Nat.mul_div_cancel 2 hB
    rw [hq, chain_add f c.H B 1 _ _ (by omega)]
    simp only [chain, block, Nat.zero_mul, List.drop_zero]
    rw [List.take_of_length_le (by omega), List.take_of_length_le (by omega)]
  · rename_i hle
    have hzv : (B - (r + 1 + (k + 8)) % B) % B = B - (r + 1 + (k + 8)) := by
      by_cases e : r + 1 + (k + 8) = B
      · rw [e]; simp
      · rw [Nat.mod_eq_of_lt (by omega : r + 1 + (k + 8) < B), Nat.mod_eq_of_lt (by omega)]
    rw [hzv]
    dsimp only
    have hb1 : overwrite (T ++ [0x80] ++ c.part.drop (r + 1)) (r + 1)
        (List.replicate (B - (r + 1)) 0) = T ++ [0x80] ++ List.replicate (B - (r + 1)) 0 := by
      rw [overwrite_all _ _ _ (by rw [List.length_append, hTl]; simp; omega), ← hTl,
        List.take_left']
      rfl
    rw [hb1]
    have hl1 : (T ++ [(0x80 : Byte)] ++ List.replicate (B - (r + 1)) 0).length = B := by
      rw [List.length_append, hTl]; simp; omega
    have hb2 : overwrite (T ++ [0x80] ++ List.replicate (B - (r + 1)) 0) (B - 8) lenb =
        T ++ ([0x80] ++ (List.replicate (B - (r + 1 + (k + 8))) 0 ++
        (List.replicate k 0 ++ lenb))) := by
      rw [overwrite_all _ _ _ (by omega)]
      have h3 : (T ++ [(0x80 : Byte)] ++ List.replicate (B - (r + 1)) 0).take (B - 8) =
          T ++ [0x80] ++ List.replicate (B - 8 - (r + 1)) 0 := by
        rw [List.take_append, hTl, List.take_of_length_le (by omega), List.take_replicate]
        congr 2; omega
      rw [h3]
      have : List.replicate (B - 8 - (r + 1)) (0 : Byte) =
          List.replicate (B - (r + 1 + (k + 8))) 0 ++ List.replicate k 0 := by
        rw [List.replicate_append_replicate]; congr 1; omega
      rw [this]
      simp only [List.append_assoc]
    rw [← hb2]
    have hl2 : (overwrite (T ++ [(0x80 : Byte)] ++ List.replicate (B - (r + 1)) 0) (B - 8)
        lenb).length = B := by
      rw [overwrite_length _ _ _ (by omega)]; exact hl1
    rw [hl2, Nat.div_self hB]
    simp only [chain, block, Nat.zero_mul, List.drop_zero]
    rw [List.take_of_length_le (by omega)]

/-! ### Compression function -/

theorem ror_eq {w : Nat} (hw : 0 < w) (x : BitVec w) (n : Nat) (h0 : 0 < n) (h : n < w) :
    ror x n = x.rotateRight n := by
  rw [ror, BitVec.rotateRight_def, Nat.mod_eq_of_lt h, Nat.mod_eq_of_lt (by omega : w - n < w)]

/-- The parameters of the code agree with the functions of the standard. -/
structure Agree {w : Nat} (p : Params w) (F : Spec.Fns w) : Prop where
  S0 : ∀ x, p.S0 x = F.Sig0 x
  S1 : ∀ x, p.S1 x = F.Sig1 x
  s0 : ∀ x, p.s0 x = F.sig0 x
  s1 : ∀ x, p.s1 x = F.sig1 x

theorem agree256 : Agree p256 Spec.fns256 := by
  constructor <;> intro x <;> simp [p256, Spec.fns256, ror_eq (w := 32)]

theorem agree512 : Agree p512 Spec.fns512 := by
  constructor <;> intro x <;> simp [p512, Spec.fns512, ror_eq (w := 64)]

def toVars {w : Nat} (r : Regs w) : Spec.Vars w := ⟨r.a, r.b, r.c, r.d, r.e, r.f, r.g, r.h⟩

theorem Regs_inv {w : Nat} (p : Params w) (F : Spec.Fns w) (hA : Agree p F) (inp : List Byte)
    (r0 : Regs w) (hr0 : r0.W.length = p.K.length) :
    ∀ n, n ≤ p.K.length →
      let r := (List.range n).foldl (step p inp) r0
      let M := fun j => BitVec.ofNat w (beNat ((inp.drop (w / 8 * j)).take (w / 8)))
      r.W.length = p.K.length ∧ (∀ j, n < j + 17 → j < n → r.W.getD j 0 = Spec.Wt F M j) ∧
      toVars r = Spec.rounds F (fun t => p.K.getD t 0) M (toVars r0) n
  | 0, _ => by simp [hr0, Spec.rounds]
  | n + 1, hn => by
    obtain ⟨h1, h2, h3⟩ := Regs_inv p F hA inp r0 hr0 n (by omega)
    dsimp only at h1 h2 h3 ⊢
    rw [List.range_succ, List.foldl_append, List.foldl_cons, List.foldl_nil]
    generalize hr : (List.range n).foldl (step p inp) r0 = r at *
    generalize hM : (fun j => BitVec.ofNat w (beNat ((inp.drop (w / 8 * j)).take (w / 8)))) = M at *
    have hWl : (step p inp r n).W.length = p.K.length := by
      simp only [step]; split <;> simp [h1]
    have hWn : (step p inp r n).W.getD n 0 = Spec.Wt F M n := by
      rw [Spec.Wt]
      simp only [step]
      split
      · rw [← hM, List.getD_eq_getElem?_getD, List.getElem?_set_self (by omega)]; rfl
      · rename_i h16
        rw [List.getD_eq_getElem?_getD, List.getElem?_set_ne (by omega),
          List.getElem?_set_self (by omega), Option.getD_some,
          h2 (n - 2) (by omega) (by omega), h2 (n - 7) (by omega) (by omega),
          h2 (n - 15) (by omega) (by omega), h2 (n - 16) (by omega) (by omega), hA.s1, hA.s0]
    refine ⟨hWl, ?_, ?_⟩
    · intro j hj1 hj2
      by_cases e : j = n
      · rw [e]; exact hWn
      · rw [← h2 j (by omega) (by omega)]
        simp only [step]
        split
        · rw [List.getD_eq_getElem?_getD, List.getElem?_set_ne (by omega),
            ← List.getD_eq_getElem?_getD]
        · rw [List.getD_eq_getElem?_getD, List.getElem?_set_ne (by omega),
            List.getElem?_set_ne (by omega), ← List.getD_eq_getElem?_getD]
    · rw [Spec.rounds, ← h3, ← hWn]
      simp only [Spec.round, toVars, CH, MAJ, ← hA.S0, ← hA.S1]
      rfl

theorem transform_eq {w : Nat} (p : Params w) (F : Spec.Fns w) (hA : Agree p F) :
    transform p = Spec.compress F p.K.length (fun t => p.K.getD t 0) := by
  funext H inp
  have h := (Regs_inv p F hA inp
    { W := List.replicate p.K.length 0, a := H.getD 0 0, b := H.getD 1 0, c := H.getD 2 0,
      d := H.getD 3 0, e := H.getD 4 0, f := H.getD 5 0, g := H.getD 6 0, h := H.getD 7 0 }
    (by simp) p.K.length (Nat.le_refl _)).2.2
  simp only [toVars] at h
  unfold transform Spec.compress
  dsimp only
  rw [← h]

end LC.Sha2
