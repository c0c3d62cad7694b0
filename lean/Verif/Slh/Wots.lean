import Verif.Slh.Tree

/-!
C61: the chain lengths of two different digests are not comparable.  And the facts on WOTS+ for C60: the leaf
generator of the signer and the reconstruction of the verifier compute the same public key.
-/
namespace LC.Slh

/-! ### Specification -/
namespace Spec

/-- The digits of a byte string in base 16, most significant first. -/
def nibbles (m : List Byte) : List Nat := m.flatMap fun b => [b.toNat / 16, b.toNat % 16]

/-- The WOTS+ checksum of the digits. -/
def csum (l : List Nat) : Nat := (l.map fun x => 15 - x).sum

/-- The digits that WOTS+ signs: the digits of the digest and three digits of the checksum. -/
def wotsDigits (m : List Byte) : List Nat :=
  nibbles m ++ [csum (nibbles m) / 256, csum (nibbles m) / 16 % 16, csum (nibbles m) % 16]

/-- `s` steps of chain number `c` from position `i`. -/
def chain (T : List Byte → List Byte → List Byte → Node) (pub : List Byte) (base : Addr) (c : Nat) :
    (i s : Nat) → Node → Node
  | _, 0, x => x
  | i, s + 1, x => chain T pub base c (i + 1) s (T pub (abytes (setHash (setChain base c) i)) x)

end Spec

open Spec (node nodeAddr sibling nibbles csum wotsDigits chain)

/-! ### Digits -/

theorem nibbles_length (m : List Byte) : (nibbles m).length = 2 * m.length := by
  unfold nibbles
  induction m with
  | nil => rfl
  | cons b m ih => rw [List.flatMap_cons, List.length_append, ih]; simp only [List.length_cons, List.length_nil]; omega

theorem nibbles_lt (m : List Byte) : ∀ x ∈ nibbles m, x < 16 := by
  intro x hx
  unfold nibbles at hx
  rw [List.mem_flatMap] at hx
  obtain ⟨b, _, hb⟩ := hx
  have := b.toNat_lt
  simp only [List.mem_cons, List.not_mem_nil, or_false] at hb
  omega

theorem and15 (x : Nat) : x &&& 15 = x % 16 := Nat.and_two_pow_sub_one_eq_mod x 4

theorem baseW_nibbles (m : List Byte) (t : Byte) : baseW (2 * m.length) m t 0 = nibbles m := by
  induction m generalizing t with
  | nil => rfl
  | cons b m ih =>
    rw [show 2 * (b :: m).length = 2 * m.length + 1 + 1 by simp only [List.length_cons]; omega]
    unfold baseW
    simp only [if_true, List.headD_cons, List.tail_cons]
    unfold baseW
    simp only [Nat.reduceAdd, Nat.reduceSub, if_neg (show ¬ (4 = 0) by decide)]
    rw [ih, and15, and15, Nat.shiftRight_zero, Nat.shiftRight_eq_div_pow]
    unfold nibbles
    rw [List.flatMap_cons]
    have := b.toNat_lt
    rw [Nat.mod_eq_of_lt (show b.toNat / 2 ^ 4 < 16 by omega)]
    rfl

theorem sum_le (l : List Nat) : csum l ≤ 15 * l.length := by
  unfold csum
  induction l with
  | nil => exact Nat.le_refl 0
  | cons x l ih => rw [List.map_cons, List.sum_cons, List.length_cons]; omega

theorem wotsChecksum_eq (l : List Nat) (h : csum l < 4096) :
    wotsChecksum l = [csum l / 256, csum l / 16 % 16, csum l % 16] := by
  unfold wotsChecksum
  dsimp only
  change baseW 3 [b8 (csum l <<< 4 / 256), b8 (csum l <<< 4)] 0 0 = _
  generalize csum l = c at h
  rw [Nat.shiftLeft_eq]
  have e1 : (b8 (c * 2 ^ 4 / 256)).toNat = c / 16 := by
    unfold b8
    rw [UInt8.toNat_ofNat', Nat.mod_eq_of_lt] <;> omega
  have e2 : (b8 (c * 2 ^ 4)).toNat = c % 16 * 16 := by
    unfold b8
    rw [UInt8.toNat_ofNat']; omega
  simp only [baseW, if_true, List.headD_cons, List.tail_cons, Nat.reduceAdd, Nat.reduceSub,
    if_neg (show ¬ (4 = 0) by decide), e1, e2, and15, Nat.shiftRight_zero, Nat.shiftRight_eq_div_pow]
  congr 1
  · omega
  · congr 1
    · rw [Nat.pow_zero, Nat.div_one]
    rw [show c % 16 * 16 / 2 ^ 4 % 16 = c % 16 by omega]

/-- The chain lengths of the code are the WOTS+ digits. -/
theorem chainLengths_eq (p : Params) (hn : p.n ≤ 136) (m : List Byte) (hm : m.length = p.n) :
    chainLengths p m = wotsDigits m := by
  unfold chainLengths len1
  dsimp only
  rw [← hm, baseW_nibbles, wotsChecksum_eq]
  · rfl
  · have := sum_le (nibbles m)
    rw [nibbles_length, hm] at this
    omega

theorem wotsDigits_length (m : List Byte) : (wotsDigits m).length = 2 * m.length + 3 := by
  unfold wotsDigits
  rw [List.length_append, nibbles_length]; rfl

theorem wotsDigits_lt (m : List Byte) (hm : m.length ≤ 136) : ∀ x ∈ wotsDigits m, x < 16 := by
  intro x hx
  unfold wotsDigits at hx
  have := sum_le (nibbles m)
  rw [nibbles_length] at this
  rcases List.mem_append.1 hx with h | h
  · exact nibbles_lt m x h
  · simp only [List.mem_cons, List.not_mem_nil, or_false] at h
    omega

theorem nibbles_inj : ∀ (m m' : List Byte), nibbles m = nibbles m' → m = m'
  | [], [], _ => rfl
  | [], _ :: _, h => by cases h
  | _ :: _, [], h => by cases h
  | b :: m, b' :: m', h => by
    unfold nibbles at h
    rw [List.flatMap_cons, List.flatMap_cons] at h
    injection h with h1 h
    injection h with h2 h
    have e : b = b' := by
      apply UInt8.toNat_inj.1; omega
    rw [e, nibbles_inj m m' h]

/-- Digits that are nowhere smaller give a checksum that is not larger, and a smaller one unless they are equal. -/
theorem csum_mono : ∀ (l l' : List Nat), l.length = l'.length → (∀ x ∈ l, x < 16) →
    (∀ i, l'.getD i 0 ≤ l.getD i 0) → csum l ≤ csum l' ∧ (csum l = csum l' → l = l')
  | [], [], _, _, _ => ⟨Nat.le_refl _, fun _ => rfl⟩
  | [], _ :: _, h, _, _ => by cases h
  | _ :: _, [], h, _, _ => by cases h
  | x :: l, y :: l', h, hl, hd => by
    have h0 : y ≤ x := hd 0
    have hx := hl x (List.mem_cons_self ..)
    have ih := csum_mono l l' (by simpa using h) (fun z hz => hl z (List.mem_cons_of_mem _ hz)) (fun i => hd (i + 1))
    have e1 : csum (x :: l) = (15 - x) + csum l := by unfold csum; rw [List.map_cons, List.sum_cons]
    have e2 : csum (y :: l') = (15 - y) + csum l' := by unfold csum; rw [List.map_cons, List.sum_cons]
    rw [e1, e2]
    refine ⟨by omega, fun e => ?_⟩
    rw [ih.2 (by omega), show x = y by omega]

/-- **C61**: of two different digests, each has a chain that is strictly shorter than that of the other. -/
theorem wots_no_domination (p : Params) (hp : p.Ok) (m m' : List Byte) (hm : m.length = p.n) (hm' : m'.length = p.n)
    (hne : m ≠ m') :
    ∃ i < wotsLen p, (chainLengths p m).getD i 0 < (chainLengths p m').getD i 0 := by
  have hn : p.n ≤ 136 := by
    rcases hp with rfl | rfl | rfl | rfl | rfl | rfl <;> decide
  rw [chainLengths_eq p hn m hm, chainLengths_eq p hn m' hm']
  apply Classical.byContradiction
  intro hno
  have hall : ∀ i, i < wotsLen p → (wotsDigits m').getD i 0 ≤ (wotsDigits m).getD i 0 := by
    intro i hi
    apply Nat.le_of_not_lt
    intro hlt
    exact hno ⟨i, hi, hlt⟩
  unfold wotsLen at hall
  have l1 := nibbles_length m
  have l2 := nibbles_length m'
  rw [hm] at l1
  rw [hm'] at l2
  have a1 : ∀ i, i < 2 * p.n → ∀ (x : List Byte), (nibbles x).length = 2 * p.n →
      (wotsDigits x).getD i 0 = (nibbles x).getD i 0 := by
    intro i hi x hx
    unfold wotsDigits
    rw [List.getD_eq_getElem?_getD, List.getD_eq_getElem?_getD, List.getElem?_append_left (by omega)]
  have a2 : ∀ i, ∀ (x : List Byte), (nibbles x).length = 2 * p.n → (wotsDigits x).getD (2 * p.n + i) 0 =
      [csum (nibbles x) / 256, csum (nibbles x) / 16 % 16, csum (nibbles x) % 16].getD i 0 := by
    intro i x hx
    unfold wotsDigits
    rw [List.getD_eq_getElem?_getD, List.getD_eq_getElem?_getD, List.getElem?_append_right (by omega), hx]
    congr 2; omega
  have hmono := csum_mono (nibbles m) (nibbles m') (by omega) (nibbles_lt m) (by
    intro i
    rcases Nat.lt_or_ge i (2 * p.n) with h | h
    · rw [← a1 i h m l1, ← a1 i h m' l2]; exact hall i (by omega)
    · rw [List.getD_eq_getElem?_getD, List.getElem?_eq_none (by omega)]; exact Nat.zero_le _)
  have c0 := hall (2 * p.n + 0) (by omega)
  have c1 := hall (2 * p.n + 1) (by omega)
  have c2 := hall (2 * p.n + 2) (by omega)
  rw [a2 _ m l1, a2 _ m' l2] at c0 c1 c2
  simp only [List.getD_cons_zero, List.getD_cons_succ] at c0 c1 c2
  exact hne (nibbles_inj m m' (hmono.2 (by omega)))

/-- Two digests meet the hypotheses, and each really has a shorter chain. -/
example : ∃ m m' : List Byte, m.length = shake128s.n ∧ m'.length = shake128s.n ∧ m ≠ m' ∧
    (chainLengths shake128s m).getD 3 0 < (chainLengths shake128s m').getD 3 0 ∧
    (chainLengths shake128s m').getD 33 0 < (chainLengths shake128s m).getD 33 0 :=
  ⟨List.replicate 16 17, 17 :: 18 :: List.replicate 14 17, by decide, by decide, by decide, by decide, by decide⟩

/-- Without the checksum the claim fails: the digits of one digest can be below those of another everywhere. -/
example : ∃ m m' : List Byte, m.length = shake128s.n ∧ m'.length = shake128s.n ∧ m ≠ m' ∧
    ∀ i < 32, (chainLengths shake128s m).getD i 0 ≤ (chainLengths shake128s m').getD i 0 :=
  ⟨List.replicate 16 17, 17 :: 18 :: List.replicate 14 17, by decide, by decide, by decide, by decide⟩

/-! ### Chains -/

theorem chain_add (T : List Byte → List Byte → List Byte → Node) (pub : List Byte) (base : Addr) (c : Nat) :
    ∀ (s i t : Nat) (x : Node), chain T pub base c i (s + t) x = chain T pub base c (i + s) t (chain T pub base c i s x)
  | 0, i, t, x => by rw [Nat.zero_add, Nat.add_zero]; rfl
  | s + 1, i, t, x => by
    rw [show s + 1 + t = (s + t) + 1 by omega, show i + (s + 1) = i + 1 + s by omega]
    exact chain_add T pub base c s (i + 1) t _

theorem chain_length (T : List Byte → List Byte → List Byte → Node) (pub : List Byte) (base : Addr) (c n : Nat)
    (hT : ∀ a x, (T pub a x).length = n) :
    ∀ (s i : Nat) (x : Node), x.length = n → (chain T pub base c i s x).length = n
  | 0, _, _, h => h
  | s + 1, i, x, _ => chain_length T pub base c n hT s (i + 1) _ (hT _ _)

/-- Addresses that agree outside the bytes for chain and hash. -/
def AgreeW (a b : Addr) : Prop := ∀ i, i ≠ 27 → i ≠ 31 → a i = b i

theorem AgreeW.trans {a b c : Addr} (h : AgreeW a b) (g : AgreeW b c) : AgreeW a c :=
  fun i h1 h2 => (h i h1 h2).trans (g i h1 h2)

/-- The address has the number of the chain, and agrees outside the byte for the hash. -/
def AgreeC (base : Addr) (c : Nat) (a : Addr) : Prop := ∀ i, i ≠ 31 → a i = setChain base c i

theorem AgreeC.setHash {base a : Addr} {c : Nat} (h : AgreeC base c a) (k : Nat) :
    setHash a k = LC.Slh.setHash (setChain base c) k := by
  funext i
  unfold LC.Slh.setHash setAt
  split
  · rfl
  · exact h i (by assumption)

theorem agreeC_setHash (base : Addr) (c k : Nat) : AgreeC base c (setHash (setChain base c) k) := by
  intro i hi
  show (if i = 31 then _ else _) = _
  rw [if_neg hi]

theorem AgreeW.agreeC {a base : Addr} (h : AgreeW a base) (c : Nat) : AgreeC base c (setChain a c) := by
  intro i hi
  unfold setChain setAt
  split
  · rfl
  · exact h i (by assumption) hi

theorem AgreeC.agreeW {a base : Addr} {c : Nat} (h : AgreeC base c a) : AgreeW a base := by
  intro i h1 h2
  rw [h i h2]
  show (if i = 27 then _ else _) = _
  rw [if_neg h1]

theorem genChain_spec (T : List Byte → List Byte → List Byte → Node) (pub : List Byte) (base : Addr) (c : Nat) :
    ∀ (steps i : Nat) (x : Node) (a : Addr), i + steps ≤ 15 → AgreeC base c a →
      (genChain T pub steps i x a).1 = chain T pub base c i steps x ∧ AgreeC base c (genChain T pub steps i x a).2
  | 0, _, _, _, _, h => ⟨rfl, h⟩
  | steps + 1, i, x, a, hi, h => by
    unfold genChain
    rw [if_pos (by omega)]
    dsimp only
    rw [h.setHash]
    exact genChain_spec T pub base c steps (i + 1) _ _ (by omega) (agreeC_setHash base c i)

theorem leafChain_spec (T : List Byte → List Byte → List Byte → Node) (pub : List Byte) (base : Addr) (c n w : Nat)
    (hT : ∀ a x, (T pub a x).length = n) :
    ∀ (r k : Nat) (buf cell : Node) (a : Addr), r + k = 15 → AgreeC base c a → buf.length = n → cell.length = n →
      (leafChain T pub w r k buf cell a).1 = chain T pub base c k r buf ∧
      (leafChain T pub w r k buf cell a).2.1 = (if k ≤ w ∧ w ≤ 15 then chain T pub base c k (w - k) buf else cell) ∧
      AgreeC base c (leafChain T pub w r k buf cell a).2.2
  | 0, k, buf, cell, a, hk, h, h1, h2 => by
    unfold leafChain
    refine ⟨rfl, ?_, h⟩
    rw [cmov_eq _ _ _ (by omega)]
    by_cases e : k = w
    · subst e
      rw [if_pos (by simp), if_pos (by omega), Nat.sub_self]; rfl
    · rw [if_neg (by simpa using e), if_neg (by omega)]
  | r + 1, k, buf, cell, a, hk, h, h1, h2 => by
    unfold leafChain
    dsimp only
    rw [h.setHash]
    have hc : (cmov cell buf (k = w)).length = n := by rw [cmov_length _ _ _ (by omega), h2]
    have ih := leafChain_spec T pub base c n w hT r (k + 1) (T pub (abytes (setHash (setChain base c) k)) buf)
      (cmov cell buf (k = w)) _ (by omega) (agreeC_setHash base c k) (hT _ _) hc
    refine ⟨ih.1, ih.2.1.trans ?_, ih.2.2⟩
    rw [cmov_eq _ _ _ (by omega)]
    by_cases e : k = w
    · subst e
      rw [if_neg (by omega), if_pos (by simp), if_pos (by omega), Nat.sub_self]; rfl
    · by_cases g : k + 1 ≤ w ∧ w ≤ 15
      · rw [if_pos g, if_pos (by omega), show w - k = (w - (k + 1)) + 1 by omega]; rfl
      · rw [if_neg g, if_neg (by simpa using e), if_neg (by omega)]

namespace Spec

/-- The secret value of chain `c` of the key pair with address `base`. -/
def wotsSk (e : Env) (pub skSeed : List Byte) (base : Addr) (c : Nat) : Node :=
  e.prf pub (abytes (setType (setHash (setChain base c) 0) 5)) skSeed

/-- The end of chain `c`. -/
def wotsEnd (e : Env) (pub skSeed : List Byte) (base : Addr) (c : Nat) : Node :=
  chain e.T pub base c 0 15 (wotsSk e pub skSeed base c)

/-- The signature value of chain `c` for digit `s`. -/
def wotsSig (e : Env) (pub skSeed : List Byte) (base : Addr) (c s : Nat) : Node :=
  chain e.T pub base c 0 s (wotsSk e pub skSeed base c)

end Spec
open Spec (wotsSk wotsEnd wotsSig)

/-- Output lengths of the hash functions. -/
structure Env.Len (e : Env) (n : Nat) : Prop where
  T : ∀ pub a x, (e.T pub a x).length = n
  prf : ∀ pub a x, (e.prf pub a x).length = n
  rnd : ∀ a b c, (e.rnd a b c).length = n

theorem setType_setType (a : Addr) (x y : Byte) : setType (setType a x) y = setType a y := by
  funext i; unfold setType setAt; split <;> rfl

theorem setType_self {a : Addr} {x : Byte} (h : a 19 = x) : setType a x = a := by
  funext i; unfold setType setAt; split
  · next h' => rw [h', h]
  · rfl

theorem leafLoop_spec (e : Env) (n : Nat) (he : e.Len n) (pub skSeed : List Byte) (steps : Nat → Nat) (base : Addr)
    (hb : base 19 = 0) :
    ∀ (cnt i : Nat) (s : LeafInfo), AgreeW s.leafAddr base → (∀ c < i + cnt, (s.sig c).length = n) →
      (leafLoop e pub skSeed steps cnt i s).1 = (List.range' i cnt).map (wotsEnd e pub skSeed base) ∧
      AgreeW (leafLoop e pub skSeed steps cnt i s).2.leafAddr base ∧
      (leafLoop e pub skSeed steps cnt i s).2.pkAddr = s.pkAddr ∧
      (∀ c, (leafLoop e pub skSeed steps cnt i s).2.sig c =
        if i ≤ c ∧ c < i + cnt ∧ steps c ≤ 15 then wotsSig e pub skSeed base c (steps c) else s.sig c)
  | 0, i, s, h, hs => by
    refine ⟨rfl, h, rfl, fun c => ?_⟩
    rw [if_neg (by omega)]; rfl
  | cnt + 1, i, s, h, hs => by
    have hA : AgreeC base i (setHash (setChain s.leafAddr i) 0) := by
      rw [(h.agreeC i).setHash]; exact agreeC_setHash base i 0
    have e1 : setHash (setChain s.leafAddr i) 0 = setHash (setChain base i) 0 := (h.agreeC i).setHash 0
    have e2 : setType (setHash (setChain base i) 0) 0 = setHash (setChain base i) 0 := setType_self hb
    have hlc := leafChain_spec e.T pub base i n (steps i) (he.T pub) 15 0 (wotsSk e pub skSeed base i) (s.sig i)
      (setHash (setChain base i) 0) rfl (agreeC_setHash base i 0) (he.prf _ _ _) (hs i (by omega))
    unfold leafLoop
    dsimp only
    rw [setType_setType, e1, e2]
    change _ ∧ _ ∧ _ ∧ _
    have hsk : e.prf pub (abytes (setType (setHash (setChain base i) 0) 5)) skSeed = wotsSk e pub skSeed base i := rfl
    rw [hsk]
    generalize leafChain e.T pub (steps i) 15 0 (wotsSk e pub skSeed base i) (s.sig i) (setHash (setChain base i) 0) = lc at hlc ⊢
    obtain ⟨g1, g2, g3⟩ := hlc
    have hl2 : lc.2.1.length = n := by
      rw [g2]; split
      · exact chain_length e.T pub base i n (he.T pub) _ _ _ (he.prf _ _ _)
      · exact hs i (by omega)
    have ih := leafLoop_spec e n he pub skSeed steps base hb cnt (i + 1)
      { s with sig := upd s.sig i lc.2.1, leafAddr := lc.2.2 } g3.agreeW (by
        intro c hc
        show (upd s.sig i lc.2.1 c).length = n
        unfold upd
        split
        · exact hl2
        · exact hs c (by omega))
    obtain ⟨i1, i2, i3, i4⟩ := ih
    refine ⟨?_, i2, i3, fun c => ?_⟩
    · rw [i1, List.range'_succ, List.map_cons, g1]; rfl
    · rw [i4 c]
      show (if _ then _ else upd s.sig i lc.2.1 c) = _
      unfold upd
      by_cases ec : c = i
      · subst ec
        rw [if_neg (by omega), if_pos rfl, g2]
        by_cases hs15 : steps c ≤ 15
        · rw [if_pos (by omega), if_pos (by omega), Nat.sub_zero]; rfl
        · rw [if_neg (by omega), if_neg (by omega)]
      · rw [if_neg ec]
        by_cases hh : i + 1 ≤ c ∧ c < i + 1 + cnt ∧ steps c ≤ 15
        · rw [if_pos hh, if_pos (by omega)]
        · rw [if_neg hh, if_neg (by omega)]

namespace Spec

/-- The concatenated WOTS+ public key. -/
def wotsPk (p : Params) (e : Env) (pub skSeed : List Byte) (base : Addr) : List Byte :=
  ((List.range (wotsLen p)).map (wotsEnd e pub skSeed base)).flatten

/-- The leaf of key pair `idx`: `base` and `pk0` are the addresses without key pair number. -/
def xleaf (p : Params) (e : Env) (pub skSeed : List Byte) (base pk0 : Addr) (idx : Nat) : Node :=
  e.T pub (abytes (setKeypair pk0 idx)) (wotsPk p e pub skSeed (setKeypair base idx))

end Spec
open Spec (wotsPk xleaf)

/-- Addresses that agree outside the bytes for key pair, chain and hash. -/
def AgreeK (a b : Addr) : Prop := ∀ i, (i < 20 ∨ 24 ≤ i) → i ≠ 27 → i ≠ 31 → a i = b i

/-- Addresses that agree outside the bytes for the key pair. -/
def AgreeP (a b : Addr) : Prop := ∀ i, (i < 20 ∨ 24 ≤ i) → a i = b i

theorem AgreeP.setKeypair {a b : Addr} (h : AgreeP a b) (k : Nat) : setKeypair a k = LC.Slh.setKeypair b k := by
  funext i
  unfold LC.Slh.setKeypair setBe32
  repeat' split
  all_goals first
    | rfl
    | exact h i (by omega)

theorem AgreeK.setKeypair {a b : Addr} (h : AgreeK a b) (k : Nat) : AgreeW (setKeypair a k) (LC.Slh.setKeypair b k) := by
  intro i h1 h2
  unfold LC.Slh.setKeypair setBe32
  repeat' split
  all_goals first
    | rfl
    | exact h i (by omega) h1 h2

theorem setKeypair_agreeP (b : Addr) (k : Nat) : AgreeP (setKeypair b k) b := by
  intro i h
  unfold LC.Slh.setKeypair setBe32
  rw [if_neg (by omega), if_neg (by omega), if_neg (by omega), if_neg (by omega)]

/-- The invariant of the leaf generator: `t` leaves are done. -/
structure LeafInv (p : Params) (e : Env) (pub skSeed : List Byte) (base pk0 : Addr) (signLeaf : Nat) (steps : List Nat)
    (t : Nat) (s : LeafInfo) : Prop where
  leafA : AgreeK s.leafAddr base
  pkA : AgreeP s.pkAddr pk0
  len : ∀ c < wotsLen p, (s.sig c).length = p.n
  sig : signLeaf < t → ∀ c < wotsLen p, s.sig c = wotsSig e pub skSeed (setKeypair base signLeaf) c (steps.getD c 0)

theorem or_mask (x : Nat) : ¬ (x ||| 4294967295 ≤ 15) := by
  have : 4294967295 ≤ x ||| 4294967295 := Nat.right_le_or
  omega

theorem wotsGenLeaf_spec (p : Params) (e : Env) (he : e.Len p.n) (pub skSeed : List Byte) (base pk0 : Addr) (hb : base 19 = 0)
    (signLeaf : Nat) (steps : List Nat) (hst : ∀ c, steps.getD c 0 ≤ 15) (i : Nat) (s : LeafInfo)
    (hP : LeafInv p e pub skSeed base pk0 signLeaf steps i s) :
    (wotsGenLeaf p e pub skSeed signLeaf steps (i + 0) s).1 = xleaf p e pub skSeed base pk0 (i + 0) ∧
    LeafInv p e pub skSeed base pk0 signLeaf steps (i + 1) (wotsGenLeaf p e pub skSeed signLeaf steps (i + 0) s).2 := by
  rw [Nat.add_zero]
  unfold wotsGenLeaf
  dsimp only
  have hll := leafLoop_spec e p.n he pub skSeed (fun c => steps.getD c 0 ||| (if i = signLeaf then 0 else 4294967295))
    (setKeypair base i) hb (wotsLen p) 0
    { s with leafAddr := setKeypair s.leafAddr i, pkAddr := setKeypair s.pkAddr i }
    (hP.leafA.setKeypair i) (fun c hc => hP.len c (by omega))
  generalize leafLoop e pub skSeed (fun c => steps.getD c 0 ||| (if i = signLeaf then 0 else 4294967295)) (wotsLen p) 0
    { s with leafAddr := setKeypair s.leafAddr i, pkAddr := setKeypair s.pkAddr i } = r at hll ⊢
  obtain ⟨g1, g2, g3, g4⟩ := hll
  dsimp only at g3 g4
  have hsig : ∀ c < wotsLen p, r.2.sig c =
      if i = signLeaf then wotsSig e pub skSeed (setKeypair base i) c (steps.getD c 0) else s.sig c := by
    intro c hc
    rw [g4 c]
    by_cases hi : i = signLeaf
    · rw [if_pos hi, if_pos hi, Nat.or_zero, if_pos ⟨Nat.zero_le _, by omega, hst c⟩]
    · rw [if_neg hi, if_neg hi, if_neg (fun h => or_mask _ h.2.2)]
  refine ⟨?_, ⟨?_, ?_, ?_, ?_⟩⟩
  · rw [g1, g3, hP.pkA.setKeypair, ← List.range_eq_range']; rfl
  · intro j h1 h2 h3
    rw [g2 j h2 h3]
    exact setKeypair_agreeP base i j h1
  · intro j h1
    rw [g3, hP.pkA.setKeypair]
    exact setKeypair_agreeP pk0 i j h1
  · intro c hc
    rw [hsig c hc]
    split
    · exact chain_length e.T pub _ c p.n (he.T pub) _ _ _ (he.prf _ _ _)
    · exact hP.len c hc
  · intro hlt c hc
    rw [hsig c hc]
    by_cases hi : i = signLeaf
    · rw [if_pos hi, hi]
    · rw [if_neg hi]; exact hP.sig (by omega) c hc

/-! ### Reconstruction of the public key -/

theorem pkLoop_spec (e : Env) (pub skSeed : List Byte) (base : Addr) (lengths : List Nat)
    (hle : ∀ c, lengths.getD c 0 ≤ 15) (sig : Nat → Node) (tot : Nat)
    (hsig : ∀ c < tot, sig c = wotsSig e pub skSeed base c (lengths.getD c 0)) :
    ∀ (cnt i : Nat) (a : Addr), i + cnt ≤ tot → AgreeW a base →
      (pkLoop e.T pub lengths sig cnt i a).1 = (List.range' i cnt).map (wotsEnd e pub skSeed base) ∧
      AgreeW (pkLoop e.T pub lengths sig cnt i a).2 base
  | 0, _, _, _, h => ⟨rfl, h⟩
  | cnt + 1, i, a, hi, h => by
    have hl := hle i
    have hg := genChain_spec e.T pub base i (15 - lengths.getD i 0) (lengths.getD i 0) (sig i) (setChain a i) (by omega) (h.agreeC i)
    unfold pkLoop
    dsimp only
    have ih := pkLoop_spec e pub skSeed base lengths hle sig tot hsig cnt (i + 1) _ (by omega) hg.2.agreeW
    refine ⟨?_, ih.2⟩
    rw [ih.1, hg.1, List.range'_succ, List.map_cons, hsig i (by omega)]
    congr 1
    unfold wotsSig wotsEnd
    have := chain_add e.T pub base i (lengths.getD i 0) 0 (15 - lengths.getD i 0) (wotsSk e pub skSeed base i)
    rw [show lengths.getD i 0 + (15 - lengths.getD i 0) = 15 by omega, Nat.zero_add] at this
    exact this.symm

theorem wotsPkFromSig_spec (p : Params) (e : Env) (pub skSeed : List Byte) (base : Addr) (msg : List Byte)
    (hle : ∀ c, (chainLengths p msg).getD c 0 ≤ 15) (sig : Nat → Node)
    (hsig : ∀ c < wotsLen p, sig c = wotsSig e pub skSeed base c ((chainLengths p msg).getD c 0)) (a : Addr) (ha : AgreeW a base) :
    (wotsPkFromSig p e pub sig msg a).1 = wotsPk p e pub skSeed base ∧ AgreeW (wotsPkFromSig p e pub sig msg a).2 base := by
  have h := pkLoop_spec e pub skSeed base (chainLengths p msg) hle sig (wotsLen p) hsig (wotsLen p) 0 a (by omega) ha
  unfold wotsPkFromSig
  refine ⟨?_, h.2⟩
  dsimp only
  rw [h.1, ← List.range_eq_range']; rfl

theorem chainLengths_le (p : Params) (hn : p.n ≤ 136) (msg : List Byte) (hm : msg.length = p.n) (c : Nat) :
    (chainLengths p msg).getD c 0 ≤ 15 := by
  rw [chainLengths_eq p hn msg hm, List.getD_eq_getElem?_getD]
  rcases h : (wotsDigits msg)[c]? with _ | x
  · exact Nat.zero_le _
  · have := wotsDigits_lt msg (by omega) x (List.mem_of_getElem? h)
    show x ≤ 15
    omega

end LC.Slh
