import Verif.Slh.Fors
import Verif.Kyber.Correct

/-!
C60: verification accepts every signature, for every parameter set of the library, every secret key, message, setting
and random value and every choice of the hash functions; the signature is the one of the specification below.
-/
namespace LC.Slh
open Spec (node nodeAddr sibling wotsSig wotsPk xleaf forsSig forsPk)

/-! ### Specification of the hypertree -/
namespace Spec

/-- The address of tree `t` in layer `l`: type 0, everything else zero. -/
def layerAddr (l t : Nat) : Addr := fun j =>
  if j = 3 then b8 l else if 8 ≤ j ∧ j < 16 then b8 (t / 256 ^ (15 - j)) else 0

/-- The leaves of tree `t` of layer `l`. -/
def htLeaf (p : Params) (e : Env) (pub skSeed : List Byte) (l t : Nat) : Nat → Node :=
  xleaf p e pub skSeed (layerAddr l t) (setType (layerAddr l t) 1)

/-- The nodes of tree `t` of layer `l`. -/
def htNode (p : Params) (e : Env) (pub skSeed : List Byte) (l t : Nat) : Nat → Nat → Node :=
  node e.T pub (setType (layerAddr l t) 2) 0 (htLeaf p e pub skSeed l t)

/-- The signature of `msg` with leaf `idx` of tree `t` of layer `l`. -/
def layerSig (p : Params) (e : Env) (pub skSeed : List Byte) (l t idx : Nat) (msg : List Byte) : List Byte :=
  ((List.range (wotsLen p)).map fun c =>
    wotsSig e pub skSeed (setKeypair (layerAddr l t) idx) c ((wotsDigits msg).getD c 0)).flatten ++
  ((List.range p.hp).map fun h => htNode p e pub skSeed l t h (sibling (idx / 2 ^ h))).flatten

/-- The hypertree signature from layer `l` on, `cnt` layers. -/
def htSig (p : Params) (e : Env) (pub skSeed : List Byte) : (cnt l : Nat) → (msg : List Byte) → (t idx : Nat) → List Byte
  | 0, _, _, _, _ => []
  | cnt + 1, l, msg, t, idx => layerSig p e pub skSeed l t idx msg ++
      htSig p e pub skSeed cnt (l + 1) (htNode p e pub skSeed l t p.hp 0) (t / 2 ^ p.hp) (t % 2 ^ p.hp)

/-- The public root: the root of the only tree of the top layer. -/
def pkRoot (p : Params) (e : Env) (pub skSeed : List Byte) : Node := htNode p e pub skSeed (p.d - 1) 0 p.hp 0

/-- The address of the FORS key pair. -/
def forsBase (t idx : Nat) : Addr := setKeypair (layerAddr 0 t) idx

/-- The signature of the encoded message `mm` with randomizer `r`. -/
def signature (p : Params) (e : Env) (pub skSeed r mm : List Byte) : List Byte :=
  let h := hashMessage p e r (pub ++ pkRoot p e pub skSeed) mm
  r ++ forsSig p e pub skSeed (forsBase h.2.1 h.2.2) (forsIndex p h.1) ++
    htSig p e pub skSeed p.d 0 (forsPk p e pub skSeed (forsBase h.2.1 h.2.2)) h.2.1 h.2.2

end Spec
open Spec (layerAddr htLeaf htNode layerSig htSig pkRoot forsBase signature)

/-! ### Addresses -/

theorem setUll_eq (o : Nat) : ∀ (len x : Nat) (a : Addr) (j : Nat),
    setUll a o len x j = if o ≤ j ∧ j < o + len then b8 (x / 256 ^ (o + len - 1 - j)) else a j
  | 0, x, a, j => by rw [if_neg (by omega)]; rfl
  | len + 1, x, a, j => by
    unfold setUll
    rw [setUll_eq o len]
    by_cases h : o ≤ j ∧ j < o + len
    · rw [if_pos h, if_pos (by omega), Nat.div_div_eq_div_mul, ← Nat.pow_succ',
        show o + (len + 1) - 1 - j = o + len - 1 - j + 1 by omega]
    · rw [if_neg h]
      show (if j = o + len then _ else _) = _
      by_cases e : j = o + len
      · subst e
        rw [if_pos rfl, if_pos (by omega), show o + (len + 1) - 1 - (o + len) = 0 by omega, Nat.pow_zero, Nat.div_one]
      · rw [if_neg e, if_neg (by omega)]

theorem setTree_eq (a : Addr) (t j : Nat) : setTree a t j = if 8 ≤ j ∧ j < 16 then b8 (t / 256 ^ (15 - j)) else a j :=
  setUll_eq 8 8 t a j

/-- The tree address between two layers: layer, tree, height and index may differ. -/
def InvT (a : Addr) : Prop := ∀ j, (j < 27 ∨ 32 ≤ j) → j ≠ 3 → ¬ (8 ≤ j ∧ j < 16) → a j = setType zeroAddr 2 j

/-- The WOTS+ address between two layers. -/
def InvW (a : Addr) : Prop := ∀ j, 16 ≤ j → ¬ (20 ≤ j ∧ j < 24) → j ≠ 27 → j ≠ 31 → a j = 0

/-- The WOTS+ public key address between two layers. -/
def InvP (a : Addr) : Prop := ∀ j, 16 ≤ j → ¬ (20 ≤ j ∧ j < 24) → a j = setType zeroAddr 1 j

theorem layerAddr_high (l t j : Nat) (h : 16 ≤ j) : layerAddr l t j = 0 := by
  unfold Spec.layerAddr
  rw [if_neg (by omega), if_neg (by omega)]

theorem InvT.agree {a : Addr} (h : InvT a) (l t : Nat) : Agree (setTree (setLayer a l) t) (setType (layerAddr l t) 2) := by
  intro j hj
  rw [setTree_eq]
  show (if 8 ≤ j ∧ j < 16 then _ else if j = 3 then _ else _) = (if j = 19 then _ else if j = 3 then _ else if 8 ≤ j ∧ j < 16 then _ else _)
  by_cases h8 : 8 ≤ j ∧ j < 16
  · rw [if_pos h8, if_neg (by omega), if_neg (by omega), if_pos h8]
  · rw [if_neg h8]
    by_cases h3 : j = 3
    · rw [if_pos h3, if_neg (by omega), if_pos h3]
    · rw [if_neg h3, h j hj h3 h8]
      show (if j = 19 then _ else _) = _
      by_cases h19 : j = 19
      · rw [if_pos h19, if_pos h19]
      · rw [if_neg h19, if_neg h19, if_neg h3, if_neg h8]; rfl

theorem Agree.invT {a : Addr} {l t : Nat} (h : Agree a (setType (layerAddr l t) 2)) : InvT a := by
  intro j hj h3 h8
  rw [h j hj]
  show (if j = 19 then _ else if j = 3 then _ else if 8 ≤ j ∧ j < 16 then _ else _) = (if j = 19 then _ else _)
  rw [if_neg h3, if_neg h8]; rfl

theorem Agree.low {a : Addr} {l t : Nat} (h : Agree a (setType (layerAddr l t) 2)) (j : Nat) (hj : j < 16) :
    a j = layerAddr l t j := by
  rw [h j (by omega)]
  show (if j = 19 then _ else _) = _
  rw [if_neg (by omega)]

theorem InvT_init : InvT (setType zeroAddr 2) := fun _ _ _ _ => rfl

/-! ### One layer -/

section
variable (p : Params) (e : Env) (he : e.Len p.n) (hn : p.n ≤ 136) (hhp : 0 < p.hp) (pub skSeed : List Byte)
include he

theorem htLeaf_length (l t i : Nat) : (htLeaf p e pub skSeed l t i).length = p.n := he.T _ _ _

theorem htNode_length (l t h i : Nat) : (htNode p e pub skSeed l t h i).length = p.n :=
  node_length _ _ _ _ _ p.n (he.T pub) (htLeaf_length p e he pub skSeed l t) h i

theorem wotsSig_length (base : Addr) (c s : Nat) : (wotsSig e pub skSeed base c s).length = p.n :=
  chain_length e.T pub base c p.n (he.T pub) _ _ _ (he.prf _ _ _)

theorem layerSig_length (l t idx : Nat) (msg : List Byte) :
    (layerSig p e pub skSeed l t idx msg).length = (wotsLen p + p.hp) * p.n := by
  unfold layerSig
  rw [List.length_append, List.range_eq_range', List.range_eq_range', flat_length _ p.n _ _ (fun j _ => wotsSig_length p e he ..),
    flat_length _ p.n _ _ (fun j _ => htNode_length p e he ..), Nat.add_mul]

include hn in
/-- The root, signature and address that the signer computes for one layer. -/
theorem merkleSign_spec (l t idx : Nat) (msg : List Byte) (hm : msg.length = p.n) (wa ta : Addr)
    (hta : Agree ta (setType (layerAddr l t) 2)) (hwa : ∀ j < 16, wa j = layerAddr l t j) (sig0 auth0 : Nat → Node)
    (hs : ∀ c, (sig0 c).length = p.n) (ha : ∀ c, (auth0 c).length = p.n) :
    (merkleSign p e pub skSeed msg wa ta idx sig0 auth0).1 = some (htNode p e pub skSeed l t p.hp 0) ∧
    (idx < 2 ^ p.hp → layerBytes p (merkleSign p e pub skSeed msg wa ta idx sig0 auth0).2.1
      (merkleSign p e pub skSeed msg wa ta idx sig0 auth0).2.2.1 = layerSig p e pub skSeed l t idx msg) ∧
    Agree (merkleSign p e pub skSeed msg wa ta idx sig0 auth0).2.2.2 (setType (layerAddr l t) 2) := by
  have e1 : copySubtree zeroAddr wa = layerAddr l t := by
    funext j
    show (if j < 16 then _ else _) = _
    split
    · exact hwa j (by assumption)
    · rw [layerAddr_high _ _ _ (by omega)]; rfl
  have e2 : copySubtree (setType zeroAddr 1) wa = setType (layerAddr l t) 1 := by
    funext j
    show (if j < 16 then _ else if j = 19 then _ else _) = (if j = 19 then _ else _)
    by_cases hj : j < 16
    · rw [if_pos hj, if_neg (by omega)]; exact hwa j hj
    · rw [if_neg hj]
      split
      · rfl
      · rw [layerAddr_high _ _ _ (by omega)]; rfl
  have e3 : setType ta 2 = ta := setType_self (hta 19 (by decide))
  have hb : layerAddr l t 19 = 0 := layerAddr_high _ _ _ (by decide)
  have hts := treehash_spec (I := LeafInfo) e.T pub (setType (layerAddr l t) 2) 0 (htLeaf p e pub skSeed l t) p.n p.hp idx
    (he.T pub) (htLeaf_length p e he pub skSeed l t) (wotsGenLeaf p e pub skSeed idx (chainLengths p msg))
    (LeafInv p e pub skSeed (layerAddr l t) (setType (layerAddr l t) 1) idx (chainLengths p msg))
    (fun i _ s hP => wotsGenLeaf_spec p e he pub skSeed _ _ hb idx _ (chainLengths_le p hn msg hm) i s hP)
    ⟨fun _ => [], auth0, ta, ⟨sig0, layerAddr l t, setType (layerAddr l t) 1⟩⟩ hta (fun g _ => ha g)
    ⟨fun _ _ _ _ => rfl, fun _ _ => rfl, fun c _ => hs c, fun h => absurd h (Nat.not_lt_zero _)⟩
  unfold merkleSign
  dsimp only
  rw [e1, e2, e3]
  generalize treehash e.T pub idx 0 p.hp (wotsGenLeaf p e pub skSeed idx (chainLengths p msg))
    ⟨fun _ => [], auth0, ta, ⟨sig0, layerAddr l t, setType (layerAddr l t) 1⟩⟩ = r at hts ⊢
  obtain ⟨g1, g2, g3, g4, _⟩ := hts
  refine ⟨g1, fun hlt => ?_, g3⟩
  unfold layerBytes layerSig
  congr 1
  · rw [List.range_eq_range']
    apply map_flat_congr
    intro c _ hc
    rw [g4.sig hlt c (by omega), chainLengths_eq p hn msg hm]
  · rw [List.range_eq_range']
    apply map_flat_congr
    intro h _ hh
    exact g2 hlt h (by omega)

include hn in
theorem signLayers_spec (sig0 auth0 : Nat → Nat → Node) (hs : ∀ i c, (sig0 i c).length = p.n) (ha : ∀ i c, (auth0 i c).length = p.n) :
    ∀ (cnt l : Nat) (msg : Node) (t idx : Nat) (wa ta : Addr), msg.length = p.n → idx < 2 ^ p.hp → InvT ta →
      signLayers p e pub skSeed sig0 auth0 cnt l msg t idx wa ta = some (htSig p e pub skSeed cnt l msg t idx)
  | 0, _, _, _, _, _, _, _, _, _ => rfl
  | cnt + 1, l, msg, t, idx, wa, ta, hm, hidx, hta => by
    have hag := hta.agree l t
    have hms := merkleSign_spec p e he hn pub skSeed l t idx msg hm
      (setKeypair (copySubtree wa (setTree (setLayer ta l) t)) idx) (setTree (setLayer ta l) t) hag
      (by
        intro j hj
        rw [setKeypair_agreeP _ _ j (by omega)]
        show (if j < 16 then _ else _) = _
        rw [if_pos hj]
        exact hag.low j hj) (sig0 l) (auth0 l) (hs l) (ha l)
    unfold signLayers
    dsimp only
    generalize merkleSign p e pub skSeed msg (setKeypair (copySubtree wa (setTree (setLayer ta l) t)) idx)
      (setTree (setLayer ta l) t) idx (sig0 l) (auth0 l) = r at hms ⊢
    obtain ⟨g1, g2, g3⟩ := hms
    rw [g1, Option.bind_some, signLayers_spec sig0 auth0 hs ha cnt (l + 1) _ _ _ _ _ (htNode_length p e he ..)
      (Nat.mod_lt _ (Nat.two_pow_pos _)) g3.invT, Option.map_some, g2 hidx]
    rfl

theorem htSig_length : ∀ (cnt l : Nat) (msg : Node) (t idx : Nat),
    (htSig p e pub skSeed cnt l msg t idx).length = cnt * ((wotsLen p + p.hp) * p.n)
  | 0, _, _, _, _ => by rw [Nat.zero_mul]; rfl
  | cnt + 1, l, msg, t, idx => by
    unfold htSig
    rw [List.length_append, layerSig_length p e he, htSig_length cnt, Nat.succ_mul]; omega

include hn hhp in
theorem verifyLayers_spec : ∀ (cnt l : Nat) (msg : Node) (t idx : Nat) (wa ta pa : Addr) (sig pre : List Byte),
    msg.length = p.n → idx < 2 ^ p.hp → InvT ta → InvW wa → InvP pa →
    sig = pre ++ htSig p e pub skSeed (cnt + 1) l msg t idx →
    verifyLayers p e pub sig (cnt + 1) l pre.length msg t idx wa ta pa =
      htNode p e pub skSeed (l + cnt) (t / 2 ^ (p.hp * cnt)) p.hp 0 := by
  intro cnt
  induction cnt with
  | zero => ?_
  | succ cnt ih => ?_
  all_goals
    intro l msg t idx wa ta pa sig pre hm hidx hta hwa hpa hsig
    have hag := hta.agree l t
    have hW : AgreeW (setKeypair (copySubtree wa (setTree (setLayer ta l) t)) idx) (setKeypair (layerAddr l t) idx) := by
      apply AgreeK.setKeypair
      intro j h1 h2 h3
      show (if j < 16 then _ else _) = _
      split
      · exact hag.low j (by assumption)
      · rw [hwa j (by omega) (by omega) h2 h3, layerAddr_high _ _ _ (by omega)]
    have hPk : copyKeypair pa (setKeypair (copySubtree wa (setTree (setLayer ta l) t)) idx) =
        setKeypair (setType (layerAddr l t) 1) idx := by
      funext j
      show (if j < 16 ∨ (20 ≤ j ∧ j < 24) then _ else _) = _
      by_cases hj : j < 16
      · rw [if_pos (Or.inl hj), setKeypair_agreeP _ _ j (by omega), setKeypair_agreeP _ _ j (by omega)]
        show (if j < 16 then _ else _) = (if j = 19 then _ else _)
        rw [if_pos hj, if_neg (by omega)]
        exact hag.low j hj
      · by_cases h20 : 20 ≤ j ∧ j < 24
        · rw [if_pos (Or.inr h20)]
          unfold setKeypair setBe32
          repeat' split
          all_goals first
            | rfl
            | omega
        · rw [if_neg (by omega), hpa j (by omega) h20, setKeypair_agreeP _ _ j (by omega)]
          show (if j = 19 then _ else _) = (if j = 19 then _ else _)
          rw [layerAddr_high l t j (by omega)]; rfl
    have hdec : ∃ rest, sig = pre ++ (layerSig p e pub skSeed l t idx msg ++ rest) ∧ rest = htSig p e pub skSeed _ (l + 1)
        (htNode p e pub skSeed l t p.hp 0) (t / 2 ^ p.hp) (t % 2 ^ p.hp) := ⟨_, hsig, rfl⟩
    obtain ⟨rest, hsig, hrest⟩ := hdec
    have hwl : (((List.range (wotsLen p)).map fun c => wotsSig e pub skSeed (setKeypair (layerAddr l t) idx) c
        ((Spec.wotsDigits msg).getD c 0)).flatten).length = wotsLen p * p.n := by
      rw [List.range_eq_range', flat_length _ p.n _ _ (fun j _ => wotsSig_length p e he ..)]
    have hal : (((List.range p.hp).map fun h => htNode p e pub skSeed l t h (sibling (idx / 2 ^ h))).flatten).length = p.hp * p.n := by
      rw [List.range_eq_range', flat_length _ p.n _ _ (fun j _ => htNode_length p e he ..)]
    have s1 : ∀ c < wotsLen p, slice sig (pre.length + c * p.n) p.n =
        wotsSig e pub skSeed (setKeypair (layerAddr l t) idx) c ((chainLengths p msg).getD c 0) := by
      intro c hc
      have hle : (c + 1) * p.n ≤ wotsLen p * p.n := Nat.mul_le_mul_right _ hc
      rw [Nat.succ_mul] at hle
      rw [hsig, slice_append_right, slice_append_left _ _ _ _ (by rw [layerSig_length p e he, Nat.add_mul]; omega)]
      unfold layerSig
      rw [slice_append_left _ _ _ _ (by omega), flat_slice0 _ p.n _ _ (fun _ _ => wotsSig_length p e he ..) hc,
        chainLengths_eq p hn msg hm]
    have s2 : ∀ h < p.hp, slice sig (pre.length + wotsLen p * p.n + h * p.n) p.n =
        htNode p e pub skSeed l t h (sibling (idx / 2 ^ h)) := by
      intro h hh
      have hle : (h + 1) * p.n ≤ p.hp * p.n := Nat.mul_le_mul_right _ hh
      rw [Nat.succ_mul] at hle
      rw [hsig, Nat.add_assoc, slice_append_right,
        slice_append_left _ _ _ _ (by rw [layerSig_length p e he, Nat.add_mul]; omega)]
      unfold layerSig
      rw [← hwl, slice_append_right, flat_slice0 _ p.n _ _ (fun _ _ => htNode_length p e he ..) hh]
    have hw := wotsPkFromSig_spec p e pub skSeed (setKeypair (layerAddr l t) idx) msg (chainLengths_le p hn msg hm)
      (fun j => slice sig (pre.length + j * p.n) p.n) s1 _ hW
    have hcr := computeRoot_spec e.T pub (setType (layerAddr l t) 2) 0 (htLeaf p e pub skSeed l t) p.hp idx hhp hidx
      (fun h => slice sig (pre.length + wotsLen p * p.n + h * p.n) p.n) _ hag s2
    rw [Nat.add_zero] at hcr
    have hlf : e.T pub (abytes (setKeypair (setType (layerAddr l t) 1) idx)) (wotsPk p e pub skSeed (setKeypair (layerAddr l t) idx)) =
        htLeaf p e pub skSeed l t idx := rfl
    unfold verifyLayers
    dsimp only
    rw [hPk, hw.1, hlf, hcr.1]
  · rw [Nat.mul_zero, Nat.pow_zero, Nat.div_one]
    rfl
  · have hW' : InvW (wotsPkFromSig p e pub (fun j => slice sig (pre.length + j * p.n) p.n) msg
        (setKeypair (copySubtree wa (setTree (setLayer ta l) t)) idx)).2 := by
      intro j h1 h2 h3 h4
      rw [hw.2 j h3 h4, setKeypair_agreeP _ _ j (by omega), layerAddr_high _ _ _ h1]
    have hP' : InvP (setKeypair (setType (layerAddr l t) 1) idx) := by
      intro j h1 h2
      rw [setKeypair_agreeP _ _ j (by omega)]
      show (if j = 19 then _ else _) = (if j = 19 then _ else _)
      rw [layerAddr_high l t j h1]; rfl
    have := ih (l + 1) (htNode p e pub skSeed l t p.hp 0) (t / 2 ^ p.hp) (t % 2 ^ p.hp) _ _ _ sig
      (pre ++ layerSig p e pub skSeed l t idx msg) (htNode_length p e he ..) (Nat.mod_lt _ (Nat.two_pow_pos _)) hcr.2.invT
      hW' hP' (by rw [hsig, hrest, List.append_assoc])
    rw [List.length_append, layerSig_length p e he, Nat.add_mul, ← Nat.add_assoc] at this
    rw [show (htNode p e pub skSeed l t p.hp 0) = node e.T pub (setType (layerAddr l t) 2) 0 (htLeaf p e pub skSeed l t) p.hp 0 from rfl] at this
    rw [this, Nat.div_div_eq_div_mul, ← Nat.pow_add, show l + 1 + cnt = l + (cnt + 1) by omega,
      show p.hp + p.hp * cnt = p.hp * (cnt + 1) by rw [Nat.mul_succ]; omega]

end

/-! ### Keys, signing, verification -/

theorem params_facts (p : Params) (hp : p.Ok) : p.n ≤ 136 ∧ 0 < p.hp ∧ 0 < p.a ∧ 1 < p.d := by
  rcases hp with rfl | rfl | rfl | rfl | rfl | rfl <;> decide

/-- Key generation computes the root of the top tree. -/
theorem keyRoot_spec (p : Params) (hp : p.Ok) (e : Env) (he : e.Len p.n) (skSeed pub junk : List Byte) (hj : junk.length = p.n)
    (sig0 auth0 : Nat → Node) (hs : ∀ c, (sig0 c).length = p.n) (ha : ∀ c, (auth0 c).length = p.n) :
    keyRoot p e skSeed pub junk sig0 auth0 = some (pkRoot p e pub skSeed) := by
  have e0 : ∀ j, setLayer zeroAddr (p.d - 1) j = layerAddr (p.d - 1) 0 j := by
    intro j
    show (if j = 3 then _ else _) = (if j = 3 then _ else if 8 ≤ j ∧ j < 16 then _ else _)
    split
    · rfl
    · split
      · rw [Nat.zero_div]; rfl
      · rfl
  unfold keyRoot merkleGenRoot
  have h := merkleSign_spec p e he (params_facts p hp).1 pub skSeed (p.d - 1) 0 4294967295 junk hj
    (setLayer zeroAddr (p.d - 1)) (setType (setLayer zeroAddr (p.d - 1)) 2)
    (by
      intro j _
      show (if j = 19 then _ else _) = (if j = 19 then _ else _)
      rw [e0]) (fun j _ => e0 j) sig0 auth0 hs ha
  have hty : merkleSign p e pub skSeed junk (setLayer zeroAddr (p.d - 1)) (setType (setLayer zeroAddr (p.d - 1)) 2) 4294967295 sig0 auth0 =
      merkleSign p e pub skSeed junk (setLayer zeroAddr (p.d - 1)) (setLayer zeroAddr (p.d - 1)) 4294967295 sig0 auth0 := by
    unfold merkleSign
    rw [setType_setType]
  rw [hty] at h
  exact h.1

theorem hashMessage_range (p : Params) (e : Env) (r pk mm : List Byte) :
    (hashMessage p e r pk mm).2.1 < 2 ^ (p.hp * (p.d - 1)) ∧ (hashMessage p e r pk mm).2.2 < 2 ^ p.hp := by
  unfold hashMessage
  dsimp only
  refine ⟨?_, Nat.mod_lt _ (Nat.two_pow_pos _)⟩
  split
  · exact Nat.two_pow_pos _
  · exact Nat.mod_lt _ (Nat.two_pow_pos _)

theorem forsBase_eq (t idx : Nat) : copyKeypair zeroAddr (setKeypair (setTree (setType zeroAddr 0) t) idx) = forsBase t idx := by
  have e0 : setTree (setType zeroAddr 0) t = layerAddr 0 t := by
    funext j
    rw [setTree_eq]
    show (if 8 ≤ j ∧ j < 16 then _ else if j = 19 then _ else _) = (if j = 3 then _ else if 8 ≤ j ∧ j < 16 then _ else _)
    by_cases h8 : 8 ≤ j ∧ j < 16
    · rw [if_pos h8, if_neg (by omega), if_pos h8]
    · rw [if_neg h8, if_neg h8, show b8 0 = 0 by decide, show zeroAddr j = 0 from rfl]
      split <;> split <;> rfl
  rw [e0]
  funext j
  show (if j < 16 ∨ (20 ≤ j ∧ j < 24) then _ else _) = setKeypair (layerAddr 0 t) idx j
  split
  · rfl
  · rw [setKeypair_agreeP _ _ j (by omega), layerAddr_high _ _ _ (by omega)]; rfl

/-- The sizes of the scratch buffers and of the parts of the key: the buffers are arrays of nodes of the right size
with any content. -/
structure Bufs (p : Params) (sig0 auth0 fors0 : Nat → Nat → Node) : Prop where
  sig : ∀ i c, (sig0 i c).length = p.n
  auth : ∀ i c, (auth0 i c).length = p.n
  fors : ∀ i c, (fors0 i c).length = p.n

theorem forsPk_length (p : Params) (e : Env) (he : e.Len p.n) (pub skSeed : List Byte) (base : Addr) :
    (forsPk p e pub skSeed base).length = p.n := he.T _ _ _

/-- **C60 (signing)**: the signer outputs the signature of the specification, whatever the buffers contained before. -/
theorem signCtx_spec (p : Params) (hp : p.Ok) (e : Env) (he : e.Len p.n) (c : Setting) (m skSeed skPrf pub optrand : List Byte)
    (sig0 auth0 fors0 : Nat → Nat → Node) (hb : Bufs p sig0 auth0 fors0) :
    signCtx p e c m skSeed skPrf pub (pkRoot p e pub skSeed) optrand sig0 auth0 fors0 =
      if (encode p c m).1 = 0 then some (.sig (signature p e pub skSeed (e.rnd skPrf optrand (encode p c m).2) (encode p c m).2))
      else some (.err (encode p c m).1) := by
  obtain ⟨hn, -, -, -⟩ := params_facts p hp
  unfold signCtx
  dsimp only
  generalize encode p c m = mm
  by_cases h0 : mm.1 = 0
  · rw [if_neg (fun h => h h0), if_pos h0]
    generalize e.rnd skPrf optrand mm.2 = r
    have hr := hashMessage_range p e r (pub ++ pkRoot p e pub skSeed) mm.2
    unfold signature
    dsimp only
    generalize hashMessage p e r (pub ++ pkRoot p e pub skSeed) mm.2 = h at hr ⊢
    obtain ⟨s, hs1, hs2⟩ := forsSign_spec p e he pub skSeed h.1 (setKeypair (setTree (setType zeroAddr 0) h.2.1) h.2.2) fors0 hb.fors
    rw [forsBase_eq] at hs1 hs2
    rw [hs1, Option.bind_some]
    dsimp only
    rw [signLayers_spec p e he hn pub skSeed sig0 auth0 hb.sig hb.auth p.d 0 _ _ _ _ _ (forsPk_length p e he ..) hr.2 InvT_init,
      Option.map_some, hs2]
  · rw [if_pos h0, if_neg h0]

/-- LC_SPX_BYTES -/
theorem signature_length (p : Params) (e : Env) (he : e.Len p.n) (pub skSeed r mm : List Byte) (hr : r.length = p.n) :
    (signature p e pub skSeed r mm).length = p.n + (p.a + 1) * p.k * p.n + p.d * ((wotsLen p + p.hp) * p.n) := by
  unfold signature
  dsimp only
  rw [List.length_append, List.length_append, forsSig_length p e he, htSig_length p e he, hr]

/-- The verifier accepts the signature of the specification. -/
theorem verifyCtx_spec (p : Params) (hp : p.Ok) (e : Env) (he : e.Len p.n) (c : Setting) (m skSeed pub r : List Byte)
    (hpub : pub.length = p.n) (hr : r.length = p.n) (h0 : (encode p c m).1 = 0) :
    verifyCtx p e c m (pub ++ pkRoot p e pub skSeed) (signature p e pub skSeed r (encode p c m).2) = 0 := by
  obtain ⟨hn, hhp, ha, hd⟩ := params_facts p hp
  unfold verifyCtx
  dsimp only
  generalize encode p c m = mm at h0 ⊢
  rw [if_neg (fun h => h h0)]
  have hpk : slice (pub ++ pkRoot p e pub skSeed) 0 p.n = pub := by
    rw [slice_append_left _ _ _ _ (by omega), slice_all _ _ hpub]
  have hroot : slice (pub ++ pkRoot p e pub skSeed) p.n p.n = pkRoot p e pub skSeed := by
    have := slice_append_right pub (pkRoot p e pub skSeed) 0 p.n
    rw [hpub, Nat.add_zero] at this
    rw [this]
    exact slice_all _ _ (htNode_length p e he ..)
  have hrr : slice (signature p e pub skSeed r mm.2) 0 p.n = r := by
    unfold signature
    dsimp only
    rw [List.append_assoc, slice_append_left _ _ _ _ (by omega), slice_all _ _ hr]
  rw [hpk, hroot, hrr]
  have hrg := hashMessage_range p e r (pub ++ pkRoot p e pub skSeed) mm.2
  unfold signature
  dsimp only
  generalize hashMessage p e r (pub ++ pkRoot p e pub skSeed) mm.2 = h at hrg ⊢
  have hfl := forsSig_length p e he pub skSeed (forsBase h.2.1 h.2.2) (forsIndex p h.1)
  have hf := forsPkFromSig_spec p ha e he pub skSeed h.1 (setKeypair (setTree (setType zeroAddr 0) h.2.1) h.2.2)
  rw [forsBase_eq] at hf
  have hsf : slice (r ++ forsSig p e pub skSeed (forsBase h.2.1 h.2.2) (forsIndex p h.1) ++
      htSig p e pub skSeed p.d 0 (forsPk p e pub skSeed (forsBase h.2.1 h.2.2)) h.2.1 h.2.2) p.n ((p.a + 1) * p.k * p.n) =
      forsSig p e pub skSeed (forsBase h.2.1 h.2.2) (forsIndex p h.1) := by
    rw [slice_append_left _ _ _ _ (by rw [List.length_append, hr, hfl])]
    have := slice_append_right r (forsSig p e pub skSeed (forsBase h.2.1 h.2.2) (forsIndex p h.1)) 0 ((p.a + 1) * p.k * p.n)
    rw [hr, Nat.add_zero] at this
    rw [this, slice_all _ _ hfl]
  rw [hsf, hf]
  obtain ⟨d, hd'⟩ : ∃ d, p.d = d + 1 := ⟨p.d - 1, by omega⟩
  have hv := verifyLayers_spec p e he hn hhp pub skSeed d 0 (forsPk p e pub skSeed (forsBase h.2.1 h.2.2)) h.2.1 h.2.2
    (setKeypair (setTree (setType zeroAddr 0) h.2.1) h.2.2) (setType zeroAddr 2) (setType zeroAddr 1)
    (r ++ forsSig p e pub skSeed (forsBase h.2.1 h.2.2) (forsIndex p h.1) ++
      htSig p e pub skSeed (d + 1) 0 (forsPk p e pub skSeed (forsBase h.2.1 h.2.2)) h.2.1 h.2.2)
    (r ++ forsSig p e pub skSeed (forsBase h.2.1 h.2.2) (forsIndex p h.1))
    (forsPk_length p e he ..) hrg.2 InvT_init
    (by
      intro j h1 h2 _ _
      rw [setKeypair_agreeP _ _ j (by omega), setTree_eq, if_neg (by omega)]
      show (if j = 19 then _ else _) = _
      split <;> rfl)
    (fun _ _ _ => rfl) rfl
  rw [List.length_append, hr, hfl] at hv
  rw [hd', hv]
  have ht : h.2.1 / 2 ^ (p.hp * d) = 0 := by
    apply Nat.div_eq_of_lt
    have := hrg.1
    rw [hd', Nat.add_sub_cancel] at this
    exact this
  rw [ht, Nat.zero_add]
  have hpr : pkRoot p e pub skSeed = htNode p e pub skSeed d 0 p.hp 0 := by
    unfold pkRoot
    rw [hd', Nat.add_sub_cancel]
  rw [hpr]
  rw [if_neg (fun hne => hne ((LC.Kyber.memcmpB_eq _ _ _ _).2 rfl))]

/-- **C60**: a key pair from key generation, a signature from signing: verification returns 0.  Signing always returns,
and fails only when the message cannot be encoded. -/
theorem verify_accepts (p : Params) (hp : p.Ok) (e : Env) (he : e.Len p.n) (c : Setting)
    (m skSeed skPrf pub junk optrand : List Byte) (hpub : pub.length = p.n) (hj : junk.length = p.n)
    (ksig kauth : Nat → Node) (hks : ∀ i, (ksig i).length = p.n) (hka : ∀ i, (kauth i).length = p.n)
    (sig0 auth0 fors0 : Nat → Nat → Node) (hb : Bufs p sig0 auth0 fors0) :
    ∃ root, keyRoot p e skSeed pub junk ksig kauth = some root ∧ root.length = p.n ∧
      (((encode p c m).1 ≠ 0 ∧ signCtx p e c m skSeed skPrf pub root optrand sig0 auth0 fors0 = some (.err (encode p c m).1)) ∨
       ((encode p c m).1 = 0 ∧ ∃ sig, signCtx p e c m skSeed skPrf pub root optrand sig0 auth0 fors0 = some (.sig sig) ∧
          sig.length = p.n + (p.a + 1) * p.k * p.n + p.d * ((wotsLen p + p.hp) * p.n) ∧
          verifyCtx p e c m (pub ++ root) sig = 0)) := by
  refine ⟨_, keyRoot_spec p hp e he skSeed pub junk hj ksig kauth hks hka, htNode_length p e he .., ?_⟩
  rw [signCtx_spec p hp e he c m skSeed skPrf pub optrand sig0 auth0 fors0 hb]
  by_cases h0 : (encode p c m).1 = 0
  · refine Or.inr ⟨h0, _, if_pos h0, signature_length p e he _ _ _ _ (he.rnd _ _ _), ?_⟩
    exact verifyCtx_spec p hp e he c m skSeed pub _ hpub (he.rnd _ _ _) h0
  · exact Or.inl ⟨h0, if_neg h0⟩

/-- The signature lengths of FIPS 205, table 2. -/
theorem sig_sizes : ∀ p, p.Ok → p.n + (p.a + 1) * p.k * p.n + p.d * ((wotsLen p + p.hp) * p.n) =
    (if p = shake128s then 7856 else if p = shake128f then 17088 else if p = shake192s then 16224 else
     if p = shake192f then 35664 else if p = shake256s then 29792 else 49856) := by
  rintro p (rfl | rfl | rfl | rfl | rfl | rfl) <;> decide

end LC.Slh
