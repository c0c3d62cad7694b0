import Verif.Slh.Correct
import Verif.Kyber.Inst

/-!
SLH-DSA with SHAKE256, the address format of FIPS 205 and the uniqueness of the addresses (C69).
-/
namespace LC.Slh
open Sponge (updates finals)
open Sponge.Keccak (keccakpBytes)

/-- SHAKE256 with output length `n`. -/
def shake256 (m : List Byte) (n : Nat) : List Byte := Sponge.Spec.sponge Sponge.Spec.keccakBytes 136 0x1f m n

/-- The functions of FIPS 205, section 11.1: F, H, T_l (sphincs_thash_shake_simple.c:36-51), PRF (sphincs_hash.h:40-53),
PRF_msg and H_msg (sphincs_hash_shake.c:39-115) over SHAKE256. -/
def fips (p : Params) (lp64 avx2 : Bool) : Env where
  T pub a x := shake256 (pub ++ a ++ x) p.n
  prf pub a sk := shake256 (pub ++ a ++ sk) p.n
  rnd skPrf opt m := shake256 (skPrf ++ opt ++ m) p.n
  hmsg r pk m i := Sponge.Spec.outByte Sponge.Spec.keccakBytes 136 0x1f (r ++ pk ++ m) i
  lp64 := lp64
  avx2 := avx2

theorem fips_len (p : Params) (lp64 avx2 : Bool) : (fips p lp64 avx2).Len p.n :=
  ⟨fun _ _ _ => LC.Kyber.sponge_length .., fun _ _ _ => LC.Kyber.sponge_length .., fun _ _ _ => LC.Kyber.sponge_length ..⟩

/-- Three updates and one final with a digest size, as the C functions do. -/
theorem lib_shake (a b c : List Byte) (n : Nat) (h : a.length + b.length + c.length < 2 ^ 64) :
    (finals keccakpBytes (updates keccakpBytes (Sponge.init 136 0 0x1f) [a, b, c]) [n]).2.flatten = shake256 (a ++ b ++ c) n := by
  have hf : [a, b, c].flatten = a ++ b ++ c := by
    rw [List.flatten_cons, List.flatten_cons, List.flatten_singleton, List.append_assoc]
  have := (Sponge.keccak_streaming 136 (by decide) (by decide) 0x1f (by decide) 0 [a, b, c] (by
    rw [hf, List.length_append, List.length_append]; exact h) [n]).1
  rw [hf, show [n].sum = n by simp] at this
  exact this

/-- sphincs_thash_shake_simple.c:36-51 -/
theorem lib_thash (p : Params) (lp64 avx2 : Bool) (pub a x : List Byte) (h : pub.length + a.length + x.length < 2 ^ 64) :
    (finals keccakpBytes (updates keccakpBytes (Sponge.init 136 0 0x1f) [pub, a, x]) [p.n]).2.flatten = (fips p lp64 avx2).T pub a x :=
  lib_shake pub a x p.n h

/-- sphincs_hash.h:40-53 -/
theorem lib_prf (p : Params) (lp64 avx2 : Bool) (pub a x : List Byte) (h : pub.length + a.length + x.length < 2 ^ 64) :
    (finals keccakpBytes (updates keccakpBytes (Sponge.init 136 0 0x1f) [pub, a, x]) [p.n]).2.flatten = (fips p lp64 avx2).prf pub a x :=
  lib_shake pub a x p.n h

/-- sphincs_hash_shake.c:39-60; the domain separation feeds the encoded message in pieces `ms`
(`LC.DomSep.domSep_stream`). -/
theorem lib_rnd (p : Params) (lp64 avx2 : Bool) (skPrf opt : List Byte) (ms : List (List Byte))
    (h : skPrf.length + opt.length + ms.flatten.length < 2 ^ 64) :
    (finals keccakpBytes (updates keccakpBytes (Sponge.init 136 0 0x1f) (skPrf :: opt :: ms)) [p.n]).2.flatten =
      (fips p lp64 avx2).rnd skPrf opt ms.flatten := by
  have hf : (skPrf :: opt :: ms).flatten = skPrf ++ opt ++ ms.flatten := by
    rw [List.flatten_cons, List.flatten_cons, List.append_assoc]
  have := (Sponge.keccak_streaming 136 (by decide) (by decide) 0x1f (by decide) 0 (skPrf :: opt :: ms) (by
    rw [hf, List.length_append, List.length_append]; exact h) [p.n]).1
  rw [hf, show [p.n].sum = p.n by simp] at this
  exact this

/-- sphincs_hash_shake.c:67-92 -/
theorem lib_hmsg (p : Params) (lp64 avx2 : Bool) (r pk : List Byte) (ms : List (List Byte)) (n : Nat)
    (h : r.length + pk.length + ms.flatten.length < 2 ^ 64) :
    (finals keccakpBytes (updates keccakpBytes (Sponge.init 136 0 0x1f) (r :: pk :: ms)) [n]).2.flatten =
      (List.range n).map ((fips p lp64 avx2).hmsg r pk ms.flatten) := by
  have hf : (r :: pk :: ms).flatten = r ++ pk ++ ms.flatten := by
    rw [List.flatten_cons, List.flatten_cons, List.append_assoc]
  have := (Sponge.keccak_streaming 136 (by decide) (by decide) 0x1f (by decide) 0 (r :: pk :: ms) (by
    rw [hf, List.length_append, List.length_append]; exact h) [n]).1
  rw [hf, show [n].sum = n by simp] at this
  exact this

/-- **C60 for SLH-DSA as used**: SHAKE256, the six parameter sets. -/
theorem slh_dsa_correct (p : Params) (hp : p.Ok) (lp64 avx2 : Bool) (c : Setting)
    (m skSeed skPrf pub optrand : List Byte) (hpub : pub.length = p.n)
    (sig0 auth0 fors0 : Nat → Nat → Node) (hb : Bufs p sig0 auth0 fors0) (h0 : (encode p c m).1 = 0) :
    ∃ root sig, keyRoot p (fips p lp64 avx2) skSeed pub (List.replicate p.n 0) (sig0 0) (auth0 0) = some root ∧
      signCtx p (fips p lp64 avx2) c m skSeed skPrf pub root optrand sig0 auth0 fors0 = some (.sig sig) ∧
      verifyCtx p (fips p lp64 avx2) c m (pub ++ root) sig = 0 := by
  obtain ⟨root, h1, _, h | ⟨_, sig, h2, _, h3⟩⟩ := verify_accepts p hp (fips p lp64 avx2) (fips_len p lp64 avx2) c m skSeed skPrf pub
    (List.replicate p.n 0) optrand hpub List.length_replicate (sig0 0) (auth0 0) (hb.sig 0) (hb.auth 0) sig0 auth0 fors0 hb
  · exact absurd h0 h.1
  · exact ⟨root, sig, h1, h2, h3⟩

/-- The hypotheses can be met: zero buffers, a message with a context. -/
example : ∃ (pub : List Byte) (b : Nat → Nat → Node) (c : Setting), pub.length = shake192f.n ∧ Bufs shake192f b b b ∧
    (encode shake192f c [1, 2, 3]).1 = 0 :=
  ⟨List.replicate 24 7, fun _ _ => List.replicate 24 0, ⟨false, none, [9, 9]⟩, by decide,
   ⟨fun _ _ => List.length_replicate, fun _ _ => List.length_replicate, fun _ _ => List.length_replicate⟩, by decide⟩

/-! ### Addresses -/
namespace Spec

/-- toByte of FIPS 205: `n` bytes, big endian. -/
def toByte (x : Nat) : (n : Nat) → List Byte
  | 0 => []
  | n + 1 => toByte (x / 256) n ++ [UInt8.ofNat x]

/-- ADRS of FIPS 205, section 4.2: layer address, tree address, type and three words. -/
def adrs (layer tree type w1 w2 w3 : Nat) : List Byte :=
  toByte layer 4 ++ toByte tree 12 ++ toByte type 4 ++ toByte w1 4 ++ toByte w2 4 ++ toByte w3 4

/-- What the hash is called for. -/
inductive Pos
  | wotsHash (l t kp chain i : Nat)
  | wotsPk (l t kp : Nat)
  | tree (l t h i : Nat)
  | forsTree (t kp h i : Nat)
  | forsRoots (t kp : Nat)
  | wotsPrf (l t kp chain : Nat)
  | forsPrf (t kp i : Nat)
  deriving DecidableEq

/-- The positions that occur: the trees, leaves, chains and nodes of a parameter set. -/
def Pos.InRange (p : Params) : Pos → Prop
  | wotsHash l t kp c i => l < p.d ∧ t < 2 ^ (p.hp * (p.d - 1)) ∧ kp < 2 ^ p.hp ∧ c < wotsLen p ∧ i < 15
  | wotsPk l t kp => l < p.d ∧ t < 2 ^ (p.hp * (p.d - 1)) ∧ kp < 2 ^ p.hp
  | tree l t h i => l < p.d ∧ t < 2 ^ (p.hp * (p.d - 1)) ∧ 0 < h ∧ h ≤ p.hp ∧ i < 2 ^ p.hp
  | forsTree t kp h i => t < 2 ^ (p.hp * (p.d - 1)) ∧ kp < 2 ^ p.hp ∧ h ≤ p.a ∧ i < p.k * 2 ^ p.a
  | forsRoots t kp => t < 2 ^ (p.hp * (p.d - 1)) ∧ kp < 2 ^ p.hp
  | wotsPrf l t kp c => l < p.d ∧ t < 2 ^ (p.hp * (p.d - 1)) ∧ kp < 2 ^ p.hp ∧ c < wotsLen p
  | forsPrf t kp i => t < 2 ^ (p.hp * (p.d - 1)) ∧ kp < 2 ^ p.hp ∧ i < p.k * 2 ^ p.a

/-- The address of FIPS 205 (types 0 to 6, section 4.2). -/
def Pos.fips : Pos → List Byte
  | wotsHash l t kp c i => adrs l t 0 kp c i
  | wotsPk l t kp => adrs l t 1 kp 0 0
  | tree l t h i => adrs l t 2 0 h i
  | forsTree t kp h i => adrs 0 t 3 kp h i
  | forsRoots t kp => adrs 0 t 4 kp 0 0
  | wotsPrf l t kp c => adrs l t 5 kp c 0
  | forsPrf t kp i => adrs 0 t 6 kp 0 i

/-- The address that the code uses (the arguments of the hash calls in `Spec.chain`, `Spec.xleaf`, `Spec.node`,
`Spec.forsLeaf`, `Spec.forsPk`, `Spec.wotsSk`, `Spec.forsSk`). -/
def Pos.code : Pos → List Byte
  | wotsHash l t kp c i => abytes (setHash (setChain (setKeypair (layerAddr l t) kp) c) i)
  | wotsPk l t kp => abytes (setKeypair (setType (layerAddr l t) 1) kp)
  | tree l t h i => abytes (nodeAddr (setType (layerAddr l t) 2) h i)
  | forsTree t kp h i => if h = 0 then abytes (setType (setIndex (forsBase t kp) i) 3)
      else abytes (nodeAddr (setType (forsBase t kp) 3) h i)
  | forsRoots t kp => abytes (setType (forsBase t kp) 4)
  | wotsPrf l t kp c => abytes (setType (setHash (setChain (setKeypair (layerAddr l t) kp) c) 0) 5)
  | forsPrf t kp i => abytes (setType (setIndex (forsBase t kp) i) 6)

end Spec
open Spec (Pos adrs toByte)

theorem toByte_length (n : Nat) : ∀ x, (toByte x n).length = n := by
  induction n with
  | zero => intro x; rfl
  | succ n ih => intro x; unfold toByte; rw [List.length_append, ih]; rfl

theorem toByte_inj (n : Nat) : ∀ x y, x < 256 ^ n → y < 256 ^ n → toByte x n = toByte y n → x = y := by
  induction n with
  | zero => intro x y hx hy _; rw [Nat.pow_zero] at hx hy; omega
  | succ n ih =>
    intro x y hx hy h
    unfold toByte at h
    have h2 := List.append_inj h (by rw [toByte_length, toByte_length])
    rw [Nat.pow_succ] at hx hy
    have h3 := ih _ _ (Nat.div_lt_of_lt_mul (by omega)) (Nat.div_lt_of_lt_mul (by omega)) h2.1
    have h4 : (UInt8.ofNat x).toNat = (UInt8.ofNat y).toNat := by
      have := h2.2
      injection this with this _
      rw [this]
    rw [UInt8.toNat_ofNat', UInt8.toNat_ofNat'] at h4
    omega

theorem adrs_inj {l t ty a b c l' t' ty' a' b' c' : Nat} (h : adrs l t ty a b c = adrs l' t' ty' a' b' c')
    (hl : l < 2 ^ 32) (hl' : l' < 2 ^ 32) (ht : t < 2 ^ 96) (ht' : t' < 2 ^ 96) (hty : ty < 2 ^ 32) (hty' : ty' < 2 ^ 32)
    (ha : a < 2 ^ 32) (ha' : a' < 2 ^ 32) (hb : b < 2 ^ 32) (hb' : b' < 2 ^ 32) (hc : c < 2 ^ 32) (hc' : c' < 2 ^ 32) :
    l = l' ∧ t = t' ∧ ty = ty' ∧ a = a' ∧ b = b' ∧ c = c' := by
  unfold adrs at h
  have h6 := List.append_inj' h (by rw [toByte_length, toByte_length])
  have h5 := List.append_inj' h6.1 (by rw [toByte_length, toByte_length])
  have h4 := List.append_inj' h5.1 (by rw [toByte_length, toByte_length])
  have h3 := List.append_inj' h4.1 (by rw [toByte_length, toByte_length])
  have h2 := List.append_inj' h3.1 (by rw [toByte_length, toByte_length])
  exact ⟨toByte_inj 4 _ _ hl hl' h2.1, toByte_inj 12 _ _ ht ht' h2.2, toByte_inj 4 _ _ hty hty' h3.2,
    toByte_inj 4 _ _ ha ha' h4.2, toByte_inj 4 _ _ hb hb' h5.2, toByte_inj 4 _ _ hc hc' h6.2⟩

theorem b8_zero {x : Nat} (h : x = 0) : UInt8.ofNat x = 0 := by rw [h]; rfl

theorem toByte4_small (x : Nat) (h : x < 256) : toByte x 4 = [0, 0, 0, b8 x] := by
  show [UInt8.ofNat (x / 256 / 256 / 256), UInt8.ofNat (x / 256 / 256), UInt8.ofNat (x / 256), UInt8.ofNat x] = _
  rw [b8_zero (show x / 256 / 256 / 256 = 0 by omega), b8_zero (show x / 256 / 256 = 0 by omega),
    b8_zero (show x / 256 = 0 by omega)]
  rfl

theorem toByte4 (x : Nat) : toByte x 4 = [b8 (x / 2 ^ 24), b8 (x / 2 ^ 16), b8 (x / 2 ^ 8), b8 x] := by
  show [UInt8.ofNat (x / 256 / 256 / 256), UInt8.ofNat (x / 256 / 256), UInt8.ofNat (x / 256), UInt8.ofNat x] = _
  rw [show x / 256 / 256 / 256 = x / 2 ^ 24 by omega, show x / 256 / 256 = x / 2 ^ 16 by omega]
  rfl

theorem toByte12 (t : Nat) (h : t < 2 ^ 64) : toByte t 12 = [0, 0, 0, 0, b8 (t / 256 ^ 7), b8 (t / 256 ^ 6), b8 (t / 256 ^ 5),
    b8 (t / 256 ^ 4), b8 (t / 256 ^ 3), b8 (t / 256 ^ 2), b8 (t / 256 ^ 1), b8 (t / 256 ^ 0)] := by
  have hd : ∀ x i, x / 256 ^ i / 256 = x / 256 ^ (i + 1) := fun x i => by
    rw [Nat.div_div_eq_div_mul, ← Nat.pow_succ]
  have hz : ∀ i, 8 ≤ i → t / 256 ^ i = 0 := fun i hi => by
    apply Nat.div_eq_of_lt
    calc t < 2 ^ 64 := h
      _ = 256 ^ 8 := by decide
      _ ≤ 256 ^ i := Nat.pow_le_pow_right (by decide) hi
  have h0 : t = t / 256 ^ 0 := by rw [Nat.pow_zero, Nat.div_one]
  have key : ∀ n i, toByte (t / 256 ^ i) n = ((List.range' i n).map fun j => b8 (t / 256 ^ j)).reverse := by
    intro n
    induction n with
    | zero => intro i; rfl
    | succ n ih =>
      intro i
      unfold toByte
      rw [hd, ih, List.range'_succ, List.map_cons, List.reverse_cons]
      rfl
  have := key 12 0
  rw [← h0] at this
  rw [this]
  show [b8 (t / 256 ^ 11), b8 (t / 256 ^ 10), b8 (t / 256 ^ 9), b8 (t / 256 ^ 8), b8 (t / 256 ^ 7), b8 (t / 256 ^ 6), b8 (t / 256 ^ 5),
    b8 (t / 256 ^ 4), b8 (t / 256 ^ 3), b8 (t / 256 ^ 2), b8 (t / 256 ^ 1), b8 (t / 256 ^ 0)] = _
  rw [hz 11 (by decide), hz 10 (by decide), hz 9 (by decide), hz 8 (by decide)]
  rfl

theorem range_facts (p : Params) (hp : p.Ok) : p.d ≤ 256 ∧ 2 ^ (p.hp * (p.d - 1)) ≤ 2 ^ 64 ∧ 2 ^ p.hp ≤ 2 ^ 32 ∧ wotsLen p ≤ 256 ∧
    p.a < 256 ∧ p.hp < 256 ∧ p.k * 2 ^ p.a ≤ 2 ^ 32 := by
  rcases hp with rfl | rfl | rfl | rfl | rfl | rfl <;> decide

/-- The address bytes of the code are those of FIPS 205. -/
theorem code_fips (p : Params) (hp : p.Ok) (x : Pos) (hx : x.InRange p) : x.code = x.fips := by
  obtain ⟨f1, f2, f3, f4, f5, f6, f7⟩ := range_facts p hp
  cases x with
  | wotsHash l t kp c i =>
    obtain ⟨h1, h2, h3, h4, h5⟩ := hx
    unfold Pos.fips Pos.code adrs; dsimp only
    rw [toByte4_small l (by omega), toByte12 t (by omega), toByte4 kp, toByte4_small 0 (by decide), toByte4_small c (by omega),
      toByte4_small i (by omega)]
    rfl
  | wotsPk l t kp =>
    obtain ⟨h1, h2, h3⟩ := hx
    unfold Pos.fips Pos.code adrs; dsimp only
    rw [toByte4_small l (by omega), toByte12 t (by omega), toByte4 kp, toByte4_small 0 (by decide), toByte4_small 1 (by decide)]
    rfl
  | tree l t h i =>
    obtain ⟨h1, h2, h3, h4, h5⟩ := hx
    unfold Pos.fips Pos.code adrs; dsimp only
    rw [toByte4_small l (by omega), toByte12 t (by omega), toByte4_small 0 (by decide), toByte4_small 2 (by decide),
      toByte4_small h (by omega), toByte4 i]
    rfl
  | forsTree t kp h i =>
    obtain ⟨h1, h2, h3, h4⟩ := hx
    unfold Pos.fips Pos.code adrs; dsimp only
    rw [toByte12 t (by omega), toByte4 kp, toByte4_small 0 (by decide), toByte4_small 3 (by decide), toByte4_small h (by omega), toByte4 i]
    by_cases e : h = 0
    · rw [if_pos e, e]; rfl
    · rw [if_neg e]; rfl
  | forsRoots t kp =>
    obtain ⟨h1, h2⟩ := hx
    unfold Pos.fips Pos.code adrs; dsimp only
    rw [toByte12 t (by omega), toByte4 kp, toByte4_small 0 (by decide), toByte4_small 4 (by decide)]
    rfl
  | wotsPrf l t kp c =>
    obtain ⟨h1, h2, h3, h4⟩ := hx
    unfold Pos.fips Pos.code adrs; dsimp only
    rw [toByte4_small l (by omega), toByte12 t (by omega), toByte4 kp, toByte4_small 0 (by decide), toByte4_small 5 (by decide),
      toByte4_small c (by omega)]
    rfl
  | forsPrf t kp i =>
    obtain ⟨h1, h2, h3⟩ := hx
    unfold Pos.fips Pos.code adrs; dsimp only
    rw [toByte12 t (by omega), toByte4 kp, toByte4_small 0 (by decide), toByte4_small 6 (by decide), toByte4 i]
    rfl

/-- **C69**: two hash calls for different positions of the structure have different addresses. -/
theorem code_injective (p : Params) (hp : p.Ok) (x y : Pos) (hx : x.InRange p) (hy : y.InRange p) (h : x.code = y.code) : x = y := by
  rw [code_fips p hp x hx, code_fips p hp y hy] at h
  obtain ⟨f1, f2, f3, f4, f5, f6, f7⟩ := range_facts p hp
  cases x <;> cases y <;> unfold Pos.InRange at hx hy <;> unfold Pos.fips at h <;> dsimp only at hx hy h <;>
    have hh := adrs_inj h (by omega) (by omega) (by omega) (by omega) (by omega) (by omega) (by omega) (by omega) (by omega)
      (by omega) (by omega) (by omega)
  all_goals
    obtain ⟨g1, g2, g3, g4, g5, g6⟩ := hh
    first
      | (exact absurd g3 (by decide))
      | (subst_vars; rfl)

example : (Pos.forsTree 5 3 2 17).InRange shake128f ∧ (Pos.tree 1 5 2 1).InRange shake128f := by
  unfold Spec.Pos.InRange; decide

end LC.Slh
