import Verif.AsconHash.Lemmas
/-
C04: chunking independence of Ascon-Hash256 / Ascon-XOF128.
-/
namespace LC.AsconHash
open LC.Sponge (Byte xorAt absorbTail absorbTail_nil)
open LC.Sponge.Spec (iter)

/-- The word level permutations of the C code are the SP 800-232 permutations (table
S-box, linear layer, round constants). -/
theorem ascon_perm_sp800_232 (s : Words) :
    perm12 s = Spec.perm 12 s ∧ perm8 s = Spec.perm 8 s :=
  ⟨perm12_eq s, perm8_eq s⟩

/-- The hard-coded initial states are `p[12](IV || 0)`. -/
theorem ascon_initial_states :
    ofWords state256 = Spec.initial 0x0000080100cc0002 ∧
    ofWords stateXof = Spec.initial 0x0000080000cc0003 ∧
    ofWords stateCxof = Spec.initial 0x0000080000cc0004 := by
  decide +kernel

/-- The full claim of C04 for the streaming layer (any permutation, any update
sequence).  It is false, see `ascon_chunking_violated`. -/
def ChunkingClaim (perm : List Byte → List Byte) (iv : List Byte) : Prop :=
  ∀ (chunks : List (List Byte)) (d : Nat), chunks.flatten.length < 2 ^ 64 →
    (finals perm 8 (chunks.foldl (absorb perm 8) (init iv)) [d]).2 =
      [Spec.hash perm 8 iv chunks.flatten d]

/-- What holds: for every permutation, every list of update calls that never
completes a previously started block exactly, and every list of squeeze sizes, the
concatenated output is the SP 800-232 output of the concatenated message.
Missing for the full claim: update calls that start inside a block and end exactly
at a block boundary. -/
theorem ascon_streaming_partial (perm : List Byte → List Byte) (r N : Nat) (hr : 0 < r)
    (hrN : r ≤ N) (hp : ∀ s, (perm s).length = N) (iv : List Byte)
    (chunks : List (List Byte)) (hlen : chunks.flatten.length < 2 ^ 64)
    (hg : GoodCuts r 0 chunks) (ds : List Nat) :
    (finals perm r (chunks.foldl (absorb perm r) (init iv)) ds).2.flatten =
        Spec.hash perm r iv chunks.flatten ds.sum ∧
    (finals perm r (chunks.foldl (absorb perm r) (init iv)) ds).2.map List.length = ds := by
  have h := updates_inv perm r hr iv chunks (init iv) [] ⟨by rw [absorbTail_nil]; rfl, rfl, rfl, rfl⟩
    (by simpa using hlen) hg
  rw [List.nil_append] at h
  obtain ⟨hs, hm, ho, hq⟩ := h
  cases ds with
  | nil => simp [finals, Spec.hash]
  | cons d ds =>
    rw [finals_pad perm r _ hq, hs, hm, padded_state perm r hr iv]
    have hl : (Spec.absorbed perm r iv (Spec.pad r chunks.flatten)
        ((Spec.pad r chunks.flatten).length / r)).length = N := by
      rw [pad_length r hr, Nat.mul_div_cancel _ hr]
      exact hp _
    constructor
    · rw [finals_squeezed perm r N hr hrN hp _ hl _ _ 0 rfl
        (by rw [Nat.zero_mod]; exact ho) (by rw [Nat.zero_div]; rfl)]
      simp only [Nat.zero_add]
      rfl
    · exact finals_lengths perm r N hr hrN hp _ hl _ _ 0 rfl
        (by rw [Nat.zero_mod]; exact ho) (by rw [Nat.zero_div]; rfl)

theorem permBytes_eq : permBytes = Spec.permBytes := by
  funext l; simp [permBytes, Spec.permBytes, perm12_eq]

/-- Ascon-Hash256 on every list of updates without a bad cut. -/
theorem ascon_hash256_partial (chunks : List (List Byte)) (hlen : chunks.flatten.length < 2 ^ 64)
    (hg : GoodCuts 8 0 chunks) : hash256 chunks = Spec.hash256 chunks.flatten := by
  have h := (ascon_streaming_partial permBytes 8 40 (by decide) (by decide)
    (fun s => ofWords_length _) (ofWords state256) chunks hlen hg [32]).1
  simp only [finals, List.flatten_cons, List.flatten_nil, List.append_nil] at h
  unfold hash256 Spec.hash256
  rw [h, permBytes_eq, ascon_initial_states.1]
  rfl

/-- Ascon-XOF128 on every list of updates without a bad cut and every sequence of
squeeze calls. -/
theorem ascon_xof128_partial (chunks : List (List Byte)) (hlen : chunks.flatten.length < 2 ^ 64)
    (hg : GoodCuts 8 0 chunks) (ds : List Nat) :
    (xof128 chunks ds).flatten = Spec.xof128 chunks.flatten ds.sum ∧
      (xof128 chunks ds).map List.length = ds := by
  have h := ascon_streaming_partial permBytes 8 40 (by decide) (by decide)
    (fun s => ofWords_length _) (ofWords stateXof) chunks hlen hg ds
  unfold xof128 Spec.xof128
  refine ⟨?_, h.2⟩
  rw [h.1, permBytes_eq, ascon_initial_states.2.1]

/-- The one-shot interface (`lc_hash`) is right for every message. -/
theorem ascon_hash256_oneshot (m : List Byte) (hlen : m.length < 2 ^ 64) :
    hash256 [m] = Spec.hash256 m := by
  have h := ascon_hash256_partial [m] (by simpa using hlen)
    ⟨fun h => absurd (Nat.zero_mod 8) h, trivial⟩
  simpa using h

/-- The full claim is false for Ascon-Hash256 as shipped: updating with 4 + 4 bytes
and with 8 bytes gives different digests, and only the latter is SP 800-232. -/
theorem ascon_chunking_violated :
    hash256 [[0, 1, 2, 3], [4, 5, 6, 7]] ≠ hash256 [[0, 1, 2, 3, 4, 5, 6, 7]] ∧
    hash256 [[0, 1, 2, 3], [4, 5, 6, 7]] ≠ Spec.hash256 [0, 1, 2, 3, 4, 5, 6, 7] := by
  have h : hash256 [[0, 1, 2, 3], [4, 5, 6, 7]] ≠ hash256 [[0, 1, 2, 3, 4, 5, 6, 7]] := by
    decide +kernel
  refine ⟨h, ?_⟩
  rw [← ascon_hash256_oneshot _ (by decide)]
  exact h

theorem ascon_chunkingClaim_false : ¬ ChunkingClaim permBytes (ofWords state256) := by
  intro h
  have h1 := h [[0, 1, 2, 3], [4, 5, 6, 7]] 32 (by decide)
  have h2 := h [[0, 1, 2, 3, 4, 5, 6, 7]] 32 (by decide)
  have h3 := h1.trans h2.symm
  apply ascon_chunking_violated.1
  have h4 : (finals permBytes 8 ([[0, 1, 2, 3], [4, 5, 6, 7]].foldl (absorb permBytes 8)
      (init (ofWords state256))) [32]).2 = [hash256 [[0, 1, 2, 3], [4, 5, 6, 7]]] := rfl
  have h5 : (finals permBytes 8 ([[0, 1, 2, 3, 4, 5, 6, 7]].foldl (absorb permBytes 8)
      (init (ofWords state256))) [32]).2 = [hash256 [[0, 1, 2, 3, 4, 5, 6, 7]]] := rfl
  rw [h4, h5] at h3
  exact (List.cons.inj h3).1

/-- Worse: with a bad cut the block boundary is forgotten, so the different
messages `a b c` and `c b a`, given in three updates of 4 bytes, lead to the same
context and hence to the same digest (bytes 8..11 are xored onto bytes 0..3). -/
theorem ascon_chunking_collision (a b c : List Byte) (ha : a.length = 4) (hb : b.length = 4)
    (perm : List Byte → List Byte) (iv : List Byte) (hc : c.length = 4) :
    [a, b, c].foldl (absorb perm 8) (init iv) = [c, b, a].foldl (absorb perm 8) (init iv) := by
  have small : ∀ (st x : List Byte), x.length = 4 → absorbTail perm 8 st x = xorAt st 0 x := by
    intro st x hx
    rw [LC.Sponge.absorbTail_eq perm 8 (by decide), if_neg (by omega)]
  have comm : ∀ (st : List Byte) (i j : Nat) (x y : List Byte),
      xorAt (xorAt st i x) j y = xorAt (xorAt st j y) i x := by
    intro st i j x y
    apply List.ext_getElem
    · simp [xorAt]
    · intro k h1 h2
      simp only [xorAt, List.getElem_mapIdx, UInt8.xor_assoc]
      congr 1
      rw [UInt8.xor_comm]
  simp only [List.foldl_cons, List.foldl_nil, absorb, init, ha, hb, hc, List.length_drop]
  simp only [List.drop_of_length_le (show b.length ≤ 8 - 4 by omega),
    List.take_of_length_le (show b.length ≤ 8 - 4 by omega), absorbTail_nil, small _ _ ha,
    small _ _ hc, Nat.reduceMod, Nat.reduceAdd, Nat.reduceSub, Nat.lt_irrefl, ne_eq,
    not_true_eq_false, not_false_eq_true, if_false, if_true, Nat.reduceEqDiff, Nat.zero_mod,
    Nat.reducePow, Nat.zero_add]
  rw [comm (xorAt iv 0 a), comm iv 0 0, comm (xorAt iv 0 c) 0 4 a b]

/-- Concrete collision of Ascon-Hash256. -/
example : hash256 [[0, 1, 2, 3], [4, 5, 6, 7], [8, 9, 10, 11]] =
    hash256 [[8, 9, 10, 11], [4, 5, 6, 7], [0, 1, 2, 3]] := by
  unfold hash256
  rw [ascon_chunking_collision _ _ _ rfl rfl _ _ rfl]

/-- Non-vacuity: cuts inside blocks, cuts covering several blocks, empty updates. -/
example : GoodCuts 8 0 [[1, 2, 3], [], [4, 5, 6, 7, 8, 9, 10, 11, 12, 13, 14, 15, 16], [17]] ∧
    ¬ GoodCuts 8 0 [[1, 2, 3, 4], [5, 6, 7, 8]] := by
  simp [GoodCuts]

/-- Known answers: the empty message, and the Ascon-XOF128 self test of the library. -/
example : hash256 [[]] =
    [11, 59, 229, 133, 15, 47, 107, 152, 202, 242, 159, 143, 222, 168, 155, 100, 161, 250, 112,
     170, 36, 155, 143, 131, 155, 213, 59, 170, 48, 77, 146, 178] := by decide +kernel

example : (xof128 [[0, 1, 2, 3]] [3, 13, 16]).flatten =
    [0x21, 0xF7, 0xFD, 0x74, 0x58, 0x8E, 0x24, 0x4A, 0xF4, 0x5F, 0x90, 0x16, 0xB8, 0xDB,
     0x19, 0xB8, 0x57, 0xEC, 0x5E, 0x62, 0x08, 0x97, 0x8C, 0xFC, 0x1B, 0x46, 0x11, 0xED,
     0x91, 0xFB, 0x38, 0xF8] := by decide +kernel

end LC.AsconHash
