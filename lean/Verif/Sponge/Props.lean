import Verif.Sponge.Lemmas
import Verif.Sponge.KeccakLemmas
/-
Property theorems for the Keccak sponge (C02, C03).
-/
namespace LC.Sponge
open Spec

/-- Spec: FIPS 202 Keccak-p[1600,24] on the byte view of the state. -/
def Spec.keccakBytes (st : List Byte) : List Byte :=
  (Keccak.Fips.keccak (Keccak.lanes st)).flatMap Keccak.wordBytes

/-- **C02 (permutation)**: the C permutation computes Keccak-p[1600,24] of FIPS
202 (theta, rho, pi, chi, iota with LFSR round constants) on every state. -/
theorem keccakp_eq_fips (s : List Keccak.W) (h : s.length = 25) :
    Keccak.keccakp s = Keccak.Fips.keccak s := by
  unfold Keccak.keccakp Keccak.Fips.keccak
  rw [Keccak.iotaVals_eq]
  exact Keccak.foldl_round _ s h

theorem keccakpBytes_eq_fips : Keccak.keccakpBytes = Spec.keccakBytes := by
  funext st
  unfold Keccak.keccakpBytes Spec.keccakBytes
  rw [keccakp_eq_fips _ (by simp [Keccak.lanes])]

theorem keccakpBytes_length (s : List Byte) : (Keccak.keccakpBytes s).length = 200 := by
  have h : ∀ l : List Keccak.W, (l.flatMap Keccak.wordBytes).length = 8 * l.length := by
    intro l
    induction l with
    | nil => rfl
    | cons x xs ih => simp [List.flatMap_cons, ih, Keccak.wordBytes]; omega
  rw [keccakpBytes_eq_fips]
  unfold Spec.keccakBytes
  rw [h]
  have : (Keccak.Fips.keccak (Keccak.lanes s)).length = 25 := by
    unfold Keccak.Fips.keccak
    rw [List.range_succ, List.foldl_append]
    simp only [List.foldl_cons, List.foldl_nil, Keccak.Fips.round, Keccak.Fips.iota]
    exact Keccak.mk_length _
  rw [this]

theorem init_inv (perm : List Byte → List Byte) (r d : Nat) (pad : Byte) :
    Inv perm (init r d pad) [] := by
  constructor
  · simp [init, absorbTail_nil]
  · rfl

/-- State of a context from which `k` output bytes of message `m` have been
squeezed. -/
def Squeezed (perm : List Byte → List Byte) (c : Ctx) (s0 : List Byte) (k : Nat) : Prop :=
  c.squeezeMore = true ∧ c.offset = k % c.r ∧
    c.state = iter perm ((k + c.r - 1) / c.r) s0

theorem finals_squeezed (perm : List Byte → List Byte)
    (hp : ∀ s, s.length = 200 → (perm s).length = 200) (s0 : List Byte) (hs0 : s0.length = 200)
    (ds : List Nat) :
    ∀ (c : Ctx) (k : Nat), 0 < c.r → c.r ≤ 200 → Squeezed perm c s0 k →
      (finals perm c ds).2.flatten =
        (List.range ds.sum).map (fun i => stream perm c.r s0 (k + i)) ∧
      (finals perm c ds).2.map List.length = ds := by
  induction ds with
  | nil => intro c k _ _ _; simp [finals]
  | cons d ds ih =>
    intro c k hr hr2 ⟨h1, h2, h3⟩
    have hpadst : padState perm (setDigestsize c d) = setDigestsize c d := by
      simp [padState, setDigestsize, h1]
    have key := squeezeLoop_spec perm hp s0 hs0 d (setDigestsize c d) d k []
      hr hr2 (Nat.le_refl _) h2 h3
    have hsq : squeeze perm (setDigestsize c d) =
        squeezeLoop perm d (setDigestsize c d) d [] := by
      simp only [squeeze, hpadst]; rfl
    simp only [finals, hsq]
    generalize hq : squeezeLoop perm d (setDigestsize c d) d [] = q at key ⊢
    have hq1 : Squeezed perm q.1 s0 (k + d) := by
      rw [key]; exact ⟨h1, rfl, rfl⟩
    have hq2 : q.1.r = c.r := by rw [key]; rfl
    have hq3 : q.2 = (List.range d).map (fun i => stream perm c.r s0 (k + i)) := by
      rw [key]; rfl
    obtain ⟨g1, g2⟩ := ih q.1 (k + d) (by omega) (by omega) hq1
    constructor
    · simp only [List.flatten_cons, List.sum_cons, List.range_add, List.map_append,
        List.map_map]
      rw [g1, hq3, hq2]
      simp [Function.comp_def, Nat.add_assoc]
    · simp only [List.map_cons]
      rw [g2, hq3]; simp

/-- **C02 + C03**: for any permutation `perm` on 200 byte states, any rate,
domain byte below `0x80`, any sequence of update calls and any sequence of
squeeze requests, the concatenated output is exactly the FIPS 202 sponge output
of the concatenated message, and each call returns as many bytes as requested. -/
theorem sponge_streaming (perm : List Byte → List Byte)
    (hp : ∀ s, s.length = 200 → (perm s).length = 200)
    (r : Nat) (hr : 0 < r) (hr2 : r ≤ 200) (pad : Byte) (hpad : pad < 0x80) (d0 : Nat)
    (chunks : List (List Byte)) (hlen : chunks.flatten.length < 2 ^ 64) (ds : List Nat) :
    (finals perm (updates perm (init r d0 pad) chunks) ds).2.flatten =
        Spec.sponge perm r pad chunks.flatten ds.sum ∧
    (finals perm (updates perm (init r d0 pad) chunks) ds).2.map List.length = ds := by
  obtain ⟨hi, h2, h3, h4, h5, h6⟩ := updates_inv perm chunks (init r d0 pad) [] hr
    (init_inv perm r d0 pad) (by simpa using hlen)
  generalize hc : updates perm (init r d0 pad) chunks = c at *
  simp only [List.nil_append] at hi
  have h5' : c.squeezeMore = false := h5 rfl
  have hcr : c.r = r := h2
  have hcp : c.padding = pad := h4
  have hco : c.offset = 0 := h3
  cases ds with
  | nil => simp [finals, Spec.sponge]
  | cons d ds =>
    -- the padded context
    have hps := padState_spec perm c chunks.flatten (by omega) hi h5' (by rw [hcp]; exact hpad)
    have hlen0 : (padState perm c).state.length = 200 := by
      have : c.state.length = 200 := by
        rw [hi.1]
        exact absorbTail_length perm hp c.r (by omega) _ _ _ (Nat.le_refl _) List.length_replicate
      simp only [padState, h5', Bool.false_eq_true, if_false, xorAt_length]
      split
      · apply hp; rw [xorAt_length, this]
      · rw [xorAt_length, this]
    have hpr : (padState perm c).r = r := by simp [padState, h5', hcr]
    have hsq : Squeezed perm (padState perm c) (padState perm c).state 0 := by
      refine ⟨?_, ?_, ?_⟩
      · simp [padState, h5']
      · simp [padState, h5', hco]
      · rw [hpr]
        have : (0 + r - 1) / r = 0 := Nat.div_eq_of_lt (by omega)
        rw [this]; rfl
    have hfin : finals perm c (d :: ds) = finals perm (padState perm c) (d :: ds) := by
      have : padState perm (setDigestsize c d) = padState perm (setDigestsize (padState perm c) d) := by
        simp [padState, setDigestsize, h5']
      simp only [finals, squeeze, this]
    rw [hfin]
    obtain ⟨g1, g2⟩ := finals_squeezed perm hp (padState perm c).state hlen0 (d :: ds)
      (padState perm c) 0 (by omega) (by omega) hsq
    refine ⟨?_, g2⟩
    rw [g1, hpr]
    unfold Spec.sponge
    apply List.map_congr_left
    intro i _
    have hiter : ∀ n (s : List Byte), iter perm (n + 1) s = iter perm n (perm s) := by
      intro n
      induction n with
      | zero => intro s; rfl
      | succ n ih => intro s; rw [iter, ih, iter]
    simp only [stream, outByte, Nat.zero_add, hiter]
    rw [hps, hcr, hcp]

/-- **C02 + C03 for the real permutation**: SHA-3 / SHAKE / cSHAKE streaming
with the C permutation equals the FIPS 202 sponge with the FIPS 202
permutation. -/
theorem keccak_streaming (r : Nat) (hr : 0 < r) (hr2 : r ≤ 200) (pad : Byte) (hpad : pad < 0x80)
    (d0 : Nat) (chunks : List (List Byte)) (hlen : chunks.flatten.length < 2 ^ 64) (ds : List Nat) :
    (finals Keccak.keccakpBytes (updates Keccak.keccakpBytes (init r d0 pad) chunks) ds).2.flatten =
        Spec.sponge Spec.keccakBytes r pad chunks.flatten ds.sum ∧
    (finals Keccak.keccakpBytes (updates Keccak.keccakpBytes (init r d0 pad) chunks) ds).2.map
        List.length = ds := by
  rw [← keccakpBytes_eq_fips]
  exact sponge_streaming _ (fun s _ => keccakpBytes_length s) r hr hr2 pad hpad d0 chunks hlen ds

/-- **C02 for the fixed length hashes**: `lc_hash_init`, updates, one
`lc_hash_final` without setting a digest size. -/
theorem sha3_digest (r d : Nat) (hr : 0 < r) (hr2 : r ≤ 200) (pad : Byte) (hpad : pad < 0x80)
    (chunks : List (List Byte)) (hlen : chunks.flatten.length < 2 ^ 64) :
    (squeeze Keccak.keccakpBytes (updates Keccak.keccakpBytes (init r d pad) chunks)).2 =
      Spec.sponge Spec.keccakBytes r pad chunks.flatten d := by
  have h := (keccak_streaming r hr hr2 pad hpad d chunks hlen [d]).1
  have hd : (updates Keccak.keccakpBytes (init r d pad) chunks).digestsize = d :=
    (updates_inv Keccak.keccakpBytes chunks (init r d pad) [] hr
      (init_inv Keccak.keccakpBytes r d pad) (by simpa using hlen)).2.2.2.2.2
  have e : setDigestsize (updates Keccak.keccakpBytes (init r d pad) chunks) d =
      updates Keccak.keccakpBytes (init r d pad) chunks := by
    generalize updates Keccak.keccakpBytes (init r d pad) chunks = c at hd
    cases c; subst hd; rfl
  simpa [finals, e] using h

/-- Consequence: chunking is irrelevant. -/
theorem sha3_chunking (r d : Nat) (hr : 0 < r) (hr2 : r ≤ 200) (pad : Byte) (hpad : pad < 0x80)
    (c1 c2 : List (List Byte)) (hlen : c1.flatten.length < 2 ^ 64) (h : c1.flatten = c2.flatten) :
    (squeeze Keccak.keccakpBytes (updates Keccak.keccakpBytes (init r d pad) c1)).2 =
    (squeeze Keccak.keccakpBytes (updates Keccak.keccakpBytes (init r d pad) c2)).2 := by
  rw [sha3_digest r d hr hr2 pad hpad c1 hlen, sha3_digest r d hr hr2 pad hpad c2 (h ▸ hlen), h]

/-- The hypotheses are met by SHA3-256 on a three chunk message, and the model
computes the published digest of the empty string. -/
example : 0 < 136 ∧ 136 ≤ 200 ∧ (0x06 : Byte) < 0x80 ∧
    ([[1, 2], [], [3]] : List (List Byte)).flatten.length < 2 ^ 64 := by decide

example : (squeeze Keccak.keccakpBytes (updates Keccak.keccakpBytes (init 136 32 0x06) [])).2 =
    [0xa7, 0xff, 0xc6, 0xf8, 0xbf, 0x1e, 0xd7, 0x66, 0x51, 0xc1, 0x47, 0x56, 0xa0, 0x61, 0xd6, 0x62,
     0xf5, 0x80, 0xff, 0x4d, 0xe4, 0x3b, 0x49, 0xfa, 0x82, 0xd8, 0x0a, 0x4b, 0x80, 0xf8, 0x43, 0x4a] := by
  decide +kernel

end LC.Sponge
