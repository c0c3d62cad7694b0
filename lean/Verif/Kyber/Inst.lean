import Verif.Kyber.ProtoProps
/-
ML-KEM with the hash functions it uses: FIPS 202 functions, and the proof that the calls of the C code to the
hash API return them.
-/
namespace LC.Kyber
open Sponge (updates squeeze finals)
open Sponge.Keccak (keccakpBytes)

/-- The functions of FIPS 203, section 4.1, over the FIPS 202 permutation: H = SHA3-256, G = SHA3-512,
PRF(s, b) = SHAKE256(s || b), J(z || c) = SHAKE256(z || c), XOF = SHAKE128, and KMAC256 of SP 800-185 with
the label of the library. -/
def fips : Fns where
  H m := Sponge.Spec.sponge Sponge.Spec.keccakBytes 136 0x06 m 32
  G m := Sponge.Spec.sponge Sponge.Spec.keccakBytes 72 0x06 m 64
  prf key nonce n := Sponge.Spec.sponge Sponge.Spec.keccakBytes 136 0x1f (key ++ [nonce]) n
  rkprf z ct n := Sponge.Spec.sponge Sponge.Spec.keccakBytes 136 0x1f (z ++ ct) n
  xof seed i := Sponge.Spec.outByte Sponge.Spec.keccakBytes 168 0x1f seed i
  kmac key x n := Kmac.Spec.kmac Sponge.Spec.keccakBytes 136 key x n (Aead.Spec.ascii "Kyber KEM SS")

theorem sponge_length (perm : List Byte → List Byte) (r : Nat) (sfx : Byte) (m : List Byte) (d : Nat) :
    (Sponge.Spec.sponge perm r sfx m d).length = d := by
  unfold Sponge.Spec.sponge
  rw [List.length_map, List.length_range]

theorem fips_ok : fips.Ok := ⟨fun _ => sponge_length _ _ _ _ _, fun _ => sponge_length _ _ _ _ _, fun _ _ _ => sponge_length _ _ _ _ _⟩

/-- `lc_hash(lc_sha3_256, ...)`, `hash/src/hash.c:135-148`. -/
theorem lib_H (m : List Byte) (h : m.length < 2 ^ 64) :
    (squeeze keccakpBytes (updates keccakpBytes (Sponge.init 136 32 0x06) [m])).2 = fips.H m := by
  have := Sponge.sha3_digest 136 32 (by decide) (by decide) 0x06 (by decide) [m] (by simpa using h)
  rw [List.flatten_singleton] at this
  exact this

/-- `lc_hash(lc_sha3_512, ...)`. -/
theorem lib_G (m : List Byte) (h : m.length < 2 ^ 64) :
    (squeeze keccakpBytes (updates keccakpBytes (Sponge.init 72 64 0x06) [m])).2 = fips.G m := by
  have := Sponge.sha3_digest 72 64 (by decide) (by decide) 0x06 (by decide) [m] (by simpa using h)
  rw [List.flatten_singleton] at this
  exact this

/-- `kyber_kdf2`, `kyber_kdf.h:42-55`, behind `kyber_shake256_prf`. -/
theorem lib_prf (key : List Byte) (nonce : Byte) (n : Nat) (h : key.length < 2 ^ 63) :
    (finals keccakpBytes (updates keccakpBytes (Sponge.init 136 0 0x1f) [key, [nonce]]) [n]).2.flatten = fips.prf key nonce n := by
  have hf : [key, [nonce]].flatten = key ++ [nonce] := by rw [List.flatten_cons, List.flatten_singleton]
  have := (Sponge.keccak_streaming 136 (by decide) (by decide) 0x1f (by decide) 0 [key, [nonce]] (by
    rw [hf, List.length_append]; simp only [List.length_cons, List.length_nil]; omega) [n]).1
  rw [hf, show [n].sum = n by simp] at this
  exact this

/-- `kyber_shake256_rkprf`, `kyber_kdf.h:160-166`. -/
theorem lib_rkprf (z ct : List Byte) (n : Nat) (h : z.length + ct.length < 2 ^ 64) :
    (finals keccakpBytes (updates keccakpBytes (Sponge.init 136 0 0x1f) [z, ct]) [n]).2.flatten = fips.rkprf z ct n := by
  have hf : [z, ct].flatten = z ++ ct := by rw [List.flatten_cons, List.flatten_singleton]
  have := (Sponge.keccak_streaming 136 (by decide) (by decide) 0x1f (by decide) 0 [z, ct] (by
    rw [hf, List.length_append]; exact h) [n]).1
  rw [hf, show [n].sum = n by simp] at this
  exact this

/-- The calls of `gen_matrix`, `kyber_indcpa.c:193-222`: the seed and the two indices as three updates, then
any sequence of block sizes `ds` squeezed; every byte delivered is the byte of the XOF stream at its
position. -/
theorem lib_xof (seed : List Byte) (a b : Byte) (ds : List Nat) (h : seed.length < 2 ^ 63) (i : Nat) (hi : i < ds.sum) :
    (finals keccakpBytes (updates keccakpBytes (Sponge.init 168 0 0x1f) [seed, [a], [b]]) ds).2.flatten.getD i 0 =
      fips.xof (seed ++ [a, b]) i := by
  have hf : [seed, [a], [b]].flatten = seed ++ [a, b] := by
    rw [List.flatten_cons, List.flatten_cons, List.flatten_singleton]; rfl
  have := (Sponge.keccak_streaming 168 (by decide) (by decide) 0x1f (by decide) 0 [seed, [a], [b]] (by
    rw [hf, List.length_append]; simp only [List.length_cons, List.length_nil]; omega) ds).1
  rw [hf] at this
  rw [this]
  unfold Sponge.Spec.sponge
  rw [List.getD_eq_getElem?_getD, List.getElem?_map, List.getElem?_range hi]
  rfl

/-- `kyber_ss_kdf`, `kyber_kdf.h:176-185`. -/
theorem lib_kmac (key ct : List Byte) (n : Nat) (hk : key.length < 2 ^ 61) (hc : ct.length < 2 ^ 63) (hn : 4 ≤ n) (hn2 : n < 2 ^ 61) :
    libKmac keccakpBytes key (Aead.Spec.ascii "Kyber KEM SS") [ct] n = fips.kmac key ct n := by
  rw [libKmac_eq keccakpBytes (fun s _ => Sponge.keccakpBytes_length s) key _ [ct] n hk (by decide) (by simpa using hc) hn hn2,
    List.flatten_singleton, Sponge.keccakpBytes_eq_fips]
  rfl

/-- **C45 for ML-KEM as used**: with SHA-3 and SHAKE, for the three parameter sets. -/
theorem mlkem_decaps_correct (p : Par) (hp : p.Ok) (fuel : Nat) (seed m pk sk : List Byte) (hm : m.length = 32)
    (hkp : keypairFromSeed fips p fuel seed = .ok pk sk) :
    pk.length = p.pkLen ∧ sk.length = p.skLen ∧
    (∃ ct ss, kemEnc fips p fuel pk m = .ok ct ss ∧ ct.length = p.ctLen ∧ ss.length = 32 ∧
      (Decodes fips p fuel seed pk m → kemDec fips p fuel ct sk = .ok ss)) ∧
    ∀ ct', ∃ ss', kemDec fips p fuel ct' sk = .ok ss' ∧ ss'.length = 32 :=
  decaps_correct fips fips_ok p hp fuel seed m pk sk hm hkp

end LC.Kyber
