import Verif.Hmac.Lemmas
import Verif.Hash.Inst
/-
Property theorems: C07 (HMAC streaming and reinit).
-/
namespace LC.Hmac
open StreamHash

/-- C07: `init; update*; final` is RFC 2104 HMAC of the concatenated message, for any hash
`S` implementing a function `H`, any earlier content of the context memory, any key
(shorter, equal or longer than the block) and any chunking. -/
theorem hmac_streaming {S : StreamHash} {H : List Byte → List Byte} {maxLen : Nat}
    {Ok : S.Ctx → Prop} (hI : Implements S H maxLen Ok) (hds : S.dsize ≤ S.block)
    (hmax : S.block + S.dsize < maxLen) (h0 : S.Ctx) (hok : Ok h0) (key : List Byte)
    (hk : key.length < maxLen) (chunks : List (List Byte))
    (hm : S.block + chunks.flatten.length < maxLen) :
    (final (chunks.foldl update (init h0 key))).2 = Spec.hmac H S.block key chunks.flatten := by
  have h := (init_rep hI hds h0 hok key hk).updates hI chunks
  rw [List.nil_append] at h
  exact h.final hI hmax hm

/-- C07: after any history of calls, `lc_hmac_reinit` makes the context compute the HMAC of
what is absorbed from then on, under the same key. -/
theorem hmac_reinit {S : StreamHash} {H : List Byte → List Byte} {maxLen : Nat}
    {Ok : S.Ctx → Prop} (hI : Implements S H maxLen Ok) (hds : S.dsize ≤ S.block)
    (hmax : S.block + S.dsize < maxLen) (h0 : S.Ctx) (hok : Ok h0) (key : List Byte)
    (hk : key.length < maxLen) (ops : List Op) (chunks : List (List Byte))
    (hm : S.block + chunks.flatten.length < maxLen) :
    (final (chunks.foldl update (reinit (ops.foldl Op.run (init h0 key))))).2 =
      Spec.hmac H S.block key chunks.flatten := by
  have hk := Op.run_keyed hI ops (init_rep hI hds h0 hok key hk).toKeyed
  have h := (reinit_rep hI hk).updates hI chunks
  rw [List.nil_append] at h
  exact h.final hI hmax hm

/-- C07 for HMAC-SHA-256. -/
theorem hmac_sha256 (h0 : sha256.Ctx) (hok : h0.part.length = 64) (key : List Byte)
    (hk : key.length < 2 ^ 61) (ops : List Op) (chunks : List (List Byte))
    (hm : chunks.flatten.length < 2 ^ 60) :
    (final (chunks.foldl update (init h0 key))).2 =
      Spec.hmac Sha2.Spec.sha256 64 key chunks.flatten ∧
    (final (chunks.foldl update (reinit (ops.foldl Op.run (init h0 key))))).2 =
      Spec.hmac Sha2.Spec.sha256 64 key chunks.flatten :=
  ⟨hmac_streaming sha256_implements (by decide) (by decide) h0 hok key hk chunks
      (by simp only [sha256]; omega),
    hmac_reinit sha256_implements (by decide) (by decide) h0 hok key hk ops chunks
      (by simp only [sha256]; omega)⟩

/-- C07 for HMAC-SHA-384. -/
theorem hmac_sha384 (h0 : sha384.Ctx) (hok : h0.part.length = 128) (key : List Byte)
    (hk : key.length < 2 ^ 61) (ops : List Op) (chunks : List (List Byte))
    (hm : chunks.flatten.length < 2 ^ 60) :
    (final (chunks.foldl update (init h0 key))).2 =
      Spec.hmac Sha2.Spec.sha384 128 key chunks.flatten ∧
    (final (chunks.foldl update (reinit (ops.foldl Op.run (init h0 key))))).2 =
      Spec.hmac Sha2.Spec.sha384 128 key chunks.flatten :=
  ⟨hmac_streaming sha384_implements (by decide) (by decide) h0 hok key hk chunks
      (by simp only [sha384]; omega),
    hmac_reinit sha384_implements (by decide) (by decide) h0 hok key hk ops chunks
      (by simp only [sha384]; omega)⟩

/-- C07 for HMAC-SHA-512. -/
theorem hmac_sha512 (h0 : sha512.Ctx) (hok : h0.part.length = 128) (key : List Byte)
    (hk : key.length < 2 ^ 61) (ops : List Op) (chunks : List (List Byte))
    (hm : chunks.flatten.length < 2 ^ 60) :
    (final (chunks.foldl update (init h0 key))).2 =
      Spec.hmac Sha2.Spec.sha512 128 key chunks.flatten ∧
    (final (chunks.foldl update (reinit (ops.foldl Op.run (init h0 key))))).2 =
      Spec.hmac Sha2.Spec.sha512 128 key chunks.flatten :=
  ⟨hmac_streaming sha512_implements (by decide) (by decide) h0 hok key hk chunks
      (by simp only [sha512]; omega),
    hmac_reinit sha512_implements (by decide) (by decide) h0 hok key hk ops chunks
      (by simp only [sha512]; omega)⟩

/-- C07 for HMAC-SHA3 with rate `r` and digest size `d ≤ r`. -/
theorem hmac_sha3 (r d : Nat) (hr : 0 < r) (hr2 : r ≤ 200) (hd : d ≤ r) (h0 : Sponge.Ctx)
    (key : List Byte) (hk : key.length < 2 ^ 64) (ops : List Op) (chunks : List (List Byte))
    (hm : chunks.flatten.length < 2 ^ 63) :
    (final (S := sha3 r d) (chunks.foldl update (init h0 key))).2 =
      Spec.hmac (fun m => Sponge.Spec.sponge Sponge.Spec.keccakBytes r 0x06 m d) r key chunks.flatten ∧
    (final (S := sha3 r d) (chunks.foldl update (reinit (ops.foldl Op.run (init h0 key))))).2 =
      Spec.hmac (fun m => Sponge.Spec.sponge Sponge.Spec.keccakBytes r 0x06 m d) r key chunks.flatten :=
  ⟨hmac_streaming (sha3_implements r d hr hr2) hd (by simp only [sha3]; omega) h0 trivial key hk
      chunks (by simp only [sha3]; omega),
    hmac_reinit (sha3_implements r d hr hr2) hd (by simp only [sha3]; omega) h0 trivial key hk
      ops chunks (by simp only [sha3]; omega)⟩

/-- Non-vacuity and cross check: RFC 4231 test case 2 ("Jefe"), fed in two chunks after an
abandoned computation, from a context memory full of `0xff`. -/
example :
    (final (S := sha256) (List.foldl update (reinit (List.foldl Op.run (init
      { H := [], msgLen := 77, part := List.replicate 64 0xff } [0x4a, 0x65, 0x66, 0x65])
      [.update [1, 2, 3], .final, .update [9]]))
      [[0x77, 0x68, 0x61, 0x74, 0x20, 0x64, 0x6f, 0x20, 0x79, 0x61, 0x20, 0x77, 0x61],
       [0x6e, 0x74, 0x20, 0x66, 0x6f, 0x72, 0x20, 0x6e, 0x6f, 0x74, 0x68, 0x69, 0x6e, 0x67, 0x3f]])).2 =
    [0x5b, 0xdc, 0xc1, 0x46, 0xbf, 0x60, 0x75, 0x4e, 0x6a, 0x04, 0x24, 0x26, 0x08, 0x95, 0x75, 0xc7,
     0x5a, 0x00, 0x3f, 0x08, 0x9d, 0x27, 0x39, 0x83, 0x9d, 0xec, 0x58, 0xb9, 0x64, 0xec, 0x38, 0x43] := by
  decide +kernel

end LC.Hmac
