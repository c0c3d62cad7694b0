import Verif.Curve.EddsaProps
import Verif.Sha2.Props
/-!
# Ed25519: cases that meet the hypotheses of C76 to C78, and witnesses
-/
namespace LC.Curve.Eddsa

/-- SHA-512 as modelled in `Verif/Sha2`, from a zero context. -/
def sha512 (m : List Byte) : List Byte := Sha2.sha512 (List.replicate 128 0) [m]

theorem sha512_length (m : List Byte) : (sha512 m).length = 64 := Sha2.output_length _ 8 (Nat.le_refl 8)

/-- The vector of `lc_ed25519_sign_tester`. -/
def signSk : List Byte :=
    [0x42, 0x58, 0x0d, 0x49, 0xbe, 0x95, 0x1f, 0x95, 0xdf, 0xca, 0x13, 0x60, 0xda, 0x43, 0x09, 0x58, 0xd9, 0x30, 0xc7, 0xa1,
    0x71, 0xbd, 0xa0, 0x99, 0x92, 0x5a, 0xb5, 0xb7, 0xcd, 0x88, 0x51, 0xae, 0x5d, 0x10, 0xd0, 0x95, 0x66, 0xa2, 0xd8, 0x75,
    0xea, 0xcf, 0xa0, 0x87, 0x73, 0x9a, 0xcd, 0xb9, 0x5c, 0xfb, 0xfa, 0x94, 0x05, 0x5a, 0x14, 0xd7, 0x59, 0x0b, 0xd4, 0xb1,
    0x06, 0xe8, 0x09, 0xbd]
def signMsg : List Byte :=
    [0x67, 0xb1, 0x9b, 0xa7, 0x05, 0xcf, 0xee, 0x74, 0x82, 0x10, 0xcc, 0xb6, 0x98, 0xff, 0x84, 0xbc, 0x8c, 0x59, 0x8e, 0x45,
    0x26, 0x2c, 0x39, 0xdf, 0xb7, 0x8b, 0xaa, 0x9a, 0x4e, 0xa9, 0x6c, 0x83, 0x46, 0x65, 0x84, 0x92, 0x7e, 0xd2, 0x90, 0xb3,
    0x9e, 0x80, 0x18, 0xc8, 0x4b, 0xeb, 0x84, 0x24, 0x82, 0x00, 0x83, 0x2f, 0xc4, 0x69, 0xe1, 0xec, 0x44, 0x19, 0x7a, 0x96,
    0x82, 0x8c, 0xf4, 0x9b, 0xd9, 0x18, 0xa2, 0x1d, 0x24, 0x07, 0xbc, 0x0f, 0x89, 0x53, 0xae, 0x07, 0x18, 0x7d, 0xf9, 0x31,
    0x21, 0x2d, 0x26, 0x43, 0x45, 0x46, 0x9b, 0xe9, 0x82, 0xa8, 0x99, 0x3a, 0xe2, 0x19, 0x06, 0x4c, 0x87, 0x31, 0x46, 0x44,
    0x1d, 0xa5, 0x51, 0xa9, 0x43, 0xc8, 0x75, 0x60, 0x52, 0x63, 0x94, 0xdd, 0x54, 0x5c, 0xaf, 0x88, 0xd9, 0x7c, 0xcd, 0x1f,
    0x5d, 0xc0, 0xc3, 0x76, 0xb0, 0x00, 0xd7, 0xfe]
def signSig : List Byte :=
    [0xb6, 0x53, 0xe0, 0x0b, 0xf2, 0x07, 0xd1, 0x83, 0xdd, 0x7b, 0xef, 0x59, 0xaa, 0x7b, 0x23, 0xb5, 0xfe, 0x76, 0x9c, 0x2a,
    0x6b, 0xf2, 0x10, 0xd6, 0xa7, 0xa2, 0x17, 0xf2, 0xb1, 0xa5, 0x5d, 0xd6, 0x92, 0xdf, 0xec, 0x22, 0xf0, 0x18, 0xac, 0x7f,
    0x21, 0x9c, 0xe1, 0xb8, 0x74, 0x30, 0x9d, 0xe9, 0xa4, 0x2d, 0x1b, 0x89, 0x1c, 0xb3, 0xb9, 0x47, 0xb8, 0xc6, 0xbb, 0xd4,
    0xcf, 0xb7, 0xa4, 0x0b]

/-- The signature of the vector, and that it verifies, by C77. -/
example : sign sha512 false none [] signMsg signSk = some signSig := by decide +kernel

example : ∃ sig, sign sha512 false none [] signMsg signSk = some sig ∧ verify sha512 false [] signMsg (signSk.drop 32) sig = some 0 := by
  obtain ⟨sig, h1, -, h2⟩ := sign_verify sha512 sha512_length false none [] signMsg (signSk.take 32) rfl
  rw [if_neg (by decide +kernel)] at h2
  have hk : keypair sha512 (signSk.take 32) = (signSk.drop 32, signSk) := by decide +kernel
  rw [hk] at h1 h2
  exact ⟨sig, h1, h2⟩

/-- The bytes of the base point, of a point of order 8, and of their sum. -/
def encB : List Byte :=
    [0x58, 0x66, 0x66, 0x66, 0x66, 0x66, 0x66, 0x66, 0x66, 0x66, 0x66, 0x66, 0x66, 0x66, 0x66, 0x66, 0x66, 0x66, 0x66, 0x66,
    0x66, 0x66, 0x66, 0x66, 0x66, 0x66, 0x66, 0x66, 0x66, 0x66, 0x66, 0x66]
def encT : List Byte :=
    [0xc7, 0x17, 0x6a, 0x70, 0x3d, 0x4d, 0xd8, 0x4f, 0xba, 0x3c, 0x0b, 0x76, 0x0d, 0x10, 0x67, 0x0f, 0x2a, 0x20, 0x53, 0xfa,
    0x2c, 0x39, 0xcc, 0xc6, 0x4e, 0xc7, 0xfd, 0x77, 0x92, 0xac, 0x03, 0x7a]
def encBT : List Byte :=
    [0x98, 0x51, 0x9e, 0xad, 0xf3, 0x5b, 0x99, 0x52, 0x33, 0xb5, 0x1b, 0x5c, 0xd2, 0x3e, 0x9c, 0xc5, 0xa2, 0x8b, 0x63, 0x9b,
    0x5a, 0x4a, 0xf0, 0xec, 0x90, 0x3c, 0xb9, 0x60, 0xd8, 0x1b, 0x78, 0x19]
def witS : List Byte :=
    [0x62, 0x03, 0xa2, 0xd9, 0xed, 0x82, 0xda, 0x55, 0x7f, 0x90, 0xcc, 0x42, 0x27, 0x1d, 0x8e, 0x95, 0xf9, 0x6d, 0xa8, 0xf4,
    0x0a, 0x2e, 0x77, 0x84, 0xc8, 0x35, 0x42, 0xd8, 0x70, 0x16, 0x18, 0x01]

theorem dec_of {s : List Byte} (hs : s.length = 32) (h : (frombytes s).2 = true) :
    ∃ Q, DecOf s Q ∧ R3 (frombytes s).1 Q ∧ (frombytes s).1.Z = feOne := by
  obtain ⟨f1, f2⟩ := frombytes_spec s hs
  obtain ⟨Q, hq⟩ := f1.mp h
  exact ⟨Q, hq, f2 Q hq⟩

theorem dec_enc {p : P3} {Q : Pt} (h : R3 p Q) {s : List Byte} (e : p.tobytes = s) : DecOf s Q := by
  rw [← e]; exact (enc_dec (tobytes_spec h)).1

theorem encB_dec : DecOf encB Bp := by
  have h := ed_scalarmult_base (1 :: List.replicate 31 0) rfl (by decide)
  rw [show leNum (1 :: List.replicate 31 0) = 1 by decide, one_nsmul] at h
  exact dec_enc h (by decide +kernel)

/-- **C78.** The refusal of a difference of order 8 does occur, with SHA-512: the holder of the secret
scalar 1 has made a signature with `R = B + T`, `T` of order 8, that satisfies the cofactored equation
`8 S B = 8 R + 8 h A` of RFC 8032, section 5.1.7, and all parts are valid; the code refuses it. -/
theorem verify_order8_refused : ∃ A R, Parts encB (encBT ++ witS) A R ∧
    8 • (leNum ((encBT ++ witS).drop 32) • Bp) = 8 • R + 8 • (challenge sha512 false [] [97, 98, 99] encB (encBT ++ witS) • A) ∧
    verify sha512 false [] [97, 98, 99] encB (encBT ++ witS) = some (-74) := by
  obtain ⟨T, hT, rT, zT⟩ := dec_of (s := encT) rfl (by decide +kernel)
  have hT8 : 8 • T = 0 := by
    by_contra h
    have := smallOrder_exact rT zT
    rw [if_neg h] at this
    exact absurd this (by decide +kernel)
  obtain ⟨B', hB, rB, zB⟩ := dec_of (s := encB) rfl (by decide +kernel)
  obtain rfl := hB.unique encB_dec
  have hs := dec_enc (P3.add_rep rB rT) (s := encBT) (by decide +kernel)
  have hB8 : 8 • Bp ≠ 0 := by
    have := (eight_smul_B 1).not.mpr (by decide)
    rwa [one_nsmul] at this
  refine ⟨Bp, Bp + T, ⟨hB, by decide +kernel, hB8, hs, ?_, by decide +kernel⟩, ?_, by decide +kernel⟩
  · rw [nsmul_add, hT8, add_zero]; exact hB8
  · rw [nsmul_add, hT8, add_zero, ← nsmul_add]
    refine congrArg (8 • ·) ?_
    have : leNum ((encBT ++ witS).drop 32) = 1 + challenge sha512 false [] [97, 98, 99] encB (encBT ++ witS) := by decide +kernel
    rw [this, add_nsmul, one_nsmul]

/-- Two points for the coincidence, and their sum. -/
def coinA : List Byte :=
    [0xd4, 0xb4, 0xf5, 0x78, 0x48, 0x68, 0xc3, 0x02, 0x04, 0x03, 0x24, 0x67, 0x17, 0xec, 0x16, 0x9f, 0xf7, 0x9e, 0x26, 0x60,
    0x8e, 0xa1, 0x26, 0xa1, 0xab, 0x69, 0xee, 0x77, 0xd1, 0xb1, 0x67, 0x12]
def coinR : List Byte :=
    [0xe2, 0xa8, 0x32, 0x18, 0x3c, 0x0a, 0xe5, 0xa5, 0xe8, 0xd3, 0xff, 0xe0, 0x0b, 0x84, 0x51, 0x7b, 0x1d, 0xaa, 0x0c, 0x3c,
    0x53, 0x2b, 0x1e, 0x55, 0x4c, 0xaa, 0x8c, 0xd6, 0x40, 0x10, 0xa0, 0x7a]
def coinSum : List Byte :=
    [0xba, 0x5c, 0x52, 0x50, 0xda, 0x4c, 0xda, 0x6e, 0x53, 0xd2, 0xd8, 0x0b, 0xa7, 0xf3, 0xc0, 0x91, 0x56, 0xa9, 0x72, 0x33,
    0x2f, 0x57, 0x5a, 0x1b, 0x73, 0xce, 0x84, 0x1c, 0x69, 0xe1, 0x91, 0x88]

/-- **C78.** The second case of `verify_sound_partial` does occur: for a hash function with a constant
value (so that no search is necessary) there is a signature that the code accepts although the equation
does not hold, not even multiplied by the cofactor. -/
theorem verify_coincidence : ∃ A R, Parts coinA (coinR ++ List.replicate 32 0) A R ∧
    8 • (leNum ((coinR ++ List.replicate 32 0).drop 32) • Bp) ≠
      8 • R + 8 • (challenge (fun _ => 1 :: List.replicate 63 0) false [] [] coinA (coinR ++ List.replicate 32 0) • A) ∧
    verify (fun _ => 1 :: List.replicate 63 0) false [] [] coinA (coinR ++ List.replicate 32 0) = some 0 := by
  have hv : verify (fun _ => 1 :: List.replicate 63 0) false [] [] coinA (coinR ++ List.replicate 32 0) = some 0 := by
    decide +kernel
  obtain ⟨A, R, hp, -⟩ := verify_sound_partial (fun _ => 1 :: List.replicate 63 0) (fun _ => rfl) false [] [] coinA
    (coinR ++ List.replicate 32 0) rfl rfl hv
  refine ⟨A, R, hp, ?_, hv⟩
  obtain ⟨A', hA, rA, -⟩ := dec_of (s := coinA) rfl (by decide +kernel)
  obtain rfl := hp.key.unique hA
  obtain ⟨R', hR, rR, -⟩ := dec_of (s := coinR) rfl (by decide +kernel)
  obtain rfl := hp.r.unique (show DecOf ((coinR ++ List.replicate 32 0).take 32) R' from hR)
  have hs := dec_enc (P3.add_rep rR rA) (s := coinSum) (by decide +kernel)
  obtain ⟨Q, hQ, rQ, zQ⟩ := dec_of (s := coinSum) rfl (by decide +kernel)
  obtain rfl := hs.unique hQ
  have h1 : leNum ((coinR ++ List.replicate 32 0).drop 32) = 0 := by decide +kernel
  have h2 : challenge (fun _ => 1 :: List.replicate 63 0) false [] [] coinA (coinR ++ List.replicate 32 0) = 1 := by
    decide +kernel
  rw [h1, h2, one_nsmul, zero_nsmul, nsmul_zero, ← nsmul_add]
  intro h
  have := smallOrder_exact rQ zQ
  rw [if_pos h.symm] at this
  exact absurd this (by decide +kernel)

end LC.Curve.Eddsa
