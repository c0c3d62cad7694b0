import Verif.Curve.GeX
/-!
# C79: X25519 key pairs
-/
namespace LC.Curve

/-- The encoding of `u = 9`. -/
def nine : List Byte := 9 :: List.replicate 31 0

theorem nine_not_refused (n : List Byte) : scalarmult n nine ≠ none := by
  have h : hasSmallOrder nine = 0 := by decide +kernel
  unfold scalarmult
  rw [if_neg (by rw [h]; decide)]
  exact fun hc => by cases hc

/-- **C79.** The public key that `lc_x25519_keypair` computes from the table of multiples of the
Ed25519 base point is what the Montgomery ladder computes from `u = 9`, for every secret key. -/
theorem x25519_public_key (n : List Byte) (hn : n.length = 32) : scalarmult n nine = some (x25519Base n) := by
  rcases x25519_rfc7748 n nine hn rfl with h | ⟨q, h1, h2, h3⟩
  · exact absurd h (nine_not_refused n)
  · refine h1.trans (congrArg some ?_)
    obtain ⟨b1, b2⟩ := x25519Base_spec n hn
    apply leNum_inj _ _ (h2.trans b1.symm)
    rw [h3, b2, show Spec.decodeU nine = 9 from by
      unfold Spec.decodeU
      rw [show leNum nine % 2 ^ 255 = 9 by decide +kernel]; rfl]

/-- **C79.** Two parties with key pairs from `lc_x25519_keypair` get the same shared secret; neither
call of `lc_x25519_ss` fails and the secret is not zero. -/
theorem x25519_keypairs_agree (n m : List Byte) (hn : n.length = 32) (hm : m.length = 32) :
    ∃ s, scalarmult m (x25519Base n) = some s ∧ scalarmult n (x25519Base m) = some s ∧ ∃ b ∈ s, b ≠ 0 := by
  obtain ⟨qn, qm, s, h1, h2, h3, h4, h5⟩ := x25519_agree n m nine hn hm rfl (nine_not_refused n)
  rw [x25519_public_key n hn] at h1
  rw [x25519_public_key m hm] at h2
  cases h1; cases h2
  exact ⟨s, h3, h4, h5⟩

/-- The test vector of `lc_x25519_keypair_selftest`. -/
example : x25519Base [0x80, 0x52, 0x03, 0x03, 0x76, 0xd4, 0x71, 0x12, 0xbe, 0x7f, 0x73, 0xed, 0x7a, 0x01, 0x92, 0x93, 0xdd, 0x12,
    0xad, 0x91, 0x0b, 0x65, 0x44, 0x55, 0x79, 0x8b, 0x46, 0x67, 0xd7, 0x3d, 0xe1, 0x66] =
    [0xf1, 0x81, 0x4f, 0x0e, 0x8f, 0xf1, 0x04, 0x3d, 0x8a, 0x44, 0xd2, 0x5b, 0xab, 0xff, 0x3c, 0xed, 0xca, 0xe6, 0xc2, 0x2c, 0x3e,
      0xda, 0xa4, 0x8f, 0x85, 0x7a, 0xe7, 0x0d, 0xe2, 0xba, 0xae, 0x50] := by decide +kernel

end LC.Curve
