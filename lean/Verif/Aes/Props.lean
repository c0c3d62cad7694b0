import Verif.Aes.Sched
/-
C14.  The AES block cipher: both implementations compute the function of FIPS 197 (`Verif.Aes.Spec`,
written from the standard: S-box as affine map of the field inverse, MixColumns as a matrix over
GF(2^8), key schedule word by word), and decryption inverts encryption in both directions, for
every key of 16, 24 or 32 bytes and every block.
-/
namespace LC.Aes

theorem setType_valid {n : Nat} (h : n = 16 ∨ n = 24 ∨ n = 32) :
    setType n = some (n / 4, n / 4 + 6) ∧ (n / 4 = 4 ∨ n / 4 = 6 ∨ n / 4 = 8) := by
  rcases h with rfl | rfl | rfl <;> decide

/-- The state after `aes_setkey` with a key of valid length. -/
theorem setkey_valid (c : Ctx) (key : List Byte) (hk : key.length = 16 ∨ key.length = 24 ∨ key.length = 32) :
    setkey c key = (0, { roundKey := (Spec.keySchedule (key.length / 4) key (4 * (key.length / 4 + 7))).flatten,
                         nk := key.length / 4, nr := key.length / 4 + 6 }) := by
  obtain ⟨h1, h2⟩ := setType_valid hk
  rw [setkey, h1]
  dsimp only
  rw [keyExpansion_eq _ h2 key (by omega)]

/-- **C14** (conformance).  After `aes_setkey` with a 128/192/256 bit key, on any previous context,
`aes_encrypt` of a 16 byte block yields the FIPS 197 ciphertext. -/
theorem aes_encrypt_is_fips197 (c : Ctx) (key block : List Byte)
    (hk : key.length = 16 ∨ key.length = 24 ∨ key.length = 32) (hb : block.length = 16) :
    (setkey c key).1 = 0 ∧ encrypt (setkey c key).2 block = some (Spec.aes key block) := by
  rw [setkey_valid c key hk]
  refine ⟨rfl, ?_⟩
  rw [encrypt, if_neg (by omega)]
  have hw := keySchedule_words (key.length / 4) key (4 * (key.length / 4 + 7))
  have hl := fullRounds_length (Spec.keySchedule (key.length / 4) key (4 * (key.length / 4 + 7))).flatten
    (key.length / 4 + 5) block
  rw [cipher_eq _ (by dsimp only; omega) (by dsimp only; omega)]
  dsimp only
  rw [addRoundKey_spec _ hw, show key.length / 4 + 6 - 1 = key.length / 4 + 5 by omega,
    subBytes_spec hl, shiftRows_spec (by rw [← subBytes_spec hl, subBytes_length, hl]),
    fullRounds_spec _ hw]
  rfl

/-- **C14**.  Decryption inverts encryption and encryption inverts decryption, for every key. -/
theorem aes_inverse (c : Ctx) (key block : List Byte)
    (hk : key.length = 16 ∨ key.length = 24 ∨ key.length = 32) (hb : block.length = 16) :
    (∃ ct, encrypt (setkey c key).2 block = some ct ∧ ct.length = 16 ∧
      decrypt (setkey c key).2 ct = some block) ∧
    (∃ pt, decrypt (setkey c key).2 block = some pt ∧ pt.length = 16 ∧
      encrypt (setkey c key).2 pt = some block) := by
  rw [setkey_valid c key hk]
  generalize hc : (Ctx.mk _ _ _) = c'
  have h1 : 1 ≤ c'.nr := by rw [← hc]; dsimp only; omega
  have h2 : c'.nr < 256 := by rw [← hc]; dsimp only; omega
  have l1 : (cipher c' block).length = 16 := by
    rw [cipher_eq _ h1 h2]; exact addRoundKey_length _ _ _
  have l2 : (invCipher c' block).length = 16 := by
    rw [invCipher]
    exact invCipherLoop_length _ _ _
  refine ⟨⟨cipher c' block, ?_, l1, ?_⟩, ⟨invCipher c' block, ?_, l2, ?_⟩⟩
  · rw [encrypt, if_neg (by omega)]
  · rw [decrypt, if_neg (by omega)]
    dsimp only
    rw [invCipher_cipher _ h1 h2 hb]
  · rw [decrypt, if_neg (by omega)]
  · rw [encrypt, if_neg (by omega)]
    dsimp only
    rw [cipher_invCipher _ h1 h2 hb]

/-- **C14**.  The table free implementation (`aes_no_sbox.c`) gives the same ciphertext and the same
decryption as the table implementation, for every key and every block. -/
theorem aes_no_sbox_equal (c : Ctx) (key block : List Byte)
    (hk : key.length = 16 ∨ key.length = 24 ∨ key.length = 32) (hb : block.length = 16) :
    encrypt (setkey c key).2 block =
      some (Scr.cipher (Scr.keyExpansion (key.length / 4) (key.length / 4 + 6) key) (key.length / 4 + 6) block) ∧
    decrypt (setkey c key).2 block =
      some (Scr.invCipher (Scr.keyExpansion (key.length / 4) (key.length / 4 + 6) key) (key.length / 4 + 6) block) := by
  obtain ⟨-, h2⟩ := setType_valid hk
  have hw := keySchedule_words (key.length / 4) key (4 * (key.length / 4 + 7))
  rw [setkey_valid c key hk, encrypt, decrypt, if_neg (by omega), if_neg (by omega),
    Scr.keyExpansion_eq' _ h2, Scr.cipher_eq' _ hw (key.length / 4) _ (by omega) (by omega),
    Scr.invCipher_eq' _ hw (key.length / 4)]
  exact ⟨rfl, rfl⟩

/-- Encryption is a permutation of the blocks: different plaintexts, different ciphertexts. -/
theorem aes_injective (c : Ctx) (key b1 b2 : List Byte)
    (hk : key.length = 16 ∨ key.length = 24 ∨ key.length = 32) (h1 : b1.length = 16) (h2 : b2.length = 16)
    (h : encrypt (setkey c key).2 b1 = encrypt (setkey c key).2 b2) : b1 = b2 := by
  obtain ⟨⟨c1, e1, -, d1⟩, -⟩ := aes_inverse c key b1 hk h1
  obtain ⟨⟨c2, e2, -, d2⟩, -⟩ := aes_inverse c key b2 hk h2
  rw [e1, e2] at h
  cases h
  rw [d1] at d2
  exact Option.some.inj d2

/-- FIPS 197 appendix C.1 key and plaintext meet the hypotheses, and the result is the published one. -/
example : encrypt (setkey { roundKey := [], nk := 0, nr := 0 }
      [0,1,2,3,4,5,6,7,8,9,10,11,12,13,14,15]).2
      [0x00,0x11,0x22,0x33,0x44,0x55,0x66,0x77,0x88,0x99,0xaa,0xbb,0xcc,0xdd,0xee,0xff] =
    some [0x69,0xc4,0xe0,0xd8,0x6a,0x7b,0x04,0x30,0xd8,0xcd,0xb7,0x80,0x70,0xb4,0xc5,0x5a] := by
  decide +kernel

/-! ### C67: an unusable key length is reported as success -/

/-- **C67** (the claim that an invalid key length is rejected is false).  For every key whose length
is not 16, 24 or 32 bytes `aes_setkey` returns 0 and leaves the context as it was, so a following
encryption runs with the previous key. -/
theorem aes_setkey_invalid_length_accepted (c : Ctx) (key : List Byte)
    (hk : ¬ (key.length = 16 ∨ key.length = 24 ∨ key.length = 32)) : setkey c key = (0, c) := by
  have : setType key.length = none := by
    unfold setType
    rw [if_neg (by omega), if_neg (by omega), if_neg (by omega)]
  rw [setkey, this]

/-- Concretely: after a 16 byte key, setting a 17 byte key "succeeds" and encryption still uses the
first key. -/
theorem aes_setkey_keeps_old_key (c : Ctx) (k1 k2 block : List Byte) (h1 : k1.length = 16)
    (h2 : k2.length = 17) (hb : block.length = 16) :
    (setkey (setkey c k1).2 k2).1 = 0 ∧
      encrypt (setkey (setkey c k1).2 k2).2 block = some (Spec.aes k1 block) := by
  rw [aes_setkey_invalid_length_accepted _ k2 (by omega)]
  exact ⟨rfl, (aes_encrypt_is_fips197 c k1 block (Or.inl h1) hb).2⟩

example : ∃ k1 k2 : List Byte, k1.length = 16 ∧ k2.length = 17 :=
  ⟨List.replicate 16 0, List.replicate 17 1, rfl, rfl⟩

end LC.Aes
