import Verif.Aes.Bytes
/- The inverse of every step of the table implementation, and of the whole cipher. -/
namespace LC.Aes

/-! ### Steps on 16 byte states -/

/-- A state with 16 named bytes. -/
theorem length16 {s : List Byte} (h : s.length = 16) : ∃ b0 b1 b2 b3 b4 b5 b6 b7 b8 b9 b10 b11 b12 b13 b14 b15,
    s = [b0, b1, b2, b3, b4, b5, b6, b7, b8, b9, b10, b11, b12, b13, b14, b15] := by
  rcases s with _ | ⟨b0, _ | ⟨b1, _ | ⟨b2, _ | ⟨b3, _ | ⟨b4, _ | ⟨b5, _ | ⟨b6, _ | ⟨b7, _ | ⟨b8,
    _ | ⟨b9, _ | ⟨b10, _ | ⟨b11, _ | ⟨b12, _ | ⟨b13, _ | ⟨b14, _ | ⟨b15, _ | ⟨b16, s⟩⟩⟩⟩⟩⟩⟩⟩⟩⟩⟩⟩⟩⟩⟩⟩⟩ <;>
    simp at h
  exact ⟨b0, b1, b2, b3, b4, b5, b6, b7, b8, b9, b10, b11, b12, b13, b14, b15, rfl⟩

theorem subBytes_length (s : List Byte) : (subBytes s).length = s.length := by simp [subBytes]
theorem invSubBytes_length (s : List Byte) : (invSubBytes s).length = s.length := by simp [invSubBytes]
theorem shiftRows_length (s : List Byte) : (shiftRows s).length = s.length := by simp [shiftRows, put]
theorem invShiftRows_length (s : List Byte) : (invShiftRows s).length = s.length := by
  simp [invShiftRows, put]
theorem addRoundKey_length (r : Nat) (s rk : List Byte) : (addRoundKey r s rk).length = 16 := by
  simp [addRoundKey]
theorem mixColumns_length (s : List Byte) : (mixColumns s).length = 16 := rfl
theorem invMixColumns_length (s : List Byte) : (invMixColumns s).length = 16 := rfl

theorem invSubBytes_subBytes (s : List Byte) : invSubBytes (subBytes s) = s := by
  rw [invSubBytes, subBytes, List.map_map,
    show getSBoxInvert ∘ getSBoxValue = id from funext rsbox_sbox, List.map_id]
theorem subBytes_invSubBytes (s : List Byte) : subBytes (invSubBytes s) = s := by
  rw [invSubBytes, subBytes, List.map_map,
    show getSBoxValue ∘ getSBoxInvert = id from funext sbox_rsbox, List.map_id]

theorem shiftRows_eq (b0 b1 b2 b3 b4 b5 b6 b7 b8 b9 b10 b11 b12 b13 b14 b15 : Byte) :
    shiftRows [b0, b1, b2, b3, b4, b5, b6, b7, b8, b9, b10, b11, b12, b13, b14, b15] =
      [b0, b5, b10, b15, b4, b9, b14, b3, b8, b13, b2, b7, b12, b1, b6, b11] := rfl
theorem invShiftRows_eq (b0 b1 b2 b3 b4 b5 b6 b7 b8 b9 b10 b11 b12 b13 b14 b15 : Byte) :
    invShiftRows [b0, b1, b2, b3, b4, b5, b6, b7, b8, b9, b10, b11, b12, b13, b14, b15] =
      [b0, b13, b10, b7, b4, b1, b14, b11, b8, b5, b2, b15, b12, b9, b6, b3] := rfl

theorem invShiftRows_shiftRows {s : List Byte} (h : s.length = 16) : invShiftRows (shiftRows s) = s := by
  obtain ⟨b0, b1, b2, b3, b4, b5, b6, b7, b8, b9, b10, b11, b12, b13, b14, b15, rfl⟩ := length16 h
  rw [shiftRows_eq, invShiftRows_eq]
theorem shiftRows_invShiftRows {s : List Byte} (h : s.length = 16) : shiftRows (invShiftRows s) = s := by
  obtain ⟨b0, b1, b2, b3, b4, b5, b6, b7, b8, b9, b10, b11, b12, b13, b14, b15, rfl⟩ := length16 h
  rw [invShiftRows_eq, shiftRows_eq]

theorem mixColumns_eq (b0 b1 b2 b3 b4 b5 b6 b7 b8 b9 b10 b11 b12 b13 b14 b15 : Byte) :
    mixColumns [b0, b1, b2, b3, b4, b5, b6, b7, b8, b9, b10, b11, b12, b13, b14, b15] =
      mixColumn b0 b1 b2 b3 ++ (mixColumn b4 b5 b6 b7 ++ (mixColumn b8 b9 b10 b11 ++ mixColumn b12 b13 b14 b15)) := rfl
theorem invMixColumns_eq (b0 b1 b2 b3 b4 b5 b6 b7 b8 b9 b10 b11 b12 b13 b14 b15 : Byte) :
    invMixColumns [b0, b1, b2, b3, b4, b5, b6, b7, b8, b9, b10, b11, b12, b13, b14, b15] =
      invMixColumn b0 b1 b2 b3 ++ (invMixColumn b4 b5 b6 b7 ++ (invMixColumn b8 b9 b10 b11 ++ invMixColumn b12 b13 b14 b15)) := rfl

theorem invMixColumns_mixColumns {s : List Byte} (h : s.length = 16) :
    invMixColumns (mixColumns s) = s := by
  obtain ⟨b0, b1, b2, b3, b4, b5, b6, b7, b8, b9, b10, b11, b12, b13, b14, b15, rfl⟩ := length16 h
  rw [mixColumns_eq, mixColumn_eq, mixColumn_eq, mixColumn_eq, mixColumn_eq]
  simp only [List.cons_append, List.nil_append]
  rw [invMixColumns_eq, invMixColumn_mixColumn, invMixColumn_mixColumn, invMixColumn_mixColumn,
    invMixColumn_mixColumn]
  rfl
theorem mixColumns_invMixColumns {s : List Byte} (h : s.length = 16) :
    mixColumns (invMixColumns s) = s := by
  obtain ⟨b0, b1, b2, b3, b4, b5, b6, b7, b8, b9, b10, b11, b12, b13, b14, b15, rfl⟩ := length16 h
  rw [invMixColumns_eq]
  simp only [invMixColumn, List.cons_append, List.nil_append]
  rw [mixColumns_eq, mixColumn_invMixColumn, mixColumn_invMixColumn, mixColumn_invMixColumn,
    mixColumn_invMixColumn]
  rfl

theorem addRoundKey_addRoundKey (r : Nat) {s : List Byte} (h : s.length = 16) (rk : List Byte) :
    addRoundKey r (addRoundKey r s rk) rk = s := by
  apply List.ext_getElem
  · rw [addRoundKey_length, h]
  · intro i h1 h2
    rw [addRoundKey_length] at h1
    simp [addRoundKey, h1, UInt8.xor_assoc, h2]

/-! ### The rounds -/

/-- The state after `k` full rounds. -/
def fullRounds (rk : List Byte) : Nat → List Byte → List Byte
  | 0, s => addRoundKey 0 s rk
  | k + 1, s => addRoundKey (k + 1) (mixColumns (shiftRows (subBytes (fullRounds rk k s)))) rk

theorem fullRounds_length (rk : List Byte) (k : Nat) (s : List Byte) :
    (fullRounds rk k s).length = 16 := by
  cases k <;> simp [fullRounds, addRoundKey_length]

theorem cipherLoop_eq (rk : List Byte) (nr : Nat) (hn : nr < 256) (s : List Byte) :
    ∀ fuel k, k + 1 ≤ nr → nr - k ≤ fuel →
      cipherLoop rk nr fuel (k + 1) (fullRounds rk k s) =
        shiftRows (subBytes (fullRounds rk (nr - 1) s))
  | 0, k, h1, h2 => by omega
  | fuel + 1, k, h1, h2 => by
    unfold cipherLoop
    by_cases h : k + 1 = nr
    · subst h; simp
    · dsimp only
      rw [if_neg h, Nat.mod_eq_of_lt (by omega)]
      exact cipherLoop_eq rk nr hn s fuel (k + 1) (by omega) (by omega)

theorem cipher_eq (c : Ctx) (h1 : 1 ≤ c.nr) (h2 : c.nr < 256) (s : List Byte) :
    cipher c s = addRoundKey c.nr (shiftRows (subBytes (fullRounds c.roundKey (c.nr - 1) s))) c.roundKey := by
  rw [cipher]
  congr 1
  exact cipherLoop_eq c.roundKey c.nr h2 s 256 0 (by omega) (by omega)

theorem invLoop_rounds (rk : List Byte) {s : List Byte} (h : s.length = 16) :
    ∀ k, invCipherLoop rk k (shiftRows (subBytes (fullRounds rk k s))) = s
  | 0 => by
    rw [invCipherLoop, invShiftRows_shiftRows (by rw [subBytes_length, fullRounds_length]),
      invSubBytes_subBytes, fullRounds, addRoundKey_addRoundKey 0 h]
  | k + 1 => by
    rw [invCipherLoop, invShiftRows_shiftRows (by rw [subBytes_length, fullRounds_length]),
      invSubBytes_subBytes, fullRounds, addRoundKey_addRoundKey _ (mixColumns_length _),
      invMixColumns_mixColumns (by rw [shiftRows_length, subBytes_length, fullRounds_length])]
    exact invLoop_rounds rk h k

theorem invCipherLoop_length (rk : List Byte) : ∀ k s, (invCipherLoop rk k s).length = 16
  | 0, s => addRoundKey_length _ _ _
  | k + 1, s => by rw [invCipherLoop]; exact invCipherLoop_length rk k _

theorem rounds_invLoop (rk : List Byte) : ∀ k (s : List Byte), s.length = 16 →
    shiftRows (subBytes (fullRounds rk k (invCipherLoop rk k s))) = s
  | 0, s, h => by
    rw [invCipherLoop, fullRounds,
      addRoundKey_addRoundKey 0 (by rw [invSubBytes_length, invShiftRows_length, h]),
      subBytes_invSubBytes, shiftRows_invShiftRows h]
  | k + 1, s, h => by
    rw [invCipherLoop, fullRounds, rounds_invLoop rk k _ (invMixColumns_length _),
      mixColumns_invMixColumns (addRoundKey_length _ _ _),
      addRoundKey_addRoundKey _ (by rw [invSubBytes_length, invShiftRows_length, h]),
      subBytes_invSubBytes, shiftRows_invShiftRows h]

theorem invCipher_cipher (c : Ctx) (h1 : 1 ≤ c.nr) (h2 : c.nr < 256) {s : List Byte}
    (h : s.length = 16) : invCipher c (cipher c s) = s := by
  rw [cipher_eq c h1 h2, invCipher, addRoundKey_addRoundKey _
    (by rw [shiftRows_length, subBytes_length, fullRounds_length])]
  exact invLoop_rounds _ h _

theorem cipher_invCipher (c : Ctx) (h1 : 1 ≤ c.nr) (h2 : c.nr < 256) {s : List Byte}
    (h : s.length = 16) : cipher c (invCipher c s) = s := by
  rw [cipher_eq c h1 h2, invCipher, rounds_invLoop _ _ _ (addRoundKey_length _ _ _),
    addRoundKey_addRoundKey _ h]

end LC.Aes
