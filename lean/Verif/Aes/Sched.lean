import Verif.Aes.Words
/- Key schedules and rounds of both implementations against FIPS 197. -/
namespace LC.Aes

theorem getD_flatten4 : ∀ (ws : List (List Byte)) (i j : Nat), (∀ w ∈ ws, w.length = 4) → j < 4 →
    ws.flatten.getD (4 * i + j) 0 = (ws.getD i []).getD j 0
  | [], i, j, _, _ => by simp
  | w :: ws, 0, j, h, hj => by
    have := h w (by simp)
    simp [List.getElem?_append, this, hj]
  | w :: ws, i + 1, j, h, hj => by
    have hw := h w (by simp)
    have ih := getD_flatten4 ws i j (fun w hw => h w (by simp [hw])) hj
    rw [List.flatten_cons, List.getD_eq_getElem?_getD, List.getElem?_append_right (by omega), hw,
      show 4 * (i + 1) + j - 4 = 4 * i + j by omega, ← List.getD_eq_getElem?_getD, ih]
    simp

theorem getD_lt {α : Type} (l : List α) (d : α) (i : Nat) (h : i < l.length) : l.getD i d = l[i] := by
  rw [List.getD_eq_getElem?_getD, List.getElem?_eq_getElem h]; rfl

theorem length4 {s : List Byte} (h : s.length = 4) : ∃ a b c d, s = [a, b, c, d] := by
  rcases s with _ | ⟨a, _ | ⟨b, _ | ⟨c, _ | ⟨d, _ | ⟨e, s⟩⟩⟩⟩⟩ <;> simp at h
  exact ⟨a, b, c, d, rfl⟩

theorem mkWord_eq (f : Nat → Byte) : Spec.mkWord f = [f 0, f 1, f 2, f 3] := rfl

theorem nextWord_length (nk : Nat) (key : List Byte) (w : List Spec.Word) (i : Nat) :
    (Spec.nextWord nk key w i).length = 4 := by
  unfold Spec.nextWord
  split
  · rfl
  · rfl

theorem keySchedule_length (nk : Nat) (key : List Byte) : ∀ n, (Spec.keySchedule nk key n).length = n
  | 0 => rfl
  | n + 1 => by simp [Spec.keySchedule, keySchedule_length nk key n]

theorem keySchedule_words (nk : Nat) (key : List Byte) :
    ∀ n, ∀ w ∈ Spec.keySchedule nk key n, w.length = 4
  | 0, w, h => by simp [Spec.keySchedule] at h
  | n + 1, w, h => by
    simp only [Spec.keySchedule, List.mem_append, List.mem_singleton] at h
    rcases h with h | rfl
    · exact keySchedule_words nk key n w h
    · exact nextWord_length _ _ _ _

theorem keySchedule_getD (nk : Nat) (key : List Byte) (n i : Nat) (h : i < n) :
    ∃ a b c d, (Spec.keySchedule nk key n).getD i [] = [a, b, c, d] := by
  apply length4
  apply keySchedule_words nk key n
  have hl := keySchedule_length nk key n
  rw [getD_lt _ _ _ (by omega)]
  exact List.getElem_mem _

/-- The words before `nk` are the key itself. -/
theorem keySchedule_key (nk : Nat) (key : List Byte) : ∀ n, n ≤ nk → 4 * n ≤ key.length →
    (Spec.keySchedule nk key n).flatten = key.take (4 * n)
  | 0, _, _ => rfl
  | n + 1, h, hk => by
    rw [Spec.keySchedule, List.flatten_append, keySchedule_key nk key n (by omega) (by omega)]
    rw [Spec.nextWord, if_pos (by omega), mkWord_eq]
    have e : ∀ j, j < 4 → key.getD (4 * n + j) 0 = (key.drop (4 * n)).getD j 0 := by
      intro j hj; simp
    have hd : ∃ a b c d t, key.drop (4 * n) = a :: b :: c :: d :: t := by
      have hl : 4 ≤ (key.drop (4 * n)).length := by simp; omega
      generalize key.drop (4 * n) = l at hl
      rcases l with _ | ⟨a, _ | ⟨b, _ | ⟨c, _ | ⟨d, t⟩⟩⟩⟩ <;> try (simp at hl; done)
      exact ⟨a, b, c, d, t, rfl⟩
    obtain ⟨a, b, c, d, t, hd⟩ := hd
    rw [e 0 (by omega), e 1 (by omega), e 2 (by omega), e 3 (by omega), hd,
      show 4 * (n + 1) = 4 * n + 4 by omega, List.take_add, hd]
    rfl

theorem rcon_table : ∀ j : Fin 11, 1 ≤ j.val →
    rcon.getD j.val 0 = UInt8.ofNat (Spec.gpow 2 (j.val - 1)) := by decide +kernel

theorem rcon_next : ∀ j : Fin 11, 1 ≤ j.val →
    xtime (UInt8.ofNat (Spec.gpow 2 (j.val - 1))) = UInt8.ofNat (Spec.gpow 2 j.val) := by decide +kernel

theorem sbox_fun : getSBoxValue = Spec.sbox := funext sbox_spec

theorem div_le_ten (nk i : Nat) (hnk : nk = 4 ∨ nk = 6 ∨ nk = 8) (hi : nk ≤ i) (hi2 : i < 11 * nk) :
    1 ≤ i / nk ∧ i / nk < 11 := by
  rcases hnk with rfl | rfl | rfl <;> omega

/-- One iteration of the table based key schedule appends the next word. -/
theorem expandStep_eq (nk : Nat) (hnk : nk = 4 ∨ nk = 6 ∨ nk = 8) (key : List Byte) (i : Nat)
    (hi : nk ≤ i) (hi2 : i < 11 * nk) :
    expandStep nk i (Spec.keySchedule nk key i).flatten = (Spec.keySchedule nk key (i + 1)).flatten := by
  have hpos : 0 < nk := by omega
  have hw := keySchedule_words nk key i
  obtain ⟨a, b, c, d, h1⟩ := keySchedule_getD nk key i (i - 1) (by omega)
  obtain ⟨a', b', c', d', h2⟩ := keySchedule_getD nk key i (i - nk) (by omega)
  have g : ∀ m j, j < 4 → (Spec.keySchedule nk key i).flatten.getD (m * 4 + j) 0 =
      ((Spec.keySchedule nk key i).getD m []).getD j 0 := by
    intro m j hj; rw [Nat.mul_comm, getD_flatten4 _ _ _ hw hj]
  have g0 : ∀ m, (Spec.keySchedule nk key i).flatten.getD (m * 4) 0 =
      ((Spec.keySchedule nk key i).getD m []).getD 0 0 := by
    intro m; exact g m 0 (by omega)
  rw [Spec.keySchedule, List.flatten_append, expandStep]
  simp only [g0, g _ 1 (by omega : 1 < 4), g _ 2 (by omega : 2 < 4), g _ 3 (by omega : 3 < 4)]
  rw [Spec.nextWord, if_neg (by omega : ¬ i < nk), h1, h2]
  congr 1
  rw [List.flatten_cons, List.flatten_nil, List.append_nil]
  obtain ⟨hr1, hr2⟩ := div_le_ten nk i hnk hi hi2
  have hrc := rcon_table ⟨i / nk, hr2⟩ hr1
  dsimp only at hrc
  by_cases hm : i % nk = 0
  · rw [if_neg (by omega : ¬ (nk = 8 ∧ i % nk = 4)), if_pos hm]
    dsimp only
    rw [if_pos hm, Spec.rcon, Spec.subWord, Spec.rotWord, Spec.xorWord, Spec.xorWord, mkWord_eq, mkWord_eq, mkWord_eq,
      mkWord_eq, mkWord_eq, rotSubRcon, hrc, sbox_fun]
    simp
  · by_cases h4 : nk = 8 ∧ i % nk = 4
    · rw [if_pos h4, if_neg hm]
      dsimp only
      rw [if_neg hm, if_pos (by omega : nk > 6 ∧ i % nk = 4), Spec.subWord, Spec.xorWord, mkWord_eq, mkWord_eq, sbox_fun]
      rfl
    · rw [if_neg h4, if_neg hm]
      dsimp only
      rw [if_neg hm, if_neg (by omega : ¬ (nk > 6 ∧ i % nk = 4)), Spec.xorWord, mkWord_eq]
      rfl

theorem expandLoop_eq (nk : Nat) (hnk : nk = 4 ∨ nk = 6 ∨ nk = 8) (key : List Byte) :
    ∀ n i, nk ≤ i → i + n ≤ 11 * nk →
      expandLoop nk n i (Spec.keySchedule nk key i).flatten = (Spec.keySchedule nk key (i + n)).flatten
  | 0, i, _, _ => rfl
  | n + 1, i, h1, h2 => by
    rw [expandLoop, expandStep_eq nk hnk key i h1 (by omega), expandLoop_eq nk hnk key n (i + 1) (by omega) (by omega)]
    congr 2; omega

theorem keyExpansion_eq (nk : Nat) (hnk : nk = 4 ∨ nk = 6 ∨ nk = 8) (key : List Byte)
    (hk : key.length = 4 * nk) :
    keyExpansion nk (nk + 6) key = (Spec.keySchedule nk key (4 * (nk + 7))).flatten := by
  rw [keyExpansion, ← keySchedule_key nk key nk (by omega) (by omega),
    expandLoop_eq nk hnk key _ nk (by omega) (by omega)]
  congr 2; omega

/-! ### Rounds -/

theorem subBytes_spec {s : List Byte} (h : s.length = 16) : subBytes s = Spec.subBytes s := by
  obtain ⟨b0, b1, b2, b3, b4, b5, b6, b7, b8, b9, b10, b11, b12, b13, b14, b15, rfl⟩ := length16 h
  rw [subBytes, sbox_fun]
  rfl

theorem shiftRows_spec {s : List Byte} (h : s.length = 16) : shiftRows s = Spec.shiftRows s := by
  obtain ⟨b0, b1, b2, b3, b4, b5, b6, b7, b8, b9, b10, b11, b12, b13, b14, b15, rfl⟩ := length16 h
  rw [shiftRows_eq]
  rfl

theorem mul2_spec (x : Byte) : Spec.mul 2 x = xtime x := by
  revert x; exact forall_byte (by decide +kernel)
theorem mul3_spec (x : Byte) : Spec.mul 3 x = xtime x ^^^ x := by
  revert x; exact forall_byte (by decide +kernel)

theorem mk_eq (f : Nat → Nat → Byte) : Spec.mk f =
    [f 0 0, f 1 0, f 2 0, f 3 0] ++ ([f 0 1, f 1 1, f 2 1, f 3 1] ++ ([f 0 2, f 1 2, f 2 2, f 3 2] ++
      [f 0 3, f 1 3, f 2 3, f 3 3])) := rfl

theorem mixColumns_spec {s : List Byte} (h : s.length = 16) : mixColumns s = Spec.mixColumns s := by
  have hc : ∀ c, mixColumn (get s c 0) (get s c 1) (get s c 2) (get s c 3) =
      [Spec.mul 2 (Spec.el s 0 c) ^^^ Spec.mul 3 (Spec.el s 1 c) ^^^ Spec.el s 2 c ^^^ Spec.el s 3 c,
        Spec.mul 2 (Spec.el s 1 c) ^^^ Spec.mul 3 (Spec.el s 2 c) ^^^ Spec.el s 3 c ^^^ Spec.el s 0 c,
        Spec.mul 2 (Spec.el s 2 c) ^^^ Spec.mul 3 (Spec.el s 3 c) ^^^ Spec.el s 0 c ^^^ Spec.el s 1 c,
        Spec.mul 2 (Spec.el s 3 c) ^^^ Spec.mul 3 (Spec.el s 0 c) ^^^ Spec.el s 1 c ^^^ Spec.el s 2 c] := by
    intro c
    have e : ∀ r, get s c r = Spec.el s r c := by
      intro r; rw [get, Spec.el, Nat.add_comm]
    rw [e, e, e, e, mixColumn_eq]
    simp only [mul2_spec, mul3_spec]
    congr 1
    congr 1
    · ac_rfl
    congr 1
    · ac_rfl
    congr 1
    · ac_rfl
  have hm : mixColumns s = mixColumn (get s 0 0) (get s 0 1) (get s 0 2) (get s 0 3) ++
      (mixColumn (get s 1 0) (get s 1 1) (get s 1 2) (get s 1 3) ++
        (mixColumn (get s 2 0) (get s 2 1) (get s 2 2) (get s 2 3) ++
          mixColumn (get s 3 0) (get s 3 1) (get s 3 2) (get s 3 3))) := rfl
  rw [hm, hc, hc, hc, hc, Spec.mixColumns, mk_eq]

theorem addRoundKey_spec (ws : List Spec.Word) (hw : ∀ w ∈ ws, w.length = 4) (r : Nat) (s : List Byte) :
    addRoundKey r s ws.flatten = Spec.addRoundKey ws r s := by
  rw [addRoundKey, Spec.addRoundKey, Spec.mk]
  apply List.map_congr_left
  intro k hk
  have hk : k < 16 := List.mem_range.mp hk
  rw [Spec.el, show k % 4 + 4 * (k / 4) = k by omega,
    show r * 4 * 4 + k = 4 * (4 * r + k / 4) + k % 4 by omega,
    getD_flatten4 _ _ _ hw (by omega)]

theorem fullRounds_spec (ws : List Spec.Word) (hw : ∀ w ∈ ws, w.length = 4) (s : List Byte) :
    ∀ k, fullRounds ws.flatten k s = Spec.fullRounds ws k s
  | 0 => addRoundKey_spec ws hw 0 s
  | k + 1 => by
    rw [fullRounds, Spec.fullRounds, ← fullRounds_spec ws hw s k, addRoundKey_spec ws hw]
    have h := fullRounds_length ws.flatten k s
    rw [← subBytes_spec h, ← shiftRows_spec (by rw [subBytes_length, h]),
      ← mixColumns_spec (by rw [shiftRows_length, subBytes_length, h])]

/-! ### `aes_no_sbox.c` -/
namespace Scr

def toWord (w : Spec.Word) : UInt32 := word (w.getD 0 0) (w.getD 1 0) (w.getD 2 0) (w.getD 3 0)

theorem bytes_toWord {w : Spec.Word} (h : w.length = 4) : bytes (toWord w) = w := by
  obtain ⟨a, b, c, d, rfl⟩ := length4 h
  exact bytes_word a b c d

theorem flatMap_bytes : ∀ (ws : List Spec.Word), (∀ w ∈ ws, w.length = 4) →
    (ws.map toWord).flatMap bytes = ws.flatten
  | [], _ => rfl
  | w :: ws, h => by
    rw [List.map_cons, List.flatMap_cons, bytes_toWord (h w (by simp)), List.flatten_cons,
      flatMap_bytes ws (fun w hw => h w (by simp [hw]))]

theorem addRoundKey_eq' (ws : List Spec.Word) (hw : ∀ w ∈ ws, w.length = 4) (r : Nat) (s : List Byte) :
    addRoundKey r s (ws.map toWord) = Aes.addRoundKey r s ws.flatten := by
  rw [addRoundKey, Aes.addRoundKey, flatMap_bytes ws hw, show 4 * (r * 4) = r * 4 * 4 by omega]

/-- The running round constant: the index of the next multiple of `nk`. -/
def rc (nk i : Nat) : UInt32 := word (UInt8.ofNat (Spec.gpow 2 ((i + nk - 1) / nk - 1))) 0 0 0

theorem rc_step_pos (nk : Nat) (hnk : nk = 4 ∨ nk = 6 ∨ nk = 8) (i : Nat) (hi : nk ≤ i)
    (hi2 : i < 11 * nk) (hm : i % nk = 0) :
    rc nk i = word (UInt8.ofNat (Spec.gpow 2 (i / nk - 1))) 0 0 0 ∧ gfMul2 (rc nk i) = rc nk (i + 1) := by
  obtain ⟨hr1, hr2⟩ := div_le_ten nk i hnk hi hi2
  have e1 : (i + nk - 1) / nk = i / nk := by rcases hnk with rfl | rfl | rfl <;> omega
  have e2 : (i + 1 + nk - 1) / nk - 1 = i / nk := by rcases hnk with rfl | rfl | rfl <;> omega
  have := rcon_next ⟨i / nk, hr2⟩ hr1
  dsimp only at this
  unfold rc
  rw [e1, e2]
  exact ⟨rfl, by rw [gfMul2_word, this]; rfl⟩

theorem rc_step_neg (nk : Nat) (hnk : nk = 4 ∨ nk = 6 ∨ nk = 8) (i : Nat) (hi : nk ≤ i)
    (hm : i % nk ≠ 0) : rc nk i = rc nk (i + 1) := by
  unfold rc
  rw [show (i + nk - 1) / nk - 1 = (i + 1 + nk - 1) / nk - 1 by
    rcases hnk with rfl | rfl | rfl <;> omega]

theorem getD_map_toWord (ws : List Spec.Word) (i : Nat) (h : i < ws.length) :
    (ws.map toWord).getD i 0 = toWord (ws.getD i []) := by
  rw [getD_lt _ _ _ (by simpa using h), getD_lt _ _ _ h, List.getElem_map]

theorem expandStep_eq' (nk : Nat) (hnk : nk = 4 ∨ nk = 6 ∨ nk = 8) (key : List Byte) (i : Nat)
    (hi : nk ≤ i) (hi2 : i < 11 * nk) :
    expandStep nk i ((Spec.keySchedule nk key i).map toWord, rc nk i) =
      ((Spec.keySchedule nk key (i + 1)).map toWord, rc nk (i + 1)) := by
  have hl := keySchedule_length nk key i
  obtain ⟨a, b, c, d, h1⟩ := keySchedule_getD nk key i (i - 1) (by omega)
  obtain ⟨a', b', c', d', h2⟩ := keySchedule_getD nk key i (i - nk) (by omega)
  rw [expandStep]
  dsimp only
  rw [getD_map_toWord _ _ (by omega), getD_map_toWord _ _ (by omega), h1, h2, Spec.keySchedule, List.map_append,
    List.map_singleton, Spec.nextWord, if_neg (by omega : ¬ i < nk), h1, h2]
  have t : ∀ a b c d, toWord [a, b, c, d] = word a b c d := fun _ _ _ _ => rfl
  by_cases hm : i % nk = 0
  · obtain ⟨r1, r2⟩ := rc_step_pos nk hnk i hi hi2 hm
    dsimp only
    rw [if_pos hm, if_pos hm]
    dsimp only
    rw [r2, r1, t, t, ror8, subWord_word, word_xor, word_xor, Spec.rcon, Spec.subWord, Spec.rotWord,
      Spec.xorWord, Spec.xorWord, mkWord_eq, mkWord_eq, mkWord_eq, mkWord_eq, mkWord_eq, t, sbox_fun]
    simp
  · rw [rc_step_neg nk hnk i hi hm]
    by_cases h4 : nk > 6 ∧ i % nk = 4
    · dsimp only
      rw [if_neg hm, if_pos h4, if_neg hm, if_pos h4]
      dsimp only
      rw [t, t, subWord_word, word_xor, Spec.subWord, Spec.xorWord, mkWord_eq, mkWord_eq, t, sbox_fun]
      rfl
    · dsimp only
      rw [if_neg hm, if_neg h4, if_neg hm, if_neg h4]
      dsimp only
      rw [t, t, word_xor, Spec.xorWord, mkWord_eq, t]
      rfl

theorem expandLoop_eq' (nk : Nat) (hnk : nk = 4 ∨ nk = 6 ∨ nk = 8) (key : List Byte) :
    ∀ n i, nk ≤ i → i + n ≤ 11 * nk →
      (expandLoop nk n i ((Spec.keySchedule nk key i).map toWord, rc nk i)).1 =
        (Spec.keySchedule nk key (i + n)).map toWord
  | 0, i, _, _ => rfl
  | n + 1, i, h1, h2 => by
    rw [expandLoop, expandStep_eq' nk hnk key i h1 (by omega),
      expandLoop_eq' nk hnk key n (i + 1) (by omega) (by omega)]
    congr 2; omega

theorem keySchedule_initial (nk : Nat) (key : List Byte) : ∀ n, n ≤ nk →
    (Spec.keySchedule nk key n).map toWord = (List.range n).map (getW key)
  | 0, _ => rfl
  | n + 1, h => by
    rw [Spec.keySchedule, List.map_append, keySchedule_initial nk key n (by omega), List.range_succ,
      List.map_append, List.map_singleton, List.map_singleton, Spec.nextWord, if_pos (by omega)]
    rfl

theorem keyExpansion_eq' (nk : Nat) (hnk : nk = 4 ∨ nk = 6 ∨ nk = 8) (key : List Byte) :
    keyExpansion nk (nk + 6) key = (Spec.keySchedule nk key (4 * (nk + 7))).map toWord := by
  have h0 : rc nk nk = 1 := by rcases hnk with rfl | rfl | rfl <;> decide
  rw [keyExpansion, ← keySchedule_initial nk key nk (by omega), ← h0,
    expandLoop_eq' nk hnk key _ nk (by omega) (by omega)]
  congr 2; omega

theorem cipherLoop_eq' (ws : List Spec.Word) (hw : ∀ w ∈ ws, w.length = 4) (s : List Byte) :
    ∀ n k, cipherLoop (ws.map toWord) n (k + 1) (fullRounds ws.flatten k s) =
      fullRounds ws.flatten (k + n) s
  | 0, k => rfl
  | n + 1, k => by
    have h := fullRounds_length ws.flatten k s
    rw [cipherLoop, addRoundKey_eq' ws hw, subBytes_eq',
      shiftRows_eq' (by rw [subBytes_length, h]), mixColumns_eq', ← fullRounds,
      cipherLoop_eq' ws hw s n (k + 1)]
    congr 1; omega

theorem cipher_eq' (ws : List Spec.Word) (hw : ∀ w ∈ ws, w.length = 4) (nk nr : Nat) (h1 : 1 ≤ nr)
    (h2 : nr < 256) (s : List Byte) :
    cipher (ws.map toWord) nr s = Aes.cipher { roundKey := ws.flatten, nk := nk, nr := nr } s := by
  rw [cipher_eq _ h1 h2, cipher, addRoundKey_eq' ws hw, addRoundKey_eq' ws hw]
  have h := cipherLoop_eq' ws hw s (nr - 1) 0
  rw [Nat.zero_add, Nat.zero_add, fullRounds] at h
  have hl := fullRounds_length ws.flatten (nr - 1) s
  rw [h, subBytes_eq', shiftRows_eq' (by rw [subBytes_length, hl])]

theorem invCipherLoop_eq' (ws : List Spec.Word) (hw : ∀ w ∈ ws, w.length = 4) :
    ∀ k (s : List Byte), s.length = 16 →
      invCipherLoop (ws.map toWord) k s = Aes.invCipherLoop ws.flatten k s
  | 0, s, h => by
    rw [invCipherLoop, Aes.invCipherLoop, addRoundKey_eq' ws hw, subBytesInv_eq',
      shiftRowsInv_eq' (by rw [invSubBytes_length, h]), swap_steps h]
  | k + 1, s, h => by
    rw [invCipherLoop, Aes.invCipherLoop, addRoundKey_eq' ws hw, subBytesInv_eq',
      shiftRowsInv_eq' (by rw [invSubBytes_length, h]), swap_steps h, mixColumnsInv_eq',
      invCipherLoop_eq' ws hw k _ (invMixColumns_length _)]
where
  swap_steps {s : List Byte} (h : s.length = 16) :
      invShiftRows (invSubBytes s) = invSubBytes (invShiftRows s) := by
    obtain ⟨b0, b1, b2, b3, b4, b5, b6, b7, b8, b9, b10, b11, b12, b13, b14, b15, rfl⟩ := length16 h
    rw [invShiftRows_eq]
    simp only [invSubBytes, List.map_cons, List.map_nil]
    rw [invShiftRows_eq]

theorem invCipher_eq' (ws : List Spec.Word) (hw : ∀ w ∈ ws, w.length = 4) (nk nr : Nat) (s : List Byte) :
    invCipher (ws.map toWord) nr s = Aes.invCipher { roundKey := ws.flatten, nk := nk, nr := nr } s := by
  rw [invCipher, Aes.invCipher, addRoundKey_eq' ws hw]
  exact invCipherLoop_eq' ws hw _ _ (addRoundKey_length _ _ _)

end Scr
end LC.Aes
