import Verif.Sym.Kw
/- C18: ChaCha20. -/
namespace LC.Sym.Cc20
open Aes.Scr (nw word_toNat bytes_toNat)

theorem rol_16 (x : UInt32) : rol32 x 16 = Spec.rotl x 16 := rfl
theorem rol_12 (x : UInt32) : rol32 x 12 = Spec.rotl x 12 := rfl
theorem rol_8 (x : UInt32) : rol32 x 8 = Spec.rotl x 8 := rfl
theorem rol_7 (x : UInt32) : rol32 x 7 = Spec.rotl x 7 := rfl

theorem list16 {s : List UInt32} (h : s.length = 16) : ∃ a b c d e f g i j k l m n o p q,
    s = [a, b, c, d, e, f, g, i, j, k, l, m, n, o, p, q] := by
  rcases s with _ | ⟨a, _ | ⟨b, _ | ⟨c, _ | ⟨d, _ | ⟨e, _ | ⟨f, _ | ⟨g, _ | ⟨i, _ | ⟨j, _ | ⟨k, _ | ⟨l, _ | ⟨m, _ | ⟨n,
    _ | ⟨o, _ | ⟨p, _ | ⟨q, _ | ⟨r, s⟩⟩⟩⟩⟩⟩⟩⟩⟩⟩⟩⟩⟩⟩⟩⟩⟩ <;> simp at h
  exact ⟨a, b, c, d, e, f, g, i, j, k, l, m, n, o, p, q, rfl⟩

/-- The four line pairs of a quarter round. -/
def quad (x y z w : Nat) : List ((Nat × Nat × Nat) × UInt32) :=
  [((x, y, w), 16), ((z, w, y), 12), ((x, y, w), 8), ((z, w, y), 7)]

theorem body_eq : body = quad 0 4 8 12 ++ (quad 1 5 9 13 ++ (quad 2 6 10 14 ++ (quad 3 7 11 15 ++
    (quad 0 5 10 15 ++ (quad 1 6 11 12 ++ (quad 2 7 8 13 ++ quad 3 4 9 14)))))) := rfl

theorem op_length (s : List UInt32) (p) : (op s p).length = s.length := by simp [op]
theorem fold_length : ∀ (l : List ((Nat × Nat × Nat) × UInt32)) (s : List UInt32), (l.foldl op s).length = s.length
  | [], _ => rfl
  | p :: l, s => by rw [List.foldl_cons, fold_length l, op_length]

/-- In general position a quarter round of the code is a quarter round of the RFC. -/
theorem quad_eq (s : List UInt32) (x y z w : Nat) (hx : x < s.length) (hy : y < s.length) (hz : z < s.length)
    (hw : w < s.length) (h1 : x ≠ y) (h2 : x ≠ z) (h3 : x ≠ w) (h4 : y ≠ z) (h5 : y ≠ w) (h6 : z ≠ w) :
    (quad x y z w).foldl op s = Spec.QUARTERROUND s x y z w := by
  have e1 := h1.symm; have e2 := h2.symm; have e3 := h3.symm; have e4 := h4.symm; have e5 := h5.symm
  have e6 := h6.symm
  apply List.ext_getElem
  · rw [fold_length]; simp [Spec.QUARTERROUND]
  · intro i hi1 hi2
    rw [fold_length] at hi1
    simp only [quad, List.foldl_cons, List.foldl_nil, op, rol_16, rol_12, rol_8, rol_7, Spec.QUARTERROUND, Spec.quarter,
      List.getD_eq_getElem?_getD, List.getElem?_set, List.getElem_set, List.length_set]
    by_cases c1 : x = i
    · subst c1
      simp [h1, h2, h3, h4, h5, h6, e1, e2, e3, e4, e5, e6, hx, hy, hz, hw]
    · by_cases c2 : y = i
      · subst c2
        simp [h1, h2, h3, h4, h5, h6, e1, e2, e3, e4, e5, e6, hx, hy, hz, hw]
      · by_cases c3 : z = i
        · subst c3
          simp [h1, h2, h3, h4, h5, h6, e1, e2, e3, e4, e5, e6, hx, hy, hz, hw]
        · by_cases c4 : w = i
          · subst c4
            simp [h1, h2, h3, h4, h5, h6, e1, e2, e3, e4, e5, e6, hx, hy, hz, hw]
          · simp [c1, c2, c3, c4]

theorem QR_length (s : List UInt32) (x y z w : Nat) : (Spec.QUARTERROUND s x y z w).length = s.length := by
  simp [Spec.QUARTERROUND]

theorem body_spec (s : List UInt32) (h : s.length = 16) :
    body.foldl op s = Spec.doubleRound s ∧ (body.foldl op s).length = 16 := by
  refine ⟨?_, by rw [fold_length, h]⟩
  rw [body_eq]
  simp only [List.foldl_append]
  rw [quad_eq s 0 4 8 12 (by omega) (by omega) (by omega) (by omega) (by omega) (by omega) (by omega) (by omega) (by omega) (by omega)]
  have l1 := QR_length s 0 4 8 12
  rw [h] at l1
  rw [quad_eq _ 1 5 9 13 (by omega) (by omega) (by omega) (by omega) (by omega) (by omega) (by omega) (by omega) (by omega) (by omega)]
  have l2 := QR_length (Spec.QUARTERROUND s 0 4 8 12) 1 5 9 13
  rw [l1] at l2
  rw [quad_eq _ 2 6 10 14 (by omega) (by omega) (by omega) (by omega) (by omega) (by omega) (by omega) (by omega) (by omega) (by omega)]
  have l3 := QR_length (Spec.QUARTERROUND (Spec.QUARTERROUND s 0 4 8 12) 1 5 9 13) 2 6 10 14
  rw [l2] at l3
  rw [quad_eq _ 3 7 11 15 (by omega) (by omega) (by omega) (by omega) (by omega) (by omega) (by omega) (by omega) (by omega) (by omega)]
  generalize hs : Spec.QUARTERROUND (Spec.QUARTERROUND (Spec.QUARTERROUND (Spec.QUARTERROUND s 0 4 8 12) 1 5 9 13) 2 6 10 14) 3 7 11 15 = s4
  have l4 : s4.length = 16 := by rw [← hs, QR_length, l3]
  rw [quad_eq _ 0 5 10 15 (by omega) (by omega) (by omega) (by omega) (by omega) (by omega) (by omega) (by omega) (by omega) (by omega)]
  have l5 := QR_length s4 0 5 10 15
  rw [l4] at l5
  rw [quad_eq _ 1 6 11 12 (by omega) (by omega) (by omega) (by omega) (by omega) (by omega) (by omega) (by omega) (by omega) (by omega)]
  have l6 := QR_length (Spec.QUARTERROUND s4 0 5 10 15) 1 6 11 12
  rw [l5] at l6
  rw [quad_eq _ 2 7 8 13 (by omega) (by omega) (by omega) (by omega) (by omega) (by omega) (by omega) (by omega) (by omega) (by omega)]
  have l7 := QR_length (Spec.QUARTERROUND (Spec.QUARTERROUND s4 0 5 10 15) 1 6 11 12) 2 7 8 13
  rw [l6] at l7
  rw [quad_eq _ 3 4 9 14 (by omega) (by omega) (by omega) (by omega) (by omega) (by omega) (by omega) (by omega) (by omega) (by omega)]
  rw [← hs]
  rfl

theorem rounds_spec : ∀ n s, s.length = 16 → rounds n s = Spec.twenty n s
  | 0, _, _ => rfl
  | n + 1, s, h => by
    have := body_spec s h
    rw [rounds, Spec.twenty, ← this.1, rounds_spec n _ this.2]

/-! ### Serialisation -/

theorem le32_eq (w : UInt32) : le32 w = [UInt8.ofNat (w.toNat / 256 ^ 0), UInt8.ofNat (w.toNat / 256 ^ 1),
    UInt8.ofNat (w.toNat / 256 ^ 2), UInt8.ofNat (w.toNat / 256 ^ 3)] := by
  rw [Nat.pow_zero, Nat.div_one]
  exact bytes_toNat w

theorem flat64 (g : Nat → Nat → Byte) :
    ((List.range 16).map fun i => [g i 0, g i 1, g i 2, g i 3]).flatten =
      (List.range 64).map fun i => g (i / 4) (i % 4) := rfl

theorem unle32_eq (p : List Byte) :
    unle32 p = Spec.leWord (p.getD 0 0) (p.getD 1 0) (p.getD 2 0) (p.getD 3 0) := by
  apply UInt32.toNat_inj.mp
  have h := word_toNat (p.getD 0 0) (p.getD 1 0) (p.getD 2 0) (p.getD 3 0)
  rw [show unle32 p = Aes.Scr.word (p.getD 0 0) (p.getD 1 0) (p.getD 2 0) (p.getD 3 0) from rfl, h, Spec.leWord,
    UInt32.toNat_ofNat']
  have h0 := (p.getD 0 0).toNat_lt
  have h1 := (p.getD 1 0).toNat_lt
  have h2 := (p.getD 2 0).toNat_lt
  have h3 := (p.getD 3 0).toNat_lt
  unfold nw
  omega

theorem leWords_eq (s : List Byte) :
    (List.range (s.length / 4)).map (fun i => unle32 (s.drop (4 * i))) = Spec.leWords s := by
  unfold Spec.leWords
  apply List.map_congr_left
  intro i _
  rw [unle32_eq]
  simp

theorem leWords_length (s : List Byte) : (Spec.leWords s).length = s.length / 4 := by simp [Spec.leWords]

theorem sigma_words : Spec.leWords Spec.sigma = [0x61707865, 0x3320646e, 0x79622d32, 0x6b206574] := by decide

theorem state_length (key nonce : List Byte) (n : Nat) (hk : key.length = 32) (hn : nonce.length = 12) :
    (Spec.cc20State key n nonce).length = 16 := by
  simp only [Spec.cc20State, List.length_append, leWords_length, hk, hn, sigma_words]
  rfl

theorem state_split (key nonce : List Byte) (n : Nat) (hk : key.length = 32) :
    (Spec.leWords Spec.sigma ++ Spec.leWords key).length = 12 := by
  rw [List.length_append, leWords_length, leWords_length, hk]; rfl

theorem block_spec (key nonce : List Byte) (n : Nat) (hk : key.length = 32) (hn : nonce.length = 12) :
    block (Spec.cc20State key n nonce) = (Spec.cc20Block key n nonce, Spec.cc20State key (n + 1) nonce) := by
  have hl := state_length key nonce n hk hn
  unfold block
  rw [rounds_spec 10 _ hl]
  refine Prod.ext ?_ ?_
  · simp only [le32_eq]
    rw [flat64 (fun i j => UInt8.ofNat (((Spec.twenty 10 (Spec.cc20State key n nonce)).getD i 0 +
      (Spec.cc20State key n nonce).getD i 0).toNat / 256 ^ j))]
    rfl
  · have h12 := state_split key nonce n hk
    have e : UInt32.ofNat n + 1 = UInt32.ofNat (n + 1) := by
      apply UInt32.toNat_inj.mp
      simp
    dsimp only
    unfold Spec.cc20State
    generalize Spec.leWords Spec.sigma ++ Spec.leWords key = a at h12
    rw [List.append_assoc, List.append_assoc, List.getD_eq_getElem?_getD,
      List.getElem?_append_right (by omega), List.set_append_right _ _ (by omega), h12, ← e]
    rfl

/-- `init`, `setkey`, `setiv` on any old state memory. -/
def setup (st : List UInt32) (key iv : List Byte) : Option (List UInt32) :=
  match setkey (init st) key with
  | none => none
  | some st => setiv st iv

theorem setup_spec (st : List UInt32) (key iv : List Byte) (hs : st.length = 16) (hk : key.length = 32)
    (hn : iv.length = 12) : setup st key iv = some (Spec.cc20State key 1 iv) := by
  obtain ⟨a, b, c, d, e, f, g, i, j, k, l, m, n, o, p, q, rfl⟩ := list16 hs
  have hke := leWords_eq key
  have hie := leWords_eq iv
  rw [hk] at hke
  rw [hn] at hie
  have hkl := leWords_length key
  rw [setup, setkey, if_neg (by omega)]
  dsimp only
  rw [setiv, if_neg (by omega), show (8 : Nat) = 32 / 4 from rfl, hke, show (3 : Nat) = 12 / 4 from rfl, hie, Spec.cc20State,
    sigma_words]
  congr 2
  have h12 : ([0x61707865, 0x3320646e, 0x79622d32, 0x6b206574] ++ Spec.leWords key : List UInt32).length = 12 := by
    rw [List.length_append, hkl, hk]; rfl
  simp only [init]
  show List.take 13 (([0x61707865, 0x3320646e, 0x79622d32, 0x6b206574] ++ Spec.leWords key) ++ [1, o, p, q]) = _
  rw [List.take_append, h12, List.take_of_length_le (by omega)]
  rfl

theorem chacha_split (key nonce : List Byte) (n : Nat) (p : List Byte) (k : Nat) (hk : k % 64 = 0 ∧ k ≤ p.length) :
    Spec.chacha20 key n nonce p =
      Spec.chacha20 key n nonce (p.take k) ++ Spec.chacha20 key (n + k / 64) nonce (p.drop k) := by
  have hkp := hk.2
  unfold Spec.chacha20
  apply List.ext_getElem
  · simp; omega
  · intro i h1 h2
    simp only [List.length_map, List.length_range] at h1
    simp only [List.getElem_map, List.getElem_range]
    by_cases hi : i < k
    · rw [List.getElem_append_left (by simp; omega)]
      simp only [List.getElem_map, List.getElem_range]
      rw [show (p.take k).getD i 0 = p.getD i 0 by simp [List.getElem?_take, hi]]
    · rw [List.getElem_append_right (by simp; omega)]
      simp only [List.getElem_map, List.getElem_range, List.length_map, List.length_range, List.length_take,
        Nat.min_eq_left hkp]
      rw [show (p.drop k).getD (i - k) 0 = p.getD i 0 by
        simp [List.getElem?_drop, show k + (i - k) = i by omega]]
      rw [show (i - k) % 64 = i % 64 by omega, show n + k / 64 + (i - k) / 64 = n + i / 64 by omega]

theorem chacha_first (key nonce : List Byte) (n : Nat) (p : List Byte) (h : p.length ≤ 64) :
    xorb p (Spec.cc20Block key n nonce) = Spec.chacha20 key n nonce p := by
  have hl : (Spec.cc20Block key n nonce).length = 64 := by
    unfold Spec.cc20Block
    rw [List.length_map, List.length_range]
  rw [xorb_eq _ _ (by omega), Spec.bxor, Spec.chacha20]
  apply List.map_congr_left
  intro i hi
  have hi : i < p.length := List.mem_range.mp hi
  rw [show i / 64 = 0 by omega, Nat.add_zero, Nat.mod_eq_of_lt (by omega : i < 64)]

theorem cryptLoop_spec (key nonce : List Byte) (hk : key.length = 32) (hn : nonce.length = 12) :
    ∀ m n d, d.length ≤ m →
      cryptLoop m (Spec.cc20State key n nonce) d =
        (Spec.chacha20 key n nonce d, Spec.cc20State key (n + (d.length + 63) / 64) nonce)
  | 0, n, d, h => by
    obtain rfl : d = [] := List.eq_nil_of_length_eq_zero (by omega)
    rfl
  | m + 1, n, d, h => by
    rw [cryptLoop]
    split
    · next h0 =>
      obtain rfl : d = [] := List.eq_nil_of_length_eq_zero h0
      rfl
    · next h0 =>
      rw [block_spec key nonce n hk hn]
      dsimp only
      rw [cryptLoop_spec key nonce hk hn m (n + 1) _ (by rw [List.length_drop]; omega),
        chacha_first _ _ _ _ (by rw [List.length_take]; omega)]
      by_cases h64 : d.length ≤ 64
      · rw [Nat.min_eq_left h64, List.take_of_length_le (Nat.le_refl _), List.drop_eq_nil_of_le (Nat.le_refl _),
          show n + (d.length + 63) / 64 = n + 1 by omega]
        simp [Spec.chacha20]
      · rw [Nat.min_eq_right (by omega), chacha_split key nonce n d 64 ⟨by omega, by omega⟩, List.length_drop,
          show n + (d.length + 63) / 64 = n + 1 + (d.length - 64 + 63) / 64 by omega]

/-! ### Properties -/

/-- Successive calls on one context. -/
def calls : List UInt32 → List (List Byte) → List Byte
  | _, [] => []
  | st, d :: ds => (crypt st d).1 ++ calls (crypt st d).2 ds

theorem calls_spec (key nonce : List Byte) (hk : key.length = 32) (hn : nonce.length = 12) :
    ∀ ds n last, (∀ d ∈ ds, d.length % 64 = 0) →
      calls (Spec.cc20State key n nonce) (ds ++ [last]) = Spec.chacha20 key n nonce (ds.flatten ++ last)
  | [], n, last, _ => by
    simp only [List.nil_append, calls, List.append_nil, List.flatten_nil]
    rw [crypt, cryptLoop_spec key nonce hk hn _ n last (Nat.le_refl _)]
  | d :: ds, n, last, h => by
    have hd := h d (by simp)
    rw [List.cons_append, calls, crypt, cryptLoop_spec key nonce hk hn _ n d (Nat.le_refl _)]
    dsimp only
    rw [calls_spec key nonce hk hn ds _ last (fun x hx => h x (by simp [hx])), List.flatten_cons, List.append_assoc,
      chacha_split key nonce n (d ++ (ds.flatten ++ last)) d.length ⟨hd, by simp⟩, List.take_left, List.drop_left,
      show (d.length + 63) / 64 = d.length / 64 by omega]

/-- **C18**.  After `init`, `setkey` (32 bytes), `setiv` (12 bytes) on any state memory, one call of
encrypt or decrypt yields the RFC 7539 ChaCha20 encryption with initial block counter 1, for every
input length. -/
theorem chacha20_oneshot (st : List UInt32) (key iv inp : List Byte) (hs : st.length = 16) (hk : key.length = 32)
    (hn : iv.length = 12) :
    ∃ st', setup st key iv = some st' ∧ (crypt st' inp).1 = Spec.chacha20 key 1 iv inp :=
  ⟨_, setup_spec st key iv hs hk hn, by rw [crypt, cryptLoop_spec key iv hk hn _ 1 inp (Nat.le_refl _)]⟩

/-- **C18** (part).  Several calls equal one call if all but the last have a multiple of 64 bytes;
false for other chunks, see `chacha20_unaligned_chunks`. -/
theorem chacha20_chunks_partial (st : List UInt32) (key iv : List Byte) (ds : List (List Byte)) (last : List Byte)
    (hs : st.length = 16) (hk : key.length = 32) (hn : iv.length = 12) (hd : ∀ d ∈ ds, d.length % 64 = 0) :
    ∃ st', setup st key iv = some st' ∧ calls st' (ds ++ [last]) = Spec.chacha20 key 1 iv (ds.flatten ++ last) :=
  ⟨_, setup_spec st key iv hs hk hn, calls_spec key iv hk hn ds 1 last hd⟩

theorem chacha_chacha (key nonce : List Byte) (n : Nat) (p : List Byte) :
    Spec.chacha20 key n nonce (Spec.chacha20 key n nonce p) = p := by
  apply List.ext_getElem
  · simp [Spec.chacha20]
  · intro i h1 h2
    simp [Spec.chacha20, h2, UInt8.xor_assoc]

/-- **C18**.  Decryption with the same key and nonce returns the plaintext. -/
theorem chacha20_roundtrip (st1 st2 : List UInt32) (key iv inp : List Byte) (h1 : st1.length = 16)
    (h2 : st2.length = 16) (hk : key.length = 32) (hn : iv.length = 12) :
    ∃ a b, setup st1 key iv = some a ∧ setup st2 key iv = some b ∧ (crypt b (crypt a inp).1).1 = inp := by
  refine ⟨_, _, setup_spec st1 key iv h1 hk hn, setup_spec st2 key iv h2 hk hn, ?_⟩
  simp only [crypt]
  rw [cryptLoop_spec key iv hk hn _ 1 inp (Nat.le_refl _)]
  dsimp only
  rw [cryptLoop_spec key iv hk hn _ 1 _ (Nat.le_refl _)]
  exact chacha_chacha key iv 1 inp

/-- Keys and nonces of other lengths are refused. -/
theorem chacha20_refused (st : List UInt32) (key iv : List Byte) (h : key.length ≠ 32 ∨ iv.length ≠ 12) :
    setup st key iv = none := by
  by_cases hk : key.length = 32
  · rw [setup, setkey, if_neg (by omega)]
    dsimp only
    rw [setiv, if_pos (by omega)]
  · rw [setup, setkey, if_pos hk]

/-- The key stream repeats after `2^32` blocks (256 GiB): nothing in the code stops the caller. -/
theorem chacha20_counter_wraps (key nonce : List Byte) (n : Nat) :
    Spec.cc20Block key (n + 2 ^ 32) nonce = Spec.cc20Block key n nonce := by
  have : Spec.cc20State key (n + 2 ^ 32) nonce = Spec.cc20State key n nonce := by
    unfold Spec.cc20State
    rw [show UInt32.ofNat (n + 2 ^ 32) = UInt32.ofNat n by apply UInt32.toNat_inj.mp; simp]
  unfold Spec.cc20Block
  rw [this]

/-- Up to there no block input is used twice. -/
theorem chacha20_states_distinct (key nonce : List Byte) (n m : Nat) (h : n < m) (h2 : m - n < 2 ^ 32)
    (hk : key.length = 32) : Spec.cc20State key n nonce ≠ Spec.cc20State key m nonce := by
  intro e
  unfold Spec.cc20State at e
  rw [List.append_assoc _ [_], List.append_assoc _ [_]] at e
  have := (List.append_inj e rfl).2
  simp only [List.cons_append, List.nil_append, List.cons.injEq, and_true] at this
  have := congrArg UInt32.toNat this
  simp only [UInt32.toNat_ofNat'] at this
  omega

/-- The part of **C18** that is false: after a call with one byte the next call starts with a new
key stream block, the other 63 bytes are dropped. -/
theorem chacha20_unaligned_chunks (key nonce : List Byte) (n : Nat) (x y : Byte) (hk : key.length = 32)
    (hn : nonce.length = 12) :
    calls (Spec.cc20State key n nonce) [[x], [y]] =
      [x ^^^ (Spec.cc20Block key n nonce).getD 0 0, y ^^^ (Spec.cc20Block key (n + 1) nonce).getD 0 0] ∧
    (crypt (Spec.cc20State key n nonce) [x, y]).1 =
      [x ^^^ (Spec.cc20Block key n nonce).getD 0 0, y ^^^ (Spec.cc20Block key n nonce).getD 1 0] := by
  refine ⟨?_, ?_⟩
  · rw [calls, calls, calls, List.append_nil, crypt, cryptLoop_spec key nonce hk hn _ n [x] (Nat.le_refl _)]
    dsimp only
    rw [crypt, cryptLoop_spec key nonce hk hn _ _ [y] (Nat.le_refl _)]
    simp [Spec.chacha20, List.range_succ]
  · rw [crypt, cryptLoop_spec key nonce hk hn _ n [x, y] (Nat.le_refl _)]
    simp [Spec.chacha20, List.range_succ]

end LC.Sym.Cc20
