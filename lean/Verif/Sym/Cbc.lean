import Verif.Sym.Model
import Verif.Sym.Spec
/- C15: CBC. -/
namespace LC.Sym

/-- What the modes need from a block cipher: `E` and `D` map 16 byte blocks to 16 byte blocks and
are inverse to each other there. -/
structure Cipher where
  E : List Byte → List Byte
  D : List Byte → List Byte
  E_len : ∀ b, b.length = 16 → (E b).length = 16
  D_len : ∀ b, b.length = 16 → (D b).length = 16
  DE : ∀ b, b.length = 16 → D (E b) = b
  ED : ∀ b, b.length = 16 → E (D b) = b

theorem roundedLen16_eq (len : Nat) : roundedLen16 len = len % 2 ^ 32 / 16 * 16 := by
  unfold roundedLen16
  apply Nat.eq_of_testBit_eq
  intro i
  rw [Nat.testBit_and, show (0xfffffff0 : Nat) = (2 ^ 28 - 1) * 2 ^ 4 by decide,
    Nat.testBit_mul_two_pow, Nat.testBit_two_pow_sub_one,
    show len % 2 ^ 32 / 16 * 16 = (len % 2 ^ 32 / 2 ^ 4) * 2 ^ 4 by rfl, Nat.testBit_mul_two_pow,
    Nat.testBit_div_two_pow, Nat.testBit_mod_two_pow]
  by_cases h : 4 ≤ i
  · by_cases h2 : i < 32
    · have : i - 4 < 28 := by omega
      simp [h, h2, this]
    · have : ¬ i - 4 < 28 := by omega
      simp [h, h2, this]
  · simp [h]

theorem roundedLen16_small {len : Nat} (h : len < 2 ^ 32) : roundedLen16 len = len / 16 * 16 := by
  rw [roundedLen16_eq, Nat.mod_eq_of_lt h]

theorem xorb_length (a b : List Byte) : (xorb a b).length = min a.length b.length := by simp [xorb]

theorem xorb_eq (a b : List Byte) (h : a.length ≤ b.length) : xorb a b = Spec.bxor a b := by
  apply List.ext_getElem
  · simp [xorb, Spec.bxor]; omega
  · intro i h1 h2
    simp [xorb] at h1
    have ha : i < a.length := by omega
    have hb : i < b.length := by omega
    simp [xorb, Spec.bxor, List.getElem?_eq_getElem, ha, hb]

theorem xorb_xorb (a b : List Byte) (h : a.length ≤ b.length) : xorb (xorb a b) b = a := by
  apply List.ext_getElem
  · simp [xorb]; omega
  · intro i h1 h2
    simp [xorb] at h1
    simp [xorb, UInt8.xor_assoc]

theorem cbcEncLoop_add (E : List Byte → List Byte) : ∀ n m iv d,
    cbcEncLoop E (n + m) iv d =
      ((cbcEncLoop E n iv d).1 ++ (cbcEncLoop E m (cbcEncLoop E n iv d).2 (d.drop (16 * n))).1,
       (cbcEncLoop E m (cbcEncLoop E n iv d).2 (d.drop (16 * n))).2)
  | 0, m, iv, d => by simp [cbcEncLoop]
  | n + 1, m, iv, d => by
    rw [show n + 1 + m = (n + m) + 1 by omega, cbcEncLoop, cbcEncLoop_add E n m, cbcEncLoop]
    simp only [List.append_assoc, List.drop_drop]
    rw [show 16 + 16 * n = 16 * (n + 1) by omega]

theorem cbcDecLoop_add (D : List Byte → List Byte) : ∀ n m iv d,
    cbcDecLoop D (n + m) iv d =
      ((cbcDecLoop D n iv d).1 ++ (cbcDecLoop D m (cbcDecLoop D n iv d).2 (d.drop (16 * n))).1,
       (cbcDecLoop D m (cbcDecLoop D n iv d).2 (d.drop (16 * n))).2)
  | 0, m, iv, d => by simp [cbcDecLoop]
  | n + 1, m, iv, d => by
    rw [show n + 1 + m = (n + m) + 1 by omega, cbcDecLoop, cbcDecLoop_add D n m, cbcDecLoop]
    simp only [List.append_assoc, List.drop_drop]
    rw [show 16 + 16 * n = 16 * (n + 1) by omega]

theorem take_take_16 (d : List Byte) (m : Nat) (h : 16 ≤ m) : (d.take m).take 16 = d.take 16 := by
  rw [List.take_take, Nat.min_eq_left h]

/-- Only the first `n` blocks are looked at. -/
theorem cbcEncLoop_take (E : List Byte → List Byte) : ∀ n iv d m, 16 * n ≤ m →
    cbcEncLoop E n iv (d.take m) = cbcEncLoop E n iv d
  | 0, _, _, _, _ => rfl
  | n + 1, iv, d, m, h => by
    simp only [cbcEncLoop, take_take_16 d m (by omega), List.drop_take]
    rw [cbcEncLoop_take E n _ _ _ (by omega)]

theorem cbcDecLoop_take (D : List Byte → List Byte) : ∀ n iv d m, 16 * n ≤ m →
    cbcDecLoop D n iv (d.take m) = cbcDecLoop D n iv d
  | 0, _, _, _, _ => rfl
  | n + 1, iv, d, m, h => by
    simp only [cbcDecLoop, take_take_16 d m (by omega), List.drop_take]
    rw [cbcDecLoop_take D n _ _ _ (by omega)]

variable (B : Cipher)

theorem cbcEncLoop_length : ∀ n iv d, iv.length = 16 → 16 * n ≤ d.length →
    (cbcEncLoop B.E n iv d).1.length = 16 * n ∧ (cbcEncLoop B.E n iv d).2.length = 16
  | 0, iv, d, h, _ => ⟨rfl, h⟩
  | n + 1, iv, d, h, hd => by
    have hc : (B.E (xorb (d.take 16) iv)).length = 16 := by
      apply B.E_len; rw [xorb_length, List.length_take]; omega
    have ih := cbcEncLoop_length n (B.E (xorb (d.take 16) iv)) (d.drop 16) hc (by rw [List.length_drop]; omega)
    refine ⟨?_, ih.2⟩
    simp only [cbcEncLoop, List.length_append]
    rw [hc, ih.1]; omega

theorem blk_append_zero (c r : List Byte) (h : c.length = 16) : Spec.blk (c ++ r) 0 = c := by
  rw [Spec.blk, Nat.mul_zero, List.drop_zero, List.take_append_of_le_length (by omega), List.take_of_length_le (by omega)]

theorem blk_append_succ (c r : List Byte) (h : c.length = 16) (j : Nat) : Spec.blk (c ++ r) (j + 1) = Spec.blk r j := by
  rw [Spec.blk, Spec.blk, List.drop_append, h, show 16 * (j + 1) - 16 = 16 * j by omega,
    List.drop_eq_nil_of_le (by omega : c.length ≤ 16 * (j + 1)), List.nil_append]

theorem blk_drop (d : List Byte) (j : Nat) : Spec.blk (d.drop 16) j = Spec.blk d (j + 1) := by
  rw [Spec.blk, Spec.blk, List.drop_drop, show 16 + 16 * j = 16 * (j + 1) by omega]

theorem cbcEncLoop_spec : ∀ n iv d, iv.length = 16 → 16 * n ≤ d.length →
    Spec.IsCbc B.E iv n d (cbcEncLoop B.E n iv d).1 ∧
      (cbcEncLoop B.E n iv d).2 = (if n = 0 then iv else Spec.blk (cbcEncLoop B.E n iv d).1 (n - 1))
  | 0, iv, d, h, _ => ⟨⟨rfl, fun j hj => absurd hj (by omega)⟩, rfl⟩
  | n + 1, iv, d, h, hd => by
    have hx : (xorb (d.take 16) iv).length = 16 := by rw [xorb_length, List.length_take]; omega
    have hc := B.E_len _ hx
    have hd' : 16 * n ≤ (d.drop 16).length := by rw [List.length_drop]; omega
    have ih := cbcEncLoop_spec n (B.E (xorb (d.take 16) iv)) (d.drop 16) hc hd'
    have hl := cbcEncLoop_length B (n + 1) iv d h hd
    refine ⟨⟨hl.1, ?_⟩, ?_⟩
    · intro j hj
      simp only [cbcEncLoop]
      rcases j with _ | j
      · rw [blk_append_zero _ _ hc, if_pos rfl, Spec.blk, Nat.mul_zero, List.drop_zero,
          xorb_eq _ _ (by rw [List.length_take]; omega)]
      · rw [blk_append_succ _ _ hc, if_neg (by omega), ih.1.2 j (by omega), blk_drop]
        congr 2
        rcases j with _ | j
        · rw [if_pos rfl, blk_append_zero _ _ hc]
        · rw [if_neg (by omega), Nat.add_sub_cancel, Nat.add_sub_cancel, blk_append_succ _ _ hc]
    · simp only [cbcEncLoop]
      rw [if_neg (by omega), ih.2, Nat.add_sub_cancel]
      rcases n with _ | n
      · rw [if_pos rfl, blk_append_zero _ _ hc]
      · rw [if_neg (by omega), Nat.add_sub_cancel, blk_append_succ _ _ hc]

theorem cbcDec_Enc : ∀ n iv d, iv.length = 16 → 16 * n ≤ d.length →
    (cbcDecLoop B.D n iv (cbcEncLoop B.E n iv d).1).1 = d.take (16 * n) ∧
      (cbcDecLoop B.D n iv (cbcEncLoop B.E n iv d).1).2 = (cbcEncLoop B.E n iv d).2
  | 0, iv, d, h, _ => ⟨rfl, rfl⟩
  | n + 1, iv, d, h, hd => by
    have hx : (xorb (d.take 16) iv).length = 16 := by rw [xorb_length, List.length_take]; omega
    have hc := B.E_len _ hx
    have hd' : 16 * n ≤ (d.drop 16).length := by rw [List.length_drop]; omega
    have ih := cbcDec_Enc n (B.E (xorb (d.take 16) iv)) (d.drop 16) hc hd'
    have e1 : ∀ r, (B.E (xorb (d.take 16) iv) ++ r).take 16 = B.E (xorb (d.take 16) iv) := by
      intro r; rw [List.take_append_of_le_length (by omega), List.take_of_length_le (by omega)]
    have e2 : ∀ r, (B.E (xorb (d.take 16) iv) ++ r).drop 16 = r := by
      intro r; rw [List.drop_append, hc, List.drop_eq_nil_of_le (by omega)]; rfl
    simp only [cbcEncLoop, cbcDecLoop, e1, e2]
    rw [ih.1, ih.2, B.DE _ hx, xorb_xorb _ _ (by rw [List.length_take]; omega)]
    refine ⟨?_, rfl⟩
    rw [show 16 * (n + 1) = 16 + 16 * n by omega, List.take_add]

/-! ### Properties -/

/-- Successive calls of the encryption on one context; the output buffers are the input buffers
(in-place operation) or any other buffers of the same size. -/
def cbcEncCalls (E : List Byte → List Byte) : List Byte → List (List Byte × List Byte) → List Byte × List Byte
  | iv, [] => (iv, [])
  | iv, (inp, out) :: cs =>
    let r := cbcEncrypt E iv inp out
    let q := cbcEncCalls E r.1 cs
    (q.1, r.2 ++ q.2)

def cbcDecCalls (D : List Byte → List Byte) : List Byte → List (List Byte × List Byte) → List Byte × List Byte
  | iv, [] => (iv, [])
  | iv, (inp, out) :: cs =>
    let r := cbcDecrypt D iv inp out
    let q := cbcDecCalls D r.1 cs
    (q.1, r.2 ++ q.2)

/-- Calls with whole blocks and less than 4 GiB each; the output buffer has the size of the input. -/
def Aligned (cs : List (List Byte × List Byte)) : Prop :=
  ∀ c ∈ cs, c.1.length % 16 = 0 ∧ c.1.length < 2 ^ 32 ∧ c.2.length = c.1.length

theorem cbcEncrypt_aligned (E : List Byte → List Byte) (iv inp out : List Byte) (h1 : inp.length % 16 = 0)
    (h2 : inp.length < 2 ^ 32) (h3 : out.length = inp.length) :
    cbcEncrypt E iv inp out =
      ((cbcEncLoop E (inp.length / 16) iv inp).2, (cbcEncLoop E (inp.length / 16) iv inp).1) := by
  simp only [cbcEncrypt]
  rw [roundedLen16_small h2, cbcEncLoop_take _ _ _ _ _ (by omega), List.drop_eq_nil_of_le (by omega),
    List.append_nil, show inp.length / 16 * 16 / 16 = inp.length / 16 by omega]

theorem cbcDecrypt_aligned (D : List Byte → List Byte) (iv inp out : List Byte) (h1 : inp.length % 16 = 0)
    (h2 : inp.length < 2 ^ 32) (h3 : out.length = inp.length) :
    cbcDecrypt D iv inp out =
      ((cbcDecLoop D (inp.length / 16) iv inp).2, (cbcDecLoop D (inp.length / 16) iv inp).1) := by
  simp only [cbcDecrypt]
  rw [roundedLen16_small h2, cbcDecLoop_take _ _ _ _ _ (by omega), List.drop_eq_nil_of_le (by omega),
    List.append_nil, show inp.length / 16 * 16 / 16 = inp.length / 16 by omega]

theorem cbcEncLoop_append (E : List Byte → List Byte) (n : Nat) (iv d r : List Byte) (h : 16 * n ≤ d.length) :
    cbcEncLoop E n iv (d ++ r) = cbcEncLoop E n iv d := by
  rw [← cbcEncLoop_take E n iv (d ++ r) (16 * n) (by omega), List.take_append_of_le_length h,
    cbcEncLoop_take E n iv d _ (by omega)]

theorem cbcDecLoop_append (D : List Byte → List Byte) (n : Nat) (iv d r : List Byte) (h : 16 * n ≤ d.length) :
    cbcDecLoop D n iv (d ++ r) = cbcDecLoop D n iv d := by
  rw [← cbcDecLoop_take D n iv (d ++ r) (16 * n) (by omega), List.take_append_of_le_length h,
    cbcDecLoop_take D n iv d _ (by omega)]

theorem aligned_total : ∀ cs, Aligned cs → ((cs.map Prod.fst).flatten.length) % 16 = 0
  | [], _ => rfl
  | c :: cs, h => by
    have h1 := (h c (by simp)).1
    have h2 := aligned_total cs (fun x hx => h x (by simp [hx]))
    rw [List.map_cons, List.flatten_cons, List.length_append]
    omega

theorem cbcEncCalls_eq (E : List Byte → List Byte) : ∀ cs iv, Aligned cs →
    cbcEncCalls E iv cs =
      ((cbcEncLoop E ((cs.map Prod.fst).flatten.length / 16) iv (cs.map Prod.fst).flatten).2,
       (cbcEncLoop E ((cs.map Prod.fst).flatten.length / 16) iv (cs.map Prod.fst).flatten).1)
  | [], iv, _ => rfl
  | (inp, out) :: cs, iv, h => by
    obtain ⟨h1, h2, h3⟩ := h (inp, out) (by simp)
    dsimp only at h1 h2 h3
    have ht := aligned_total cs (fun x hx => h x (by simp [hx]))
    simp only [cbcEncCalls]
    rw [cbcEncCalls_eq E cs _ (fun x hx => h x (by simp [hx])), cbcEncrypt_aligned E iv inp out h1 h2 h3,
      List.map_cons, List.flatten_cons, List.length_append]
    dsimp only
    rw [show (inp.length + (cs.map Prod.fst).flatten.length) / 16 =
      inp.length / 16 + (cs.map Prod.fst).flatten.length / 16 by omega, cbcEncLoop_add,
      cbcEncLoop_append _ _ _ _ _ (by omega), show 16 * (inp.length / 16) = inp.length by omega,
      List.drop_left]

theorem cbcDecCalls_eq (D : List Byte → List Byte) : ∀ cs iv, Aligned cs →
    cbcDecCalls D iv cs =
      ((cbcDecLoop D ((cs.map Prod.fst).flatten.length / 16) iv (cs.map Prod.fst).flatten).2,
       (cbcDecLoop D ((cs.map Prod.fst).flatten.length / 16) iv (cs.map Prod.fst).flatten).1)
  | [], iv, _ => rfl
  | (inp, out) :: cs, iv, h => by
    obtain ⟨h1, h2, h3⟩ := h (inp, out) (by simp)
    dsimp only at h1 h2 h3
    have ht := aligned_total cs (fun x hx => h x (by simp [hx]))
    simp only [cbcDecCalls]
    rw [cbcDecCalls_eq D cs _ (fun x hx => h x (by simp [hx])), cbcDecrypt_aligned D iv inp out h1 h2 h3,
      List.map_cons, List.flatten_cons, List.length_append]
    dsimp only
    rw [show (inp.length + (cs.map Prod.fst).flatten.length) / 16 =
      inp.length / 16 + (cs.map Prod.fst).flatten.length / 16 by omega, cbcDecLoop_add,
      cbcDecLoop_append _ _ _ _ _ (by omega), show 16 * (inp.length / 16) = inp.length by omega,
      List.drop_left]

/-- **C15** (part: each call below 4 GiB).  For every block cipher, IV and any sequence of block
aligned calls on one context - any output buffers, total length unlimited - the concatenated output
is the SP 800-38A CBC encryption of the concatenated input. -/
theorem cbc_encrypt_partial (iv : List Byte) (cs : List (List Byte × List Byte)) (hiv : iv.length = 16)
    (h : Aligned cs) :
    Spec.IsCbc B.E iv ((cs.map Prod.fst).flatten.length / 16) (cs.map Prod.fst).flatten
      (cbcEncCalls B.E iv cs).2 := by
  rw [cbcEncCalls_eq B.E cs iv h]
  exact (cbcEncLoop_spec B _ iv _ hiv (by omega)).1

/-- **C15** (part: each call below 4 GiB).  Decryption with the same IV returns the plaintext; the
chunks used for the decryption need not be those of the encryption. -/
theorem cbc_roundtrip_partial (iv : List Byte) (cs ds : List (List Byte × List Byte)) (hiv : iv.length = 16)
    (hc : Aligned cs) (hd : Aligned ds) (h : (ds.map Prod.fst).flatten = (cbcEncCalls B.E iv cs).2) :
    (cbcDecCalls B.D iv ds).2 = (cs.map Prod.fst).flatten := by
  have ht := aligned_total cs hc
  rw [cbcEncCalls_eq B.E cs iv hc] at h
  dsimp only at h
  have hl := cbcEncLoop_length B ((cs.map Prod.fst).flatten.length / 16) iv (cs.map Prod.fst).flatten hiv (by omega)
  rw [cbcDecCalls_eq B.D ds iv hd, h, hl.1]
  dsimp only
  rw [show 16 * ((cs.map Prod.fst).flatten.length / 16) / 16 = (cs.map Prod.fst).flatten.length / 16 by omega,
    (cbcDec_Enc B _ iv _ hiv (by omega)).1, List.take_of_length_le (by omega)]

/-- Bytes behind the last full block are left as they were in the output buffer. -/
theorem cbc_trailing_untouched (iv inp out : List Byte) (hiv : iv.length = 16) (h : inp.length < 2 ^ 32) :
    (cbcEncrypt B.E iv inp out).2.drop (inp.length / 16 * 16) = out.drop (inp.length / 16 * 16) := by
  simp only [cbcEncrypt]
  rw [roundedLen16_small h]
  have hl := (cbcEncLoop_length B (inp.length / 16 * 16 / 16) iv (inp.take (inp.length / 16 * 16)) hiv
    (by rw [List.length_take]; omega)).1
  rw [List.drop_append, hl, List.drop_eq_nil_of_le (by omega), show
    inp.length / 16 * 16 - 16 * (inp.length / 16 * 16 / 16) = 0 by omega]
  rfl

/-- **C15 is false from 4 GiB on.**  `len & ~(AES_BLOCKLEN - 1)` is computed with a 32 bit mask, so
a call with `2^32` bytes processes nothing at all: the "ciphertext" is the old content of the output
buffer. -/
theorem cbc_encrypt_4gib_nothing (E : List Byte → List Byte) (iv inp out : List Byte)
    (h : inp.length = 2 ^ 32) : cbcEncrypt E iv inp out = (iv, out) := by
  simp only [cbcEncrypt]
  rw [h, roundedLen16_eq]
  rfl

/-- In place, the plaintext is what is returned as ciphertext: CBC equations fail for every cipher
which does not map the first block to itself. -/
theorem cbc_encrypt_4gib_plaintext (E : List Byte → List Byte) (iv inp : List Byte)
    (h : inp.length = 2 ^ 32) (hE : E (Spec.bxor (inp.take 16) iv) ≠ inp.take 16) :
    (cbcEncrypt E iv inp inp).2 = inp ∧
      ¬ Spec.IsCbc E iv (inp.length / 16) inp (cbcEncrypt E iv inp inp).2 := by
  rw [cbc_encrypt_4gib_nothing E iv inp inp h]
  refine ⟨rfl, fun ⟨_, hs⟩ => ?_⟩
  have := hs 0 (by omega)
  rw [if_pos rfl, Spec.blk, Nat.mul_zero, List.drop_zero] at this
  exact hE this.symm

end LC.Sym
