import Verif.Sym.Cbc
/- C16: CTR. -/
namespace LC.Sym

theorem be_length : ∀ n v, (be n v).length = n
  | 0, _ => rfl
  | n + 1, v => by rw [be, List.length_append, be_length n]; rfl

theorem be_eq : ∀ n v, be n v = (List.range n).map fun i => UInt8.ofNat (v / 256 ^ (n - 1 - i))
  | 0, _ => rfl
  | n + 1, v => by
    rw [be, be_eq n, List.range_succ, List.map_append]
    congr 1
    · apply List.map_congr_left
      intro i hi
      have hi : i < n := List.mem_range.mp hi
      rw [Nat.div_div_eq_div_mul, ← Nat.pow_succ', show (n - 1 - i).succ = n + 1 - 1 - i by omega]
    · simp

theorem be8_eq (v : Nat) : be 8 v = Spec.block64 v := be_eq 8 v
theorem be16_eq (v : Nat) : be 16 v = Spec.block128 v := be_eq 16 v

theorem be_append : ∀ n m v, be (n + m) v = be n (v / 256 ^ m) ++ be m v
  | n, 0, v => by simp [be]
  | n, m + 1, v => by
    rw [show n + (m + 1) = (n + m) + 1 by omega, be, be, be_append n m, Nat.div_div_eq_div_mul, ← Nat.pow_succ',
      List.append_assoc]

theorem ofNat_mod_256 (v : Nat) : UInt8.ofNat (v % 256) = UInt8.ofNat v := by
  apply UInt8.toNat_inj.mp; simp

theorem be_mod : ∀ m v w, v % 256 ^ m = w % 256 ^ m → be m v = be m w
  | 0, _, _, _ => rfl
  | m + 1, v, w, h => by
    rw [Nat.pow_succ'] at h
    rw [be, be]
    have h1 : v % 256 = w % 256 := by
      have := congrArg (· % 256) h
      simpa [Nat.mod_mul_right_mod] using this
    have h2 : v / 256 % 256 ^ m = w / 256 % 256 ^ m := by
      rw [Nat.mod_mul, Nat.mod_mul] at h
      have : 256 * (v / 256 % 256 ^ m) = 256 * (w / 256 % 256 ^ m) := by omega
      omega
    rw [be_mod m _ _ h2, ← ofNat_mod_256 v, ← ofNat_mod_256 w, h1]

/-- The counter as a number. -/
def Ctr.val (c : Ctr) : Nat := c.w0.toNat * 2 ^ 64 + c.w1.toNat

theorem Ctr.val_lt (c : Ctr) : c.val < 2 ^ 128 := by
  have h0 := c.w0.toNat_lt
  have h1 := c.w1.toNat_lt
  unfold Ctr.val
  omega

theorem Ctr.inc_val (c : Ctr) : c.inc.val = (c.val + 1) % 2 ^ 128 := by
  have h0 := c.w0.toNat_lt
  have h1 := c.w1.toNat_lt
  have hm : (0xffffffffffffffff : UInt64).toNat = 2 ^ 64 - 1 := rfl
  unfold Ctr.inc
  split
  · next h =>
    rw [UInt64.lt_iff_toNat_lt, hm] at h
    simp only [Ctr.val, UInt64.toNat_add, show (1 : UInt64).toNat = 1 from rfl]
    rw [Nat.mod_eq_of_lt (by omega), Nat.mod_eq_of_lt (by omega)]
    omega
  · next h =>
    rw [UInt64.lt_iff_toNat_lt, hm] at h
    split
    · next h' =>
      rw [UInt64.lt_iff_toNat_lt, hm] at h'
      simp only [Ctr.val, UInt64.toNat_add, show (1 : UInt64).toNat = 1 from rfl, show (0 : UInt64).toNat = 0 from rfl]
      rw [Nat.mod_eq_of_lt (by omega), Nat.mod_eq_of_lt (by omega)]
      omega
    · next h' =>
      rw [UInt64.lt_iff_toNat_lt, hm] at h'
      simp only [Ctr.val, show (0 : UInt64).toNat = 0 from rfl]
      omega

theorem Ctr.bytes_eq (c : Ctr) : c.bytes = Spec.block128 c.val := by
  have h0 := c.w0.toNat_lt
  have h1 := c.w1.toNat_lt
  rw [← be16_eq, show (16 : Nat) = 8 + 8 from rfl, be_append, Ctr.bytes]
  have e : (256 : Nat) ^ 8 = 2 ^ 64 := by decide
  rw [e]
  congr 1
  · congr 1; unfold Ctr.val; omega
  · apply be_mod; rw [e]; unfold Ctr.val; omega

theorem unbe_eq (l : List Byte) : unbe l = Spec.number l := by
  have : ∀ (l : List Byte) a, l.foldl (fun a b => a * 256 + b.toNat) a = a * 256 ^ l.length + Spec.number l := by
    intro l
    induction l with
    | nil => intro a; simp [Spec.number]
    | cons b l ih =>
      intro a
      rw [List.foldl_cons, ih, Spec.number, List.length_cons, Nat.pow_succ', ← Nat.mul_assoc, Nat.add_mul]
      omega
  rw [unbe, this l 0]; omega

theorem number_lt : ∀ l : List Byte, Spec.number l < 256 ^ l.length
  | [] => by simp [Spec.number]
  | b :: l => by
    have := number_lt l
    have hb := b.toNat_lt
    rw [Spec.number, List.length_cons, Nat.pow_succ']
    have : b.toNat * 256 ^ l.length ≤ 255 * 256 ^ l.length := Nat.mul_le_mul_right _ (by omega)
    omega

theorem number_append : ∀ a b : List Byte, Spec.number (a ++ b) = Spec.number a * 256 ^ b.length + Spec.number b
  | [], b => by simp [Spec.number]
  | x :: a, b => by
    rw [List.cons_append, Spec.number, Spec.number, number_append a b, List.length_append, Nat.add_mul, Nat.pow_add,
      Nat.mul_assoc]
    omega

theorem Ctr.ofBytes_val (p : List Byte) (h : p.length = 16) : (Ctr.ofBytes p).val = Spec.number p := by
  have e : (256 : Nat) ^ 8 = 2 ^ 64 := by decide
  have l1 : (p.take 8).length = 8 := by rw [List.length_take]; omega
  have l2 : (p.drop 8).length = 8 := by rw [List.length_drop]; omega
  have h1 := number_lt (p.take 8)
  have h2 := number_lt (p.drop 8)
  rw [l1, e] at h1; rw [l2, e] at h2
  simp only [Ctr.ofBytes, Ctr.val]
  rw [List.take_of_length_le (by omega : (p.drop 8).length ≤ 8), unbe_eq, unbe_eq, UInt64.toNat_ofNat', UInt64.toNat_ofNat',
    Nat.mod_eq_of_lt h1, Nat.mod_eq_of_lt h2]
  conv => rhs; rw [← List.take_append_drop 8 p, number_append, l2, e]

/-! ### The key stream -/

theorem ctr_split (E : List Byte → List Byte) (v : Nat) (p : List Byte) (k : Nat) (hk : p.length = k ∨ (k % 16 = 0 ∧ k ≤ p.length)) :
    Spec.ctr E v p = Spec.ctr E v (p.take k) ++ Spec.ctr E ((v + k / 16) % 2 ^ 128) (p.drop k) := by
  have hkp : k ≤ p.length := by omega
  unfold Spec.ctr
  apply List.ext_getElem
  · simp; omega
  · intro i h1 h2
    simp only [List.length_map, List.length_range] at h1
    simp only [List.getElem_map, List.getElem_range]
    by_cases hi : i < k
    · rw [List.getElem_append_left (by simp; omega)]
      simp only [List.getElem_map, List.getElem_range]
      rw [show (p.take k).getD i 0 = p.getD i 0 by simp [List.getElem?_take, hi]]
    · rw [List.getElem_append_right (by simp; omega)]
      simp only [List.getElem_map, List.getElem_range, List.length_map, List.length_range, List.length_take,
        Nat.min_eq_left hkp]
      rw [show (p.drop k).getD (i - k) 0 = p.getD i 0 by
        simp [List.getElem?_drop, show k + (i - k) = i by omega]]
      rw [show (i - k) % 16 = i % 16 by omega, show ((v + k / 16) % 2 ^ 128 + (i - k) / 16) % 2 ^ 128 =
        (v + i / 16) % 2 ^ 128 by rw [Nat.mod_add_mod]; congr 1; omega]

theorem ctr_first (E : List Byte → List Byte) (c : Ctr) (p : List Byte) (h : p.length ≤ 16)
    (hE : (E c.bytes).length = 16) : xorb p (E c.bytes) = Spec.ctr E c.val p := by
  rw [xorb_eq _ _ (by omega), Spec.bxor, Spec.ctr]
  apply List.map_congr_left
  intro i hi
  have hi : i < p.length := List.mem_range.mp hi
  have := c.val_lt
  rw [show i / 16 = 0 by omega, Nat.add_zero, Nat.mod_eq_of_lt this, Nat.mod_eq_of_lt (by omega : i < 16), c.bytes_eq]

theorem ctrLoop_spec (E : List Byte → List Byte) (hE : ∀ b, b.length = 16 → (E b).length = 16) :
    ∀ n c d, d.length ≤ n →
      (ctrLoop E n c d).1 = Spec.ctr E c.val d ∧
        (ctrLoop E n c d).2.val = (c.val + (d.length + 15) / 16) % 2 ^ 128
  | 0, c, d, h => by
    have := c.val_lt
    obtain rfl : d = [] := List.eq_nil_of_length_eq_zero (by omega)
    exact ⟨rfl, by simp [ctrLoop, Nat.mod_eq_of_lt this]⟩
  | n + 1, c, d, h => by
    have hv := c.val_lt
    rw [ctrLoop]
    split
    · next h0 =>
      obtain rfl : d = [] := List.eq_nil_of_length_eq_zero h0
      exact ⟨rfl, by simp [Nat.mod_eq_of_lt hv]⟩
    · next h0 =>
      have ih := ctrLoop_spec E hE n c.inc (d.drop (min d.length 16)) (by rw [List.length_drop]; omega)
      dsimp only
      rw [ih.1, ih.2, c.inc_val, List.length_drop]
      have hb : (E c.bytes).length = 16 := hE _ (by rw [Ctr.bytes, List.length_append, be_length, be_length])
      refine ⟨?_, ?_⟩
      · rw [ctr_first E c _ (by rw [List.length_take]; omega) hb]
        by_cases h16 : d.length ≤ 16
        · rw [Nat.min_eq_left h16, List.take_of_length_le (Nat.le_refl _), List.drop_eq_nil_of_le (Nat.le_refl _)]
          simp [Spec.ctr]
        · rw [Nat.min_eq_right (by omega), ctr_split E c.val d 16 (Or.inr ⟨by omega, by omega⟩)]
      · rw [Nat.mod_add_mod]
        apply congrArg (· % 2 ^ 128)
        by_cases h16 : d.length ≤ 16
        · rw [Nat.min_eq_left h16]; omega
        · rw [Nat.min_eq_right (by omega)]; omega

/-! ### Properties -/

variable (B : Cipher)

/-- **C16**.  For every block cipher, every 16 byte IV and every input, the output of one call after
setting the IV is the SP 800-38A CTR encryption with the IV read as 128 bit big endian counter that
wraps at `2^128`; the context is left at the counter of the next unused block. -/
theorem ctr_oneshot (iv inp : List Byte) (hiv : iv.length = 16) :
    ∃ c, ctrSetiv iv = some c ∧ (ctrCrypt B.E c inp).1 = Spec.ctr B.E (Spec.number iv) inp ∧
      (ctrCrypt B.E c inp).2.val = (Spec.number iv + (inp.length + 15) / 16) % 2 ^ 128 := by
  refine ⟨Ctr.ofBytes iv, by rw [ctrSetiv, if_neg (by omega)], ?_⟩
  have := ctrLoop_spec B.E B.E_len inp.length (Ctr.ofBytes iv) inp (Nat.le_refl _)
  rw [Ctr.ofBytes_val _ hiv] at this
  exact this

/-- Successive calls on one context. -/
def ctrCalls (E : List Byte → List Byte) : Ctr → List (List Byte) → List Byte
  | _, [] => []
  | c, d :: ds => (ctrCrypt E c d).1 ++ ctrCalls E (ctrCrypt E c d).2 ds

theorem ctrCalls_spec : ∀ ds c last, (∀ d ∈ ds, d.length % 16 = 0) →
    ctrCalls B.E c (ds ++ [last]) = Spec.ctr B.E c.val (ds.flatten ++ last)
  | [], c, last, _ => by
    simp only [List.nil_append, ctrCalls, List.append_nil, List.flatten_nil]
    exact (ctrLoop_spec B.E B.E_len _ c last (Nat.le_refl _)).1
  | d :: ds, c, last, h => by
    have hd := h d (by simp)
    have hs := ctrLoop_spec B.E B.E_len _ c d (Nat.le_refl _)
    rw [List.cons_append, ctrCalls, ctrCalls_spec ds _ last (fun x hx => h x (by simp [hx])), ctrCrypt, hs.1, hs.2,
      List.flatten_cons, List.append_assoc, ctr_split B.E c.val (d ++ (ds.flatten ++ last)) d.length
        (Or.inr ⟨hd, by simp⟩), List.take_left, List.drop_left]
    congr 2
    omega

/-- **C16** (part).  Several calls on one context give the one-call result if every call but the
last has a multiple of 16 bytes; the claim for arbitrary chunks is false, see
`ctr_unaligned_chunks_differ`. -/
theorem ctr_chunks_partial (iv : List Byte) (ds : List (List Byte)) (last : List Byte) (hiv : iv.length = 16)
    (h : ∀ d ∈ ds, d.length % 16 = 0) :
    ∃ c, ctrSetiv iv = some c ∧
      ctrCalls B.E c (ds ++ [last]) = Spec.ctr B.E (Spec.number iv) (ds.flatten ++ last) := by
  refine ⟨Ctr.ofBytes iv, by rw [ctrSetiv, if_neg (by omega)], ?_⟩
  rw [ctrCalls_spec B ds _ last h, Ctr.ofBytes_val _ hiv]

theorem Spec.ctr_ctr (E : List Byte → List Byte) (v : Nat) (p : List Byte) : Spec.ctr E v (Spec.ctr E v p) = p := by
  apply List.ext_getElem
  · simp [Spec.ctr]
  · intro i h1 h2
    simp [Spec.ctr, h2, UInt8.xor_assoc]

/-- **C16**.  Decryption (the same function) with the same IV returns the input. -/
theorem ctr_roundtrip (iv inp : List Byte) (hiv : iv.length = 16) :
    ∃ c, ctrSetiv iv = some c ∧ (ctrCrypt B.E c (ctrCrypt B.E c inp).1).1 = inp := by
  obtain ⟨c, h, -, -⟩ := ctr_oneshot B iv inp hiv
  refine ⟨c, h, ?_⟩
  have h1 := (ctrLoop_spec B.E B.E_len _ c inp (Nat.le_refl _)).1
  have h2 := (ctrLoop_spec B.E B.E_len _ c (ctrCrypt B.E c inp).1 (Nat.le_refl _)).1
  rw [ctrCrypt, h2, ctrCrypt, h1, Spec.ctr_ctr]

theorem block128_inj {v w : Nat} (hv : v < 2 ^ 128) (hw : w < 2 ^ 128) (h : Spec.block128 v = Spec.block128 w) : v = w := by
  have key : ∀ n v, Spec.number (be n v) = v % 256 ^ n := by
    intro n
    induction n with
    | zero => intro v; simp [be, Spec.number, Nat.mod_one]
    | succ n ih =>
      intro v
      rw [be, number_append, ih, Nat.pow_succ', Nat.mod_mul]
      simp [Spec.number]
      omega
  have e : (2 : Nat) ^ 128 = 256 ^ 16 := by decide
  rw [← be16_eq, ← be16_eq] at h
  have := congrArg Spec.number h
  rwa [key, key, Nat.mod_eq_of_lt (by omega), Nat.mod_eq_of_lt (by omega)] at this

/-- **C16**.  Key stream blocks are never reused: for blocks `i`, `j` of one stream, fewer than
`2^128` apart, the cipher is applied to different counter blocks. -/
theorem ctr_blocks_distinct (v i j : Nat) (hij : i < j) (hj : j - i < 2 ^ 128) :
    Spec.block128 ((v + i) % 2 ^ 128) ≠ Spec.block128 ((v + j) % 2 ^ 128) := by
  intro h
  have := block128_inj (Nat.mod_lt _ (by decide)) (Nat.mod_lt _ (by decide)) h
  omega

/-- The second call after a call with one byte starts with a new key stream block. -/
theorem ctr_unaligned_chunks (c : Ctr) (x y : Byte) :
    ctrCalls B.E c [[x], [y]] =
      [x ^^^ (B.E (Spec.block128 c.val)).getD 0 0, y ^^^ (B.E (Spec.block128 ((c.val + 1) % 2 ^ 128))).getD 0 0] ∧
    (ctrCrypt B.E c [x, y]).1 =
      [x ^^^ (B.E (Spec.block128 c.val)).getD 0 0, y ^^^ (B.E (Spec.block128 c.val)).getD 1 0] := by
  have hv := c.val_lt
  have h := (ctrLoop_spec B.E B.E_len _ c [x, y] (Nat.le_refl _)).1
  have h1 := (ctrLoop_spec B.E B.E_len _ c [x] (Nat.le_refl _))
  have h2 := (ctrLoop_spec B.E B.E_len _ (ctrLoop B.E [x].length c [x]).2 [y] (Nat.le_refl _)).1
  refine ⟨?_, ?_⟩
  · rw [ctrCalls, ctrCalls, ctrCalls, List.append_nil, ctrCrypt, ctrCrypt, h1.1, h2, h1.2]
    simp [Spec.ctr, List.range_succ, Nat.mod_eq_of_lt hv]
  · rw [ctrCrypt, h]
    simp [Spec.ctr, List.range_succ, Nat.mod_eq_of_lt hv]

end LC.Sym
