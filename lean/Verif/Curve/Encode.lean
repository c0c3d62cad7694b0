import Verif.Curve.Field
/-!
# Encoding and decoding of field elements, powers
-/
namespace LC.Curve

/-- The number a byte string stands for, little endian (RFC 7748, section 5). -/
def leNum : List Byte → Nat
  | [] => 0
  | b :: s => b.toNat + 256 * leNum s

theorem leNum_append (a b : List Byte) : leNum (a ++ b) = leNum a + 256 ^ a.length * leNum b := by
  induction a with
  | nil => simp [leNum]
  | cons x a ih =>
    rw [List.cons_append, leNum, leNum, ih, List.length_cons, Nat.pow_succ]
    ring

theorem leNum_lt (a : List Byte) : leNum a < 256 ^ a.length := by
  induction a with
  | nil => simp [leNum]
  | cons x a ih =>
    rw [leNum, List.length_cons, Nat.pow_succ]
    have := x.toNat_lt
    omega

/-- Strings of one length with the same number are the same. -/
theorem leNum_inj : ∀ (a b : List Byte), a.length = b.length → leNum a = leNum b → a = b
  | [], [], _, _ => rfl
  | x :: a, y :: b, hl, h => by
    rw [leNum, leNum] at h
    have hx := x.toNat_lt
    have hy := y.toNat_lt
    have h1 : x.toNat = y.toNat := by omega
    have h2 : leNum a = leNum b := by omega
    rw [leNum_inj a b (by simpa using hl) h2, UInt8.toNat_inj.mp h1]

/-! ### `fe25519_reduce` -/

theorem rCarry_spec (t : Fe) (h : t.lt 79228162514264337593543950336) :
    val (rCarry t) = val t ∧ (rCarry t).l0 < 2251799813685248 ∧ (rCarry t).l1 < 2251799813685248 ∧
      (rCarry t).l2 < 2251799813685248 ∧ (rCarry t).l3 < 2251799813685248 ∧
      (rCarry t).l4 < 79228162514264337593543950336 + 79228162514264337593543950336 := by
  obtain ⟨t0, t1, t2, t3, t4⟩ := t
  obtain ⟨h0, h1, h2, h3, h4⟩ := h
  dsimp only at h0 h1 h2 h3 h4
  unfold rCarry
  simp only [and_mask, shr51]
  obtain ⟨c0, l0, e0, k0, s0, d0⟩ := split51 t0
  rw [e0, k0, u128_of_lt (show t1 + c0 < _ by omega)]
  obtain ⟨c1, l1, e1, k1, s1, d1⟩ := split51 (t1 + c0)
  rw [e1, k1, u128_of_lt (show t2 + c1 < _ by omega)]
  obtain ⟨c2, l2, e2, k2, s2, d2⟩ := split51 (t2 + c1)
  rw [e2, k2, u128_of_lt (show t3 + c2 < _ by omega)]
  obtain ⟨c3, l3, e3, k3, s3, d3⟩ := split51 (t3 + c2)
  rw [e3, k3, u128_of_lt (show t4 + c3 < _ by omega)]
  dsimp only [val]
  omega

theorem rWrap_spec (t : Fe) (h0 : t.l0 < 2251799813685248) (h4 : t.l4 < 158456325028528675187087900672) :
    val (rWrap t) + P * (t.l4 / 2251799813685248) = val t ∧
      (rWrap t).l0 = t.l0 + 19 * (t.l4 / 2251799813685248) ∧ (rWrap t).l1 = t.l1 ∧
      (rWrap t).l2 = t.l2 ∧ (rWrap t).l3 = t.l3 ∧ (rWrap t).l4 = t.l4 % 2251799813685248 := by
  unfold rWrap
  obtain ⟨t0, t1, t2, t3, t4⟩ := t
  dsimp only at h0 h4 ⊢
  rw [and_mask, shr51]
  obtain ⟨c0, l0, e0, k0, s0, d0⟩ := split51 t4
  rw [e0, k0, u128_of_lt (show t0 + 19 * c0 < _ by omega)]
  dsimp only [val, P]
  omega

/-- Whatever the limbs, `fe25519_reduce` returns the canonical representative, in canonical form. -/
theorem feReduce_spec (f : Fe) (h : f.lt (2 ^ 64)) :
    (feReduce f).lt 2251799813685248 ∧ val (feReduce f) = val f % P := by
  have h' : f.lt 18446744073709551616 := h
  obtain ⟨h0, h1, h2, h3, h4⟩ := h'
  unfold feReduce
  dsimp only
  obtain ⟨a, a0, a1, a2, a3, a4⟩ := rCarry_spec f (Fe.lt_mono h (by decide))
  generalize rCarry f = t1 at *
  obtain ⟨b, b0, b1, b2, b3, b4⟩ := rWrap_spec t1 a0 (by omega)
  have q4 : t1.l4 < 18446744073709600000 := by
    unfold val at a; omega
  generalize rWrap t1 = t2 at *
  obtain ⟨c, c0, c1, c2, c3, c4⟩ := rCarry_spec t2 (by refine ⟨?_, ?_, ?_, ?_, ?_⟩ <;> omega)
  generalize rCarry t2 = t3 at *
  obtain ⟨d, d0, d1, d2, d3, d4⟩ := rWrap_spec t3 c0 (by omega)
  generalize rWrap t3 = t4 at *
  have e0 : t4.l0 < 2251799813685248 := by unfold val at c; omega
  have e4 : t4.l4 < 2251799813685248 := by omega
  have ev : ∃ q, val f = val t4 + P * q := by
    refine ⟨t1.l4 / 2251799813685248 + t3.l4 / 2251799813685248, ?_⟩
    rw [Nat.mul_add]
    omega
  rw [u128_of_lt (show t4.l0 + 19 < _ by omega)]
  obtain ⟨g, g0, g1, g2, g3, g4⟩ := rCarry_spec { t4 with l0 := t4.l0 + 19 } (by refine ⟨?_, ?_, ?_, ?_, ?_⟩ <;> dsimp only <;> omega)
  generalize rCarry { t4 with l0 := t4.l0 + 19 } = t5 at *
  obtain ⟨k, k0, k1, k2, k3, k4⟩ := rWrap_spec t5 g0 (by omega)
  generalize rWrap t5 = t6 at *
  have gv : val { t4 with l0 := t4.l0 + 19 } = val t4 + 19 := by dsimp only [val]; omega
  rw [gv] at g
  have lt4 : val t4 < 57896044618658097711785492504343953926634992332820282019728792003956564819968 := by unfold val; omega
  have n1 : t5.l4 / 2251799813685248 = if P ≤ val t4 then 1 else 0 := by
    unfold val at *
    split <;> dsimp only [P] at * <;> omega
  have l5 : t6.l0 < 2251799813685300 := by unfold val at *; split at n1 <;> omega
  rw [u128_of_lt (show t6.l0 + (0x8000000000000 - 19) < _ by omega), u128_of_lt (show t6.l1 + (0x8000000000000 - 1) < _ by omega),
    u128_of_lt (show t6.l2 + (0x8000000000000 - 1) < _ by omega), u128_of_lt (show t6.l3 + (0x8000000000000 - 1) < _ by omega),
    u128_of_lt (show t6.l4 + (0x8000000000000 - 1) < _ by omega)]
  obtain ⟨m, m0, m1, m2, m3, m4⟩ := rCarry_spec ⟨t6.l0 + (0x8000000000000 - 19), t6.l1 + (0x8000000000000 - 1),
    t6.l2 + (0x8000000000000 - 1), t6.l3 + (0x8000000000000 - 1), t6.l4 + (0x8000000000000 - 1)⟩
    (by refine ⟨?_, ?_, ?_, ?_, ?_⟩ <;> dsimp only <;> omega)
  generalize rCarry ⟨t6.l0 + (0x8000000000000 - 19), t6.l1 + (0x8000000000000 - 1),
    t6.l2 + (0x8000000000000 - 1), t6.l3 + (0x8000000000000 - 1), t6.l4 + (0x8000000000000 - 1)⟩ = t7 at *
  rw [and_mask, u64_of_lt (show t7.l0 < _ by omega), u64_of_lt (show t7.l1 < _ by omega), u64_of_lt (show t7.l2 < _ by omega),
    u64_of_lt (show t7.l3 < _ by omega), u64_of_lt (show t7.l4 % 2251799813685248 < _ by omega)]
  refine ⟨⟨by dsimp only; omega, by dsimp only; omega, by dsimp only; omega, by dsimp only; omega, by dsimp only; omega⟩, ?_⟩
  obtain ⟨q, hq⟩ := ev
  rw [hq, Nat.add_mul_mod_self_left]
  have hmod : val t4 % P = if P ≤ val t4 then val t4 - P else val t4 := by
    dsimp only [P]
    split <;> omega
  rw [hmod]
  rw [n1] at k
  have m' : val t7 = val t6 + 57896044618658097711785492504343953926634992332820282019728792003956564819949 := by
    rw [m]; dsimp only [val]; omega
  clear a b c d hq m hmod
  have v6 : val t6 = t6.l0 + 2251799813685248 * t6.l1 + 5070602400912917605986812821504 * t6.l2 +
    11417981541647679048466287755595961091061972992 * t6.l3 +
    25711008708143844408671393477458601640355247900524685364822016 * t6.l4 := rfl
  have v7 : val t7 = t7.l0 + 2251799813685248 * t7.l1 + 5070602400912917605986812821504 * t7.l2 +
    11417981541647679048466287755595961091061972992 * t7.l3 +
    25711008708143844408671393477458601640355247900524685364822016 * t7.l4 := rfl
  generalize val t4 = v4 at *
  split at k
  · rename_i hc
    rw [if_pos hc]
    dsimp only [val, P] at *
    omega
  · rename_i hc
    rw [if_neg hc]
    dsimp only [val, P] at *
    omega

/-! ### Bytes -/

theorem toLe64_length (x : Nat) : (toLe64 x).length = 8 := by simp [toLe64]

theorem byte_shr (x k : Nat) : (UInt8.ofNat (x >>> k)).toNat = x / 2 ^ k % 256 := by
  rw [UInt8.toNat_ofNat', Nat.shiftRight_eq_div_pow]

theorem leNum_toLe64 (x : Nat) (h : x < 18446744073709551616) : leNum (toLe64 x) = x := by
  have e : toLe64 x = [UInt8.ofNat (x >>> 0), UInt8.ofNat (x >>> 8), UInt8.ofNat (x >>> 16), UInt8.ofNat (x >>> 24),
    UInt8.ofNat (x >>> 32), UInt8.ofNat (x >>> 40), UInt8.ofNat (x >>> 48), UInt8.ofNat (x >>> 56)] := rfl
  rw [e]
  simp only [leNum, byte_shr]
  omega

theorem shl_or (a b k m : Nat) (ha : a < 2 ^ k) (hk : k + m = 64) (hb : b < 2 ^ 51) :
    a ||| u64 (b <<< k) = a + 2 ^ k * (b % 2 ^ m) := by
  have h1 : u64 (b <<< k) = (b % 2 ^ m) <<< k := by
    rw [u64, Nat.shiftLeft_eq, Nat.shiftLeft_eq, ← hk, Nat.pow_add, Nat.mul_comm b, Nat.mul_mod_mul_left, Nat.mul_comm]
  rw [h1, Nat.or_comm, ← Nat.shiftLeft_add_eq_or_of_lt ha, Nat.shiftLeft_eq]
  ring

theorem feTobytes_length (f : Fe) : (feTobytes f).length = 32 := by
  simp [feTobytes, toLe64]

/-- `fe25519_tobytes` writes the canonical 32 byte little endian encoding. -/
theorem feTobytes_spec (f : Fe) (h : f.lt (2 ^ 64)) : leNum (feTobytes f) = val f % P := by
  obtain ⟨⟨h0, h1, h2, h3, h4⟩, hv⟩ := feReduce_spec f h
  rw [← hv]
  unfold feTobytes
  dsimp only
  generalize feReduce f = t at *
  rw [shl_or _ _ 51 13 (by omega) rfl (by omega), shl_or _ _ 38 26 (by rw [Nat.shiftRight_eq_div_pow]; omega) rfl (by omega),
    shl_or _ _ 25 39 (by rw [Nat.shiftRight_eq_div_pow]; omega) rfl (by omega),
    shl_or _ _ 12 52 (by rw [Nat.shiftRight_eq_div_pow]; omega) rfl (by omega)]
  simp only [Nat.shiftRight_eq_div_pow]
  rw [leNum_append, leNum_append, leNum_append, leNum_toLe64 _ (by omega), leNum_toLe64 _ (by omega),
    leNum_toLe64 _ (by omega), leNum_toLe64 _ (by omega)]
  simp only [List.length_append, toLe64_length]
  dsimp only [val]
  have e1 : (256 : Nat) ^ 8 = 18446744073709551616 := by decide
  have e2 : (256 : Nat) ^ (8 + 8) = 340282366920938463463374607431768211456 := by decide
  have e3 : (256 : Nat) ^ (8 + 8 + 8) = 6277101735386680763835789423207666416102355444464034512896 := by decide
  rw [e1, e2, e3]
  omega

theorem val_mod_eq (f : Fe) : val f % P = (toF f).val := by
  unfold toF
  rw [ZMod.val_natCast]

/-- The encoding depends on the residue only ... -/
theorem feTobytes_eq_iff (f g : Fe) (hf : f.lt (2 ^ 64)) (hg : g.lt (2 ^ 64)) :
    feTobytes f = feTobytes g ↔ toF f = toF g := by
  constructor
  · intro h
    have := congrArg leNum h
    rw [feTobytes_spec f hf, feTobytes_spec g hg, val_mod_eq, val_mod_eq] at this
    exact ZMod.val_injective P this
  · intro h
    refine leNum_inj _ _ (by rw [feTobytes_length, feTobytes_length]) ?_
    rw [feTobytes_spec f hf, feTobytes_spec g hg, val_mod_eq, val_mod_eq, h]

/-- The numbers of the bytes, for a string of 32 bytes. -/
theorem leNum_32 (s : List Byte) (h : s.length = 32) :
    leNum s = (s.getD 0 0).toNat + 256 * ((s.getD 1 0).toNat + 256 * ((s.getD 2 0).toNat + 256 * ((s.getD 3 0).toNat +
      256 * ((s.getD 4 0).toNat + 256 * ((s.getD 5 0).toNat + 256 * ((s.getD 6 0).toNat + 256 * ((s.getD 7 0).toNat +
      256 * ((s.getD 8 0).toNat + 256 * ((s.getD 9 0).toNat + 256 * ((s.getD 10 0).toNat + 256 * ((s.getD 11 0).toNat +
      256 * ((s.getD 12 0).toNat + 256 * ((s.getD 13 0).toNat + 256 * ((s.getD 14 0).toNat + 256 * ((s.getD 15 0).toNat +
      256 * ((s.getD 16 0).toNat + 256 * ((s.getD 17 0).toNat + 256 * ((s.getD 18 0).toNat + 256 * ((s.getD 19 0).toNat +
      256 * ((s.getD 20 0).toNat + 256 * ((s.getD 21 0).toNat + 256 * ((s.getD 22 0).toNat + 256 * ((s.getD 23 0).toNat +
      256 * ((s.getD 24 0).toNat + 256 * ((s.getD 25 0).toNat + 256 * ((s.getD 26 0).toNat + 256 * ((s.getD 27 0).toNat +
      256 * ((s.getD 28 0).toNat + 256 * ((s.getD 29 0).toNat + 256 * ((s.getD 30 0).toNat + 256 * ((s.getD 31 0).toNat
      ))))))))))))))))))))))))))))))) := by
  match s, h with
  | [b0, b1, b2, b3, b4, b5, b6, b7, b8, b9, b10, b11, b12, b13, b14, b15, b16, b17, b18, b19, b20, b21, b22, b23, b24,
      b25, b26, b27, b28, b29, b30, b31], _ => rfl

theorem le64_eq (s : List Byte) (off : Nat) : le64 s off = (s.getD off 0).toNat + 256 * (s.getD (off + 1) 0).toNat +
    65536 * (s.getD (off + 2) 0).toNat + 16777216 * (s.getD (off + 3) 0).toNat + 4294967296 * (s.getD (off + 4) 0).toNat +
    1099511627776 * (s.getD (off + 5) 0).toNat + 281474976710656 * (s.getD (off + 6) 0).toNat +
    72057594037927936 * (s.getD (off + 7) 0).toNat := by
  have : le64 s off = (s.getD (off + 0) 0).toNat + 256 * ((s.getD (off + 1) 0).toNat + 256 * ((s.getD (off + 2) 0).toNat +
    256 * ((s.getD (off + 3) 0).toNat + 256 * ((s.getD (off + 4) 0).toNat + 256 * ((s.getD (off + 5) 0).toNat +
    256 * ((s.getD (off + 6) 0).toNat + 256 * ((s.getD (off + 7) 0).toNat + 256 * 0))))))) := rfl
  rw [this]
  simp only [Nat.add_zero]
  omega

/-- `fe25519_frombytes` reads the number modulo `2^255`: the top bit is ignored, the rest is taken
as it is, also when it is not below the prime. -/
theorem feFrombytes_spec (s : List Byte) (hs : s.length = 32) :
    (feFrombytes s).lt 2251799813685248 ∧ val (feFrombytes s) = leNum s % 2 ^ 255 := by
  have hb : ∀ i, (s.getD i 0).toNat < 256 := fun i => (s.getD i 0).toNat_lt
  rw [leNum_32 s hs]
  unfold feFrombytes
  simp only [and_mask, Nat.shiftRight_eq_div_pow, le64_eq, Nat.reduceAdd, Nat.zero_add]
  have g0 := hb 0; have g1 := hb 1; have g2 := hb 2; have g3 := hb 3
  have g4 := hb 4; have g5 := hb 5; have g6 := hb 6; have g7 := hb 7
  have g8 := hb 8; have g9 := hb 9; have g10 := hb 10; have g11 := hb 11
  have g12 := hb 12; have g13 := hb 13; have g14 := hb 14; have g15 := hb 15
  have g16 := hb 16; have g17 := hb 17; have g18 := hb 18; have g19 := hb 19
  have g20 := hb 20; have g21 := hb 21; have g22 := hb 22; have g23 := hb 23
  have g24 := hb 24; have g25 := hb 25; have g26 := hb 26; have g27 := hb 27
  have g28 := hb 28; have g29 := hb 29; have g30 := hb 30; have g31 := hb 31
  clear hb hs
  generalize (s.getD 0 0).toNat = b0 at *
  generalize (s.getD 1 0).toNat = b1 at *
  generalize (s.getD 2 0).toNat = b2 at *
  generalize (s.getD 3 0).toNat = b3 at *
  generalize (s.getD 4 0).toNat = b4 at *
  generalize (s.getD 5 0).toNat = b5 at *
  generalize (s.getD 6 0).toNat = b6 at *
  generalize (s.getD 7 0).toNat = b7 at *
  generalize (s.getD 8 0).toNat = b8 at *
  generalize (s.getD 9 0).toNat = b9 at *
  generalize (s.getD 10 0).toNat = b10 at *
  generalize (s.getD 11 0).toNat = b11 at *
  generalize (s.getD 12 0).toNat = b12 at *
  generalize (s.getD 13 0).toNat = b13 at *
  generalize (s.getD 14 0).toNat = b14 at *
  generalize (s.getD 15 0).toNat = b15 at *
  generalize (s.getD 16 0).toNat = b16 at *
  generalize (s.getD 17 0).toNat = b17 at *
  generalize (s.getD 18 0).toNat = b18 at *
  generalize (s.getD 19 0).toNat = b19 at *
  generalize (s.getD 20 0).toNat = b20 at *
  generalize (s.getD 21 0).toNat = b21 at *
  generalize (s.getD 22 0).toNat = b22 at *
  generalize (s.getD 23 0).toNat = b23 at *
  generalize (s.getD 24 0).toNat = b24 at *
  generalize (s.getD 25 0).toNat = b25 at *
  generalize (s.getD 26 0).toNat = b26 at *
  generalize (s.getD 27 0).toNat = b27 at *
  generalize (s.getD 28 0).toNat = b28 at *
  generalize (s.getD 29 0).toNat = b29 at *
  generalize (s.getD 30 0).toNat = b30 at *
  generalize (s.getD 31 0).toNat = b31 at *
  have e0 : (b0 + 256 * b1 + 65536 * b2 + 16777216 * b3 + 4294967296 * b4 + 1099511627776 * b5 + 281474976710656 * b6 +
      72057594037927936 * b7) % 2251799813685248 =
      b0 + 256 * b1 + 65536 * b2 + 16777216 * b3 + 4294967296 * b4 + 1099511627776 * b5 + 281474976710656 * (b6 % 8) := by omega
  have e1 : (b6 + 256 * b7 + 65536 * b8 + 16777216 * b9 + 4294967296 * b10 + 1099511627776 * b11 + 281474976710656 * b12 +
      72057594037927936 * b13) / 2 ^ 3 % 2251799813685248 =
      b6 / 8 + 32 * b7 + 8192 * b8 + 2097152 * b9 + 536870912 * b10 + 137438953472 * b11 + 35184372088832 * (b12 % 64) := by omega
  have e2 : (b12 + 256 * b13 + 65536 * b14 + 16777216 * b15 + 4294967296 * b16 + 1099511627776 * b17 + 281474976710656 * b18 +
      72057594037927936 * b19) / 2 ^ 6 % 2251799813685248 =
      b12 / 64 + 4 * b13 + 1024 * b14 + 262144 * b15 + 67108864 * b16 + 17179869184 * b17 + 4398046511104 * b18 +
        1125899906842624 * (b19 % 2) := by omega
  have e3 : (b19 + 256 * b20 + 65536 * b21 + 16777216 * b22 + 4294967296 * b23 + 1099511627776 * b24 + 281474976710656 * b25 +
      72057594037927936 * b26) / 2 ^ 1 % 2251799813685248 =
      b19 / 2 + 128 * b20 + 32768 * b21 + 8388608 * b22 + 2147483648 * b23 + 549755813888 * b24 + 140737488355328 * (b25 % 16) := by omega
  have e4 : (b24 + 256 * b25 + 65536 * b26 + 16777216 * b27 + 4294967296 * b28 + 1099511627776 * b29 + 281474976710656 * b30 +
      72057594037927936 * b31) / 2 ^ 12 % 2251799813685248 =
      b25 / 16 + 16 * b26 + 4096 * b27 + 1048576 * b28 + 268435456 * b29 + 68719476736 * b30 + 17592186044416 * (b31 % 128) := by omega
  rw [e0, e1, e2, e3, e4]
  refine ⟨⟨by dsimp only; omega, by dsimp only; omega, by dsimp only; omega, by dsimp only; omega, by dsimp only; omega⟩, ?_⟩
  dsimp only [val]
  clear e0 e1 e2 e3 e4
  omega

/-- Decoding what was encoded. -/
theorem feFrombytes_feTobytes (f : Fe) (h : f.lt (2 ^ 64)) : toF (feFrombytes (feTobytes f)) = toF f := by
  unfold toF
  rw [(feFrombytes_spec _ (feTobytes_length f)).2, feTobytes_spec f h,
    Nat.mod_eq_of_lt (show val f % P < 2 ^ 255 from Nat.lt_trans (Nat.mod_lt _ (by decide)) (by decide)), ZMod.natCast_mod]

/-! ### Predicates -/

theorem feIsnegative_spec (f : Fe) (h : f.lt (2 ^ 64)) : feIsnegative f = val f % P % 2 := by
  unfold feIsnegative
  rw [← feTobytes_spec f h]
  have hl := feTobytes_length f
  generalize feTobytes f = s at *
  match s, hl with
  | b :: s, _ =>
    rw [show (b :: s).getD 0 0 = b from rfl, leNum, Nat.and_one_is_mod]
    omega

theorem or_eq_zero (a b : Byte) : a ||| b = 0 ↔ a = 0 ∧ b = 0 := by
  constructor
  · intro h
    have := congrArg UInt8.toNat h
    rw [UInt8.toNat_or] at this
    have h' : a.toNat ||| b.toNat = 0 := this
    rw [Nat.or_eq_zero_iff] at h'
    exact ⟨UInt8.toNat_inj.mp h'.1, UInt8.toNat_inj.mp h'.2⟩
  · rintro ⟨rfl, rfl⟩; rfl

theorem foldl_or_eq_zero (s : List Byte) (c : Byte) : s.foldl (· ||| ·) c = 0 ↔ c = 0 ∧ leNum s = 0 := by
  induction s generalizing c with
  | nil => simp [leNum]
  | cons x s ih =>
    rw [List.foldl_cons, ih, or_eq_zero, leNum]
    have : x = 0 ↔ x.toNat = 0 := ⟨fun h => by rw [h]; rfl, fun h => UInt8.toNat_inj.mp h⟩
    rw [this]
    constructor
    · rintro ⟨⟨a, b⟩, c⟩; exact ⟨a, by omega⟩
    · rintro ⟨a, b⟩; exact ⟨⟨a, by omega⟩, by omega⟩

theorem isZero_spec (s : List Byte) : isZero s = if leNum s = 0 then 1 else 0 := by
  unfold isZero
  dsimp only
  have h := foldl_or_eq_zero s 0
  by_cases hs : leNum s = 0
  · rw [if_pos (h.mpr ⟨rfl, hs⟩), if_pos hs]
  · rw [if_neg (fun hc => hs (h.mp hc).2), if_neg hs]
    have := (s.foldl (· ||| ·) 0).toNat_lt
    rw [Nat.shiftRight_eq_div_pow, Nat.div_eq_of_lt (by omega)]
    rfl

theorem feIszero_spec (f : Fe) (h : f.lt (2 ^ 64)) : feIszero f = if toF f = 0 then 1 else 0 := by
  unfold feIszero
  rw [isZero_spec, feTobytes_spec f h, val_mod_eq]
  congr 1
  rw [ZMod.val_eq_zero]

/-! ### Powers -/

theorem feSqn_spec (n : Nat) (f : Fe) (hf : f.lt loose) :
    (feSqn n f).lt loose ∧ toF (feSqn n f) = toF f ^ 2 ^ n := by
  induction n generalizing f with
  | zero => exact ⟨hf, by rw [feSqn, Nat.pow_zero, pow_one]⟩
  | succ n ih =>
    have h := feSq_spec f hf
    have h' := ih _ (Fe.lt_mono h.1 (by decide))
    rw [feSqn]
    exact ⟨h'.1, by rw [h'.2, h.2, ← pow_mul, Nat.pow_succ, Nat.mul_comm]⟩

/-- `f` holds the power `e` of `x`, and may be multiplied. -/
def IsPow (x : ZMod P) (e : Nat) (f : Fe) : Prop := f.lt loose ∧ toF f = x ^ e

theorem IsPow.mul {x : ZMod P} {a b : Nat} {f g : Fe} (hf : IsPow x a f) (hg : IsPow x b g) (c : Nat) (hc : a + b = c) :
    IsPow x c (feMul f g) := by
  have h := feMul_spec f g hf.1 hg.1
  exact ⟨Fe.lt_mono h.1 (by decide), by rw [h.2, hf.2, hg.2, ← pow_add, hc]⟩

theorem IsPow.sq {x : ZMod P} {a : Nat} {f : Fe} (hf : IsPow x a f) (c : Nat) (hc : a * 2 = c) : IsPow x c (feSq f) := by
  have h := feSq_spec f hf.1
  exact ⟨Fe.lt_mono h.1 (by decide), by rw [h.2, hf.2, ← pow_mul, hc]⟩

theorem IsPow.sqn {x : ZMod P} {a : Nat} {f : Fe} (n : Nat) (hf : IsPow x a f) (c : Nat) (hc : a * 2 ^ n = c) :
    IsPow x c (feSqn n f) := by
  have h := feSqn_spec n f hf.1
  exact ⟨h.1, by rw [h.2, hf.2, ← pow_mul, hc]⟩

theorem feInvert_spec (z : Fe) (h : z.lt loose) :
    (feInvert z).lt tight ∧ toF (feInvert z) = toF z ^ 57896044618658097711785492504343953926634992332820282019728792003956564819947 := by
  have hz : IsPow (toF z) 1 z := ⟨h, (pow_one _).symm⟩
  have h1 := hz.sq 2 (by decide)
  have h2 := h1.sq 4 (by decide)
  have h3 := h2.sq 8 (by decide)
  have h4 := hz.mul h3 9 (by decide)
  have h5 := h1.mul h4 11 (by decide)
  have h6 := h5.sq 22 (by decide)
  have h7 := h4.mul h6 31 (by decide)
  have h8 := h7.sqn 5 992 (by decide)
  have h9 := h8.mul h7 1023 (by decide)
  have h10 := h9.sqn 10 1047552 (by decide)
  have h11 := h10.mul h9 1048575 (by decide)
  have h12 := h11.sqn 20 1099510579200 (by decide)
  have h13 := h12.mul h11 1099511627775 (by decide)
  have h14 := h13.sqn 10 1125899906841600 (by decide)
  have h15 := h14.mul h9 1125899906842623 (by decide)
  have h16 := h15.sqn 50 1267650600228228275596796362752 (by decide)
  have h17 := h16.mul h15 1267650600228229401496703205375 (by decide)
  have h18 := h17.sqn 100 1606938044258990275541962092339894951921974764381296132096000 (by decide)
  have h19 := h18.mul h17 1606938044258990275541962092341162602522202993782792835301375 (by decide)
  have h20 := h19.sqn 50 1809251394333065553493296640760748560207343510400633813116523624223735808000 (by decide)
  have h21 := h20.mul h15 1809251394333065553493296640760748560207343510400633813116524750123642650623 (by decide)
  have h22 := h21.sqn 5 57896044618658097711785492504343953926634992332820282019728792003956564819936 (by decide)
  have hl := h22.mul h5 57896044618658097711785492504343953926634992332820282019728792003956564819947 (by decide)
  exact ⟨(feMul_spec _ _ h22.1 h5.1).1, hl.2⟩

theorem fePow22523_spec (z : Fe) (h : z.lt loose) :
    (fePow22523 z).lt tight ∧ toF (fePow22523 z) = toF z ^ 7237005577332262213973186563042994240829374041602535252466099000494570602493 := by
  have hz : IsPow (toF z) 1 z := ⟨h, (pow_one _).symm⟩
  have h1 := hz.sq 2 (by decide)
  have h2 := h1.sq 4 (by decide)
  have h3 := h2.sq 8 (by decide)
  have h4 := hz.mul h3 9 (by decide)
  have h5 := h1.mul h4 11 (by decide)
  have h6 := h5.sq 22 (by decide)
  have h7 := h4.mul h6 31 (by decide)
  have h8 := h7.sqn 5 992 (by decide)
  have h9 := h8.mul h7 1023 (by decide)
  have h10 := h9.sqn 10 1047552 (by decide)
  have h11 := h10.mul h9 1048575 (by decide)
  have h12 := h11.sqn 20 1099510579200 (by decide)
  have h13 := h12.mul h11 1099511627775 (by decide)
  have h14 := h13.sqn 10 1125899906841600 (by decide)
  have h15 := h14.mul h9 1125899906842623 (by decide)
  have h16 := h15.sqn 50 1267650600228228275596796362752 (by decide)
  have h17 := h16.mul h15 1267650600228229401496703205375 (by decide)
  have h18 := h17.sqn 100 1606938044258990275541962092339894951921974764381296132096000 (by decide)
  have h19 := h18.mul h17 1606938044258990275541962092341162602522202993782792835301375 (by decide)
  have h20 := h19.sqn 50 1809251394333065553493296640760748560207343510400633813116523624223735808000 (by decide)
  have h21 := h20.mul h15 1809251394333065553493296640760748560207343510400633813116524750123642650623 (by decide)
  have h22 := h21.sq 3618502788666131106986593281521497120414687020801267626233049500247285301246 (by decide)
  have h23 := h22.sq 7237005577332262213973186563042994240829374041602535252466099000494570602492 (by decide)
  have hl := h23.mul hz 7237005577332262213973186563042994240829374041602535252466099000494570602493 (by decide)
  exact ⟨(feMul_spec _ _ h23.1 hz.1).1, hl.2⟩

end LC.Curve
