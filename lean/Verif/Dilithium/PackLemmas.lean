import Verif.Dilithium.Model
import Verif.Kyber.Compress
/-
Chunk by chunk, the packing functions of ML-DSA are bit string encodings.
-/
namespace LC.Dilithium
open LC.Kyber (Poly Byte upd mapLoop at8 b8 sumDigits chunk_encode chunk_decode chunkVal chunkVal_at at8_lt sr or_add)
open LC.Kyber.Spec (byteEncode byteDecode)

theorem orA (k : Nat) {a b : Nat} (h : a < 2 ^ k) : a ||| b <<< k = a + 2 ^ k * b := by rw [or_add h, Nat.mul_comm]

/-- Two pieces of one byte, each converted to a byte first. -/
theorem orB (k : Nat) {a b : Nat} (hk : k ≤ 8) (h : a < 2 ^ k) : (b8 a ||| b8 (b <<< k)).toNat = a + 2 ^ k * (b % 2 ^ (8 - k)) := by
  unfold b8
  have h8 : (2 : Nat) ^ k * 2 ^ (8 - k) = 2 ^ 8 := by rw [← Nat.pow_add]; congr 1; omega
  have hle : (2 : Nat) ^ k ≤ 2 ^ 8 := Nat.pow_le_pow_right (by decide) hk
  rw [UInt8.toNat_or, UInt8.toNat_ofNat', UInt8.toNat_ofNat', Nat.mod_eq_of_lt (Nat.lt_of_lt_of_le h hle), Nat.shiftLeft_eq,
    Nat.mul_comm b, ← h8, Nat.mul_mod_mul_left, ← orA k h, Nat.shiftLeft_eq, Nat.mul_comm (b % _)]

theorem b8_toNat (a : Nat) : (b8 a).toNat = a % 256 := by unfold b8; rw [UInt8.toNat_ofNat']

theorem enc_e3 {p0_0 p1_0 p2_0 p2_2 p3_0 p4_0 p5_0 p5_1 p6_0 p7_0 t0 t1 t2 t3 t4 t5 t6 t7 : Nat} (h0 : t0 = p0_0) (h1 : t1 = p1_0) (h2 : t2 = p2_0 + 4 * p2_2) (h3 : t3 = p3_0) (h4 : t4 = p4_0) (h5 : t5 = p5_0 + 2 * p5_1) (h6 : t6 = p6_0) (h7 : t7 = p7_0) :
    p0_0 + 8 * p1_0 + 64 * p2_0 + 2 ^ 8 * (p2_2 + 2 * p3_0 + 16 * p4_0 + 128 * p5_0 + 2 ^ 8 * (p5_1 + 4 * p6_0 + 32 * p7_0 + 2 ^ 8 * 0)) =
    t0 + 2 ^ 3 * (t1 + 2 ^ 3 * (t2 + 2 ^ 3 * (t3 + 2 ^ 3 * (t4 + 2 ^ 3 * (t5 + 2 ^ 3 * (t6 + 2 ^ 3 * (t7 + 2 ^ 3 * 0))))))) := by
  subst h0 h1 h2 h3 h4 h5 h6 h7
  simp only [Nat.mul_add, ← Nat.mul_assoc, Nat.reducePow, Nat.reduceMul, Nat.mul_zero, Nat.add_zero]
  all_goals omega

theorem dec_e3 {p0_0 p1_0 p2_0 p2_2 p3_0 p4_0 p5_0 p5_1 p6_0 p7_0 a0 a1 a2 : Nat} (h0 : a0 = p0_0 + 8 * p1_0 + 64 * p2_0) (h1 : a1 = p2_2 + 2 * p3_0 + 16 * p4_0 + 128 * p5_0) (h2 : a2 = p5_1 + 4 * p6_0 + 32 * p7_0) :
    p0_0 + 2 ^ 3 * (p1_0 + 2 ^ 3 * (p2_0 + 4 * p2_2 + 2 ^ 3 * (p3_0 + 2 ^ 3 * (p4_0 + 2 ^ 3 * (p5_0 + 2 * p5_1 + 2 ^ 3 * (p6_0 + 2 ^ 3 * (p7_0 + 2 ^ 3 * 0))))))) =
    a0 + 2 ^ 8 * (a1 + 2 ^ 8 * (a2 + 2 ^ 8 * 0)) := by
  subst h0 h1 h2
  simp only [Nat.mul_add, ← Nat.mul_assoc, Nat.reducePow, Nat.reduceMul, Nat.mul_zero, Nat.add_zero]
  all_goals omega

/-- The bytes of one chunk. -/
theorem bytes_e3 (t0 t1 t2 t3 t4 t5 t6 t7 : Nat) (h0 : t0 < 8) (h1 : t1 < 8) (h2 : t2 < 8) (h3 : t3 < 8) (h4 : t4 < 8) (h5 : t5 < 8) (h6 : t6 < 8) (h7 : t7 < 8) :
    sumDigits 8 (fun k => at8 [b8 (t0 >>> 0 ||| t1 <<< 3 ||| t2 <<< 6), b8 (t2 >>> 2 ||| t3 <<< 1 ||| t4 <<< 4 ||| t5 <<< 7), b8 (t5 >>> 1 ||| t6 <<< 2 ||| t7 <<< 5)] k) 3 =
    t0 + 2 ^ 3 * (t1 + 2 ^ 3 * (t2 + 2 ^ 3 * (t3 + 2 ^ 3 * (t4 + 2 ^ 3 * (t5 + 2 ^ 3 * (t6 + 2 ^ 3 * (t7 + 2 ^ 3 * 0))))))) := by
  have e0 : (b8 (t0 >>> 0 ||| t1 <<< 3 ||| t2 <<< 6)).toNat = t0 + 8 * t1 + 64 * (t2 % 4) := by rw [b8_toNat]; (try simp only [sr]); rw [orA 3 (by omega), orA 6 (by omega)]; all_goals omega
  have e1 : (b8 (t2 >>> 2 ||| t3 <<< 1 ||| t4 <<< 4 ||| t5 <<< 7)).toNat = (t2 / 4) + 2 * t3 + 16 * t4 + 128 * (t5 % 2) := by rw [b8_toNat]; (try simp only [sr]); rw [orA 1 (by omega), orA 4 (by omega), orA 7 (by omega)]; all_goals omega
  have e2 : (b8 (t5 >>> 1 ||| t6 <<< 2 ||| t7 <<< 5)).toNat = (t5 / 2) + 4 * t6 + 32 * t7 := by rw [b8_toNat]; (try simp only [sr]); rw [orA 2 (by omega), orA 5 (by omega)]; all_goals omega
  simp only [sumDigits, at8, List.getD_cons_zero, List.getD_cons_succ, Nat.reduceAdd, e0, e1, e2]
  exact enc_e3 (by omega) (by omega) (by omega) (by omega) (by omega) (by omega) (by omega) (by omega)

/-- The values of one chunk. -/
def vals_e3 (a0 a1 a2 : Nat) : List Nat := [(a0 % 8), (a0 / 8 % 8), (a0 / 64) + 4 * (a1 % 2), (a1 / 2 % 8), (a1 / 16 % 8), (a1 / 128) + 2 * (a2 % 4), (a2 / 4 % 8), (a2 / 32)]

theorem vals_e3_eq (a0 a1 a2 : Nat) (h0 : a0 < 256) (h1 : a1 < 256) (h2 : a2 < 256) :
    [a0 >>> 0 &&& 7, a0 >>> 3 &&& 7, (a0 >>> 6 ||| a1 <<< 2) &&& 7, a1 >>> 1 &&& 7, a1 >>> 4 &&& 7, (a1 >>> 7 ||| a2 <<< 1) &&& 7, a2 >>> 2 &&& 7, a2 >>> 5 &&& 7] = vals_e3 a0 a1 a2 := by
  have em : ∀ y, y &&& 7 = y % 8 := fun y => Nat.and_two_pow_sub_one_eq_mod y 3
  have e0 : a0 >>> 0 &&& 7 = (a0 % 8) := by rw [em]; (try simp only [sr]); all_goals omega
  have e1 : a0 >>> 3 &&& 7 = (a0 / 8 % 8) := by rw [em]; (try simp only [sr]); all_goals omega
  have e2 : (a0 >>> 6 ||| a1 <<< 2) &&& 7 = (a0 / 64) + 4 * (a1 % 2) := by rw [em]; (try simp only [sr]); rw [orA 2 (by omega)]; all_goals omega
  have e3 : a1 >>> 1 &&& 7 = (a1 / 2 % 8) := by rw [em]; (try simp only [sr]); all_goals omega
  have e4 : a1 >>> 4 &&& 7 = (a1 / 16 % 8) := by rw [em]; (try simp only [sr]); all_goals omega
  have e5 : (a1 >>> 7 ||| a2 <<< 1) &&& 7 = (a1 / 128) + 2 * (a2 % 4) := by rw [em]; (try simp only [sr]); rw [orA 1 (by omega)]; all_goals omega
  have e6 : a2 >>> 2 &&& 7 = (a2 / 4 % 8) := by rw [em]; (try simp only [sr]); all_goals omega
  have e7 : a2 >>> 5 &&& 7 = (a2 / 32) := by rw [em]; (try simp only [sr]); all_goals omega
  rw [e0, e1, e2, e3, e4, e5, e6, e7]; rfl

theorem chunk_e3 (b : List Byte) (x : Nat) : chunkVal 8 (fun i => vals_e3 (at8 b (3 * i + 0)) (at8 b (3 * i + 1)) (at8 b (3 * i + 2))) x = byteDecode 3 b x := by
  have hv : ∀ i k, k < 8 → chunkVal 8 (fun i => vals_e3 (at8 b (3 * i + 0)) (at8 b (3 * i + 1)) (at8 b (3 * i + 2))) (8 * i + k) = byteDecode 3 b (8 * i + k) := by
    intro i k hk
    have a0 := at8_lt b (3 * i + 0)
    have a1 := at8_lt b (3 * i + 1)
    have a2 := at8_lt b (3 * i + 2)
    refine chunk_decode (n := 8) (m := 3) (by decide) (by decide) (by decide) b _ i ?_ ?_ k hk
    · intro k hk
      rw [chunkVal_at 8 _ i k hk]
      have : k = 0 ∨ k = 1 ∨ k = 2 ∨ k = 3 ∨ k = 4 ∨ k = 5 ∨ k = 6 ∨ k = 7 := by omega
      rcases this with rfl | rfl | rfl | rfl | rfl | rfl | rfl | rfl <;> simp only [vals_e3, List.getD_cons_zero, List.getD_cons_succ] <;> omega
    · have hc := fun k (hk : k < 8) => chunkVal_at 8 (fun i => vals_e3 (at8 b (3 * i + 0)) (at8 b (3 * i + 1)) (at8 b (3 * i + 2))) i k hk
      have c0 := hc 0 (by decide)
      have c1 := hc 1 (by decide)
      have c2 := hc 2 (by decide)
      have c3 := hc 3 (by decide)
      have c4 := hc 4 (by decide)
      have c5 := hc 5 (by decide)
      have c6 := hc 6 (by decide)
      have c7 := hc 7 (by decide)
      simp only [sumDigits, Nat.reduceAdd, c0, c1, c2, c3, c4, c5, c6, c7]
      simp only [vals_e3, List.getD_cons_zero, List.getD_cons_succ]
      exact dec_e3 (by omega) (by omega) (by omega)
  have hx := hv (x / 8) (x % 8) (Nat.mod_lt _ (by decide))
  rwa [Nat.div_add_mod] at hx

theorem enc_e4 {p0_0 p1_0 t0 t1 : Nat} (h0 : t0 = p0_0) (h1 : t1 = p1_0) :
    p0_0 + 16 * p1_0 + 2 ^ 8 * 0 =
    t0 + 2 ^ 4 * (t1 + 2 ^ 4 * 0) := by
  subst h0 h1
  simp only [Nat.mul_add, ← Nat.mul_assoc, Nat.reducePow, Nat.reduceMul, Nat.mul_zero, Nat.add_zero]
  all_goals omega

theorem dec_e4 {p0_0 p1_0 a0 : Nat} (h0 : a0 = p0_0 + 16 * p1_0) :
    p0_0 + 2 ^ 4 * (p1_0 + 2 ^ 4 * 0) =
    a0 + 2 ^ 8 * 0 := by
  subst h0
  simp only [Nat.mul_add, ← Nat.mul_assoc, Nat.reducePow, Nat.reduceMul, Nat.mul_zero, Nat.add_zero]
  all_goals omega

/-- The bytes of one chunk. -/
theorem bytes_e4 (t0 t1 : Nat) (h0 : t0 < 16) (h1 : t1 < 16) :
    sumDigits 8 (fun k => at8 [b8 (t0 ||| t1 <<< 4)] k) 1 =
    t0 + 2 ^ 4 * (t1 + 2 ^ 4 * 0) := by
  have e0 : (b8 (t0 ||| t1 <<< 4)).toNat = t0 + 16 * t1 := by rw [b8_toNat]; (try simp only [sr]); rw [orA 4 (by omega)]; all_goals omega
  simp only [sumDigits, at8, List.getD_cons_zero, List.getD_cons_succ, Nat.reduceAdd, e0]
  exact enc_e4 (by omega) (by omega)

/-- The values of one chunk. -/
def vals_e4 (a0 : Nat) : List Nat := [(a0 % 16), (a0 / 16)]

theorem vals_e4_eq (a0 : Nat) (h0 : a0 < 256) :
    [a0 &&& 15, a0 >>> 4] = vals_e4 a0 := by
  have em : ∀ y, y &&& 15 = y % 16 := fun y => Nat.and_two_pow_sub_one_eq_mod y 4
  have e0 : a0 &&& 15 = (a0 % 16) := by rw [em]; all_goals omega
  have e1 : a0 >>> 4 = (a0 / 16) := by (try simp only [sr]); all_goals omega
  rw [e0, e1]; rfl

theorem chunk_e4 (b : List Byte) (x : Nat) : chunkVal 2 (fun i => vals_e4 (at8 b (1 * i + 0))) x = byteDecode 4 b x := by
  have hv : ∀ i k, k < 2 → chunkVal 2 (fun i => vals_e4 (at8 b (1 * i + 0))) (2 * i + k) = byteDecode 4 b (2 * i + k) := by
    intro i k hk
    have a0 := at8_lt b (1 * i + 0)
    refine chunk_decode (n := 2) (m := 1) (by decide) (by decide) (by decide) b _ i ?_ ?_ k hk
    · intro k hk
      rw [chunkVal_at 2 _ i k hk]
      have : k = 0 ∨ k = 1 := by omega
      rcases this with rfl | rfl <;> simp only [vals_e4, List.getD_cons_zero, List.getD_cons_succ] <;> omega
    · have hc := fun k (hk : k < 2) => chunkVal_at 2 (fun i => vals_e4 (at8 b (1 * i + 0))) i k hk
      have c0 := hc 0 (by decide)
      have c1 := hc 1 (by decide)
      simp only [sumDigits, Nat.reduceAdd, c0, c1]
      simp only [vals_e4, List.getD_cons_zero, List.getD_cons_succ]
      exact dec_e4 (by omega)
  have hx := hv (x / 2) (x % 2) (Nat.mod_lt _ (by decide))
  rwa [Nat.div_add_mod] at hx

theorem enc_t1 {p0_0 p0_8 p1_0 p1_6 p2_0 p2_4 p3_0 p3_2 t0 t1 t2 t3 : Nat} (h0 : t0 = p0_0 + 256 * p0_8) (h1 : t1 = p1_0 + 64 * p1_6) (h2 : t2 = p2_0 + 16 * p2_4) (h3 : t3 = p3_0 + 4 * p3_2) :
    p0_0 + 2 ^ 8 * (p0_8 + 4 * p1_0 + 2 ^ 8 * (p1_6 + 16 * p2_0 + 2 ^ 8 * (p2_4 + 64 * p3_0 + 2 ^ 8 * (p3_2 + 2 ^ 8 * 0)))) =
    t0 + 2 ^ 10 * (t1 + 2 ^ 10 * (t2 + 2 ^ 10 * (t3 + 2 ^ 10 * 0))) := by
  subst h0 h1 h2 h3
  simp only [Nat.mul_add, ← Nat.mul_assoc, Nat.reducePow, Nat.reduceMul, Nat.mul_zero, Nat.add_zero]
  all_goals omega

theorem dec_t1 {p0_0 p0_8 p1_0 p1_6 p2_0 p2_4 p3_0 p3_2 a0 a1 a2 a3 a4 : Nat} (h0 : a0 = p0_0) (h1 : a1 = p0_8 + 4 * p1_0) (h2 : a2 = p1_6 + 16 * p2_0) (h3 : a3 = p2_4 + 64 * p3_0) (h4 : a4 = p3_2) :
    p0_0 + 256 * p0_8 + 2 ^ 10 * (p1_0 + 64 * p1_6 + 2 ^ 10 * (p2_0 + 16 * p2_4 + 2 ^ 10 * (p3_0 + 4 * p3_2 + 2 ^ 10 * 0))) =
    a0 + 2 ^ 8 * (a1 + 2 ^ 8 * (a2 + 2 ^ 8 * (a3 + 2 ^ 8 * (a4 + 2 ^ 8 * 0)))) := by
  subst h0 h1 h2 h3 h4
  simp only [Nat.mul_add, ← Nat.mul_assoc, Nat.reducePow, Nat.reduceMul, Nat.mul_zero, Nat.add_zero]
  all_goals omega

/-- The bytes of one chunk. -/
theorem bytes_t1 (t0 t1 t2 t3 : Nat) (h0 : t0 < 1024) (h1 : t1 < 1024) (h2 : t2 < 1024) (h3 : t3 < 1024) :
    sumDigits 8 (fun k => at8 [b8 (t0 >>> 0), b8 (t0 >>> 8 ||| t1 <<< 2), b8 (t1 >>> 6 ||| t2 <<< 4), b8 (t2 >>> 4 ||| t3 <<< 6), b8 (t3 >>> 2)] k) 5 =
    t0 + 2 ^ 10 * (t1 + 2 ^ 10 * (t2 + 2 ^ 10 * (t3 + 2 ^ 10 * 0))) := by
  have e0 : (b8 (t0 >>> 0)).toNat = (t0 % 256) := by rw [b8_toNat]; (try simp only [sr]); all_goals omega
  have e1 : (b8 (t0 >>> 8 ||| t1 <<< 2)).toNat = (t0 / 256) + 4 * (t1 % 64) := by rw [b8_toNat]; (try simp only [sr]); rw [orA 2 (by omega)]; all_goals omega
  have e2 : (b8 (t1 >>> 6 ||| t2 <<< 4)).toNat = (t1 / 64) + 16 * (t2 % 16) := by rw [b8_toNat]; (try simp only [sr]); rw [orA 4 (by omega)]; all_goals omega
  have e3 : (b8 (t2 >>> 4 ||| t3 <<< 6)).toNat = (t2 / 16) + 64 * (t3 % 4) := by rw [b8_toNat]; (try simp only [sr]); rw [orA 6 (by omega)]; all_goals omega
  have e4 : (b8 (t3 >>> 2)).toNat = (t3 / 4) := by rw [b8_toNat]; (try simp only [sr]); all_goals omega
  simp only [sumDigits, at8, List.getD_cons_zero, List.getD_cons_succ, Nat.reduceAdd, e0, e1, e2, e3, e4]
  exact enc_t1 (by omega) (by omega) (by omega) (by omega)

/-- The values of one chunk. -/
def vals_t1 (a0 a1 a2 a3 a4 : Nat) : List Nat := [a0 + 256 * (a1 % 4), (a1 / 4) + 64 * (a2 % 16), (a2 / 16) + 16 * (a3 % 64), (a3 / 64) + 4 * a4]

theorem vals_t1_eq (a0 a1 a2 a3 a4 : Nat) (h0 : a0 < 256) (h1 : a1 < 256) (h2 : a2 < 256) (h3 : a3 < 256) (h4 : a4 < 256) :
    [(a0 >>> 0 ||| a1 <<< 8) &&& 1023, (a1 >>> 2 ||| a2 <<< 6) &&& 1023, (a2 >>> 4 ||| a3 <<< 4) &&& 1023, (a3 >>> 6 ||| a4 <<< 2) &&& 1023] = vals_t1 a0 a1 a2 a3 a4 := by
  have em : ∀ y, y &&& 1023 = y % 1024 := fun y => Nat.and_two_pow_sub_one_eq_mod y 10
  have e0 : (a0 >>> 0 ||| a1 <<< 8) &&& 1023 = a0 + 256 * (a1 % 4) := by rw [em]; (try simp only [sr]); rw [orA 8 (by omega)]; all_goals omega
  have e1 : (a1 >>> 2 ||| a2 <<< 6) &&& 1023 = (a1 / 4) + 64 * (a2 % 16) := by rw [em]; (try simp only [sr]); rw [orA 6 (by omega)]; all_goals omega
  have e2 : (a2 >>> 4 ||| a3 <<< 4) &&& 1023 = (a2 / 16) + 16 * (a3 % 64) := by rw [em]; (try simp only [sr]); rw [orA 4 (by omega)]; all_goals omega
  have e3 : (a3 >>> 6 ||| a4 <<< 2) &&& 1023 = (a3 / 64) + 4 * a4 := by rw [em]; (try simp only [sr]); rw [orA 2 (by omega)]; all_goals omega
  rw [e0, e1, e2, e3]; rfl

theorem chunk_t1 (b : List Byte) (x : Nat) : chunkVal 4 (fun i => vals_t1 (at8 b (5 * i + 0)) (at8 b (5 * i + 1)) (at8 b (5 * i + 2)) (at8 b (5 * i + 3)) (at8 b (5 * i + 4))) x = byteDecode 10 b x := by
  have hv : ∀ i k, k < 4 → chunkVal 4 (fun i => vals_t1 (at8 b (5 * i + 0)) (at8 b (5 * i + 1)) (at8 b (5 * i + 2)) (at8 b (5 * i + 3)) (at8 b (5 * i + 4))) (4 * i + k) = byteDecode 10 b (4 * i + k) := by
    intro i k hk
    have a0 := at8_lt b (5 * i + 0)
    have a1 := at8_lt b (5 * i + 1)
    have a2 := at8_lt b (5 * i + 2)
    have a3 := at8_lt b (5 * i + 3)
    have a4 := at8_lt b (5 * i + 4)
    refine chunk_decode (n := 4) (m := 5) (by decide) (by decide) (by decide) b _ i ?_ ?_ k hk
    · intro k hk
      rw [chunkVal_at 4 _ i k hk]
      have : k = 0 ∨ k = 1 ∨ k = 2 ∨ k = 3 := by omega
      rcases this with rfl | rfl | rfl | rfl <;> simp only [vals_t1, List.getD_cons_zero, List.getD_cons_succ] <;> omega
    · have hc := fun k (hk : k < 4) => chunkVal_at 4 (fun i => vals_t1 (at8 b (5 * i + 0)) (at8 b (5 * i + 1)) (at8 b (5 * i + 2)) (at8 b (5 * i + 3)) (at8 b (5 * i + 4))) i k hk
      have c0 := hc 0 (by decide)
      have c1 := hc 1 (by decide)
      have c2 := hc 2 (by decide)
      have c3 := hc 3 (by decide)
      simp only [sumDigits, Nat.reduceAdd, c0, c1, c2, c3]
      simp only [vals_t1, List.getD_cons_zero, List.getD_cons_succ]
      exact dec_t1 (by omega) (by omega) (by omega) (by omega) (by omega)
  have hx := hv (x / 4) (x % 4) (Nat.mod_lt _ (by decide))
  rwa [Nat.div_add_mod] at hx

theorem enc_t0 {p0_0 p0_8 p1_0 p1_3 p1_11 p2_0 p2_6 p3_0 p3_1 p3_9 p4_0 p4_4 p4_12 p5_0 p5_7 p6_0 p6_2 p6_10 p7_0 p7_5 t0 t1 t2 t3 t4 t5 t6 t7 : Nat} (h0 : t0 = p0_0 + 256 * p0_8) (h1 : t1 = p1_0 + 8 * p1_3 + 2048 * p1_11) (h2 : t2 = p2_0 + 64 * p2_6) (h3 : t3 = p3_0 + 2 * p3_1 + 512 * p3_9) (h4 : t4 = p4_0 + 16 * p4_4 + 4096 * p4_12) (h5 : t5 = p5_0 + 128 * p5_7) (h6 : t6 = p6_0 + 4 * p6_2 + 1024 * p6_10) (h7 : t7 = p7_0 + 32 * p7_5) :
    p0_0 + 2 ^ 8 * (p0_8 + 32 * p1_0 + 2 ^ 8 * (p1_3 + 2 ^ 8 * (p1_11 + 4 * p2_0 + 2 ^ 8 * (p2_6 + 128 * p3_0 + 2 ^ 8 * (p3_1 + 2 ^ 8 * (p3_9 + 16 * p4_0 + 2 ^ 8 * (p4_4 + 2 ^ 8 * (p4_12 + 2 * p5_0 + 2 ^ 8 * (p5_7 + 64 * p6_0 + 2 ^ 8 * (p6_2 + 2 ^ 8 * (p6_10 + 8 * p7_0 + 2 ^ 8 * (p7_5 + 2 ^ 8 * 0)))))))))))) =
    t0 + 2 ^ 13 * (t1 + 2 ^ 13 * (t2 + 2 ^ 13 * (t3 + 2 ^ 13 * (t4 + 2 ^ 13 * (t5 + 2 ^ 13 * (t6 + 2 ^ 13 * (t7 + 2 ^ 13 * 0))))))) := by
  subst h0 h1 h2 h3 h4 h5 h6 h7
  simp only [Nat.mul_add, ← Nat.mul_assoc, Nat.reducePow, Nat.reduceMul, Nat.mul_zero, Nat.add_zero]
  all_goals omega

theorem dec_t0 {p0_0 p0_8 p1_0 p1_3 p1_11 p2_0 p2_6 p3_0 p3_1 p3_9 p4_0 p4_4 p4_12 p5_0 p5_7 p6_0 p6_2 p6_10 p7_0 p7_5 a0 a1 a2 a3 a4 a5 a6 a7 a8 a9 a10 a11 a12 : Nat} (h0 : a0 = p0_0) (h1 : a1 = p0_8 + 32 * p1_0) (h2 : a2 = p1_3) (h3 : a3 = p1_11 + 4 * p2_0) (h4 : a4 = p2_6 + 128 * p3_0) (h5 : a5 = p3_1) (h6 : a6 = p3_9 + 16 * p4_0) (h7 : a7 = p4_4) (h8 : a8 = p4_12 + 2 * p5_0) (h9 : a9 = p5_7 + 64 * p6_0) (h10 : a10 = p6_2) (h11 : a11 = p6_10 + 8 * p7_0) (h12 : a12 = p7_5) :
    p0_0 + 256 * p0_8 + 2 ^ 13 * (p1_0 + 8 * p1_3 + 2048 * p1_11 + 2 ^ 13 * (p2_0 + 64 * p2_6 + 2 ^ 13 * (p3_0 + 2 * p3_1 + 512 * p3_9 + 2 ^ 13 * (p4_0 + 16 * p4_4 + 4096 * p4_12 + 2 ^ 13 * (p5_0 + 128 * p5_7 + 2 ^ 13 * (p6_0 + 4 * p6_2 + 1024 * p6_10 + 2 ^ 13 * (p7_0 + 32 * p7_5 + 2 ^ 13 * 0))))))) =
    a0 + 2 ^ 8 * (a1 + 2 ^ 8 * (a2 + 2 ^ 8 * (a3 + 2 ^ 8 * (a4 + 2 ^ 8 * (a5 + 2 ^ 8 * (a6 + 2 ^ 8 * (a7 + 2 ^ 8 * (a8 + 2 ^ 8 * (a9 + 2 ^ 8 * (a10 + 2 ^ 8 * (a11 + 2 ^ 8 * (a12 + 2 ^ 8 * 0)))))))))))) := by
  subst h0 h1 h2 h3 h4 h5 h6 h7 h8 h9 h10 h11 h12
  simp only [Nat.mul_add, ← Nat.mul_assoc, Nat.reducePow, Nat.reduceMul, Nat.mul_zero, Nat.add_zero]
  all_goals omega

/-- The bytes of one chunk. -/
theorem bytes_t0 (t0 t1 t2 t3 t4 t5 t6 t7 : Nat) (h0 : t0 < 8192) (h1 : t1 < 8192) (h2 : t2 < 8192) (h3 : t3 < 8192) (h4 : t4 < 8192) (h5 : t5 < 8192) (h6 : t6 < 8192) (h7 : t7 < 8192) :
    sumDigits 8 (fun k => at8 [b8 t0, b8 (t0 >>> 8) ||| b8 (t1 <<< 5), b8 (t1 >>> 3), b8 (t1 >>> 11) ||| b8 (t2 <<< 2), b8 (t2 >>> 6) ||| b8 (t3 <<< 7), b8 (t3 >>> 1), b8 (t3 >>> 9) ||| b8 (t4 <<< 4), b8 (t4 >>> 4), b8 (t4 >>> 12) ||| b8 (t5 <<< 1), b8 (t5 >>> 7) ||| b8 (t6 <<< 6), b8 (t6 >>> 2), b8 (t6 >>> 10) ||| b8 (t7 <<< 3), b8 (t7 >>> 5)] k) 13 =
    t0 + 2 ^ 13 * (t1 + 2 ^ 13 * (t2 + 2 ^ 13 * (t3 + 2 ^ 13 * (t4 + 2 ^ 13 * (t5 + 2 ^ 13 * (t6 + 2 ^ 13 * (t7 + 2 ^ 13 * 0))))))) := by
  have e0 : (b8 t0).toNat = (t0 % 256) := by rw [b8_toNat]; (try simp only [sr]); all_goals omega
  have e1 : (b8 (t0 >>> 8) ||| b8 (t1 <<< 5)).toNat = (t0 / 256) + 32 * (t1 % 8) := by rw [orB 5 (by decide) (by rw [sr]; omega)]; (try simp only [sr]); all_goals omega
  have e2 : (b8 (t1 >>> 3)).toNat = (t1 / 8 % 256) := by rw [b8_toNat]; (try simp only [sr]); all_goals omega
  have e3 : (b8 (t1 >>> 11) ||| b8 (t2 <<< 2)).toNat = (t1 / 2048) + 4 * (t2 % 64) := by rw [orB 2 (by decide) (by rw [sr]; omega)]; (try simp only [sr]); all_goals omega
  have e4 : (b8 (t2 >>> 6) ||| b8 (t3 <<< 7)).toNat = (t2 / 64) + 128 * (t3 % 2) := by rw [orB 7 (by decide) (by rw [sr]; omega)]; (try simp only [sr]); all_goals omega
  have e5 : (b8 (t3 >>> 1)).toNat = (t3 / 2 % 256) := by rw [b8_toNat]; (try simp only [sr]); all_goals omega
  have e6 : (b8 (t3 >>> 9) ||| b8 (t4 <<< 4)).toNat = (t3 / 512) + 16 * (t4 % 16) := by rw [orB 4 (by decide) (by rw [sr]; omega)]; (try simp only [sr]); all_goals omega
  have e7 : (b8 (t4 >>> 4)).toNat = (t4 / 16 % 256) := by rw [b8_toNat]; (try simp only [sr]); all_goals omega
  have e8 : (b8 (t4 >>> 12) ||| b8 (t5 <<< 1)).toNat = (t4 / 4096) + 2 * (t5 % 128) := by rw [orB 1 (by decide) (by rw [sr]; omega)]; (try simp only [sr]); all_goals omega
  have e9 : (b8 (t5 >>> 7) ||| b8 (t6 <<< 6)).toNat = (t5 / 128) + 64 * (t6 % 4) := by rw [orB 6 (by decide) (by rw [sr]; omega)]; (try simp only [sr]); all_goals omega
  have e10 : (b8 (t6 >>> 2)).toNat = (t6 / 4 % 256) := by rw [b8_toNat]; (try simp only [sr]); all_goals omega
  have e11 : (b8 (t6 >>> 10) ||| b8 (t7 <<< 3)).toNat = (t6 / 1024) + 8 * (t7 % 32) := by rw [orB 3 (by decide) (by rw [sr]; omega)]; (try simp only [sr]); all_goals omega
  have e12 : (b8 (t7 >>> 5)).toNat = (t7 / 32) := by rw [b8_toNat]; (try simp only [sr]); all_goals omega
  simp only [sumDigits, at8, List.getD_cons_zero, List.getD_cons_succ, Nat.reduceAdd, e0, e1, e2, e3, e4, e5, e6, e7, e8, e9, e10, e11, e12]
  exact enc_t0 (by omega) (by omega) (by omega) (by omega) (by omega) (by omega) (by omega) (by omega)

/-- The values of one chunk. -/
def vals_t0 (a0 a1 a2 a3 a4 a5 a6 a7 a8 a9 a10 a11 a12 : Nat) : List Nat := [a0 + 256 * (a1 % 32), (a1 / 32) + 8 * a2 + 2048 * (a3 % 4), (a3 / 4) + 64 * (a4 % 128), (a4 / 128) + 2 * a5 + 512 * (a6 % 16), (a6 / 16) + 16 * a7 + 4096 * (a8 % 2), (a8 / 2) + 128 * (a9 % 64), (a9 / 64) + 4 * a10 + 1024 * (a11 % 8), (a11 / 8) + 32 * a12]

theorem vals_t0_eq (a0 a1 a2 a3 a4 a5 a6 a7 a8 a9 a10 a11 a12 : Nat) (h0 : a0 < 256) (h1 : a1 < 256) (h2 : a2 < 256) (h3 : a3 < 256) (h4 : a4 < 256) (h5 : a5 < 256) (h6 : a6 < 256) (h7 : a7 < 256) (h8 : a8 < 256) (h9 : a9 < 256) (h10 : a10 < 256) (h11 : a11 < 256) (h12 : a12 < 256) :
    [(a0 ||| a1 <<< 8) &&& 8191, (a1 >>> 5 ||| a2 <<< 3 ||| a3 <<< 11) &&& 8191, (a3 >>> 2 ||| a4 <<< 6) &&& 8191, (a4 >>> 7 ||| a5 <<< 1 ||| a6 <<< 9) &&& 8191, (a6 >>> 4 ||| a7 <<< 4 ||| a8 <<< 12) &&& 8191, (a8 >>> 1 ||| a9 <<< 7) &&& 8191, (a9 >>> 6 ||| a10 <<< 2 ||| a11 <<< 10) &&& 8191, (a11 >>> 3 ||| a12 <<< 5) &&& 8191] = vals_t0 a0 a1 a2 a3 a4 a5 a6 a7 a8 a9 a10 a11 a12 := by
  have em : ∀ y, y &&& 8191 = y % 8192 := fun y => Nat.and_two_pow_sub_one_eq_mod y 13
  have e0 : (a0 ||| a1 <<< 8) &&& 8191 = a0 + 256 * (a1 % 32) := by rw [em]; rw [orA 8 (by omega)]; all_goals omega
  have e1 : (a1 >>> 5 ||| a2 <<< 3 ||| a3 <<< 11) &&& 8191 = (a1 / 32) + 8 * a2 + 2048 * (a3 % 4) := by rw [em]; (try simp only [sr]); rw [orA 3 (by omega), orA 11 (by omega)]; all_goals omega
  have e2 : (a3 >>> 2 ||| a4 <<< 6) &&& 8191 = (a3 / 4) + 64 * (a4 % 128) := by rw [em]; (try simp only [sr]); rw [orA 6 (by omega)]; all_goals omega
  have e3 : (a4 >>> 7 ||| a5 <<< 1 ||| a6 <<< 9) &&& 8191 = (a4 / 128) + 2 * a5 + 512 * (a6 % 16) := by rw [em]; (try simp only [sr]); rw [orA 1 (by omega), orA 9 (by omega)]; all_goals omega
  have e4 : (a6 >>> 4 ||| a7 <<< 4 ||| a8 <<< 12) &&& 8191 = (a6 / 16) + 16 * a7 + 4096 * (a8 % 2) := by rw [em]; (try simp only [sr]); rw [orA 4 (by omega), orA 12 (by omega)]; all_goals omega
  have e5 : (a8 >>> 1 ||| a9 <<< 7) &&& 8191 = (a8 / 2) + 128 * (a9 % 64) := by rw [em]; (try simp only [sr]); rw [orA 7 (by omega)]; all_goals omega
  have e6 : (a9 >>> 6 ||| a10 <<< 2 ||| a11 <<< 10) &&& 8191 = (a9 / 64) + 4 * a10 + 1024 * (a11 % 8) := by rw [em]; (try simp only [sr]); rw [orA 2 (by omega), orA 10 (by omega)]; all_goals omega
  have e7 : (a11 >>> 3 ||| a12 <<< 5) &&& 8191 = (a11 / 8) + 32 * a12 := by rw [em]; (try simp only [sr]); rw [orA 5 (by omega)]; all_goals omega
  rw [e0, e1, e2, e3, e4, e5, e6, e7]; rfl

theorem chunk_t0 (b : List Byte) (x : Nat) : chunkVal 8 (fun i => vals_t0 (at8 b (13 * i + 0)) (at8 b (13 * i + 1)) (at8 b (13 * i + 2)) (at8 b (13 * i + 3)) (at8 b (13 * i + 4)) (at8 b (13 * i + 5)) (at8 b (13 * i + 6)) (at8 b (13 * i + 7)) (at8 b (13 * i + 8)) (at8 b (13 * i + 9)) (at8 b (13 * i + 10)) (at8 b (13 * i + 11)) (at8 b (13 * i + 12))) x = byteDecode 13 b x := by
  have hv : ∀ i k, k < 8 → chunkVal 8 (fun i => vals_t0 (at8 b (13 * i + 0)) (at8 b (13 * i + 1)) (at8 b (13 * i + 2)) (at8 b (13 * i + 3)) (at8 b (13 * i + 4)) (at8 b (13 * i + 5)) (at8 b (13 * i + 6)) (at8 b (13 * i + 7)) (at8 b (13 * i + 8)) (at8 b (13 * i + 9)) (at8 b (13 * i + 10)) (at8 b (13 * i + 11)) (at8 b (13 * i + 12))) (8 * i + k) = byteDecode 13 b (8 * i + k) := by
    intro i k hk
    have a0 := at8_lt b (13 * i + 0)
    have a1 := at8_lt b (13 * i + 1)
    have a2 := at8_lt b (13 * i + 2)
    have a3 := at8_lt b (13 * i + 3)
    have a4 := at8_lt b (13 * i + 4)
    have a5 := at8_lt b (13 * i + 5)
    have a6 := at8_lt b (13 * i + 6)
    have a7 := at8_lt b (13 * i + 7)
    have a8 := at8_lt b (13 * i + 8)
    have a9 := at8_lt b (13 * i + 9)
    have a10 := at8_lt b (13 * i + 10)
    have a11 := at8_lt b (13 * i + 11)
    have a12 := at8_lt b (13 * i + 12)
    refine chunk_decode (n := 8) (m := 13) (by decide) (by decide) (by decide) b _ i ?_ ?_ k hk
    · intro k hk
      rw [chunkVal_at 8 _ i k hk]
      have : k = 0 ∨ k = 1 ∨ k = 2 ∨ k = 3 ∨ k = 4 ∨ k = 5 ∨ k = 6 ∨ k = 7 := by omega
      rcases this with rfl | rfl | rfl | rfl | rfl | rfl | rfl | rfl <;> simp only [vals_t0, List.getD_cons_zero, List.getD_cons_succ] <;> omega
    · have hc := fun k (hk : k < 8) => chunkVal_at 8 (fun i => vals_t0 (at8 b (13 * i + 0)) (at8 b (13 * i + 1)) (at8 b (13 * i + 2)) (at8 b (13 * i + 3)) (at8 b (13 * i + 4)) (at8 b (13 * i + 5)) (at8 b (13 * i + 6)) (at8 b (13 * i + 7)) (at8 b (13 * i + 8)) (at8 b (13 * i + 9)) (at8 b (13 * i + 10)) (at8 b (13 * i + 11)) (at8 b (13 * i + 12))) i k hk
      have c0 := hc 0 (by decide)
      have c1 := hc 1 (by decide)
      have c2 := hc 2 (by decide)
      have c3 := hc 3 (by decide)
      have c4 := hc 4 (by decide)
      have c5 := hc 5 (by decide)
      have c6 := hc 6 (by decide)
      have c7 := hc 7 (by decide)
      simp only [sumDigits, Nat.reduceAdd, c0, c1, c2, c3, c4, c5, c6, c7]
      simp only [vals_t0, List.getD_cons_zero, List.getD_cons_succ]
      exact dec_t0 (by omega) (by omega) (by omega) (by omega) (by omega) (by omega) (by omega) (by omega) (by omega) (by omega) (by omega) (by omega) (by omega)
  have hx := hv (x / 8) (x % 8) (Nat.mod_lt _ (by decide))
  rwa [Nat.div_add_mod] at hx

theorem enc_z18 {p0_0 p0_8 p0_16 p1_0 p1_6 p1_14 p2_0 p2_4 p2_12 p3_0 p3_2 p3_10 t0 t1 t2 t3 : Nat} (h0 : t0 = p0_0 + 256 * p0_8 + 65536 * p0_16) (h1 : t1 = p1_0 + 64 * p1_6 + 16384 * p1_14) (h2 : t2 = p2_0 + 16 * p2_4 + 4096 * p2_12) (h3 : t3 = p3_0 + 4 * p3_2 + 1024 * p3_10) :
    p0_0 + 2 ^ 8 * (p0_8 + 2 ^ 8 * (p0_16 + 4 * p1_0 + 2 ^ 8 * (p1_6 + 2 ^ 8 * (p1_14 + 16 * p2_0 + 2 ^ 8 * (p2_4 + 2 ^ 8 * (p2_12 + 64 * p3_0 + 2 ^ 8 * (p3_2 + 2 ^ 8 * (p3_10 + 2 ^ 8 * 0)))))))) =
    t0 + 2 ^ 18 * (t1 + 2 ^ 18 * (t2 + 2 ^ 18 * (t3 + 2 ^ 18 * 0))) := by
  subst h0 h1 h2 h3
  simp only [Nat.mul_add, ← Nat.mul_assoc, Nat.reducePow, Nat.reduceMul, Nat.mul_zero, Nat.add_zero]
  all_goals omega

theorem dec_z18 {p0_0 p0_8 p0_16 p1_0 p1_6 p1_14 p2_0 p2_4 p2_12 p3_0 p3_2 p3_10 a0 a1 a2 a3 a4 a5 a6 a7 a8 : Nat} (h0 : a0 = p0_0) (h1 : a1 = p0_8) (h2 : a2 = p0_16 + 4 * p1_0) (h3 : a3 = p1_6) (h4 : a4 = p1_14 + 16 * p2_0) (h5 : a5 = p2_4) (h6 : a6 = p2_12 + 64 * p3_0) (h7 : a7 = p3_2) (h8 : a8 = p3_10) :
    p0_0 + 256 * p0_8 + 65536 * p0_16 + 2 ^ 18 * (p1_0 + 64 * p1_6 + 16384 * p1_14 + 2 ^ 18 * (p2_0 + 16 * p2_4 + 4096 * p2_12 + 2 ^ 18 * (p3_0 + 4 * p3_2 + 1024 * p3_10 + 2 ^ 18 * 0))) =
    a0 + 2 ^ 8 * (a1 + 2 ^ 8 * (a2 + 2 ^ 8 * (a3 + 2 ^ 8 * (a4 + 2 ^ 8 * (a5 + 2 ^ 8 * (a6 + 2 ^ 8 * (a7 + 2 ^ 8 * (a8 + 2 ^ 8 * 0)))))))) := by
  subst h0 h1 h2 h3 h4 h5 h6 h7 h8
  simp only [Nat.mul_add, ← Nat.mul_assoc, Nat.reducePow, Nat.reduceMul, Nat.mul_zero, Nat.add_zero]
  all_goals omega

/-- The bytes of one chunk. -/
theorem bytes_z18 (t0 t1 t2 t3 : Nat) (h0 : t0 < 262144) (h1 : t1 < 262144) (h2 : t2 < 262144) (h3 : t3 < 262144) :
    sumDigits 8 (fun k => at8 [b8 t0, b8 (t0 >>> 8), b8 (t0 >>> 16) ||| b8 (t1 <<< 2), b8 (t1 >>> 6), b8 (t1 >>> 14) ||| b8 (t2 <<< 4), b8 (t2 >>> 4), b8 (t2 >>> 12) ||| b8 (t3 <<< 6), b8 (t3 >>> 2), b8 (t3 >>> 10)] k) 9 =
    t0 + 2 ^ 18 * (t1 + 2 ^ 18 * (t2 + 2 ^ 18 * (t3 + 2 ^ 18 * 0))) := by
  have e0 : (b8 t0).toNat = (t0 % 256) := by rw [b8_toNat]; (try simp only [sr]); all_goals omega
  have e1 : (b8 (t0 >>> 8)).toNat = (t0 / 256 % 256) := by rw [b8_toNat]; (try simp only [sr]); all_goals omega
  have e2 : (b8 (t0 >>> 16) ||| b8 (t1 <<< 2)).toNat = (t0 / 65536) + 4 * (t1 % 64) := by rw [orB 2 (by decide) (by rw [sr]; omega)]; (try simp only [sr]); all_goals omega
  have e3 : (b8 (t1 >>> 6)).toNat = (t1 / 64 % 256) := by rw [b8_toNat]; (try simp only [sr]); all_goals omega
  have e4 : (b8 (t1 >>> 14) ||| b8 (t2 <<< 4)).toNat = (t1 / 16384) + 16 * (t2 % 16) := by rw [orB 4 (by decide) (by rw [sr]; omega)]; (try simp only [sr]); all_goals omega
  have e5 : (b8 (t2 >>> 4)).toNat = (t2 / 16 % 256) := by rw [b8_toNat]; (try simp only [sr]); all_goals omega
  have e6 : (b8 (t2 >>> 12) ||| b8 (t3 <<< 6)).toNat = (t2 / 4096) + 64 * (t3 % 4) := by rw [orB 6 (by decide) (by rw [sr]; omega)]; (try simp only [sr]); all_goals omega
  have e7 : (b8 (t3 >>> 2)).toNat = (t3 / 4 % 256) := by rw [b8_toNat]; (try simp only [sr]); all_goals omega
  have e8 : (b8 (t3 >>> 10)).toNat = (t3 / 1024) := by rw [b8_toNat]; (try simp only [sr]); all_goals omega
  simp only [sumDigits, at8, List.getD_cons_zero, List.getD_cons_succ, Nat.reduceAdd, e0, e1, e2, e3, e4, e5, e6, e7, e8]
  exact enc_z18 (by omega) (by omega) (by omega) (by omega)

/-- The values of one chunk. -/
def vals_z18 (a0 a1 a2 a3 a4 a5 a6 a7 a8 : Nat) : List Nat := [a0 + 256 * a1 + 65536 * (a2 % 4), (a2 / 4) + 64 * a3 + 16384 * (a4 % 16), (a4 / 16) + 16 * a5 + 4096 * (a6 % 64), (a6 / 64) + 4 * a7 + 1024 * a8]

theorem vals_z18_eq (a0 a1 a2 a3 a4 a5 a6 a7 a8 : Nat) (h0 : a0 < 256) (h1 : a1 < 256) (h2 : a2 < 256) (h3 : a3 < 256) (h4 : a4 < 256) (h5 : a5 < 256) (h6 : a6 < 256) (h7 : a7 < 256) (h8 : a8 < 256) :
    [(a0 ||| a1 <<< 8 ||| a2 <<< 16) &&& 262143, (a2 >>> 2 ||| a3 <<< 6 ||| a4 <<< 14) &&& 262143, (a4 >>> 4 ||| a5 <<< 4 ||| a6 <<< 12) &&& 262143, (a6 >>> 6 ||| a7 <<< 2 ||| a8 <<< 10) &&& 262143] = vals_z18 a0 a1 a2 a3 a4 a5 a6 a7 a8 := by
  have em : ∀ y, y &&& 262143 = y % 262144 := fun y => Nat.and_two_pow_sub_one_eq_mod y 18
  have e0 : (a0 ||| a1 <<< 8 ||| a2 <<< 16) &&& 262143 = a0 + 256 * a1 + 65536 * (a2 % 4) := by rw [em]; rw [orA 8 (by omega), orA 16 (by omega)]; all_goals omega
  have e1 : (a2 >>> 2 ||| a3 <<< 6 ||| a4 <<< 14) &&& 262143 = (a2 / 4) + 64 * a3 + 16384 * (a4 % 16) := by rw [em]; (try simp only [sr]); rw [orA 6 (by omega), orA 14 (by omega)]; all_goals omega
  have e2 : (a4 >>> 4 ||| a5 <<< 4 ||| a6 <<< 12) &&& 262143 = (a4 / 16) + 16 * a5 + 4096 * (a6 % 64) := by rw [em]; (try simp only [sr]); rw [orA 4 (by omega), orA 12 (by omega)]; all_goals omega
  have e3 : (a6 >>> 6 ||| a7 <<< 2 ||| a8 <<< 10) &&& 262143 = (a6 / 64) + 4 * a7 + 1024 * a8 := by rw [em]; (try simp only [sr]); rw [orA 2 (by omega), orA 10 (by omega)]; all_goals omega
  rw [e0, e1, e2, e3]; rfl

theorem chunk_z18 (b : List Byte) (x : Nat) : chunkVal 4 (fun i => vals_z18 (at8 b (9 * i + 0)) (at8 b (9 * i + 1)) (at8 b (9 * i + 2)) (at8 b (9 * i + 3)) (at8 b (9 * i + 4)) (at8 b (9 * i + 5)) (at8 b (9 * i + 6)) (at8 b (9 * i + 7)) (at8 b (9 * i + 8))) x = byteDecode 18 b x := by
  have hv : ∀ i k, k < 4 → chunkVal 4 (fun i => vals_z18 (at8 b (9 * i + 0)) (at8 b (9 * i + 1)) (at8 b (9 * i + 2)) (at8 b (9 * i + 3)) (at8 b (9 * i + 4)) (at8 b (9 * i + 5)) (at8 b (9 * i + 6)) (at8 b (9 * i + 7)) (at8 b (9 * i + 8))) (4 * i + k) = byteDecode 18 b (4 * i + k) := by
    intro i k hk
    have a0 := at8_lt b (9 * i + 0)
    have a1 := at8_lt b (9 * i + 1)
    have a2 := at8_lt b (9 * i + 2)
    have a3 := at8_lt b (9 * i + 3)
    have a4 := at8_lt b (9 * i + 4)
    have a5 := at8_lt b (9 * i + 5)
    have a6 := at8_lt b (9 * i + 6)
    have a7 := at8_lt b (9 * i + 7)
    have a8 := at8_lt b (9 * i + 8)
    refine chunk_decode (n := 4) (m := 9) (by decide) (by decide) (by decide) b _ i ?_ ?_ k hk
    · intro k hk
      rw [chunkVal_at 4 _ i k hk]
      have : k = 0 ∨ k = 1 ∨ k = 2 ∨ k = 3 := by omega
      rcases this with rfl | rfl | rfl | rfl <;> simp only [vals_z18, List.getD_cons_zero, List.getD_cons_succ] <;> omega
    · have hc := fun k (hk : k < 4) => chunkVal_at 4 (fun i => vals_z18 (at8 b (9 * i + 0)) (at8 b (9 * i + 1)) (at8 b (9 * i + 2)) (at8 b (9 * i + 3)) (at8 b (9 * i + 4)) (at8 b (9 * i + 5)) (at8 b (9 * i + 6)) (at8 b (9 * i + 7)) (at8 b (9 * i + 8))) i k hk
      have c0 := hc 0 (by decide)
      have c1 := hc 1 (by decide)
      have c2 := hc 2 (by decide)
      have c3 := hc 3 (by decide)
      simp only [sumDigits, Nat.reduceAdd, c0, c1, c2, c3]
      simp only [vals_z18, List.getD_cons_zero, List.getD_cons_succ]
      exact dec_z18 (by omega) (by omega) (by omega) (by omega) (by omega) (by omega) (by omega) (by omega) (by omega)
  have hx := hv (x / 4) (x % 4) (Nat.mod_lt _ (by decide))
  rwa [Nat.div_add_mod] at hx

theorem enc_z20 {p0_0 p0_8 p0_16 p1_0 p1_4 p1_12 t0 t1 : Nat} (h0 : t0 = p0_0 + 256 * p0_8 + 65536 * p0_16) (h1 : t1 = p1_0 + 16 * p1_4 + 4096 * p1_12) :
    p0_0 + 2 ^ 8 * (p0_8 + 2 ^ 8 * (p0_16 + 16 * p1_0 + 2 ^ 8 * (p1_4 + 2 ^ 8 * (p1_12 + 2 ^ 8 * 0)))) =
    t0 + 2 ^ 20 * (t1 + 2 ^ 20 * 0) := by
  subst h0 h1
  simp only [Nat.mul_add, ← Nat.mul_assoc, Nat.reducePow, Nat.reduceMul, Nat.mul_zero, Nat.add_zero]
  all_goals omega

theorem dec_z20 {p0_0 p0_8 p0_16 p1_0 p1_4 p1_12 a0 a1 a2 a3 a4 : Nat} (h0 : a0 = p0_0) (h1 : a1 = p0_8) (h2 : a2 = p0_16 + 16 * p1_0) (h3 : a3 = p1_4) (h4 : a4 = p1_12) :
    p0_0 + 256 * p0_8 + 65536 * p0_16 + 2 ^ 20 * (p1_0 + 16 * p1_4 + 4096 * p1_12 + 2 ^ 20 * 0) =
    a0 + 2 ^ 8 * (a1 + 2 ^ 8 * (a2 + 2 ^ 8 * (a3 + 2 ^ 8 * (a4 + 2 ^ 8 * 0)))) := by
  subst h0 h1 h2 h3 h4
  simp only [Nat.mul_add, ← Nat.mul_assoc, Nat.reducePow, Nat.reduceMul, Nat.mul_zero, Nat.add_zero]
  all_goals omega

/-- The bytes of one chunk. -/
theorem bytes_z20 (t0 t1 : Nat) (h0 : t0 < 1048576) (h1 : t1 < 1048576) :
    sumDigits 8 (fun k => at8 [b8 t0, b8 (t0 >>> 8), b8 (t0 >>> 16) ||| b8 (t1 <<< 4), b8 (t1 >>> 4), b8 (t1 >>> 12)] k) 5 =
    t0 + 2 ^ 20 * (t1 + 2 ^ 20 * 0) := by
  have e0 : (b8 t0).toNat = (t0 % 256) := by rw [b8_toNat]; (try simp only [sr]); all_goals omega
  have e1 : (b8 (t0 >>> 8)).toNat = (t0 / 256 % 256) := by rw [b8_toNat]; (try simp only [sr]); all_goals omega
  have e2 : (b8 (t0 >>> 16) ||| b8 (t1 <<< 4)).toNat = (t0 / 65536) + 16 * (t1 % 16) := by rw [orB 4 (by decide) (by rw [sr]; omega)]; (try simp only [sr]); all_goals omega
  have e3 : (b8 (t1 >>> 4)).toNat = (t1 / 16 % 256) := by rw [b8_toNat]; (try simp only [sr]); all_goals omega
  have e4 : (b8 (t1 >>> 12)).toNat = (t1 / 4096) := by rw [b8_toNat]; (try simp only [sr]); all_goals omega
  simp only [sumDigits, at8, List.getD_cons_zero, List.getD_cons_succ, Nat.reduceAdd, e0, e1, e2, e3, e4]
  exact enc_z20 (by omega) (by omega)

/-- The values of one chunk. -/
def vals_z20 (a0 a1 a2 a3 a4 : Nat) : List Nat := [a0 + 256 * a1 + 65536 * (a2 % 16), (a2 / 16) + 16 * a3 + 4096 * a4]

theorem vals_z20_eq (a0 a1 a2 a3 a4 : Nat) (h0 : a0 < 256) (h1 : a1 < 256) (h2 : a2 < 256) (h3 : a3 < 256) (h4 : a4 < 256) :
    [(a0 ||| a1 <<< 8 ||| a2 <<< 16) &&& 1048575, (a2 >>> 4 ||| a3 <<< 4 ||| a4 <<< 12) &&& 1048575] = vals_z20 a0 a1 a2 a3 a4 := by
  have em : ∀ y, y &&& 1048575 = y % 1048576 := fun y => Nat.and_two_pow_sub_one_eq_mod y 20
  have e0 : (a0 ||| a1 <<< 8 ||| a2 <<< 16) &&& 1048575 = a0 + 256 * a1 + 65536 * (a2 % 16) := by rw [em]; rw [orA 8 (by omega), orA 16 (by omega)]; all_goals omega
  have e1 : (a2 >>> 4 ||| a3 <<< 4 ||| a4 <<< 12) &&& 1048575 = (a2 / 16) + 16 * a3 + 4096 * a4 := by rw [em]; (try simp only [sr]); rw [orA 4 (by omega), orA 12 (by omega)]; all_goals omega
  rw [e0, e1]; rfl

theorem chunk_z20 (b : List Byte) (x : Nat) : chunkVal 2 (fun i => vals_z20 (at8 b (5 * i + 0)) (at8 b (5 * i + 1)) (at8 b (5 * i + 2)) (at8 b (5 * i + 3)) (at8 b (5 * i + 4))) x = byteDecode 20 b x := by
  have hv : ∀ i k, k < 2 → chunkVal 2 (fun i => vals_z20 (at8 b (5 * i + 0)) (at8 b (5 * i + 1)) (at8 b (5 * i + 2)) (at8 b (5 * i + 3)) (at8 b (5 * i + 4))) (2 * i + k) = byteDecode 20 b (2 * i + k) := by
    intro i k hk
    have a0 := at8_lt b (5 * i + 0)
    have a1 := at8_lt b (5 * i + 1)
    have a2 := at8_lt b (5 * i + 2)
    have a3 := at8_lt b (5 * i + 3)
    have a4 := at8_lt b (5 * i + 4)
    refine chunk_decode (n := 2) (m := 5) (by decide) (by decide) (by decide) b _ i ?_ ?_ k hk
    · intro k hk
      rw [chunkVal_at 2 _ i k hk]
      have : k = 0 ∨ k = 1 := by omega
      rcases this with rfl | rfl <;> simp only [vals_z20, List.getD_cons_zero, List.getD_cons_succ] <;> omega
    · have hc := fun k (hk : k < 2) => chunkVal_at 2 (fun i => vals_z20 (at8 b (5 * i + 0)) (at8 b (5 * i + 1)) (at8 b (5 * i + 2)) (at8 b (5 * i + 3)) (at8 b (5 * i + 4))) i k hk
      have c0 := hc 0 (by decide)
      have c1 := hc 1 (by decide)
      simp only [sumDigits, Nat.reduceAdd, c0, c1]
      simp only [vals_z20, List.getD_cons_zero, List.getD_cons_succ]
      exact dec_z20 (by omega) (by omega) (by omega) (by omega) (by omega)
  have hx := hv (x / 2) (x % 2) (Nat.mod_lt _ (by decide))
  rwa [Nat.div_add_mod] at hx

theorem enc_w6 {p0_0 p1_0 p1_2 p2_0 p2_4 p3_0 t0 t1 t2 t3 : Nat} (h0 : t0 = p0_0) (h1 : t1 = p1_0 + 4 * p1_2) (h2 : t2 = p2_0 + 16 * p2_4) (h3 : t3 = p3_0) :
    p0_0 + 64 * p1_0 + 2 ^ 8 * (p1_2 + 16 * p2_0 + 2 ^ 8 * (p2_4 + 4 * p3_0 + 2 ^ 8 * 0)) =
    t0 + 2 ^ 6 * (t1 + 2 ^ 6 * (t2 + 2 ^ 6 * (t3 + 2 ^ 6 * 0))) := by
  subst h0 h1 h2 h3
  simp only [Nat.mul_add, ← Nat.mul_assoc, Nat.reducePow, Nat.reduceMul, Nat.mul_zero, Nat.add_zero]
  all_goals omega

theorem dec_w6 {p0_0 p1_0 p1_2 p2_0 p2_4 p3_0 a0 a1 a2 : Nat} (h0 : a0 = p0_0 + 64 * p1_0) (h1 : a1 = p1_2 + 16 * p2_0) (h2 : a2 = p2_4 + 4 * p3_0) :
    p0_0 + 2 ^ 6 * (p1_0 + 4 * p1_2 + 2 ^ 6 * (p2_0 + 16 * p2_4 + 2 ^ 6 * (p3_0 + 2 ^ 6 * 0))) =
    a0 + 2 ^ 8 * (a1 + 2 ^ 8 * (a2 + 2 ^ 8 * 0)) := by
  subst h0 h1 h2
  simp only [Nat.mul_add, ← Nat.mul_assoc, Nat.reducePow, Nat.reduceMul, Nat.mul_zero, Nat.add_zero]
  all_goals omega

/-- The bytes of one chunk. -/
theorem bytes_w6 (t0 t1 t2 t3 : Nat) (h0 : t0 < 64) (h1 : t1 < 64) (h2 : t2 < 64) (h3 : t3 < 64) :
    sumDigits 8 (fun k => at8 [b8 t0 ||| b8 (t1 <<< 6), b8 (t1 >>> 2) ||| b8 (t2 <<< 4), b8 (t2 >>> 4) ||| b8 (t3 <<< 2)] k) 3 =
    t0 + 2 ^ 6 * (t1 + 2 ^ 6 * (t2 + 2 ^ 6 * (t3 + 2 ^ 6 * 0))) := by
  have e0 : (b8 t0 ||| b8 (t1 <<< 6)).toNat = t0 + 64 * (t1 % 4) := by rw [orB 6 (by decide) (by omega)]; all_goals omega
  have e1 : (b8 (t1 >>> 2) ||| b8 (t2 <<< 4)).toNat = (t1 / 4) + 16 * (t2 % 16) := by rw [orB 4 (by decide) (by rw [sr]; omega)]; (try simp only [sr]); all_goals omega
  have e2 : (b8 (t2 >>> 4) ||| b8 (t3 <<< 2)).toNat = (t2 / 16) + 4 * t3 := by rw [orB 2 (by decide) (by rw [sr]; omega)]; (try simp only [sr]); all_goals omega
  simp only [sumDigits, at8, List.getD_cons_zero, List.getD_cons_succ, Nat.reduceAdd, e0, e1, e2]
  exact enc_w6 (by omega) (by omega) (by omega) (by omega)

/-- The values of one chunk. -/
def vals_w6 (a0 a1 a2 : Nat) : List Nat := [(a0 % 64), (a0 / 64) + 4 * (a1 % 16), (a1 / 16) + 16 * (a2 % 4), (a2 / 4)]

theorem vals_w6_eq (a0 a1 a2 : Nat) (h0 : a0 < 256) (h1 : a1 < 256) (h2 : a2 < 256) :
    [(a0) &&& 63, (a0 >>> 6 ||| a1 <<< 2) &&& 63, (a1 >>> 4 ||| a2 <<< 4) &&& 63, a2 >>> 2] = vals_w6 a0 a1 a2 := by
  have em : ∀ y, y &&& 63 = y % 64 := fun y => Nat.and_two_pow_sub_one_eq_mod y 6
  have e0 : (a0) &&& 63 = (a0 % 64) := by rw [em]; all_goals omega
  have e1 : (a0 >>> 6 ||| a1 <<< 2) &&& 63 = (a0 / 64) + 4 * (a1 % 16) := by rw [em]; (try simp only [sr]); rw [orA 2 (by omega)]; all_goals omega
  have e2 : (a1 >>> 4 ||| a2 <<< 4) &&& 63 = (a1 / 16) + 16 * (a2 % 4) := by rw [em]; (try simp only [sr]); rw [orA 4 (by omega)]; all_goals omega
  have e3 : a2 >>> 2 = (a2 / 4) := by (try simp only [sr]); all_goals omega
  rw [e0, e1, e2, e3]; rfl

theorem chunk_w6 (b : List Byte) (x : Nat) : chunkVal 4 (fun i => vals_w6 (at8 b (3 * i + 0)) (at8 b (3 * i + 1)) (at8 b (3 * i + 2))) x = byteDecode 6 b x := by
  have hv : ∀ i k, k < 4 → chunkVal 4 (fun i => vals_w6 (at8 b (3 * i + 0)) (at8 b (3 * i + 1)) (at8 b (3 * i + 2))) (4 * i + k) = byteDecode 6 b (4 * i + k) := by
    intro i k hk
    have a0 := at8_lt b (3 * i + 0)
    have a1 := at8_lt b (3 * i + 1)
    have a2 := at8_lt b (3 * i + 2)
    refine chunk_decode (n := 4) (m := 3) (by decide) (by decide) (by decide) b _ i ?_ ?_ k hk
    · intro k hk
      rw [chunkVal_at 4 _ i k hk]
      have : k = 0 ∨ k = 1 ∨ k = 2 ∨ k = 3 := by omega
      rcases this with rfl | rfl | rfl | rfl <;> simp only [vals_w6, List.getD_cons_zero, List.getD_cons_succ] <;> omega
    · have hc := fun k (hk : k < 4) => chunkVal_at 4 (fun i => vals_w6 (at8 b (3 * i + 0)) (at8 b (3 * i + 1)) (at8 b (3 * i + 2))) i k hk
      have c0 := hc 0 (by decide)
      have c1 := hc 1 (by decide)
      have c2 := hc 2 (by decide)
      have c3 := hc 3 (by decide)
      simp only [sumDigits, Nat.reduceAdd, c0, c1, c2, c3]
      simp only [vals_w6, List.getD_cons_zero, List.getD_cons_succ]
      exact dec_w6 (by omega) (by omega) (by omega)
  have hx := hv (x / 4) (x % 4) (Nat.mod_lt _ (by decide))
  rwa [Nat.div_add_mod] at hx

end LC.Dilithium
