import Verif.Curve.ScalarIO
/-!
# Arithmetic modulo the group order: the properties (C75)
-/
namespace LC.Curve.Sc

/-! ### The product -/

theorem rows_le : ∀ r ∈ rows, r.2 ≤ 12 := by decide

/-- The 24 limbs of the product. -/
def prodList (a b c : List Int) : List Int :=
  (rows.zipIdx 0).map (fun r => get c r.2 + rowSum a b r.2 r.1.1 r.1.2) ++ [0]

theorem prodList_get (a b c : List Int) (n : Nat) (hn : n < 23) :
    ∃ i k, rows[n]? = some (i, k) ∧ get (prodList a b c) n = get c n + rowSum a b n i k := by
  have : n < rows.length := hn
  refine ⟨rows[n].1, rows[n].2, by simp [this], ?_⟩
  unfold get prodList
  rw [List.getD_eq_getElem?_getD, List.getElem?_append_left (by rw [List.length_map, List.length_zipIdx]; exact this),
    List.getElem?_map, List.getElem?_zipIdx, List.getElem?_eq_getElem this]
  simp only [Option.map_some, Option.getD_some, Nat.zero_add]
  rfl

theorem prodList_val (a b c : List Int) (hc : ∀ n, 12 ≤ n → get c n = 0) :
    vl (prodList a b c) 24 = vl a 12 * vl b 12 + vl c 12 := by
  have h : ∀ n, 12 ≤ n → get c n = 0 := hc
  have e : vl (prodList a b c) 24 = vl (prodList a b c) 23 + 0 * 2 ^ (21 * 23) := rfl
  rw [e]
  have e0 : prodList a b c = [get c 0 + rowSum a b 0 0 1, get c 1 + rowSum a b 1 0 2, get c 2 + rowSum a b 2 0 3,
    get c 3 + rowSum a b 3 0 4, get c 4 + rowSum a b 4 0 5, get c 5 + rowSum a b 5 0 6, get c 6 + rowSum a b 6 0 7,
    get c 7 + rowSum a b 7 0 8, get c 8 + rowSum a b 8 0 9, get c 9 + rowSum a b 9 0 10, get c 10 + rowSum a b 10 0 11,
    get c 11 + rowSum a b 11 0 12, get c 12 + rowSum a b 12 1 11, get c 13 + rowSum a b 13 2 10, get c 14 + rowSum a b 14 3 9,
    get c 15 + rowSum a b 15 4 8, get c 16 + rowSum a b 16 5 7, get c 17 + rowSum a b 17 6 6, get c 18 + rowSum a b 18 7 5,
    get c 19 + rowSum a b 19 8 4, get c 20 + rowSum a b 20 9 3, get c 21 + rowSum a b 21 10 2, get c 22 + rowSum a b 22 11 1, 0] := rfl
  rw [e0, h 12 (by omega), h 13 (by omega), h 14 (by omega), h 15 (by omega), h 16 (by omega), h 17 (by omega), h 18 (by omega),
    h 19 (by omega), h 20 (by omega), h 21 (by omega), h 22 (by omega)]
  clear e e0 h hc
  simp only [rowSum, vl]
  simp only [show ∀ (x : Int) (xs : List Int), get (x :: xs) 0 = x from fun _ _ => rfl,
    show ∀ (x : Int) (xs : List Int) (n : Nat), get (x :: xs) (n + 1) = get xs n from fun _ _ _ => rfl, Nat.reduceAdd, Nat.reduceSub]
  generalize get a 0 = a0, get a 1 = a1, get a 2 = a2, get a 3 = a3, get a 4 = a4, get a 5 = a5, get a 6 = a6, get a 7 = a7,
    get a 8 = a8, get a 9 = a9, get a 10 = a10, get a 11 = a11
  generalize get b 0 = b0, get b 1 = b1, get b 2 = b2, get b 3 = b3, get b 4 = b4, get b 5 = b5, get b 6 = b6, get b 7 = b7,
    get b 8 = b8, get b 9 = b9, get b 10 = b10, get b 11 = b11
  simp only [pow_mul]
  generalize (2 : Int) ^ 21 = X
  ring

theorem prodList_in (a b c : List Int) (ha : ∀ i, 0 ≤ get a i ∧ get a i < 33554432)
    (hb : ∀ i, 0 ≤ get b i ∧ get b i < 33554432) (hc : ∀ i, 0 ≤ get c i ∧ get c i < 33554432)
    (hc0 : ∀ n, 12 ≤ n → get c n = 0) : In (prodList a b c) ivMul := by
  refine ⟨rfl, rfl, fun n => ?_⟩
  by_cases hn : n < 23
  · obtain ⟨i, k, hr, e⟩ := prodList_get a b c n hn
    rw [e]
    have hk : k ≤ 12 := rows_le (i, k) (List.mem_of_getElem? hr)
    obtain ⟨r1, r2, r3⟩ := row_eq a b n ha hb k i 0 hk (Int.le_refl _) (by
      have : (k : Int) ≤ 12 := by exact_mod_cast hk
      omega)
    have h1 := hc n
    have hk' : (k : Int) ≤ 12 := by exact_mod_cast hk
    by_cases h22 : n < 22
    · have : ∀ n, n < 22 → geti ivMul n = (0, 13510798915665920) := by decide
      have := this n h22
      rw [this]
      dsimp only
      omega
    · have : n = 22 := by omega
      subst this
      have hk1 : k = 1 := by
        have : rows[22]? = some (11, 1) := rfl
        rw [this] at hr
        exact (Prod.mk.inj (Option.some.inj hr)).2.symm
      have : geti ivMul 22 = (0, 1125899906842624) := rfl
      rw [this, hc0 22 (by omega)]
      subst hk1
      dsimp only
      omega
  · by_cases h2 : n = 23
    · subst h2
      have e1 : get (prodList a b c) 23 = 0 := rfl
      have e2 : geti ivMul 23 = (0, 0) := rfl
      rw [e1, e2]; decide
    · have e1 : get (prodList a b c) n = 0 := getD_ge _ _ (by show 24 ≤ n; omega)
      have e2 : geti ivMul n = (0, 0) := getD_ge _ _ (by show 24 ≤ n; omega)
      rw [e1, e2]; decide

/-! ### Packing -/

theorem b8_toNat (x : Nat) : (b8 x).toNat = x % 256 := by
  unfold b8
  rw [UInt8.toNat_ofNat', Nat.mod_mod]

theorem or_byte {a b k : Nat} (ha : a < 2 ^ k) : (a ||| b <<< k) % 256 = (a + b * 2 ^ k) % 256 := by rw [or_shift ha]

theorem pack_spec (s : List Int) (h : ∀ j, j < 11 → 0 ≤ get s j ∧ get s j < 2097152) (h11 : 0 ≤ get s 11 ∧ get s 11 ≤ 2097152) :
    (pack s).length = 32 ∧ (leNum (pack s) : Int) = vl s 12 := by
  refine ⟨rfl, ?_⟩
  have g : ∀ j, j < 12 → ∃ x : Nat, get s j = x ∧ x < 2097153 := fun j hj => by
    by_cases hc : j = 11
    · subst hc; exact ⟨(get s 11).toNat, by omega, by omega⟩
    · have := h j (by omega); exact ⟨(get s j).toNat, by omega, by omega⟩
  have hj : ∀ j, j < 11 → (get s j).toNat < 2097152 := fun j hj => by have := h j hj; omega
  obtain ⟨x0, e0, -⟩ := g 0 (by omega)
  obtain ⟨x1, e1, -⟩ := g 1 (by omega)
  obtain ⟨x2, e2, -⟩ := g 2 (by omega)
  obtain ⟨x3, e3, -⟩ := g 3 (by omega)
  obtain ⟨x4, e4, -⟩ := g 4 (by omega)
  obtain ⟨x5, e5, -⟩ := g 5 (by omega)
  obtain ⟨x6, e6, -⟩ := g 6 (by omega)
  obtain ⟨x7, e7, -⟩ := g 7 (by omega)
  obtain ⟨x8, e8, -⟩ := g 8 (by omega)
  obtain ⟨x9, e9, -⟩ := g 9 (by omega)
  obtain ⟨x10, e10, -⟩ := g 10 (by omega)
  obtain ⟨x11, e11, l11⟩ := g 11 (by omega)
  have l0 := hj 0 (by omega)
  have l1 := hj 1 (by omega)
  have l2 := hj 2 (by omega)
  have l3 := hj 3 (by omega)
  have l4 := hj 4 (by omega)
  have l5 := hj 5 (by omega)
  have l6 := hj 6 (by omega)
  have l7 := hj 7 (by omega)
  have l8 := hj 8 (by omega)
  have l9 := hj 9 (by omega)
  have l10 := hj 10 (by omega)
  clear g hj h h11
  simp only [vl]
  unfold pack
  dsimp only
  simp only [leNum, b8_toNat, Nat.shiftRight_eq_div_pow]
  rw [e0] at l0 ⊢
  rw [e1] at l1 ⊢
  rw [e2] at l2 ⊢
  rw [e3] at l3 ⊢
  rw [e4] at l4 ⊢
  rw [e5] at l5 ⊢
  rw [e6] at l6 ⊢
  rw [e7] at l7 ⊢
  rw [e8] at l8 ⊢
  rw [e9] at l9 ⊢
  rw [e10] at l10 ⊢
  rw [e11]
  clear e0 e1 e2 e3 e4 e5 e6 e7 e8 e9 e10 e11
  simp only [Int.toNat_natCast] at *
  rw [or_byte (k := 5) (a := x0 / 2 ^ 16) (by omega), or_byte (k := 2) (a := x1 / 2 ^ 19) (by omega),
    or_byte (k := 7) (a := x2 / 2 ^ 14) (by omega), or_byte (k := 4) (a := x3 / 2 ^ 17) (by omega),
    or_byte (k := 1) (a := x4 / 2 ^ 20) (by omega), or_byte (k := 6) (a := x5 / 2 ^ 15) (by omega),
    or_byte (k := 3) (a := x6 / 2 ^ 18) (by omega), or_byte (k := 5) (a := x8 / 2 ^ 16) (by omega),
    or_byte (k := 2) (a := x9 / 2 ^ 19) (by omega), or_byte (k := 7) (a := x10 / 2 ^ 14) (by omega)]
  have m2 : (x0 / 2 ^ 16 + x1 * 2 ^ 5) % 256 = x0 / 65536 + 32 * (x1 % 8) := by omega
  have m5 : (x1 / 2 ^ 19 + x2 * 2 ^ 2) % 256 = x1 / 524288 + 4 * (x2 % 64) := by omega
  have m7 : (x2 / 2 ^ 14 + x3 * 2 ^ 7) % 256 = x2 / 16384 + 128 * (x3 % 2) := by omega
  have m10 : (x3 / 2 ^ 17 + x4 * 2 ^ 4) % 256 = x3 / 131072 + 16 * (x4 % 16) := by omega
  have m13 : (x4 / 2 ^ 20 + x5 * 2 ^ 1) % 256 = x4 / 1048576 + 2 * (x5 % 128) := by omega
  have m15 : (x5 / 2 ^ 15 + x6 * 2 ^ 6) % 256 = x5 / 32768 + 64 * (x6 % 4) := by omega
  have m18 : (x6 / 2 ^ 18 + x7 * 2 ^ 3) % 256 = x6 / 262144 + 8 * (x7 % 32) := by omega
  have m23 : (x8 / 2 ^ 16 + x9 * 2 ^ 5) % 256 = x8 / 65536 + 32 * (x9 % 8) := by omega
  have m26 : (x9 / 2 ^ 19 + x10 * 2 ^ 2) % 256 = x9 / 524288 + 4 * (x10 % 64) := by omega
  have m28 : (x10 / 2 ^ 14 + x11 * 2 ^ 7) % 256 = x10 / 16384 + 128 * (x11 % 2) := by omega
  rw [m2, m5, m7, m10, m13, m15, m18, m23, m26, m28]
  clear m2 m5 m7 m10 m13 m15 m18 m23 m26 m28
  have k0 : x0 = x0 % 256 + 256 * (x0 / 2 ^ 8 % 256) + 65536 * (x0 / 65536) := by omega
  have k1 : x1 = x1 % 8 + 8 * (x1 / 2 ^ 3 % 256) + 2048 * (x1 / 2 ^ 11 % 256) + 524288 * (x1 / 524288) := by omega
  have k2 : x2 = x2 % 64 + 64 * (x2 / 2 ^ 6 % 256) + 16384 * (x2 / 16384) := by omega
  have k3 : x3 = x3 % 2 + 2 * (x3 / 2 ^ 1 % 256) + 512 * (x3 / 2 ^ 9 % 256) + 131072 * (x3 / 131072) := by omega
  have k4 : x4 = x4 % 16 + 16 * (x4 / 2 ^ 4 % 256) + 4096 * (x4 / 2 ^ 12 % 256) + 1048576 * (x4 / 1048576) := by omega
  have k5 : x5 = x5 % 128 + 128 * (x5 / 2 ^ 7 % 256) + 32768 * (x5 / 32768) := by omega
  have k6 : x6 = x6 % 4 + 4 * (x6 / 2 ^ 2 % 256) + 1024 * (x6 / 2 ^ 10 % 256) + 262144 * (x6 / 262144) := by omega
  have k7 : x7 = x7 % 32 + 32 * (x7 / 2 ^ 5 % 256) + 8192 * (x7 / 2 ^ 13 % 256) := by omega
  have k8 : x8 = x8 % 256 + 256 * (x8 / 2 ^ 8 % 256) + 65536 * (x8 / 65536) := by omega
  have k9 : x9 = x9 % 8 + 8 * (x9 / 2 ^ 3 % 256) + 2048 * (x9 / 2 ^ 11 % 256) + 524288 * (x9 / 524288) := by omega
  have k10 : x10 = x10 % 64 + 64 * (x10 / 2 ^ 6 % 256) + 16384 * (x10 / 16384) := by omega
  have k11 : x11 = x11 % 2 + 2 * (x11 / 2 ^ 1 % 256) + 512 * (x11 / 2 ^ 9 % 256) + 131072 * (x11 / 2 ^ 17 % 256) := by omega
  have key : ∀ y0 y1 y2 y3 y4 y5 y6 y7 y8 y9 y10 y11 : Nat, x0 = y0 → x1 = y1 → x2 = y2 → x3 = y3 → x4 = y4 → x5 = y5 → x6 = y6 →
      x7 = y7 → x8 = y8 → x9 = y9 → x10 = y10 → x11 = y11 →
      (0 + (x0 : Int) * 2 ^ (21 * 0) + x1 * 2 ^ (21 * 1) + x2 * 2 ^ (21 * 2) + x3 * 2 ^ (21 * 3) + x4 * 2 ^ (21 * 4) +
        x5 * 2 ^ (21 * 5) + x6 * 2 ^ (21 * 6) + x7 * 2 ^ (21 * 7) + x8 * 2 ^ (21 * 8) + x9 * 2 ^ (21 * 9) + x10 * 2 ^ (21 * 10) +
        x11 * 2 ^ (21 * 11)) =
      (0 + (y0 : Int) * 2 ^ (21 * 0) + y1 * 2 ^ (21 * 1) + y2 * 2 ^ (21 * 2) + y3 * 2 ^ (21 * 3) + y4 * 2 ^ (21 * 4) +
        y5 * 2 ^ (21 * 5) + y6 * 2 ^ (21 * 6) + y7 * 2 ^ (21 * 7) + y8 * 2 ^ (21 * 8) + y9 * 2 ^ (21 * 9) + y10 * 2 ^ (21 * 10) +
        y11 * 2 ^ (21 * 11)) := by
    intro y0 y1 y2 y3 y4 y5 y6 y7 y8 y9 y10 y11 h0 h1 h2 h3 h4 h5 h6 h7 h8 h9 h10 h11
    rw [← h0, ← h1, ← h2, ← h3, ← h4, ← h5, ← h6, ← h7, ← h8, ← h9, ← h10, ← h11]
  rw [key _ _ _ _ _ _ _ _ _ _ _ _ k0 k1 k2 k3 k4 k5 k6 k7 k8 k9 k10 k11]
  push_cast
  ring

/-! ### The functions -/

theorem goodHead_some {r : Option Abs} (h : goodHead r = true) : ∃ a, r = some (13, a) := by
  unfold goodHead at h
  split at h
  · next a => exact ⟨a, rfl⟩
  · exact absurd h (by simp)

/-- From the limbs to the result. -/
theorem run_all {s : List Int} {os : List Op} {a : List Iv} (hg : goodHead (runI os (24, a)) = true) (h : In s a) :
    ∃ s', run (os ++ tail) s = some s' ∧ (pack s').length = 32 ∧ (leNum (pack s') : Int) = vl s 24 % LI := by
  obtain ⟨b, hb⟩ := goodHead_some hg
  obtain ⟨s1, e1, in1, ⟨q, v1⟩, -⟩ := run_sound os h hb
  obtain ⟨-, s2, e2, b2, b11, v2⟩ := finish hg hb in1
  refine ⟨s2, by rw [run_append, e1, Option.bind_some, e2], (pack_spec s2 b2 b11).1, ?_⟩
  rw [(pack_spec s2 b2 b11).2, v2, v1, Int.sub_mul_emod_self_right]

theorem LI_eq : (LI : Int) = ((LC.Curve.L : Nat) : Int) := by decide +kernel

theorem cast_mod {r x m : Nat} (h : (r : Int) = (x : Int) % (m : Int)) : r = x % m := by exact_mod_cast h

/-- **C75**: `sc25519_reduce` gives, for every 64 byte string, the 32 bytes of its number modulo the group order, the
least non-negative one; no signed addition or multiplication overflows. -/
theorem reduce_exact (s : List Byte) (hs : s.length = 64) :
    ∃ r, reduce s = some r ∧ r.length = 32 ∧ leNum r = leNum s % LC.Curve.L := by
  obtain ⟨s', e, hl, hv⟩ := run_all goodHead_reduce (limbs64_in s hs)
  refine ⟨pack s', (congrArg (Option.map pack) e : reduce s = _), hl, ?_⟩
  rw [limbs64_val s hs, LI_eq] at hv
  exact cast_mod hv

/-- **C75**: `sc25519_muladd` gives, for all 32 byte strings, the 32 bytes of `a b + c` modulo the group order; no signed
addition or multiplication overflows. -/
theorem muladd_exact (a b c : List Byte) (ha : a.length = 32) (hb : b.length = 32) (hc : c.length = 32) :
    ∃ r, muladd a b c = some r ∧ r.length = 32 ∧ leNum r = (leNum a * leNum b + leNum c) % LC.Curve.L := by
  have hc0 : ∀ n, 12 ≤ n → get (limbs32 c) n = 0 := fun n hn => getD_ge _ _ hn
  have hin := prodList_in _ _ _ (limbs32_bound a ha) (limbs32_bound b hb) (limbs32_bound c hc) hc0
  obtain ⟨s', e, hl, hv⟩ := run_all (os := mulHead ++ head) goodHead_mul hin
  refine ⟨pack s', ?_, hl, ?_⟩
  · have hp : prod (limbs32 a) (limbs32 b) (limbs32 c) 0 rows = some (prodList (limbs32 a) (limbs32 b) (limbs32 c)) :=
      prod_eq _ _ _ (limbs32_bound a ha) (limbs32_bound b hb) (limbs32_bound c hc) rows 0 rows_le
    unfold muladd
    rw [hp, Option.bind_some, e, Option.map_some]
  · rw [prodList_val _ _ _ hc0, limbs32_val a ha, limbs32_val b hb, limbs32_val c hc, LI_eq, ← Int.natCast_mul, ← Int.natCast_add] at hv
    exact cast_mod hv

/-! ### Canonicity -/

theorem canLoop_spec : ∀ (ps : List (Byte × Byte)) (c n : Byte), (n = 0 ∨ n = 1) →
    ((canLoop ps (c, n)).1 ≠ 0 ↔ c ≠ 0 ∨
      (n = 1 ∧ leNum (ps.map Prod.fst).reverse < leNum (ps.map Prod.snd).reverse))
  | [], c, n, _ => by simp [canLoop, leNum]
  | (x, l) :: ps, c, n, hn => by
    have hx := x.toNat_lt
    have hl := l.toNat_lt
    have la := leNum_lt (ps.map Prod.fst).reverse
    have lb := leNum_lt (ps.map Prod.snd).reverse
    rw [List.length_reverse, List.length_map] at la lb
    have hxl : x ^^^ l = 0 ↔ x = l := by
      constructor
      · intro h
        have := congrArg (· ^^^ l) h
        simpa [UInt8.xor_assoc] using this
      · rintro rfl; exact UInt8.xor_self
    have e1 : leNum (((x, l) :: ps).map Prod.fst).reverse = leNum (ps.map Prod.fst).reverse + 256 ^ ps.length * x.toNat := by
      rw [List.map_cons, List.reverse_cons, leNum_append, List.length_reverse, List.length_map]; simp [leNum]
    have e2 : leNum (((x, l) :: ps).map Prod.snd).reverse = leNum (ps.map Prod.snd).reverse + 256 ^ ps.length * l.toNat := by
      rw [List.map_cons, List.reverse_cons, leNum_append, List.length_reverse, List.length_map]; simp [leNum]
    rw [e1, e2, canLoop]
    generalize ha : leNum (ps.map Prod.fst).reverse = a at la ⊢
    generalize hb : leNum (ps.map Prod.snd).reverse = b at lb ⊢
    have hpos : 0 < 256 ^ ps.length := by positivity
    have key1 : x.toNat < l.toNat → a + 256 ^ ps.length * x.toNat < b + 256 ^ ps.length * l.toNat := fun h => by
      have : 256 ^ ps.length * (x.toNat + 1) ≤ 256 ^ ps.length * l.toNat := Nat.mul_le_mul_left _ h
      rw [Nat.mul_add] at this; omega
    have key2 : l.toNat < x.toNat → ¬ a + 256 ^ ps.length * x.toNat < b + 256 ^ ps.length * l.toNat := fun h => by
      have : 256 ^ ps.length * (l.toNat + 1) ≤ 256 ^ ps.length * x.toNat := Nat.mul_le_mul_left _ h
      rw [Nat.mul_add] at this; omega
    rcases hn with hn | hn
    · rw [hn]
      have : ∀ z : Byte, (z &&& 0) = 0 := by intro z; simp
      rw [this, UInt8.or_zero, show ∀ z : Byte, (0 &&& z) = 0 from fun z => by simp, canLoop_spec ps c 0 (Or.inl rfl)]
      simp
    · rw [hn]
      by_cases h : x = l
      · rw [if_neg (show ¬ x.toNat < l.toNat by rw [h]; omega), if_pos (hxl.mpr h), show (0 : Byte) &&& 1 = 0 from rfl,
          show (1 : Byte) &&& 255 = 1 from rfl, UInt8.or_zero, canLoop_spec ps c 1 (Or.inr rfl), h, ha, hb]
        simp only [Nat.add_lt_add_iff_right]
      · rw [if_neg (fun hc => h (hxl.mp hc)), show (1 : Byte) &&& 0 = 0 from rfl, canLoop_spec ps _ 0 (Or.inl rfl)]
        have h' : x.toNat ≠ l.toNat := fun hc => h (UInt8.toNat_inj.mp hc)
        by_cases hlt : x.toNat < l.toNat
        · rw [if_pos hlt]
          have : c ||| (255 &&& 1 : Byte) ≠ 0 := by
            intro hc
            have h2 := congrArg UInt8.toNat hc
            rw [UInt8.toNat_or] at h2
            have h3 : (1 : Nat) ≤ c.toNat ||| 1 := Nat.right_le_or
            rw [show (255 &&& 1 : Byte).toNat = 1 from rfl, show (0 : Byte).toNat = 0 from rfl] at h2
            omega
          simp only [this, ne_eq, not_false_eq_true, true_or, true_iff]
          exact Or.inr ⟨trivial, key1 hlt⟩
        · rw [if_neg hlt, show (0 : Byte) &&& 1 = 0 from rfl, UInt8.or_zero]
          have := key2 (by omega)
          simp [this]

/-- **C75**: `sc25519_is_canonical` accepts a 32 byte string exactly if its number is below the group order. -/
theorem isCanonical_iff (s : List Byte) (hs : s.length = 32) : isCanonical s = true ↔ leNum s < LC.Curve.L := by
  unfold isCanonical
  rw [decide_eq_true_eq, canLoop_spec _ 0 1 (Or.inr rfl)]
  have hz : (s.zip orderBytes).map Prod.fst = s := List.map_fst_zip (by rw [hs]; decide)
  have hz2 : (s.zip orderBytes).map Prod.snd = orderBytes := List.map_snd_zip (by rw [hs]; decide)
  rw [List.map_reverse, List.map_reverse, List.reverse_reverse, List.reverse_reverse, hz, hz2,
    show leNum orderBytes = LC.Curve.L by decide +kernel]
  simp

/-- The hypotheses hold at once for a nontrivial case: the largest 64 byte string, and `a b + c` with all bytes set. -/
example : (reduce (List.replicate 64 255)).map leNum = some ((2 ^ 512 - 1) % LC.Curve.L) ∧
    (muladd (List.replicate 32 255) (List.replicate 32 255) (List.replicate 32 255)).map leNum =
      some (((2 ^ 256 - 1) * (2 ^ 256 - 1) + (2 ^ 256 - 1)) % LC.Curve.L) := by decide +kernel
/-- The order itself is refused, one less is accepted. -/
example : isCanonical orderBytes = false ∧ isCanonical (0xec :: orderBytes.tail) = true := by decide +kernel

end LC.Curve.Sc
