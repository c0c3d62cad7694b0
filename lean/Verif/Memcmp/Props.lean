import Verif.Memcmp.Model
/-
Property theorems: C12 (constant time comparison decides equality).
-/
namespace LC.Memcmp

/-- The first `n` bytes at `p` and `q` agree. -/
def Eqn (mem : Mem) (p q n : Nat) : Prop := ∀ i < n, mem (p + i) = mem (q + i)

theorem nz_zero (x : Nat) : nz x = 0 ↔ x = 0 := by unfold nz; split <;> simp_all
theorem nz_le (x : Nat) : nz x ≤ 1 := by unfold nz; split <;> omega
theorem or_zero (a b : Nat) : a ||| b = 0 ↔ a = 0 ∧ b = 0 := Nat.or_eq_zero_iff
theorem xor_zero (a b : Nat) : a ^^^ b = 0 ↔ a = b := by
  constructor
  · intro h
    have := congrArg (· ^^^ b) h
    simpa [Nat.xor_assoc] using this
  · rintro rfl; exact Nat.xor_self _

theorem Eqn.split (mem : Mem) (p q k n : Nat) :
    Eqn mem p q (k + n) ↔ Eqn mem p q k ∧ Eqn mem (p + k) (q + k) n := by
  constructor
  · intro h
    exact ⟨fun i hi => h i (by omega), fun i hi => by
      rw [Nat.add_assoc, Nat.add_assoc]; exact h (k + i) (by omega)⟩
  · rintro ⟨h1, h2⟩ i hi
    by_cases hk : i < k
    · exact h1 i hk
    · have := h2 (i - k) (by omega)
      rw [Nat.add_assoc, Nat.add_assoc, show k + (i - k) = i from by omega] at this
      exact this

theorem load_eq (mem : Mem) : ∀ k p q, load mem k p = load mem k q ↔ Eqn mem p q k
  | 0, p, q => by simp [load, Eqn]
  | k + 1, p, q => by
    rw [Nat.add_comm k 1, Eqn.split, ← load_eq mem k, Nat.add_comm 1 k]
    have h1 := (mem p).toNat_lt
    have h2 := (mem q).toNat_lt
    have h3 : Eqn mem p q 1 ↔ (mem p).toNat = (mem q).toNat := by
      constructor
      · intro h; exact congrArg _ (h 0 (by decide))
      · intro h i hi
        have : i = 0 := by omega
        subst this
        exact UInt8.toNat_inj.mp h
    rw [h3, load, load]
    constructor
    · intro h; omega
    · rintro ⟨a, b⟩; rw [a, b]

theorem loop8_zero (mem : Mem) : ∀ n p q ret, loop8 mem n p q ret = 0 ↔ ret = 0 ∧ Eqn mem p q n
  | 0, p, q, ret => by simp [loop8, Eqn]
  | n + 1, p, q, ret => by
    rw [loop8, loop8_zero mem n, or_zero, xor_zero, and_assoc, Nat.add_comm n 1, Eqn.split,
      ← load_eq mem 1]
    simp [load]

theorem cmp8_zero (mem : Mem) (p q n : Nat) : cmp8 mem p q n = 0 ↔ Eqn mem p q n := by
  rw [cmp8, nz_zero, loop8_zero]; simp

theorem loopW_zero (mem : Mem) (k : Nat) (strict : Bool) : ∀ fuel p q n ret,
    let r := loopW mem k strict fuel p q n ret
    (ret = 0 ∧ Eqn mem p q n) ↔ (r.2.2.2 = 0 ∧ Eqn mem r.1 r.2.1 r.2.2.1)
  | 0, p, q, n, ret => Iff.rfl
  | fuel + 1, p, q, n, ret => by
    unfold loopW
    split
    · rename_i h
      have hk : k ≤ n := by cases strict <;> simp [more] at h <;> omega
      have ih := loopW_zero mem k strict fuel (p + k) (q + k) (n - k)
        (ret ||| (load mem k p ^^^ load mem k q))
      dsimp only at ih ⊢
      rw [← ih, or_zero, xor_zero, load_eq, and_assoc, ← Eqn.split,
        show k + (n - k) = n from by omega]
    · exact Iff.rfl

theorem wide_zero (mem : Mem) (k : Nat) (strict : Bool) (p q n : Nat) (rest : Nat → Nat → Nat → Nat)
    (hrest : ∀ p q n, rest p q n = 0 ↔ Eqn mem p q n) :
    nz ((loopW mem k strict n p q n 0).2.2.2 ||| rest (loopW mem k strict n p q n 0).1
      (loopW mem k strict n p q n 0).2.1 (loopW mem k strict n p q n 0).2.2.1) = 0 ↔ Eqn mem p q n := by
  have h := loopW_zero mem k strict n p q n 0
  dsimp only at h
  rw [nz_zero, or_zero, hrest, ← h]; simp

theorem cmp32Aligned_zero (mem : Mem) (p q n : Nat) :
    cmp32Aligned mem p q n = 0 ↔ Eqn mem p q n :=
  wide_zero mem 4 false p q n (cmp8 mem) (cmp8_zero mem)

theorem cmp32_zero (mem : Mem) (p q n : Nat) : cmp32 mem p q n = 0 ↔ Eqn mem p q n := by
  unfold cmp32
  split
  · exact cmp32Aligned_zero ..
  · exact wide_zero mem 4 true p q n (cmp8 mem) (cmp8_zero mem)

theorem cmp64Aligned_zero (lp64 : Bool) (mem : Mem) (p q n : Nat) :
    cmp64Aligned lp64 mem p q n = 0 ↔ Eqn mem p q n := by
  unfold cmp64Aligned
  split
  · exact wide_zero mem 8 false p q n (cmp32Aligned mem) (cmp32Aligned_zero mem)
  · exact cmp32Aligned_zero ..

theorem cmp64_zero (lp64 : Bool) (mem : Mem) (p q n : Nat) :
    cmp64 lp64 mem p q n = 0 ↔ Eqn mem p q n := by
  unfold cmp64
  split
  · exact cmp64Aligned_zero ..
  · exact wide_zero mem 8 true p q n (cmp32 mem) (cmp32_zero mem)

theorem load_lt (mem : Mem) : ∀ k p, load mem k p < 256 ^ k
  | 0, _ => by simp [load]
  | k + 1, p => by
    have h1 := (mem p).toNat_lt
    have h2 := load_lt mem k (p + 1)
    rw [load, Nat.pow_succ]; omega

theorem loopW_lt (mem : Mem) (k : Nat) (strict : Bool) : ∀ fuel p q n ret, ret < 2 ^ (8 * k) →
    (loopW mem k strict fuel p q n ret).2.2.2 < 2 ^ (8 * k)
  | 0, p, q, n, ret, h => h
  | fuel + 1, p, q, n, ret, h => by
    unfold loopW
    split
    · apply loopW_lt
      have e : (256 : Nat) ^ k = 2 ^ (8 * k) := by rw [Nat.pow_mul]
      have h1 := load_lt mem k p
      have h2 := load_lt mem k q
      rw [e] at h1 h2
      exact Nat.or_lt_two_pow h (Nat.xor_lt_two_pow h1 h2)
    · exact h

theorem lanes_zero (x : Nat) (h : x < 2 ^ 256) :
    (x % 2 ^ 64 = 0 ∧ x / 2 ^ 64 % 2 ^ 64 = 0 ∧ x / 2 ^ 128 % 2 ^ 64 = 0 ∧
      x / 2 ^ 192 % 2 ^ 64 = 0) ↔ x = 0 := by
  constructor
  · rintro ⟨h1, h2, h3, h4⟩; omega
  · rintro rfl; decide

theorem cmp256_zero (lp64 avx2 : Bool) (mem : Mem) (p q n : Nat) :
    cmp256 lp64 avx2 mem p q n = 0 ↔ Eqn mem p q n := by
  unfold cmp256
  split
  · dsimp only
    have hlt := loopW_lt mem 32 false n p q n 0 (Nat.two_pow_pos _)
    rw [or_zero, or_zero, or_zero, or_zero, nz_zero, nz_zero, nz_zero, nz_zero, cmp64Aligned_zero,
      and_assoc, and_assoc, and_assoc]
    have h := loopW_zero mem 32 false n p q n 0
    have hl := lanes_zero _ hlt
    dsimp only at h
    constructor
    · rintro ⟨h1, h2, h3, h4, h5⟩
      exact (h.mpr ⟨hl.mp ⟨h1, h2, h3, h4⟩, h5⟩).2
    · intro he
      have h' := h.mp ⟨rfl, he⟩
      obtain ⟨h1, h2, h3, h4⟩ := hl.mpr h'.1
      exact ⟨h1, h2, h3, h4, h'.2⟩
  · exact cmp64_zero ..

/-- C12: the comparison returns 0 exactly for buffers of equal length and equal content, for
every memory content, all pointers (hence alignments), all lengths, with and without 64-bit
words and AVX2. -/
theorem memcmp_decides (lp64 avx2 : Bool) (mem : Mem) (s1 n1 s2 n2 : Nat) :
    memcmpSecure lp64 avx2 mem s1 n1 s2 n2 = 0 ↔
      n1 = n2 ∧ ∀ i < n1, mem (s1 + i) = mem (s2 + i) := by
  unfold memcmpSecure
  dsimp only
  rw [or_zero]
  by_cases h : n1 = n2
  · subst h
    simp only [ne_eq, not_true, if_false, true_and]
    split
    · exact cmp256_zero ..
    · exact cmp64_zero ..
  · simp [h]

/-- C12 on byte strings: storing two strings anywhere in memory, the comparison decides
whether they are equal. -/
theorem memcmp_lists (lp64 avx2 : Bool) (mem : Mem) (a b : List UInt8) (s1 s2 : Nat)
    (ha : ∀ (i : Nat) (h : i < a.length), mem (s1 + i) = a[i])
    (hb : ∀ (i : Nat) (h : i < b.length), mem (s2 + i) = b[i]) :
    memcmpSecure lp64 avx2 mem s1 a.length s2 b.length = 0 ↔ a = b := by
  rw [memcmp_decides]
  constructor
  · rintro ⟨hl, h⟩
    apply List.ext_getElem hl
    intro i h1 h2
    rw [← ha i h1, ← hb i h2]
    exact h i h1
  · rintro rfl
    exact ⟨rfl, fun i hi => by rw [ha i hi, hb i hi]⟩

/-- The only other return value is 1. -/
theorem memcmp_range (lp64 avx2 : Bool) (mem : Mem) (s1 n1 s2 n2 : Nat) :
    memcmpSecure lp64 avx2 mem s1 n1 s2 n2 ≤ 1 := by
  have hor : ∀ a b : Nat, a ≤ 1 → b ≤ 1 → a ||| b ≤ 1 := by
    intro a b ha hb
    have : a ||| b < 2 ^ 1 := Nat.or_lt_two_pow (by omega) (by omega)
    omega
  have h32a : ∀ p q n, cmp32Aligned mem p q n ≤ 1 := fun _ _ _ => nz_le _
  have h64a : ∀ p q n, cmp64Aligned lp64 mem p q n ≤ 1 := by
    intro p q n; unfold cmp64Aligned; split
    · exact nz_le _
    · exact h32a ..
  have h64 : ∀ p q n, cmp64 lp64 mem p q n ≤ 1 := by
    intro p q n; unfold cmp64; split
    · exact h64a ..
    · exact nz_le _
  have h256 : ∀ p q n, cmp256 lp64 avx2 mem p q n ≤ 1 := by
    intro p q n; unfold cmp256; split
    · dsimp only
      exact hor _ _ (hor _ _ (hor _ _ (hor _ _ (nz_le _) (nz_le _)) (nz_le _)) (nz_le _)) (h64a ..)
    · exact h64 ..
  unfold memcmpSecure
  apply hor
  · split <;> decide
  · split
    · exact h256 ..
    · exact h64 ..

/-- Non-vacuity: two 13 byte strings at addresses 3 and 100 (unaligned / aligned) that differ
only in the last byte, and one that agrees. -/
example : memcmpSecure true false (fun a => if a = 112 then 1 else UInt8.ofNat (a % 97 - 3)) 3 13 100 13 = 1 := by
  decide
example : memcmpSecure true true (fun a => UInt8.ofNat (a % 64)) 64 45 128 45 = 0 := by decide

end LC.Memcmp
