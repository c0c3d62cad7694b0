import Verif.Kernel.AllocModel
/-
C140: memory of the kernel module.
-/
namespace LC.Kernel.Alloc

/-! ### Specification -/

/-- What the kernel promises for `kmalloc`, with `avail n` the bytes which can be used at the address
returned for `n`: enough bytes, the minimum alignment, and alignment to the size for powers of two. -/
structure Kmalloc (minalign : Nat) (kmalloc : Nat → Option Nat) (avail : Nat → Nat) : Prop where
  enough : ∀ n, n ≤ avail n
  min : ∀ n p, kmalloc n = some p → minalign ∣ p
  pow : ∀ e p, kmalloc (2 ^ e) = some p → 2 ^ e ∣ p

/-- What the kernel promises for `alloc_pages`: alignment to the size. -/
def Pages (pages : Nat → Option Nat) : Prop := ∀ o p, pages o = some p → 4096 * 2 ^ o ∣ p

/-! ### Lemmas -/

theorem fls_bound (n : Nat) : n < 2 ^ fls n := by
  unfold fls
  by_cases h : n = 0
  · simp [h]
  · rw [if_neg h]
    exact Nat.lt_pow_succ_log_self (by omega) n

theorem fls_le (n e : Nat) (h : n < 2 ^ e) : fls n ≤ e := by
  unfold fls
  by_cases h0 : n = 0
  · simp [h0]
  · rw [if_neg h0]
    exact Nat.log_lt_of_lt_pow h0 h

theorem roundup_eq (n : Nat) (h : n ≤ 2 ^ 63) : roundup n = 2 ^ fls (n - 1) := by
  unfold roundup
  have h1 : fls (n - 1) ≤ 63 := fls_le _ _ (by omega)
  have h2 : 2 ^ fls (n - 1) ≤ 2 ^ 63 := Nat.pow_le_pow_right (by omega) h1
  exact Nat.mod_eq_of_lt (by omega)

theorem le_roundup (n : Nat) (h : n ≤ 2 ^ 63) : n ≤ roundup n := by
  have := fls_bound (n - 1)
  rw [roundup_eq n h]
  omega

/-! ### Properties -/

/-- **C140 (part: aligned memory).** For alignments which are powers of two and sizes of at most 2^63
bytes: an allocation either reports that the kernel has no memory, or returns an address with the alignment asked
for, with all bytes asked for set to zero and no byte outside of the allocation written; at most twice
the larger one of size and alignment is asked from the kernel. -/
theorem c140_aligned (m e minalign : Nat) (hmin : minalign = 2 ^ m) (kmalloc : Nat → Option Nat)
    (avail : Nat → Nat) (hk : Kmalloc minalign kmalloc avail) (size : Nat)
    (he : e ≤ 63) (hsize : size ≤ 2 ^ 63) :
    (allocAligned minalign kmalloc (2 ^ e) size = (-12, none) ∧ (∃ n, size ≤ n ∧ kmalloc n = none) ∨
      ∃ r n, allocAligned minalign kmalloc (2 ^ e) size = (0, some r) ∧ kmalloc n = some r.addr ∧
        2 ^ e ∣ r.addr ∧ size ≤ r.zeroed ∧ r.zeroed ≤ avail n ∧ (0 < size → n < 2 * max size (2 ^ e))) := by
  have hpos : 0 < 2 ^ e := Nat.pow_pos (by omega)
  unfold allocAligned
  simp only
  cases hq : kmalloc (request minalign (2 ^ e) size).2 with
  | none =>
    left
    refine ⟨rfl, _, ?_, hq⟩
    unfold request
    by_cases h : minalign < 2 ^ e
    · rw [if_pos h]
      simp only
      have he' : 2 ^ e ≤ 2 ^ 63 := Nat.pow_le_pow_right (by omega) he
      by_cases h1 : size < 2 ^ e
      · rw [if_pos h1]
        have := le_roundup (2 ^ e) he'
        omega
      · rw [if_neg h1]
        exact le_roundup size hsize
    · rw [if_neg h]
  | some p =>
    right
    refine ⟨⟨p, (request minalign (2 ^ e) size).1⟩, (request minalign (2 ^ e) size).2, rfl, hq, ?_⟩
    unfold request at hq ⊢
    by_cases h : minalign < 2 ^ e
    · rw [if_pos h] at hq ⊢
      simp only at hq ⊢
      have hs : (if size < 2 ^ e then 2 ^ e else size) = max size (2 ^ e) := by
        by_cases h1 : size < 2 ^ e
        · rw [if_pos h1]; omega
        · rw [if_neg h1]; omega
      rw [hs] at hq ⊢
      have he' : 2 ^ e ≤ 2 ^ 63 := Nat.pow_le_pow_right (by omega) he
      have hm : max size (2 ^ e) ≤ 2 ^ 63 := by omega
      have h1 := le_roundup (max size (2 ^ e)) hm
      rw [roundup_eq _ hm] at hq h1 ⊢
      refine ⟨?_, by omega, le_trans h1 (hk.enough _), fun _ => ?_⟩
      · refine Nat.dvd_trans ?_ (hk.pow _ p hq)
        apply Nat.pow_dvd_pow
        by_contra hc
        have hlt : 2 ^ fls (max size (2 ^ e) - 1) < 2 ^ e := Nat.pow_lt_pow_right (by omega) (by omega)
        omega
      · -- minimality of the power of two
        unfold fls
        by_cases h2 : max size (2 ^ e) - 1 = 0
        · rw [if_pos h2]; simp; omega
        · rw [if_neg h2, Nat.pow_succ]
          have := Nat.pow_log_le_self 2 h2
          omega
    · rw [if_neg h] at hq ⊢
      refine ⟨?_, Nat.le_refl _, hk.enough _, fun h0 => by simp only; omega⟩
      refine Nat.dvd_trans ?_ (hk.min _ p hq)
      rw [hmin] at h ⊢
      apply Nat.pow_dvd_pow
      by_contra hc
      exact h (Nat.pow_lt_pow_right (by omega) (by omega))

/-- **C140 (part: pages).** `lc_alloc_high_aligned` for alignments up to a page returns an aligned
address with all bytes asked for set to zero, within the pages allocated; `lc_free_high_aligned` with the
same size gives back the pages allocated, all of them.  Missing: larger alignments, see
`c140_negation_high`. -/
theorem c140_high_partial (pages : Nat → Option Nat) (hp : Pages pages) (e size : Nat) (he : e ≤ 12) :
    (allocHigh pages (2 ^ e) size = (-12, none) ∧ (∃ o, pages o = none) ∨
      ∃ r o, allocHigh pages (2 ^ e) size = (0, some r) ∧ pages o = some r.addr ∧ 2 ^ e ∣ r.addr ∧
        size = r.zeroed ∧ size ≤ 4096 * 2 ^ o ∧ freeHigh r.addr size = (r.addr, o) ∧
        ∀ o', size ≤ 4096 * 2 ^ o' → o ≤ o') := by
  unfold allocHigh
  cases hq : pages (getOrder size) with
  | none => exact Or.inl ⟨rfl, _, hq⟩
  | some p =>
    right
    refine ⟨⟨p, size⟩, getOrder size, rfl, hq, ?_, rfl, ?_, rfl, ?_⟩
    · refine Nat.dvd_trans ?_ (hp _ p hq)
      refine Nat.dvd_trans (Nat.pow_dvd_pow 2 he) ?_
      exact Nat.dvd_mul_right 4096 _
    · have := fls_bound ((size - 1) / 4096)
      unfold getOrder
      omega
    · intro o' ho
      apply fls_le
      have : 0 < 2 ^ o' := Nat.pow_pos (by omega)
      omega

/-- **C140 (negation: alignment above a page).** With an alignment of two pages the address returned
need not have it. -/
theorem c140_negation_high : ∃ pages, Pages pages ∧
    (allocHigh pages (2 ^ 13) 4096).2 = some ⟨4096, 4096⟩ ∧ ¬ 2 ^ 13 ∣ 4096 :=
  ⟨fun o => if o = 0 then some 4096 else none,
    (fun o p h => by
      by_cases ho : o = 0
      · subst ho
        simp only [if_true, Option.some.injEq] at h
        subst h
        decide
      · simp [ho] at h),
    by decide, by decide⟩

/-- Non-vacuity: an allocator with the minimum alignment 8; 40 bytes with alignment 64. -/
example : ∃ kmalloc avail, Kmalloc 8 kmalloc avail ∧ 8 = 2 ^ 3 ∧
    allocAligned 8 kmalloc (2 ^ 6) 40 = (0, some ⟨64 * 8, 64⟩) :=
  ⟨fun n => some (n * 8), fun n => n,
    ⟨fun _ => Nat.le_refl _, (fun n p h => by cases h; exact Nat.dvd_mul_left 8 n),
      (fun e p h => by cases h; exact Nat.dvd_mul_right _ 8)⟩, rfl, by decide +kernel⟩

example : Pages (fun o => some (4096 * 2 ^ o)) := fun o p h => by cases h; exact Nat.dvd_refl _

end LC.Kernel.Alloc
