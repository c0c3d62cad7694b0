import Verif.Mem.GenericModel
/-
C141: memory with the generic allocator.
-/
namespace LC.Mem.Generic

/-! ### Specification -/

/-- What the caller holds: each successful allocation adds the memory returned, each free removes it. -/
def held (live : List (Nat × Nat)) (op : Op) (r : Int × Option Nat × St) : List (Nat × Nat) :=
  match op with
  | .alloc size _ | .allocSecure _ size _ =>
    match r.1, r.2.1 with
    | 0, some p => (p, size) :: live
    | _, _ => live
  | .free p | .freeHigh p _ => live.filter (fun b => b.1 != p)

/-- A heap answers with an address which is not NULL and not in use, or with an error which is not 0. -/
def OsOk (s : St) (os : Os) : Prop :=
  (∀ p, os.mem = .ok p → p ≠ 0 ∧ ∀ b ∈ s.blocks, b.1 ≠ p) ∧ os.mem ≠ .error 0 ∧ os.lock ≠ some 0

/-- Calls the caller may make: frees of NULL or of memory held. -/
def Allowed (s : St) (live : List (Nat × Nat)) : Op → Prop
  | .alloc _ os => OsOk s os
  | .allocSecure _ _ os => OsOk s os
  | .free p | .freeHigh p _ => p = 0 ∨ ∃ n, (p, n) ∈ live

/-- `mlock` does not fail with other errors than EPERM and EAGAIN, which are tolerated. -/
def NoLockError : Op → Prop
  | .allocSecure _ _ os => os.lock = none ∨ os.lock = some 1 ∨ os.lock = some 11
  | _ => True

/-- States and memory held after a sequence of allowed calls for which `P` holds, from the empty heap. -/
inductive Reached (P : Op → Prop) : St → List (Nat × Nat) → Prop
  | start : Reached P { blocks := [], locked := [], bad := false } []
  | step {s live} (op : Op) : Reached P s live → Allowed s live op → P op →
      Reached P (step s op).2.2 (held live op (step s op))

/-! ### Lemmas -/

theorem lcFree_held (s : St) (hb : s.bad = false) (hz : ∀ b ∈ s.blocks, b.1 ≠ 0) (p : Nat)
    (h : p = 0 ∨ ∃ n, (p, n) ∈ s.blocks) :
    (lcFree s p).blocks = s.blocks.filter (fun b => b.1 != p) ∧ (lcFree s p).bad = false := by
  unfold lcFree
  by_cases h0 : p = 0
  · rw [if_pos h0]
    refine ⟨?_, hb⟩
    symm
    rw [List.filter_eq_self]
    intro b hbm
    have := hz b hbm
    simp [h0, this]
  · rw [if_neg h0]
    obtain ⟨n, hn⟩ := h.resolve_left h0
    have : s.blocks.any (fun b => b.1 == p) = true := List.any_eq_true.2 ⟨(p, n), hn, by simp⟩
    unfold free
    rw [if_pos this]
    exact ⟨rfl, hb⟩

theorem alloc_cases (s : St) (size : Nat) (os : Os) (ho : OsOk s os) :
    (∃ e : Nat, e ≠ 0 ∧ os.mem = .error e ∧ alloc s size os = ((e : Int), none, s)) ∨
    (∃ p, p ≠ 0 ∧ os.mem = .ok p ∧ alloc s size os = (0, some p, { s with blocks := (p, size) :: s.blocks })) := by
  unfold alloc
  cases hm : os.mem with
  | error e => exact Or.inl ⟨e, (fun h => ho.2.1 (by rw [hm, h])), rfl, rfl⟩
  | ok p => exact Or.inr ⟨p, (ho.1 p hm).1, rfl, rfl⟩

theorem secure_err (s : St) (m size : Nat) (os : Os) (e : Nat) (he : e ≠ 0)
    (h : alloc s size os = ((e : Int), none, s)) : allocSecure s m size os = ((e : Int), none, s) := by
  unfold allocSecure
  rw [h]
  split
  · rename_i h2
    simp at h2
  · rfl

/-- Invariant: the heap is what the caller holds. -/
theorem reached_inv {s : St} {live : List (Nat × Nat)} (h : Reached NoLockError s live) :
    s.blocks = live ∧ s.bad = false ∧ ∀ b ∈ s.blocks, b.1 ≠ 0 := by
  induction h with
  | start => exact ⟨rfl, rfl, (fun b h => by cases h)⟩
  | @step s live op _ ha hn ih =>
    obtain ⟨i1, i2, i3⟩ := ih
    cases op with
    | alloc size os =>
      rcases alloc_cases s size os ha with ⟨e, he, _, h⟩ | ⟨p, hp, _, h⟩
      · simp only [step, h, held]
        exact ⟨i1, i2, i3⟩
      · simp only [step, h, held]
        refine ⟨by rw [i1], i2, ?_⟩
        intro b hb
        rcases List.mem_cons.1 hb with hb | hb
        · rw [hb]; exact hp
        · exact i3 b hb
    | allocSecure m size os =>
      rcases alloc_cases s size os ha with ⟨e, he, _, h⟩ | ⟨p, hp, _, h⟩
      · have h' := secure_err s m size os e he h
        simp only [step, h', held]
        exact ⟨i1, i2, i3⟩
      · have h' : ∃ l, allocSecure s m size os =
            (0, some p, { s with blocks := (p, size) :: s.blocks, locked := l }) := by
          unfold allocSecure
          rw [h]
          rcases hn with hl | hl | hl
          · simp only [hl]; exact ⟨_, rfl⟩
          · simp only [hl]; exact ⟨_, rfl⟩
          · simp only [hl]; exact ⟨_, rfl⟩
        obtain ⟨l, h'⟩ := h'
        simp only [step, h', held]
        refine ⟨by rw [i1], i2, ?_⟩
        intro b hb
        rcases List.mem_cons.1 hb with hb | hb
        · rw [hb]; exact hp
        · exact i3 b hb
    | free p =>
      have hf := lcFree_held s i2 i3 p (by rw [i1]; exact ha)
      simp only [step, held]
      refine ⟨by rw [hf.1, i1], hf.2, ?_⟩
      intro b hb
      rw [hf.1] at hb
      exact i3 b (List.mem_filter.1 hb).1
    | freeHigh p n =>
      have hf := lcFree_held s i2 i3 p (by rw [i1]; exact ha)
      simp only [step, held, lcFreeHigh]
      refine ⟨by rw [hf.1, i1], hf.2, ?_⟩
      intro b hb
      rw [hf.1] at hb
      exact i3 b (List.mem_filter.1 hb).1

/-! ### Properties -/

/-- **C141 (part: heap).** After each sequence of allowed calls in which `mlock` succeeds or is not
permitted, the blocks of the heap are what the caller holds (nothing leaks, everything held is still
there), and nothing else than a block was freed.  Missing: other errors of `mlock`, see
`c141_negation_free`. -/
theorem c141_heap_partial (s : St) (live : List (Nat × Nat)) (h : Reached NoLockError s live) :
    s.blocks = live ∧ s.bad = false :=
  ⟨(reached_inv h).1, (reached_inv h).2.1⟩

/-- **C141 (part: errors).** If there is no memory, the error is returned by both functions, no pointer is
written and nothing changes; with memory, `lc_alloc_aligned` returns it. -/
theorem c141_alloc (s : St) (m size : Nat) (os : Os) :
    (∀ e : Nat, e ≠ 0 → os.mem = .error e →
      alloc s size os = ((e : Int), none, s) ∧ allocSecure s m size os = ((e : Int), none, s)) ∧
    (∀ p, os.mem = .ok p → (alloc s size os).1 = 0 ∧ (alloc s size os).2.1 = some p ∧
      (allocSecure s m size os).2.1 = some p ∧
      ((allocSecure s m size os).1 = 0 ↔ ∀ e, os.lock = some e → e = 0 ∨ e = 1 ∨ e = 11)) := by
  constructor
  · intro e he hm
    have h : alloc s size os = ((e : Int), none, s) := by unfold alloc; rw [hm]
    exact ⟨h, secure_err s m size os e he h⟩
  · intro p hm
    have h : alloc s size os = (0, some p, { s with blocks := (p, size) :: s.blocks }) := by
      unfold alloc; rw [hm]
    refine ⟨by rw [h], by rw [h], ?_⟩
    unfold allocSecure
    rw [h]
    cases hl : os.lock with
    | none => exact ⟨rfl, (fun _ e he => by cases he), (fun _ => rfl)⟩
    | some e =>
      simp only
      by_cases hc : e ≠ 1 ∧ e ≠ 11
      · rw [if_pos hc]
        refine ⟨rfl, ?_, ?_⟩
        · intro h0 e' he'
          cases he'
          simp only at h0
          omega
        · intro hall
          have := hall e rfl
          simp only
          omega
      · rw [if_neg hc]
        refine ⟨rfl, ?_, (fun _ => rfl)⟩
        intro _ e' he'
        cases he'
        omega

/-- **C141 (negation: memory locked).** No successful call of `lc_alloc_aligned_secure` locks the memory
it returns: the range locked begins at the pointer variable of the caller, which is not the memory. -/
theorem c141_negation_lock (s : St) (m size p : Nat) (os : Os) (hm : os.mem = .ok p) (hp : p ≠ m)
    (hl : (p, size) ∉ s.locked) : (p, size) ∉ (allocSecure s m size os).2.2.locked := by
  have h : alloc s size os = (0, some p, { s with blocks := (p, size) :: s.blocks }) := by
    unfold alloc; rw [hm]
  unfold allocSecure
  rw [h]
  cases os.lock with
  | none =>
    simp only [List.mem_cons, Prod.mk.injEq, not_or, not_and]
    exact ⟨(fun h => absurd h hp), hl⟩
  | some e =>
    simp only
    split
    · unfold lcFree free
      split
      · exact hl
      · split <;> exact hl
    · exact hl

/-- **C141 (negation: error of mlock).** If `mlock` fails with another error (ENOMEM), the pointer variable is
freed instead of the memory: undefined behaviour, and the memory is not freed. -/
theorem c141_negation_free (m p size : Nat) (hm : m ≠ 0) (hp : p ≠ m) :
    let r := allocSecure { blocks := [], locked := [], bad := false } m size { mem := .ok p, lock := some 12 }
    r.1 = -12 ∧ r.2.2.bad = true ∧ r.2.2.blocks = [(p, size)] := by
  simp [allocSecure, alloc, lcFree, free, hm, hp]

/-- Non-vacuity: an allocation of 32 bytes, a secure one of 64, and a free of the first one. -/
example : Reached NoLockError { blocks := [(2048, 64)], locked := [(16, 64)], bad := false } [(2048, 64)] := by
  have h0 := Reached.start (P := NoLockError)
  have h1 := Reached.step (.alloc 32 ⟨.ok 1024, none⟩) h0
    ⟨(fun p h => by cases h; exact ⟨by decide, (fun b hb => by cases hb)⟩), (fun h => by cases h), (fun h => by cases h)⟩ trivial
  have h2 := Reached.step (.allocSecure 16 64 ⟨.ok 2048, none⟩) h1
    ⟨(fun p h => by
        cases h
        refine ⟨by decide, fun b hb => ?_⟩
        cases hb with
        | head => decide
        | tail _ hb => cases hb), (fun h => by cases h), (fun h => by cases h)⟩ (Or.inl rfl)
  exact Reached.step (.free 1024) h2 (Or.inr ⟨32, List.mem_cons_of_mem _ (List.mem_cons_self)⟩) trivial

end LC.Mem.Generic
