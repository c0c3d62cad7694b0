import Verif.Kernel.LoadModel
/-
C142: loading and unloading the kernel module.
-/
namespace LC.Kernel.Load

/-! ### Specification -/

/-- Everything is registered, once, without a warning. -/
def Complete (s : St) : Prop := (∀ p : Part, s.reg.count p = 1) ∧ s.warned = []

/-- Nothing is registered, without a warning. -/
def Clean (s : St) : Prop := (∀ p : Part, s.reg.count p = 0) ∧ s.warned = []

/-- The parts registered up to the first hybrid signature, that one included. -/
def Early (p : Part) : Prop :=
  p = .sha3 ∨ p = .kmac256 ∨ p = .rng ∨ p = .dilithium ∨ p = .dilithium_65 ∨ p = .dilithium_44 ∨
    p = .dilithium_ed25519

/-! ### Lemmas -/

theorem runInit_cases (ans : Part → Int) (L : List (Part × Option Part)) (s : St) :
    ((∀ x ∈ L, ans x.1 = 0) ∧ runInit ans L s = (0, (L.map (·.1)).foldl register s)) ∨
    ∃ k, ∃ h : k < L.length, (∀ x ∈ L.take k, ans x.1 = 0) ∧ ans (L[k]).1 ≠ 0 ∧
      runInit ans L s = (ans (L[k]).1, unwind (((L.take k).map (·.1)).foldl register s) (L[k]).2) := by
  induction L generalizing s with
  | nil => exact Or.inl ⟨(fun x h => by cases h), rfl⟩
  | cons a L ih =>
    obtain ⟨p, l⟩ := a
    by_cases hp : ans p = 0
    · have hr : runInit ans ((p, l) :: L) s = runInit ans L (register s p) := by
        simp [runInit, hp]
      rcases ih (register s p) with ⟨h1, h2⟩ | ⟨k, hk, h1, h2, h3⟩
      · refine Or.inl ⟨?_, by rw [hr, h2]; rfl⟩
        intro x hx
        rcases List.mem_cons.1 hx with hx | hx
        · rw [hx]; exact hp
        · exact h1 x hx
      · refine Or.inr ⟨k + 1, by simpa using hk, ?_, by simpa using h2, by rw [hr, h3]; simp⟩
        intro x hx
        rw [List.take_succ_cons] at hx
        rcases List.mem_cons.1 hx with hx | hx
        · rw [hx]; exact hp
        · exact h1 x hx
    · exact Or.inr ⟨0, by simp, (fun x h => by simp at h), by simpa using hp, by simp [runInit, hp]⟩

/-- State after the failure of the step with number `k`. -/
def failed (k : Fin steps.length) : St :=
  unwind (((steps.take k).map (·.1)).foldl register unloaded) (steps[k]).2

theorem load_cases (ans : Part → Int) :
    ((∀ p, ans p = 0) ∧ load ans unloaded = (0, (steps.map (·.1)).foldl register unloaded)) ∨
    ∃ k : Fin steps.length, (∀ x ∈ steps.take k, ans x.1 = 0) ∧ ans (steps[k]).1 ≠ 0 ∧
      load ans unloaded = (ans (steps[k]).1, failed k) := by
  rcases runInit_cases ans steps unloaded with ⟨h1, h2⟩ | ⟨k, hk, h1, h2, h3⟩
  · refine Or.inl ⟨?_, h2⟩
    intro p
    have : p ∈ steps.map (·.1) := by cases p <;> decide
    obtain ⟨x, hx, rfl⟩ := List.mem_map.1 this
    exact h1 x hx
  · exact Or.inr ⟨⟨k, hk⟩, h1, h2, h3⟩

/-! The steps are a finite list; the following two facts are checked for each of them. -/

theorem failed_early : ∀ k : Fin steps.length, k.1 < 7 → (failed k).reg = [] ∧ (failed k).warned = [] := by
  decide +kernel

theorem failed_late : ∀ k : Fin steps.length, 7 ≤ k.1 →
    .dilithium_ed25519 ∈ (failed k).reg ∧ Part.dilithium ∈ (failed k).warned ∧
      (∀ p ∈ (failed k).reg, p = .dilithium_ed25519 ∨ p = .dilithium_65_ed25519 ∨ p = .dilithium_44_ed25519) ∧
      ∀ p ∈ (failed k).warned, p = .dilithium ∨ p = .dilithium_65 ∨ p = .dilithium_44 := by
  decide +kernel

theorem early_index : ∀ k : Fin steps.length, 7 ≤ k.1 →
    ∀ p ∈ [Part.sha3, .kmac256, .rng, .dilithium, .dilithium_65, .dilithium_44, .dilithium_ed25519],
      p ∈ (steps.take k).map (·.1) := by
  decide +kernel

theorem early_mem (p : Part) (h : Early p) :
    p ∈ [Part.sha3, .kmac256, .rng, .dilithium, .dilithium_65, .dilithium_44, .dilithium_ed25519] := by
  rcases h with h | h | h | h | h | h | h <;> subst h <;> decide

theorem index_early : ∀ k : Fin steps.length, k.1 < 7 →
    (steps[k]).1 ∈ [Part.sha3, .kmac256, .rng, .dilithium, .dilithium_65, .dilithium_44, .dilithium_ed25519] := by
  decide +kernel

/-! ### Properties -/

/-- **C142 (part: success).** If all parts can be registered, loading succeeds and registers each of them
once; unloading then leaves nothing behind and wipes the random number generator.  Loading succeeds only then. -/
theorem c142_load_unload (ans : Part → Int) :
    ((load ans unloaded).1 = 0 ↔ ∀ p, ans p = 0) ∧
    ((load ans unloaded).1 = 0 → Complete (load ans unloaded).2 ∧
      Clean (unload (load ans unloaded).2) ∧ (unload (load ans unloaded).2).wiped = true) := by
  rcases load_cases ans with ⟨h1, h2⟩ | ⟨k, _, h2, h3⟩
  · rw [h2]
    refine ⟨⟨(fun _ => h1), (fun _ => rfl)⟩, fun _ => ⟨⟨?_, by decide +kernel⟩, ⟨?_, by decide +kernel⟩, by decide +kernel⟩⟩
    · intro p
      cases p <;> decide +kernel
    · intro p
      cases p <;> decide +kernel
  · rw [h3]
    exact ⟨⟨(fun h => absurd h h2), (fun h => absurd (h _) h2)⟩, (fun h => absurd h h2)⟩

/-- **C142 (part: failure).** If one of the parts up to the first hybrid signature cannot be registered,
loading fails with the error of one of them and leaves nothing registered.  Missing: failures of later parts, see
`c142_negation_left`. -/
theorem c142_failure_partial (ans : Part → Int) (p : Part) (hp : Early p) (h : ans p ≠ 0) :
    (∃ q, Early q ∧ ans q ≠ 0 ∧ (load ans unloaded).1 = ans q) ∧ Clean (load ans unloaded).2 := by
  rcases load_cases ans with ⟨h1, _⟩ | ⟨k, h1, h2, h3⟩
  · exact absurd (h1 p) h
  · have hk : k.1 < 7 := by
      apply Nat.lt_of_not_le
      intro hc
      obtain ⟨x, hx, hxp⟩ := List.mem_map.1 (early_index k hc p (early_mem p hp))
      exact h (by rw [← hxp]; exact h1 x hx)
    rw [h3]
    refine ⟨⟨_, ?_, h2, rfl⟩, ?_⟩
    · have := index_early k hk
      simp only [List.mem_cons, List.not_mem_nil, or_false] at this
      exact this
    · have := failed_early k hk
      refine ⟨?_, this.2⟩
      intro q
      simp only [this.1, List.count_nil]

/-- **C142 (part: later failures).** Whatever fails, loading returns the error of a part, and nothing
but the hybrid signatures is left registered; nothing but ML-DSA is unregistered without being registered. -/
theorem c142_failure_rest (ans : Part → Int) (p : Part) (h : ans p ≠ 0) :
    (∃ q, ans q ≠ 0 ∧ (load ans unloaded).1 = ans q) ∧
    (∀ q ∈ (load ans unloaded).2.reg,
      q = .dilithium_ed25519 ∨ q = .dilithium_65_ed25519 ∨ q = .dilithium_44_ed25519) ∧
    ∀ q ∈ (load ans unloaded).2.warned, q = .dilithium ∨ q = .dilithium_65 ∨ q = .dilithium_44 := by
  rcases load_cases ans with ⟨h1, _⟩ | ⟨k, _, h2, h3⟩
  · exact absurd (h1 p) h
  · rw [h3]
    refine ⟨⟨_, h2, rfl⟩, ?_⟩
    by_cases hk : k.1 < 7
    · simp only [(failed_early k hk).1, (failed_early k hk).2]
      exact ⟨(fun q hq => by cases hq), (fun q hq => by cases hq)⟩
    · exact (failed_late k (Nat.le_of_not_lt hk)).2.2

/-- **C142 (negation: algorithms left registered).** Whenever loading fails at a part after the first hybrid
signature, that hybrid signature stays registered although the module is not loaded, and the kernel is asked to
unregister ML-DSA-87 a second time. -/
theorem c142_negation_left (ans : Part → Int) (he : ∀ p, Early p → ans p = 0) (h : (load ans unloaded).1 ≠ 0) :
    Part.dilithium_ed25519 ∈ (load ans unloaded).2.reg ∧ Part.dilithium ∈ (load ans unloaded).2.warned := by
  rcases load_cases ans with ⟨_, h2⟩ | ⟨k, _, h2, h3⟩
  · rw [h2] at h
    exact absurd rfl h
  · rw [h3]
    by_cases hk : k.1 < 7
    · have := index_early k hk
      simp only [List.mem_cons, List.not_mem_nil, or_false] at this
      exact absurd (he _ this) h2
    · have := failed_late k (Nat.le_of_not_lt hk)
      exact ⟨this.1, this.2.1⟩

/-- Non-vacuity of `c142_failure_partial` and of `c142_negation_left`: ML-DSA-65 and BIKE cannot be registered. -/
example : Early .dilithium_65 ∧ (fun p => if p = Part.dilithium_65 then (-17 : Int) else 0) .dilithium_65 ≠ 0 :=
  ⟨by simp [Early], by decide⟩

example : let ans : Part → Int := fun p => if p = .bike then -17 else 0
    (∀ p, Early p → ans p = 0) ∧ (load ans unloaded).1 = -17 ∧
      (load ans unloaded).2.reg = [.dilithium_44_ed25519, .dilithium_65_ed25519, .dilithium_ed25519] := by
  refine ⟨?_, by decide +kernel, by decide +kernel⟩
  intro p hp
  rcases hp with h | h | h | h | h | h | h <;> subst h <;> rfl

example : (load (fun _ => 0) unloaded).1 = 0 := by decide +kernel

end LC.Kernel.Load
