import Verif.Cpu.Model

/-!
# C130, C131: implementations used are supported by the CPU

C130: after the selection no pointer is NULL, and every pointer denotes the implementation in C or an accelerated one which is built and whose feature
was detected; all algorithms of a family use the same one.

C131: the features reported are those of the machine, and `lc_cpu_feature_disable` and `lc_cpu_feature_enable` take effect.
-/

namespace LC.Cpu

theorem testBit_orIf (f : Nat) (c : Bool) (b i : Nat) : (orIf f c b).testBit i = (f.testBit i || (c && decide (b = i))) := by
  unfold orIf
  cases c
  · simp
  · simp [Nat.testBit_or, Nat.testBit_two_pow]

/-! ## C131: detection -/

/-- C131: on x86 with cpuid leaf 7 (and a signature in leaf 1 of at least 7, as every processor has) the features reported are exactly the bits of
cpuid. -/
theorem c131_x86_partial (cpu : Nat → Regs) (h7 : 7 ≤ (cpu 0).eax) (hs : 7 ≤ (cpu 1).eax) :
    ∀ i, (detectX86 cpu).testBit i =
      ((decide (i = 0) && (cpu 1).ecx.testBit 28) || (decide (i = 1) && (cpu 7).ebx.testBit 5) ||
       (decide (i = 2) && (cpu 7).ebx.testBit 16) || (decide (i = 3) && (cpu 1).ecx.testBit 25) ||
       (decide (i = 4) && (cpu 7).ecx.testBit 10) || (decide (i = 5) && (cpu 1).ecx.testBit 1)) := by
  intro i
  unfold detectX86
  simp only [if_pos (show (cpu 0).eax ≥ 1 by omega), if_neg (show ¬ (cpu 1).eax < 7 by omega), testBit_orIf, Nat.zero_testBit, AVX, AVX2, AVX512, AESNI,
    VPCLMUL, PCLMUL, Bool.false_or]
  by_cases h0 : i = 0
  · subst h0; simp
  by_cases h1 : i = 1
  · subst h1; simp
  by_cases h2 : i = 2
  · subst h2; simp
  by_cases h3 : i = 3
  · subst h3; simp
  by_cases h4 : i = 4
  · subst h4; simp
  by_cases h5 : i = 5
  · subst h5; simp
  have e0 : ¬ 0 = i := fun h => h0 h.symm
  have e1 : ¬ 1 = i := fun h => h1 h.symm
  have e2 : ¬ 2 = i := fun h => h2 h.symm
  have e3 : ¬ 3 = i := fun h => h3 h.symm
  have e4 : ¬ 4 = i := fun h => h4 h.symm
  have e5 : ¬ 5 = i := fun h => h5 h.symm
  simp [h0, h1, h2, h3, h4, h5, e0, e1, e2, e3, e4, e5]

/-- C131: on every x86 machine a feature reported is a bit of the answer of cpuid to the leaf asked, no other bit is reported. -/
theorem c131_x86_sound (cpu : Nat → Regs) (i : Nat) (h : (detectX86 cpu).testBit i = true) :
    (i = 0 ∧ (cpu 1).ecx.testBit 28 = true) ∨ (i = 1 ∧ (cpu 7).ebx.testBit 5 = true) ∨ (i = 2 ∧ (cpu 7).ebx.testBit 16 = true) ∨
      (i = 3 ∧ (cpu 1).ecx.testBit 25 = true) ∨ (i = 4 ∧ (cpu 7).ecx.testBit 10 = true) ∨ (i = 5 ∧ (cpu 1).ecx.testBit 1 = true) := by
  unfold detectX86 at h
  simp only at h
  have key : ∀ (c0 c3 c5 c1 c2 c4 : Bool) (f : Nat), f.testBit i = true →
      (f.testBit i = (((((((c3 && decide (AESNI = i)) || (c0 && decide (AVX = i))) || (c5 && decide (PCLMUL = i))) ||
        (c1 && decide (AVX2 = i))) || (c2 && decide (AVX512 = i))) || (c4 && decide (VPCLMUL = i))))) →
      (i = 0 ∧ c0 = true) ∨ (i = 1 ∧ c1 = true) ∨ (i = 2 ∧ c2 = true) ∨ (i = 3 ∧ c3 = true) ∨ (i = 4 ∧ c4 = true) ∨ (i = 5 ∧ c5 = true) := by
    intro c0 c3 c5 c1 c2 c4 f hf e
    rw [hf] at e
    simp only [AVX, AVX2, AVX512, AESNI, VPCLMUL, PCLMUL] at e
    have e := e.symm
    simp only [Bool.or_eq_true, Bool.and_eq_true] at e
    rcases e with ((((⟨a, b⟩ | ⟨a, b⟩) | ⟨a, b⟩) | ⟨a, b⟩) | ⟨a, b⟩) | ⟨a, b⟩ <;> have b := of_decide_eq_true b <;> subst b <;> simp [a]
  have weak : ∀ (c5 c1 c2 c4 : Bool), (c5 = true → (cpu 1).ecx.testBit 1 = true) → (c1 = true → (cpu 7).ebx.testBit 5 = true) →
      (c2 = true → (cpu 7).ebx.testBit 16 = true) → (c4 = true → (cpu 7).ecx.testBit 10 = true) →
      ((i = 0 ∧ (cpu 1).ecx.testBit 28 = true) ∨ (i = 1 ∧ c1 = true) ∨ (i = 2 ∧ c2 = true) ∨ (i = 3 ∧ (cpu 1).ecx.testBit 25 = true) ∨
        (i = 4 ∧ c4 = true) ∨ (i = 5 ∧ c5 = true)) →
      (i = 0 ∧ (cpu 1).ecx.testBit 28 = true) ∨ (i = 1 ∧ (cpu 7).ebx.testBit 5 = true) ∨ (i = 2 ∧ (cpu 7).ebx.testBit 16 = true) ∨
      (i = 3 ∧ (cpu 1).ecx.testBit 25 = true) ∨ (i = 4 ∧ (cpu 7).ecx.testBit 10 = true) ∨ (i = 5 ∧ (cpu 1).ecx.testBit 1 = true) := by
    intro c5 c1 c2 c4 h5 h1 h2 h4 hh
    rcases hh with h | ⟨a, b⟩ | ⟨a, b⟩ | h | ⟨a, b⟩ | ⟨a, b⟩
    · exact Or.inl h
    · exact Or.inr (Or.inl ⟨a, h1 b⟩)
    · exact Or.inr (Or.inr (Or.inl ⟨a, h2 b⟩))
    · exact Or.inr (Or.inr (Or.inr (Or.inl h)))
    · exact Or.inr (Or.inr (Or.inr (Or.inr (Or.inl ⟨a, h4 b⟩))))
    · exact Or.inr (Or.inr (Or.inr (Or.inr (Or.inr ⟨a, h5 b⟩))))
  by_cases h1 : (cpu 0).eax ≥ 1
  · simp only [if_pos h1] at h
    by_cases h7 : (cpu 1).eax < 7
    · rw [if_pos h7] at h
      refine weak _ false false false id (by simp) (by simp) (by simp) (key _ _ _ false false false _ h ?_)
      simp only [testBit_orIf, Nat.zero_testBit, Bool.false_or, Bool.false_and, Bool.or_false]
    · rw [if_neg h7] at h
      refine weak _ _ _ _ id id id id (key _ _ _ _ _ _ _ h ?_)
      simp only [testBit_orIf, Nat.zero_testBit, Bool.false_or]
  · simp only [if_neg h1] at h
    rw [if_pos (by omega)] at h
    refine weak false false false false (by simp) (by simp) (by simp) (by simp) (key _ _ false false false false _ h ?_)
    simp only [testBit_orIf, Nat.zero_testBit, Bool.false_or, Bool.false_and, Bool.or_false]

/-- C131: 64 bit ARM with auxv: ARM always, NEON, AES, SHA2 and SHA3 as the system says, nothing else. -/
theorem c131_arm64 (c i : Nat) :
    (detectArm64 c).testBit i = true ↔ i = 8 ∨ (i = 10 ∧ c.testBit 1 = true) ∨ (i = 9 ∧ c.testBit 3 = true) ∨
      (i = 11 ∧ (c.testBit 6 = true ∨ c.testBit 21 = true)) ∨ (i = 12 ∧ c.testBit 17 = true) := by
  unfold detectArm64
  simp only [testBit_orIf, Nat.testBit_two_pow, ARM, ARM_NEON, ARM_AES, ARM_SHA2, ARM_SHA3, Bool.or_eq_true, Bool.and_eq_true, decide_eq_true_eq]
  constructor
  · rintro (((((rfl | ⟨a, rfl⟩) | ⟨a, rfl⟩) | ⟨a, rfl⟩) | ⟨a, rfl⟩) | ⟨a, rfl⟩)
    · simp
    all_goals simp [a]
  · rintro (rfl | ⟨rfl, a⟩ | ⟨rfl, a⟩ | ⟨rfl, a⟩ | ⟨rfl, a⟩)
    · simp
    · simp [a]
    · simp [a]
    · rcases a with a | a <;> simp [a]
    · simp [a]

/-- C131: 64 bit ARM with the feature register: AES and SHA3 only if the field is not zero. -/
theorem c131_arm64native (v i : Nat) :
    (detectArm64Native v).testBit i = true ↔ i = 8 ∨ (i = 9 ∧ (v.testBit 4 = true ∨ v.testBit 8 = true)) ∨ (i = 11 ∧ v.testBit 13 = true) ∨
      (i = 12 ∧ ∃ k, k < 4 ∧ v.testBit (32 + k) = true) := by
  unfold detectArm64Native
  simp only [testBit_orIf, Nat.testBit_two_pow, ARM, ARM_AES, ARM_SHA2, ARM_SHA3, Bool.or_eq_true, Bool.and_eq_true, decide_eq_true_eq]
  constructor
  · rintro (((rfl | ⟨a, rfl⟩) | ⟨a, rfl⟩) | ⟨a, rfl⟩)
    · simp
    · simp [a]
    · simp [a]
    · refine Or.inr (Or.inr (Or.inr ⟨rfl, ?_⟩))
      rcases a with ((a | a) | a) | a
      · exact ⟨0, by omega, a⟩
      · exact ⟨1, by omega, a⟩
      · exact ⟨2, by omega, a⟩
      · exact ⟨3, by omega, a⟩
  · rintro (rfl | ⟨rfl, a⟩ | ⟨rfl, a⟩ | ⟨rfl, k, hk, a⟩)
    · simp
    · rcases a with a | a <;> simp [a]
    · simp [a]
    · refine Or.inr ⟨?_, rfl⟩
      have : k = 0 ∨ k = 1 ∨ k = 2 ∨ k = 3 := by omega
      rcases this with rfl | rfl | rfl | rfl <;> simp_all

/-- C131: RISC-V: the assembler always, vector instructions as the system says, bit manipulation if the system says so or says it has vector
instructions. -/
theorem c131_riscv_partial (c i : Nat) :
    (detectRiscv c).testBit i = true ↔ i = 16 ∨ (i = 17 ∧ (c.testBit 21 = true ∨ c.testBit 1 = true)) ∨ (i = 18 ∧ c.testBit 21 = true) := by
  unfold detectRiscv
  simp only [testBit_orIf, Nat.testBit_two_pow, RISCV_ASM, RISCV_ASM_ZBB, RISCV_ASM_RVV, Bool.or_eq_true, Bool.and_eq_true, decide_eq_true_eq]
  constructor
  · rintro (((rfl | ⟨a, rfl⟩) | ⟨a, rfl⟩) | ⟨a, rfl⟩)
    · simp
    all_goals simp [a]
  · rintro (rfl | ⟨rfl, a⟩ | ⟨rfl, a⟩)
    · simp
    · rcases a with a | a <;> simp [a]
    · simp [a]

/-- C131: 32 bit ARM, what is reported. -/
theorem c131_arm32_partial (c i : Nat) :
    (detectArm32 c).testBit i = true ↔ i = 30 ∨ i = 8 ∨ (i = 10 ∧ c.testBit 1 = true) ∨ (i = 12 ∧ c.testBit 17 = true) := by
  unfold detectArm32 UNSET
  simp only [testBit_orIf, Nat.testBit_or, Nat.testBit_two_pow, ARM, ARM_NEON, ARM_SHA3, Bool.or_eq_true, Bool.and_eq_true, decide_eq_true_eq]
  constructor
  · rintro (((rfl | rfl) | ⟨a, rfl⟩) | ⟨a, rfl⟩)
    · simp
    · simp
    · simp [a]
    · simp [a]
  · rintro (rfl | rfl | ⟨rfl, a⟩ | ⟨rfl, a⟩)
    · simp
    · simp
    · simp [a]
    · simp [a]

/-- A processor whose highest leaf is 5; asked for leaf 7 it answers with the data of the highest leaf, as documented by Intel. -/
def oldCpu : Nat → Regs
  | 0 => ⟨5, 0, 0⟩
  | 1 => ⟨0xF41, 0, 0⟩
  | _ => ⟨64, 64 + 32, 3⟩

/-- C131, negation: the maximum leaf is overwritten before it is examined, so leaf 7 is asked on processors which do not have it, and AVX2 is reported from
what is not a feature word. -/
theorem c131_negation_leaf : (oldCpu 0).eax < 7 ∧ (detectX86 oldCpu).testBit 1 = true := by
  refine ⟨by decide +kernel, ?_⟩
  decide +kernel

/-- C131, negation: on 32 bit ARM the bits of 64 bit ARM are used.  AT_HWCAP bit 12 is NEON, bit 1 is HALF (half word loads, every processor), bit 17 is
IDIVA: NEON and SHA3 are reported without being there. -/
theorem c131_negation_arm32 :
    ∃ c : Nat, c.testBit 12 = false ∧ (detectArm32 c).testBit 10 = true ∧ (detectArm32 c).testBit 12 = true :=
  ⟨2 ^ 1 + 2 ^ 17, by decide +kernel, by decide +kernel, by decide +kernel⟩

/-- C131, negation: on RISC-V with vector instructions but without bit manipulation the latter is reported. -/
theorem c131_negation_zbb : ∃ c : Nat, c.testBit 1 = false ∧ (detectRiscv c).testBit 17 = true := ⟨2 ^ 21, by decide +kernel, by decide +kernel⟩

/-! ## C131: enable and disable -/

/-- Whether the last call of enable or disable was disable. -/
def disabledAfter : List Op → Bool → Bool
  | [], b => b
  | .disable :: ops, _ => disabledAfter ops true
  | .enable :: ops, _ => disabledAfter ops false
  | .available :: ops, b => disabledAfter ops b

/-- What the variable holds, by whether features are disabled. -/
def VarOk (u d feat : Nat) (b : Bool) : Prop := (b = true ∧ feat = 0) ∨ (b = false ∧ (feat = u ∨ feat = d))

theorem call_available (unset : Nat → Bool) (d feat : Nat) : call unset d feat .available = if unset feat then (d, d) else (feat, feat) := rfl

theorem call_ok (unset : Nat → Bool) (u d : Nat) (hU : UNSET = u) (hu : unset u = true) (h0 : unset 0 = false) (hd : unset d = false)
    (feat : Nat) (b : Bool) (op : Op) (h : VarOk u d feat b) : VarOk u d (call unset d feat op).1 (disabledAfter [op] b) := by
  cases op with
  | disable => exact Or.inl ⟨rfl, rfl⟩
  | enable => exact Or.inr ⟨rfl, Or.inl hU⟩
  | available =>
    rw [call_available]
    rcases h with ⟨rfl, rfl⟩ | ⟨rfl, rfl | rfl⟩
    · rw [h0]; exact Or.inl ⟨rfl, rfl⟩
    · rw [hu]; exact Or.inr ⟨rfl, Or.inr rfl⟩
    · rw [hd]; exact Or.inr ⟨rfl, Or.inr rfl⟩

theorem disabledAfter_cons (op : Op) (ops : List Op) (b : Bool) : disabledAfter (op :: ops) b = disabledAfter ops (disabledAfter [op] b) := by
  cases op <;> rfl

theorem calls_aux (unset : Nat → Bool) (u d : Nat) (hU : UNSET = u) (hu : unset u = true) (h0 : unset 0 = false) (hd : unset d = false)
    (ops : List Op) : ∀ (feat : Nat) (b : Bool), VarOk u d feat b →
      (call unset d (ops.foldl (fun f op => (call unset d f op).1) feat) .available).2 = if disabledAfter ops b then 0 else d := by
  induction ops with
  | nil =>
    intro feat b h
    rw [List.foldl_nil, call_available]
    rcases h with ⟨rfl, rfl⟩ | ⟨rfl, rfl | rfl⟩
    · rw [h0]; rfl
    · rw [hu]; rfl
    · rw [hd]; rfl
  | cons op ops ih =>
    intro feat b h
    rw [List.foldl_cons, disabledAfter_cons]
    exact ih _ _ (call_ok unset u d hU hu h0 hd feat b op h)

/-- The check of the variable on a platform. -/
def unsetOn : Target → Nat → Bool
  | .x86 => unsetX86
  | .x86plain => unsetX86
  | _ => unsetEq

theorem unset_detect (m : Machine) (t : Target) : unsetOn t (detectOn m t) = false := by
  have ne : ∀ f k : Nat, k ≠ 30 → f.testBit k = true → unsetEq f = false := by
    intro f k hk hf
    unfold unsetEq
    rw [beq_eq_false_iff_ne]
    intro h
    rw [h, UNSET, Nat.testBit_two_pow] at hf
    simp at hf
    exact hk hf.symm
  have x86 : unsetX86 (detectX86 m.cpuid) = false := by
    unfold unsetX86
    cases h : (detectX86 m.cpuid).testBit 30 with
    | false => rfl
    | true =>
      rcases c131_x86_sound m.cpuid 30 h with h | h | h | h | h | h <;> exact absurd h.1 (by decide +kernel)
  cases t with
  | x86 => exact x86
  | x86plain => exact x86
  | arm64 => exact ne _ 8 (by decide +kernel) ((c131_arm64 _ 8).2 (Or.inl rfl))
  | arm64native => exact ne _ 8 (by decide +kernel) ((c131_arm64native _ 8).2 (Or.inl rfl))
  | arm32 => exact ne _ 8 (by decide +kernel) ((c131_arm32_partial _ 8).2 (Or.inr (Or.inl rfl)))
  | riscv64 => exact ne _ 16 (by decide +kernel) ((c131_riscv_partial _ 16).2 (Or.inl rfl))
  | other =>
    show unsetEq 0 = false
    decide +kernel

theorem unsetX86_unset : unsetX86 UNSET = true := by
  unfold unsetX86 UNSET
  rw [Nat.testBit_two_pow]
  rfl

/-- C131: on every platform and after every sequence of calls `lc_cpu_feature_available` returns no feature if `lc_cpu_feature_disable` was called last,
and the features of the machine otherwise. -/
theorem c131_switch (m : Machine) (t : Target) (ops : List Op) :
    (call (unsetOn t) (detectOn m t) (calls (unsetOn t) (detectOn m t) ops) .available).2 =
      if disabledAfter ops false then 0 else detectOn m t := by
  unfold calls
  refine calls_aux (unsetOn t) UNSET (detectOn m t) rfl ?_ ?_ (unset_detect m t) ops UNSET false (Or.inr ⟨rfl, Or.inl rfl⟩)
  · cases t
    case x86 => exact unsetX86_unset
    case x86plain => exact unsetX86_unset
    all_goals exact beq_self_eq_true UNSET
  · cases t
    case x86 => exact Nat.zero_testBit 30
    case x86plain => exact Nat.zero_testBit 30
    all_goals decide +kernel

/-! ## C130: selection -/

/-- The feature an implementation needs. -/
def needs : Accel → Nat
  | .avx512 => 2
  | .avx2 => 1
  | .armCe => 12
  | .armNeon => 10
  | .armAsm => 8
  | .rvZbb => 17
  | .rvAsm => 16
  | .aesni => 3
  | .armAes => 9
  | .rvAes => 16

/-- An implementation which may be used: C, or one which is built and whose feature is there. -/
def Good (built : Accel → Bool) (feat : Nat) (i : Impl) : Prop :=
  i = .c ∨ ∃ a, i = .acc a ∧ built a = true ∧ feat.testBit (needs a) = true

/-- Pointers of an accelerated implementation after the check for NULL. -/
def filled (built : Accel → Bool) (a : Accel) : Impl := if built a then .acc a else .c

theorem foldl_fillNull {α : Type} (first : α) (built : Accel → Bool) : ∀ (as : List Accel) (t : Tab α),
    (∀ b x, t.named b x = t.named b first) → (∀ b x, t.named b x = some (filled built b) ∨ (t.named b x = none ∧ built b = false)) →
    (∀ b x, (as.foldl (fillNull first) t).named b x = some (filled built b) ∨ (b ∉ as ∧ (as.foldl (fillNull first) t).named b x = t.named b x)) ∧
      (as.foldl (fillNull first) t).dflt = t.dflt
  | [], t, _, _ => ⟨fun b x => Or.inr ⟨by simp, rfl⟩, rfl⟩
  | a :: as, t, hu, h => by
    have hn : ∀ b x, (fillNull first t a).named b x = if b = a then some (filled built b) else t.named b x := by
      intro b x
      unfold fillNull
      by_cases hb : b = a
      · subst hb
        rw [if_pos rfl]
        rcases h b first with h1 | h1
        · rw [if_neg (by rw [h1]; simp), hu b x, h1]
        · rw [if_pos h1.1]
          simp [fillC, filled, h1.2]
      · rw [if_neg hb]
        split
        · simp [fillC, hb]
        · rfl
    have hd : (fillNull first t a).dflt = t.dflt := by
      unfold fillNull; split <;> rfl
    obtain ⟨h1, h2⟩ := foldl_fillNull first built as (fillNull first t a)
      (by intro b x; rw [hn, hn, hu b x])
      (by
        intro b x
        rw [hn]
        by_cases hb : b = a
        · rw [if_pos hb]; exact Or.inl rfl
        · rw [if_neg hb]; exact h b x)
    rw [List.foldl_cons]
    refine ⟨?_, by rw [h2, hd]⟩
    intro b x
    rcases h1 b x with h3 | ⟨h3, h4⟩
    · exact Or.inl h3
    · rw [hn] at h4
      by_cases hb : b = a
      · rw [if_pos hb] at h4; exact Or.inl h4
      · rw [if_neg hb] at h4
        refine Or.inr ⟨?_, h4⟩
        intro hm
        rcases List.mem_cons.1 hm with h | h
        · exact hb h
        · exact h3 h

theorem init_fill {α : Type} (first : α) (built : Accel → Bool) (as : List Accel) (b : Accel) (hb : b ∈ as) (x : α) :
    (as.foldl (fillNull first) (init α built)).named b x = some (filled built b) := by
  have h := (foldl_fillNull first built as (init α built) (fun _ _ => rfl) (fun b x => by
    unfold init filled
    cases hb : built b <;> simp [hb])).1 b x
  rcases h with h | h
  · exact h
  · exact absurd hb h.1

theorem init_dflt {α : Type} (first : α) (built : Accel → Bool) (as : List Accel) :
    (as.foldl (fillNull first) (init α built)).dflt = fun _ => some .c :=
  (foldl_fillNull first built as (init α built) (fun _ _ => rfl) (fun b x => by
    unfold init filled
    cases hb : built b <;> simp [hb])).2

theorem unlessC_dflt {α : Type} (feat bit : Nat) (t : Tab α) (a : Accel) : (unlessC feat bit t a).dflt = t.dflt := by
  unfold unlessC; split <;> rfl

theorem unlessC_named {α : Type} (feat bit : Nat) (t : Tab α) (a b : Accel) (x : α) :
    (unlessC feat bit t a).named b x = if b = a ∧ feat.testBit bit = false then some .c else t.named b x := by
  unfold unlessC
  cases h : feat.testBit bit
  · simp [fillC]
  · simp

theorem setDflt_named {α : Type} (t : Tab α) (a : Accel) : (setDflt t a).named = t.named := rfl

theorem filled_good (built : Accel → Bool) (feat : Nat) (a : Accel) (h : feat.testBit (needs a) = true) : Good built feat (filled built a) := by
  unfold filled
  cases hb : built a
  · exact Or.inl rfl
  · exact Or.inr ⟨a, rfl, hb, h⟩

/-- What is chosen for SHA-3. -/
def sha3Choice (built : Accel → Bool) (feat : Nat) : Impl :=
  if feat.testBit 2 then filled built .avx512
  else if feat.testBit 1 then filled built .avx2
  else if feat.testBit 12 then filled built .armCe
  else if feat.testBit 10 then (if built .armNeon then .acc .armNeon else filled built .armAsm)
  else if feat.testBit 8 then filled built .armAsm
  else if feat.testBit 17 then filled built .rvZbb
  else if feat.testBit 16 then filled built .rvAsm
  else .c

theorem sha3_dflt (built : Accel → Bool) (feat : Nat) (x : Sha3) : (sha3Select built feat).dflt x = some (sha3Choice built feat) := by
  have hf := init_fill Sha3.sha3_224 built [Accel.armAsm, .armCe, .armNeon, .avx512, .avx2, .rvAsm, .rvZbb]
  have hd := init_dflt Sha3.sha3_224 built [Accel.armAsm, .armCe, .armNeon, .avx512, .avx2, .rvAsm, .rvZbb]
  unfold sha3Select
  simp only [unlessC_dflt]
  generalize List.foldl (fillNull Sha3.sha3_224) (init Sha3 built) [Accel.armAsm, .armCe, .armNeon, .avx512, .avx2, .rvAsm, .rvZbb] = t at hf hd
  have e : sha3Choice built feat = if feat.testBit AVX512 then filled built .avx512
    else if feat.testBit AVX2 then filled built .avx2
    else if feat.testBit ARM_SHA3 then filled built .armCe
    else if feat.testBit ARM_NEON then (if built .armNeon then .acc .armNeon else filled built .armAsm)
    else if feat.testBit ARM then filled built .armAsm
    else if feat.testBit RISCV_ASM_ZBB then filled built .rvZbb
    else if feat.testBit RISCV_ASM then filled built .rvAsm
    else .c := rfl
  rw [e]
  by_cases h2 : feat.testBit AVX512 = true
  · rw [if_pos h2, if_pos h2]
    exact hf .avx512 (by simp) x
  rw [if_neg h2, if_neg h2]
  by_cases h1 : feat.testBit AVX2 = true
  · rw [if_pos h1, if_pos h1]
    exact hf .avx2 (by simp) x
  rw [if_neg h1, if_neg h1]
  by_cases h12 : feat.testBit ARM_SHA3 = true
  · rw [if_pos h12, if_pos h12]
    exact hf .armCe (by simp) x
  rw [if_neg h12, if_neg h12]
  by_cases h10 : feat.testBit ARM_NEON = true
  · rw [if_pos h10, if_pos h10]
    rw [hf .armNeon (by simp) .sha3_224]
    cases hb : built .armNeon
    · rw [if_pos (by simp [filled, hb])]
      simp only [Bool.false_eq_true, if_false]
      exact hf .armAsm (by simp) x
    · rw [if_neg (by simp [filled, hb])]
      have := hf .armNeon (by simp) x
      simpa [filled, hb, setDflt] using this
  rw [if_neg h10, if_neg h10]
  by_cases h8 : feat.testBit ARM = true
  · rw [if_pos h8, if_pos h8]
    exact hf .armAsm (by simp) x
  rw [if_neg h8, if_neg h8]
  by_cases h17 : feat.testBit RISCV_ASM_ZBB = true
  · rw [if_pos h17, if_pos h17]
    exact hf .rvZbb (by simp) x
  rw [if_neg h17, if_neg h17]
  by_cases h16 : feat.testBit RISCV_ASM = true
  · rw [if_pos h16, if_pos h16]
    exact hf .rvAsm (by simp) x
  rw [if_neg h16, if_neg h16]
  rw [hd]

theorem sha3_named (built : Accel → Bool) (feat : Nat) (a : Accel) (ha : a ∈ [Accel.armAsm, .armCe, .armNeon, .avx512, .avx2, .rvAsm, .rvZbb])
    (x : Sha3) : (sha3Select built feat).named a x = some (if feat.testBit (needs a) then filled built a else .c) := by
  have hf := init_fill Sha3.sha3_224 built [Accel.armAsm, .armCe, .armNeon, .avx512, .avx2, .rvAsm, .rvZbb]
  unfold sha3Select
  simp only [unlessC_named]
  generalize List.foldl (fillNull Sha3.sha3_224) (init Sha3 built) [Accel.armAsm, .armCe, .armNeon, .avx512, .avx2, .rvAsm, .rvZbb] = t at hf
  have hn : (if feat.testBit AVX512 then setDflt t .avx512
    else if feat.testBit AVX2 then setDflt t .avx2
    else if feat.testBit ARM_SHA3 then setDflt t .armCe
    else if feat.testBit ARM_NEON then
      if t.named .armNeon .sha3_224 = some .c then setDflt t .armAsm else setDflt t .armNeon
    else if feat.testBit ARM then setDflt t .armAsm
    else if feat.testBit RISCV_ASM_ZBB then setDflt t .rvZbb
    else if feat.testBit RISCV_ASM then setDflt t .rvAsm
    else t).named = t.named := by
    repeat' split
    all_goals rfl
  rw [hn, hf a ha x]
  have hm : a = .armAsm ∨ a = .armCe ∨ a = .armNeon ∨ a = .avx512 ∨ a = .avx2 ∨ a = .rvAsm ∨ a = .rvZbb := by simpa using ha
  rcases hm with rfl | rfl | rfl | rfl | rfl | rfl | rfl <;>
  simp only [needs, AVX512, AVX2, ARM_SHA3, ARM_NEON, ARM, RISCV_ASM_ZBB, RISCV_ASM, reduceCtorEq, false_and, true_and, if_false]
  · by_cases h : feat.testBit 8 = true <;> simp [h]
  · by_cases h : feat.testBit 12 = true <;> simp [h]
  · by_cases h : feat.testBit 10 = true <;> simp [h]
  · by_cases h : feat.testBit 2 = true <;> simp [h]
  · by_cases h : feat.testBit 1 = true <;> simp [h]
  · by_cases h : feat.testBit 16 = true <;> simp [h]
  · by_cases h : feat.testBit 17 = true <;> simp [h]

/-- C130: whatever is built and whatever features there are (NEON only together with ARM, see `c130_platforms`), all SHA-3 algorithms use the same
implementation, it is built and its feature is there; the named pointers are not NULL and denote their implementation only if it is built and the
feature is there, the one in C otherwise. -/
theorem c130_sha3 (built : Accel → Bool) (feat : Nat) (h : feat.testBit 10 = true → feat.testBit 8 = true) :
    (∃ i, Good built feat i ∧ ∀ x, (sha3Select built feat).dflt x = some i) ∧
    ∀ a ∈ [Accel.armAsm, .armCe, .armNeon, .avx512, .avx2, .rvAsm, .rvZbb], ∀ x,
      (sha3Select built feat).named a x = some (if built a = true ∧ feat.testBit (needs a) = true then .acc a else .c) := by
  refine ⟨⟨sha3Choice built feat, ?_, sha3_dflt built feat⟩, ?_⟩
  · unfold sha3Choice
    split
    · exact filled_good _ _ _ ‹_›
    · split
      · exact filled_good _ _ _ ‹_›
      · split
        · exact filled_good _ _ _ ‹_›
        · split
          · rename_i hn
            cases hb : built .armNeon
            · simp only [Bool.false_eq_true, if_false]
              exact filled_good _ _ _ (h hn)
            · simp only [if_true]
              exact Or.inr ⟨_, rfl, hb, hn⟩
          · split
            · exact filled_good _ _ _ ‹_›
            · split
              · exact filled_good _ _ _ ‹_›
              · split
                · exact filled_good _ _ _ ‹_›
                · exact Or.inl rfl
  · intro a ha x
    rw [sha3_named built feat a ha x]
    unfold filled
    cases built a <;> cases feat.testBit (needs a) <;> simp

/-- C130: the same for Ascon. -/
theorem c130_ascon (built : Accel → Bool) (feat : Nat) :
    (∃ i, Good built feat i ∧ ∀ x, (asconSelect built feat).dflt x = some i) ∧
    ∀ a ∈ [Accel.avx512, .armNeon], ∀ x,
      (asconSelect built feat).named a x = some (if built a = true ∧ feat.testBit (needs a) = true then .acc a else .c) := by
  have hf := init_fill Ascon.ascon256 built [Accel.avx512, .armNeon]
  have hd := init_dflt Ascon.ascon256 built [Accel.avx512, .armNeon]
  unfold asconSelect
  simp only [unlessC_dflt, unlessC_named]
  generalize [Accel.avx512, .armNeon].foldl (fillNull Ascon.ascon256) (init Ascon built) = t at hf hd
  constructor
  · split
    · exact ⟨_, filled_good built feat .avx512 ‹_›, hf .avx512 (by simp)⟩
    · split
      · exact ⟨_, filled_good built feat .armNeon ‹_›, hf .armNeon (by simp)⟩
      · exact ⟨.c, Or.inl rfl, fun x => by rw [hd]⟩
  · intro a ha x
    have hn : (if feat.testBit AVX512 then setDflt t .avx512 else if feat.testBit ARM_NEON then setDflt t .armNeon else t).named = t.named := by
      repeat' split
      all_goals rfl
    rw [hn, hf a ha x]
    have hm : a = .avx512 ∨ a = .armNeon := by simpa using ha
    rcases hm with rfl | rfl <;> simp only [needs, AVX512, ARM_NEON, filled, reduceCtorEq, false_and, true_and, if_false]
    · by_cases h : feat.testBit 2 = true <;> cases built .avx512 <;> simp [h]
    · by_cases h : feat.testBit 10 = true <;> cases built .armNeon <;> simp [h]

/-- C130: the same for AES, if the implementations for ARM and RISC-V are built wherever their features are reported (they are, see
`c130_platforms`). -/
theorem c130_aes (built : Accel → Bool) (feat : Nat) (h1 : feat.testBit 9 = true → built .armAes = true)
    (h2 : feat.testBit 16 = true → built .rvAes = true) :
    (∃ i, Good built feat i ∧ ∀ x, (aesSelect built feat).dflt x = some i) ∧
    ∀ a ∈ [Accel.aesni, .armAes, .rvAes], ∀ x,
      (aesSelect built feat).named a x = some (if built a = true ∧ feat.testBit (needs a) = true then .acc a else .c) := by
  have ht : ∀ b x, (fillNull Aes.cbc (init Aes built) .aesni).named b x =
      if b = .aesni then some (filled built b) else if built b then some (.acc b) else none := by
    intro b x
    unfold fillNull
    by_cases hb : b = .aesni
    · subst hb
      by_cases hb : built .aesni = true <;> simp [init, fillC, filled, hb]
    · rw [if_neg hb]
      split
      · simp [fillC, init, hb]
      · rfl
  have hd : (fillNull Aes.cbc (init Aes built) .aesni).dflt = fun _ => some .c := by
    unfold fillNull; split <;> rfl
  unfold aesSelect
  simp only [unlessC_dflt, unlessC_named]
  generalize fillNull Aes.cbc (init Aes built) .aesni = t at ht hd
  constructor
  · split
    · exact ⟨_, filled_good built feat .aesni ‹_›, fun x => by
        show t.named .aesni x = _
        rw [ht]; simp⟩
    · split
      · rename_i hc
        exact ⟨.acc .armAes, Or.inr ⟨_, rfl, h1 hc, hc⟩, fun x => by
          show t.named .armAes x = _
          rw [ht]; simp [h1 hc]⟩
      · split
        · rename_i hc
          exact ⟨.acc .rvAes, Or.inr ⟨_, rfl, h2 hc, hc⟩, fun x => by
            show t.named .rvAes x = _
            rw [ht]; simp [h2 hc]⟩
        · exact ⟨.c, Or.inl rfl, fun x => by rw [hd]⟩
  · intro a ha x
    have hn : (if feat.testBit AESNI then setDflt t .aesni else if feat.testBit ARM_AES then setDflt t .armAes
        else if feat.testBit RISCV_ASM then setDflt t .rvAes else t).named = t.named := by
      repeat' split
      all_goals rfl
    rw [hn, ht a x]
    have hm : a = .aesni ∨ a = .armAes ∨ a = .rvAes := by simpa using ha
    rcases hm with rfl | rfl | rfl <;>
    simp only [needs, AESNI, ARM_AES, RISCV_ASM, filled, reduceCtorEq, false_and, true_and, if_false, if_true]
    · by_cases h : feat.testBit 3 = true <;> cases built .aesni <;> simp [h]
    · by_cases hb : feat.testBit 9 = true
      · simp [hb, h1 hb]
      · simp [hb]
    · by_cases hb : feat.testBit 16 = true
      · simp [hb, h2 hb]
      · simp [hb]

/-- C130: on every platform and every machine, with what is built and detected there, the implementations of SHA-3, Ascon and AES are not NULL, are
built and their feature was detected. -/
theorem c130_platforms (t : Target) (m : Machine) :
    (∃ i, Good (builtOn t) (detectOn m t) i ∧ ∀ x, (sha3Select (builtOn t) (detectOn m t)).dflt x = some i) ∧
    (∃ i, Good (builtOn t) (detectOn m t) i ∧ ∀ x, (asconSelect (builtOn t) (detectOn m t)).dflt x = some i) ∧
    (∃ i, Good (builtOn t) (detectOn m t) i ∧ ∀ x, (aesSelect (builtOn t) (detectOn m t)).dflt x = some i) := by
  have x86 : ∀ i, 6 ≤ i → (detectX86 m.cpuid).testBit i = false := by
    intro i hi
    cases h : (detectX86 m.cpuid).testBit i with
    | false => rfl
    | true => rcases c131_x86_sound _ _ h with h | h | h | h | h | h <;> omega
  refine ⟨(c130_sha3 _ _ ?_).1, (c130_ascon _ _).1, (c130_aes _ _ ?_ ?_).1⟩
  · cases t with
    | x86 => intro h; rw [show detectOn m .x86 = detectX86 m.cpuid from rfl, x86 10 (by omega)] at h; cases h
    | x86plain => intro h; rw [show detectOn m .x86plain = detectX86 m.cpuid from rfl, x86 10 (by omega)] at h; cases h
    | arm64 => exact fun _ => (c131_arm64 _ 8).2 (Or.inl rfl)
    | arm64native => exact fun _ => (c131_arm64native _ 8).2 (Or.inl rfl)
    | arm32 => exact fun _ => (c131_arm32_partial _ 8).2 (Or.inr (Or.inl rfl))
    | riscv64 =>
      intro h
      have := (c131_riscv_partial _ 10).1 h
      omega
    | other => intro h; simp [detectOn] at h
  · cases t with
    | x86 => intro h; rw [show detectOn m .x86 = detectX86 m.cpuid from rfl, x86 9 (by omega)] at h; cases h
    | x86plain => intro h; rw [show detectOn m .x86plain = detectX86 m.cpuid from rfl, x86 9 (by omega)] at h; cases h
    | arm64 => exact fun _ => rfl
    | arm64native => exact fun _ => rfl
    | arm32 =>
      intro h
      have := (c131_arm32_partial _ 9).1 h
      omega
    | riscv64 =>
      intro h
      have := (c131_riscv_partial _ 9).1 h
      omega
    | other => intro h; simp [detectOn] at h
  · cases t with
    | x86 => intro h; rw [show detectOn m .x86 = detectX86 m.cpuid from rfl, x86 16 (by omega)] at h; cases h
    | x86plain => intro h; rw [show detectOn m .x86plain = detectX86 m.cpuid from rfl, x86 16 (by omega)] at h; cases h
    | arm64 =>
      intro h
      have := (c131_arm64 _ 16).1 h
      omega
    | arm64native =>
      intro h
      have := (c131_arm64native _ 16).1 h
      omega
    | arm32 =>
      intro h
      have := (c131_arm32_partial _ 16).1 h
      omega
    | riscv64 => exact fun _ => rfl
    | other => intro h; simp [detectOn] at h

/-- C130: the accelerated implementation is used where it is built and its feature is reported: SHA-3 on x86-64, 64 bit ARM and RISC-V. -/
theorem c130_used (m : Machine) (x : Sha3) :
    (sha3Select (builtOn .x86) (detectOn m .x86)).dflt x = some (if (detectOn m .x86).testBit 2 then .acc .avx512
      else if (detectOn m .x86).testBit 1 then .acc .avx2 else .c) ∧
    (sha3Select (builtOn .arm64) (detectOn m .arm64)).dflt x = some (if m.hwcap.testBit 17 then .acc .armCe else .acc .armAsm) ∧
    (sha3Select (builtOn .riscv64) (detectOn m .riscv64)).dflt x =
      some (if m.hwcap.testBit 21 || m.hwcap.testBit 1 then .acc .rvZbb else .acc .rvAsm) := by
  refine ⟨?_, ?_, ?_⟩
  · rw [sha3_dflt]
    have x86 : ∀ i, 6 ≤ i → (detectOn m .x86).testBit i = false := by
      intro i hi
      cases h : (detectOn m .x86).testBit i with
      | false => rfl
      | true => rcases c131_x86_sound _ _ h with h | h | h | h | h | h <;> omega
    unfold sha3Choice
    rw [x86 12 (by omega), x86 10 (by omega), x86 8 (by omega), x86 17 (by omega), x86 16 (by omega)]
    rfl
  · rw [sha3_dflt]
    have f : ∀ i, i ≠ 8 → i ≠ 9 → i ≠ 10 → i ≠ 11 → i ≠ 12 → (detectOn m .arm64).testBit i = false := by
      intro i a b c d e
      cases h : (detectOn m .arm64).testBit i with
      | false => rfl
      | true =>
        have := (c131_arm64 _ i).1 h
        omega
    have h8 : (detectOn m .arm64).testBit 8 = true := (c131_arm64 _ 8).2 (Or.inl rfl)
    have h12 : (detectOn m .arm64).testBit 12 = m.hwcap.testBit 17 := by
      rw [Bool.eq_iff_iff]
      have := c131_arm64 m.hwcap 12
      simpa [detectOn] using this
    unfold sha3Choice
    rw [f 2 (by decide +kernel) (by decide +kernel) (by decide +kernel) (by decide +kernel) (by decide +kernel), f 1 (by decide +kernel) (by decide +kernel) (by decide +kernel) (by decide +kernel) (by decide +kernel), h8, h12]
    cases m.hwcap.testBit 17
    · cases (detectOn m .arm64).testBit 10 <;> rfl
    · rfl
  · rw [sha3_dflt]
    have f : ∀ i, i < 16 → (detectOn m .riscv64).testBit i = false := by
      intro i a
      cases h : (detectOn m .riscv64).testBit i with
      | false => rfl
      | true =>
        have := (c131_riscv_partial _ i).1 h
        omega
    have h16 : (detectOn m .riscv64).testBit 16 = true := (c131_riscv_partial _ 16).2 (Or.inl rfl)
    have h17 : (detectOn m .riscv64).testBit 17 = (m.hwcap.testBit 21 || m.hwcap.testBit 1) := by
      rw [Bool.eq_iff_iff, Bool.or_eq_true]
      have := c131_riscv_partial m.hwcap 17
      simpa [detectOn] using this
    unfold sha3Choice
    rw [f 2 (by decide +kernel), f 1 (by decide +kernel), f 12 (by decide +kernel), f 10 (by decide +kernel), f 8 (by decide +kernel), h17, h16]
    rfl

/-- The hypothesis of `c130_aes` is needed: where the feature of RISC-V is reported and its AES is not built, the default pointers are NULL. -/
example : (aesSelect (fun _ => false) (2 ^ 16)).dflt .cbc = none := by decide +kernel

/-- A machine with AVX2 but without AVX512. -/
example : (sha3Select (builtOn .x86) (detectX86 (fun l => if l = 0 then ⟨7, 0, 0⟩ else if l = 1 then ⟨0x306C3, 0, 2 ^ 28⟩ else ⟨0, 2 ^ 5, 0⟩))).dflt
    .shake256 = some (.acc .avx2) := by decide +kernel

/-- Disabled and enabled again. -/
example : disabledAfter [.available, .disable, .available] false = true ∧ disabledAfter [.disable, .enable] false = false := by decide +kernel

/-- The hypotheses of `c131_x86_partial`. -/
example : ∃ cpu : Nat → Regs, 7 ≤ (cpu 0).eax ∧ 7 ≤ (cpu 1).eax ∧ (detectX86 cpu).testBit 1 = true :=
  ⟨fun l => if l = 0 then ⟨7, 0, 0⟩ else if l = 1 then ⟨0x306C3, 0, 2 ^ 28⟩ else ⟨0, 2 ^ 5, 0⟩, by decide +kernel, by decide +kernel, by decide +kernel⟩

end LC.Cpu
