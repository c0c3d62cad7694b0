import Verif.Seeded.EntropyModel

/-!
# Properties of the entropy sources
-/

namespace LC.Entropy

/-- The bytes of an outcome. -/
def bytes : Out → List UInt8
  | .got d => d
  | .err _ => []

/-- Everything the system delivered in a series of calls. -/
def delivered (os : List Out) : List UInt8 := os.flatMap bytes

theorem getrandomLoop_spec : ∀ (os : List Out) (errno : Nat) (w : List UInt8) (len : Nat) (r : Int) (v : List UInt8),
    getrandomLoop os errno w len = some (r, v) → ∃ k o, k < os.length ∧ os[k]? = some o ∧
      v = w ++ (delivered (os.take (k + 1))).take len ∧
      ((r = v.length ∧ (v.length = w.length + len ∨ o = .got [])) ∨ ∃ e, o = .err e ∧ r = -(e : Int) ∧ (len ≠ 0 → e ≠ EINTR)) := by
  intro os
  induction os with
  | nil => intro errno w len r v h; simp [getrandomLoop] at h
  | cons o os ih =>
    intro errno w len r v h
    cases o with
    | got d =>
      rw [getrandomLoop] at h
      split at h
      · rename_i hd
        split at h
        · rename_i hl
          obtain ⟨k, o, hk, ho, hv, hr⟩ := ih _ _ _ _ _ h
          have hfull : d.take len = d := by
            simp only [List.length_take] at hl
            exact List.take_of_length_le (by omega)
          refine ⟨k + 1, o, by simp; omega, by simpa using ho, ?_, ?_⟩
          · have hdel : delivered (Out.got d :: os.take (k + 1)) = d ++ delivered (os.take (k + 1)) := by
              simp [delivered, bytes]
            rw [hv, hfull, List.take_succ_cons, hdel, List.take_append, hfull, List.append_assoc]
          · rcases hr with ⟨h1, h2⟩ | ⟨e, h1, h2, h3⟩
            · refine .inl ⟨h1, ?_⟩
              rcases h2 with h2 | h2
              · left
                rw [h2, List.length_append]
                omega
              · exact .inr h2
            · exact .inr ⟨e, h1, h2, fun _ => h3 hl⟩
        · rename_i hl
          injection h with h
          injection h with h1 h2
          refine ⟨0, .got d, by simp, rfl, ?_, .inl ⟨?_, ?_⟩⟩
          · rw [← h2]; simp [delivered, bytes]
          · rw [← h1, ← h2]
          · left
            rw [← h2, List.length_append]
            simp only [List.length_take] at hl ⊢
            omega
      · rename_i hd
        have h0 : d.take len = [] := by
          cases h : d.take len with
          | nil => rfl
          | cons => rw [h] at hd; simp at hd
        split at h
        · rename_i hl
          obtain ⟨k, o, hk, ho, hv, hr⟩ := ih _ _ _ _ _ h
          have hdn : d = [] := by
            rcases List.take_eq_nil_iff.mp h0 with h | h
            · exact absurd h hl.2
            · exact h
          refine ⟨k + 1, o, by simp; omega, by simpa using ho, ?_, hr⟩
          rw [hv, List.take_succ_cons, delivered, delivered, List.flatMap_cons, bytes, hdn, List.nil_append]
        · rename_i hl
          injection h with h
          injection h with h1 h2
          refine ⟨0, .got d, by simp, rfl, ?_, .inl ⟨?_, ?_⟩⟩
          · rw [← h2]; simp [delivered, bytes, h0]
          · rw [← h1, ← h2]
          · by_cases hz : len = 0
            · left; rw [← h2, hz]; rfl
            · right
              rcases List.take_eq_nil_iff.mp h0 with h | h
              · exact absurd h hz
              · rw [h]
    | err e =>
      rw [getrandomLoop] at h
      split at h
      · rename_i hl
        obtain ⟨k, o, hk, ho, hv, hr⟩ := ih _ _ _ _ _ h
        refine ⟨k + 1, o, by simp; omega, by simpa using ho, ?_, hr⟩
        rw [hv, List.take_succ_cons, delivered, delivered, List.flatMap_cons, bytes, List.nil_append]
      · rename_i hl
        injection h with h
        injection h with h1 h2
        refine ⟨0, .err e, by simp, rfl, ?_, .inr ⟨e, rfl, h1.symm, fun h he => hl ⟨he, h⟩⟩⟩
        rw [← h2]; simp [delivered, bytes]

/-! ### C128 -/

/-- C128 (Linux): whatever the system does, if the function returns, then either it returns the number of bytes it has written;
these are the bytes the calls have delivered, in their order and each once; and they are all that were asked for unless a call
delivered nothing. Or the last call failed, not for an interruption, and its error is returned. -/
theorem c128_linux (os : List Out) (errno len : Nat) (hl : len ≤ 2 ^ 31 - 1) (r : Int) (v : List UInt8)
    (h : getrandom os errno len = some (r, v)) : ∃ k o, k < os.length ∧ os[k]? = some o ∧
      v = (delivered (os.take (k + 1))).take len ∧
      ((r = v.length ∧ (v.length = len ∨ o = .got [])) ∨ ∃ e, o = .err e ∧ r = -(e : Int) ∧ (len ≠ 0 → e ≠ EINTR)) := by
  rw [getrandom, if_neg (by omega)] at h
  obtain ⟨k, o, h1, h2, h3, h4⟩ := getrandomLoop_spec os errno [] len r v h
  exact ⟨k, o, h1, h2, by simpa using h3, by simpa using h4⟩

example : getrandom [.err 4, .got [1, 2, 3], .err 4, .got [4, 5, 6, 7]] 0 5 = some (5, [1, 2, 3, 4, 5]) ∧
    getrandom [.got [1], .err 38] 0 5 = some (-38, [1]) ∧ getrandom [.got [1], .got []] 0 5 = some (1, [1]) := by decide +kernel

/-- The errors and empty answers after which the function may call again. -/
def idle : Out → Bool
  | .got d => d.isEmpty
  | .err _ => true

theorem getrandomLoop_returns : ∀ (os : List Out) (errno : Nat) (w : List UInt8) (len : Nat),
    len + (os.filter idle).length < os.length → (getrandomLoop os errno w len).isSome := by
  intro os
  induction os with
  | nil => intro _ _ _ h; simp at h
  | cons o os ih =>
    intro errno w len h
    cases o with
    | got d =>
      rw [getrandomLoop]
      split
      · rename_i hd
        split
        · apply ih
          have hde : d.isEmpty = false := by cases d <;> simp_all
          have hpos : 0 < (d.take len).length := hd
          simp only [List.filter_cons, idle, hde, List.length_cons] at h
          simp at h
          omega
        · rfl
      · rename_i hd
        split
        · rename_i hl
          apply ih
          have hde : d.isEmpty = true := by
            cases d with
            | nil => rfl
            | cons a d => simp at hd; omega
          simp only [List.filter_cons, idle, hde, List.length_cons, if_true] at h
          omega
        · rfl
    | err e =>
      rw [getrandomLoop]
      split
      · apply ih
        simp only [List.filter_cons, idle, List.length_cons, if_true] at h
        omega
      · rfl

/-- C128 (Linux, return): the function returns unless the system interrupts it or delivers nothing without end: it makes at most one
call more than there are bytes, plus one for each of these. -/
theorem c128_linux_returns (os : List Out) (errno len : Nat) (h : len + (os.filter idle).length < os.length) :
    (getrandom os errno len).isSome := by
  unfold getrandom
  split
  · rfl
  · exact getrandomLoop_returns os errno [] len h

example : 2 + ([Out.err 4, .got [1], .got [2], .got [3]].filter idle).length < [Out.err 4, .got [1], .got [2], .got [3]].length := by
  decide +kernel

/-- C128 (negation, `errno`): `errno` is examined also after calls that succeeded. A source that delivers nothing is reported as
such in general, but asked without end if any earlier call, be it of another function, was interrupted. -/
theorem c128_negation_errno (len : Nat) (h0 : len ≠ 0) (hl : len ≤ 2 ^ 31 - 1) (n : Nat) :
    getrandom (List.replicate (n + 1) (.got [])) 0 len = some (0, []) ∧
    getrandom (List.replicate n (.got [])) EINTR len = none := by
  constructor
  · rw [getrandom, if_neg (by omega), List.replicate_succ, getrandomLoop]
    simp [EINTR]
  · rw [getrandom, if_neg (by omega)]
    induction n with
    | zero => rfl
    | succ n ih =>
      rw [List.replicate_succ, getrandomLoop]
      simp only [List.take_nil, List.length_nil, Nat.lt_irrefl, if_false, h0, ne_eq, not_false_eq_true, and_self, if_true]
      exact ih

theorem getentropyLoop_spec : ∀ (os : List (Option (Nat → UInt8))) (w : List UInt8) (len : Nat) (r : Int) (v : List UInt8),
    getentropyLoop os w len = some (r, v) →
      (r = v.length ∧ v.length = w.length + len) ∨ (r = -1 ∧ none ∈ os) := by
  intro os
  induction os with
  | nil =>
    intro w len r v h
    cases len with
    | zero => simp [getentropyLoop] at h; left; rw [← h.1, ← h.2]; simp
    | succ len => simp [getentropyLoop] at h
  | cons o os ih =>
    intro w len r v h
    cases len with
    | zero => simp [getentropyLoop] at h; left; rw [← h.1, ← h.2]; simp
    | succ len =>
      cases o with
      | none => simp [getentropyLoop] at h; right; exact ⟨h.1.symm, by simp⟩
      | some f =>
        rw [getentropyLoop] at h
        rcases ih _ _ _ _ h with ⟨h1, h2⟩ | ⟨h1, h2⟩
        · left
          refine ⟨h1, ?_⟩
          rw [h2, List.length_append, List.length_map, List.length_range]
          omega
        · exact .inr ⟨h1, List.mem_cons_of_mem _ h2⟩

/-- What the calls deliver, 256 bytes each but the last one. -/
def blocks (os : List (Nat → UInt8)) : List UInt8 := os.flatMap fun f => (List.range 256).map f

theorem getentropyLoop_bytes : ∀ (os : List (Nat → UInt8)) (w : List UInt8) (len : Nat), len ≤ 256 * os.length →
    getentropyLoop (os.map some) w len = some (((w.length + len : Nat) : Int), w ++ (blocks os).take len) := by
  intro os
  induction os with
  | nil =>
    intro w len h
    have : len = 0 := by simpa using h
    subst this
    simp [getentropyLoop]
  | cons f os ih =>
    intro w len h
    cases len with
    | zero => simp [getentropyLoop]
    | succ len =>
      rw [List.map_cons, getentropyLoop]
      rw [ih _ _ (by simp at h; omega)]
      refine congrArg some (Prod.ext ?_ ?_)
      · simp only [List.length_append, List.length_map, List.length_range]
        congr 1
        omega
      · show _ = w ++ (blocks (f :: os)).take (len + 1)
        rw [List.append_assoc]
        congr 1
        simp only [blocks, List.flatMap_cons, List.take_append, List.length_map, List.length_range]
        rw [← List.map_take, List.take_range]
        by_cases hc : len + 1 ≤ 256
        · rw [Nat.min_eq_left hc, show len + 1 - (len + 1) = 0 by omega, show len + 1 - 256 = 0 by omega]
        · rw [Nat.min_eq_right (by omega)]

/-- C128 (BSD, Darwin): the function returns after at most one call for each 256 bytes; it returns all the bytes asked for, as
delivered, or, if a call fails, -1; never less. -/
theorem c128_bsd (len : Nat) (hl : len ≤ 2 ^ 31 - 1) :
    (∀ os r v, getentropy os len = some (r, v) → (r = v.length ∧ v.length = len) ∨ (r = -1 ∧ none ∈ os)) ∧
    (∀ os : List (Nat → UInt8), len ≤ 256 * os.length → getentropy (os.map some) len = some ((len : Int), (blocks os).take len)) := by
  constructor
  · intro os r v h
    rw [getentropy, if_neg (by omega)] at h
    simpa using getentropyLoop_spec os [] len r v h
  · intro os h
    rw [getentropy, if_neg (by omega)]
    simpa using getentropyLoop_bytes os [] len h

theorem esdmInvoke_len (len : Nat) : ∀ (es : List Out) (ctr : Nat) (ret : Int) (w : List UInt8), esdmInvoke es len ctr = some (ret, w) →
    ret = (len : Int) → w.length = len ∧ (len ≠ 0 → ∃ d, Out.got d ∈ es ∧ w = d.take len) := by
  intro es
  induction es with
  | nil => intro ctr ret w h; simp [esdmInvoke] at h
  | cons o es ih =>
    intro ctr ret w h hr
    cases o with
    | got d =>
      simp only [esdmInvoke] at h
      injection h with h
      injection h with h1 h2
      refine ⟨by rw [← h2]; omega, fun _ => ⟨d, by simp, h2.symm⟩⟩
    | err e =>
      simp only [esdmInvoke] at h
      split at h
      · obtain ⟨h1, h2⟩ := ih _ _ _ h hr
        refine ⟨h1, fun h => ?_⟩
        obtain ⟨d, h3, h4⟩ := h2 h
        exact ⟨d, List.mem_cons_of_mem _ h3, h4⟩
      · injection h with h
        injection h with h1 h2
        have : len = 0 := by omega
        exact ⟨by rw [← h2, this]; rfl, fun h => absurd this h⟩

/-- C128 (ESDM): a result that is not negative is again the number of bytes written; they are what ESDM delivered in one call or,
if ESDM fails or delivers less, all from Linux. -/
theorem c128_esdm (esdm : Bool) (es os : List Out) (errno len : Nat) (hl : len ≤ 2 ^ 31 - 1) (r : Int) (v : List UInt8)
    (h : fullEsdm esdm es os errno len = some (r, v)) :
    (r = v.length ∧ v.length ≤ len ∧ ((∃ d, Out.got d ∈ es ∧ v = d.take len) ∨ ∃ k, v = (delivered (os.take k)).take len)) ∨
      ∃ e : Nat, Out.err e ∈ os ∧ r = -(e : Int) := by
  unfold fullEsdm at h
  split at h
  · cases h
  · rename_i ret w hi
    split at h
    · obtain ⟨k, o, _, h2, h3, h4⟩ := c128_linux os errno len hl r v h
      rcases h4 with ⟨h4, _⟩ | ⟨e, h4, h5, _⟩
      · exact .inl ⟨h4, by rw [h3]; simp; omega, .inr ⟨k + 1, h3⟩⟩
      · exact .inr ⟨e, by rw [← h4]; exact List.mem_of_getElem? h2, h5⟩
    · rename_i hr
      injection h with h
      injection h with h1 h2
      have hr' : ret = (len : Int) := Decidable.not_not.mp hr
      have hw : w.length = len ∧ (len ≠ 0 → ∃ d, Out.got d ∈ es ∧ w = d.take len) := by
        cases esdm with
        | true => exact esdmInvoke_len len es 5 ret w (by simpa using hi) hr'
        | false =>
          simp at hi
          rw [hi.2, List.length_nil]
          exact ⟨by omega, fun h => absurd (by omega) h⟩
      left
      rw [← h2, hw.1]
      refine ⟨?_, Nat.le_refl _, ?_⟩
      · rw [← h1]
        split <;> omega
      · by_cases h0 : len = 0
        · right
          refine ⟨0, ?_⟩
          have : w = [] := List.length_eq_zero_iff.mp (by omega)
          rw [this, h0]; rfl
        · exact .inl (hw.2 h0)

/-- C128 (ESDM, return): ESDM is asked at most six times. -/
theorem c128_esdm_returns (esdm : Bool) (es os : List Out) (errno len : Nat) (he : 6 ≤ es.length)
    (h : len + (os.filter idle).length < os.length) : (fullEsdm esdm es os errno len).isSome := by
  have key : ∀ (ctr : Nat) (es : List Out), ctr < es.length → (esdmInvoke es len ctr).isSome := by
    intro ctr
    induction ctr with
    | zero =>
      intro es h
      cases es with
      | nil => simp at h
      | cons o es => cases o <;> simp [esdmInvoke]
    | succ ctr ih =>
      intro es h
      cases es with
      | nil => simp at h
      | cons o es =>
        cases o with
        | got d => simp [esdmInvoke]
        | err e =>
          rw [esdmInvoke]
          split
          · exact ih es (by simp at h; omega)
          · rfl
  unfold fullEsdm
  split
  · rename_i hi
    cases esdm with
    | true =>
      have := key 5 es (by omega)
      simp only [if_true] at hi
      rw [hi] at this
      cases this
    | false => simp at hi
  · split
    · exact c128_linux_returns os errno len h
    · rfl

example : fullEsdm true [.err 4, .got [1, 2, 3]] [] 0 3 = some (3, [1, 2, 3]) ∧
    fullEsdm true [.err 4, .got [1, 2]] [.got [7, 8, 9]] 0 3 = some (3, [7, 8, 9]) := by decide +kernel

/-- C128 (seeding): on Linux, with or without ESDM, `lc_seed_seeded_rng` uses the buffer as a seed only if all bytes it asked for have
been written. -/
theorem c128_seed (esdm : Bool) (es os : List Out) (errno want : Nat) (hw : 0 < want) (hl : want ≤ 64) (r : Int) (v : List UInt8)
    (h : fullEsdm esdm es os errno want = some (r, v)) (ha : accepted r want = true) : r = want ∧ v.length = want := by
  have hr : (want : Int) ≤ r := by
    simp only [accepted, Bool.not_eq_true', decide_eq_false_iff_not, not_or] at ha
    omega
  rcases c128_esdm esdm es os errno want (by omega) r v h with ⟨h1, h2, _⟩ | ⟨e, _, h1⟩
  · omega
  · omega

example : accepted 32 32 = true ∧ accepted 31 32 = false ∧ accepted (-1) 32 = false := by decide +kernel

/-- C128 (kernel): the number of bytes is right if there is no Jitter RNG or if it works. -/
theorem c128_kernel_partial (f g : Nat → UInt8) (fips : Bool) (len : Nat) :
    (fullKernel f none fips len).1 = (fullKernel f none fips len).2.length ∧
    (fullKernel f (some (.ok g)) fips len).1 = (fullKernel f (some (.ok g)) fips len).2.length ∧
    (fullKernel f (some (.ok g)) fips len).2.length = 2 * len := by
  refine ⟨by simp [fullKernel], by simp [fullKernel]; omega, by simp [fullKernel]; omega⟩

/-- C128 (negation, kernel): if the Jitter RNG fails without FIPS mode, twice as many bytes are reported as have been written; the
remaining half of the seed is what was on the stack, and is accepted as seed. -/
theorem c128_negation_kernel (f : Nat → UInt8) (e : Int) (len : Nat) (h0 : 0 < len) (hl : len ≤ 32) :
    (fullKernel f (some (.error e)) false len).1 = 2 * len ∧ (fullKernel f (some (.error e)) false len).2.length = len ∧
    accepted (fullKernel f (some (.error e)) false len).1 len = true := by
  refine ⟨by simp [fullKernel]; omega, by simp [fullKernel], ?_⟩
  simp only [fullKernel, accepted, Bool.false_eq_true, if_false, Bool.not_eq_true', decide_eq_false_iff_not, not_or]
  omega

end LC.Entropy
