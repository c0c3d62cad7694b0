import Verif.SelfTest.Model

/-!
# Properties of the self tests
-/

namespace LC.SelfTest

/-- The algorithms below `N` that are not marked. -/
def open_ (N : Nat) (s : St) : Nat := ((List.range N).filter (fun j => s.tested j ≠ s.level)).length

theorem filter_le {l : List Nat} {p q : Nat → Bool} (h : ∀ j ∈ l, q j = true → p j = true) :
    (l.filter q).length ≤ (l.filter p).length := by
  induction l with
  | nil => simp
  | cons a l ih =>
    have := ih (fun j hj => h j (List.mem_cons_of_mem _ hj))
    have ha := h a (List.mem_cons_self ..)
    cases hq : q a <;> cases hp : p a <;> simp [hq, hp] <;> first | omega | simp_all

theorem filter_lt {l : List Nat} {p q : Nat → Bool} (h : ∀ j ∈ l, q j = true → p j = true) {i : Nat} (hi : i ∈ l)
    (h1 : p i = true) (h2 : q i = false) : (l.filter q).length < (l.filter p).length := by
  induction l with
  | nil => simp at hi
  | cons a l ih =>
    have hle := filter_le (l := l) (p := p) (q := q) (fun j hj => h j (List.mem_cons_of_mem _ hj))
    have ha := h a (List.mem_cons_self ..)
    rcases List.mem_cons.mp hi with rfl | hi
    · simp [h1, h2]; omega
    · have := ih (fun j hj => h j (List.mem_cons_of_mem _ hj)) hi
      cases hq : q a <;> cases hp : p a <;> simp [hq, hp] <;> first | omega | simp_all

/-- What a use does: some algorithms that were not marked are marked and their tests begin, each once. -/
structure Did (s s' : St) : Prop where
  level : s'.level = s.level
  keep : ∀ j, s.tested j = s.level → s'.tested j = s.level
  either : ∀ j, s'.tested j = s.tested j ∨ s'.tested j = s.level
  log : ∃ new : List Nat, s'.log = new.map Ev.test ++ s.log ∧ new.Nodup ∧
    ∀ j, j ∈ new ↔ s.tested j ≠ s.level ∧ s'.tested j = s.level

theorem Did.refl (s : St) : Did s s :=
  ⟨rfl, fun _ h => h, fun _ => .inl rfl, [], rfl, List.nodup_nil, fun j => ⟨fun h => absurd h (by simp), fun h => absurd h.2 h.1⟩⟩

theorem Did.trans {s t u : St} (h1 : Did s t) (h2 : Did t u) : Did s u := by
  obtain ⟨n1, l1, d1, m1⟩ := h1.log
  obtain ⟨n2, l2, d2, m2⟩ := h2.log
  refine ⟨h2.level.trans h1.level, fun j hj => ?_, fun j => ?_, n2 ++ n1, ?_, ?_, fun j => ?_⟩
  · have := h2.keep j (by rw [h1.keep j hj, h1.level]); rw [this, h1.level]
  · rcases h2.either j with h | h
    · rw [h]; exact h1.either j
    · rw [h, h1.level]; exact .inr rfl
  · rw [l2, l1]; simp
  · rw [List.nodup_append]
    refine ⟨d2, d1, fun a ha b hb e => ?_⟩
    subst e
    have h := (m2 a).mp ha
    have h' := (m1 a).mp hb
    rw [h1.level] at h
    exact h.1 h'.2
  · rw [List.mem_append, m2, m1, h1.level]
    constructor
    · rintro (⟨a, b⟩ | ⟨a, b⟩)
      · refine ⟨fun h => a (h1.keep j h), b⟩
      · exact ⟨a, by have := h2.keep j (by rw [b, h1.level]); rw [this, h1.level]⟩
    · rintro ⟨a, b⟩
      by_cases h : t.tested j = s.level
      · exact .inr ⟨a, h⟩
      · exact .inl ⟨h, b⟩

theorem Did.mark {s : St} {i : Nat} (h : s.tested i ≠ s.level) : Did s (mark s i) := by
  refine ⟨rfl, fun j hj => ?_, fun j => ?_, [i], rfl, by simp, fun j => ?_⟩
  · simp only [SelfTest.mark]; split <;> first | rfl | exact hj
  · simp only [SelfTest.mark]; split <;> simp
  · simp only [SelfTest.mark, List.mem_singleton]
    constructor
    · rintro rfl; exact ⟨h, by simp⟩
    · rintro ⟨a, b⟩
      split at b
      · assumption
      · exact absurd b a

theorem Did.open_le {N : Nat} {s s' : St} (h : Did s s') : open_ N s' ≤ open_ N s := by
  unfold open_
  refine filter_le fun j _ hq => ?_
  simp only [ne_eq, decide_not, Bool.not_eq_true', decide_eq_false_iff_not] at hq ⊢
  intro e
  exact hq (by rw [h.keep j e, h.level])

/-- Uses return, with a depth of at most the number of algorithms that are not marked. -/
theorem use_did (deps : Nat → List Nat) (N : Nat) (hd : ∀ i < N, ∀ j ∈ deps i, j < N) : ∀ (n : Nat) (s : St) (i : Nat), i < N →
    open_ N s < n → ∃ s', use deps n s i = some s' ∧ Did s s' ∧ s'.tested i = s.level := by
  intro n
  induction n with
  | zero => intro s i _ h; omega
  | succ n ih =>
    intro s i hi ho
    rw [use]
    split
    · rename_i h; exact ⟨s, rfl, Did.refl s, h⟩
    · rename_i h
      have hlt : open_ N (mark s i) < n := by
        have : open_ N (mark s i) < open_ N s := by
          unfold open_
          refine filter_lt (i := i) (fun j _ hq => ?_) (by simpa using hi) (by simpa using h) (by simp [mark])
          simp only [mark, ne_eq, decide_not, Bool.not_eq_true', decide_eq_false_iff_not] at hq ⊢
          intro e
          apply of_decide_eq_true hq
          split <;> first | rfl | exact e
        omega
      have fold : ∀ (l : List Nat), (∀ j ∈ l, j < N) → ∀ t, open_ N t < n →
          ∃ s', l.foldlM (fun s j => use deps n s j) t = some s' ∧ Did t s' := by
        intro l
        induction l with
        | nil => intro _ t _; exact ⟨t, rfl, Did.refl t⟩
        | cons a l ihl =>
          intro hl t ht
          obtain ⟨t1, h1, h2, _⟩ := ih t a (hl a (by simp)) ht
          obtain ⟨t2, h3, h4⟩ := ihl (fun j hj => hl j (List.mem_cons_of_mem _ hj)) t1 (by have := h2.open_le (N := N); omega)
          exact ⟨t2, by simp [List.foldlM_cons, h1, h3], h2.trans h4⟩
      obtain ⟨s', h1, h2⟩ := fold (deps i) (hd i hi) (mark s i) hlt
      refine ⟨s', h1, (Did.mark h).trans h2, ?_⟩
      have := h2.keep i (by simp [mark])
      simpa [mark] using this

/-! ### C127 -/

/-- C127 (return): whatever algorithms the self tests use — themselves and each other included — every use returns, and every
self test begins at most once in it. -/
theorem c127_returns (deps : Nat → List Nat) (N : Nat) (hd : ∀ i < N, ∀ j ∈ deps i, j < N) (s : St) (i : Nat) (hi : i < N) :
    ∃ s' new, use deps (N + 1) s i = some s' ∧ s'.log = List.map Ev.test new ++ s.log ∧ new.Nodup ∧ s'.tested i = s.level := by
  have : open_ N s < N + 1 := by
    have := List.length_filter_le (fun j => decide (s.tested j ≠ s.level)) (List.range N)
    simp only [List.length_range] at this
    unfold open_
    omega
  obtain ⟨s', h1, h2, h3⟩ := use_did deps N hd (N + 1) s i hi this
  obtain ⟨new, l, d, _⟩ := h2.log
  exact ⟨s', new, h1, l, d, h3⟩

/-- SHA-256 tests itself, HMAC uses SHA-256 and itself. -/
example : (use (fun i => if i = 0 then [0] else [0, 1]) 3 {} 1).map (·.log) = some [.test 0, .test 1] := by decide +kernel

/-- Calls of a program. -/
inductive Op
  | use (i : Nat)
  | rerun
deriving DecidableEq

/-- A series of calls. -/
def exec (deps : Nat → List Nat) (n : Nat) : St → List Op → Option St
  | s, [] => some s
  | s, .use i :: os => (use deps n s i).bind fun s' => exec deps n s' os
  | s, .rerun :: os => exec deps n (rerun s) os

/-- The log since the last call of `lc_rerun_selftests`. -/
def recent (log : List Ev) : List Ev := log.takeWhile (· ≠ .again)

/-- The algorithms used since the last call of `lc_rerun_selftests` in a series of calls. -/
def usedRecently : List Op → List Nat → List Nat
  | [], acc => acc
  | .use i :: os, acc => usedRecently os (i :: acc)
  | .rerun :: os, _ => usedRecently os []

/-- The number of calls of `lc_rerun_selftests`. -/
def reruns : List Op → Nat
  | [] => 0
  | .use _ :: os => reruns os
  | .rerun :: os => reruns os + 1

/-- What holds between the calls. -/
structure Inv (s : St) (used : List Nat) : Prop where
  le : ∀ j, s.tested j ≤ s.level
  count : ∀ j, (recent s.log).count (.test j) = if s.tested j = s.level then 1 else 0
  used : ∀ j ∈ used, s.tested j = s.level

theorem recent_tests (new : List Nat) (log : List Ev) : recent (new.map Ev.test ++ log) = new.map Ev.test ++ recent log := by
  induction new with
  | nil => rfl
  | cons a new ih =>
    have : recent (Ev.test a :: (new.map Ev.test ++ log)) = Ev.test a :: recent (new.map Ev.test ++ log) := by
      simp [recent]
    rw [List.map_cons, List.cons_append, this, ih, List.cons_append]

theorem count_tests (new : List Nat) (j : Nat) : (new.map Ev.test).count (.test j) = new.count j := by
  induction new with
  | nil => rfl
  | cons a new ih => simp [List.count_cons, ih]

theorem Inv.use {s s' : St} {used : List Nat} (I : Inv s used) (D : Did s s') {i : Nat} (hi : s'.tested i = s.level) :
    Inv s' (i :: used) := by
  obtain ⟨new, hl, hn, hm⟩ := D.log
  refine ⟨fun j => ?_, fun j => ?_, fun j hj => ?_⟩
  · rw [D.level]
    rcases D.either j with h | h
    · rw [h]; exact I.le j
    · omega
  · rw [hl, recent_tests, List.count_append, count_tests, I.count, D.level, List.Nodup.count hn]
    by_cases h : s.tested j = s.level
    · rw [if_pos h, if_pos (D.keep j h), if_neg (fun hc => ((hm j).mp hc).1 h)]
    · rw [if_neg h]
      by_cases h' : s'.tested j = s.level
      · rw [if_pos h', if_pos ((hm j).mpr ⟨h, h'⟩)]
      · rw [if_neg h', if_neg (fun hc => h' ((hm j).mp hc).2)]
  · rw [D.level]
    rcases List.mem_cons.mp hj with rfl | hj
    · exact hi
    · exact D.keep j (I.used j hj)

theorem c127_aux (deps : Nat → List Nat) (N : Nat) (hd : ∀ i < N, ∀ j ∈ deps i, j < N) : ∀ (os : List Op) (s : St) (used : List Nat),
    (∀ i, Op.use i ∈ os → i < N) → s.level + reruns os ≤ 2 ^ 31 - 1 → Inv s used →
    ∃ s', exec deps (N + 1) s os = some s' ∧ Inv s' (usedRecently os used) := by
  intro os
  induction os with
  | nil => intro s used _ _ I; exact ⟨s, rfl, I⟩
  | cons o os ih =>
    intro s used hN hr I
    have hN' : ∀ i, Op.use i ∈ os → i < N := fun i h => hN i (List.mem_cons_of_mem _ h)
    cases o with
    | use i =>
      have ho : open_ N s < N + 1 := by
        have := List.length_filter_le (fun j => decide (s.tested j ≠ s.level)) (List.range N)
        simp only [List.length_range] at this
        unfold open_
        omega
      obtain ⟨s1, h1, h2, h3⟩ := use_did deps N hd (N + 1) s i (hN i (by simp)) ho
      obtain ⟨s', h4, h5⟩ := ih s1 (i :: used) hN' (by rw [h2.level]; exact hr) (I.use h2 h3)
      exact ⟨s', by simp [exec, h1, h4], h5⟩
    | rerun =>
      simp only [reruns] at hr
      have hl : (rerun s).level = s.level + 1 := by simp only [rerun]; rw [if_pos (by omega)]
      obtain ⟨s', h4, h5⟩ := ih (rerun s) [] hN' (by rw [hl]; omega) (by
        refine ⟨fun j => ?_, fun j => ?_, fun j hj => absurd hj (by simp)⟩
        · rw [hl]; have := I.le j; simp only [rerun]; omega
        · have := I.le j
          rw [hl, if_neg (by simp only [rerun]; omega)]
          simp [rerun, recent])
      exact ⟨s', by simpa [exec] using h4, h5⟩

/-- C127 (what holds): in every series of uses and calls of `lc_rerun_selftests` by one thread, fewer of the latter than INT_MAX,
every use returns; the self test of every algorithm that was used since the last `lc_rerun_selftests` has begun exactly once since
then, that of every other one at most once (by another test). -/
theorem c127_series_partial (deps : Nat → List Nat) (N : Nat) (hd : ∀ i < N, ∀ j ∈ deps i, j < N) (os : List Op)
    (hN : ∀ i, Op.use i ∈ os → i < N) (hr : reruns os + 1 ≤ 2 ^ 31 - 1) :
    ∃ s, exec deps (N + 1) {} os = some s ∧ (∀ i ∈ usedRecently os [], (recent s.log).count (.test i) = 1) ∧
      (∀ i, (recent s.log).count (.test i) ≤ 1) := by
  obtain ⟨s, h1, I⟩ := c127_aux deps N hd os {} [] hN (by show 1 + reruns os ≤ _; omega)
    ⟨fun _ => Nat.zero_le _, fun j => by simp [recent], fun j hj => absurd hj (by simp)⟩
  refine ⟨s, h1, fun i hi => ?_, fun i => ?_⟩
  · rw [I.count, if_pos (I.used i hi)]
  · rw [I.count]; split <;> omega

example : usedRecently [.use 0, .rerun, .use 1, .use 1] [] = [1, 1] ∧
    (exec (fun i => if i = 0 then [0] else [0, 1]) 3 {} [.use 0, .rerun, .use 1, .use 1]).map (·.log) =
      some [.test 0, .test 1, .again, .test 0] := by decide +kernel

/-- C127 (negation, the last level): once the level is INT_MAX, `lc_rerun_selftests` triggers nothing any more. -/
theorem c127_negation_last (deps : Nat → List Nat) (n : Nat) (s : St) (i : Nat) (hl : s.level = 2 ^ 31 - 1)
    (ht : s.tested i = s.level) : use deps (n + 1) (rerun s) i = some (rerun s) ∧ recent (rerun s).log = [] := by
  have : (rerun s).level = s.level := by simp only [rerun]; rw [if_neg (by omega)]
  refine ⟨?_, by simp [rerun, recent]⟩
  rw [use, if_pos]
  rw [this]
  exact ht

/-- C127 (negation, disabling): `lc_disable_selftest` triggers the test of an algorithm that was tested before; and if the self
tests are triggered again after a disabling, algorithms tested on level 1 are not tested. -/
theorem c127_negation_disable (deps : Nat → List Nat) (n i : Nat) (hd : deps i = []) :
    ∃ s, use deps (n + 1) {} i = some s ∧
      (∃ s', use deps (n + 1) (disable s) i = some s' ∧ s'.log = .test i :: s.log) ∧
      use deps (n + 1) (rerun (disable s)) i = some (rerun (disable s)) ∧ recent (rerun (disable s)).log = [] := by
  refine ⟨mark {} i, by simp [use, hd], ⟨mark (disable (mark {} i)) i, ?_, rfl⟩, ?_, by simp [rerun, recent]⟩
  · simp [use, hd, disable, mark]
  · simp [use, rerun, disable, mark]

/-! ### Threads -/

/-- C127 (one thread alone): as long as the second thread does not run, the first one is behind its test only when a test has
finished. -/
theorem c127_alone (t : Th) (h : t = {}) (n : Nat) (hr : ((List.replicate n true).foldl step t).a = .ready) :
    ((List.replicate n true).foldl step t).passed = true := by
  subst h
  have key : ∀ (n : Nat) (t : Th), (t.a = .start ∧ t.tested ≠ t.level ∨ t.a = .assign ∨ t.a = .testing ∨ t.a = .ready ∧ t.passed = true) →
      ((List.replicate n true).foldl step t).a = .ready → ((List.replicate n true).foldl step t).passed = true := by
    intro n
    induction n with
    | zero =>
      intro t h hr
      simp at hr ⊢
      rcases h with h | h | h | h
      · rw [hr] at h; exact absurd h.1 (by decide)
      · rw [hr] at h; cases h
      · rw [hr] at h; cases h
      · exact h.2
    | succ n ih =>
      intro t h hr
      rw [List.replicate_succ, List.foldl_cons] at hr ⊢
      apply ih _ _ hr
      rcases h with ⟨h, h'⟩ | h | h | ⟨h, h'⟩ <;> simp_all [step, stepPc]
  exact key n _ (.inl ⟨rfl, by decide⟩) hr

/-- C127 (negation, threads): the algorithm is marked before it is tested: while the first thread runs the self test, a second one
uses the algorithm although no test has finished. Both may also run the test. -/
theorem c127_negation_threads :
    (let t := [true, true, false].foldl step {}; t.a = .testing ∧ t.b = .ready ∧ t.passed = false) ∧
    (let t := [true, false, true, false].foldl step {}; t.a = .testing ∧ t.b = .testing) := by decide +kernel

end LC.SelfTest
