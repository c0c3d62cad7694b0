/-
The linked list of the trust store and its concurrent additions, `asn1/src/pkcs7_trust.c:314-332`,
and the theorems for C40 and C65.

A small-step semantics with one shared memory access per step; any number of threads, each of which
adds one certificate; sequentially consistent memory (the accesses that matter are full-barrier
compare-and-swap operations; the plain load of `anchor_cert->next` after a failed
compare-and-swap on the same location returns a value that is not older).
-/
namespace LC.Pkcs7.Store

/-- Program counter of one call of `lc_pkcs7_trust_store_add` after its checks.
`start`: before `x509->next = NULL` (line 314); `casHead`: before line 320; `loadHead`: before the
initialisation of line 327; `casNext n`: before line 329 with `anchor_cert = n`; `loadNext n`:
before the iteration expression of line 328; `done`: returned after a successful swap; `lost`:
left the loop because `anchor_cert` is NULL, returning 0 without having added the certificate. -/
inductive PC where
  | start | casHead | loadHead | casNext (n : Nat) | loadNext (n : Nat) | done | lost
deriving DecidableEq

/-- Shared memory (`trust_store->anchor_cert` and the `next` fields), program counters, and the
number of steps each thread has made so far (a ghost). -/
structure State where
  head : Option Nat
  next : Nat → Option Nat
  pc : Nat → PC
  steps : Nat → Nat

def upd {α : Type} (f : Nat → α) (i : Nat) (v : α) : Nat → α := fun j => if j = i then v else f j

/-- One step of thread `i`, which adds certificate `c`, `pkcs7_trust.c:314-332`. -/
def step (s : State) (i c : Nat) : State :=
  let go (pc : PC) (s : State) : State := { s with pc := upd s.pc i pc, steps := upd s.steps i (s.steps i + 1) }
  match s.pc i with
  | .start => go .casHead { s with next := upd s.next c none }
  | .casHead =>
    match s.head with
    | none => go .done { s with head := some c }
    | some _ => go .loadHead s
  | .loadHead =>
    match s.head with
    | none => go .lost s
    | some n => go (.casNext n) s
  | .casNext n =>
    match s.next n with
    | none => go .done { s with next := upd s.next n (some c) }
    | some _ => go (.loadNext n) s
  | .loadNext n =>
    match s.next n with
    | none => go .lost s
    | some m => go (.casNext m) s
  | .done => s
  | .lost => s

/-- Running a schedule: the list of the threads that make the next step. -/
def run (cert : Nat → Nat) (s : State) : List Nat → State
  | [] => s
  | i :: sched => run cert (step s i (cert i)) sched

/-- The null-terminated list that starts at a pointer: independent of how it was built. -/
def Spec.IsList (next : Nat → Option Nat) : Option Nat → List Nat → Prop
  | p, [] => p = none
  | p, a :: l => p = some a ∧ Spec.IsList next (next a) l

/-! ### Lemmas on lists -/

theorem Spec.IsList.upd_not_mem {next : Nat → Option Nat} {c : Nat} {v : Option Nat} :
    ∀ {l p}, Spec.IsList next p l → c ∉ l → Spec.IsList (upd next c v) p l
  | [], _, h, _ => h
  | a :: l, p, ⟨h1, h2⟩, hc => by
    refine ⟨h1, ?_⟩
    have : upd next c v a = next a := by
      unfold upd
      rw [if_neg]
      rintro rfl
      exact hc List.mem_cons_self
    rw [this]
    exact Spec.IsList.upd_not_mem h2 (fun h => hc (List.mem_cons_of_mem _ h))

theorem Spec.IsList.getElem_succ {next : Nat → Option Nat} :
    ∀ {l p j n}, Spec.IsList next p l → l[j]? = some n → next n = l[j + 1]?
  | [], _, _, _, _, hj => by simp at hj
  | a :: l, p, 0, n, ⟨h1, h2⟩, hj => by
    simp at hj
    subst hj
    cases l with
    | nil => simpa [Spec.IsList] using h2
    | cons b l => simpa [Spec.IsList] using h2.1
  | a :: l, p, j + 1, n, ⟨h1, h2⟩, hj => by
    simp at hj
    have := Spec.IsList.getElem_succ h2 hj
    simpa using this

theorem Spec.IsList.head {next : Nat → Option Nat} {l : List Nat} {p : Option Nat}
    (h : Spec.IsList next p l) : p = l[0]? := by
  cases l with
  | nil => exact h
  | cons a l => exact h.1

/-- Linking a fresh element behind the last one. -/
theorem Spec.IsList.append {next : Nat → Option Nat} {c : Nat} :
    ∀ {l p n}, Spec.IsList next p l → l.Nodup → c ∉ l → next c = none → n ∈ l → next n = none →
      Spec.IsList (upd next n (some c)) p (l ++ [c])
  | [], _, _, _, _, _, _, hn, _ => by simp at hn
  | a :: l, p, n, ⟨h1, h2⟩, hnd, hc, hcn, hn, hnn => by
    refine ⟨h1, ?_⟩
    rw [List.nodup_cons] at hnd
    by_cases han : a = n
    · subst han
      have : l = [] := by
        cases l with
        | nil => rfl
        | cons b l => rw [hnn] at h2; cases h2.1
      subst this
      refine ⟨by simp [upd], ?_⟩
      have hca : c ≠ a := fun e => hc (by simp [e])
      simp [upd, hca, Spec.IsList, hcn]
    · have hn' : n ∈ l := by
        rcases List.mem_cons.mp hn with e | e
        · exact absurd e.symm han
        · exact e
      have : upd next n (some c) a = next a := by simp [upd, han]
      rw [this]
      exact Spec.IsList.append h2 hnd.2 (fun h => hc (List.mem_cons_of_mem _ h)) hcn hn' hnn

theorem Spec.IsList.unique {next : Nat → Option Nat} :
    ∀ {l l' p}, Spec.IsList next p l → Spec.IsList next p l' → l = l'
  | [], [], _, _, _ => rfl
  | [], a :: l', p, h, h' => by rw [h] at h'; cases h'.1
  | a :: l, [], p, h, h' => by rw [h'] at h; cases h.1
  | a :: l, b :: l', p, h, h' => by
    have : a = b := Option.some.inj (h.1.symm.trans h'.1)
    subst this
    rw [Spec.IsList.unique h.2 h'.2]

/-! ### Invariant -/

/-- What is known about a thread that adds `c`, given the current list `l`. -/
def ThreadInv (s : State) (l : List Nat) (i c : Nat) : Prop :=
  match s.pc i with
  | .start => c ∉ l ∧ s.steps i = 0
  | .casHead => c ∉ l ∧ s.next c = none ∧ s.steps i = 1
  | .loadHead => c ∉ l ∧ s.next c = none ∧ s.steps i = 2 ∧ l ≠ []
  | .casNext n => c ∉ l ∧ s.next c = none ∧ ∃ j, l[j]? = some n ∧ s.steps i = 3 + 2 * j
  | .loadNext n => c ∉ l ∧ s.next c = none ∧ ∃ j, l[j]? = some n ∧ j + 1 < l.length ∧ s.steps i = 4 + 2 * j
  | .done => c ∈ l ∧ s.steps i ≤ 2 * l.length + 2
  | .lost => False

/-- The invariant: the shared memory is a list `l` without repetition that extends the list `l0` of
the beginning; its members are exactly those of `l0` and the certificates of finished threads. -/
structure Inv (cert : Nat → Nat) (l0 : List Nat) (s : State) (l : List Nat) : Prop where
  list : Spec.IsList s.next s.head l
  nodup : l.Nodup
  pre : l0 <+: l
  mem : ∀ c, c ∈ l ↔ c ∈ l0 ∨ ∃ i, s.pc i = .done ∧ cert i = c
  threads : ∀ i, ThreadInv s l i (cert i)

/-- Thread invariants are preserved by a step of another thread which grows the list and writes
only `next` fields of other certificates. -/
theorem ThreadInv.frame {s s' : State} {l l' : List Nat} {i c : Nat} (h : ThreadInv s l i c)
    (hpc : s'.pc i = s.pc i) (hst : s'.steps i = s.steps i) (hpre : l <+: l') (hc : c ∉ l → c ∉ l')
    (hnext : c ∉ l → s.next c = none → s'.next c = none) : ThreadInv s' l' i c := by
  obtain ⟨t, rfl⟩ := hpre
  have hget : ∀ (j n : Nat), l[j]? = some n → (l ++ t)[j]? = some n := by
    intro j n hj
    have hlt : j < l.length := by
      rcases Nat.lt_or_ge j l.length with h | h
      · exact h
      · rw [List.getElem?_eq_none h] at hj; cases hj
    rw [List.getElem?_append_left hlt]
    exact hj
  unfold ThreadInv at h ⊢
  rw [hpc, hst]
  split at h
  · exact ⟨hc h.1, h.2⟩
  · exact ⟨hc h.1, hnext h.1 h.2.1, h.2.2⟩
  · refine ⟨hc h.1, hnext h.1 h.2.1, h.2.2.1, ?_⟩
    have := h.2.2.2
    simp [this]
  · obtain ⟨h1, h2, j, hj, hs⟩ := h
    exact ⟨hc h1, hnext h1 h2, j, hget j _ hj, hs⟩
  · obtain ⟨h1, h2, j, hj, hlt, hs⟩ := h
    exact ⟨hc h1, hnext h1 h2, j, hget j _ hj, by simp; omega, hs⟩
  · exact ⟨List.mem_append_left _ h.1, by simp; omega⟩
  · exact h

/-- A step which changes neither the list nor the `next` fields nor the set of finished threads. -/
theorem Inv.quiet {cert : Nat → Nat} {l0 l : List Nat} {s s' : State} {i : Nat}
    (h : Inv cert l0 s l) (hhead : s'.head = s.head) (hnext : s'.next = s.next)
    (hpc : ∀ j, j ≠ i → s'.pc j = s.pc j) (hst : ∀ j, j ≠ i → s'.steps j = s.steps j)
    (hnd : s.pc i ≠ .done) (hnd' : s'.pc i ≠ .done) (ht : ThreadInv s' l i (cert i)) :
    Inv cert l0 s' l where
  list := by rw [hhead, hnext]; exact h.list
  nodup := h.nodup
  pre := h.pre
  mem := by
    intro c
    rw [h.mem c]
    constructor
    · rintro (h1 | ⟨j, hj, e⟩)
      · exact Or.inl h1
      · by_cases hji : j = i
        · subst hji; exact absurd hj hnd
        · exact Or.inr ⟨j, by rw [hpc j hji]; exact hj, e⟩
    · rintro (h1 | ⟨j, hj, e⟩)
      · exact Or.inl h1
      · by_cases hji : j = i
        · subst hji; exact absurd hj hnd'
        · exact Or.inr ⟨j, by rw [← hpc j hji]; exact hj, e⟩
  threads := by
    intro j
    by_cases hji : j = i
    · subst hji; exact ht
    · exact (h.threads j).frame (hpc j hji) (hst j hji) (List.prefix_refl _) id
        (fun _ h => by rw [hnext]; exact h)

/-- A step that links the certificate of thread `i` at the end. -/
theorem Inv.link {cert : Nat → Nat} (hinj : ∀ i j, cert i = cert j → i = j) {l0 l : List Nat}
    {s s' : State} {i : Nat} (h : Inv cert l0 s l) (hc : cert i ∉ l)
    (hlist : Spec.IsList s'.next s'.head (l ++ [cert i]))
    (hnext : ∀ d, d ∉ l → d ≠ cert i → s'.next d = s.next d)
    (hpc : ∀ j, j ≠ i → s'.pc j = s.pc j) (hst : ∀ j, j ≠ i → s'.steps j = s.steps j)
    (hd : s'.pc i = .done) (hsteps : s'.steps i ≤ 2 * (l.length + 1) + 2) :
    Inv cert l0 s' (l ++ [cert i]) where
  list := hlist
  nodup := by
    rw [List.nodup_append]
    refine ⟨h.nodup, by simp, ?_⟩
    intro a ha b hb e
    simp at hb
    subst hb
    exact hc (e ▸ ha)
  pre := h.pre.trans (List.prefix_append _ _)
  mem := by
    intro c
    rw [List.mem_append, h.mem c]
    constructor
    · rintro ((h1 | ⟨j, hj, e⟩) | h1)
      · exact Or.inl h1
      · by_cases hji : j = i
        · subst hji; exact Or.inr ⟨j, hd, e⟩
        · exact Or.inr ⟨j, by rw [hpc j hji]; exact hj, e⟩
      · simp at h1
        exact Or.inr ⟨i, hd, h1.symm⟩
    · rintro (h1 | ⟨j, hj, e⟩)
      · exact Or.inl (Or.inl h1)
      · by_cases hji : j = i
        · subst hji; exact Or.inr (by simp [e])
        · exact Or.inl (Or.inr ⟨j, by rw [← hpc j hji]; exact hj, e⟩)
  threads := by
    intro j
    by_cases hji : j = i
    · subst hji
      unfold ThreadInv
      rw [hd]
      exact ⟨by simp, by simpa using hsteps⟩
    · have hne : cert j ≠ cert i := fun e => hji (hinj _ _ e)
      refine (h.threads j).frame (hpc j hji) (hst j hji) (List.prefix_append _ _) ?_ ?_
      · intro hnot
        simp [hnot, hne]
      · intro hnot hn
        rw [hnext _ hnot hne]
        exact hn

theorem upd_same {α : Type} (f : Nat → α) (i : Nat) (v : α) : upd f i v i = v := by simp [upd]
theorem upd_ne {α : Type} (f : Nat → α) (i j : Nat) (v : α) (h : j ≠ i) : upd f i v j = f j := by
  simp [upd, h]

theorem mem_lt {l : List Nat} {j n : Nat} (h : l[j]? = some n) : j < l.length := by
  rcases Nat.lt_or_ge j l.length with h' | h'
  · exact h'
  · rw [List.getElem?_eq_none h'] at h; cases h

/-- The invariant is preserved by every step of every thread. -/
theorem Inv.step {cert : Nat → Nat} (hinj : ∀ i j, cert i = cert j → i = j) {l0 l : List Nat}
    {s : State} (h : Inv cert l0 s l) (i : Nat) :
    ∃ l', Inv cert l0 (step s i (cert i)) l' ∧ l <+: l' := by
  have ht := h.threads i
  unfold ThreadInv at ht
  unfold Store.step
  cases hpc : s.pc i with
  | start =>
    rw [hpc] at ht
    refine ⟨l, ?_, List.prefix_refl _⟩
    dsimp only
    refine
      { list := h.list.upd_not_mem ht.1
        nodup := h.nodup, pre := h.pre, mem := ?_, threads := ?_ }
    · intro c
      rw [h.mem c]
      constructor
      · rintro (h1 | ⟨j, hj, e⟩)
        · exact Or.inl h1
        · have hji : j ≠ i := by rintro rfl; rw [hpc] at hj; cases hj
          exact Or.inr ⟨j, by simpa [upd, hji] using hj, e⟩
      · rintro (h1 | ⟨j, hj, e⟩)
        · exact Or.inl h1
        · by_cases hji : j = i
          · subst hji; simp [upd] at hj
          · exact Or.inr ⟨j, by simpa [upd, hji] using hj, e⟩
    · intro j
      by_cases hji : j = i
      · subst hji
        unfold ThreadInv
        simp only [upd_same]
        exact ⟨ht.1, trivial, by omega⟩
      · refine (h.threads j).frame (by simp [upd, hji]) (by simp [upd, hji]) (List.prefix_refl _) id ?_
        intro _ hn
        simp only [upd]
        split
        · rfl
        · exact hn
  | casHead =>
    rw [hpc] at ht
    obtain ⟨hc, hn, hs⟩ := ht
    dsimp only
    cases hh : s.head with
    | none =>
      have hl : l = [] := by
        have := h.list
        rw [hh] at this
        cases l with
        | nil => rfl
        | cons a l => cases this.1
      subst hl
      refine ⟨[] ++ [cert i], ?_, List.prefix_append _ _⟩
      refine h.link hinj hc ?_ ?_ ?_ ?_ ?_ ?_
      · exact ⟨rfl, hn⟩
      · intro d _ _; rfl
      · intro j hj; exact upd_ne _ _ _ _ hj
      · intro j hj; exact upd_ne _ _ _ _ hj
      · exact upd_same _ _ _
      · simp only [upd_same]; omega
    | some a =>
      refine ⟨l, ?_, List.prefix_refl _⟩
      refine h.quiet (i := i) hh.symm rfl (fun j hj => upd_ne _ _ _ _ hj) (fun j hj => upd_ne _ _ _ _ hj)
        (by rw [hpc]; simp) (by dsimp only; rw [upd_same]; simp) ?_
      unfold ThreadInv
      simp only [upd_same]
      refine ⟨hc, hn, by omega, ?_⟩
      rintro rfl
      have := h.list
      rw [hh] at this
      cases this
  | loadHead =>
    rw [hpc] at ht
    obtain ⟨hc, hn, hs, hne⟩ := ht
    dsimp only
    have hhead := h.list.head
    cases hl : l with
    | nil => exact absurd hl hne
    | cons a l1 =>
      rw [hl] at hhead
      simp at hhead
      rw [hhead]
      refine ⟨l, ?_, by rw [hl]; exact List.prefix_refl _⟩
      refine h.quiet (i := i) hhead.symm rfl (fun j hj => upd_ne _ _ _ _ hj) (fun j hj => upd_ne _ _ _ _ hj)
        (by rw [hpc]; simp) (by dsimp only; rw [upd_same]; simp) ?_
      unfold ThreadInv
      simp only [upd_same]
      exact ⟨hc, hn, 0, by simp [hl], by omega⟩
  | casNext n =>
    rw [hpc] at ht
    obtain ⟨hc, hn, j, hj, hs⟩ := ht
    dsimp only
    have hlt := mem_lt hj
    have hnx := h.list.getElem_succ hj
    cases hnn : s.next n with
    | none =>
      refine ⟨l ++ [cert i], ?_, List.prefix_append _ _⟩
      refine h.link hinj hc ?_ ?_ ?_ ?_ ?_ ?_
      · exact h.list.append h.nodup hc hn (List.mem_of_getElem? hj) hnn
      · intro d hd _
        apply upd_ne
        rintro rfl
        exact hd (List.mem_of_getElem? hj)
      · intro j hj; exact upd_ne _ _ _ _ hj
      · intro j hj; exact upd_ne _ _ _ _ hj
      · exact upd_same _ _ _
      · simp only [upd_same]; omega
    | some m =>
      refine ⟨l, ?_, List.prefix_refl _⟩
      refine h.quiet (i := i) rfl rfl (fun j hj => upd_ne _ _ _ _ hj) (fun j hj => upd_ne _ _ _ _ hj)
        (by rw [hpc]; simp) (by dsimp only; rw [upd_same]; simp) ?_
      unfold ThreadInv
      simp only [upd_same]
      refine ⟨hc, hn, j, hj, ?_, by omega⟩
      rw [hnn] at hnx
      exact mem_lt hnx.symm
  | loadNext n =>
    rw [hpc] at ht
    obtain ⟨hc, hn, j, hj, hlt, hs⟩ := ht
    dsimp only
    have hnx := h.list.getElem_succ hj
    cases hnn : s.next n with
    | none =>
      rw [hnn, List.getElem?_eq_getElem hlt] at hnx
      cases hnx
    | some m =>
      refine ⟨l, ?_, List.prefix_refl _⟩
      refine h.quiet (i := i) rfl rfl (fun j hj => upd_ne _ _ _ _ hj) (fun j hj => upd_ne _ _ _ _ hj)
        (by rw [hpc]; simp) (by dsimp only; rw [upd_same]; simp) ?_
      unfold ThreadInv
      simp only [upd_same]
      exact ⟨hc, hn, j + 1, by rw [← hnx, hnn], by omega⟩
  | done => exact ⟨l, h, List.prefix_refl _⟩
  | lost =>
    rw [hpc] at ht
    exact ht.elim

theorem Inv.run {cert : Nat → Nat} (hinj : ∀ i j, cert i = cert j → i = j) {l0 : List Nat} :
    ∀ (sched : List Nat) {l s}, Inv cert l0 s l → ∃ l', Inv cert l0 (run cert s sched) l' ∧ l <+: l'
  | [], l, _, h => ⟨l, h, List.prefix_refl _⟩
  | i :: sched, l, s, h => by
    obtain ⟨l1, h1, p1⟩ := h.step hinj i
    obtain ⟨l2, h2, p2⟩ := Inv.run hinj sched h1
    exact ⟨l2, h2, p1.trans p2⟩

/-- A trust store before the additions: a list of distinct certificates, and threads that have not
started and add certificates that are not in the store. -/
structure Initial (cert : Nat → Nat) (l0 : List Nat) (s : State) : Prop where
  list : Spec.IsList s.next s.head l0
  nodup : l0.Nodup
  start : ∀ i, s.pc i = .start
  steps : ∀ i, s.steps i = 0
  fresh : ∀ i, cert i ∉ l0

/-- C40: for any number of threads that add distinct certificates and every schedule, the store is at
all times a null-terminated list without repetition, it extends the list of the beginning, and
it holds exactly the old certificates and those of the calls that have returned; no call returns
without having added its certificate, and no call takes more than two steps per member of the
list plus two, so that every call returns. -/
theorem concurrent_adds (cert : Nat → Nat) (hinj : ∀ i j, cert i = cert j → i = j) (l0 : List Nat)
    (s0 : State) (h0 : Initial cert l0 s0) (sched : List Nat) :
    ∃ l, Spec.IsList (run cert s0 sched).next (run cert s0 sched).head l ∧ l.Nodup ∧ l0 <+: l ∧
      (∀ c, c ∈ l ↔ c ∈ l0 ∨ ∃ i, (run cert s0 sched).pc i = .done ∧ cert i = c) ∧
      (∀ i, (run cert s0 sched).pc i ≠ .lost) ∧
      (∀ i, (run cert s0 sched).steps i ≤ 2 * l.length + 2) := by
  have hinv : Inv cert l0 s0 l0 :=
    { list := h0.list, nodup := h0.nodup, pre := List.prefix_refl _
      mem := by
        intro c
        constructor
        · exact Or.inl
        · rintro (h | ⟨i, hi, _⟩)
          · exact h
          · rw [h0.start i] at hi; cases hi
      threads := by
        intro i
        unfold ThreadInv
        rw [h0.start i]
        exact ⟨h0.fresh i, h0.steps i⟩ }
  obtain ⟨l, h, _⟩ := hinv.run hinj sched
  refine ⟨l, h.list, h.nodup, h.pre, h.mem, ?_, ?_⟩
  · intro i e
    have := h.threads i
    unfold ThreadInv at this
    rw [e] at this
    exact this
  · intro i
    have := h.threads i
    unfold ThreadInv at this
    split at this
    · omega
    · omega
    · omega
    · obtain ⟨_, _, j, hj, hs⟩ := this
      have := mem_lt hj
      omega
    · obtain ⟨_, _, j, hj, hlt, hs⟩ := this
      omega
    · exact this.2
    · exact this.elim

/-- Every thread that is scheduled makes a step unless it has returned: with the step bound of
`concurrent_adds` every fair schedule completes all calls. -/
theorem step_counts (s : State) (i c : Nat) (h1 : s.pc i ≠ .done) (h2 : s.pc i ≠ .lost) :
    (step s i c).steps i = s.steps i + 1 := by
  unfold step
  cases hpc : s.pc i with
  | start => simp [upd]
  | casHead => cases hh : s.head <;> simp [upd]
  | loadHead => cases hh : s.head <;> simp [upd]
  | casNext n => cases hh : s.next n <;> simp [upd, hh]
  | loadNext n => cases hh : s.next n <;> simp [upd, hh]
  | done => exact absurd hpc h1
  | lost => exact absurd hpc h2

/-! ### C65: adding a certificate that is already present -/

/-- Thread 0 alone at element `n` of the list before the re-added certificate. -/
theorem readd_walk (c : Nat) : ∀ (l1 l2 : List Nat) (s : State) (n : Nat),
    s.pc 0 = .casNext n → s.next c = none →
    (∃ p, Spec.IsList (upd s.next c l2.head?) p (n :: l1 ++ c :: l2)) → c ∉ n :: l1 →
    ∃ k, (run (fun _ => c) s (List.replicate k 0)).pc 0 = .done ∧
      (run (fun _ => c) s (List.replicate k 0)).next = upd s.next c (some c) ∧
      (run (fun _ => c) s (List.replicate k 0)).head = s.head
  | [], l2, s, n, hpc, hcn, ⟨p, hl⟩, hc => by
    simp only [List.cons_append, List.nil_append, Spec.IsList] at hl
    have hnc : n ≠ c := fun e => hc (by simp [e])
    have hn : s.next n = some c := by
      have := hl.2.1
      simpa [upd, hnc] using this
    refine ⟨3, ?_⟩
    simp only [List.replicate, run]
    have e1 : step s 0 c = { s with pc := upd s.pc 0 (.loadNext n), steps := upd s.steps 0 (s.steps 0 + 1) } := by
      unfold step; simp only [hpc, hn]
    rw [e1]
    generalize hs2 : ({ s with pc := upd s.pc 0 (.loadNext n), steps := upd s.steps 0 (s.steps 0 + 1) } : State) = s2
    have a1 : s2.pc 0 = .loadNext n := by rw [← hs2]; simp [upd]
    have a2 : s2.next = s.next := by rw [← hs2]
    have a3 : s2.head = s.head := by rw [← hs2]
    have e2 : step s2 0 c = { s2 with pc := upd s2.pc 0 (.casNext c), steps := upd s2.steps 0 (s2.steps 0 + 1) } := by
      unfold step; simp only [a1, a2, hn]
    rw [e2]
    generalize hs3 : ({ s2 with pc := upd s2.pc 0 (.casNext c), steps := upd s2.steps 0 (s2.steps 0 + 1) } : State) = s3
    have b1 : s3.pc 0 = .casNext c := by rw [← hs3]; simp [upd]
    have b2 : s3.next = s.next := by rw [← hs3]; exact a2
    have b3 : s3.head = s.head := by rw [← hs3]; exact a3
    unfold step
    simp only [b1, b2, hcn, b3, upd_same]
    exact ⟨trivial, trivial, trivial⟩
  | m :: l1, l2, s, n, hpc, hcn, ⟨p, hl⟩, hc => by
    simp only [List.cons_append] at hl
    have hnc : n ≠ c := fun e => hc (by simp [e])
    have hl' : Spec.IsList (upd s.next c l2.head?) (upd s.next c l2.head? n) (m :: l1 ++ c :: l2) := hl.2
    have hn : s.next n = some m := by
      have := hl'.1
      simpa [upd, hnc] using this
    have e1 : step s 0 c = { s with pc := upd s.pc 0 (.loadNext n), steps := upd s.steps 0 (s.steps 0 + 1) } := by
      unfold step; simp only [hpc, hn]
    generalize hs2 : ({ s with pc := upd s.pc 0 (.loadNext n), steps := upd s.steps 0 (s.steps 0 + 1) } : State) = s2 at e1
    have a1 : s2.pc 0 = .loadNext n := by rw [← hs2]; simp [upd]
    have a2 : s2.next = s.next := by rw [← hs2]
    have a3 : s2.head = s.head := by rw [← hs2]
    have e2 : step s2 0 c = { s2 with pc := upd s2.pc 0 (.casNext m), steps := upd s2.steps 0 (s2.steps 0 + 1) } := by
      unfold step; simp only [a1, a2, hn]
    generalize hs3 : ({ s2 with pc := upd s2.pc 0 (.casNext m), steps := upd s2.steps 0 (s2.steps 0 + 1) } : State) = s3 at e2
    have b1 : s3.pc 0 = .casNext m := by rw [← hs3]; simp [upd]
    have b2 : s3.next = s.next := by rw [← hs3]; exact a2
    have b3 : s3.head = s.head := by rw [← hs3]; exact a3
    obtain ⟨k, h1, h2, h3⟩ := readd_walk c l1 l2 s3 m b1 (by rw [b2]; exact hcn)
      ⟨_, by rw [b2]; exact hl'⟩ (fun h => hc (List.mem_cons_of_mem _ h))
    refine ⟨k + 2, ?_⟩
    simp only [List.replicate_succ, run, e1, e2]
    exact ⟨h1, by rw [h2, b2], by rw [h3, b3]⟩

theorem upd_upd {α : Type} (f : Nat → α) (i : Nat) (u v : α) : upd (upd f i u) i v = upd f i v := by
  funext j; simp only [upd]; split <;> rfl

theorem upd_self {α : Type} (f : Nat → α) (i : Nat) : upd f i (f i) = f := by
  funext j; simp only [upd]; split
  · rename_i h; rw [h]
  · rfl

/-- Following `next` from a certificate that points to itself never ends. -/
theorem no_list_of_loop (next : Nat → Option Nat) (c : Nat) (hloop : next c = some c) :
    ∀ l p, Spec.IsList next p l → c ∉ l
  | [], _, _, h => by simp at h
  | a :: l, p, ⟨h1, h2⟩, hc => by
    rcases List.mem_cons.mp hc with e | e
    · subst e
      have : ∀ (l : List Nat), ¬ Spec.IsList next (some c) l := by
        intro l
        induction l with
        | nil => intro h; cases h
        | cons b l ih =>
          intro h
          have : c = b := Option.some.inj h.1
          subst this
          have h2 := h.2
          rw [hloop] at h2
          exact ih h2
      rw [hloop] at h2
      exact this l h2
    · exact no_list_of_loop next c hloop l _ h2 e

/-- C65 is false: whenever a single thread adds a certificate that is already in the store, at any
position of any store, the call returns success, the certificate points to itself afterwards, the
store is no list any more, and the certificates behind it cannot be reached. -/
theorem readd_destroys (l1 l2 : List Nat) (c : Nat) (s : State)
    (hlist : Spec.IsList s.next s.head (l1 ++ c :: l2)) (hnd : (l1 ++ c :: l2).Nodup)
    (hpc : s.pc 0 = .start) :
    ∃ k, let s' := run (fun _ => c) s (List.replicate k 0)
      s'.pc 0 = .done ∧ s'.next c = some c ∧ s'.head = s.head ∧ ¬ ∃ l, Spec.IsList s'.next s'.head l := by
  have hc1 : c ∉ l1 := by
    rw [List.nodup_append] at hnd
    intro h
    exact hnd.2.2 c h c List.mem_cons_self rfl
  have e1 : step s 0 c = { s with next := upd s.next c none, pc := upd s.pc 0 .casHead, steps := upd s.steps 0 (s.steps 0 + 1) } := by
    unfold step; simp only [hpc]
  generalize hs1 : ({ s with next := upd s.next c none, pc := upd s.pc 0 .casHead, steps := upd s.steps 0 (s.steps 0 + 1) } : State) = s1 at e1
  obtain ⟨hd, hhd⟩ : ∃ hd, s.head = some hd := by
    have := hlist.head
    cases l1 with
    | nil => exact ⟨c, by simpa using this⟩
    | cons a l1 => exact ⟨a, by simpa using this⟩
  have a1 : s1.pc 0 = .casHead := by rw [← hs1]; simp [upd]
  have a2 : s1.next = upd s.next c none := by rw [← hs1]
  have a3 : s1.head = some hd := by rw [← hs1]; exact hhd
  have e2 : step s1 0 c = { s1 with pc := upd s1.pc 0 .loadHead, steps := upd s1.steps 0 (s1.steps 0 + 1) } := by
    unfold step; simp only [a1, a3]
  generalize hs2 : ({ s1 with pc := upd s1.pc 0 .loadHead, steps := upd s1.steps 0 (s1.steps 0 + 1) } : State) = s2 at e2
  have b1 : s2.pc 0 = .loadHead := by rw [← hs2]; simp [upd]
  have b2 : s2.next = upd s.next c none := by rw [← hs2]; exact a2
  have b3 : s2.head = some hd := by rw [← hs2]; exact a3
  have e3 : step s2 0 c = { s2 with pc := upd s2.pc 0 (.casNext hd), steps := upd s2.steps 0 (s2.steps 0 + 1) } := by
    unfold step; simp only [b1, b3]
  generalize hs3 : ({ s2 with pc := upd s2.pc 0 (.casNext hd), steps := upd s2.steps 0 (s2.steps 0 + 1) } : State) = s3 at e3
  have c1 : s3.pc 0 = .casNext hd := by rw [← hs3]; simp [upd]
  have c2 : s3.next = upd s.next c none := by rw [← hs3]; exact b2
  have c3 : s3.head = some hd := by rw [← hs3]; exact b3
  have final : ∃ k, (run (fun _ => c) s3 (List.replicate k 0)).pc 0 = .done ∧
      (run (fun _ => c) s3 (List.replicate k 0)).next = upd s.next c (some c) ∧
      (run (fun _ => c) s3 (List.replicate k 0)).head = some hd := by
    cases l1 with
    | nil =>
      have : hd = c := by
        have := hlist.1
        rw [hhd] at this
        exact Option.some.inj this
      subst this
      refine ⟨1, ?_⟩
      have hn : s3.next hd = none := by rw [c2]; simp [upd]
      simp only [List.replicate, run]
      unfold step
      simp only [c1, hn, upd_same, c2, upd_upd, c3]
      exact ⟨trivial, trivial, trivial⟩
    | cons a l1 =>
      have : hd = a := by
        have := hlist.1
        rw [hhd] at this
        exact Option.some.inj this
      subst this
      have hnc : s.next c = l2.head? := by
        have := hlist.getElem_succ (j := (hd :: l1).length) (n := c) (by simp)
        rw [this]
        cases l2 <;> simp
      obtain ⟨k, h1, h2, h3⟩ := readd_walk c l1 l2 s3 hd c1 (by rw [c2]; simp [upd])
        ⟨s.head, by rw [c2, upd_upd, ← hnc, upd_self]; exact hlist⟩ hc1
      exact ⟨k, h1, by rw [h2, c2, upd_upd], by rw [h3, c3]⟩
  obtain ⟨k, h1, h2, h3⟩ := final
  refine ⟨k + 3, ?_⟩
  have hrun : run (fun _ => c) s (List.replicate (k + 3) 0) = run (fun _ => c) s3 (List.replicate k 0) := by
    simp only [List.replicate_succ, run, e1, e2, e3]
  dsimp only
  rw [hrun]
  refine ⟨h1, by rw [h2]; simp [upd], by rw [h3, hhd], ?_⟩
  rintro ⟨l, hl⟩
  rw [h2, h3, ← hhd] at hl
  -- the certificate is still reachable, so it would be a member of the list
  have hreach : ∀ (l1 l : List Nat) (p : Option Nat), Spec.IsList s.next p (l1 ++ c :: l2) → c ∉ l1 →
      Spec.IsList (upd s.next c (some c)) p l → c ∈ l := by
    intro l1
    induction l1 with
    | nil =>
      intro l p h1 _ h2
      rw [h1.1] at h2
      cases l with
      | nil => cases h2
      | cons b l => rw [← Option.some.inj h2.1]; exact List.mem_cons_self
    | cons a l1 ih =>
      intro l p h1 hc h2
      rw [h1.1] at h2
      cases l with
      | nil => cases h2
      | cons b l =>
        have hab : a = b := Option.some.inj h2.1
        subst hab
        have hac : a ≠ c := fun e => hc (by simp [e])
        have h2' := h2.2
        rw [upd_ne _ _ _ _ hac] at h2'
        exact List.mem_cons_of_mem _ (ih l _ h1.2 (fun h => hc (List.mem_cons_of_mem _ h)) h2')
  exact no_list_of_loop _ c (by simp [upd]) l _ hl (hreach l1 l _ hlist hc1 hl)

/-! ### Non-vacuity -/

/-- A store with certificates 100 and 101, and threads `i` that add certificate `i`, for `i < 100`
(the others are given certificates from 1000 on). -/
def exState : State :=
  ⟨some 100, fun n => if n = 100 then some 101 else none, fun _ => .start, fun _ => 0⟩

def exCert (i : Nat) : Nat := if i < 100 then i else i + 1000

example : Initial exCert [100, 101] exState :=
  ⟨by simp [Spec.IsList, exState], by simp, fun _ => rfl, fun _ => rfl, by
    intro i; unfold exCert; split <;> simp <;> omega⟩

example : ∀ i j, exCert i = exCert j → i = j := by
  intro i j; unfold exCert; split <;> split <;> omega

/-- Two threads whose steps alternate: both end up in the list. -/
example : (run exCert exState [0, 1, 0, 1, 0, 1, 0, 1, 0, 1, 0, 1, 0, 1, 1]).pc 0 = .done ∧
    (run exCert exState [0, 1, 0, 1, 0, 1, 0, 1, 0, 1, 0, 1, 0, 1, 1]).pc 1 = .done ∧
    (run exCert exState [0, 1, 0, 1, 0, 1, 0, 1, 0, 1, 0, 1, 0, 1, 1]).next 101 = some 0 ∧
    (run exCert exState [0, 1, 0, 1, 0, 1, 0, 1, 0, 1, 0, 1, 0, 1, 1]).next 0 = some 1 := by
  decide +kernel

example : Spec.IsList exState.next exState.head ([100] ++ 101 :: []) ∧ exState.pc 0 = .start := by
  simp [Spec.IsList, exState]

end LC.Pkcs7.Store
