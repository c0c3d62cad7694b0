import Verif.Seeded.Model
/-
Property theorems: C27 (seeded RNG).
-/
namespace LC.Seeded

/-! ### The claim -/

/-- The output came from a DRNG seeded since initialisation, in the same process, at most 60
seconds before (by the clock), and at most `limit` bytes before. -/
def Good (limit : Nat) (o : Output) : Prop :=
  ∃ g, o.drng = some g ∧ g.proc = o.proc ∧ o.time ≤ g.time + 60 ∧ g.out ≤ limit

/-- The claim of C27. -/
def Claim (T : Nat) (ok : List Event → Prop) : Prop :=
  ∀ pid es, ok es → ∀ o ∈ (run T (initial pid) es).2, Good (2 ^ 20) o

/-! ### Environments -/

/-- The clock does not run backwards, starts at `lo`, and stays below `2^63`. -/
def Clocks : Nat → List Event → Prop
  | _, [] => True
  | lo, .get _ c1 c2 _ _ _ :: es => lo ≤ c1 ∧ c1 ≤ c2 ∧ c2 < 2 ^ 63 ∧ Clocks c2 es
  | lo, .seed _ c _ :: es => lo ≤ c ∧ c < 2 ^ 63 ∧ Clocks c es
  | lo, .gen _ _ _ :: es => Clocks lo es
  | lo, .fork _ :: es => Clocks lo es

/-- Process ids are not reused. -/
def Pids : List Nat → List Event → Prop
  | _, [] => True
  | used, .fork p :: es => p ∉ used ∧ p ≠ 0 ∧ Pids (p :: used) es
  | used, .get _ _ _ _ _ _ :: es => Pids used es
  | used, .seed _ _ _ :: es => Pids used es
  | used, .gen _ _ _ :: es => Pids used es

/-- Requests of at most `M` bytes. -/
def Sizes (M : Nat) : List Event → Prop
  | [] => True
  | .gen _ n _ :: es => n ≤ M ∧ n < 2 ^ 64 ∧ Sizes M es
  | .fork _ :: es => Sizes M es
  | .get _ _ _ _ _ _ :: es => Sizes M es
  | .seed _ _ _ :: es => Sizes M es

/-! ### Invariant -/

structure Inv (T M lo : Nat) (used : List Nat) (s : State) : Prop where
  cur : s.curpid ∈ used ∧ s.curpid ≠ 0
  pid : s.pid = 0 ∨ s.pid ∈ used
  last : s.last ≤ lo
  count : s.pending.length ≤ T
  fresh : s.last = 0 → s.bytes > maxBytes ∧ s.pending = []
  seeded : s.last ≠ 0 → ∃ g, s.drng = some g ∧ g.time = s.last ∧ s.bytes = min g.out (word - 1) ∧
    (s.pid = s.curpid → g.proc = s.proc) ∧ (s.pending ≠ [] → g.proc = s.proc) ∧
    (∀ x ∈ s.pending, x.2 ≤ g.time + 60) ∧ (s.pending ≠ [] → g.out + s.pending.length * M ≤ maxBytes + T * M)

theorem inv_initial (T M lo pid : Nat) (hp : pid ≠ 0) : Inv T M lo [pid] (initial pid) := by
  refine ⟨⟨by simp [initial], hp⟩, Or.inl rfl, Nat.zero_le _, Nat.zero_le _, ?_, ?_⟩
  · intro _; exact ⟨by show maxBytes + 1 > maxBytes; omega, rfl⟩
  · intro h; exact absurd rfl h

/-- A successful seeding establishes the facts needed by its own call. -/
structure Fresh (T M : Nat) (c1 : Nat) (s : State) : Prop where
  last : s.last ≠ 0
  ex : ∃ g, s.drng = some g ∧ g.time = s.last ∧ s.bytes = min g.out (word - 1) ∧ g.proc = s.proc ∧
    c1 ≤ g.time + 60 ∧ g.out ≤ maxBytes ∧ (∀ x ∈ s.pending, x.2 ≤ g.time + 60)

theorem mustReseed_no {s : State} {c : Nat} (h : (mustReseed s c).1 = false) (hl : s.last < 2 ^ 63) (hc : c < 2 ^ 63) :
    s.bytes ≤ maxBytes ∧ c ≤ s.last + 60 ∧ s.pid = s.curpid := by
  unfold mustReseed at h
  by_cases h1 : s.bytes > maxBytes
  · rw [if_pos h1] at h; exact absurd h (by decide)
  rw [if_neg h1] at h
  by_cases h2 : timeAfterNow c ((s.last + maxTime) % word) = true
  · rw [if_pos h2] at h; exact absurd h (by decide)
  rw [if_neg h2] at h
  by_cases h3 : s.pid ≠ s.curpid
  · rw [if_pos h3] at h; cases h
  refine ⟨by omega, ?_, by omega⟩
  have hw : word = 2 ^ 64 := rfl
  have hm : maxTime = 60 := rfl
  rw [hm, Nat.mod_eq_of_lt (by omega)] at h2
  by_cases hgt : c > s.last + 60
  · exfalso; apply h2
    unfold timeAfterNow timeAfter
    rw [hw, if_neg (by omega), if_neg (by omega), decide_eq_true hgt, decide_eq_true (by omega)]
    rfl
  · omega

theorem getRng_inv {T M lo : Nat} {used : List Nat} {s : State} (hi : Inv T M lo used s) (c1 c2 : Nat) (noise e1 e2 : Bool)
    (h1 : lo ≤ c1) (h2 : c1 ≤ c2) (h3 : c2 < 2 ^ 63) (h0 : 1 ≤ lo) :
    Inv T M c2 used (getRng s c1 c2 noise e1 e2).1 ∧
    (getRng s c1 c2 noise e1 e2).1.pending = s.pending ∧
    (getRng s c1 c2 noise e1 e2).1.proc = s.proc ∧
    ((getRng s c1 c2 noise e1 e2).2 = true → Fresh T M c1 (getRng s c1 c2 noise e1 e2).1) := by
  have hlast : s.last ≤ c2 := by have := hi.last; omega
  have hpid' : s.curpid = 0 ∨ s.curpid ∈ used := Or.inr hi.cur.1
  by_cases hz : s.last = 0
  · -- initialisation
    obtain ⟨hb, hpe⟩ := hi.fresh hz
    have hI : ∀ p d, (p = 0 ∨ p ∈ used) → Inv T M c2 used { s with pid := p, drng := d } := by
      intro p d hp
      exact ⟨hi.cur, hp, hlast, hi.count, fun _ => ⟨hb, hpe⟩, fun h => absurd hz h⟩
    unfold getRng
    have hd : decide (s.last = 0) = true := decide_eq_true hz
    simp only [hd, if_true, Bool.true_and]
    cases noise with
    | false =>
      rw [if_pos (show (!false) = true by decide)]
      refine ⟨hI _ _ hi.pid, rfl, rfl, ?_⟩
      intro h; cases h
    | true =>
      rw [if_neg (show ¬ ((!true) = true) by decide)]
      have hm : mustReseed { s with drng := none, pid := s.curpid } c1 = (true, 0) := by
        unfold mustReseed; rw [if_pos hb]
      rw [hm]
      dsimp only
      rw [if_pos rfl]
      unfold seedRng
      cases e1 with
      | false =>
        refine ⟨hI _ _ hpid', rfl, rfl, ?_⟩
        intro h; cases h
      | true =>
        cases e2 with
        | false =>
          refine ⟨hI _ _ hpid', rfl, rfl, ?_⟩
          intro h; cases h
        | true =>
          refine ⟨⟨hi.cur, hpid', Nat.le_refl _, hi.count, ?_, ?_⟩, rfl, rfl, ?_⟩
          · intro h
            have : c2 = 0 := h
            omega
          · intro _
            refine ⟨{ proc := s.proc, time := c2, out := 0 }, rfl, rfl, by simp, fun _ => rfl, fun _ => rfl, ?_, ?_⟩
            · intro x hx
              have : x ∈ s.pending := hx
              rw [hpe] at this; simp at this
            · intro h
              exact absurd hpe h
          · intro _
            refine ⟨by show c2 ≠ 0; omega, { proc := s.proc, time := c2, out := 0 }, rfl, rfl, by simp, rfl, ?_, ?_, ?_⟩
            · show c1 ≤ c2 + 60; omega
            · exact Nat.zero_le _
            · intro x hx
              have : x ∈ s.pending := hx
              rw [hpe] at this; simp at this
  · -- already initialised
    obtain ⟨g, hg, ht, hby, hpp, hpn, hpt, hpo⟩ := hi.seeded hz
    unfold getRng
    have hd : decide (s.last = 0) = false := decide_eq_false hz
    simp only [hd, Bool.false_and, if_neg (show ¬ (false = true) by decide)]
    have hkeep : Inv T M c2 used s :=
      ⟨hi.cur, hi.pid, hlast, hi.count, hi.fresh, hi.seeded⟩
    cases hmr : (mustReseed s c1).1 with
    | false =>
      rw [if_neg (by decide)]
      refine ⟨hkeep, rfl, rfl, ?_⟩
      intro _
      obtain ⟨m1, m2, m3⟩ := mustReseed_no hmr (by omega) (by omega)
      have hw : word = 2 ^ 64 := rfl
      have hmb : maxBytes = 1048576 := rfl
      exact ⟨hz, g, hg, ht, hby, hpp m3, by omega, by omega, hpt⟩
    | true =>
      rw [if_pos rfl]
      unfold seedRng
      cases e1 with
      | false =>
        refine ⟨hkeep, rfl, rfl, ?_⟩
        intro h; cases h
      | true =>
        have hnp : (mustReseed s c1).2 = 0 ∨ (mustReseed s c1).2 = s.curpid := by
          unfold mustReseed
          split
          · exact Or.inl rfl
          · split
            · exact Or.inl rfl
            · split
              · exact Or.inr rfl
              · exact Or.inl rfl
        refine ⟨⟨hi.cur, ?_, Nat.le_refl _, hi.count, ?_, ?_⟩, rfl, rfl, ?_⟩
        · show (if (mustReseed s c1).2 ≠ 0 then (mustReseed s c1).2 else s.pid) = 0 ∨
            (if (mustReseed s c1).2 ≠ 0 then (mustReseed s c1).2 else s.pid) ∈ used
          rcases hnp with h | h
          · rw [h, if_neg (by decide)]; exact hi.pid
          · rw [h, if_pos hi.cur.2]; exact hpid'
        · intro h
          have : c2 = 0 := h
          omega
        · intro _
          refine ⟨{ proc := s.proc, time := c2, out := 0 }, rfl, rfl, by simp, fun _ => rfl, fun _ => rfl, ?_, ?_⟩
          · intro x hx
            have := hpt x hx
            show x.2 ≤ c2 + 60
            omega
          · intro _
            show 0 + s.pending.length * M ≤ maxBytes + T * M
            have := Nat.mul_le_mul_right M hi.count
            omega
        · intro _
          refine ⟨by show c2 ≠ 0; omega, { proc := s.proc, time := c2, out := 0 }, rfl, rfl, by simp, rfl, ?_, ?_, ?_⟩
          · show c1 ≤ c2 + 60; omega
          · exact Nat.zero_le _
          · intro x hx
            have := hpt x hx
            show x.2 ≤ c2 + 60
            omega

theorem Inv.mono {T M lo lo' : Nat} {used : List Nat} {s : State} (h : Inv T M lo used s) (hl : lo ≤ lo') :
    Inv T M lo' used s :=
  ⟨h.cur, h.pid, by have := h.last; omega, h.count, h.fresh, h.seeded⟩

theorem reading_some {p : List (Nat × Nat)} {t c : Nat} (h : reading p t = some c) : (t, c) ∈ p := by
  unfold reading at h
  cases hf : p.find? (fun x => x.1 = t) with
  | none => rw [hf] at h; cases h
  | some x =>
    rw [hf] at h
    have h1 := List.find?_some hf
    have h2 := List.mem_of_find?_eq_some hf
    have h3 : x.2 = c := by simpa using h
    have h4 : x.1 = t := by simpa using h1
    rw [← h3, ← h4]
    exact h2

theorem dropThread_lt {p : List (Nat × Nat)} {t c : Nat} (h : reading p t = some c) :
    (dropThread p t).length + 1 ≤ p.length := by
  have hm := reading_some h
  unfold dropThread
  have : (p.filter fun x => decide (x.1 ≠ t)).length < p.length :=
    List.length_filter_lt_length_iff_exists.2 ⟨(t, c), hm, by simp⟩
  omega

theorem mem_dropThread {p : List (Nat × Nat)} {t : Nat} {x : Nat × Nat} (h : x ∈ dropThread p t) : x ∈ p :=
  (List.mem_filter.1 h).1

/-- Dropping a pending thread keeps the invariant. -/
theorem inv_drop {T M lo : Nat} {used : List Nat} {s : State} (hi : Inv T M lo used s) {t c : Nat}
    (hr : reading s.pending t = some c) : Inv T M lo used { s with pending := dropThread s.pending t } := by
  have hlt := dropThread_lt hr
  have hm := reading_some hr
  have hne : s.pending ≠ [] := by intro h; rw [h] at hm; simp at hm
  refine ⟨hi.cur, hi.pid, hi.last, ?_, ?_, ?_⟩
  · have := hi.count
    show (dropThread s.pending t).length ≤ T
    omega
  · intro h; exact absurd (hi.fresh h).2 hne
  · intro h
    obtain ⟨g, hg, ht, hby, hpp, hpn, hpt, hpo⟩ := hi.seeded h
    refine ⟨g, hg, ht, hby, hpp, fun _ => hpn hne, fun x hx => hpt x (mem_dropThread hx), ?_⟩
    intro _
    show g.out + (dropThread s.pending t).length * M ≤ _
    have := hpo hne
    have h2 := Nat.mul_le_mul_right M (show (dropThread s.pending t).length ≤ s.pending.length by omega)
    omega

theorem genUpdate_bytes (b n o : Nat) (hn : n < 2 ^ 64) (hb : b = min o (word - 1)) :
    (if (b + n) % word < b then word - 1 else (b + n) % word) = min (o + n) (word - 1) := by
  have hw : word = 18446744073709551616 := rfl
  rw [hw] at hb ⊢
  by_cases h : b + n < 18446744073709551616
  · rw [Nat.mod_eq_of_lt h, if_neg (by omega)]; omega
  · have : (b + n) % 18446744073709551616 = b + n - 18446744073709551616 := by omega
    rw [this, if_pos (by omega)]; omega

/-- The invariant is kept by every event, and every output is good. -/
theorem step_inv {T M lo : Nat} {used : List Nat} {s : State} (hi : Inv T M lo used s) (h0 : 1 ≤ lo) (e : Event)
    (es : List Event) (hc : Clocks lo (e :: es)) (hp : Pids used (e :: es)) (hs : Sizes M (e :: es)) :
    ∃ lo' used', lo ≤ lo' ∧ Clocks lo' es ∧ Pids used' es ∧ Sizes M es ∧ Inv T M lo' used' (step T s e).1 ∧
      ∀ o, (step T s e).2 = some o → Good (2 ^ 20 + (T - 1) * M) o := by
  cases e with
  | fork p =>
    obtain ⟨hp1, hp2, hp3⟩ := hp
    refine ⟨lo, p :: used, Nat.le_refl _, hc, hp3, hs, ⟨⟨by simp [step], hp2⟩, ?_, hi.last, Nat.zero_le _, ?_, ?_⟩, ?_⟩
    · rcases hi.pid with h | h
      · exact Or.inl h
      · exact Or.inr (List.mem_cons_of_mem _ h)
    · intro h; exact ⟨(hi.fresh h).1, rfl⟩
    · intro h
      obtain ⟨g, hg, ht, hby, hpp, hpn, hpt, hpo⟩ := hi.seeded h
      refine ⟨g, hg, ht, hby, ?_, fun h => absurd rfl h, fun x hx => by simp [step] at hx, fun h => absurd rfl h⟩
      intro he
      exfalso
      have he : s.pid = p := he
      rcases hi.pid with h | h
      · rw [h] at he; exact hp2 he.symm
      · rw [he] at h; exact hp1 h
    · intro o h; cases h
  | seed t c e =>
    obtain ⟨hc1, hc2, hc3⟩ := hc
    refine ⟨c, used, hc1, hc3, hp, hs, ?_, ?_⟩
    · unfold step
      dsimp only
      cases hr : reading s.pending t with
      | none => exact hi.mono hc1
      | some c' =>
        dsimp only
        have hd := (inv_drop hi hr).mono hc1
        unfold seedRng
        cases e with
        | false => exact hd
        | true =>
          refine ⟨hi.cur, ?_, Nat.le_refl _, hd.count, ?_, ?_⟩
          · show (if (0 : Nat) ≠ 0 then 0 else s.pid) = 0 ∨ _
            rw [if_neg (by decide)]; exact hi.pid
          · intro h
            have : c = 0 := h
            omega
          · intro _
            have hne : s.pending ≠ [] := by
              have hm := reading_some hr
              intro h; rw [h] at hm; simp at hm
            have hl : s.last ≠ 0 := fun h => hne (hi.fresh h).2
            obtain ⟨g, hg, ht, hby, hpp, hpn, hpt, hpo⟩ := hd.seeded hl
            refine ⟨{ proc := s.proc, time := c, out := 0 }, rfl, rfl, by simp, fun _ => rfl, fun _ => rfl, ?_, ?_⟩
            · intro x hx
              have h5 := hpt x hx
              have h6 := hi.last
              have h7 : g.time = s.last := ht
              show x.2 ≤ c + 60
              omega
            · intro _
              show 0 + (dropThread s.pending t).length * M ≤ maxBytes + T * M
              have := Nat.mul_le_mul_right M hd.count
              have h8 : (dropThread s.pending t).length * M ≤ T * M := this
              omega
    · intro o h
      unfold step at h
      dsimp only at h
      cases hr : reading s.pending t with
      | none => rw [hr] at h; cases h
      | some c' => rw [hr] at h; cases h
  | get t c1 c2 noise e1 e2 =>
    obtain ⟨hc1, hc2, hc3, hc4⟩ := hc
    refine ⟨c2, used, by omega, hc4, hp, hs, ?_, ?_⟩
    · unfold step
      dsimp only
      by_cases hen : ((reading s.pending t).isSome || decide (T ≤ s.pending.length)) = true
      · rw [if_pos hen]; exact hi.mono (by omega)
      · rw [if_neg hen]
        have hT : s.pending.length < T := by
          by_cases h : T ≤ s.pending.length
          · exfalso; apply hen; rw [decide_eq_true h, Bool.or_true]
          · omega
        obtain ⟨g1, g2, g3, g4⟩ := getRng_inv hi c1 c2 noise e1 e2 hc1 hc2 hc3 h0
        generalize getRng s c1 c2 noise e1 e2 = r at g1 g2 g3 g4
        cases hr : r.2 with
        | false => rw [if_neg (by decide)]; exact g1
        | true =>
          rw [if_pos rfl]
          obtain ⟨f1, g, f2, f3, f4, f5, f6, f7, f8⟩ := g4 hr
          refine ⟨g1.cur, g1.pid, g1.last, ?_, ?_, ?_⟩
          · show ((t, c1) :: r.1.pending).length ≤ T
            rw [List.length_cons, g2]; omega
          · intro h; exact absurd h f1
          · intro _
            refine ⟨g, f2, f3, f4, fun _ => f5, fun _ => f5, ?_, ?_⟩
            · intro x hx
              have hx : x ∈ (t, c1) :: r.1.pending := hx
              rcases List.mem_cons.1 hx with h | h
              · rw [h]; exact f6
              · exact f8 x h
            · intro _
              show g.out + ((t, c1) :: r.1.pending).length * M ≤ maxBytes + T * M
              rw [List.length_cons, g2]
              have := Nat.mul_le_mul_right M (show s.pending.length + 1 ≤ T by omega)
              omega
    · intro o h
      unfold step at h
      dsimp only at h
      by_cases hen : ((reading s.pending t).isSome || decide (T ≤ s.pending.length)) = true
      · rw [if_pos hen] at h; cases h
      · rw [if_neg hen] at h
        split at h <;> cases h
  | gen t n ok =>
    obtain ⟨hs1, hs2, hs3⟩ := hs
    refine ⟨lo, used, Nat.le_refl _, hc, hp, hs3, ?_, ?_⟩
    · unfold step
      dsimp only
      cases hr : reading s.pending t with
      | none => exact hi
      | some c =>
        dsimp only
        have hd := inv_drop hi hr
        cases ok with
        | false => exact hd
        | true =>
          rw [if_pos rfl]
          have hne : s.pending ≠ [] := by
            have hm := reading_some hr
            intro h; rw [h] at hm; simp at hm
          have hl : s.last ≠ 0 := fun h => hne (hi.fresh h).2
          obtain ⟨g, hg, ht, hby, hpp, hpn, hpt, hpo⟩ := hi.seeded hl
          refine ⟨hd.cur, hd.pid, hd.last, hd.count, ?_, ?_⟩
          · intro h; exact absurd h hl
          · intro _
            refine ⟨{ g with out := g.out + n }, ?_, ht, ?_, hpp, fun _ => hpn hne,
              fun x hx => hpt x (mem_dropThread hx), ?_⟩
            · show s.drng.map _ = _
              rw [hg]; rfl
            · exact genUpdate_bytes s.bytes n g.out hs2 hby
            · intro _
              show g.out + n + (dropThread s.pending t).length * M ≤ maxBytes + T * M
              have h1 := hpo hne
              have h2 := Nat.mul_le_mul_right M (dropThread_lt hr)
              rw [Nat.add_mul, Nat.one_mul] at h2
              omega
    · intro o h
      unfold step at h
      dsimp only at h
      cases hr : reading s.pending t with
      | none => rw [hr] at h; cases h
      | some c =>
        rw [hr] at h
        dsimp only at h
        cases ok with
        | false => rw [if_neg (by decide)] at h; cases h
        | true =>
          rw [if_pos rfl] at h
          have hm := reading_some hr
          have hne : s.pending ≠ [] := by
            intro h; rw [h] at hm; simp at hm
          have hl : s.last ≠ 0 := fun h => hne (hi.fresh h).2
          obtain ⟨g, hg, ht, hby, hpp, hpn, hpt, hpo⟩ := hi.seeded hl
          cases h
          refine ⟨g, hg, hpn hne, hpt _ hm, ?_⟩
          have h1 := hpo hne
          have h2 : 1 ≤ s.pending.length := List.length_pos_iff.2 hne
          have h3 := hi.count
          have h4 : (s.pending.length + (T - 1)) * M ≥ T * M := Nat.mul_le_mul_right M (by omega)
          rw [Nat.add_mul] at h4
          have hmb : maxBytes = 2 ^ 20 := rfl
          omega

theorem run_good {T M : Nat} : ∀ (es : List Event) (lo : Nat) (used : List Nat) (s : State), Inv T M lo used s → 1 ≤ lo →
    Clocks lo es → Pids used es → Sizes M es → ∀ o ∈ (run T s es).2, Good (2 ^ 20 + (T - 1) * M) o := by
  intro es
  induction es with
  | nil => intro lo used s _ _ _ _ _ o ho; simp [run] at ho
  | cons e es ih =>
    intro lo used s hi h0 hc hp hs o ho
    obtain ⟨lo', used', k1, k2, k3, k4, k5, k6⟩ := step_inv hi h0 e es hc hp hs
    have ho : o ∈ (step T s e).2.toList ++ (run T (step T s e).1 es).2 := ho
    rcases List.mem_append.1 ho with h | h
    · exact k6 o (by simpa using h)
    · exact ih lo' used' _ k5 (by omega) k2 k3 k4 o h

/-- **C27, what holds for threads**: for every interleaving of at most `T` threads, any failures,
forks with fresh process ids and clock readings that start at 1 or later and do not run backwards,
every output comes from a DRNG that was seeded since initialisation, in the same process, at most
60 seconds before the clock reading of the call, and after at most `2^20 + (T - 1) * M` bytes, where
`M` bounds the requests.  Missing: other clocks and pids, and the bound `2^20` (all false, see
below). -/
theorem seeded_rng_threads_partial (T M pid : Nat) (hpid : pid ≠ 0) (es : List Event) (hc : Clocks 1 es)
    (hp : Pids [pid] es) (hs : Sizes M es) : ∀ o ∈ (run T (initial pid) es).2, Good (2 ^ 20 + (T - 1) * M) o :=
  run_good es 1 [pid] _ (inv_initial T M 1 pid hpid) (Nat.le_refl _) hc hp hs

/-- Every finite history has a bound on its request sizes. -/
theorem sizes_bound : ∀ es : List Event, (∀ t n ok, Event.gen t n ok ∈ es → n < 2 ^ 64) → Sizes (2 ^ 64) es := by
  intro es
  induction es with
  | nil => intro _; trivial
  | cons e es ih =>
    intro h
    have hr := ih fun t n ok hm => h t n ok (List.mem_cons_of_mem _ hm)
    cases e with
    | gen t n ok =>
      have := h t n ok (List.mem_cons_self ..)
      exact ⟨by omega, this, hr⟩
    | fork p => exact hr
    | get => exact hr
    | seed => exact hr

/-- **C27, what holds for one thread**: the full bound of 2^20 bytes before the request. -/
theorem seeded_rng_partial (pid : Nat) (hpid : pid ≠ 0) (es : List Event) (hc : Clocks 1 es)
    (hp : Pids [pid] es) (hs : ∀ t n ok, Event.gen t n ok ∈ es → n < 2 ^ 64) :
    ∀ o ∈ (run 1 (initial pid) es).2, Good (2 ^ 20) o := by
  have h := seeded_rng_threads_partial 1 (2 ^ 64) pid hpid es hc hp (sizes_bound es hs)
  simpa using h

instance : ∀ (lo : Nat) (es : List Event), Decidable (Clocks lo es)
  | _, [] => isTrue trivial
  | lo, .get _ c1 c2 _ _ _ :: es =>
    have := instDecidableClocks c2 es
    inferInstanceAs (Decidable (lo ≤ c1 ∧ c1 ≤ c2 ∧ c2 < 2 ^ 63 ∧ Clocks c2 es))
  | lo, .seed _ c _ :: es =>
    have := instDecidableClocks c es
    inferInstanceAs (Decidable (lo ≤ c ∧ c < 2 ^ 63 ∧ Clocks c es))
  | lo, .gen _ _ _ :: es => instDecidableClocks lo es
  | lo, .fork _ :: es => instDecidableClocks lo es

/-! ### Counterexamples to the full claim -/

/-- `time` returns 0 (or fails): the first call seeds, the second one wipes the DRNG and generates
without seeding it. -/
def clockZero : List Event :=
  [.get 0 0 0 true true true, .gen 0 32 true, .get 0 0 0 true true true, .gen 0 32 true]

theorem seeded_rng_clock_zero :
    (run 1 (initial 77) clockZero).2 =
      [{ drng := some { proc := 0, time := 0, out := 0 }, proc := 0, time := 0, len := 32 },
       { drng := none, proc := 0, time := 0, len := 32 }] := by decide

/-- One thread, good clock, but a process id used again: the grandchild of the process that seeded
generates from the DRNG state of its grandparent. -/
def pidReuse : List Event :=
  [.get 0 100 100 true true true, .gen 0 32 true, .fork 78, .fork 77, .get 0 101 101 true true true, .gen 0 32 true]

theorem seeded_rng_pid_reuse :
    (run 1 (initial 77) pidReuse).2 =
      [{ drng := some { proc := 0, time := 100, out := 0 }, proc := 0, time := 100, len := 32 },
       { drng := some { proc := 0, time := 100, out := 32 }, proc := 2, time := 101, len := 32 }] := by decide

/-- Two threads: one passes the check, the other takes 2^20 + 1 bytes, then the first generates. -/
def race : List Event :=
  [.get 0 100 100 true true true, .get 1 100 100 true true true, .gen 1 1048577 true, .gen 0 32 true]

theorem seeded_rng_race :
    (run 2 (initial 77) race).2 =
      [{ drng := some { proc := 0, time := 100, out := 0 }, proc := 0, time := 100, len := 1048577 },
       { drng := some { proc := 0, time := 100, out := 1048577 }, proc := 0, time := 100, len := 32 }] := by decide

/-- The clock set back by an hour: no reseed although an hour or more may pass (here the output is
still within 60 seconds of the stored time, by the clock). -/
theorem seeded_rng_clock_back :
    (run 1 (initial 77) [.get 0 5000 5000 true true true, .gen 0 32 true, .get 0 1400 1400 true true true,
      .gen 0 32 true]).2.map Output.drng =
      [some { proc := 0, time := 5000, out := 0 }, some { proc := 0, time := 5000, out := 32 }] := by decide

/-- The claim of C27 without restrictions on clock, pids and threads is false, for each of these
reasons alone. -/
theorem seeded_rng_claim_false :
    ¬ Claim 1 (fun es => Pids [77] es) ∧ ¬ Claim 1 (fun es => Clocks 1 es) ∧
    ¬ Claim 2 (fun es => Clocks 1 es ∧ Pids [77] es) := by
  refine ⟨?_, ?_, ?_⟩
  · intro h
    obtain ⟨g, hg, _⟩ := h 77 clockZero trivial { drng := none, proc := 0, time := 0, len := 32 }
      (by rw [seeded_rng_clock_zero]; simp)
    cases hg
  · intro h
    obtain ⟨g, hg, hpr, _⟩ := h 77 pidReuse (show Clocks 1 pidReuse by decide)
      { drng := some { proc := 0, time := 100, out := 32 }, proc := 2, time := 101, len := 32 }
      (by rw [seeded_rng_pid_reuse]; simp)
    cases hg
    exact absurd hpr (by decide)
  · intro h
    obtain ⟨g, hg, _, _, ho⟩ := h 77 race ⟨show Clocks 1 race by decide, trivial⟩
      { drng := some { proc := 0, time := 100, out := 1048577 }, proc := 0, time := 100, len := 32 }
      (by rw [seeded_rng_race]; simp)
    cases hg
    exact absurd ho (by decide)

/-- Non-vacuity: two threads, a fork, a failed reseed, a reseed request. -/
def sample : List Event :=
  [.get 0 10 11 true true true, .get 1 12 12 true true true, .gen 1 500 true, .gen 0 40 true, .fork 9,
   .get 0 13 13 true false true, .get 0 14 14 true true true, .seed 0 15 true, .get 0 100 100 true true true, .gen 0 7 true]

example : Clocks 1 sample ∧ Pids [7] sample ∧ Sizes 500 sample ∧ (run 2 (initial 7) sample).2.length = 3 := by
  refine ⟨by decide, ⟨by decide, by decide, trivial⟩, ⟨by decide, by decide, by decide, by decide, by decide, by decide, trivial⟩, by decide⟩

end LC.Seeded
