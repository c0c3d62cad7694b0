import Verif.Asn1.Encoder
/-
The record of values that the model of the encoder keeps (`St.log`) has no influence on its course.  With that, a state that
recurs apart from the record shows that the encoder does not return.
-/
namespace LC.Asn1.Gen

variable {σ : Type}

/-- The same course, apart from the record. -/
def LogEq : Res σ → Res σ → Prop
  | .next a, .next b => ∃ l, b = { a with log := l }
  | .halt r _, .halt r' _ => r = r'
  | .fault, .fault => True
  | _, _ => False

theorem LogEq.nx (a : St σ) (l : List Val) : LogEq (.next a) (.next { a with log := l }) := ⟨l, rfl⟩

theorem writeOut_log (maxlen l : Nat) (s : St σ) (g : List Val) : LogEq (writeOut maxlen l s) (writeOut maxlen l { s with log := g }) := by
  obtain ⟨pc, stk, jstk, ma, la, co, ze, out, ctx, log⟩ := s
  unfold writeOut
  dsimp only
  split
  · trivial
  · split
    · trivial
    · split
      · exact ⟨g, rfl⟩
      · split
        · trivial
        · split
          · split
            · exact rfl
            · exact ⟨g, rfl⟩
          · split
            · trivial
            · split
              · exact rfl
              · exact ⟨g, rfl⟩

theorem callAct_log (e : Encoder σ) (maxlen : Nat) (leaf : Bool) (s : St σ) (i : Nat) (k : St σ → Res σ) (g : List Val)
    (hk : ∀ s g, LogEq (k s) (k { s with log := g })) : LogEq (callAct e maxlen leaf s i k) (callAct e maxlen leaf { s with log := g } i k) := by
  unfold callAct
  dsimp only
  split
  · trivial
  · split
    · trivial
    · split
      · trivial
      · split
        · trivial
        · split
          · exact rfl
          · split
            · trivial
            · exact hk _ _

theorem push_log (c : Cfg) (s : St σ) (k : St σ → Res σ) (g : List Val) (hk : ∀ s g, LogEq (k s) (k { s with log := g })) :
    LogEq (push c s k) (push c { s with log := g } k) := by
  unfold push
  dsimp only
  split
  · exact rfl
  · exact hk _ _

theorem setTag_log (r : Bool) (t : Nat) (s : St σ) (g : List Val) : setTag r t { s with log := g } = { setTag r t s with log := g } := by
  unfold setTag
  dsimp only
  split <;> rfl

theorem leafBody_log (e : Encoder σ) (maxlen op l t : Nat) (s : St σ) (g : List Val) :
    LogEq (leafBody e maxlen op l t s) (leafBody e maxlen op l t { s with log := g }) := by
  unfold leafBody
  split
  · refine callAct_log e maxlen _ s _ _ g (fun s g => ?_)
    dsimp only
    split
    · exact writeOut_log _ _ _ _
    · exact ⟨g, rfl⟩
  · split
    · exact writeOut_log _ _ _ _
    · exact ⟨g, rfl⟩

theorem leafOp_log (e : Encoder σ) (c : Cfg) (maxlen op l : Nat) (s : St σ) (g : List Val) :
    LogEq (leafOp e c maxlen op l s) (leafOp e c maxlen op l { s with log := g }) := by
  unfold leafOp
  dsimp only
  split
  · trivial
  · rename_i t _
    rw [setTag_log true t s g]
    split
    · exact push_log _ _ _ _ (leafBody_log e maxlen op l _)
    · exact leafBody_log _ _ _ _ _ _ _

theorem jumpOp_log (e : Encoder σ) (c : Cfg) (op l : Nat) (s : St σ) (g : List Val) :
    LogEq (jumpOp e c op l s) (jumpOp e c op l { s with log := g }) := by
  unfold jumpOp
  dsimp only
  split
  · exact ⟨g, rfl⟩
  · split
    · exact rfl
    · split
      · trivial
      · split
        · rename_i t u _ _
          have h := setTag_log false t { s with jstk := (s.pc + l) % 256 :: s.jstk } g
          dsimp only at h
          rw [h]
          split
          · exact push_log _ _ _ _ (fun s g => ⟨g, rfl⟩)
          · exact ⟨g, rfl⟩
        · trivial

theorem popWrite_log (maxlen l : Nat) (s : St σ) (g : List Val) : LogEq (popWrite maxlen l s) (popWrite maxlen l { s with log := g }) := by
  unfold popWrite
  dsimp only
  split
  · exact writeOut_log maxlen l { s with stk := _ } g
  · exact rfl

theorem endOp_log (e : Encoder σ) (maxlen op l : Nat) (s : St σ) (g : List Val) :
    LogEq (endOp e maxlen op l s) (endOp e maxlen op l { s with log := g }) := by
  unfold endOp
  dsimp only
  split
  · split
    · trivial
    · exact ⟨g, rfl⟩
  · split
    · exact callAct_log e maxlen _ s _ _ g (popWrite_log maxlen l)
    · exact popWrite_log _ _ _ _

theorem returnFin_log (s : St σ) (n : Nat) (g : List Val) : LogEq (returnFin s n) (returnFin { s with log := g } n) := by
  unfold returnFin
  dsimp only
  split
  · exact rfl
  · exact ⟨g, rfl⟩

theorem ctlOp_log (e : Encoder σ) (maxlen op l : Nat) (s : St σ) (g : List Val) :
    LogEq (ctlOp e maxlen op l s) (ctlOp e maxlen op l { s with log := g }) := by
  unfold ctlOp
  dsimp only
  split
  · split
    · exact ⟨g, rfl⟩
    · exact rfl
  · split
    · split
      · exact rfl
      · exact rfl
    · split
      · exact ⟨g, rfl⟩
      · split
        · exact callAct_log e maxlen _ s _ _ g (writeOut_log maxlen l)
        · split
          · unfold returnOp
            dsimp only
            split
            · split
              · trivial
              · exact returnFin_log _ _ _
            · exact returnFin_log _ _ _
          · exact rfl

theorem step_log (e : Encoder σ) (c : Cfg) (maxlen : Nat) (s : St σ) (g : List Val) :
    LogEq (step e c maxlen s) (step e c maxlen { s with log := g }) := by
  unfold step
  dsimp only
  split
  · exact rfl
  · split
    · trivial
    · split
      · exact rfl
      · split
        · exact leafOp_log _ _ _ _ _ _ _
        · split
          · exact jumpOp_log _ _ _ _ _ _
          · split
            · exact endOp_log _ _ _ _ _ _
            · exact ctlOp_log _ _ _ _ _ _

theorem run_log (e : Encoder σ) (c : Cfg) (maxlen : Nat) : ∀ (n : Nat) (s : St σ) (g : List Val),
    LogEq (run e c maxlen n s) (run e c maxlen n { s with log := g })
  | 0, s, g => ⟨g, rfl⟩
  | n + 1, s, g => by
    unfold run
    have h := step_log e c maxlen s g
    cases hs : step e c maxlen s with
    | next a =>
      cases ht : step e c maxlen { s with log := g } with
      | next b =>
        rw [hs, ht] at h
        obtain ⟨l, rfl⟩ := h
        exact run_log e c maxlen n a l
      | halt r b => rw [hs, ht] at h; exact h.elim
      | fault => rw [hs, ht] at h; exact h.elim
    | halt r a =>
      cases ht : step e c maxlen { s with log := g } with
      | next b => rw [hs, ht] at h; exact h.elim
      | halt r b => rw [hs, ht] at h; exact h
      | fault => rw [hs, ht] at h; exact h.elim
    | fault =>
      cases ht : step e c maxlen { s with log := g } with
      | next b => rw [hs, ht] at h; exact h.elim
      | halt r b => rw [hs, ht] at h; exact h.elim
      | fault => trivial

theorem run_add (e : Encoder σ) (c : Cfg) (maxlen : Nat) : ∀ (n k : Nat) (s t : St σ), run e c maxlen n s = .next t →
    run e c maxlen (n + k) s = run e c maxlen k t
  | 0, k, s, t, h => by
    injection h with h
    subst h
    rw [Nat.zero_add]
  | n + 1, k, s, t, h => by
    generalize hr : run e c maxlen k t = r
    rw [show n + 1 + k = (n + k) + 1 by omega]
    unfold run at h ⊢
    subst hr
    cases hs : step e c maxlen s with
    | next a => rw [hs] at h; exact run_add e c maxlen n k a t h
    | halt r a => rw [hs] at h; cases h
    | fault => rw [hs] at h; cases h

theorem run_prefix (e : Encoder σ) (c : Cfg) (maxlen : Nat) : ∀ (n j : Nat) (s t : St σ), run e c maxlen (n + j) s = .next t →
    ∃ u, run e c maxlen n s = .next u
  | 0, _, s, _, _ => ⟨s, rfl⟩
  | n + 1, j, s, t, h => by
    rw [show n + 1 + j = (n + j) + 1 by omega] at h
    unfold run at h ⊢
    cases hs : step e c maxlen s with
    | next a => rw [hs] at h; exact run_prefix e c maxlen n j a t h
    | halt r a => rw [hs] at h; cases h
    | fault => rw [hs] at h; cases h

/-- If a state is reached that recurs apart from the record then the encoder does not return. -/
theorem cycle (e : Encoder σ) (c : Cfg) (maxlen q p : Nat) (hp : 0 < p) (s0 s : St σ) (g : List Val) (h0 : run e c maxlen q s0 = .next s)
    (h : run e c maxlen p s = .next { s with log := g }) : ∀ n, ∃ t, run e c maxlen n s0 = .next t := by
  have hk : ∀ k, ∃ l, run e c maxlen (p * k) s = .next { s with log := l } := by
    intro k
    induction k with
    | zero => exact ⟨s.log, rfl⟩
    | succ k ih =>
      obtain ⟨l, hl⟩ := ih
      rw [Nat.mul_succ, run_add e c maxlen _ p s _ hl]
      have hq := run_log e c maxlen p s l
      rw [h] at hq
      cases hr : run e c maxlen p { s with log := l } with
      | next b =>
        rw [hr] at hq
        obtain ⟨l', hl'⟩ := hq
        exact ⟨l', by rw [hl']⟩
      | halt r b => rw [hr] at hq; exact hq.elim
      | fault => rw [hr] at hq; exact hq.elim
  intro n
  obtain ⟨l, hl⟩ := hk n
  have hn := Nat.le_mul_of_pos_left n hp
  have hr : run e c maxlen (q + p * n) s0 = .next { s with log := l } := by rw [run_add e c maxlen q _ s0 s h0, hl]
  exact run_prefix e c maxlen n (q + p * n - n) s0 _ (by rw [show n + (q + p * n - n) = q + p * n by omega]; exact hr)

end LC.Asn1.Gen
