import Verif.Sym.Ctr
/- C17: AES key wrapping. -/
namespace LC.Sym
namespace Kw

abbrev St := List Byte × List (List Byte)

/-- One pass over all semiblocks, as a function on the list of semiblocks. -/
def sweep (E : List Byte → List Byte) : Nat → List Byte → List (List Byte) → St
  | _, a, [] => (a, [])
  | t, a, r :: rs =>
    let b := E (a ++ r)
    let q := sweep E (t + 1) (xorb (b.take 8) (be 8 t)) rs
    (q.1, b.drop 8 :: q.2)

/-- The inverse pass on the reversed list. -/
def unsweep (D : List Byte → List Byte) : Nat → List Byte → List (List Byte) → St
  | _, a, [] => (a, [])
  | t, a, r :: rs =>
    let b := D (xorb a (be 8 t) ++ r)
    let q := unsweep D (t - 1) (b.take 8) rs
    (q.1, b.drop 8 :: q.2)

def Semis (rs : List (List Byte)) : Prop := ∀ r ∈ rs, r.length = 8

theorem semis_flatten : ∀ rs, Semis rs → rs.flatten.length = 8 * rs.length
  | [], _ => rfl
  | r :: rs, h => by
    rw [List.flatten_cons, List.length_append, h r (by simp),
      semis_flatten rs (fun x hx => h x (by simp [hx])), List.length_cons]
    omega

theorem sweep_append (E : List Byte → List Byte) : ∀ rs t a ss,
    sweep E t a (rs ++ ss) =
      ((sweep E (t + rs.length) (sweep E t a rs).1 ss).1,
       (sweep E t a rs).2 ++ (sweep E (t + rs.length) (sweep E t a rs).1 ss).2)
  | [], t, a, ss => by simp [sweep]
  | r :: rs, t, a, ss => by
    rw [List.cons_append, sweep, sweep_append E rs]
    simp only [sweep, List.cons_append, List.length_cons]
    rw [show t + 1 + rs.length = t + (rs.length + 1) by omega]

theorem xorb_be (a : List Byte) (t : Nat) (h : a.length = 8) : (xorb a (be 8 t)).length = 8 := by
  rw [xorb_length, be_length, h]; rfl

theorem xor_twice (a : List Byte) (t : Nat) (h : a.length = 8) : xorb (xorb a (be 8 t)) (be 8 t) = a :=
  xorb_xorb a _ (by rw [be_length]; omega)

variable (B : Cipher)

theorem sweep_len : ∀ rs t a, a.length = 8 → Semis rs →
    (sweep B.E t a rs).1.length = 8 ∧ Semis (sweep B.E t a rs).2 ∧ (sweep B.E t a rs).2.length = rs.length
  | [], t, a, h, _ => ⟨h, by intro r hr; simp [sweep] at hr, rfl⟩
  | r :: rs, t, a, h, hs => by
    have hb : (B.E (a ++ r)).length = 16 := B.E_len _ (by rw [List.length_append, h, hs r (by simp)])
    have ih := sweep_len rs (t + 1) (xorb ((B.E (a ++ r)).take 8) (be 8 t))
      (xorb_be _ _ (by rw [List.length_take]; omega)) (fun x hx => hs x (by simp [hx]))
    refine ⟨ih.1, ?_, ?_⟩
    · intro x hx
      simp only [sweep, List.mem_cons] at hx
      rcases hx with rfl | hx
      · rw [List.length_drop]; omega
      · exact ih.2.1 x hx
    · simp only [sweep, List.length_cons]; rw [ih.2.2]

theorem unsweep_len : ∀ rs t a, a.length = 8 → Semis rs →
    (unsweep B.D t a rs).1.length = 8 ∧ Semis (unsweep B.D t a rs).2 ∧ (unsweep B.D t a rs).2.length = rs.length
  | [], t, a, h, _ => ⟨h, by intro r hr; simp [unsweep] at hr, rfl⟩
  | r :: rs, t, a, h, hs => by
    have hb : (B.D (xorb a (be 8 t) ++ r)).length = 16 :=
      B.D_len _ (by rw [List.length_append, xorb_be _ _ h, hs r (by simp)])
    have ih := unsweep_len rs (t - 1) ((B.D (xorb a (be 8 t) ++ r)).take 8)
      (by rw [List.length_take]; omega) (fun x hx => hs x (by simp [hx]))
    refine ⟨ih.1, ?_, ?_⟩
    · intro x hx
      simp only [unsweep, List.mem_cons] at hx
      rcases hx with rfl | hx
      · rw [List.length_drop]; omega
      · exact ih.2.1 x hx
    · simp only [unsweep, List.length_cons]; rw [ih.2.2]

theorem semis_reverse {rs : List (List Byte)} (h : Semis rs) : Semis rs.reverse :=
  fun r hr => h r (by simpa using hr)

theorem take_left8 {a r : List Byte} (h : a.length = 8) : (a ++ r).take 8 = a := by
  rw [← h, List.take_left]
theorem drop_left8 {a r : List Byte} (h : a.length = 8) : (a ++ r).drop 8 = r := by
  rw [← h, List.drop_left]

theorem unsweep_sweep : ∀ ls t a, a.length = 8 → Semis ls →
    unsweep B.D (t + ls.length - 1) (sweep B.E t a ls.reverse).1 (sweep B.E t a ls.reverse).2.reverse = (a, ls)
  | [], t, a, h, _ => rfl
  | r :: ls, t, a, h, hs => by
    have hls : Semis ls := fun x hx => hs x (by simp [hx])
    have hl := sweep_len B ls.reverse t a h (semis_reverse hls)
    have hr := hs r (by simp)
    have ih := unsweep_sweep ls t a h hls
    rw [List.reverse_cons, sweep_append]
    simp only [sweep, List.reverse_append, List.reverse_cons, List.reverse_nil, List.nil_append, List.length_cons,
      List.length_reverse, List.cons_append]
    rw [unsweep, show t + (ls.length + 1) - 1 = t + ls.length by omega]
    have hb : (B.E ((sweep B.E t a ls.reverse).1 ++ r)).length = 16 :=
      B.E_len _ (by rw [List.length_append, hl.1, hr])
    rw [xor_twice _ _ (by rw [List.length_take]; omega), List.take_append_drop,
      B.DE _ (by rw [List.length_append, hl.1, hr]), take_left8 hl.1, drop_left8 hl.1, ih]

theorem sweep_unsweep : ∀ ls t a, 1 ≤ t + ls.length → a.length = 8 → Semis ls →
    sweep B.E t (unsweep B.D (t + ls.length - 1) a ls).1 (unsweep B.D (t + ls.length - 1) a ls).2.reverse =
      (a, ls.reverse)
  | [], t, a, _, h, _ => rfl
  | r :: ls, t, a, ht, h, hs => by
    have hls : Semis ls := fun x hx => hs x (by simp [hx])
    have hr := hs r (by simp)
    have hx : (xorb a (be 8 (t + ls.length)) ++ r).length = 16 := by rw [List.length_append, xorb_be _ _ h, hr]
    have hb := B.D_len _ hx
    rw [List.length_cons, show t + (ls.length + 1) - 1 = t + ls.length by omega]
    simp only [unsweep, List.reverse_cons]
    rw [sweep_append]
    have h8 : ((B.D (xorb a (be 8 (t + ls.length)) ++ r)).take 8).length = 8 := by rw [List.length_take]; omega
    have hl := unsweep_len B ls (t + ls.length - 1) _ h8 hls
    rcases ls with _ | ⟨r2, ls2⟩
    · simp only [unsweep, sweep, List.reverse_nil, List.length_nil, Nat.add_zero, List.nil_append]
      rw [show (List.length ([] : List (List Byte))) = 0 from rfl, Nat.add_zero] at hx
      rw [List.take_append_drop, B.ED _ hx, take_left8 (xorb_be _ _ h), drop_left8 (xorb_be _ _ h), xor_twice _ _ h]
    · have ih := sweep_unsweep (r2 :: ls2) t _ (by rw [List.length_cons]; omega) h8 hls
      rw [ih]
      simp only [sweep]
      rw [List.length_reverse, hl.2.2, List.take_append_drop, B.ED _ hx, take_left8 (xorb_be _ _ h),
        drop_left8 (xorb_be _ _ h), xor_twice _ _ h]

/-- `k` passes. -/
def sweeps (E : List Byte → List Byte) : Nat → Nat → St → St
  | 0, _, s => s
  | k + 1, t, s => sweeps E k (t + s.2.length) (sweep E t s.1 s.2)

/-- `k` inverse passes; the list is in forward order between passes. -/
def unsweeps (D : List Byte → List Byte) : Nat → Nat → St → St
  | 0, _, s => s
  | k + 1, t, s =>
    let q := unsweep D t s.1 s.2.reverse
    unsweeps D k (t - s.2.length) (q.1, q.2.reverse)

def Ok (n : Nat) (s : St) : Prop := s.1.length = 8 ∧ Semis s.2 ∧ s.2.length = n

theorem sweep_ok {n : Nat} {s : St} (t : Nat) (h : Ok n s) : Ok n (sweep B.E t s.1 s.2) := by
  have := sweep_len B s.2 t s.1 h.1 h.2.1
  exact ⟨this.1, this.2.1, this.2.2.trans h.2.2⟩

theorem sweeps_ok {n : Nat} : ∀ k t s, Ok n s → Ok n (sweeps B.E k t s)
  | 0, _, _, h => h
  | k + 1, t, s, h => sweeps_ok k _ _ (sweep_ok B t h)

theorem unpass_ok {n : Nat} {s : St} (t : Nat) (h : Ok n s) :
    Ok n ((unsweep B.D t s.1 s.2.reverse).1, (unsweep B.D t s.1 s.2.reverse).2.reverse) := by
  have := unsweep_len B s.2.reverse t s.1 h.1 (semis_reverse h.2.1)
  exact ⟨this.1, semis_reverse this.2.1, by
    rw [List.length_reverse, this.2.2, List.length_reverse]; exact h.2.2⟩

theorem unsweeps_ok {n : Nat} : ∀ k t s, Ok n s → Ok n (unsweeps B.D k t s)
  | 0, _, _, h => h
  | k + 1, t, s, h => unsweeps_ok k _ _ (unpass_ok B t h)

theorem sweeps_last {n : Nat} : ∀ k t s, Ok n s →
    sweeps B.E (k + 1) t s = sweep B.E (t + k * n) (sweeps B.E k t s).1 (sweeps B.E k t s).2
  | 0, t, s, h => by simp [sweeps]
  | k + 1, t, s, h => by
    have hs := sweep_ok B t h
    rw [sweeps, sweeps_last k _ _ hs, sweeps, h.2.2, Nat.add_mul, Nat.one_mul]
    rw [show t + n + k * n = t + (k * n + n) by omega]

theorem unsweeps_last {n : Nat} : ∀ k t s, Ok n s →
    unsweeps B.D (k + 1) t s =
      ((unsweep B.D (t - k * n) (unsweeps B.D k t s).1 (unsweeps B.D k t s).2.reverse).1,
       (unsweep B.D (t - k * n) (unsweeps B.D k t s).1 (unsweeps B.D k t s).2.reverse).2.reverse)
  | 0, t, s, h => by simp [unsweeps]
  | k + 1, t, s, h => by
    have hs := unpass_ok B t h
    rw [unsweeps, unsweeps_last k _ _ hs, unsweeps, h.2.2, Nat.add_mul, Nat.one_mul]
    rw [show t - n - k * n = t - (k * n + n) by omega]

theorem unpass_sweep {n : Nat} {s : St} (t : Nat) (h : Ok n s) :
    unsweep B.D (t + n - 1) (sweep B.E t s.1 s.2).1 (sweep B.E t s.1 s.2).2.reverse = (s.1, s.2.reverse) := by
  have := unsweep_sweep B s.2.reverse t s.1 h.1 (semis_reverse h.2.1)
  rwa [List.reverse_reverse, List.length_reverse, h.2.2] at this

theorem unsweeps_sweeps {n : Nat} : ∀ k t s, Ok n s →
    unsweeps B.D k (t + k * n - 1) (sweeps B.E k t s) = s
  | 0, _, _, _ => rfl
  | k + 1, t, s, h => by
    have hk := sweeps_ok B k t s h
    rw [sweeps_last B k t s h, unsweeps]
    have hl := (sweep_ok B (t + k * n) hk).2.2
    rw [hl, show t + (k + 1) * n - 1 = t + k * n + n - 1 by rw [Nat.add_mul]; omega,
      unpass_sweep B (t + k * n) hk]
    dsimp only
    rw [List.reverse_reverse, show t + k * n + n - 1 - n = t + k * n - 1 by omega]
    exact unsweeps_sweeps k t s h

theorem sweep_unpass {n : Nat} {s : St} (t : Nat) (ht : 1 ≤ t) (h : Ok n s) :
    sweep B.E t (unsweep B.D (t + n - 1) s.1 s.2.reverse).1 (unsweep B.D (t + n - 1) s.1 s.2.reverse).2.reverse = s := by
  have := sweep_unsweep B s.2.reverse t s.1 (by omega) h.1 (semis_reverse h.2.1)
  rwa [List.reverse_reverse, List.length_reverse, h.2.2] at this

theorem sweeps_unsweeps {n : Nat} : ∀ k t s, 1 ≤ t → Ok n s →
    sweeps B.E k t (unsweeps B.D k (t + k * n - 1) s) = s
  | 0, _, _, _, _ => rfl
  | k + 1, t, s, ht, h => by
    have hk := unsweeps_ok B k (t + (k + 1) * n - 1) s h
    have hu := unpass_ok B (t + (k + 1) * n - 1 - k * n) hk
    rw [unsweeps_last B k _ s h, sweeps]
    dsimp only
    rw [hu.2.2, show t + (k + 1) * n - 1 - k * n = t + n - 1 by rw [Nat.add_mul]; omega, sweep_unpass B t ht hk,
      show t + (k + 1) * n - 1 = (t + n) + k * n - 1 by rw [Nat.add_mul]; omega]
    exact sweeps_unsweeps k (t + n) s (by omega) h

/-! ### The specification -/

theorem kwSteps_add (E : List Byte → List Byte) : ∀ k l t s,
    Spec.kwSteps E (k + l) t s = Spec.kwSteps E l (t + k) (Spec.kwSteps E k t s)
  | 0, l, t, s => by simp [Spec.kwSteps]
  | k + 1, l, t, s => by
    rw [show k + 1 + l = (k + l) + 1 by omega, Spec.kwSteps, kwSteps_add E k l, Spec.kwSteps,
      show t + 1 + k = t + (k + 1) by omega]

/-- One pass is `n` steps of the shift register. -/
theorem kwSteps_sweep : ∀ rs t a done, a.length = 8 → Semis rs →
    Spec.kwSteps B.E rs.length t (a, rs ++ done) =
      ((sweep B.E (t + 1) a rs).1, done ++ (sweep B.E (t + 1) a rs).2)
  | [], t, a, done, _, _ => by simp [Spec.kwSteps, sweep]
  | r :: rs, t, a, done, h, hs => by
    have hb : (B.E (a ++ r)).length = 16 := B.E_len _ (by rw [List.length_append, h, hs r (by simp)])
    rw [List.length_cons, Spec.kwSteps, List.cons_append, Spec.kwStep]
    dsimp only
    rw [List.append_assoc, ← be8_eq, ← xorb_eq _ _ (by rw [be_length, List.length_take]; omega),
      kwSteps_sweep rs (t + 1) _ _ (xorb_be _ _ (by rw [List.length_take]; omega)) (fun x hx => hs x (by simp [hx]))]
    simp [sweep]

theorem kwSteps_sweeps {n : Nat} : ∀ k t s, Ok n s → Spec.kwSteps B.E (k * n) t s = sweeps B.E k (t + 1) s
  | 0, t, s, _ => by simp [Spec.kwSteps, sweeps]
  | k + 1, t, s, h => by
    have := kwSteps_sweep B s.2 t s.1 [] h.1 h.2.1
    rw [List.append_nil, List.nil_append, h.2.2] at this
    rw [Nat.add_mul, Nat.one_mul, Nat.add_comm (k * n) n, kwSteps_add, show s = (s.1, s.2) from rfl, this]
    rw [kwSteps_sweeps k _ _ (sweep_ok B _ h), sweeps]
    dsimp only
    rw [h.2.2, show t + n + 1 = t + 1 + n by omega]

/-! ### The loops on the buffer -/

theorem drop_take_mid (pre r post : List Byte) (h : r.length = 8) :
    ((pre ++ (r ++ post)).drop pre.length).take 8 = r := by
  rw [List.drop_left, ← h, List.take_left]

theorem put8_mid (pre r r' post : List Byte) (h : r.length = 8) :
    put8 (pre ++ (r ++ post)) pre.length r' = pre ++ (r' ++ post) := by
  rw [put8, List.take_left, ← List.drop_drop, List.drop_left, ← h, List.drop_left, List.append_assoc]

theorem encPass_eq : ∀ rs t a pre post k, a.length = 8 → Semis rs → t + rs.length < 2 ^ 64 → rs.length < k →
    8 * rs.length < 2 ^ 64 →
    kwEncPass B.E k (8 * rs.length) pre.length { a := a, t := t, buf := pre ++ (rs.flatten ++ post) } =
      some { a := (sweep B.E t a rs).1, t := t + rs.length,
             buf := pre ++ ((sweep B.E t a rs).2.flatten ++ post) }
  | [], t, a, pre, post, k, _, _, _, hk, _ => by
    rcases k with _ | k
    · simp at hk
    · simp [kwEncPass, sweep]
  | r :: rs, t, a, pre, post, k, h, hs, ht, hk, hn => by
    rcases k with _ | k
    · simp at hk
    have hr := hs r (by simp)
    have hb : (B.E (a ++ r)).length = 16 := B.E_len _ (by rw [List.length_append, h, hr])
    have hd : ((B.E (a ++ r)).drop 8).length = 8 := by rw [List.length_drop]; omega
    rw [List.length_cons] at ht hk hn
    rw [kwEncPass, List.length_cons, if_neg (by omega)]
    dsimp only
    rw [List.flatten_cons, List.append_assoc, if_neg (by simp only [List.length_append]; omega),
      drop_take_mid _ _ _ hr, put8_mid _ _ _ _ hr]
    have ih := encPass_eq rs (t + 1) (xorb ((B.E (a ++ r)).take 8) (be 8 t)) (pre ++ (B.E (a ++ r)).drop 8) post k
      (xorb_be _ _ (by rw [List.length_take]; omega)) (fun x hx => hs x (by simp [hx])) (by omega) (by omega) (by omega)
    rw [List.length_append, hd, List.append_assoc] at ih
    rw [show (8 * (rs.length + 1) + 2 ^ 64 - 8) % 2 ^ 64 = 8 * rs.length by omega,
      Nat.mod_eq_of_lt (by omega : t + 1 < 2 ^ 64), ih]
    simp only [sweep, List.flatten_cons, List.append_assoc]
    rw [show t + 1 + rs.length = t + (rs.length + 1) by omega]

theorem encPasses_eq {n : Nat} : ∀ k t s post, Ok n s → t + k * n < 2 ^ 64 → 8 * n < 2 ^ 64 →
    kwEncPasses B.E (8 * n) k { a := s.1, t := t, buf := s.2.flatten ++ post } =
      some { a := (sweeps B.E k t s).1, t := t + k * n, buf := (sweeps B.E k t s).2.flatten ++ post }
  | 0, t, s, post, _, _, _ => by simp [kwEncPasses, sweeps]
  | k + 1, t, s, post, h, ht, hn => by
    rw [Nat.add_mul, Nat.one_mul] at ht
    have hl := semis_flatten s.2 h.2.1
    rw [h.2.2] at hl
    have := encPass_eq B s.2 t s.1 [] post ((s.2.flatten ++ post).length + 1) h.1 h.2.1
      (by rw [h.2.2]; omega) (by rw [List.length_append, hl, h.2.2]; omega) (by rw [h.2.2]; omega)
    rw [List.nil_append, List.nil_append, h.2.2] at this
    rw [kwEncPasses]
    dsimp only
    rw [show (0 : Nat) = ([] : List Byte).length from rfl, this]
    rw [Option.bind_some, encPasses_eq k (t + n) _ post (sweep_ok B t h) (by omega) hn, sweeps, h.2.2,
      show t + n + k * n = t + (k + 1) * n by rw [Nat.add_mul]; omega]

theorem decPass_eq : ∀ ls t a post k, a.length = 8 → Semis ls → ls.length ≤ t → t < 2 ^ 64 → ls.length < k →
    8 * ls.length < 2 ^ 64 →
    kwDecPass B.D k (8 * ls.length) (8 * ls.length) { a := a, t := t, buf := ls.reverse.flatten ++ post } =
      some { a := (unsweep B.D t a ls).1, t := t - ls.length,
             buf := (unsweep B.D t a ls).2.reverse.flatten ++ post }
  | [], t, a, post, k, _, _, _, _, hk, _ => by
    rcases k with _ | k
    · simp at hk
    · simp [kwDecPass, unsweep]
  | r :: ls, t, a, post, k, h, hs, ht, ht2, hk, hn => by
    rcases k with _ | k
    · simp at hk
    have hr := hs r (by simp)
    have hls : Semis ls := fun x hx => hs x (by simp [hx])
    have hx : (xorb a (be 8 t) ++ r).length = 16 := by rw [List.length_append, xorb_be _ _ h, hr]
    have hb := B.D_len _ hx
    have hfl : ls.reverse.flatten.length = 8 * ls.length := by
      rw [semis_flatten _ (semis_reverse hls), List.length_reverse]
    rw [List.length_cons] at ht hk hn
    rw [kwDecPass, List.length_cons, if_neg (by omega)]
    dsimp only
    rw [List.reverse_cons, List.flatten_append, List.flatten_cons, List.flatten_nil, List.append_nil, List.append_assoc,
      if_neg (by simp only [List.length_append]; omega),
      show 8 * (ls.length + 1) - 8 = ls.reverse.flatten.length by omega,
      drop_take_mid _ _ _ hr, put8_mid _ _ _ _ hr, hfl]
    have ih := decPass_eq ls (t - 1) ((B.D (xorb a (be 8 t) ++ r)).take 8)
      ((B.D (xorb a (be 8 t) ++ r)).drop 8 ++ post) k
      (by rw [List.length_take]; omega) hls (by omega) (by omega) (by omega) (by omega)
    rw [show (8 * (ls.length + 1) + 2 ^ 64 - 8) % 2 ^ 64 = 8 * ls.length by omega,
      show (t + 2 ^ 64 - 1) % 2 ^ 64 = t - 1 by omega, ih]
    simp only [unsweep, List.reverse_cons, List.flatten_append, List.flatten_cons, List.flatten_nil, List.append_nil,
      List.append_assoc]
    rw [show t - 1 - ls.length = t - (ls.length + 1) by omega]

theorem decPasses_eq {n : Nat} : ∀ k t s post, Ok n s → k * n ≤ t → t < 2 ^ 64 → 8 * n < 2 ^ 64 →
    kwDecPasses B.D (8 * n) k { a := s.1, t := t, buf := s.2.flatten ++ post } =
      some { a := (unsweeps B.D k t s).1, t := t - k * n, buf := (unsweeps B.D k t s).2.flatten ++ post }
  | 0, t, s, post, _, _, _, _ => by simp [kwDecPasses, unsweeps]
  | k + 1, t, s, post, h, ht, ht2, hn => by
    rw [Nat.add_mul, Nat.one_mul] at ht
    have hl := semis_flatten s.2 h.2.1
    rw [h.2.2] at hl
    have := decPass_eq B s.2.reverse t s.1 post ((s.2.flatten ++ post).length + 1) h.1 (semis_reverse h.2.1)
      (by rw [List.length_reverse, h.2.2]; omega) ht2
      (by rw [List.length_append, hl, List.length_reverse, h.2.2]; omega)
      (by rw [List.length_reverse, h.2.2]; omega)
    rw [List.reverse_reverse, List.length_reverse, h.2.2] at this
    rw [kwDecPasses]
    dsimp only
    rw [this, Option.bind_some]
    have hu := unpass_ok B t h
    rw [decPasses_eq k (t - n) ((unsweep B.D t s.1 s.2.reverse).1, (unsweep B.D t s.1 s.2.reverse).2.reverse) post hu
      (by omega) (by omega) hn, unsweeps, h.2.2, show t - n - k * n = t - (k + 1) * n by rw [Nat.add_mul]; omega]

/-! ### Semiblocks of a string -/

theorem semi_semis (p : List Byte) : Semis (Spec.semi p) := by
  intro r hr
  simp only [Spec.semi, List.mem_map, List.mem_range] at hr
  obtain ⟨j, hj, rfl⟩ := hr
  rw [List.length_take, List.length_drop]; omega

theorem semi_length (p : List Byte) : (Spec.semi p).length = p.length / 8 := by simp [Spec.semi]

theorem semi_flatten_aux (p : List Byte) : ∀ n, 8 * n ≤ p.length →
    ((List.range n).map fun j => (p.drop (8 * j)).take 8).flatten = p.take (8 * n)
  | 0, _ => rfl
  | n + 1, h => by
    rw [List.range_succ, List.map_append, List.flatten_append, semi_flatten_aux p n (by omega)]
    simp only [List.map_cons, List.map_nil, List.flatten_cons, List.flatten_nil, List.append_nil]
    rw [show 8 * (n + 1) = 8 * n + 8 by omega, List.take_add]

theorem semi_flatten (p : List Byte) (h : p.length % 8 = 0) : (Spec.semi p).flatten = p := by
  rw [Spec.semi, semi_flatten_aux p _ (by omega), List.take_of_length_le (by omega)]

theorem semis_flatten_inj : ∀ (rs ss : List (List Byte)), Semis rs → Semis ss → rs.length = ss.length →
    rs.flatten = ss.flatten → rs = ss
  | [], ss, _, _, hl, _ => by
    rw [List.length_nil] at hl
    exact (List.eq_nil_of_length_eq_zero hl.symm).symm
  | r :: rs, [], _, _, hl, _ => by simp at hl
  | r :: rs, s :: ss, hr, hs, hl, h => by
    rw [List.flatten_cons, List.flatten_cons] at h
    have h1 := hr r (by simp); have h2 := hs s (by simp)
    obtain ⟨e1, e2⟩ := List.append_inj h (by omega)
    rw [e1, semis_flatten_inj rs ss (fun x hx => hr x (by simp [hx])) (fun x hx => hs x (by simp [hx]))
      (by simpa using hl) e2]

theorem roundedLen8_small {len : Nat} (h : len < 2 ^ 32) (h8 : len % 8 = 0) : roundedLen8 len = len := by
  unfold roundedLen8
  apply Nat.eq_of_testBit_eq
  intro i
  rw [Nat.testBit_and, show (0xfffffff8 : Nat) = (2 ^ 29 - 1) * 2 ^ 3 by decide,
    Nat.testBit_mul_two_pow, Nat.testBit_two_pow_sub_one]
  by_cases h2 : i < 32
  · by_cases h3 : 3 ≤ i
    · have : i - 3 < 29 := by omega
      simp [h3, this]
    · have e : len = (len / 2 ^ 3) * 2 ^ 3 := by omega
      rw [e, Nat.testBit_mul_two_pow]
      simp [h3]
  · have : ¬ i - 3 < 29 := by omega
    have hlt : len < 2 ^ i := Nat.lt_of_lt_of_le h (Nat.pow_le_pow_right (by omega) (by omega))
    simp [this, Nat.testBit_lt_two_pow hlt]

end Kw

open Kw
variable (B : Cipher)

theorem lenSub8_eq {n : Nat} (h : 8 ≤ n) (h2 : n < 2 ^ 64) : lenSub8 n = n - 8 := by
  unfold lenSub8; omega

theorem lenSub8_mod {n : Nat} (h2 : n < 2 ^ 64) : lenSub8 n % 8 = n % 8 ∧ lenSub8 n < 2 ^ 64 := by
  unfold lenSub8; omega

theorem lenSub8_short {n : Nat} (h2 : n < 8) : 16 ≤ lenSub8 n := by
  unfold lenSub8; omega

theorem kwIv_eq : kwIv = List.replicate 8 0xa6 := by decide

/-! ### Properties -/

/-- **C17** (part: input a multiple of 8, at least 16 bytes, below 4 GiB).  `lc_aes_kw_encrypt`
writes the SP 800-38F key wrapping of the input, whatever the context and the output buffer held. -/
theorem kw_wrap_partial (tag p out : List Byte) (h8 : p.length % 8 = 0) (h16 : 16 ≤ p.length)
    (h32 : p.length < 2 ^ 32) (ho : out.length = p.length) :
    kwWrap B.E tag p out = some (Spec.wrap B.E p) := by
  have hok : Ok (p.length / 8) (kwIv, Spec.semi p) :=
    ⟨by rw [kwIv, be_length], semi_semis p, semi_length p⟩
  have e := encPasses_eq B 6 1 (kwIv, Spec.semi p) [] hok (by omega) (by omega)
  rw [semi_flatten p h8, show 8 * (p.length / 8) = p.length by omega] at e
  rw [kwWrap, kwEncrypt, if_neg (by omega)]
  dsimp only
  rw [roundedLen8_small h32 h8, List.take_of_length_le (Nat.le_refl _), List.drop_eq_nil_of_le (by omega), e]
  simp only [Option.map_some]
  rw [List.append_nil, Spec.wrap, ← kwIv_eq, kwSteps_sweeps B 6 0 _ hok]

/-- **C17** (part: input a multiple of 8, at least 24 bytes, below 4 GiB + 8).  `lc_aes_kw_decrypt`
returns 0 exactly for the strings that are the wrapping of some plaintext, and then the output buffer
holds this plaintext.  In particular it inverts the wrapping, and everything else is refused. -/
theorem kw_unwrap_partial (c p out : List Byte) (h8 : c.length % 8 = 0) (h24 : 24 ≤ c.length)
    (h32 : c.length < 2 ^ 32 + 8) (hp : p.length + 8 = c.length) (ho : out.length = p.length) :
    kwUnwrap B.D c out = some (0, p) ↔ c = Spec.wrap B.E p := by
  have l1 : (c.take 8).length = 8 := by rw [List.length_take]; omega
  have l2 : (c.drop 8).length = p.length := by rw [List.length_drop]; omega
  have hokc : Ok (p.length / 8) (c.take 8, Spec.semi (c.drop 8)) :=
    ⟨l1, semi_semis _, by rw [semi_length, l2]⟩
  have hokp : Ok (p.length / 8) (kwIv, Spec.semi p) :=
    ⟨by rw [kwIv, be_length], semi_semis p, semi_length p⟩
  have e := decPasses_eq B 6 (6 * (p.length / 8)) (c.take 8, Spec.semi (c.drop 8)) [] hokc (by omega) (by omega) (by omega)
  rw [semi_flatten _ (by omega), show 8 * (p.length / 8) = p.length by omega] at e
  have hw : Spec.wrap B.E p = (sweeps B.E 6 1 (kwIv, Spec.semi p)).1 ++ (sweeps B.E 6 1 (kwIv, Spec.semi p)).2.flatten := by
    rw [Spec.wrap, ← kwIv_eq, kwSteps_sweeps B 6 0 _ hokp]
  have hu : kwUnwrap B.D c out =
      some (if (unsweeps B.D 6 (6 * (p.length / 8)) (c.take 8, Spec.semi (c.drop 8))).1 ≠ kwIv then -74 else 0,
        (unsweeps B.D 6 (6 * (p.length / 8)) (c.take 8, Spec.semi (c.drop 8))).2.flatten) := by
    rw [kwUnwrap, lenSub8_eq (by omega) (by omega : c.length < 2 ^ 64), show c.length - 8 = p.length by omega, kwDecrypt, if_neg (by omega)]
    dsimp only
    rw [roundedLen8_small (by omega) (by omega), List.take_of_length_le (by omega : (c.drop 8).length ≤ p.length),
      List.drop_eq_nil_of_le (by omega : out.length ≤ p.length), show 6 * (p.length / 8) % 2 ^ 64 = 6 * (p.length / 8) by omega, e]
    simp only [Option.map_some, List.append_nil]
  have hks := sweeps_ok B 6 1 _ hokp
  have hun := unsweeps_ok B 6 (6 * (p.length / 8)) _ hokc
  constructor
  · intro h
    rw [hu] at h
    have h := Option.some.inj h
    have hret := congrArg Prod.fst h
    have hout := congrArg Prod.snd h
    dsimp only at hret hout
    have htag : (unsweeps B.D 6 (6 * (p.length / 8)) (c.take 8, Spec.semi (c.drop 8))).1 = kwIv := by
      by_cases ht : (unsweeps B.D 6 (6 * (p.length / 8)) (c.take 8, Spec.semi (c.drop 8))).1 = kwIv
      · exact ht
      · rw [if_pos ht] at hret; exact absurd hret (by decide)
    have hs : unsweeps B.D 6 (6 * (p.length / 8)) (c.take 8, Spec.semi (c.drop 8)) = (kwIv, Spec.semi p) := by
      refine Prod.ext htag ?_
      apply semis_flatten_inj _ _ hun.2.1 (semi_semis p) (by rw [hun.2.2, semi_length])
      rw [hout, semi_flatten p (by omega)]
    have := sweeps_unsweeps B 6 1 _ (by omega) hokc
    rw [show 1 + 6 * (p.length / 8) - 1 = 6 * (p.length / 8) by omega, hs] at this
    rw [hw, this]
    dsimp only
    rw [semi_flatten _ (by omega), List.take_append_drop]
  · intro h
    rw [hw] at h
    have hc1 : c.take 8 = (sweeps B.E 6 1 (kwIv, Spec.semi p)).1 := by rw [h, take_left8 hks.1]
    have hc2 : Spec.semi (c.drop 8) = (sweeps B.E 6 1 (kwIv, Spec.semi p)).2 := by
      apply semis_flatten_inj _ _ (semi_semis _) hks.2.1 (by rw [semi_length, l2, hks.2.2])
      rw [semi_flatten _ (by omega), h, drop_left8 hks.1]
    have hs : unsweeps B.D 6 (6 * (p.length / 8)) (c.take 8, Spec.semi (c.drop 8)) = (kwIv, Spec.semi p) := by
      have := unsweeps_sweeps B 6 1 _ hokp
      rw [hc1, hc2]
      rwa [show 1 + 6 * (p.length / 8) - 1 = 6 * (p.length / 8) by omega] at this
    rw [hu, hs]
    dsimp only
    rw [if_neg (by simp), semi_flatten p (by omega)]

/-- **C17** (part).  Unwrapping a wrapped key returns the key. -/
theorem kw_roundtrip_partial (tag p out out' : List Byte) (h8 : p.length % 8 = 0) (h16 : 16 ≤ p.length)
    (h32 : p.length < 2 ^ 32) (ho : out.length = p.length) (ho' : out'.length = p.length) :
    ∃ c, kwWrap B.E tag p out = some c ∧ c.length = p.length + 8 ∧ kwUnwrap B.D c out' = some (0, p) := by
  have hokp : Ok (p.length / 8) (kwIv, Spec.semi p) :=
    ⟨by rw [kwIv, be_length], semi_semis p, semi_length p⟩
  have hks := sweeps_ok B 6 1 _ hokp
  have hl : (Spec.wrap B.E p).length = p.length + 8 := by
    rw [Spec.wrap, ← kwIv_eq, kwSteps_sweeps B 6 0 _ hokp, List.length_append, hks.1, semis_flatten _ hks.2.1, hks.2.2]
    omega
  exact ⟨_, kw_wrap_partial B tag p out h8 h16 h32 ho, hl,
    (kw_unwrap_partial B _ p out' (by omega) (by omega) (by omega) (by omega) ho').2 rfl⟩

/-- **C17 is false for inputs below 24 bytes.**  Any string of 8 to 23 bytes that starts with the
public constant `a6a6a6a6a6a6a6a6` is accepted as authentic, for every key, and the output buffer is
not written. -/
theorem kw_unwrap_short_accepted (D : List Byte → List Byte) (rest out : List Byte) (h : rest.length < 16) :
    kwUnwrap D (List.replicate 8 0xa6 ++ rest) out = some (0, out) := by
  rw [kwUnwrap, take_left8 (by decide), drop_left8 (by decide), kwDecrypt,
    lenSub8_eq (by simp) (by simp; omega), if_pos (by rw [List.length_append, List.length_replicate]; omega)]
  simp only [Option.map_some]
  rw [if_neg (by rw [kwIv_eq]; simp)]

/-- **C17 is false for inputs below 16 bytes.**  Wrapping such an input returns the tag of the last
operation on the context and the old content of the output buffer. -/
theorem kw_wrap_short_stale (E : List Byte → List Byte) (tag p out : List Byte) (h : p.length < 16) :
    kwWrap E tag p out = some (tag ++ out) := by
  rw [kwWrap, kwEncrypt, if_pos h]
  rfl

theorem encPass_unaligned (E : List Byte → List Byte) : ∀ k nbytes off s, nbytes % 8 ≠ 0 → nbytes < 2 ^ 64 →
    kwEncPass E k nbytes off s = none
  | 0, _, _, _, _, _ => rfl
  | k + 1, nbytes, off, s, h, h2 => by
    rw [kwEncPass, if_neg (by omega)]
    split
    · rfl
    · exact encPass_unaligned E k _ _ _ (by omega) (by omega)

theorem decPass_unaligned (D : List Byte → List Byte) : ∀ k nbytes off s, nbytes % 8 ≠ 0 → nbytes < 2 ^ 64 →
    kwDecPass D k nbytes off s = none
  | 0, _, _, _, _, _ => rfl
  | k + 1, nbytes, off, s, h, h2 => by
    rw [kwDecPass, if_neg (by omega)]
    split
    · rfl
    · exact decPass_unaligned D k _ _ _ (by omega) (by omega)

/-- **C17 is false for lengths that are not a multiple of 8**: the loop never ends inside the
buffer, whatever its size; it runs until it accesses memory behind the output buffer. -/
theorem kw_wrap_unaligned_overruns (E : List Byte → List Byte) (tag p out : List Byte) (h16 : 16 ≤ p.length)
    (h8 : p.length % 8 ≠ 0) (h64 : p.length < 2 ^ 64) : kwWrap E tag p out = none := by
  rw [kwWrap, kwEncrypt, if_neg (by omega)]
  dsimp only
  rw [kwEncPasses, encPass_unaligned E _ _ _ _ h8 h64]
  rfl

/-- The same for unwrapping; lengths 0 to 7 are included because `len - 8` wraps. -/
theorem kw_unwrap_unaligned_overruns (D : List Byte → List Byte) (c out : List Byte)
    (h : (24 ≤ c.length ∧ c.length % 8 ≠ 0 ∧ c.length < 2 ^ 64) ∨ (1 ≤ c.length ∧ c.length < 8)) :
    kwUnwrap D c out = none := by
  have hm := lenSub8_mod (show c.length < 2 ^ 64 by omega)
  have h16 : ¬ lenSub8 c.length < 16 := by
    rcases h with ⟨h1, _, h3⟩ | ⟨_, h2⟩
    · rw [lenSub8_eq (by omega) h3]; omega
    · have := lenSub8_short h2; omega
  rw [kwUnwrap, kwDecrypt, if_neg h16]
  dsimp only
  rw [kwDecPasses, decPass_unaligned D _ _ _ _ (by omega) (by omega)]
  rfl

/-- For `2^32` bytes (a multiple of 8) the input is not even copied: what is wrapped is the old
content of the output buffer. -/
theorem kw_wrap_4gib_ignores_input (E : List Byte → List Byte) (tag p p' out : List Byte)
    (h : p.length = 2 ^ 32) (h' : p'.length = 2 ^ 32) : kwWrap E tag p out = kwWrap E tag p' out := by
  have e : roundedLen8 (2 ^ 32) = 0 := by decide
  rw [kwWrap, kwWrap, kwEncrypt, kwEncrypt, h, h', e]
  rfl

end LC.Sym
