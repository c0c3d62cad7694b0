import Verif.Asn1.EncSim
/-
Reachability for the abstract machines of `DecTree.lean` and `EncSim.lean`: steps without actions are computed,
a step with an action is reduced to the result of the action.
-/
namespace LC.Asn1.Tr
open LC.Asn1 LC.Asn1.Enc LC.Asn1.Gen

variable {σ π : Type}

/-! ### Encoder -/

theorem grun_add (d : Decoder) (act : GAct σ) : ∀ (k m : Nat) (a b : GS σ), grun d act k a = .next b →
    grun d act (k + m) a = grun d act m b
  | 0, m, a, b, h => by
    cases h
    rw [Nat.zero_add]
  | k + 1, m, a, b, h => by
    rw [show k + 1 + m = (k + m) + 1 by omega]
    have hu : ∀ n, grun d act (n + 1) a = (match gstep d act a with | .next a => grun d act n a | r => r) := fun _ => rfl
    rw [hu] at h ⊢
    match hs : gstep d act a with
    | .next a' =>
      rw [hs] at h
      exact grun_add d act k m a' b h
    | .halt r a' => rw [hs] at h; cases h
    | .err => rw [hs] at h; cases h
    | .stuck => rw [hs] at h; cases h

/-- A run that has come to an end: shorter runs are not finished, longer ones give the same. -/
theorem grun_fix (d : Decoder) (act : GAct σ) : ∀ (k : Nat) (a : GS σ) (r : GRes σ), grun d act k a = r → (∀ b, r ≠ .next b) →
    ∀ n, grun d act n a = r ∨ ∃ b, grun d act n a = .next b
  | 0, a, r, h, hr, _ => absurd h.symm (hr a)
  | k + 1, a, r, h, hr, 0 => .inr ⟨a, rfl⟩
  | k + 1, a, r, h, hr, n + 1 => by
    unfold grun at h ⊢
    match hs : gstep d act a with
    | .next a' =>
      rw [hs] at h
      exact grun_fix d act k a' r h hr n
    | .halt r' a' => rw [hs] at h; exact .inl h
    | .err => rw [hs] at h; exact .inl h
    | .stuck => rw [hs] at h; exact .inl h

def GTo (d : Decoder) (act : GAct σ) (a b : GS σ) : Prop := ∃ k, grun d act k a = .next b

theorem GTo.refl (d : Decoder) (act : GAct σ) (a : GS σ) : GTo d act a a := ⟨0, rfl⟩

theorem GTo.trans {d : Decoder} {act : GAct σ} {a b c : GS σ} (h1 : GTo d act a b) (h2 : GTo d act b c) : GTo d act a c := by
  obtain ⟨k, h1⟩ := h1
  obtain ⟨m, h2⟩ := h2
  exact ⟨k + m, by rw [grun_add d act k m a b h1, h2]⟩

theorem GTo.run {d : Decoder} {act : GAct σ} {a b : GS σ} (k : Nat) (h : grun d act k a = .next b) : GTo d act a b := ⟨k, h⟩

theorem GTo.step {d : Decoder} {act : GAct σ} {a b : GS σ} (h : gstep d act a = .next b) : GTo d act a b :=
  ⟨1, by unfold grun; rw [h]; rfl⟩

/-- A primitive value with an action. -/
theorem gstep_leaf (d : Decoder) (act : GAct σ) (a : GS σ) {op l t m : Nat} {o : AOut σ} (h0 : d.machine[a.pc]? = some op)
    (c1 : opLen op = some l) (hc : (decide (a.pc + l ≤ d.machine.length) && decide (op ∈ leafOps) && isAct op && !isAny op &&
      !consBit t) = true)
    (h1 : d.machine[a.pc + 1]? = some t) (h2 : d.machine[a.pc + 2]? = some m) (ho : act m a.ctx = some o) :
    gstep d act a = gwrite l o.bytes { a with tag := o.tag.or (some (byte t)), ctx := o.ctx, cont := a.cont || o.ret == 1,
                                              zero := a.zero || o.ret == 2 } := by
  simp only [Bool.and_eq_true, Bool.not_eq_true', decide_eq_true_eq] at hc
  obtain ⟨⟨⟨⟨c2, c3⟩, c4⟩, c5⟩, c6⟩ := hc
  unfold gstep
  rw [h0]
  dsimp only
  rw [c1]
  dsimp only
  rw [if_neg (by omega), if_pos c3]
  unfold gleaf
  rw [h1]
  dsimp only
  rw [c4, c5, c6]
  rw [if_neg (by decide), if_pos rfl, if_neg (by decide), if_neg (by decide)]
  unfold gcall
  dsimp only
  rw [h2]
  dsimp only
  rw [ho]

/-- A value of any tag with an action; the tag written is the number of the action. -/
theorem gstep_any (d : Decoder) (act : GAct σ) (a : GS σ) {op l m : Nat} {o : AOut σ} (h0 : d.machine[a.pc]? = some op)
    (c1 : opLen op = some l) (hc : (decide (a.pc + l ≤ d.machine.length) && decide (op ∈ leafOps) && isAct op && isAny op &&
      !consBit m) = true)
    (h1 : d.machine[a.pc + 1]? = some m) (ho : act m a.ctx = some o) :
    gstep d act a = gwrite l o.bytes { a with tag := o.tag.or (some (byte m)), ctx := o.ctx, cont := a.cont || o.ret == 1,
                                              zero := a.zero || o.ret == 2 } := by
  simp only [Bool.and_eq_true, Bool.not_eq_true', decide_eq_true_eq] at hc
  obtain ⟨⟨⟨⟨c2, c3⟩, c4⟩, c5⟩, c6⟩ := hc
  unfold gstep
  rw [h0]
  dsimp only
  rw [c1]
  dsimp only
  rw [if_neg (by omega), if_pos c3]
  unfold gleaf
  rw [h1]
  dsimp only
  rw [c4, c5, c6]
  rw [if_neg (by decide), if_pos rfl, if_neg (by decide), if_pos rfl]
  unfold gcall
  dsimp only
  rw [h1]
  dsimp only
  rw [ho]

/-- `ASN1_OP_ACT`. -/
theorem gstep_act (d : Decoder) (act : GAct σ) (a : GS σ) {m : Nat} {o : AOut σ} (h0 : d.machine[a.pc]? = some 0x1e)
    (hl : a.pc + 2 ≤ d.machine.length) (h1 : d.machine[a.pc + 1]? = some m) (ho : act m a.ctx = some o) :
    gstep d act a = gwrite 2 o.bytes { a with tag := o.tag.or a.tag, ctx := o.ctx, cont := a.cont || o.ret == 1,
                                              zero := a.zero || o.ret == 2 } := by
  unfold gstep
  rw [h0]
  dsimp only
  rw [show opLen 0x1e = some 2 from rfl]
  dsimp only
  rw [if_neg (by omega), if_neg (by decide), if_neg (by decide), if_neg (by decide)]
  unfold gctl
  rw [if_neg (by decide), if_neg (by decide), if_neg (by intro h; exact absurd h.1 (by decide)), if_pos (by decide)]
  unfold gcall
  rw [h1]
  dsimp only
  rw [ho]

/-- The end of a constructed value with an action (not `_OF`). -/
theorem gstep_end (d : Decoder) (act : GAct σ) (a : GS σ) {op l m : Nat} {o : AOut σ} (h0 : d.machine[a.pc]? = some op)
    (c1 : opLen op = some l) (hc : (decide (a.pc + l ≤ d.machine.length) && !decide (op ∈ leafOps) && !decide (op ∈ jumpOps) &&
      decide (op ∈ endOps) && !isOf op && isEndAct op) = true)
    (h1 : d.machine[a.pc + 1]? = some m) (ho : act m a.ctx = some o) :
    gstep d act a = gpop l { a with tag := o.tag.or a.tag, ctx := o.ctx, cont := a.cont || o.ret == 1,
                                    zero := a.zero || o.ret == 2 } := by
  simp only [Bool.and_eq_true, Bool.not_eq_true', decide_eq_true_eq, decide_eq_false_iff_not] at hc
  obtain ⟨⟨⟨⟨⟨c2, c3⟩, c4⟩, c5⟩, c6⟩, c7⟩ := hc
  unfold gstep
  rw [h0]
  dsimp only
  rw [c1]
  dsimp only
  rw [if_neg (by omega), if_neg c3, if_neg c4, if_pos c5]
  unfold gend
  rw [c6, c7]
  rw [if_neg (by simp), if_pos rfl, if_neg (by decide)]
  unfold gcall
  rw [h1]
  dsimp only
  rw [ho]

/-- Actions without errors. -/
def totG (f : Nat → σ → AOut σ) : GAct σ := fun i x => some (f i x)

/-- The encoder succeeds only with the serialisation of the forest that the abstract machine makes. -/
theorem encode_tot (e : Encoder σ) (c : Cfg) (act : GAct σ) (hag : Agree e act) (ctx : σ) (avail n : Nat)
    (r : Int) (s : Gen.St σ) (h : encode e c ctx avail n = .halt r s) (hr : ¬ r < 0) (k : Nat) (b : GS σ)
    (hb : grun e.d act k { ctx := ctx } = .halt 0 b) :
    r = 0 ∧ s.out = serL b.out ∧ s.ctx = b.ctx ∧ WFL b.out ∧ s.out.length ≤ c.maxStack := by
  have hh := grun_sim e c act hag (min c.maxStack avail) n { ctx := ctx } { ctx := ctx }
    ⟨rfl, rfl, rfl, rfl, rfl, rfl, rfl, rfl, ⟨_, [], rfl, rfl, rfl, rfl⟩, ⟨trivial, by intro _ hb; cases hb⟩, Nat.zero_le _⟩
  unfold encode at h
  rw [h] at hh
  rcases grun_fix e.d act k _ _ hb (by intro _ he; cases he) n with h1 | ⟨b', h1⟩
  · rw [h1] at hh
    rcases hh with ⟨s', h2, h3⟩ | ⟨c', s', h2, h3⟩ | h2
    · cases h2
      exact ⟨rfl, h3.out, h3.ctx, h3.wf.1, Nat.le_trans h3.len (Nat.min_le_left _ _)⟩
    · cases h2; exact absurd h3 hr
    · cases h2
  · rw [h1] at hh
    rcases hh with ⟨s', h2, _⟩ | ⟨c', s', h2, h3⟩ | h2
    · cases h2
    · cases h2; exact absurd h3 hr
    · cases h2

/-! ### Decoder -/

theorem trun_add (d : Decoder) (act : PAct π) : ∀ (k m : Nat) (a b : TS π), trun d act k a = .next b →
    trun d act (k + m) a = trun d act m b
  | 0, m, a, b, h => by
    cases h
    rw [Nat.zero_add]
  | k + 1, m, a, b, h => by
    rw [show k + 1 + m = (k + m) + 1 by omega]
    have hu : ∀ n, trun d act (n + 1) a = (match tstep d act a with | .next a => trun d act n a | r => r) := fun _ => rfl
    rw [hu] at h ⊢
    match hs : tstep d act a with
    | .next a' =>
      rw [hs] at h
      exact trun_add d act k m a' b h
    | .halt r a' => rw [hs] at h; cases h
    | .err r => rw [hs] at h; cases h
    | .stuck => rw [hs] at h; cases h

theorem trun_fix (d : Decoder) (act : PAct π) : ∀ (k : Nat) (a : TS π) (r : TRes π), trun d act k a = r → (∀ b, r ≠ .next b) →
    ∀ n, trun d act n a = r ∨ ∃ b, trun d act n a = .next b
  | 0, a, r, h, hr, _ => absurd h.symm (hr a)
  | k + 1, a, r, h, hr, 0 => .inr ⟨a, rfl⟩
  | k + 1, a, r, h, hr, n + 1 => by
    unfold trun at h ⊢
    match hs : tstep d act a with
    | .next a' =>
      rw [hs] at h
      exact trun_fix d act k a' r h hr n
    | .halt r' a' => rw [hs] at h; exact .inl h
    | .err r' => rw [hs] at h; exact .inl h
    | .stuck => rw [hs] at h; exact .inl h

theorem trun_stay (d : Decoder) (act : PAct π) : ∀ (k m : Nat) (a : TS π) (r : TRes π), trun d act k a = r → (∀ b, r ≠ .next b) →
    trun d act (k + m) a = r
  | 0, m, a, r, h, hr => absurd h.symm (hr a)
  | k + 1, m, a, r, h, hr => by
    rw [show k + 1 + m = (k + m) + 1 by omega]
    have hu : ∀ n, trun d act (n + 1) a = (match tstep d act a with | .next a => trun d act n a | r => r) := fun _ => rfl
    rw [hu] at h ⊢
    match hs : tstep d act a with
    | .next a' =>
      rw [hs] at h
      exact trun_stay d act k m a' r h hr
    | .halt r' a' => rw [hs] at h; exact h
    | .err r' => rw [hs] at h; exact h
    | .stuck => rw [hs] at h; exact h

/-- The machine comes to `b` in a number of steps that is the same for all members `n` of a family of actions; those with `E n` may
fail. -/
def TTo (E : Nat → Prop) (d : Decoder) (act : Nat → PAct π) (a b : TS π) : Prop :=
  ∃ k, ∀ n, (E n ∧ ∃ r, trun d (act n) k a = .err r) ∨ trun d (act n) k a = .next b

variable {E : Nat → Prop}

theorem TTo.refl (d : Decoder) (act : Nat → PAct π) (a : TS π) : TTo E d act a a := ⟨0, fun _ => .inr rfl⟩

theorem TTo.trans {d : Decoder} {act : Nat → PAct π} {a b c : TS π} (h1 : TTo E d act a b) (h2 : TTo E d act b c) : TTo E d act a c := by
  obtain ⟨k, h1⟩ := h1
  obtain ⟨m, h2⟩ := h2
  refine ⟨k + m, fun n => ?_⟩
  rcases h1 n with ⟨he, r, h⟩ | h
  · exact .inl ⟨he, r, trun_stay d (act n) k m a _ h (by intro _ he; cases he)⟩
  · rw [trun_add d (act n) k m a b h]
    exact h2 n

theorem TTo.run {d : Decoder} {act : Nat → PAct π} {a b : TS π} (k : Nat) (h : ∀ n, trun d (act n) k a = .next b) : TTo E d act a b :=
  ⟨k, fun n => .inr (h n)⟩

theorem TTo.step {d : Decoder} {act : Nat → PAct π} {a b : TS π}
    (h : ∀ n, (E n ∧ ∃ r, tstep d (act n) a = .err r) ∨ tstep d (act n) a = .next b) : TTo E d act a b := by
  refine ⟨1, fun n => ?_⟩
  rcases h n with ⟨he, r, h⟩ | h
  · exact .inl ⟨he, r, by unfold trun; rw [h]⟩
  · exact .inr (by unfold trun; rw [h]; rfl)

/-- An action gives `q`; it may fail if `F`. -/
def Gives (F : Prop) (r : Except Int π) (q : π) : Prop := (F ∧ ∃ e, r = .error e ∧ e < 0) ∨ r = .ok q

theorem Gives.ok {F : Prop} {r : Except Int π} {q : π} (h : r = .ok q) : Gives F r q := .inr h

theorem Gives.mono {F G : Prop} {r : Except Int π} {q : π} (h : Gives F r q) (hf : F → G) : Gives G r q :=
  h.imp (fun h => ⟨hf h.1, h.2⟩) id

/-- A call of an action. -/
theorem tcall_gives (d : Decoder) (act : PAct π) (a : TS π) {F : Prop} {i tag l m : Nat} {el : List UInt8 × List UInt8} {q : π}
    (hm : d.machine[a.pc + i]? = some m) (hn : m < d.nact) (hg : Gives F (act m ⟨tag, el.1, el.2⟩ a.p) q) :
    (F ∧ ∃ r, tcall d act a i tag el l = .err r) ∨ tcall d act a i tag el l = .next { a with p := q, pc := a.pc + l } := by
  unfold tcall
  rw [hm]
  dsimp only
  rw [if_neg (by omega)]
  rcases hg with ⟨hf, e, h, he⟩ | h
  · rw [h]
    dsimp only
    rw [if_pos he]
    exact .inl ⟨hf, e, rfl⟩
  · rw [h]
    exact .inr rfl

/-- A step that is a call of an action. -/
theorem TTo.call {d : Decoder} {act : Nat → PAct π} {a a' b : TS π} {i tag l m : Nat} {el : List UInt8 × List UInt8} {q : π}
    (hs : ∀ n, tstep d (act n) a = tcall d (act n) a' i tag el l) (hm : d.machine[a'.pc + i]? = some m) (hn : m < d.nact)
    (hg : ∀ n, Gives (E n) (act n m ⟨tag, el.1, el.2⟩ a'.p) q) (hb : b = { a' with p := q, pc := a'.pc + l }) : TTo E d act a b := by
  subst hb
  apply TTo.step
  intro n
  rw [hs n]
  exact tcall_gives d (act n) a' hm hn (hg n)

/-- A step that matches a tag. -/
theorem tstep_match (d : Decoder) (act : PAct π) (a : TS π) (pc : Nat) (tg : UInt8) {op l o : Nat} {t : Tree} {rest : List Tree}
    (hpc : a.pc = pc) (h0 : d.machine[pc]? = some op) (c1 : opLen op = some l) (hlen : pc + l ≤ d.machine.length) (hop : op ≤ 0x1b)
    (hcur : a.cur = t :: rest) (hcond : (isCond op && a.matched) = false) (ht : tagOf t = tg) (h31 : tg.toNat % 32 ≠ 31)
    (hany : isAny op = false) (h1 : d.machine[pc + 1]? = some o) (hm : tagMatches o tg.toNat = true) :
    tstep d act a = tgo d act op l (consBit o) t rest a := by
  subst hpc
  unfold tstep
  rw [h0]
  dsimp only
  rw [c1]
  dsimp only
  rw [if_neg (by omega), if_pos hop]
  unfold tmatch
  rw [hcond, hcur]
  dsimp only
  rw [if_neg (by simp), ht, if_neg h31, hany, h1]
  dsimp only
  rw [if_neg (by decide), if_pos hm]

/-- A step that takes any value. -/
theorem tstep_any (d : Decoder) (act : PAct π) (a : TS π) (pc : Nat) (tg : UInt8) {op l : Nat} {t : Tree} {rest : List Tree}
    (hpc : a.pc = pc) (h0 : d.machine[pc]? = some op) (c1 : opLen op = some l) (hlen : pc + l ≤ d.machine.length) (hop : op ≤ 0x1b)
    (hcur : a.cur = t :: rest) (hcond : (isCond op && a.matched) = false) (ht : tagOf t = tg) (h31 : tg.toNat % 32 ≠ 31)
    (hany : isAny op = true) : tstep d act a = tgo d act op l false t rest a := by
  subst hpc
  unfold tstep
  rw [h0]
  dsimp only
  rw [c1]
  dsimp only
  rw [if_neg (by omega), if_pos hop]
  unfold tmatch
  rw [hcond, hcur]
  dsimp only
  rw [if_neg (by simp), ht, if_neg h31, hany, if_pos rfl]

/-- A step that skips an optional value which is not there. -/
theorem tstep_skip (d : Decoder) (act : PAct π) (a : TS π) (pc : Nat) (tg : UInt8) {op l o : Nat} {t : Tree} {rest : List Tree}
    (hpc : a.pc = pc) (h0 : d.machine[pc]? = some op) (c1 : opLen op = some l) (hlen : pc + l ≤ d.machine.length) (hop : op ≤ 0x1b)
    (hcur : a.cur = t :: rest) (hcond : (isCond op && a.matched) = false) (ht : tagOf t = tg) (h31 : tg.toNat % 32 ≠ 31)
    (hany : isAny op = false) (h1 : d.machine[pc + 1]? = some o) (hm : tagMatches o tg.toNat = false) (hsk : isSkip op = true) :
    tstep d act a = .next { a with matched := false, last := false, tag := tg.toNat, el := none, pc := pc + l } := by
  subst hpc
  unfold tstep
  rw [h0]
  dsimp only
  rw [c1]
  dsimp only
  rw [if_neg (by omega), if_pos hop]
  unfold tmatch
  rw [hcond, hcur]
  dsimp only
  rw [if_neg (by simp), ht, if_neg h31, hany, h1]
  dsimp only
  rw [if_neg (by decide), hm, if_neg (by decide), if_pos hsk]

/-- A step that is not a call of an action. -/
theorem TTo.one {d : Decoder} {act : Nat → PAct π} {a b : TS π} (h : ∀ n, tstep d (act n) a = .next b) : TTo E d act a b :=
  TTo.step (fun n => .inr (h n))

/-- The decoder on the serialisation of a forest fails or gives what the abstract machine gives; `m` is the number of steps it may
do. -/
theorem parse_tot (d : Decoder) (act : Nat → PAct π) (p0 : π) (f : List Tree) (hwf : WFL f) (hmax : (serL f).length ≤ 2 ^ 18)
    (a : TS π) (h : TTo E d act { cur := f, p := p0 } a) (hh : ∀ n, tstep d (act n) a = .halt 0 a.p) :
    ∃ k, ∀ n m, (m ≤ k ∧ parse d (act n) p0 (serL f) m = .fuel) ∨ (E n ∧ ∃ r x, parse d (act n) p0 (serL f) m = .done r x ∧ r < 0) ∨
    parse d (act n) p0 (serL f) m = .done 0 (some a.p) := by
  obtain ⟨k, h⟩ := h
  refine ⟨k, fun n m => ?_⟩
  have hs := parse_sim d (act n) p0 f hwf hmax m
  rcases h n with ⟨he, r, hk⟩ | hk
  · by_cases hm : m ≤ k
    · rcases trun_fix d (act n) k _ _ hk (by intro _ he; cases he) m with h1 | ⟨b, h1⟩
      · rw [h1] at hs
        obtain ⟨h2, x, h3⟩ := hs
        exact .inr (.inl ⟨he, r, x, h3, h2⟩)
      · rw [h1] at hs
        exact .inl ⟨hm, hs⟩
    · have h1 := trun_stay d (act n) k (m - k) _ _ hk (by intro _ he; cases he)
      rw [show k + (m - k) = m by omega] at h1
      rw [h1] at hs
      obtain ⟨h2, x, h3⟩ := hs
      exact .inr (.inl ⟨he, r, x, h3, h2⟩)
  · have h2 : trun d (act n) (k + 1) { cur := f, p := p0 } = .halt 0 a.p := by
      rw [trun_add d (act n) k 1 _ a hk]
      unfold trun
      rw [hh n]
    by_cases hm : m ≤ k
    · rcases trun_fix d (act n) (k + 1) _ _ h2 (by intro _ he; cases he) m with h1 | ⟨b, h1⟩
      · rw [h1] at hs
        exact .inr (.inr hs)
      · rw [h1] at hs
        exact .inl ⟨hm, hs⟩
    · have h1 := trun_stay d (act n) (k + 1) (m - (k + 1)) _ _ h2 (by intro _ he; cases he)
      rw [show k + 1 + (m - (k + 1)) = m by omega] at h1
      rw [h1] at hs
      exact .inr (.inr hs)

end LC.Asn1.Tr
