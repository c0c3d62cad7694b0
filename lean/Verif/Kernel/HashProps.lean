import Verif.Kernel.HashModel
import Verif.Hash.Inst
import Verif.Kmac.Props
/-
C133 and C134: hashes and KMAC of the kernel module.
-/
namespace LC.Kernel
open StreamHash

/-! ### Specification -/

/-- What a user of the kernel API keeps in mind: the message of each descriptor in use and of each
exported state, with the descriptor it was exported from. -/
structure Abs where
  desc : Nat → Option (List Byte)
  buf : Nat → Option (Nat × List Byte)

/-- A call: `none` if the API does not allow it, else the new state and the message whose digest
has to be returned.  With `own`, states are imported only to the descriptor they come from. -/
def Abs.step (own : Bool) (maxLen : Nat) (a : Abs) : Op → Option (Abs × Option (List Byte))
  | .init d => some ({ a with desc := fun j => if j = d then some [] else a.desc j }, none)
  | .update d x => (a.desc d).map fun m => ({ a with desc := fun j => if j = d then some (m ++ x) else a.desc j }, none)
  | .final d => match a.desc d with
    | none => none
    | some m => if m.length < maxLen then
        some ({ a with desc := fun j => if j = d then none else a.desc j }, some m) else none
  | .export d b => (a.desc d).map fun m => ({ a with buf := fun j => if j = b then some (d, m) else a.buf j }, none)
  | .import d b => match a.buf b with
    | none => none
    | some (o, m) => if own ∧ o ≠ d then none
        else some ({ a with desc := fun j => if j = d then some m else a.desc j }, none)

def Abs.run (own : Bool) (maxLen : Nat) (H : List Byte → List Byte) (a : Abs) : List Op → Option (List (List Byte))
  | [] => some []
  | o :: os => match a.step own maxLen o with
    | none => none
    | some (a', out) => (Abs.run own maxLen H a' os).map fun r => (out.map H).toList ++ r

def Abs.start : Abs := { desc := fun _ => none, buf := fun _ => none }

variable {S : StreamHash} {H : List Byte → List Byte} {maxLen : Nat} {Ok : S.Ctx → Prop}

structure Rel (Ok : S.Ctx → Prop) (a : Abs) (w : World S) : Prop where
  desc : ∀ d m, a.desc d = some m → (w.desc d).ptr = d ∧ Absorbed S Ok (w.desc d).st m
  buf : ∀ b o m, a.buf b = some (o, m) → (w.buf b).ptr = o ∧ Absorbed S Ok (w.buf b).st m
  ok : ∀ d, Ok (w.desc d).st
  okb : ∀ b, Ok (w.buf b).st

theorem rel_step (hI : Implements S H maxLen Ok) (a a' : Abs) (w : World S) (o : Op) (out : Option (List Byte))
    (h : Rel Ok a w) (hs : a.step true maxLen o = some (a', out)) :
    Rel Ok a' (step w o).1 ∧ (step w o).2 = out.map H := by
  cases o with
  | init d =>
    simp only [Abs.step, Option.some.injEq, Prod.mk.injEq] at hs
    obtain ⟨rfl, rfl⟩ := hs
    refine ⟨⟨?_, h.buf, ?_, h.okb⟩, rfl⟩
    · intro j m hj
      dsimp only at hj
      simp only [step, initD, set]
      by_cases e : j = d
      · rw [if_pos e] at hj ⊢
        injection hj with hj
        subst hj
        exact ⟨e.symm, absorbed_init (h.ok d)⟩
      · rw [if_neg e] at hj ⊢
        exact h.desc j m hj
    · intro j
      simp only [step, initD, set]
      by_cases e : j = d
      · rw [if_pos e]; exact hI.init_ok _ (h.ok d)
      · rw [if_neg e]; exact h.ok j
  | update d x =>
    simp only [Abs.step, Option.map_eq_some_iff, Prod.mk.injEq] at hs
    obtain ⟨m0, hm, rfl, rfl⟩ := hs
    obtain ⟨hp, ha⟩ := h.desc d m0 hm
    refine ⟨⟨?_, h.buf, ?_, h.okb⟩, rfl⟩
    · intro j m hj
      dsimp only at hj
      simp only [step, updateD, set, hp]
      by_cases e : j = d
      · rw [if_pos e] at hj ⊢
        injection hj with hj
        subst hj
        exact ⟨e.symm, ha.update x⟩
      · rw [if_neg e] at hj ⊢
        exact h.desc j m hj
    · intro j
      simp only [step, updateD, set, hp]
      by_cases e : j = d
      · rw [if_pos e]; exact hI.update_ok _ _ (h.ok d)
      · rw [if_neg e]; exact h.ok j
  | final d =>
    simp only [Abs.step] at hs
    cases hm : a.desc d with
    | none => rw [hm] at hs; cases hs
    | some m0 =>
      rw [hm] at hs
      dsimp only at hs
      by_cases hl : m0.length < maxLen
      · rw [if_pos hl] at hs
        simp only [Option.some.injEq, Prod.mk.injEq] at hs
        obtain ⟨rfl, rfl⟩ := hs
        obtain ⟨hp, ha⟩ := h.desc d m0 hm
        refine ⟨⟨?_, h.buf, ?_, h.okb⟩, ?_⟩
        · intro j m hj
          dsimp only at hj
          simp only [step, finalD, set, hp]
          by_cases e : j = d
          · rw [if_pos e] at hj; cases hj
          · rw [if_neg e] at hj ⊢
            exact h.desc j m hj
        · intro j
          simp only [step, finalD, set, hp]
          by_cases e : j = d
          · rw [if_pos e]; exact hI.final_ok _ (h.ok d)
          · rw [if_neg e]; exact h.ok j
        · simp only [step, finalD, hp, Option.map_some]
          rw [ha.digest hI hl]
      · rw [if_neg hl] at hs; cases hs
  | «export» d b =>
    simp only [Abs.step, Option.map_eq_some_iff, Prod.mk.injEq] at hs
    obtain ⟨m0, hm, rfl, rfl⟩ := hs
    refine ⟨⟨h.desc, ?_, h.ok, ?_⟩, rfl⟩
    · intro j o m hj
      dsimp only at hj
      simp only [step, set]
      by_cases e : j = b
      · rw [if_pos e] at hj ⊢
        injection hj with hj
        injection hj with h1 h2
        subst h1 h2
        exact h.desc d m0 hm
      · rw [if_neg e] at hj ⊢
        exact h.buf j o m hj
    · intro j
      simp only [step, set]
      by_cases e : j = b
      · rw [if_pos e]; exact h.ok d
      · rw [if_neg e]; exact h.okb j
  | «import» d b =>
    simp only [Abs.step] at hs
    cases hm : a.buf b with
    | none => rw [hm] at hs; cases hs
    | some p =>
      obtain ⟨o, m0⟩ := p
      rw [hm] at hs
      dsimp only at hs
      by_cases ho : o = d
      · rw [if_neg (by simp [ho])] at hs
        simp only [Option.some.injEq, Prod.mk.injEq] at hs
        obtain ⟨rfl, rfl⟩ := hs
        refine ⟨⟨?_, h.buf, ?_, h.okb⟩, rfl⟩
        · intro j m hj
          dsimp only at hj
          simp only [step, set]
          by_cases e : j = d
          · rw [if_pos e] at hj ⊢
            injection hj with hj
            subst hj
            obtain ⟨h1, h2⟩ := h.buf b o m0 hm
            exact ⟨by rw [h1, ho, e], h2⟩
          · rw [if_neg e] at hj ⊢
            exact h.desc j m hj
        · intro j
          simp only [step, set]
          by_cases e : j = d
          · rw [if_pos e]; exact h.okb b
          · rw [if_neg e]; exact h.ok j
      · rw [if_pos (by simp [ho])] at hs; cases hs

/-- C133, states imported only to the descriptor they were exported from: for all sequences of
calls on any number of descriptors, all digests are those of the messages of their descriptors.
Missing: import to another descriptor, see `c133_negation`. -/
theorem c133_digests_partial (hI : Implements S H maxLen Ok) (w : World S) (h1 : ∀ d, Ok (w.desc d).st)
    (h2 : ∀ b, Ok (w.buf b).st) (ops : List Op) (outs : List (List Byte))
    (hr : Abs.run true maxLen H Abs.start ops = some outs) : run w ops = outs := by
  have key : ∀ (ops : List Op) (a : Abs) (w : World S) (outs : List (List Byte)), Rel Ok a w →
      Abs.run true maxLen H a ops = some outs → run w ops = outs := by
    intro ops
    induction ops with
    | nil => intro a w outs _ hr; injection hr
    | cons o os ih =>
      intro a w outs h hr
      simp only [Abs.run] at hr
      cases hs : a.step true maxLen o with
      | none => rw [hs] at hr; cases hr
      | some p =>
        obtain ⟨a', out⟩ := p
        rw [hs] at hr
        simp only [Option.map_eq_some_iff] at hr
        obtain ⟨r, hr, rfl⟩ := hr
        obtain ⟨g1, g2⟩ := rel_step hI a a' w o out h hs
        simp only [run]
        rw [g2, ih a' _ r g1 hr]
  exact key ops Abs.start w outs ⟨(fun _ _ e => by cases e), (fun _ _ _ e => by cases e), h1, h2⟩ hr

/-- Instance of `c133_digests_partial` for the SHA-3 algorithms registered with the kernel. -/
theorem c133_sha3_partial (r d : Nat) (h : (r, d) ∈ [(144, 28), (136, 32), (104, 48), (72, 64)])
    (w : World (StreamHash.sha3 r d)) (ops : List Op) (outs : List (List Byte))
    (hr : Abs.run true (2 ^ 64) (fun m => Sponge.Spec.sponge Sponge.Spec.keccakBytes r 0x06 m d) Abs.start ops =
      some outs) : run w ops = outs := by
  have hr1 : 0 < r ∧ r ≤ 200 := by
    simp only [List.mem_cons, Prod.mk.injEq, List.not_mem_nil, or_false] at h
    omega
  exact c133_digests_partial (sha3_implements r d hr1.1 hr1.2) w (fun _ => trivial) (fun _ => trivial) ops outs hr

/-- The calls of the violation: a state is exported and imported to another descriptor, which gets
more data. -/
def cloneOps (m x : List Byte) : List Op :=
  [.init 0, .update 0 m, .export 0 0, .import 1 0, .update 1 x, .final 0]

/-- C133 is violated: the imported state contains the pointer of the first descriptor, whose digest
is then that of both messages. -/
theorem c133_negation (hI : Implements S H maxLen Ok) (w : World S) (h1 : ∀ d, Ok (w.desc d).st)
    (m x : List Byte) (hm : (m ++ x).length < maxLen) (hne : H m ≠ H (m ++ x)) :
    Abs.run false maxLen H Abs.start (cloneOps m x) = some [H m] ∧ run w (cloneOps m x) = [H (m ++ x)] ∧
    run w (cloneOps m x) ≠ [H m] := by
  have hm' : m.length < maxLen := by rw [List.length_append] at hm; omega
  have hr : run w (cloneOps m x) = [H (m ++ x)] := by
    have := ((absorbed_init (S := S) (h1 0)).update m |>.update x).digest hI (by simpa using hm)
    simp only [List.nil_append] at this
    simp [cloneOps, run, step, initD, updateD, finalD, set]
    exact this
  refine ⟨?_, hr, ?_⟩
  · simp [cloneOps, Abs.run, Abs.step, Abs.start, hm']
  · rw [hr]
    intro e
    injection e with e
    exact hne e.symm

/-! ### KMAC -/

structure KAbs where
  key : Option (List Byte)
  desc : Nat → Option (List Byte × List Byte)

/-- The calls allowed: a key is set before a descriptor is initialised.  The output is given by key
and message. -/
def KAbs.step (a : KAbs) : KOp → Option (KAbs × Option (List Byte × List Byte))
  | .setkey k => if k.length < 2 ^ 61 then some ({ a with key := some k }, none) else none
  | .init d => a.key.map fun k => ({ a with desc := fun j => if j = d then some (k, []) else a.desc j }, none)
  | .update d x => (a.desc d).map fun p =>
      ({ a with desc := fun j => if j = d then some (p.1, p.2 ++ x) else a.desc j }, none)
  | .final d => match a.desc d with
    | none => none
    | some p => if p.2.length < 2 ^ 63 then
        some ({ a with desc := fun j => if j = d then none else a.desc j }, some p) else none

def KAbs.run (mac : List Byte × List Byte → List Byte) (a : KAbs) : List KOp → Option (List (List Byte))
  | [] => some []
  | o :: os => match a.step o with
    | none => none
    | some (a', out) => (KAbs.run mac a' os).map fun r => (out.map mac).toList ++ r

def KAbs.start : KAbs := { key := none, desc := fun _ => none }

/-- KMAC256 and KMACXOF256 of SP 800-185 with an empty customization string. -/
def kmacSpec (xof : Bool) (L : Nat) (p : List Byte × List Byte) : List Byte :=
  if xof then Kmac.Spec.kmacXof Sponge.Spec.keccakBytes 136 p.1 p.2 L []
  else Kmac.Spec.kmac Sponge.Spec.keccakBytes 136 p.1 p.2 L []

abbrev P := Sponge.Keccak.keccakpBytes

structure KRel (a : KAbs) (w : KWorld) : Prop where
  key : ∀ k, a.key = some k → k.length < 2 ^ 61 ∧ w.tfm = Kmac.init P 136 false k []
  desc : ∀ d p, a.desc d = some p → p.1.length < 2 ^ 61 ∧
    ∃ chunks : List (List Byte), chunks.flatten = p.2 ∧
      w.desc d = chunks.foldl (Kmac.update P) (Kmac.init P 136 false p.1 [])

theorem krel_final (xof : Bool) (L : Nat) (hL : 4 ≤ L) (hL2 : L < 2 ^ 61) (k : List Byte) (hk : k.length < 2 ^ 61)
    (chunks : List (List Byte)) (hx : chunks.flatten.length < 2 ^ 63) :
    (if xof then Kmac.finalXof P (chunks.foldl (Kmac.update P) (Kmac.init P 136 false k [])) L
      else Kmac.final P (chunks.foldl (Kmac.update P) (Kmac.init P 136 false k [])) L).2 =
      some (kmacSpec xof L (k, chunks.flatten)) := by
  cases xof with
  | false =>
    simp only [kmacSpec, Bool.false_eq_true, if_false]
    exact Kmac.kmac256_streaming false k [] chunks L hk (by decide) hx hL hL2
  | true =>
    simp only [kmacSpec, if_true]
    obtain ⟨outs, h1, h2, h3⟩ := Kmac.kmac_xof_streaming P (fun s _ => Sponge.keccakpBytes_length s) 136 (by decide)
      (by decide) false k [] chunks [L] hk (by decide) hx (by simpa using hL)
    simp only [Kmac.finalXofs] at h1
    cases outs with
    | nil => cases h1
    | cons o os =>
      simp only [List.map_cons, List.cons.injEq] at h1
      cases os with
      | cons o2 os => simp at h2
      | nil =>
        rw [h1.1]
        simp only [List.flatten_cons, List.flatten_nil, List.append_nil, List.sum_cons, List.sum_nil,
          Nat.add_zero] at h3
        rw [h3, ← Sponge.keccakpBytes_eq_fips]

theorem krel_step (xof : Bool) (L : Nat) (hL : 4 ≤ L) (hL2 : L < 2 ^ 61) (a a' : KAbs) (w : KWorld) (o : KOp)
    (out : Option (List Byte × List Byte)) (h : KRel a w) (hs : a.step o = some (a', out)) :
    KRel a' (kStep P xof L w o).1 ∧ (kStep P xof L w o).2 = out.map (kmacSpec xof L) := by
  cases o with
  | setkey k =>
    simp only [KAbs.step] at hs
    by_cases hk : k.length < 2 ^ 61
    · rw [if_pos hk] at hs
      simp only [Option.some.injEq, Prod.mk.injEq] at hs
      obtain ⟨rfl, rfl⟩ := hs
      refine ⟨⟨?_, h.desc⟩, rfl⟩
      intro k' e
      injection e with e
      subst e
      exact ⟨hk, rfl⟩
    · rw [if_neg hk] at hs; cases hs
  | init d =>
    simp only [KAbs.step, Option.map_eq_some_iff, Prod.mk.injEq] at hs
    obtain ⟨k, hk, rfl, rfl⟩ := hs
    refine ⟨⟨h.key, ?_⟩, rfl⟩
    intro j p hj
    dsimp only at hj
    simp only [kStep, kInit, set]
    by_cases e : j = d
    · rw [if_pos e] at hj ⊢
      injection hj with hj
      subst hj
      obtain ⟨g1, g2⟩ := h.key k hk
      refine ⟨g1, [], rfl, ?_⟩
      rw [g2]
      rfl
    · rw [if_neg e] at hj ⊢
      exact h.desc j p hj
  | update d x =>
    simp only [KAbs.step, Option.map_eq_some_iff, Prod.mk.injEq] at hs
    obtain ⟨p0, hp, rfl, rfl⟩ := hs
    refine ⟨⟨h.key, ?_⟩, rfl⟩
    intro j p hj
    dsimp only at hj
    simp only [kStep, set]
    by_cases e : j = d
    · rw [if_pos e] at hj ⊢
      injection hj with hj
      subst hj
      obtain ⟨g1, chunks, g2, g3⟩ := h.desc d p0 hp
      refine ⟨g1, chunks ++ [x], by simp [g2], ?_⟩
      rw [g3, List.foldl_append]
      rfl
    · rw [if_neg e] at hj ⊢
      exact h.desc j p hj
  | final d =>
    simp only [KAbs.step] at hs
    cases hp : a.desc d with
    | none => rw [hp] at hs; cases hs
    | some p0 =>
      rw [hp] at hs
      dsimp only at hs
      by_cases hl : p0.2.length < 2 ^ 63
      · rw [if_pos hl] at hs
        simp only [Option.some.injEq, Prod.mk.injEq] at hs
        obtain ⟨rfl, rfl⟩ := hs
        obtain ⟨g1, chunks, g2, g3⟩ := h.desc d p0 hp
        refine ⟨⟨h.key, ?_⟩, ?_⟩
        · intro j p hj
          dsimp only at hj
          simp only [kStep, set]
          by_cases e : j = d
          · rw [if_pos e] at hj; cases hj
          · rw [if_neg e] at hj ⊢
            exact h.desc j p hj
        · have := krel_final xof L hL hL2 p0.1 g1 chunks (by rw [g2]; exact hl)
          rw [g2] at this
          simp only [kStep, g3, Option.map_some]
          exact this
      · rw [if_neg hl] at hs; cases hs

/-- C134: for all sequences of calls on a handle and any number of descriptors, also with changes of
the key in between, each MAC is the one of SP 800-185 for the message of the descriptor and the key
set when it was initialised. -/
theorem c134_kmac (xof : Bool) (L : Nat) (hL : L ∈ [28, 32, 48, 64]) (w : KWorld) (ops : List KOp)
    (outs : List (List Byte)) (hr : KAbs.run (kmacSpec xof L) KAbs.start ops = some outs) :
    kRun P xof L w ops = outs := by
  have hL' : 4 ≤ L ∧ L < 2 ^ 61 := by
    simp only [List.mem_cons, List.not_mem_nil, or_false] at hL
    omega
  have key : ∀ (ops : List KOp) (a : KAbs) (w : KWorld) (outs : List (List Byte)), KRel a w →
      KAbs.run (kmacSpec xof L) a ops = some outs → kRun P xof L w ops = outs := by
    intro ops
    induction ops with
    | nil => intro a w outs _ hr; injection hr
    | cons o os ih =>
      intro a w outs h hr
      simp only [KAbs.run] at hr
      cases hs : a.step o with
      | none => rw [hs] at hr; cases hr
      | some p =>
        obtain ⟨a', out⟩ := p
        rw [hs] at hr
        simp only [Option.map_eq_some_iff] at hr
        obtain ⟨r, hr, rfl⟩ := hr
        obtain ⟨g1, g2⟩ := krel_step xof L hL'.1 hL'.2 a a' w o out h hs
        simp only [kRun]
        rw [g2, ih a' _ r g1 hr]
  exact key ops KAbs.start w outs ⟨(fun _ e => by cases e), (fun _ _ e => by cases e)⟩ hr

/-! ### Cases -/

/-- Non-vacuity of C133: two interleaved messages, one restored from its exported state. -/
example : (Abs.run true (2 ^ 64) id Abs.start
    [.init 0, .init 1, .update 0 [1, 2], .update 1 [3], .export 0 7, .update 0 [4], .final 1, .final 0, .import 0 7,
      .update 0 [5], .final 0]) = some [[3], [1, 2, 4], [1, 2, 5]] := by decide

/-- Non-vacuity of the negation: SHA3-256 of `[]` and of `[1]` differ. -/
example : Sponge.Spec.sponge Sponge.Spec.keccakBytes 136 0x06 [] 32 ≠
    Sponge.Spec.sponge Sponge.Spec.keccakBytes 136 0x06 ([] ++ [1]) 32 := by decide +kernel

/-- Non-vacuity of C134: two descriptors, a change of the key in between. -/
example : (KAbs.run (fun p => p.1 ++ p.2) KAbs.start
    [.setkey [9], .init 0, .update 0 [1], .setkey [8], .init 1, .update 1 [2], .update 0 [3], .final 1, .final 0]) =
    some [[8, 2], [9, 1, 3]] := by decide

end LC.Kernel
