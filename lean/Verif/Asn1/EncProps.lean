import Verif.Asn1.EncTree
/-
C90: the encoder engine.
-/
namespace LC.Asn1.Gen
open LC.Asn1 LC.Asn1.Enc

variable {σ : Type}

/-- C90.  For every grammar of the library with the encoder used for it, all actions that keep to the space they are
offered, every context, every buffer size and any number of instructions: no access is made outside the jump
stack, the levels, the bytecode or the action table, and no tag is written that was not set.  If the encoder
returns, its result is zero or an error.  If it is zero, the output is the DER serialisation of a forest of well
formed values whose leaves are exactly the values supplied by the actions, with their tags and in their
order, apart from empty ones; it fits the buffer, and `*avail_datalen` is reduced by exactly its length. -/
theorem encode_der : ∀ p ∈ shippedEnc, ∀ (e : Encoder σ), e.d = p.1 → Contract e → ∀ (ctx : σ) (avail n : Nat),
    match encode e p.2 ctx avail n with
    | .fault => False
    | .next _ => True
    | .halt r s => r ≤ 0 ∧ (r = 0 → ∃ f, s.out = serL f ∧ WFL f ∧ nonempty (leavesL f) = supplied s.log ∧
        s.out.length ≤ p.2.maxStack ∧ availAfter p.2 avail s.out + s.out.length = avail) := by
  intro p hp e hd hc ctx avail n
  have hchk := shipped_encChecked p hp
  rw [← hd] at hchk
  have h1 := run_ok e p.2 hc hchk (min p.2.maxStack avail) n { ctx := ctx } (start_mem hchk ctx)
  have h2 := run_inv e p.2 hc hchk (min p.2.maxStack avail) n { ctx := ctx } (start_mem hchk ctx) (start_inv _ ctx)
  unfold encode
  match hr : run e p.2 (min p.2.maxStack avail) n { ctx := ctx } with
  | .fault => rw [hr] at h1; exact h1
  | .next _ => trivial
  | .halt r s =>
    rw [hr] at h2
    rcases h2 with h2 | ⟨h2, ⟨top, rest, f, g, hs, h0, hb, hl⟩, hone⟩
    · exact ⟨by omega, fun h => by omega⟩
    · refine ⟨by omega, fun _ => ⟨f, hb.out, hb.wf.1, ?_, ?_, ?_⟩⟩
      · rw [hs] at hone
        have hrest : rest = [] := by simpa using hone
        have hg : g = [] := by have := hb.bufs; rw [hrest] at this; simpa using this.symm
        rw [← hl, hg]
        unfold allLeaves
        simp
      · have := hb.len; omega
      · have := hb.len
        unfold availAfter
        omega

/-! ### Termination -/

theorem closed_of_suffix {d : Decoder} {c : Cfg} {all suf : List A} : ∀ {l : List A}, closed d c all l = true → suf <:+ l →
    closed d c all suf = true
  | [], _, hs => by rw [List.suffix_nil.1 hs]; rfl
  | b :: l, h, hs => by
    rcases List.suffix_cons_iff.1 hs with rfl | hs
    · exact h
    · unfold closed at h
      rw [Bool.and_eq_true] at h
      exact closed_of_suffix h.2 hs

theorem run_halts (e : Encoder σ) (c : Cfg) (hc : Contract e) (h : encCheck e.d c = true) (maxlen : Nat) (μ : σ → Nat)
    (hμ : ∀ a ctx avail o, e.act a ctx avail = .ok o → μ o.ctx ≤ μ ctx ∧ (o.ret = 1 → μ o.ctx < μ ctx)) :
    ∀ (n : Nat) (s : St σ) (suf : List A), suf <:+ states e.d c → abs s ∈ suf →
      (2 * μ s.ctx + s.cont.toNat) * ((states e.d c).length + 1) + suf.length ≤ n →
      ∃ r s', run e c maxlen n s = .halt r s'
  | 0, s, suf, hsuf, hm, hn => by
    have : 0 < suf.length := List.length_pos_of_mem hm
    omega
  | n + 1, s, suf, hsuf, hm, hn => by
    have h' := h
    unfold encCheck at h'
    rw [Bool.and_eq_true] at h'
    obtain ⟨rest, L, lp, h1, h2, h3, h4⟩ := closed_suffix (closed_of_suffix h'.2 hsuf) hm
    have hstep := step_ok e c hc maxlen s L lp h2
    have hlen : rest.length < suf.length := by have := h1.length_le; simp at this; omega
    unfold run
    match hst : step e c maxlen s with
    | .fault => rw [hst] at hstep; exact hstep.elim
    | .halt r s' => exact ⟨r, s', rfl⟩
    | .next s' =>
      rw [hst] at hstep
      dsimp only
      have hR : suf.length ≤ (states e.d c).length := hsuf.length_le
      rcases hstep with ⟨hmem, hcc⟩ | ⟨hmem, hctx, hc1, hc2⟩
      · refine run_halts e c hc h maxlen μ hμ n s' rest ((List.suffix_cons _ _).trans (h1.trans hsuf)) (h3 _ hmem) ?_
        have hle : 2 * μ s'.ctx + s'.cont.toNat ≤ 2 * μ s.ctx + s.cont.toNat := by
          rcases hcc with ⟨e1, e2⟩ | ⟨a, av, o, e1, e2, e3⟩
          · rw [e1, e2]; exact Nat.le_refl _
          · obtain ⟨m1, m2⟩ := hμ a s.ctx av o e1
            rw [e2, e3]
            by_cases hret : o.ret = 1
            · have := m2 hret
              have hb : (s.cont || o.ret == 1).toNat ≤ 1 := Bool.toNat_le _
              omega
            · have : (o.ret == 1) = false := by simpa using hret
              rw [this, Bool.or_false]; omega
        have := Nat.mul_le_mul_right ((states e.d c).length + 1) hle
        omega
      · refine run_halts e c hc h maxlen μ hμ n s' (states e.d c) (List.suffix_refl _) (h4 _ hmem) ?_
        rw [hctx, hc2]
        rw [hc1] at hn
        simp only [Bool.toNat_true, Bool.toNat_false, Nat.add_zero] at hn ⊢
        rw [Nat.add_mul, Nat.one_mul] at hn
        omega

/-- C90, termination: if the actions ask for another round of a loop only finitely often - a measure of the context never
grows and gets smaller with every `LC_ASN1_RET_CONTINUE` -, the encoder returns after a number of instructions
that depends on the grammar and that measure alone. -/
theorem encode_returns : ∀ p ∈ shippedEnc, ∀ (e : Encoder σ), e.d = p.1 → Contract e → ∀ (μ : σ → Nat),
    (∀ a ctx avail o, e.act a ctx avail = .ok o → μ o.ctx ≤ μ ctx ∧ (o.ret = 1 → μ o.ctx < μ ctx)) →
    ∀ (ctx : σ) (avail n : Nat), (2 * μ ctx + 1) * ((states p.1 p.2).length + 1) ≤ n →
    ∃ r s, encode e p.2 ctx avail n = .halt r s := by
  intro p hp e hd hc μ hμ ctx avail n hn
  have hchk := shipped_encChecked p hp
  rw [← hd] at hchk hn
  refine run_halts e p.2 hc hchk (min p.2.maxStack avail) μ hμ n { ctx := ctx } _ (List.suffix_refl _) (start_mem hchk ctx) ?_
  rw [Nat.add_mul, Nat.one_mul] at hn
  simp only [Bool.toNat_false, Nat.add_zero]
  omega

/-- The number of instructions is small: the grammars have at most 249 positions. -/
theorem states_bound : ∀ p ∈ shippedEnc, (states p.1 p.2).length ≤ 249 := by decide +kernel

/-! ### Non-vacuity, and what the check excludes -/

/-- An action table for the sequence of object identifiers of `x509_eku`: the context are the values left. -/
def oidsEnc : Encoder (List (List UInt8)) where
  d := x509_eku
  act _ ctx avail := match ctx with
    | [] => .ok { ctx := [] }
    | v :: r => if v.length ≤ avail then .ok { ret := if r.isEmpty then 0 else 1, bytes := v, ctx := r } else .error (-EOVERFLOW)

theorem oidsEnc_contract : Contract oidsEnc := by
  intro a ctx avail
  match ctx with
  | [] => exact Nat.zero_le _
  | v :: r =>
    simp only [oidsEnc]
    split
    · rename_i h
      split at h
      · simp at h
      · simp only [Except.error.injEq] at h; rw [← h]; decide
    · rename_i h
      split at h
      · simp only [Except.ok.injEq] at h; rw [← h]; assumption
      · simp at h

def outOf : Res σ → Option (Int × List UInt8)
  | .halt r s => some (r, s.out)
  | _ => none

/-- Two values give a sequence of two object identifiers. -/
example : outOf (encode oidsEnc small [[0x55, 0x1d], [0x2a]] 100 50) = some (0, [0x30, 7, 6, 2, 0x55, 0x1d, 6, 1, 0x2a]) := by
  decide +kernel
/-- A buffer that is one byte too small is refused. -/
example : outOf (encode oidsEnc small [[0x55, 0x1d], [0x2a]] 8 50) = some (-EOVERFLOW, []) := by decide +kernel
/-- The sequence with no value is left out. -/
example : outOf (encode oidsEnc small [] 100 50) = some (0, []) := by decide +kernel
example : (x509_eku, small) ∈ shippedEnc := by simp [shippedEnc]
example : ∀ a ctx avail o, oidsEnc.act a ctx avail = .ok o → o.ctx.length ≤ ctx.length ∧ (o.ret = 1 → o.ctx.length < ctx.length) := by
  intro a ctx avail o h
  match ctx with
  | [] => simp [oidsEnc] at h; subst h; simp
  | v :: r =>
    simp only [oidsEnc] at h
    split at h
    · simp only [Except.ok.injEq] at h; subst h; simp
    · simp at h

/-- An action without a value. -/
def noAct (d : Decoder) : Encoder Unit := { d := d, act := fun _ _ _ => .ok { ctx := () } }

def isFault : Res σ → Bool
  | .fault => true
  | _ => false

/-- The check of the jump stack is made against the size of the buffers, not against the number of its
entries: a grammar that nests deeper than this number (here one that refers to itself) writes behind it. -/
theorem jump_stack_overrun :
    isFault (encode (noAct { machine := [0x04, 0x02, 0], nact := 0 }) large () 100 11) = true ∧
    isFault (encode (noAct { machine := [0x04, 0x02, 0], nact := 0 }) small () 100 5) = true := by
  constructor <;> decide +kernel

/-- The bottom level is only set up by a match that is not a jump: a grammar that begins with a jump uses it
uninitialised. -/
theorem first_jump_uninitialised :
    isFault (encode (noAct { machine := [0x04, 0x30, 4, 0x1d, 0x20, 0x28], nact := 0 }) large () 100 10) = true := by
  decide +kernel

end LC.Asn1.Gen
