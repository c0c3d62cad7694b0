import Verif.Asn1.Check
/-
Termination of the decoder for checked bytecode.
-/
namespace LC.Asn1

/-- Along the straight line from `pc` the run consumes input or ends, provided there is input left in the
present constructed type; `u`: the flag `matched` is known to be clear.  `fuel` bounds the number of
instructions followed. -/
def blocked (d : Decoder) : Nat → Nat → Bool → Bool
  | 0, _, _ => false
  | fuel + 1, pc, u =>
    let op := d.machine.getD pc 0
    let l := (opLen op).getD 0
    if leafOps.contains op || jumpOps.contains op then
      if isCond op && !u then false
      else if isSkip op && !isAny op then blocked d fuel (pc + l) true
      else true
    else if op = 0x1c then (if u then true else blocked d fuel (pc + l) u)
    else false

/-- Every loop of the bytecode (the jump back of `END_SEQ_OF`, `END_SET_OF`) is blocked. -/
def loopsBlocked (d : Decoder) (c : List Nat) : Bool :=
  (List.range d.machine.length).all fun pc =>
    imp (c.getD pc 0 != 0 && endOps.contains (d.machine.getD pc 0) && isOf (d.machine.getD pc 0))
      (blocked d 16 (d.machine.getD (pc + 1) 0) false)

/-- The run from `s` ends. -/
def Halts (d : Decoder) (cb : List Call → Int) (data : List UInt8) (s : St) : Prop :=
  ∃ n ret s', run d cb data n s = .halt ret s'

/-- How a step can go on: it consumes input, returns from a jump, goes forward, or repeats a loop. -/
inductive Prog (d : Decoder) (s s' : St) : Prop
  | consume (h : s.dp < s'.dp)
  | ret (h : s'.dp = s.dp) (hj : s'.jstk.length < s.jstk.length)
  | forward (h : s'.dp = s.dp) (hj : s'.jstk = s.jstk) (hp : s.pc < s'.pc)
  | loop (h : s'.dp = s.dp) (hj : s'.jstk = s.jstk) (hlt : s'.dp < s'.datalen)
      (hp : s'.pc = d.machine.getD (s.pc + 1) 0)
      (hop : d.machine.getD s.pc 0 ∈ endOps ∧ isOf (d.machine.getD s.pc 0) = true)

def POk (P : St → Prop) : Res → Prop
  | .next s => P s
  | _ => True

theorem callAct_prog (d : Decoder) (cb : List Call → Int) (s : St) (i tag off len : Nat) (k : St → St)
    (P : St → Prop) (h : ∀ tr, P (k { s with trace := tr })) : POk P (callAct d cb s i tag off len k) := by
  unfold callAct
  split
  · trivial
  · split
    · trivial
    · dsimp only
      split
      · trivial
      · exact h _

theorem endAct_prog (d : Decoder) (cb : List Call → Int) (op l : Nat) (s0 s : St) (hdp : s0.dp ≤ s.dp)
    (hj : s.jstk = s0.jstk) (hpc : s.pc = s0.pc) (hl : 0 < l) : POk (Prog d s0) (endAct d cb op l s) := by
  have key : ∀ tr, Prog d s0 { s with trace := tr, pc := s.pc + l } := by
    intro tr
    rcases Nat.lt_or_ge s0.dp s.dp with h | h
    · exact .consume h
    · exact .forward (by dsimp only; omega) hj (by dsimp only; omega)
  unfold endAct
  dsimp only
  split
  · exact callAct_prog d cb s _ _ _ _ _ _ key
  · exact key s.trace

/-- The result of matching consumes input. -/
theorem afterMatch_prog (d : Decoder) (cb : List Call → Int) (data : List UInt8) (op l N : Nat)
    (s0 s : St) (hm : Matched N s0 s) : POk (fun s' => s0.dp < s'.dp) (afterMatch d cb data op l s) := by
  have hdp := hm.dp
  have hleaf : ∀ len, POk (fun s' => s0.dp < s'.dp) (leafAct d cb op l { s with len := len }) := by
    intro len
    have key : ∀ tr, s0.dp < ({ s with trace := tr, len := len, dp := if s.cons then s.dp else s.dp + len, pc := s.pc + l } : St).dp := by
      intro tr
      dsimp only
      split <;> omega
    unfold leafAct
    dsimp only
    split
    · exact callAct_prog d cb _ _ _ _ _ _ _ key
    · exact key s.trace
  unfold afterMatch
  split
  · unfold leafOp
    split
    · split
      · exact hleaf _
      · trivial
      · trivial
      · trivial
    · exact hleaf s.len
  · split
    · unfold jumpOp
      split
      · trivial
      · split
        · trivial
        · simp only [POk]; omega
    · trivial

theorem endOp_prog (d : Decoder) (cb : List Call → Int) (data : List UInt8)
    (hN : data.length < 2 ^ 64) (op l : Nat) (s : St) (hd : DInv data.length s)
    (hl : 0 < l) (hop : d.machine.getD s.pc 0 = op) (he : op ∈ endOps)
    (hlt : isOf op = true → s.pc + 1 < d.machine.length) :
    POk (Prog d s) (endOp d cb data op l s) := by
  obtain ⟨h1, h2, h3, h4, h5⟩ := hd
  unfold endOp
  split
  · trivial
  · cases hs : s.cstk with
    | nil => trivial
    | cons e rest =>
      obtain ⟨tdp, dl, hdr⟩ := e
      dsimp only
      have hcont : isOf op = true → s.dp < s.datalen → ∀ st, POk (Prog d s)
          (endContinue d { s with tdp := tdp, hdr := hdr, len := s.datalen, cstk := st }) := by
        intro ho hlt' st
        unfold endContinue
        dsimp only
        rw [getD_eq _ _ (hlt ho)]
        exact .loop rfl rfl hlt' rfl ⟨by rw [hop]; exact he, by rw [hop]; exact ho⟩
      split
      · unfold endIndef
        dsimp only
        rw [wsub_eq h1 (by omega)]
        split
        · trivial
        · obtain ⟨b, hb⟩ := get_some (data := data) (i := s.dp) (by omega)
          obtain ⟨z, hz⟩ := get_some (data := data) (i := s.dp + 1) (by omega)
          rw [hb]
          dsimp only
          split
          · split
            · rename_i ho
              exact hcont ho (by omega) _
            · trivial
          · rw [hz]
            dsimp only
            split
            · trivial
            · exact endAct_prog d cb op l s _ (by dsimp only; omega) rfl rfl hl
      · unfold endDef
        dsimp only
        split
        · rename_i hlt'
          exact hcont hlt'.2 hlt'.1 _
        · split
          · trivial
          · exact endAct_prog d cb op l s _ (by dsimp only; omega) rfl rfl hl

theorem ctlOp_prog (d : Decoder) (cb : List Call → Int) (op l : Nat) (s : St) (hl : 0 < l) :
    POk (Prog d s) (ctlOp d cb op l s) := by
  have key : ∀ tr, Prog d s { s with trace := tr, pc := s.pc + l } :=
    fun tr => .forward rfl rfl (by dsimp only; omega)
  unfold ctlOp
  dsimp only
  split
  · split
    · exact key s.trace
    · trivial
  · split
    · split <;> trivial
    · split
      · exact key s.trace
      · split
        · exact callAct_prog d cb s _ _ _ _ _ _ key
        · split
          · cases hj : s.jstk with
            | nil => trivial
            | cons r rest => exact .ret rfl (by rw [hj]; simp)
          · trivial

theorem step_prog (d : Decoder) (c : List Nat) (cb : List Call → Int) (data : List UInt8)
    (hN : data.length < 2 ^ 64) (hc : check d c = true) (s : St) (hs : MInv d c data.length s) :
    POk (Prog d s) (step d cb data s) := by
  obtain ⟨hd, ⟨a, hhas, habs⟩, hjs, htr⟩ := hs
  obtain ⟨op, l, hmach, hgd, hopl, hneed, hend, hok⟩ := check_at hc hhas habs.cases
  have hl : 0 < l := by
    have : 0 < need op := by
      unfold need
      split
      · split <;> split <;> omega
      · split
        · omega
        · split
          · omega
          · split <;> omega
    omega
  unfold step
  rw [hmach]
  dsimp only
  rw [hopl]
  dsimp only
  rw [if_neg (by omega)]
  unfold exec
  split
  · have hm := matchOp_spec d data hN op l s hd
    generalize matchOp d data op l s = r at hm ⊢
    cases r with
    | skip s' => exact .forward hm.1.dp hm.1.jstk (by rw [hm.1.pc]; omega)
    | go s' =>
      have := afterMatch_prog d cb data op l data.length s s' hm.1
      simp only [matchCont]
      generalize afterMatch d cb data op l s' = r at this ⊢
      cases r with
      | next s'' => exact .consume this
      | halt r s => trivial
      | dataFault => trivial
      | machFault => trivial
    | err => trivial
    | dataFault => trivial
    | machFault => trivial
  · split
    · rename_i he
      exact endOp_prog d cb data hN op l s hd hl hgd he (fun ho => by
        have := (end_need he hneed).2.1 ho; omega)
    · exact ctlOp_prog d cb op l s hl

theorem halts_of_step {d : Decoder} {c : List Nat} {cb : List Call → Int} {data : List UInt8}
    (hN : data.length < 2 ^ 64) (hc : check d c = true) {s : St} (hs : MInv d c data.length s)
    (h : ∀ s', step d cb data s = .next s' → MInv d c data.length s' → Halts d cb data s') :
    Halts d cb data s := by
  have hm := step_mach d c cb data hN hc s hs
  cases hr : step d cb data s with
  | next s' =>
    rw [hr] at hm
    obtain ⟨n, ret, s'', hn⟩ := h s' hr hm
    exact ⟨n + 1, ret, s'', by unfold run; rw [hr]; exact hn⟩
  | halt r s' => exact ⟨1, r, s', by unfold run; rw [hr]⟩
  | dataFault => rw [hr] at hm; exact hm.elim
  | machFault => rw [hr] at hm; exact hm.elim

/-- A blocked line ends or consumes input. -/
theorem blocked_halts {d : Decoder} {c : List Nat} {cb : List Call → Int} {data : List UInt8}
    (hN : data.length < 2 ^ 64) (hc : check d c = true) (x : Nat)
    (ih : ∀ s, MInv d c data.length s → x < s.dp → Halts d cb data s) (fuel : Nat) :
    ∀ (u : Bool) (s : St), MInv d c data.length s → s.dp = x → s.dp < s.datalen →
      (u = true → s.matched = false) → blocked d fuel s.pc u = true → Halts d cb data s := by
  induction fuel with
  | zero => intro u s _ _ _ _ h; cases h
  | succ fuel ih2 =>
    intro u s hs hx hlt hu hb
    refine halts_of_step hN hc hs (fun s' hstep hs' => ?_)
    obtain ⟨hd, ⟨a, hhas, habs⟩, hjs, htr⟩ := hs
    obtain ⟨op, l, hmach, hgd, hopl, hneed, hend, hok⟩ := check_at hc hhas habs.cases
    unfold blocked at hb
    dsimp only at hb
    rw [hgd, hopl] at hb
    simp only [Option.getD_some] at hb
    unfold step at hstep
    rw [hmach] at hstep
    dsimp only at hstep
    rw [hopl] at hstep
    dsimp only at hstep
    rw [if_neg (by omega)] at hstep
    unfold exec at hstep
    by_cases hlj : op ∈ leafOps ∨ op ∈ jumpOps
    · have hle : op ≤ 0x1b := by
        rcases hlj with h | h
        · exact (leaf_need h hneed).1
        · exact (jump_need h hneed).1
      rw [if_pos hle] at hstep
      rw [if_pos (by simpa using hlj)] at hb
      have hm := matchOp_spec d data hN op l s hd
      generalize matchOp d data op l s = r at hm hstep
      by_cases hcu : (isCond op && !u) = true
      · rw [if_pos hcu] at hb; cases hb
      · rw [if_neg hcu] at hb
        cases r with
        | skip s1 =>
          simp only [matchCont] at hstep
          injection hstep with hstep
          subst hstep
          rcases hm.2 with ⟨_, ⟨h1, h2⟩ | ⟨_, h2⟩⟩ | ⟨h1, h2, h3, h4⟩
          · have : u = true := by
              cases u with
              | true => rfl
              | false => simp [h1] at hcu
            rw [hu this] at h2
            cases h2
          · omega
          · rw [if_pos (by simp [h1, h2])] at hb
            refine ih2 true s1 hs' (by rw [hm.1.dp]; exact hx) (by rw [hm.1.dp, hm.1.datalen]; exact hlt)
              (fun _ => h4) ?_
            rw [hm.1.pc]; exact hb
        | go s1 =>
          simp only [matchCont] at hstep
          have := afterMatch_prog d cb data op l data.length s s1 hm.1
          rw [hstep] at this
          exact ih s' hs' (by rw [← hx]; exact this)
        | err => cases hstep
        | dataFault => cases hstep
        | machFault => cases hstep
    · rw [if_neg (by simpa using hlj)] at hb
      by_cases h1c : op = 0x1c
      · subst h1c
        rw [if_pos rfl] at hb
        rw [if_neg (by decide), if_neg (by decide)] at hstep
        unfold ctlOp at hstep
        dsimp only at hstep
        rw [if_pos rfl] at hstep
        by_cases hmt : s.matched = true
        · rw [if_pos hmt] at hstep
          injection hstep with hstep
          subst hstep
          cases u with
          | true => rw [hu rfl] at hmt; cases hmt
          | false => exact ih2 false _ hs' hx hlt (fun h => by cases h) hb
        · rw [if_neg hmt] at hstep
          cases hstep
      · rw [if_neg h1c] at hb
        cases hb

/-- Every run of a checked program ends. -/
theorem halts (d : Decoder) (c : List Nat) (cb : List Call → Int) (data : List UInt8)
    (hN : data.length < 2 ^ 64) (hc : check d c = true) (hb : loopsBlocked d c = true) :
    ∀ s, MInv d c data.length s → Halts d cb data s := by
  -- outer induction on the input left
  suffices h : ∀ x, ∀ s, data.length - s.dp ≤ x → MInv d c data.length s → Halts d cb data s from
    fun s hs => h _ s (Nat.le_refl _) hs
  intro x
  induction x using Nat.strongRecOn with
  | ind x ih =>
    -- then on the jump stack
    suffices h : ∀ j, ∀ s, s.jstk.length ≤ j → data.length - s.dp ≤ x → MInv d c data.length s →
        Halts d cb data s from fun s hx hs => h _ s (Nat.le_refl _) hx hs
    intro j
    induction j using Nat.strongRecOn with
    | ind j ihj =>
      -- then on the rest of the bytecode
      suffices h : ∀ p, ∀ s, d.machine.length - s.pc ≤ p → s.jstk.length ≤ j → data.length - s.dp ≤ x →
          MInv d c data.length s → Halts d cb data s from fun s hj hx hs => h _ s (Nat.le_refl _) hj hx hs
      intro p
      induction p using Nat.strongRecOn with
      | ind p ihp =>
        intro s hp hj hx hs
        have more : ∀ s', MInv d c data.length s' → s.dp < s'.dp → Halts d cb data s' := by
          intro s' hs' hlt
          have h1 := hs'.data.dp
          have h2 := hs'.data.dl
          exact ih (data.length - s'.dp) (by omega) s' (Nat.le_refl _) hs'
        refine halts_of_step hN hc hs (fun s' hstep hs' => ?_)
        have hpr := step_prog d c cb data hN hc s hs
        rw [hstep] at hpr
        have hpcs : s.pc < d.machine.length := by
          obtain ⟨_, ⟨a, hhas, habs⟩, _, _⟩ := hs
          obtain ⟨op, l, hmach, _, _, _, _, _⟩ := check_at hc hhas habs.cases
          exact (List.getElem?_eq_some_iff.1 hmach).1
        rcases hpr with h | ⟨h, hj'⟩ | ⟨h, hj', hp'⟩ | ⟨h, hj', hlt, hp', hop⟩
        · exact more s' hs' h
        · exact ihj s'.jstk.length (by omega) s' (Nat.le_refl _) (by omega) hs'
        · exact ihp (d.machine.length - s'.pc) (by omega) s' (Nat.le_refl _) (by rw [hj']; exact hj)
            (by omega) hs'
        · refine blocked_halts hN hc s.dp more 16 false s' hs' h hlt (fun h => by cases h) ?_
          unfold loopsBlocked at hb
          simp only [List.all_eq_true] at hb
          have := hb s.pc (List.mem_range.2 hpcs)
          rw [imp_iff] at this
          rw [hp']
          refine this ?_
          obtain ⟨_, ⟨a, hhas, _⟩, _, _⟩ := hs
          simp only [Bool.and_eq_true, bne_iff_ne]
          exact ⟨⟨has_ne hhas, by simpa using hop.1⟩, hop.2⟩

end LC.Asn1
