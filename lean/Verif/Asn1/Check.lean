import Verif.Asn1.Lemmas
/-
A static check of decoder bytecode and its soundness: a program that passes it never makes an
access outside the bytecode, the opcode table or the action table, and every slice handed to an action
lies inside the input.  A second check gives termination.
-/
namespace LC.Asn1

/-! ### Abstract states

1: the slice `(tdp, len)` is inside the input.  2: the slice may be wrong, but there is more input in the
present constructed type.  4: like 2 and the flag `matched` is clear. -/

def Abs (N : Nat) (a : Nat) (s : St) : Prop :=
  (a = 1 ∧ s.tdp + s.len ≤ N) ∨ (a = 2 ∧ s.dp < s.datalen) ∨
  (a = 4 ∧ s.dp < s.datalen ∧ s.matched = false)

/-- The certificate `c` allows the abstract state `a` at `pc`. -/
def has (c : List Nat) (pc a : Nat) : Bool := (c.getD pc 0) &&& a == a && a != 0

def valid (ops : List Nat) (op : Nat) : Bool := ops.contains op

/-- The return addresses that can be on the jump stack. -/
def rets (d : Decoder) (c : List Nat) : List Nat :=
  ((List.range d.machine.length).filter (fun pc => c.getD pc 0 != 0 && jumpOps.contains (d.machine.getD pc 0))).map
    (fun pc => (pc + (opLen (d.machine.getD pc 0)).getD 0) % 256)

def imp (a b : Bool) : Bool := !a || b

/-- The instruction `op` at `pc` of length `l` in abstract state `a`. -/
def okOp (d : Decoder) (c rs : List Nat) (pc op l a : Nat) : Bool :=
  let n := pc + l
  let m i := d.machine.getD (pc + i) 0
  if leafOps.contains op then
    imp (isCond op && a != 4) (has c n a) && imp (isSkip op && a == 1) (has c n 1) &&
    imp (isSkip op && !isAny op) (has c n (if a = 1 then 1 else 4)) &&
    has c n 1 &&
    imp (!isAny op && consBit (m 1)) (has c n 2 && !isAct op) &&
    imp (isAct op) (m (if isAny op then 1 else 2) < d.nact)
  else if jumpOps.contains op then
    imp (isCond op && a != 4) (has c n a) && imp (isSkip op && a == 1) (has c n 1) &&
    imp (isSkip op && !isAny op) (has c n (if a = 1 then 1 else 4)) &&
    has c (m 2) 1 && has c (m 2) 2
  else if endOps.contains op then
    has c n 1 && imp (isOf op) (has c (m 1) 2) &&
    imp (isEndAct op) (m (if isOf op then 2 else 1) < d.nact)
  else if op = 0x1c then imp (a != 4) (has c n a)
  else if op = 0x1d then true
  else if op = 0x1e ∨ op = 0x1f then a == 1 && decide (m 1 < d.nact) && has c n 1
  else if op = 0x28 then rs.all (fun r => has c r (if a = 1 then 1 else 2))
  else false

/-- The least length the accesses of the instruction need. -/
def need (op : Nat) : Nat :=
  if leafOps.contains op then
    (if isAny op then (if isAct op then 2 else 1) else (if isAct op then 3 else 2))
  else if jumpOps.contains op then 3
  else if endOps.contains op then 1 + (if isOf op then 1 else 0) + (if isEndAct op then 1 else 0)
  else if op = 0x1e ∨ op = 0x1f then 2 else 1

def okAt (d : Decoder) (c rs : List Nat) (pc : Nat) : Bool :=
  imp (c.getD pc 0 != 0)
    (match opLen (d.machine.getD pc 0) with
     | none => false
     | some l => decide (need (d.machine.getD pc 0) ≤ l) && decide (pc + l ≤ d.machine.length) &&
        [1, 2, 4].all (fun a => imp (has c pc a) (okOp d c rs pc (d.machine.getD pc 0) l a)))

/-- The check. -/
def check (d : Decoder) (c : List Nat) : Bool :=
  has c 0 1 && (c.length ≤ d.machine.length) &&
  (List.range d.machine.length).all (okAt d c (rets d c))

/-- All calls so far were of existing actions, with a slice of the input. -/
def TraceOK (d : Decoder) (N : Nat) (tr : List Call) : Prop :=
  ∀ c ∈ tr, c.act < d.nact ∧ c.off + c.len ≤ N

structure MInv (d : Decoder) (c : List Nat) (N : Nat) (s : St) : Prop where
  data : DInv N s
  abs : ∃ a, has c s.pc a = true ∧ Abs N a s
  js : ∀ r ∈ s.jstk, r ∈ rets d c
  tr : TraceOK d N s.trace

def MachOk (d : Decoder) (N : Nat) (P : St → Prop) : Res → Prop
  | .next s => P s
  | .halt _ s => TraceOK d N s.trace
  | .dataFault => False
  | .machFault => False

theorem imp_iff {a b : Bool} : imp a b = true ↔ (a = true → b = true) := by
  cases a <;> cases b <;> simp [imp]

theorem has_ne {c : List Nat} {pc a : Nat} (h : has c pc a = true) : c.getD pc 0 ≠ 0 := by
  intro h0
  unfold has at h
  rw [h0] at h
  simp at h
  omega

theorem has_lt {c : List Nat} {pc a : Nat} (h : has c pc a = true) : pc < c.length := by
  apply Classical.byContradiction
  intro hn
  apply has_ne h
  simp [List.getElem?_eq_none (Nat.not_lt.1 hn)]

theorem getD_eq (l : List Nat) (i : Nat) (h : i < l.length) : l[i]? = some (l.getD i 0) := by
  simp [h]

theorem callAct_mach (d : Decoder) (cb : List Call → Int) (N : Nat) (s : St) (i tag off len : Nat) (k : St → St)
    (P : St → Prop) (hlt : s.pc + i < d.machine.length) (hact : d.machine.getD (s.pc + i) 0 < d.nact)
    (hoff : off + len ≤ N) (htr : TraceOK d N s.trace)
    (h : ∀ tr, TraceOK d N tr → P (k { s with trace := tr })) :
    MachOk d N P (callAct d cb s i tag off len k) := by
  unfold callAct
  rw [getD_eq _ _ hlt]
  dsimp only
  rw [if_neg (by omega)]
  have ht : TraceOK d N (⟨d.machine.getD (s.pc + i) 0, s.hdr, tag, off, len⟩ :: s.trace) := by
    intro c hc
    rcases List.mem_cons.1 hc with rfl | hc
    · exact ⟨hact, hoff⟩
    · exact htr c hc
  split
  · exact ht
  · exact h _ ht

theorem MachOk.of_data {d : Decoder} {N : Nat} {P Q : St → Prop} {r : Res} (h1 : MachOk d N P r) (h2 : DOk Q r) :
    MachOk d N (fun s => P s ∧ Q s) r := by
  cases r with
  | next s => exact ⟨h1, h2⟩
  | halt r s => exact h1
  | dataFault => exact h1
  | machFault => exact h1

/-- The part of `MInv` that is not about the data. -/
structure CInv (d : Decoder) (c : List Nat) (N : Nat) (s : St) : Prop where
  abs : ∃ a, has c s.pc a = true ∧ Abs N a s
  js : ∀ r ∈ s.jstk, r ∈ rets d c
  tr : TraceOK d N s.trace

theorem leafAct_mach (d : Decoder) (c : List Nat) (cb : List Call → Int) (N op l : Nat) (s : St)
    (hn : has c (s.pc + l) 1 = true)
    (hcons : s.cons = true → has c (s.pc + l) 2 = true ∧ isAct op = false)
    (hact : isAct op = true → s.pc + (if isAny op then 1 else 2) < d.machine.length ∧
      d.machine.getD (s.pc + (if isAny op then 1 else 2)) 0 < d.nact)
    (htdp : s.tdp = s.dp) (hlen : s.cons = false → s.dp + s.len ≤ N)
    (hin : s.dp + s.len ≤ N ∨ s.dp < s.datalen)
    (hjs : ∀ r ∈ s.jstk, r ∈ rets d c) (htr : TraceOK d N s.trace) :
    MachOk d N (CInv d c N) (leafAct d cb op l s) := by
  have key : ∀ tr, TraceOK d N tr → CInv d c N { s with trace := tr, dp := if s.cons then s.dp else s.dp + s.len, pc := s.pc + l } := by
    intro tr ht
    cases hc : s.cons with
    | false => exact ⟨⟨1, hn, .inl ⟨rfl, by have := hlen hc; dsimp only; omega⟩⟩, hjs, ht⟩
    | true =>
      rcases hin with h | h
      · exact ⟨⟨1, hn, .inl ⟨rfl, by dsimp only; omega⟩⟩, hjs, ht⟩
      · exact ⟨⟨2, (hcons hc).1, .inr (.inl ⟨rfl, by simp; omega⟩)⟩, hjs, ht⟩
  unfold leafAct
  dsimp only
  split
  · rename_i ha
    have hc : s.cons = false := by
      cases hc : s.cons with
      | false => rfl
      | true => have := (hcons hc).2; rw [ha] at this; cases this
    exact callAct_mach d cb N s _ _ _ _ _ _ (hact ha).1 (hact ha).2 (hlen hc) htr key
  · exact key s.trace htr

theorem endAct_mach (d : Decoder) (c : List Nat) (cb : List Call → Int) (N op l : Nat) (s : St)
    (hn : has c (s.pc + l) 1 = true)
    (hact : isEndAct op = true → s.pc + (if isOf op then 2 else 1) < d.machine.length ∧
      d.machine.getD (s.pc + (if isOf op then 2 else 1)) 0 < d.nact)
    (hlen : s.tdp + s.len ≤ N)
    (hjs : ∀ r ∈ s.jstk, r ∈ rets d c) (htr : TraceOK d N s.trace) :
    MachOk d N (CInv d c N) (endAct d cb op l s) := by
  have key : ∀ tr, TraceOK d N tr → CInv d c N { s with trace := tr, pc := s.pc + l } :=
    fun tr ht => ⟨⟨1, hn, .inl ⟨rfl, hlen⟩⟩, hjs, ht⟩
  unfold endAct
  dsimp only
  split
  · rename_i ha
    exact callAct_mach d cb N s _ _ _ _ _ _ (hact ha).1 (hact ha).2 hlen htr key
  · exact key s.trace htr

theorem endContinue_mach (d : Decoder) (c : List Nat) (N : Nat) (s : St)
    (hlt : s.pc + 1 < d.machine.length) (h : has c (d.machine.getD (s.pc + 1) 0) 2 = true)
    (hd : s.dp < s.datalen) (hjs : ∀ r ∈ s.jstk, r ∈ rets d c) (htr : TraceOK d N s.trace) :
    MachOk d N (CInv d c N) (endContinue d s) := by
  unfold endContinue
  rw [getD_eq _ _ hlt]
  exact ⟨⟨2, h, .inr (.inl ⟨rfl, hd⟩)⟩, hjs, htr⟩

theorem endOp_mach (d : Decoder) (c : List Nat) (cb : List Call → Int) (data : List UInt8)
    (hN : data.length < 2 ^ 64) (op l : Nat) (s : St) (hd : DInv data.length s)
    (hn : has c (s.pc + l) 1 = true)
    (hact : isEndAct op = true → s.pc + (if isOf op then 2 else 1) < d.machine.length ∧
      d.machine.getD (s.pc + (if isOf op then 2 else 1)) 0 < d.nact)
    (hof : isOf op = true → s.pc + 1 < d.machine.length ∧ has c (d.machine.getD (s.pc + 1) 0) 2 = true)
    (hjs : ∀ r ∈ s.jstk, r ∈ rets d c) (htr : TraceOK d data.length s.trace) :
    MachOk d data.length (CInv d c data.length) (endOp d cb data op l s) := by
  obtain ⟨h1, h2, h3, h4, h5⟩ := hd
  unfold endOp
  split
  · exact htr
  · cases hs : s.cstk with
    | nil => exact htr
    | cons e rest =>
      obtain ⟨tdp, dl, hdr⟩ := e
      dsimp only
      rw [hs] at h3
      unfold StackOK at h3
      split
      · rename_i h0
        rw [if_pos h0] at h3
        unfold endIndef
        dsimp only
        rw [wsub_eq h1 (by omega)]
        split
        · exact htr
        · obtain ⟨b, hb⟩ := get_some (data := data) (i := s.dp) (by omega)
          obtain ⟨z, hz⟩ := get_some (data := data) (i := s.dp + 1) (by omega)
          rw [hb]
          dsimp only
          split
          · split
            · rename_i ho
              exact endContinue_mach d c _ _ (hof ho).1 (hof ho).2 (by dsimp only; omega) hjs htr
            · exact htr
          · rw [hz]
            dsimp only
            split
            · exact htr
            · refine endAct_mach d c cb _ op l _ hn hact ?_ hjs htr
              dsimp only
              rw [wsub_eq (by omega) (by omega)]
              omega
      · rename_i h0
        rw [if_neg h0] at h3
        unfold endDef
        dsimp only
        split
        · rename_i hlt
          exact endContinue_mach d c _ _ (hof hlt.2).1 (hof hlt.2).2 hlt.1 hjs htr
        · split
          · exact htr
          · refine endAct_mach d c cb _ op l _ hn hact ?_ hjs htr
            dsimp only
            rw [wsub_eq (by omega) (by omega)]
            omega

/-- Skipping a match is sound for the abstract states. -/
theorem skip_abs (d : Decoder) (c : List Nat) (N op l a : Nat) (s s' : St) (hs : Skipped s s' l)
    (ha : Abs N a s)
    (hcase : (s'.matched = s.matched ∧
          ((isCond op = true ∧ s.matched = true) ∨ (isSkip op = true ∧ s.dp = s.datalen))) ∨
       (isSkip op = true ∧ isAny op = false ∧ s.dp < s.datalen ∧ s'.matched = false))
    (c1 : isCond op = true → a ≠ 4 → has c (s.pc + l) a = true)
    (c2 : isSkip op = true → a = 1 → has c (s.pc + l) 1 = true)
    (c3 : isSkip op = true → isAny op = false → has c (s.pc + l) (if a = 1 then 1 else 4) = true) :
    ∃ a, has c s'.pc a = true ∧ Abs N a s' := by
  rw [hs.pc]
  rcases hcase with ⟨hm, ⟨hc, hm'⟩ | ⟨hsk, hdp⟩⟩ | ⟨hsk, hany, hdp, hm⟩
  · refine ⟨a, c1 hc ?_, ?_⟩
    · rintro rfl
      rcases ha with ⟨h, _⟩ | ⟨h, _⟩ | ⟨_, _, h⟩
      · cases h
      · cases h
      · rw [hm'] at h; cases h
    · unfold Abs
      rw [hs.tdp, hs.len, hs.dp, hs.datalen, hm]
      exact ha
  · rcases ha with ⟨rfl, h⟩ | ⟨rfl, h⟩ | ⟨rfl, h, _⟩
    · exact ⟨1, c2 hsk rfl, .inl ⟨rfl, by rw [hs.tdp, hs.len]; exact h⟩⟩
    · omega
    · omega
  · rcases ha with ⟨rfl, h⟩ | ⟨rfl, h⟩ | ⟨rfl, h, _⟩
    · exact ⟨1, c3 hsk hany, .inl ⟨rfl, by rw [hs.tdp, hs.len]; exact h⟩⟩
    · exact ⟨4, c3 hsk hany, .inr (.inr ⟨rfl, by rw [hs.dp, hs.datalen]; exact h, hm⟩)⟩
    · exact ⟨4, c3 hsk hany, .inr (.inr ⟨rfl, by rw [hs.dp, hs.datalen]; exact h, hm⟩)⟩

theorem leaf_need {op l : Nat} (h : op ∈ leafOps) (hn : need op ≤ l) :
    op ≤ 0x1b ∧ (isAny op = false → 2 ≤ l) ∧ (isAct op = true → (if isAny op then 1 else 2) < l) := by
  have key : ∀ op ∈ leafOps, op ≤ 0x1b ∧ (isAny op = false → 2 ≤ need op) ∧
      (isAct op = true → (if isAny op then 1 else 2) < need op) := by decide
  obtain ⟨k1, k2, k3⟩ := key op h
  exact ⟨k1, fun h => Nat.le_trans (k2 h) hn, fun h => Nat.lt_of_lt_of_le (k3 h) hn⟩

theorem jump_need {op l : Nat} (h : op ∈ jumpOps) (hn : need op ≤ l) :
    op ≤ 0x1b ∧ ¬ op ∈ leafOps ∧ isAny op = false ∧ 3 ≤ l := by
  revert hn
  simp only [jumpOps, List.mem_cons, List.not_mem_nil, or_false] at h
  rcases h with rfl | rfl | rfl <;> (intro hn; exact ⟨by decide, by decide, by decide, hn⟩)

theorem end_need {op l : Nat} (h : op ∈ endOps) (hn : need op ≤ l) :
    ¬ op ≤ 0x1b ∧ (isOf op = true → 2 ≤ l) ∧ (isEndAct op = true → (if isOf op then 2 else 1) < l) := by
  have key : ∀ op ∈ endOps, ¬ op ≤ 0x1b ∧ (isOf op = true → 2 ≤ need op) ∧
      (isEndAct op = true → (if isOf op then 2 else 1) < need op) := by decide
  obtain ⟨k1, k2, k3⟩ := key op h
  exact ⟨k1, fun h => Nat.le_trans (k2 h) hn, fun h => Nat.lt_of_lt_of_le (k3 h) hn⟩

/-- What the check says about a reachable instruction. -/
theorem check_at {d : Decoder} {c : List Nat} (hc : check d c = true) {pc a : Nat} (h : has c pc a = true)
    (ha : a = 1 ∨ a = 2 ∨ a = 4) :
    ∃ op l, d.machine[pc]? = some op ∧ d.machine.getD pc 0 = op ∧ opLen op = some l ∧ need op ≤ l ∧
      pc + l ≤ d.machine.length ∧ okOp d c (rets d c) pc op l a = true := by
  unfold check at hc
  simp only [Bool.and_eq_true, decide_eq_true_eq, List.all_eq_true] at hc
  have hlt : pc < d.machine.length := Nat.lt_of_lt_of_le (has_lt h) hc.1.2
  have := hc.2 pc (List.mem_range.2 hlt)
  unfold okAt at this
  rw [imp_iff] at this
  have := this (by simpa using has_ne h)
  refine ⟨d.machine.getD pc 0, ?_⟩
  split at this
  · cases this
  · rename_i l hl
    simp only [Bool.and_eq_true, decide_eq_true_eq, List.all_eq_true] at this
    refine ⟨l, getD_eq _ _ hlt, rfl, hl, this.1.1, this.1.2, ?_⟩
    have := this.2 a (by rcases ha with rfl | rfl | rfl <;> simp)
    rw [imp_iff] at this
    exact this h

theorem Abs.cases {N a : Nat} {s : St} (h : Abs N a s) : a = 1 ∨ a = 2 ∨ a = 4 := by
  rcases h with ⟨h, _⟩ | ⟨h, _⟩ | ⟨h, _⟩ <;> simp [h]

theorem afterMatch_mach (d : Decoder) (c : List Nat) (cb : List Call → Int) (data : List UInt8)
    (hN : data.length < 2 ^ 64) (hc : check d c = true) (op l a : Nat) (s0 s : St)
    (hmach : d.machine[s0.pc]? = some op) (hopl : opLen op = some l) (hneed : need op ≤ l)
    (hend : s0.pc + l ≤ d.machine.length) (hhas : has c s0.pc a = true)
    (hok : okOp d c (rets d c) s0.pc op l a = true)
    (hm : Matched data.length s0 s) (hany : isAny op = true → s.cons = false)
    (hcons : ∀ t, isAny op = false → d.machine[s0.pc + 1]? = some t → s.cons = consBit t)
    (hjs : ∀ r ∈ s0.jstk, r ∈ rets d c) (htr : TraceOK d data.length s0.trace)
    (hop : op ∈ leafOps ∨ op ∈ jumpOps) :
    MachOk d data.length (CInv d c data.length) (afterMatch d cb data op l s) := by
  obtain ⟨h1, h2, h3, h4, h5⟩ := hm.inv
  have hpc := hm.pc
  have hjs' : ∀ r ∈ s.jstk, r ∈ rets d c := by rw [hm.jstk]; exact hjs
  have htr' : TraceOK d data.length s.trace := by rw [hm.trace]; exact htr
  unfold afterMatch
  by_cases hleaf : op ∈ leafOps
  · rw [if_pos hleaf]
    have hnd := leaf_need hleaf hneed
    unfold okOp at hok
    dsimp only at hok
    rw [if_pos (by simpa using hleaf)] at hok
    simp only [Bool.and_eq_true, imp_iff, decide_eq_true_eq, Bool.not_eq_true'] at hok
    obtain ⟨⟨⟨⟨⟨k1, k2⟩, k3⟩, k4⟩, k5⟩, k6⟩ := hok
    have hcons' : s.cons = true → has c (s.pc + l) 2 = true ∧ isAct op = false := by
      intro hc1
      rw [hpc]
      cases hA : isAny op with
      | true => rw [hany hA] at hc1; cases hc1
      | false =>
        have hl := hnd.2.1 hA
        have := hcons _ hA (getD_eq d.machine (s0.pc + 1) (by omega))
        rw [hc1] at this
        exact k5 ⟨hA, this.symm⟩
    have hact : isAct op = true → s.pc + (if isAny op then 1 else 2) < d.machine.length ∧
        d.machine.getD (s.pc + (if isAny op then 1 else 2)) 0 < d.nact := by
      intro hA
      have := hnd.2.2 hA
      rw [hpc]
      exact ⟨by omega, k6 hA⟩
    unfold leafOp
    split
    · rename_i hci
      rcases findIndef_spec data s.datalen h2 (by omega) (s.datalen + 1) s.dp 1 h1 (by omega) with e | ⟨e, he, h6, h7⟩
      · rw [e]; exact htr'
      · rw [he]
        exact leafAct_mach d c cb _ op l _ (by rw [hpc]; exact k4) hcons' hact hm.tdp
          (fun _ => by dsimp only; omega) (.inl (by dsimp only; omega)) hjs' htr'
    · rename_i hci
      have hfin : s.cons = false → s.dp + s.len ≤ data.length := by
        intro h
        have := hm.fin (by rw [h] at hci; simpa using hci)
        omega
      refine leafAct_mach d c cb _ op l _ (by rw [hpc]; exact k4) hcons' hact hm.tdp hfin ?_ hjs' htr'
      cases hi : s.indef with
      | false => have := hm.fin hi; left; omega
      | true => have := hm.inf hi; right; omega
  · rw [if_neg hleaf]
    have hj : op ∈ jumpOps := hop.resolve_left hleaf
    rw [if_pos hj]
    have hnd := jump_need hj hneed
    unfold okOp at hok
    dsimp only at hok
    rw [if_neg (by simpa using hleaf), if_pos (by simpa using hj)] at hok
    simp only [Bool.and_eq_true, imp_iff] at hok
    obtain ⟨⟨⟨⟨k1, k2⟩, k3⟩, k4⟩, k5⟩ := hok
    unfold jumpOp
    split
    · exact htr'
    · rw [hpc, getD_eq d.machine (s0.pc + 2) (by omega)]
      dsimp only
      refine ⟨?_, ?_, htr'⟩
      · cases hi : s.indef with
        | false =>
          have := hm.fin hi
          have := hm.tdp
          exact ⟨1, k4, .inl ⟨rfl, by dsimp only; omega⟩⟩
        | true =>
          have := hm.inf hi
          exact ⟨2, k5, .inr (.inl ⟨rfl, by dsimp only; omega⟩)⟩
      · intro r hr
        rcases List.mem_cons.1 hr with rfl | hr
        · have hlt : s0.pc < d.machine.length := by omega
          have e := getD_eq d.machine s0.pc hlt
          rw [hmach] at e
          injection e with e
          unfold rets
          refine List.mem_map.2 ⟨s0.pc, List.mem_filter.2 ⟨List.mem_range.2 hlt, ?_⟩, ?_⟩
          · rw [← e]
            simp only [Bool.and_eq_true, bne_iff_ne]
            exact ⟨has_ne hhas, by simpa using hj⟩
          · rw [← e, hopl]; rfl
        · exact hjs' r hr

/-- One round of a checked program: no access out of range, and the invariant is kept. -/
theorem step_mach (d : Decoder) (c : List Nat) (cb : List Call → Int) (data : List UInt8)
    (hN : data.length < 2 ^ 64) (hc : check d c = true) (s : St) (hs : MInv d c data.length s) :
    MachOk d data.length (MInv d c data.length) (step d cb data s) := by
  have hmain : MachOk d data.length (CInv d c data.length) (step d cb data s) := by
    obtain ⟨hd, ⟨a, hhas, habs⟩, hjs, htr⟩ := hs
    obtain ⟨op, l, hmach, hgd, hopl, hneed, hend, hok⟩ := check_at hc hhas habs.cases
    unfold step
    rw [hmach]
    dsimp only
    rw [hopl]
    dsimp only
    rw [if_neg (by omega)]
    unfold exec
    by_cases hlj : op ∈ leafOps ∨ op ∈ jumpOps
    · have hle : op ≤ 0x1b := by
        rcases hlj with h | h
        · exact (leaf_need h hneed).1
        · exact (jump_need h hneed).1
      rw [if_pos hle]
      have hm := matchOp_spec d data hN op l s hd
      generalize matchOp d data op l s = r at hm ⊢
      have k : (isCond op = true → a ≠ 4 → has c (s.pc + l) a = true) ∧
          (isSkip op = true → a = 1 → has c (s.pc + l) 1 = true) ∧
          (isSkip op = true → isAny op = false → has c (s.pc + l) (if a = 1 then 1 else 4) = true) := by
        have hok' := hok
        unfold okOp at hok'
        dsimp only at hok'
        by_cases hleaf : op ∈ leafOps
        · rw [if_pos (by simpa using hleaf)] at hok'
          simp only [Bool.and_eq_true, imp_iff, decide_eq_true_eq, Bool.not_eq_true', bne_iff_ne, beq_iff_eq] at hok'
          obtain ⟨⟨⟨⟨⟨k1, k2⟩, k3⟩, k4⟩, k5⟩, k6⟩ := hok'
          exact ⟨fun h h' => k1 ⟨h, h'⟩, fun h h' => k2 ⟨h, h'⟩, fun h h' => k3 ⟨h, h'⟩⟩
        · rw [if_neg (by simpa using hleaf), if_pos (by simpa using hlj.resolve_left hleaf)] at hok'
          simp only [Bool.and_eq_true, imp_iff, Bool.not_eq_true', bne_iff_ne, beq_iff_eq] at hok'
          obtain ⟨⟨⟨⟨k1, k2⟩, k3⟩, k4⟩, k5⟩ := hok'
          exact ⟨fun h h' => k1 ⟨h, h'⟩, fun h h' => k2 ⟨h, h'⟩, fun h h' => k3 ⟨h, h'⟩⟩
      cases r with
      | skip s' =>
        exact ⟨skip_abs d c _ op l a s s' hm.1 habs hm.2 k.1 k.2.1 k.2.2,
          by rw [hm.1.jstk]; exact hjs, by rw [hm.1.trace]; exact htr⟩
      | go s' =>
        exact afterMatch_mach d c cb data hN hc op l a s s' hmach hopl hneed hend hhas hok hm.1
          hm.2.2.1 hm.2.2.2 hjs htr hlj
      | err => exact htr
      | dataFault => exact hm
      | machFault =>
        exfalso
        have hl2 : 2 ≤ l := by
          rcases hlj with h | h
          · exact (leaf_need h hneed).2.1 hm.1
          · have := (jump_need h hneed).2.2.2; omega
        have h2 : d.machine[s.pc + 1]? = none := hm.2
        rw [getD_eq d.machine (s.pc + 1) (by omega)] at h2
        cases h2
    · have hnl : ¬ op ∈ leafOps := fun h => hlj (.inl h)
      have hnj : ¬ op ∈ jumpOps := fun h => hlj (.inr h)
      unfold okOp at hok
      dsimp only at hok
      rw [if_neg (by simpa using hnl), if_neg (by simpa using hnj)] at hok
      by_cases he : op ∈ endOps
      · have hnd := end_need he hneed
        rw [if_neg hnd.1, if_pos he]
        rw [if_pos (by simpa using he)] at hok
        simp only [Bool.and_eq_true, imp_iff, decide_eq_true_eq] at hok
        obtain ⟨⟨k1, k2⟩, k3⟩ := hok
        refine endOp_mach d c cb data hN op l s hd k1 (fun h => ⟨?_, k3 h⟩) (fun h => ⟨?_, k2 h⟩) hjs htr
        · have := hnd.2.2 h; omega
        · have := hnd.2.1 h; omega
      · rw [if_neg (by simpa using he)] at hok
        unfold ctlOp
        dsimp only
        by_cases h1c : op = 0x1c
        · rw [if_neg (by omega), if_neg he, if_pos h1c]
          rw [if_pos h1c] at hok
          split
          · rename_i hmt
            refine ⟨⟨a, ?_, ?_⟩, hjs, htr⟩
            · rw [imp_iff] at hok
              refine hok ?_
              rw [bne_iff_ne]
              rintro rfl
              rcases habs with ⟨h, _⟩ | ⟨h, _⟩ | ⟨_, _, h⟩
              · cases h
              · cases h
              · rw [hmt] at h; cases h
            · exact habs
          · exact htr
        · rw [if_neg h1c] at hok
          by_cases h1d : op = 0x1d
          · rw [if_neg (by omega), if_neg he, if_neg h1c, if_pos h1d]
            split <;> exact htr
          · rw [if_neg h1d] at hok
            by_cases h1e : op = 0x1e ∨ op = 0x1f
            · rw [if_pos h1e] at hok
              simp only [Bool.and_eq_true, decide_eq_true_eq, beq_iff_eq] at hok
              obtain ⟨⟨rfl, k2⟩, k3⟩ := hok
              have hslice : s.tdp + s.len ≤ data.length := by
                rcases habs with ⟨_, h⟩ | ⟨h, _⟩ | ⟨h, _⟩
                · exact h
                · cases h
                · cases h
              have hl2 : 2 ≤ l := by
                have : need op = 2 := by rcases h1e with rfl | rfl <;> rfl
                omega
              rw [if_neg (by omega), if_neg he, if_neg h1c, if_neg h1d]
              split
              · exact ⟨⟨1, k3, .inl ⟨rfl, hslice⟩⟩, hjs, htr⟩
              · exact callAct_mach d cb _ s _ _ _ _ _ _ (by omega) k2 hslice htr
                  (fun tr ht => ⟨⟨1, k3, .inl ⟨rfl, hslice⟩⟩, hjs, ht⟩)
            · rw [if_neg h1e] at hok
              by_cases h28 : op = 0x28
              · rw [if_pos h28] at hok
                simp only [List.all_eq_true] at hok
                rw [if_neg (by omega), if_neg he, if_neg h1c, if_neg h1d, if_neg (by omega), if_neg h1e, if_pos h28]
                cases hj : s.jstk with
                | nil => exact htr
                | cons r rest =>
                  dsimp only
                  have hr := hok r (hjs r (by rw [hj]; simp))
                  refine ⟨?_, ?_, htr⟩
                  · rcases habs with ⟨rfl, h⟩ | ⟨rfl, h⟩ | ⟨rfl, h, _⟩
                    · exact ⟨1, hr, .inl ⟨rfl, h⟩⟩
                    · exact ⟨2, hr, .inr (.inl ⟨rfl, h⟩)⟩
                    · exact ⟨2, hr, .inr (.inl ⟨rfl, h⟩)⟩
                  · intro r' hr'
                    exact hjs r' (by rw [hj]; exact List.mem_cons_of_mem _ hr')
              · rw [if_neg h28] at hok
                cases hok
  have hdata := step_data d cb data hN s hs.data
  have := hmain.of_data hdata
  generalize step d cb data s = r at this ⊢
  cases r with
  | next s' => exact ⟨this.2, this.1.abs, this.1.js, this.1.tr⟩
  | halt r s => exact this
  | dataFault => exact this
  | machFault => exact this

theorem start_minv (d : Decoder) (c : List Nat) (hc : check d c = true) (data : List UInt8) :
    MInv d c data.length (start data) := by
  refine ⟨start_inv data, ⟨1, ?_, .inl ⟨rfl, Nat.zero_le _⟩⟩, ?_, ?_⟩
  · unfold check at hc
    simp only [Bool.and_eq_true] at hc
    exact hc.1.1
  · intro r hr; cases hr
  · intro r hr; cases hr

theorem run_mach (d : Decoder) (c : List Nat) (cb : List Call → Int) (data : List UInt8)
    (hN : data.length < 2 ^ 64) (hc : check d c = true) (n : Nat) (s : St) (hs : MInv d c data.length s) :
    MachOk d data.length (MInv d c data.length) (run d cb data n s) := by
  induction n generalizing s with
  | zero => exact hs
  | succ n ih =>
    unfold run
    have := step_mach d c cb data hN hc s hs
    generalize step d cb data s = r at this ⊢
    cases r with
    | next s' => exact ih s' this
    | halt r s => exact this
    | dataFault => exact this
    | machFault => exact this

end LC.Asn1
