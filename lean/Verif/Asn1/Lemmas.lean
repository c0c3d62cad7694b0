import Verif.Asn1.Model
/-
Invariants of the BER decoder.
-/
namespace LC.Asn1

theorem wsub_eq {a b : Nat} (h : b ≤ a) (ha : a < 2 ^ 64) : wsub a b = a - b := by
  unfold wsub; omega

/-! ### Input accesses -/

theorem get_some {data : List UInt8} {i : Nat} (h : i < data.length) : ∃ b, data[i]? = some b :=
  ⟨data[i], List.getElem?_eq_getElem h⟩

theorem readLen_spec (data : List UInt8) (n dp len : Nat) (h : dp + n ≤ data.length) :
    ∃ l, readLen data n dp len = some (l, dp + n) := by
  induction n generalizing dp len with
  | zero => exact ⟨len, rfl⟩
  | succ n ih =>
    obtain ⟨b, hb⟩ := get_some (data := data) (i := dp) (by omega)
    obtain ⟨l, hl⟩ := ih (dp + 1) (len * 256 + b.toNat) (by omega)
    refine ⟨l, ?_⟩
    unfold readLen
    rw [hb]
    dsimp only
    rw [hl]
    congr 2
    omega

theorem longTag_spec (data : List UInt8) (dl : Nat) (hd : dl ≤ data.length) (hN : dl < 2 ^ 64)
    (fuel dp : Nat) (h : dp ≤ dl) (hf : dl - dp < fuel) :
    longTag data dl fuel dp = .err ∨ ∃ dp', longTag data dl fuel dp = .ok dp' ∧ dp < dp' ∧ dp' < dl := by
  induction fuel generalizing dp with
  | zero => omega
  | succ fuel ih =>
    unfold longTag
    rw [wsub_eq h hN]
    by_cases h2 : dl - dp < 2
    · rw [if_pos h2]; exact .inl rfl
    · rw [if_neg h2]
      obtain ⟨b, hb⟩ := get_some (data := data) (i := dp) (by omega)
      rw [hb]
      dsimp only
      split
      · rcases ih (dp + 1) (by omega) (by omega) with e | ⟨dp', e, h1, h3⟩
        · exact .inl e
        · exact .inr ⟨dp', e, by omega, h3⟩
      · exact .inr ⟨dp + 1, rfl, by omega, by omega⟩

/-- The length octets are inside, and so is what they announce. -/
theorem indefLen_spec (data : List UInt8) (dl : Nat) (hd : dl ≤ data.length) (hN : dl < 2 ^ 64)
    (tag dp : Nat) (h : dp < dl) :
    indefLen data dl tag dp = .err ∨
    (∃ dp', indefLen data dl tag dp = .skip dp' ∧ dp < dp' ∧ dp' ≤ dl) ∨
    (∃ dp', indefLen data dl tag dp = .indef dp' ∧ dp < dp' ∧ dp' ≤ dl) := by
  unfold indefLen
  obtain ⟨b, hb⟩ := get_some (data := data) (i := dp) (by omega)
  rw [hb]
  dsimp only
  rw [wsub_eq (by omega : dp + 1 ≤ dl) hN]
  by_cases h1 : b.toNat ≤ 0x7f
  · rw [if_pos h1]
    split
    · exact .inl rfl
    · exact .inr (.inl ⟨_, rfl, by omega, by omega⟩)
  · rw [if_neg h1]
    by_cases h2 : b.toNat = 0x80
    · rw [if_pos h2]
      split
      · exact .inr (.inr ⟨_, rfl, by omega, by omega⟩)
      · exact .inl rfl
    · rw [if_neg h2]
      split
      · exact .inl rfl
      · split
        · exact .inl rfl
        · obtain ⟨l, hl⟩ := readLen_spec data (b.toNat - 0x80) (dp + 1) 0 (by omega)
          rw [hl]
          dsimp only
          rw [wsub_eq (by omega) hN]
          split
          · exact .inl rfl
          · exact .inr (.inl ⟨_, rfl, by omega, by omega⟩)

theorem indefCont_spec (dl : Nat) (go : Nat → Nat → IRes) (level dp : Nat) (r : LRes)
    (hr : r = .err ∨ (∃ dp', r = .skip dp' ∧ dp < dp' ∧ dp' ≤ dl) ∨
      (∃ dp', r = .indef dp' ∧ dp < dp' ∧ dp' ≤ dl))
    (hg : ∀ dp' lv, dp < dp' → dp' ≤ dl → go dp' lv = .err ∨ ∃ e, go dp' lv = .ok e ∧ dp < e ∧ e ≤ dl) :
    indefCont go level r = .err ∨ ∃ e, indefCont go level r = .ok e ∧ dp < e ∧ e ≤ dl := by
  rcases hr with rfl | ⟨dp', rfl, h1, h2⟩ | ⟨dp', rfl, h1, h2⟩
  · exact .inl rfl
  · exact hg _ _ h1 h2
  · exact hg _ _ h1 h2

/-- The search for the end-of-contents octets never leaves the data, always finishes, and what it
finds is behind the starting point and inside the data. -/
theorem findIndef_spec (data : List UInt8) (dl : Nat) (hd : dl ≤ data.length) (hN : dl < 2 ^ 64)
    (fuel dp level : Nat) (h : dp ≤ dl) (hf : dl - dp < fuel) :
    findIndef data dl fuel dp level = .err ∨
    ∃ e, findIndef data dl fuel dp level = .ok e ∧ dp < e ∧ e ≤ dl := by
  induction fuel generalizing dp level with
  | zero => omega
  | succ fuel ih =>
    unfold findIndef
    rw [wsub_eq h hN]
    by_cases h2 : dl - dp < 2
    · rw [if_pos h2]; exact .inl rfl
    · rw [if_neg h2]
      obtain ⟨t, ht⟩ := get_some (data := data) (i := dp) (by omega)
      rw [ht]
      dsimp only
      split
      · obtain ⟨z, hz⟩ := get_some (data := data) (i := dp + 1) (by omega)
        rw [hz]
        dsimp only
        split
        · exact .inl rfl
        · split
          · exact .inr ⟨_, rfl, by omega, by omega⟩
          · rcases ih (dp + 2) (level - 1) (by omega) (by omega) with e | ⟨e, he, h3, h4⟩
            · exact .inl e
            · exact .inr ⟨e, he, by omega, h4⟩
      · have hgo : ∀ dp' lv, dp < dp' → dp' ≤ dl → findIndef data dl fuel dp' lv = .err ∨
            ∃ e, findIndef data dl fuel dp' lv = .ok e ∧ dp < e ∧ e ≤ dl := by
          intro dp' lv h3 h4
          rcases ih dp' lv h4 (by omega) with e | ⟨e, he, h5, h6⟩
          · exact .inl e
          · exact .inr ⟨e, he, by omega, h6⟩
        have hlen : ∀ q, dp < q → q < dl → _ := fun q h3 h4 =>
          indefCont_spec dl (findIndef data dl fuel) level dp (indefLen data dl t.toNat q)
            (by
              rcases indefLen_spec data dl hd hN t.toNat q h4 with e | ⟨e, he, h5, h6⟩ | ⟨e, he, h5, h6⟩
              · exact .inl e
              · exact .inr (.inl ⟨e, he, by omega, h6⟩)
              · exact .inr (.inr ⟨e, he, by omega, h6⟩)) hgo
        unfold indefTag
        split
        · rcases longTag_spec data dl hd hN (dl + 1) (dp + 1) (by omega) (by omega) with e | ⟨q, e, h3, h4⟩
          · rw [e]; exact .inl rfl
          · rw [e]; exact hlen q (by omega) h4
        · exact hlen (dp + 1) (by omega) (by omega)

/-! ### The data invariant -/

/-- The saved constructed types: content starts before the position; a saved limit (0: indefinite
length) encloses the present one. -/
def StackOK (N dp : Nat) : Nat → List (Nat × Nat × Nat) → Prop
  | _, [] => True
  | dl, (t, sd, _) :: rest =>
    t ≤ dp ∧ (if sd = 0 then StackOK N dp dl rest else dl ≤ sd ∧ sd ≤ N ∧ StackOK N dp sd rest)

theorem StackOK.mono {N dp dp' : Nat} (h : dp ≤ dp') {l : List (Nat × Nat × Nat)} {dl : Nat}
    (hs : StackOK N dp dl l) : StackOK N dp' dl l := by
  induction l generalizing dl with
  | nil => trivial
  | cons e l ih =>
    obtain ⟨t, sd, hd⟩ := e
    unfold StackOK at hs ⊢
    refine ⟨by omega, ?_⟩
    split
    · rename_i h0
      rw [if_pos h0] at hs
      exact ih hs.2
    · rename_i h0
      rw [if_neg h0] at hs
      exact ⟨hs.2.1, hs.2.2.1, ih hs.2.2.2⟩

structure DInv (N : Nat) (s : St) : Prop where
  dp : s.dp ≤ s.datalen
  dl : s.datalen ≤ N
  stk : StackOK N s.dp s.datalen s.cstk
  csp : s.cstk.length ≤ 10
  jsp : s.jstk.length ≤ 10

/-- What a successful tag match leaves behind. -/
structure Matched (N : Nat) (s s' : St) : Prop where
  inv : DInv N s'
  pc : s'.pc = s.pc
  jstk : s'.jstk = s.jstk
  trace : s'.trace = s.trace
  dp : s.dp + 2 ≤ s'.dp
  tdp : s'.tdp = s'.dp
  matched : s'.matched = true
  fin : s'.indef = false → s'.dp + s'.len ≤ s'.datalen
  inf : s'.indef = true → s'.dp + 2 ≤ s'.datalen

def MOk (P : St → Prop) : MRes → Prop
  | .go s => P s
  | .err => True
  | _ => False

theorem pushCons_spec (N : Nat) (s0 s : St) (hd : DInv N s) (hpc : s.pc = s0.pc) (hj : s.jstk = s0.jstk)
    (ht : s.trace = s0.trace) (hdp : s0.dp + 2 ≤ s.dp) (hm : s.matched = true)
    (hf : s.indef = false → s.dp + s.len ≤ s.datalen) (hi : s.indef = true → s.dp + 2 ≤ s.datalen) :
    MOk (fun s' => Matched N s0 s' ∧ s'.cons = s.cons) (pushCons s) := by
  obtain ⟨h1, h2, h3, h4, h5⟩ := hd
  unfold pushCons
  split
  · split
    · trivial
    · split
      · rename_i hin
        refine ⟨⟨⟨h1, h2, ⟨Nat.le_refl _, by rw [if_pos rfl]; exact h3⟩, by simp; omega, h5⟩, hpc, hj, ht, hdp,
          rfl, hm, ?_, ?_⟩, rfl⟩
        · intro h; exact absurd (h.symm.trans hin) (by decide)
        · intro _; exact hi hin
      · rename_i hin
        have hin' : s.indef = false := by simpa using hin
        have := hf hin'
        refine ⟨⟨⟨by dsimp only; omega, by dsimp only; omega, ⟨Nat.le_refl _, ?_⟩, by simp; omega, h5⟩,
          hpc, hj, ht, hdp, rfl, hm, ?_, ?_⟩, rfl⟩
        · dsimp only
          rw [if_neg (by omega)]
          exact ⟨this, h2, h3⟩
        · intro _; exact Nat.le_refl _
        · intro h; exact absurd (hin'.symm.trans h) (by decide)
  · exact ⟨⟨⟨h1, h2, h3, h4, h5⟩, hpc, hj, ht, hdp, rfl, hm, hf, hi⟩, rfl⟩

/-- `s` has the tag consumed (`dp` one further than in `s0`). -/
theorem matchLen_spec (data : List UInt8) (hN : data.length < 2 ^ 64) (s0 s : St)
    (hd : DInv data.length s) (hpc : s.pc = s0.pc) (hj : s.jstk = s0.jstk)
    (ht : s.trace = s0.trace) (hdp : s.dp = s0.dp + 1) (hlt : s.dp < s.datalen) (hm : s.matched = true)
    (hin : s.indef = false) :
    MOk (fun s' => Matched data.length s0 s' ∧ s'.cons = s.cons) (matchLen data s) := by
  obtain ⟨h1, h2, h3, h4, h5⟩ := hd
  unfold matchLen
  obtain ⟨b, hb⟩ := get_some (data := data) (i := s.dp) (by omega)
  rw [hb]
  dsimp only
  rw [wsub_eq (by omega : s.dp + 1 ≤ s.datalen) (by omega)]
  split
  · split
    · split
      · trivial
      · split
        · trivial
        · refine pushCons_spec _ s0 _ ⟨?_, h2, h3.mono (by dsimp only; omega), h4, h5⟩ hpc hj ht ?_ hm ?_ ?_
          · dsimp only; omega
          · dsimp only; omega
          · intro h; cases h
          · intro _; dsimp only; omega
    · generalize b.toNat - 0x80 = n
      rcases Nat.lt_or_ge 3 n with hn3 | hn3
      · rw [if_pos hn3]; exact True.intro
      · rw [if_neg (Nat.not_lt.2 hn3)]
        rcases Nat.lt_or_ge (s.datalen - (s.dp + 1)) n with hn4 | hn4
        · rw [if_pos hn4]; exact True.intro
        · rw [if_neg (Nat.not_lt.2 hn4)]
          obtain ⟨l, hl⟩ := readLen_spec data n (s.dp + 1) 0 (by omega)
          rw [hl]
          dsimp only
          rw [wsub_eq (by omega) (by omega)]
          split
          · trivial
          · refine pushCons_spec _ s0 _ ⟨?_, h2, h3.mono (by dsimp only; omega), h4, h5⟩ hpc hj ht ?_ hm ?_ ?_
            · dsimp only; omega
            · dsimp only; omega
            · intro _; dsimp only; omega
            · intro h; exact absurd (hin.symm.trans h) (by decide)
  · split
    · trivial
    · refine pushCons_spec _ s0 _ ⟨?_, h2, h3.mono (by dsimp only; omega), h4, h5⟩ hpc hj ht ?_ hm ?_ ?_
      · dsimp only; omega
      · dsimp only; omega
      · intro _; dsimp only; omega
      · intro h; exact absurd (hin.symm.trans h) (by decide)

/-- What a skipped match leaves: everything but the flags, the header length and the tag. -/
structure Skipped (s s' : St) (l : Nat) : Prop where
  pc : s'.pc = s.pc + l
  dp : s'.dp = s.dp
  tdp : s'.tdp = s.tdp
  len : s'.len = s.len
  datalen : s'.datalen = s.datalen
  cstk : s'.cstk = s.cstk
  jstk : s'.jstk = s.jstk
  trace : s'.trace = s.trace

/-- The specification of the tag matching part. -/
def MatchSpec (d : Decoder) (N op l : Nat) (s : St) : MRes → Prop
  | .skip s' => Skipped s s' l ∧
      ((s'.matched = s.matched ∧
          ((isCond op = true ∧ s.matched = true) ∨ (isSkip op = true ∧ s.dp = s.datalen))) ∨
       (isSkip op = true ∧ isAny op = false ∧ s.dp < s.datalen ∧ s'.matched = false))
  | .go s' => Matched N s s' ∧ s.dp + 2 ≤ s.datalen ∧
      (isAny op = true → s'.cons = false) ∧
      (∀ t, isAny op = false → d.machine[s.pc + 1]? = some t → s'.cons = consBit t)
  | .err => True
  | .dataFault => False
  | .machFault => isAny op = false ∧ d.machine[s.pc + 1]? = none

theorem matchOp_spec (d : Decoder) (data : List UInt8) (hN : data.length < 2 ^ 64) (op l : Nat) (s : St)
    (hd : DInv data.length s) : MatchSpec d data.length op l s (matchOp d data op l s) := by
  have hd' := hd
  obtain ⟨h1, h2, h3, h4, h5⟩ := hd
  unfold matchOp
  split
  · rename_i hc
    refine ⟨⟨rfl, rfl, rfl, rfl, rfl, rfl, rfl, rfl⟩, .inl ⟨rfl, ?_⟩⟩
    simpa using hc
  · rw [wsub_eq h1 (by omega)]
    split
    · trivial
    · obtain ⟨b, hb⟩ := get_some (data := data) (i := s.dp) (by omega)
      rw [hb]
      dsimp only
      split
      · trivial
      · unfold matchTag
        dsimp only
        split
        · rename_i hany
          have := matchLen_spec data hN s { s with indef := false, matched := true, last := false, cons := false, hdr := 2, tag := b.toNat, dp := s.dp + 1 }
            ⟨by dsimp only; omega, h2, h3.mono (by dsimp only; omega), h4, h5⟩ rfl rfl rfl rfl
            (by dsimp only; omega) rfl rfl
          generalize matchLen data _ = r at this ⊢
          cases r <;> simp only [MOk] at this <;> try trivial
          refine ⟨this.1, by omega, fun _ => this.2, fun t h => ?_⟩
          rw [hany] at h; cases h
        · rename_i hany
          have hany' : isAny op = false := by simpa using hany
          split
          · rename_i hnone
            exact ⟨hany', hnone⟩
          · rename_i t htag
            split
            · split
              · rename_i hsk
                exact ⟨⟨rfl, rfl, rfl, rfl, rfl, rfl, rfl, rfl⟩, .inr ⟨hsk, hany', by omega, rfl⟩⟩
              · trivial
            · have := matchLen_spec data hN s { s with indef := false, matched := true, last := false, cons := consBit t, hdr := 2, tag := b.toNat, dp := s.dp + 1 }
                ⟨by dsimp only; omega, h2, h3.mono (by dsimp only; omega), h4, h5⟩ rfl rfl rfl rfl
                (by dsimp only; omega) rfl rfl
              generalize matchLen data _ = r at this ⊢
              cases r <;> simp only [MOk] at this <;> try trivial
              refine ⟨this.1, by omega, fun h => ?_, fun t' _ h => ?_⟩
              · rw [hany'] at h; cases h
              · rw [this.2]
                have : t = t' := by
                  have h' : d.machine[s.pc + 1]? = some t' := h
                  rw [htag] at h'; injection h'
                rw [this]

/-! ### Data safety of a step, for any bytecode -/

/-- No access outside the input; the next state satisfies `P`. -/
def DOk (P : St → Prop) : Res → Prop
  | .next s => P s
  | .dataFault => False
  | _ => True

theorem callAct_data (d : Decoder) (cb : List Call → Int) (s : St) (i tag off len : Nat) (k : St → St)
    (P : St → Prop) (h : ∀ tr, P (k { s with trace := tr })) : DOk P (callAct d cb s i tag off len k) := by
  unfold callAct
  split
  · trivial
  · split
    · trivial
    · dsimp only
      split
      · trivial
      · exact h _

theorem leafAct_data (N : Nat) (d : Decoder) (cb : List Call → Int) (op l : Nat) (s : St) (hd : DInv N s)
    (hlen : s.cons = false → s.dp + s.len ≤ s.datalen) : DOk (DInv N) (leafAct d cb op l s) := by
  obtain ⟨h1, h2, h3, h4, h5⟩ := hd
  have key : ∀ tr, DInv N { s with trace := tr, dp := if s.cons then s.dp else s.dp + s.len, pc := s.pc + l } := by
    intro tr
    cases hc : s.cons with
    | true => exact ⟨h1, h2, h3, h4, h5⟩
    | false =>
      have := hlen hc
      exact ⟨by simp; omega, h2, h3.mono (by simp), h4, h5⟩
  unfold leafAct
  dsimp only
  split
  · exact callAct_data d cb s _ _ _ _ _ _ key
  · exact key s.trace

theorem endAct_data (N : Nat) (d : Decoder) (cb : List Call → Int) (op l : Nat) (s : St) (hd : DInv N s) :
    DOk (DInv N) (endAct d cb op l s) := by
  obtain ⟨h1, h2, h3, h4, h5⟩ := hd
  unfold endAct
  dsimp only
  split
  · exact callAct_data d cb s _ _ _ _ _ _ (fun tr => ⟨h1, h2, h3, h4, h5⟩)
  · exact ⟨h1, h2, h3, h4, h5⟩

theorem endContinue_data (N : Nat) (d : Decoder) (s : St) (hd : DInv N s) :
    DOk (DInv N) (endContinue d s) := by
  obtain ⟨h1, h2, h3, h4, h5⟩ := hd
  unfold endContinue
  split
  · trivial
  · exact ⟨h1, h2, h3, h4, h5⟩

theorem endOp_data (d : Decoder) (cb : List Call → Int) (data : List UInt8) (hN : data.length < 2 ^ 64)
    (op l : Nat) (s : St) (hd : DInv data.length s) : DOk (DInv data.length) (endOp d cb data op l s) := by
  have hd' := hd
  obtain ⟨h1, h2, h3, h4, h5⟩ := hd
  unfold endOp
  split
  · trivial
  · cases hs : s.cstk with
    | nil => trivial
    | cons e rest =>
      obtain ⟨tdp, dl, hdr⟩ := e
      dsimp only
      rw [hs] at h3 h4
      have hold : ∀ a b c, DInv data.length { s with tdp := a, hdr := b, len := c } :=
        fun a b c => ⟨h1, h2, by dsimp only; rw [hs]; exact h3, by dsimp only; rw [hs]; exact h4, h5⟩
      unfold StackOK at h3
      simp only [List.length_cons] at h4
      split
      · rename_i h0
        rw [if_pos h0] at h3
        unfold endIndef
        dsimp only
        rw [wsub_eq h1 (by omega)]
        split
        · trivial
        · obtain ⟨b, hb⟩ := get_some (data := data) (i := s.dp) (by omega)
          obtain ⟨z, hz⟩ := get_some (data := data) (i := s.dp + 1) (by omega)
          rw [hb]
          dsimp only
          split
          · split
            · have := endContinue_data data.length d { s with tdp := tdp, hdr := hdr, len := s.datalen }
                (hold _ _ _)
              rw [hs] at this
              exact this
            · trivial
          · rw [hz]
            dsimp only
            split
            · trivial
            · refine endAct_data _ d cb op l _ ⟨?_, h2, h3.2.mono ?_, ?_, h5⟩ <;> dsimp only <;> omega
      · rename_i h0
        rw [if_neg h0] at h3
        unfold endDef
        dsimp only
        split
        · have := endContinue_data data.length d { s with tdp := tdp, hdr := hdr, len := s.datalen }
            (hold _ _ _)
          rw [hs] at this
          exact this
        · split
          · trivial
          · refine endAct_data _ d cb op l _ ⟨?_, h3.2.2.1, h3.2.2.2, ?_, h5⟩ <;> dsimp only <;> omega

theorem ctlOp_data (N : Nat) (d : Decoder) (cb : List Call → Int) (op l : Nat) (s : St) (hd : DInv N s) :
    DOk (DInv N) (ctlOp d cb op l s) := by
  obtain ⟨h1, h2, h3, h4, h5⟩ := hd
  unfold ctlOp
  dsimp only
  split
  · split
    · exact ⟨h1, h2, h3, h4, h5⟩
    · trivial
  · split
    · split <;> trivial
    · split
      · exact ⟨h1, h2, h3, h4, h5⟩
      · split
        · exact callAct_data d cb s _ _ _ _ _ _ (fun tr => ⟨h1, h2, h3, h4, h5⟩)
        · split
          · cases hj : s.jstk with
            | nil => trivial
            | cons r rest =>
              rw [hj] at h5
              simp only [List.length_cons] at h5
              exact ⟨h1, h2, h3, h4, by dsimp only; omega⟩
          · trivial

theorem afterMatch_data (d : Decoder) (cb : List Call → Int) (data : List UInt8) (hN : data.length < 2 ^ 64)
    (op l : Nat) (s0 s : St) (hm : Matched data.length s0 s) :
    DOk (DInv data.length) (afterMatch d cb data op l s) := by
  obtain ⟨h1, h2, h3, h4, h5⟩ := hm.inv
  unfold afterMatch
  split
  · unfold leafOp
    split
    · rename_i hc
      rcases findIndef_spec data s.datalen h2 (by omega) (s.datalen + 1) s.dp 1 h1 (by omega) with e | ⟨e, he, h6, h7⟩
      · rw [e]; trivial
      · rw [he]
        exact leafAct_data _ d cb op l _ ⟨h1, h2, h3, h4, h5⟩ (fun _ => by dsimp only; omega)
    · rename_i hc
      refine leafAct_data _ d cb op l _ ⟨h1, h2, h3, h4, h5⟩ (fun h => hm.fin ?_)
      rw [h] at hc
      simpa using hc
  · split
    · unfold jumpOp
      split
      · trivial
      · split
        · trivial
        · refine ⟨h1, h2, h3, h4, ?_⟩
          simp only [List.length_cons]
          omega
    · trivial

/-- One round of the decoder never reads outside the input, whatever the bytecode is, and keeps the
data invariant. -/
theorem step_data (d : Decoder) (cb : List Call → Int) (data : List UInt8) (hN : data.length < 2 ^ 64)
    (s : St) (hd : DInv data.length s) : DOk (DInv data.length) (step d cb data s) := by
  unfold step
  split
  · trivial
  · rename_i op hop
    split
    · trivial
    · rename_i l hl
      split
      · trivial
      · unfold exec
        split
        · have := matchOp_spec d data hN op l s hd
          generalize matchOp d data op l s = r at this ⊢
          cases r with
          | skip s' =>
            obtain ⟨hs, _⟩ := this
            obtain ⟨h1, h2, h3, h4, h5⟩ := hd
            exact ⟨by rw [hs.dp, hs.datalen]; exact h1, by rw [hs.datalen]; exact h2,
              by rw [hs.dp, hs.datalen, hs.cstk]; exact h3, by rw [hs.cstk]; exact h4,
              by rw [hs.jstk]; exact h5⟩
          | go s' => exact afterMatch_data d cb data hN op l s s' this.1
          | err => trivial
          | dataFault => exact this
          | machFault => trivial
        · split
          · exact endOp_data d cb data hN op l s hd
          · exact ctlOp_data _ d cb op l s hd

theorem start_inv (data : List UInt8) : DInv data.length (start data) :=
  ⟨Nat.zero_le _, Nat.le_refl _, trivial, Nat.zero_le _, Nat.zero_le _⟩

theorem run_data (d : Decoder) (cb : List Call → Int) (data : List UInt8) (hN : data.length < 2 ^ 64)
    (n : Nat) (s : St) (hd : DInv data.length s) : DOk (DInv data.length) (run d cb data n s) := by
  induction n generalizing s with
  | zero => exact hd
  | succ n ih =>
    unfold run
    have := step_data d cb data hN s hd
    generalize step d cb data s = r at this ⊢
    cases r with
    | next s' => exact ih s' this
    | halt r s => trivial
    | dataFault => exact this
    | machFault => trivial

end LC.Asn1
