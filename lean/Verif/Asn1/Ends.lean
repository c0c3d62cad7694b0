import Verif.Asn1.Props
/-!
# C73: constructed elements end where their header says
-/
namespace LC.Asn1

theorem endAct_next {d : Decoder} {cb : List Call → Int} {op l : Nat} {s s' : St} (h : endAct d cb op l s = .next s') :
    s'.cstk = s.cstk ∧ s'.dp = s.dp ∧ s'.datalen = s.datalen ∧
      (isEndAct op = true → ∃ act, s'.trace = ⟨act, s.hdr, 0, s.tdp, s.len⟩ :: s.trace) := by
  unfold endAct at h
  dsimp only at h
  by_cases hc : isEndAct op = true
  · rw [if_pos hc] at h
    unfold callAct at h
    cases hm : d.machine[s.pc + if isOf op = true then 2 else 1]? with
    | none => rw [hm] at h; cases h
    | some act =>
      rw [hm] at h
      dsimp only at h
      by_cases ha : act ≥ d.nact
      · rw [if_pos ha] at h; cases h
      · rw [if_neg ha] at h
        by_cases hr : cb (⟨act, s.hdr, 0, s.tdp, s.len⟩ :: s.trace) < 0
        · rw [if_pos hr] at h; cases h
        · rw [if_neg hr] at h; cases h; exact ⟨rfl, rfl, rfl, fun _ => ⟨act, rfl⟩⟩
  · rw [if_neg hc] at h; cases h; exact ⟨rfl, rfl, rfl, fun h => absurd h hc⟩

theorem endContinue_next {d : Decoder} {s s' : St} (h : endContinue d s = .next s') :
    s'.cstk = s.cstk ∧ s'.dp = s.dp ∧ s'.datalen = s.datalen ∧ d.machine[s.pc + 1]? = some s'.pc := by
  unfold endContinue at h
  cases hm : d.machine[s.pc + 1]? with
  | none => rw [hm] at h; cases h
  | some t => rw [hm] at h; cases h; exact ⟨rfl, rfl, rfl, rfl⟩

/-- **C73.** Whenever the decoder executes an end instruction inside an element whose content ends at
`s.datalen` (definite length) and goes on, then either it stands exactly at that end, goes back to the
enclosing element, and an action gets exactly the content; or the element is a SEQUENCE OF or SET OF
with content left, and the next item is decoded inside the same element.  For every bytecode, state
and callback. -/
theorem end_definite (d : Decoder) (cb : List Call → Int) (data : List UInt8) (s s' : St) (op tdp dl hdr : Nat) (rest : List (Nat × Nat × Nat))
    (hop : d.machine[s.pc]? = some op) (he : op ∈ endOps) (hs : s.cstk = (tdp, dl, hdr) :: rest) (hdl : dl ≠ 0)
    (hstep : step d cb data s = .next s') :
    (s.dp = s.datalen ∧ s'.dp = s.dp ∧ s'.cstk = rest ∧ s'.datalen = dl ∧
      (isEndAct op = true → ∃ act, s'.trace = ⟨act, hdr, 0, tdp, wsub s.datalen tdp⟩ :: s.trace)) ∨
    (isOf op = true ∧ s.dp < s.datalen ∧ s'.dp = s.dp ∧ s'.cstk = s.cstk ∧ s'.datalen = s.datalen ∧ d.machine[s.pc + 1]? = some s'.pc) := by
  unfold step at hstep
  rw [hop] at hstep
  dsimp only at hstep
  cases hl : opLen op with
  | none => rw [hl] at hstep; cases hstep
  | some l =>
    rw [hl] at hstep
    dsimp only at hstep
    by_cases hb : s.pc + l > d.machine.length
    · rw [if_pos hb] at hstep; cases hstep
    · rw [if_neg hb] at hstep
      unfold exec at hstep
      have h1 : ¬ op ≤ 0x1b := by
        have : ∀ x ∈ endOps, ¬ x ≤ 0x1b := by decide
        exact this op he
      rw [if_neg h1, if_pos he] at hstep
      unfold endOp at hstep
      by_cases hm : (op = 0x21 ∨ op = 0x25) ∧ (! s.matched) = true
      · rw [if_pos hm] at hstep; cases hstep
      · rw [if_neg hm, hs] at hstep
        dsimp only at hstep
        rw [if_neg hdl] at hstep
        unfold endDef at hstep
        dsimp only at hstep
        by_cases hc : s.dp < s.datalen ∧ isOf op = true
        · rw [if_pos hc] at hstep
          obtain ⟨a1, a2, a3, a4⟩ := endContinue_next hstep
          right
          exact ⟨hc.2, hc.1, a2, a1.trans hs.symm, a3, a4⟩
        · rw [if_neg hc] at hstep
          by_cases hd : s.dp ≠ s.datalen
          · rw [if_pos hd] at hstep; cases hstep
          · rw [if_neg hd] at hstep
            obtain ⟨a1, a2, a3, a4⟩ := endAct_next hstep
            left
            exact ⟨Decidable.not_not.mp hd, a2, a1, a3, a4⟩

/-- **C73.** The same for indefinite length: the element is left only over its end-of-contents
octets, which are consumed. -/
theorem end_indefinite (d : Decoder) (cb : List Call → Int) (data : List UInt8) (s s' : St) (op tdp hdr : Nat) (rest : List (Nat × Nat × Nat))
    (hop : d.machine[s.pc]? = some op) (he : op ∈ endOps) (hs : s.cstk = (tdp, 0, hdr) :: rest)
    (hstep : step d cb data s = .next s') :
    (data[s.dp]? = some 0 ∧ data[s.dp + 1]? = some 0 ∧ s'.dp = s.dp + 2 ∧ s'.cstk = rest ∧ s'.datalen = s.datalen) ∨
    (isOf op = true ∧ (∃ b, data[s.dp]? = some b ∧ b ≠ 0) ∧ s'.dp = s.dp ∧ s'.cstk = s.cstk ∧ s'.datalen = s.datalen ∧
      d.machine[s.pc + 1]? = some s'.pc) := by
  have byte0 : ∀ b : UInt8, ¬ b.toNat ≠ 0 → b = 0 := fun b h => by
    have h0 : b.toNat = 0 := Decidable.not_not.mp h
    exact UInt8.toNat_inj.mp h0
  unfold step at hstep
  rw [hop] at hstep
  dsimp only at hstep
  cases hl : opLen op with
  | none => rw [hl] at hstep; cases hstep
  | some l =>
    rw [hl] at hstep
    dsimp only at hstep
    by_cases hb : s.pc + l > d.machine.length
    · rw [if_pos hb] at hstep; cases hstep
    · rw [if_neg hb] at hstep
      unfold exec at hstep
      have h1 : ¬ op ≤ 0x1b := by
        have : ∀ x ∈ endOps, ¬ x ≤ 0x1b := by decide
        exact this op he
      rw [if_neg h1, if_pos he] at hstep
      unfold endOp at hstep
      by_cases hm : (op = 0x21 ∨ op = 0x25) ∧ (! s.matched) = true
      · rw [if_pos hm] at hstep; cases hstep
      · rw [if_neg hm, hs] at hstep
        dsimp only at hstep
        rw [if_pos rfl] at hstep
        unfold endIndef at hstep
        dsimp only at hstep
        by_cases hw : wsub s.datalen s.dp < 2
        · rw [if_pos hw] at hstep; cases hstep
        · rw [if_neg hw] at hstep
          cases h2 : data[s.dp]? with
          | none => rw [h2] at hstep; cases hstep
          | some b =>
            rw [h2] at hstep
            dsimp only at hstep
            by_cases hbz : b.toNat ≠ 0
            · rw [if_pos hbz] at hstep
              by_cases ho : isOf op = true
              · rw [if_pos ho] at hstep
                obtain ⟨a1, a2, a3, a4⟩ := endContinue_next hstep
                right
                exact ⟨ho, ⟨b, rfl, fun h => hbz (by rw [h]; rfl)⟩, a2, a1.trans hs.symm, a3, a4⟩
              · rw [if_neg ho] at hstep; cases hstep
            · rw [if_neg hbz] at hstep
              cases h3 : data[s.dp + 1]? with
              | none => rw [h3] at hstep; cases hstep
              | some z =>
                rw [h3] at hstep
                dsimp only at hstep
                by_cases hz : z.toNat ≠ 0
                · rw [if_pos hz] at hstep; cases hstep
                · rw [if_neg hz] at hstep
                  obtain ⟨a1, a2, a3, a4⟩ := endAct_next hstep
                  left
                  exact ⟨by rw [byte0 b hbz], by rw [byte0 z hz], a2, a1, a3⟩

/-- **C73.** The decoder succeeds only at the instruction for completion, with no element open. -/
theorem accept_closed (d : Decoder) (cb : List Call → Int) (data : List UInt8) (s s' : St) (hcb : ∀ t, cb t ≤ 0)
    (hstep : step d cb data s = .halt 0 s') : d.machine[s.pc]? = some 0x1d ∧ s.cstk = [] ∧ s.jstk = [] := by
  have hact : ∀ s i tag off len k, callAct d cb s i tag off len k ≠ .halt 0 s' := by
    intro s i tag off len k h
    unfold callAct at h
    cases hm : d.machine[s.pc + i]? with
    | none => rw [hm] at h; cases h
    | some act =>
      rw [hm] at h
      dsimp only at h
      by_cases ha : act ≥ d.nact
      · rw [if_pos ha] at h; cases h
      · rw [if_neg ha] at h
        split at h
        · rename_i hlt
          injection h with h0
          omega
        · cases h
  have hbad : ∀ s : St, (Res.halt (-EBADMSG) s) ≠ .halt 0 s' := fun s h => by
    injection h with h0; revert h0; decide
  unfold step at hstep
  cases hop : d.machine[s.pc]? with
  | none => rw [hop] at hstep; exact absurd hstep (hbad _)
  | some op =>
    rw [hop] at hstep
    dsimp only at hstep
    cases hl : opLen op with
    | none => rw [hl] at hstep; cases hstep
    | some l =>
      rw [hl] at hstep
      dsimp only at hstep
      split at hstep
      · exact absurd hstep (hbad _)
      · unfold exec at hstep
        split at hstep
        · -- match
          unfold matchCont at hstep
          split at hstep
          · cases hstep
          · unfold afterMatch at hstep
            split at hstep
            · have hleaf : ∀ s, leafAct d cb op l s ≠ .halt 0 s' := by
                intro s h
                unfold leafAct at h
                dsimp only at h
                split at h
                · exact hact _ _ _ _ _ _ h
                · cases h
              unfold leafOp at hstep
              split at hstep
              · split at hstep
                · exact absurd hstep (hleaf _)
                · exact absurd hstep (hbad _)
                · cases hstep
                · cases hstep
              · exact absurd hstep (hleaf _)
            · split at hstep
              · unfold jumpOp at hstep
                split at hstep
                · exact absurd hstep (hbad _)
                · split at hstep
                  · cases hstep
                  · cases hstep
              · exact absurd hstep (hbad _)
          · exact absurd hstep (hbad _)
          · cases hstep
          · cases hstep
        · split at hstep
          · -- end
            have hend : ∀ s, endAct d cb op l s ≠ .halt 0 s' := by
              intro s h
              unfold endAct at h
              dsimp only at h
              split at h
              · exact hact _ _ _ _ _ _ h
              · cases h
            have hcont : ∀ s, endContinue d s ≠ .halt 0 s' := by
              intro s h
              unfold endContinue at h
              split at h <;> cases h
            unfold endOp at hstep
            split at hstep
            · exact absurd hstep (hbad _)
            · split at hstep
              · exact absurd hstep (hbad _)
              · dsimp only at hstep
                split at hstep
                · unfold endIndef at hstep
                  split at hstep
                  · exact absurd hstep (hbad _)
                  · split at hstep
                    · cases hstep
                    · split at hstep
                      · split at hstep
                        · exact absurd hstep (hcont _)
                        · exact absurd hstep (hbad _)
                      · split at hstep
                        · cases hstep
                        · split at hstep
                          · exact absurd hstep (hbad _)
                          · exact absurd hstep (hend _)
                · unfold endDef at hstep
                  split at hstep
                  · exact absurd hstep (hcont _)
                  · split at hstep
                    · exact absurd hstep (hbad _)
                    · exact absurd hstep (hend _)
          · unfold ctlOp at hstep
            dsimp only at hstep
            split at hstep
            · split at hstep
              · cases hstep
              · exact absurd hstep (hbad _)
            · split at hstep
              · rename_i hop'
                split at hstep
                · exact absurd hstep (hbad _)
                · rename_i hne
                  exact ⟨by rw [hop'], List.eq_nil_of_length_eq_zero (Decidable.byContradiction fun h => hne (Or.inr h)),
                    List.eq_nil_of_length_eq_zero (Decidable.byContradiction fun h => hne (Or.inl h))⟩
              · split at hstep
                · cases hstep
                · split at hstep
                  · exact absurd hstep (hact _ _ _ _ _ _)
                  · split at hstep
                    · split at hstep
                      · exact absurd hstep (hbad _)
                      · cases hstep
                    · exact absurd hstep (hbad _)

/-- One byte of content too many, one too few, and the right length in a SEQUENCE of one INTEGER. -/
example : ([[0x30, 0x03, 0x02, 0x01, 0x07], [0x30, 0x04, 0x02, 0x01, 0x07, 0x00], [0x30, 0x02, 0x02, 0x01, 0x07]] : List (List UInt8)).map
    (fun x => (outcome (decode { machine := [0x00, 0x30, 0x00, 0x02, 0x20, 0x1d], nact := 0 } (fun _ => 0) x 9)).map Prod.fst) =
    [some 0, some (-74), some (-74)] := by decide +kernel

end LC.Asn1
