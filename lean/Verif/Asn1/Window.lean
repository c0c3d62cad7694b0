import Verif.Asn1.Nest
/-
A decoder run inside a window of its input.  As long as the constructed type that fills the window is open, the decoder reads nothing
outside of it: the run on the whole input is the run on the window alone, with all positions shifted (`step_win`).
-/
namespace LC.Asn1.Win
open LC.Asn1

set_option maxRecDepth 8000

/-- An entry of the stack of constructed types, shifted. -/
def she (b : Nat) (e : Nat × Nat × Nat) : Nat × Nat × Nat := (b + e.1, if e.2.1 = 0 then 0 else b + e.2.1, e.2.2)

/-- A call, shifted. -/
def shc (b : Nat) (c : Call) : Call := { c with off := b + c.off }

/-- A state, shifted, with further open types `bot` below its own. -/
def sh (b : Nat) (bot : List (Nat × Nat × Nat)) (L : Nat) (T : List Call) (c : St) : St :=
  { c with dp := b + c.dp, tdp := b + c.tdp, datalen := b + c.datalen, len := L, cstk := c.cstk.map (she b) ++ bot, trace := T }

/-- The window is the part of the data at `b`. -/
def IsWin (data : List UInt8) (b : Nat) (W : List UInt8) : Prop := ∀ i, i < W.length → data[b + i]? = W[i]?

theorem wsub_sh (b x y : Nat) : wsub (b + x) (b + y) = wsub x y := by
  unfold wsub
  congr 1
  omega

theorem readLen_sh {data : List UInt8} {b : Nat} {W : List UInt8} (hW : IsWin data b W) : ∀ (n dp len : Nat), dp + n ≤ W.length →
    readLen data n (b + dp) len = (readLen W n dp len).map fun r => (r.1, b + r.2)
  | 0, dp, len, _ => rfl
  | n + 1, dp, len, h => by
    unfold readLen
    rw [hW dp (by omega)]
    cases W[dp]? with
    | none => rfl
    | some x => exact readLen_sh hW n (dp + 1) _ (by omega)

def shI (b : Nat) : IRes → IRes
  | .ok dp => .ok (b + dp)
  | r => r

def shL (b : Nat) : LRes → LRes
  | .skip dp => .skip (b + dp)
  | .indef dp => .indef (b + dp)
  | r => r

theorem longTag_sh {data : List UInt8} {b : Nat} {W : List UInt8} (hW : IsWin data b W) (dl : Nat) (hd : dl ≤ W.length) (hN : dl < 2 ^ 64) :
    ∀ (f f' dp : Nat), dp ≤ dl → f ≤ f' → longTag W dl f dp ≠ .fuel → longTag data (b + dl) f' (b + dp) = shI b (longTag W dl f dp)
  | 0, _, _, _, _, h => absurd rfl h
  | f + 1, 0, _, _, h, _ => absurd h (by omega)
  | f + 1, f' + 1, dp, h1, h2, h => by
    unfold longTag at h ⊢
    rw [wsub_sh]
    by_cases h3 : wsub dl dp < 2
    · rw [if_pos h3, if_pos h3]; rfl
    · rw [if_neg h3] at h ⊢
      rw [if_neg h3]
      rw [wsub_eq h1 hN] at h3
      rw [hW dp (by omega)]
      cases hx : W[dp]? with
      | none => rfl
      | some x =>
        rw [hx] at h
        dsimp only at h ⊢
        split
        · rename_i h4
          rw [if_pos h4] at h
          exact longTag_sh hW dl hd hN f f' (dp + 1) (by omega) (by omega) h
        · rfl

theorem indefLen_sh {data : List UInt8} {b : Nat} {W : List UInt8} (hW : IsWin data b W) (dl : Nat) (hd : dl ≤ W.length) (hN : dl < 2 ^ 64)
    (tag dp : Nat) (h : dp < dl) : indefLen data (b + dl) tag (b + dp) = shL b (indefLen W dl tag dp) := by
  unfold indefLen
  rw [hW dp (by omega)]
  cases W[dp]? with
  | none => rfl
  | some x =>
    dsimp only
    have e1 : b + dp + 1 = b + (dp + 1) := rfl
    rw [e1, wsub_sh]
    split
    · split
      · rfl
      · exact congrArg LRes.skip (by omega)
    · split
      · split <;> rfl
      · split
        · rfl
        · split
          · rfl
          · rename_i h4
            rw [wsub_eq (by omega) hN] at h4
            rw [readLen_sh hW _ _ _ (by omega)]
            cases readLen W (x.toNat - 0x80) (dp + 1) 0 with
            | none => rfl
            | some r =>
              dsimp only [Option.map]
              rw [wsub_sh]
              split
              · rfl
              · exact congrArg LRes.skip (by omega)

theorem findIndef_sh {data : List UInt8} {b : Nat} {W : List UInt8} (hW : IsWin data b W) (dl : Nat) (hd : dl ≤ W.length) (hN : dl < 2 ^ 64) :
    ∀ (f f' dp lv : Nat), dp ≤ dl → dl - dp < f → f ≤ f' → findIndef data (b + dl) f' (b + dp) lv = shI b (findIndef W dl f dp lv)
  | 0, _, _, _, _, h, _ => absurd h (by omega)
  | f + 1, 0, _, _, _, _, h => absurd h (by omega)
  | f + 1, f' + 1, dp, lv, h1, h0, h2 => by
    unfold findIndef
    rw [wsub_sh]
    by_cases h3 : wsub dl dp < 2
    · rw [if_pos h3, if_pos h3]; rfl
    · rw [if_neg h3, if_neg h3]
      rw [wsub_eq h1 hN] at h3
      rw [hW dp (by omega)]
      cases hx : W[dp]? with
      | none => rfl
      | some x =>
        dsimp only
        split
        · have e1 : b + dp + 1 = b + (dp + 1) := rfl
          rw [e1, hW (dp + 1) (by omega)]
          cases W[dp + 1]? with
          | none => rfl
          | some z =>
            dsimp only
            split
            · rfl
            · split
              · rfl
              · exact findIndef_sh hW dl hd hN f f' (dp + 2) (lv - 1) (by omega) (by omega) (by omega)
        · have key : ∀ q, dp < q → q < dl → indefCont (findIndef data (b + dl) f') lv (indefLen data (b + dl) x.toNat (b + q)) =
              shI b (indefCont (findIndef W dl f) lv (indefLen W dl x.toNat q)) := by
            intro q h4 h5
            rw [indefLen_sh hW dl hd hN _ _ h5]
            rcases indefLen_spec W dl hd hN x.toNat q h5 with e | ⟨e, he, h6, h7⟩ | ⟨e, he, h6, h7⟩
            · rw [e]; rfl
            · rw [he]
              exact findIndef_sh hW dl hd hN f f' e lv (by omega) (by omega) (by omega)
            · rw [he]
              exact findIndef_sh hW dl hd hN f f' e (lv + 1) (by omega) (by omega) (by omega)
          unfold indefTag
          split
          · have e1 : b + dp + 1 = b + (dp + 1) := rfl
            rcases longTag_spec W dl hd hN (dl + 1) (dp + 1) (by omega) (by omega) with e | ⟨q, e, h4, h5⟩
            · rw [e1, longTag_sh hW dl hd hN (dl + 1) (b + dl + 1) (dp + 1) (by omega) (by omega) (by rw [e]; intro h; cases h), e]
              rfl
            · rw [e1, longTag_sh hW dl hd hN (dl + 1) (b + dl + 1) (dp + 1) (by omega) (by omega) (by rw [e]; intro h; cases h), e]
              exact key q (by omega) h5
          · exact key (dp + 1) (by omega) (by omega)

/-! ### What is kept -/

/-- The limit that holds when all types on the stack have ended. -/
def topDl : Nat → List (Nat × Nat × Nat) → Nat
  | dl, [] => dl
  | dl, (_, sd, _) :: rest => if sd = 0 then topDl dl rest else topDl sd rest

structure CInv (E : Nat) (c : St) : Prop where
  pos : 0 < c.dp
  hdr : c.hdr ≤ c.tdp
  two : 2 ≤ c.tdp
  stk : ∀ e ∈ c.cstk, e.2.2 ≤ e.1 ∧ 2 ≤ e.1
  chain : topDl c.datalen c.cstk = E

def MSh (b : Nat) (bot : List (Nat × Nat × Nat)) (E L : Nat) (T : List Call) (c : St) : MRes → MRes → Prop
  | .skip s', q => ∃ c', q = .skip c' ∧ s' = sh b bot L T c' ∧ CInv E c' ∧ c'.dp = c.dp ∧ c'.len = c.len ∧ c'.trace = c.trace
  | .go s', q => ∃ c', q = .go c' ∧ s' = sh b bot c'.len T c' ∧ CInv E c' ∧ c'.trace = c.trace
  | _, _ => True

def PSh (b : Nat) (bot : List (Nat × Nat × Nat)) (E : Nat) (T : List Call) (tr : List Call) : MRes → MRes → Prop
  | .skip _, _ => False
  | .go s', q => ∃ c', q = .go c' ∧ s' = sh b bot c'.len T c' ∧ CInv E c' ∧ c'.trace = tr
  | _, _ => True

theorem PSh.msh {b : Nat} {bot : List (Nat × Nat × Nat)} {E L : Nat} {T : List Call} {c : St} {x y : MRes}
    (h : PSh b bot E T c.trace x y) : MSh b bot E L T c x y := by
  cases x with
  | skip _ => exact h.elim
  | go s => exact h
  | _ => trivial

theorem pushCons_sh (b : Nat) (bot : List (Nat × Nat × Nat)) (E : Nat) (T : List Call) (c : St) (hp : 0 < c.datalen) (h1 : c.hdr ≤ c.dp)
    (h2 : 2 ≤ c.dp) (hs : ∀ e ∈ c.cstk, e.2.2 ≤ e.1 ∧ 2 ≤ e.1) (hc : topDl c.datalen c.cstk = E) :
    PSh b bot E T c.trace (pushCons (sh b bot c.len T c)) (pushCons c) := by
  have hst : ∀ x, ∀ e ∈ (c.dp, x, c.hdr) :: c.cstk, e.2.2 ≤ e.1 ∧ 2 ≤ e.1 := by
    intro x e he
    rcases List.mem_cons.mp he with rfl | he
    · exact ⟨h1, h2⟩
    · exact hs e he
  unfold pushCons
  by_cases hcn : c.cons = true
  · rw [if_pos (show (sh b bot c.len T c).cons = true from hcn), if_pos hcn]
    by_cases h10 : (sh b bot c.len T c).cstk.length ≥ 10
    · rw [if_pos h10]; trivial
    · rw [if_neg h10, if_neg (show ¬ c.cstk.length ≥ 10 by unfold sh at h10; rw [List.length_append, List.length_map] at h10; omega)]
      by_cases hi : c.indef = true
      · rw [if_pos (show (sh b bot c.len T c).indef = true from hi), if_pos hi]
        exact ⟨_, rfl, rfl, ⟨by show 0 < c.dp; omega, h1, h2, hst 0, hc⟩, rfl⟩
      · rw [if_neg (show ¬ (sh b bot c.len T c).indef = true from hi), if_neg hi]
        refine ⟨_, rfl, ?_, ⟨by show 0 < c.dp; omega, h1, h2, hst _, ?_⟩, rfl⟩
        · have e : she b (c.dp, c.datalen, c.hdr) = (b + c.dp, b + c.datalen, c.hdr) := by
            unfold she
            dsimp only
            rw [if_neg (by omega)]
          unfold sh
          dsimp only [List.map]
          rw [e, Nat.add_assoc]
          rfl
        · show topDl (c.dp + c.len) ((c.dp, c.datalen, c.hdr) :: c.cstk) = E
          unfold topDl
          rw [if_neg (by omega)]
          exact hc
  · rw [if_neg (show ¬ (sh b bot c.len T c).cons = true from hcn), if_neg hcn]
    exact ⟨_, rfl, rfl, ⟨by show 0 < c.dp; omega, h1, h2, hs, hc⟩, rfl⟩

theorem matchLen_sh {data : List UInt8} {b : Nat} {W : List UInt8} (hW : IsWin data b W) (hN : W.length < 2 ^ 64)
    (bot : List (Nat × Nat × Nat)) (E L : Nat) (T : List Call) (c : St) (hl : c.dp < c.datalen) (hd : c.datalen ≤ W.length) (hh : c.hdr = 2)
    (h1 : 1 ≤ c.dp) (hs : ∀ e ∈ c.cstk, e.2.2 ≤ e.1 ∧ 2 ≤ e.1) (hc : topDl c.datalen c.cstk = E) :
    PSh b bot E T c.trace (matchLen data (sh b bot L T c)) (matchLen W c) := by
  unfold matchLen
  have e0 : (sh b bot L T c).dp = b + c.dp := rfl
  have e1 : (sh b bot L T c).datalen = b + c.datalen := rfl
  have e2 : (sh b bot L T c).tag = c.tag := rfl
  have e3 : b + c.dp + 1 = b + (c.dp + 1) := rfl
  rw [e0, e1, e2, e3, hW c.dp (by omega)]
  cases W[c.dp]? with
  | none => trivial
  | some x =>
    dsimp only
    rw [wsub_sh]
    by_cases h3 : x.toNat > 0x7f
    · rw [if_pos h3, if_pos h3]
      by_cases h4 : x.toNat = 0x80
      · rw [if_pos h4, if_pos h4]
        split
        · trivial
        · split
          · trivial
          · exact pushCons_sh b bot E T { c with dp := c.dp + 1, len := x.toNat, indef := true } (by show 0 < c.datalen; omega)
              (by show c.hdr ≤ c.dp + 1; omega) (by show 2 ≤ c.dp + 1; omega) hs hc
      · rw [if_neg h4, if_neg h4]
        generalize x.toNat - 0x80 = n
        split
        · trivial
        · split
          · trivial
          · rename_i h5
            rw [wsub_eq (by omega) (by omega)] at h5
            rw [readLen_sh hW _ _ _ (by omega)]
            have hrl := readLen_spec W n (c.dp + 1) 0 (by omega)
            obtain ⟨l, hl'⟩ := hrl
            rw [hl']
            dsimp only [Option.map]
            rw [wsub_sh]
            split
            · trivial
            · exact pushCons_sh b bot E T { c with dp := c.dp + 1 + n, len := l, hdr := c.hdr + n } (by show 0 < c.datalen; omega)
                (by show c.hdr + n ≤ c.dp + 1 + n; omega) (by show 2 ≤ c.dp + 1 + n; omega) hs hc
    · rw [if_neg h3, if_neg h3]
      split
      · trivial
      · exact pushCons_sh b bot E T { c with dp := c.dp + 1, len := x.toNat } (by show 0 < c.datalen; omega)
          (by show c.hdr ≤ c.dp + 1; omega) (by show 2 ≤ c.dp + 1; omega) hs hc

theorem matchOp_sh {data : List UInt8} {b : Nat} {W : List UInt8} (hW : IsWin data b W) (hN : W.length < 2 ^ 64) (d : Decoder)
    (bot : List (Nat × Nat × Nat)) (E L : Nat) (T : List Call) (op l : Nat) (c : St) (hd : DInv W.length c) (hi : CInv E c) :
    MSh b bot E L T c (matchOp d data op l (sh b bot L T c)) (matchOp d W op l c) := by
  have hdp := hd.dp
  have hdl := hd.dl
  obtain ⟨i1, i2, i3, i4, i5⟩ := hi
  unfold matchOp
  have e0 : (sh b bot L T c).dp = b + c.dp := rfl
  have e1 : (sh b bot L T c).datalen = b + c.datalen := rfl
  have e2 : (sh b bot L T c).matched = c.matched := rfl
  have e3 : ((b + c.dp) == (b + c.datalen)) = (c.dp == c.datalen) := by
    rw [Bool.eq_iff_iff, beq_iff_eq, beq_iff_eq]
    omega
  rw [e0, e1, e2, e3]
  by_cases h1 : ((isCond op && c.matched) || (isSkip op && c.dp == c.datalen)) = true
  · rw [if_pos h1, if_pos h1]
    exact ⟨_, rfl, rfl, ⟨i1, i2, i3, i4, i5⟩, rfl, rfl, rfl⟩
  · rw [if_neg h1, if_neg h1, wsub_sh]
    by_cases h2 : wsub c.datalen c.dp < 2
    · rw [if_pos h2]; trivial
    · rw [if_neg h2, if_neg h2]
      rw [wsub_eq hdp (by omega)] at h2
      rw [hW c.dp (by omega)]
      cases W[c.dp]? with
      | none => trivial
      | some t =>
        dsimp only
        split
        · trivial
        · unfold matchTag
          dsimp only
          split
          · exact PSh.msh (c := c) (matchLen_sh hW hN bot E L T
              { c with indef := false, matched := true, last := false, cons := false, hdr := 2, tag := t.toNat, dp := c.dp + 1 }
              (by show c.dp + 1 < c.datalen; omega) hdl rfl (by show 1 ≤ c.dp + 1; omega) i4 i5)
          · have e4 : (sh b bot L T c).pc = c.pc := rfl
            rw [e4]
            cases d.machine[c.pc + 1]? with
            | none => trivial
            | some optag =>
              dsimp only
              split
              · split
                · exact ⟨_, rfl, rfl, ⟨i1, i3, i3, i4, i5⟩, rfl, rfl, rfl⟩
                · trivial
              · exact PSh.msh (c := c) (matchLen_sh hW hN bot E L T
                  { c with indef := false, matched := true, last := false, cons := consBit optag, hdr := 2, tag := t.toNat, dp := c.dp + 1 }
                  (by show c.dp + 1 < c.datalen; omega) hdl rfl (by show 1 ≤ c.dp + 1; omega) i4 i5)

/-! ### One step -/

/-- No call reaches beyond the position. -/
def Low (s : St) : Prop := ∀ x ∈ s.trace, x.off + x.len ≤ s.dp

/-- The state `s` is the state `c` shifted.  The length is different only when it is not meaningful. -/
structure WRel (b : Nat) (bot : List (Nat × Nat × Nat)) (E : Nat) (W : List UInt8) (s c : St) : Prop where
  eq : ∃ L, s = sh b bot L (c.trace.map (shc b)) c ∧ (L = c.len ∨ b + c.dp < L)
  ci : CInv E c
  tr : ∀ x ∈ c.trace, x.hdr ≤ x.off ∧ x.off + x.len ≤ W.length

def SSh (b : Nat) (bot : List (Nat × Nat × Nat)) (E : Nat) (W : List UInt8) : Res → Res → Prop
  | .next s', q => Low s' → ∃ c', q = .next c' ∧ WRel b bot E W s' c'
  | _, _ => True

/-- The actions give the same results. -/
def CbOK (b : Nat) (W : List UInt8) (cb1 cb2 : List Call → Int) (tr : List Call) : Prop :=
  ∀ x : Call, x.hdr ≤ x.off → x.off + x.len ≤ W.length → cb1 (shc b x :: tr.map (shc b)) = cb2 (x :: tr)

theorem callAct_head {d : Decoder} {cb : List Call → Int} {s : St} {i tag off len : Nat} {k : St → St} {s' : St}
    (h : callAct d cb s i tag off len k = .next s') : ∃ act, s' = k { s with trace := ⟨act, s.hdr, tag, off, len⟩ :: s.trace } := by
  unfold callAct at h
  split at h
  · cases h
  · split at h
    · cases h
    · dsimp only at h
      split at h
      · cases h
      · injection h with h
        exact ⟨_, h.symm⟩

theorem callAct_sh {b : Nat} {bot : List (Nat × Nat × Nat)} {E : Nat} {W : List UInt8} (d : Decoder) {cb1 cb2 : List Call → Int} (c : St) (L : Nat)
    (hcb : CbOK b W cb1 cb2 c.trace) (i tag off len : Nat) (k : St → St) (hh : c.hdr ≤ off) (hk : ∀ s, (k s).trace = s.trace)
    (hdp : ∀ T, (k (sh b bot L T c)).dp ≤ b + W.length)
    (hr : ∀ x : Call, x.hdr ≤ x.off → x.off + x.len ≤ W.length →
      WRel b bot E W (k (sh b bot L ((x :: c.trace).map (shc b)) c)) (k { c with trace := x :: c.trace })) :
    SSh b bot E W (callAct d cb1 (sh b bot L (c.trace.map (shc b)) c) i tag (b + off) len k) (callAct d cb2 c i tag off len k) := by
  unfold callAct
  have e0 : (sh b bot L (c.trace.map (shc b)) c).pc = c.pc := rfl
  rw [e0]
  cases d.machine[c.pc + i]? with
  | none => trivial
  | some act =>
    dsimp only
    by_cases h1 : act ≥ d.nact
    · rw [if_pos h1]; trivial
    · rw [if_neg h1, if_neg h1]
      split
      · trivial
      · rename_i hn
        intro hlow
        have hle : off + len ≤ W.length := by
          have h2 := hlow ⟨act, c.hdr, tag, b + off, len⟩ (by rw [hk]; exact List.mem_cons_self)
          have h3 := hdp (⟨act, c.hdr, tag, b + off, len⟩ :: c.trace.map (shc b))
          have h4 : b + off + len ≤ _ := h2
          have h5 : b + off + len ≤ b + W.length := Nat.le_trans h4 h3
          omega
        have hc := hcb ⟨act, c.hdr, tag, off, len⟩ hh hle
        have hn' : ¬ cb2 (⟨act, c.hdr, tag, off, len⟩ :: c.trace) < 0 := by rw [← hc]; exact hn
        rw [if_neg hn']
        exact ⟨_, rfl, hr ⟨act, c.hdr, tag, off, len⟩ hh hle⟩

theorem leafAct_sh {b : Nat} {bot : List (Nat × Nat × Nat)} {E : Nat} {W : List UInt8} (d : Decoder) {cb1 cb2 : List Call → Int} (op l : Nat) (c : St)
    (hcb : CbOK b W cb1 cb2 c.trace) (hd : c.dp ≤ W.length) (hl : c.cons = false → c.dp + c.len ≤ W.length) (ht : c.tdp = c.dp) (hi : CInv E c)
    (htr : ∀ x ∈ c.trace, x.hdr ≤ x.off ∧ x.off + x.len ≤ W.length) :
    SSh b bot E W (leafAct d cb1 op l (sh b bot c.len (c.trace.map (shc b)) c)) (leafAct d cb2 op l c) := by
  obtain ⟨i1, i2, i3, i4, i5⟩ := hi
  have key : ∀ tr : List Call, (∀ x ∈ tr, x.hdr ≤ x.off ∧ x.off + x.len ≤ W.length) →
      WRel b bot E W
        { sh b bot c.len (tr.map (shc b)) c with
          dp := if c.cons then b + c.dp else b + c.dp + c.len, pc := c.pc + l }
        { c with trace := tr, dp := if c.cons then c.dp else c.dp + c.len, pc := c.pc + l } := by
    intro tr htr
    refine ⟨⟨c.len, ?_, .inl rfl⟩, ⟨?_, i2, i3, i4, i5⟩, htr⟩
    · unfold sh
      dsimp only
      cases c.cons with
      | true => rfl
      | false => rw [if_neg (by decide), if_neg (by decide), Nat.add_assoc]
    · show 0 < (if c.cons then c.dp else c.dp + c.len)
      split <;> omega
  unfold leafAct
  dsimp only
  split
  · refine callAct_sh d c c.len hcb _ _ c.dp c.len _ (by omega) (fun _ => rfl) ?_ ?_
    · intro T
      show (if c.cons then b + c.dp else b + c.dp + c.len) ≤ b + W.length
      split
      · omega
      · rename_i h
        have := hl (by simpa using h)
        omega
    · intro x h1 h2
      exact key (x :: c.trace) (fun y hy => by
        rcases List.mem_cons.mp hy with rfl | hy
        · exact ⟨h1, h2⟩
        · exact htr y hy)
  · intro _
    exact ⟨_, rfl, key c.trace htr⟩

theorem afterMatch_sh {data : List UInt8} {b : Nat} {bot : List (Nat × Nat × Nat)} {E : Nat} {W : List UInt8} (hW : IsWin data b W)
    (hN : W.length < 2 ^ 64) (d : Decoder) {cb1 cb2 : List Call → Int} (op l : Nat) (c0 c : St) (hm : Matched W.length c0 c)
    (hcb : CbOK b W cb1 cb2 c.trace) (hi : CInv E c) (htr : ∀ x ∈ c.trace, x.hdr ≤ x.off ∧ x.off + x.len ≤ W.length) :
    SSh b bot E W (afterMatch d cb1 data op l (sh b bot c.len (c.trace.map (shc b)) c)) (afterMatch d cb2 W op l c) := by
  have hdp := hm.inv.dp
  have hdl := hm.inv.dl
  have hinf := hm.inf
  have hfin := hm.fin
  unfold afterMatch
  split
  · unfold leafOp
    have e1 : (sh b bot c.len (c.trace.map (shc b)) c).datalen = b + c.datalen := rfl
    have e2 : (sh b bot c.len (c.trace.map (shc b)) c).dp = b + c.dp := rfl
    by_cases h1 : (!c.cons && c.indef) = true
    · rw [if_pos (show (!(sh b bot c.len (c.trace.map (shc b)) c).cons && (sh b bot c.len (c.trace.map (shc b)) c).indef) = true from h1), if_pos h1, e1, e2,
        findIndef_sh hW c.datalen hdl (by omega) (c.datalen + 1) (b + c.datalen + 1) c.dp 1 hdp (by omega) (by omega)]
      rcases findIndef_spec W c.datalen hdl (by omega) (c.datalen + 1) c.dp 1 hdp (by omega) with e | ⟨e, he, h3, h4⟩
      · rw [e]; trivial
      · rw [he]
        dsimp only [shI]
        have e3 : b + e - (b + c.dp) = e - c.dp := by omega
        rw [e3]
        exact leafAct_sh d op l { c with len := e - c.dp } hcb (by show c.dp ≤ W.length; omega) (fun _ => by show c.dp + (e - c.dp) ≤ W.length; omega) hm.tdp
          ⟨hi.pos, hi.hdr, hi.two, hi.stk, hi.chain⟩ htr
    · rw [if_neg (show ¬ (!(sh b bot c.len (c.trace.map (shc b)) c).cons && (sh b bot c.len (c.trace.map (shc b)) c).indef) = true from h1), if_neg h1]
      refine leafAct_sh d op l c hcb (by omega) (fun h => ?_) hm.tdp hi htr
      have : c.indef = false := by
        rw [h] at h1
        simpa using h1
      have := hfin this
      omega
  · split
    · unfold jumpOp
      by_cases h1 : c.jstk.length = 10
      · rw [if_pos (show (sh b bot c.len (c.trace.map (shc b)) c).jstk.length = 10 from h1)]; trivial
      · rw [if_neg (show ¬ (sh b bot c.len (c.trace.map (shc b)) c).jstk.length = 10 from h1), if_neg h1]
        have e0 : (sh b bot c.len (c.trace.map (shc b)) c).pc = c.pc := rfl
        rw [e0]
        cases d.machine[c.pc + 2]? with
        | none => trivial
        | some t =>
          intro _
          exact ⟨_, rfl, ⟨c.len, rfl, .inl rfl⟩, ⟨hi.pos, hi.hdr, hi.two, hi.stk, hi.chain⟩, htr⟩
    · trivial

theorem endAct_sh {b : Nat} {bot : List (Nat × Nat × Nat)} {E : Nat} {W : List UInt8} (d : Decoder) {cb1 cb2 : List Call → Int} (op l : Nat) (c : St)
    (hcb : CbOK b W cb1 cb2 c.trace) (hd : c.dp ≤ W.length) (hi : CInv E c)
    (htr : ∀ x ∈ c.trace, x.hdr ≤ x.off ∧ x.off + x.len ≤ W.length) :
    SSh b bot E W (endAct d cb1 op l (sh b bot c.len (c.trace.map (shc b)) c)) (endAct d cb2 op l c) := by
  obtain ⟨i1, i2, i3, i4, i5⟩ := hi
  unfold endAct
  dsimp only
  split
  · refine callAct_sh d c c.len hcb _ _ c.tdp c.len _ i2 (fun _ => rfl) ?_ ?_
    · intro T
      show b + c.dp ≤ b + W.length
      omega
    · intro x h1 h2
      refine ⟨⟨c.len, rfl, .inl rfl⟩, ⟨i1, i2, i3, i4, i5⟩, fun y hy => ?_⟩
      rcases List.mem_cons.mp hy with rfl | hy
      · exact ⟨h1, h2⟩
      · exact htr y hy
  · intro _
    exact ⟨_, rfl, ⟨c.len, rfl, .inl rfl⟩, ⟨i1, i2, i3, i4, i5⟩, htr⟩

theorem endContinue_sh {b : Nat} {bot : List (Nat × Nat × Nat)} {E : Nat} {W : List UInt8} (d : Decoder) (c : St) (L : Nat) (hL : b + c.dp < L)
    (hi : CInv E c) (htr : ∀ x ∈ c.trace, x.hdr ≤ x.off ∧ x.off + x.len ≤ W.length) :
    SSh b bot E W (endContinue d (sh b bot L (c.trace.map (shc b)) c)) (endContinue d c) := by
  unfold endContinue
  have e0 : (sh b bot L (c.trace.map (shc b)) c).pc = c.pc := rfl
  rw [e0]
  cases d.machine[c.pc + 1]? with
  | none => trivial
  | some t =>
    intro _
    exact ⟨_, rfl, ⟨L, rfl, .inr hL⟩, ⟨hi.pos, hi.hdr, hi.two, hi.stk, hi.chain⟩, htr⟩

theorem endOp_sh {data : List UInt8} {b : Nat} {bot : List (Nat × Nat × Nat)} {E : Nat} {W : List UInt8} (hW : IsWin data b W)
    (hN : W.length < 2 ^ 64) (d : Decoder) {cb1 cb2 : List Call → Int} (op l : Nat) (c : St) (L : Nat) (hd : DInv W.length c)
    (hne : c.cstk ≠ []) (hcb : CbOK b W cb1 cb2 c.trace) (hi : CInv E c) (htr : ∀ x ∈ c.trace, x.hdr ≤ x.off ∧ x.off + x.len ≤ W.length) :
    SSh b bot E W (endOp d cb1 data op l (sh b bot L (c.trace.map (shc b)) c)) (endOp d cb2 W op l c) := by
  have hdp := hd.dp
  have hdl := hd.dl
  obtain ⟨i1, i2, i3, i4, i5⟩ := hi
  obtain ⟨e, rest, he⟩ : ∃ e rest, c.cstk = e :: rest := by
    cases hc : c.cstk with
    | nil => exact absurd hc hne
    | cons e rest => exact ⟨e, rest, rfl⟩
  obtain ⟨t, dl, h⟩ := e
  obtain ⟨j1, j2⟩ := i4 (t, dl, h) (by rw [he]; exact List.mem_cons_self)
  have j3 : ∀ e ∈ rest, e.2.2 ≤ e.1 ∧ 2 ≤ e.1 := fun e h => i4 e (by rw [he]; exact List.mem_cons_of_mem _ h)
  dsimp only at j1 j2
  unfold endOp
  by_cases h1 : (op = 0x21 ∨ op = 0x25) ∧ (!c.matched) = true
  · rw [if_pos (show (op = 0x21 ∨ op = 0x25) ∧ (!(sh b bot L (c.trace.map (shc b)) c).matched) = true from h1)]; trivial
  · rw [if_neg (show ¬ ((op = 0x21 ∨ op = 0x25) ∧ (!(sh b bot L (c.trace.map (shc b)) c).matched) = true) from h1), if_neg h1]
    have ec : (sh b bot L (c.trace.map (shc b)) c).cstk = (b + t, (if dl = 0 then 0 else b + dl), h) :: (rest.map (she b) ++ bot) := by
      unfold sh
      dsimp only
      rw [he]
      rfl
    rw [ec, he]
    dsimp only
    have eold : CInv E { c with tdp := t, hdr := h, len := c.datalen, cstk := (t, dl, h) :: rest } := ⟨i1, j1, j2, by rw [← he]; exact i4, by rw [← he]; exact i5⟩
    by_cases h2 : dl = 0
    · rw [if_pos h2, if_pos h2, if_pos rfl]
      unfold endIndef
      dsimp only
      have e1 : (sh b bot L (c.trace.map (shc b)) c).datalen = b + c.datalen := rfl
      have e2 : (sh b bot L (c.trace.map (shc b)) c).dp = b + c.dp := rfl
      rw [e1, e2, wsub_sh]
      by_cases h3 : wsub c.datalen c.dp < 2
      · rw [if_pos h3]; trivial
      · rw [if_neg h3, if_neg h3]
        rw [wsub_eq hdp (by omega)] at h3
        rw [hW c.dp (by omega)]
        cases W[c.dp]? with
        | none => trivial
        | some x =>
          dsimp only
          split
          · split
            · have := endContinue_sh (b := b) (bot := bot) (W := W) d { c with tdp := t, hdr := h, len := c.datalen, cstk := (t, dl, h) :: rest } (b + c.datalen)
                (by show b + c.dp < b + c.datalen; omega) eold htr
              have e5 : she b (t, dl, h) = (b + t, 0, h) := by unfold she; dsimp only; rw [if_pos h2]
              unfold sh at this
              dsimp only [List.map] at this
              rw [e5] at this
              exact this
            · trivial
          · have e3 : b + c.dp + 1 = b + (c.dp + 1) := rfl
            rw [e3, hW (c.dp + 1) (by omega)]
            cases W[c.dp + 1]? with
            | none => trivial
            | some z =>
              dsimp only
              split
              · trivial
              · have e4 : wsub (b + c.dp + 2) (b + t + 2) = wsub (c.dp + 2) (t + 2) := wsub_sh b (c.dp + 2) (t + 2)
                rw [e4]
                exact endAct_sh d op l { c with tdp := t, hdr := h, len := wsub (c.dp + 2) (t + 2), cstk := rest, dp := c.dp + 2 } hcb
                  (by show c.dp + 2 ≤ W.length; omega)
                  ⟨by show 0 < c.dp + 2; omega, j1, j2, j3, by rw [he] at i5; unfold topDl at i5; rw [if_pos h2] at i5; exact i5⟩ htr
    · rw [if_neg h2, if_neg h2, if_neg (show ¬ b + dl = 0 by omega)]
      unfold endDef
      dsimp only
      have e1 : (sh b bot L (c.trace.map (shc b)) c).datalen = b + c.datalen := rfl
      have e2 : (sh b bot L (c.trace.map (shc b)) c).dp = b + c.dp := rfl
      rw [e1, e2]
      by_cases h3 : c.dp < c.datalen ∧ isOf op = true
      · rw [if_pos (show b + c.dp < b + c.datalen ∧ isOf op = true from ⟨by omega, h3.2⟩), if_pos h3]
        have := endContinue_sh (b := b) (bot := bot) (W := W) d { c with tdp := t, hdr := h, len := c.datalen, cstk := (t, dl, h) :: rest } (b + c.datalen)
          (by show b + c.dp < b + c.datalen; omega) eold htr
        have e5 : she b (t, dl, h) = (b + t, b + dl, h) := by unfold she; dsimp only; rw [if_neg h2]
        unfold sh at this
        dsimp only [List.map] at this
        rw [e5] at this
        exact this
      · rw [if_neg (show ¬ (b + c.dp < b + c.datalen ∧ isOf op = true) from fun h => h3 ⟨by omega, h.2⟩), if_neg h3]
        by_cases h4 : c.dp ≠ c.datalen
        · rw [if_pos (show b + c.dp ≠ b + c.datalen by omega)]; trivial
        · rw [if_neg (show ¬ b + c.dp ≠ b + c.datalen by omega), if_neg h4, wsub_sh]
          have := endAct_sh (bot := bot) (E := E) d op l { c with tdp := t, hdr := h, len := wsub c.datalen t, cstk := rest, datalen := dl } hcb
            (by show c.dp ≤ W.length; omega)
            ⟨i1, j1, j2, j3, by rw [he] at i5; unfold topDl at i5; rw [if_neg h2] at i5; exact i5⟩ htr
          exact this

theorem ctlOp_sh {b : Nat} {bot : List (Nat × Nat × Nat)} {E : Nat} {W : List UInt8}
    (d : Decoder) {cb1 cb2 : List Call → Int} (op l : Nat) (c : St) (L : Nat) (hL : L = c.len ∨ b + c.dp < L) (hd : DInv W.length c)
    (hcb : CbOK b W cb1 cb2 c.trace) (hi : CInv E c) (htr : ∀ x ∈ c.trace, x.hdr ≤ x.off ∧ x.off + x.len ≤ W.length) :
    SSh b bot E W (ctlOp d cb1 op l (sh b bot L (c.trace.map (shc b)) c)) (ctlOp d cb2 op l c) := by
  have hdp := hd.dp
  have hdl := hd.dl
  obtain ⟨i1, i2, i3, i4, i5⟩ := hi
  have e1 : (sh b bot L (c.trace.map (shc b)) c).matched = c.matched := rfl
  have e2 : (sh b bot L (c.trace.map (shc b)) c).last = c.last := rfl
  have e3 : (sh b bot L (c.trace.map (shc b)) c).jstk = c.jstk := rfl
  have same : ∀ c' : St, c'.trace = c.trace → c'.len = c.len → c'.dp = c.dp → CInv E c' → WRel b bot E W (sh b bot L (c.trace.map (shc b)) c') c' := by
    intro c' k1 k2 k3 k4
    refine ⟨⟨L, by rw [k1], ?_⟩, k4, by rw [k1]; exact htr⟩
    rw [k2, k3]
    exact hL
  unfold ctlOp
  dsimp only
  by_cases h1 : op = 0x1c
  · rw [if_pos h1, if_pos h1, e1]
    split
    · intro _
      exact ⟨_, rfl, same { c with pc := c.pc + l } rfl rfl rfl ⟨i1, i2, i3, i4, i5⟩⟩
    · trivial
  · rw [if_neg h1, if_neg h1]
    by_cases h2 : op = 0x1d
    · rw [if_pos h2]
      split <;> trivial
    · rw [if_neg h2, if_neg h2, e2]
      by_cases h3 : op = 0x1f ∧ (!c.last) = true
      · rw [if_pos h3, if_pos h3]
        intro _
        exact ⟨_, rfl, same { c with pc := c.pc + l } rfl rfl rfl ⟨i1, i2, i3, i4, i5⟩⟩
      · rw [if_neg h3, if_neg h3]
        by_cases h4 : op = 0x1e ∨ op = 0x1f
        · rw [if_pos h4, if_pos h4]
          have hcall : L = c.len → SSh b bot E W (callAct d cb1 (sh b bot L (c.trace.map (shc b)) c) 1 c.tag (b + c.tdp) c.len (fun s => { s with pc := s.pc + l }))
              (callAct d cb2 c 1 c.tag c.tdp c.len (fun s => { s with pc := s.pc + l })) := by
            intro hLe
            refine callAct_sh d c L hcb _ _ c.tdp c.len _ i2 (fun _ => rfl) ?_ ?_
            · intro T
              show b + c.dp ≤ b + W.length
              omega
            · intro x h1 h2
              refine ⟨⟨L, rfl, .inl hLe⟩, ⟨i1, i2, i3, i4, i5⟩, fun y hy => ?_⟩
              rcases List.mem_cons.mp hy with rfl | hy
              · exact ⟨h1, h2⟩
              · exact htr y hy
          rcases hL with hL | hL
          · have := hcall hL
            rw [show c.len = L from hL.symm] at this
            rw [show c.len = L from hL.symm]
            exact this
          · have hno : ∀ s', callAct d cb1 (sh b bot L (c.trace.map (shc b)) c) 1 c.tag (b + c.tdp) L (fun s => { s with pc := s.pc + l }) = .next s' → ¬ Low s' := by
              intro s' h hlow
              obtain ⟨act, hs⟩ := callAct_head h
              have := hlow ⟨act, c.hdr, c.tag, b + c.tdp, L⟩ (by rw [hs]; exact List.mem_cons_self)
              have h5 : s'.dp = b + c.dp := by rw [hs]; rfl
              have h6 : b + c.tdp + L ≤ s'.dp := this
              omega
            show SSh b bot E W (callAct d cb1 (sh b bot L (c.trace.map (shc b)) c) 1 c.tag (b + c.tdp) L (fun s => { s with pc := s.pc + l })) _
            cases hr : callAct d cb1 (sh b bot L (c.trace.map (shc b)) c) 1 c.tag (b + c.tdp) L (fun s => { s with pc := s.pc + l }) with
            | next s' => exact fun hlow => absurd hlow (hno s' hr)
            | _ => trivial
        · rw [if_neg h4, if_neg h4, e3]
          by_cases h5 : op = 0x28
          · rw [if_pos h5, if_pos h5]
            cases c.jstk with
            | nil => trivial
            | cons r rest =>
              intro _
              exact ⟨_, rfl, same { c with pc := r, jstk := rest, matched := true, last := true } rfl rfl rfl ⟨i1, i2, i3, i4, i5⟩⟩
          · rw [if_neg h5]; trivial

/-- The next instruction ends a constructed type, and none is open in the window: the one that fills the window ends. -/
def AtEnd (d : Decoder) (c : St) : Prop := ∃ op, d.machine[c.pc]? = some op ∧ op ∈ endOps ∧ c.cstk = []

theorem step_win {data : List UInt8} {b : Nat} {bot : List (Nat × Nat × Nat)} {E : Nat} {W : List UInt8} (hW : IsWin data b W)
    (hN : W.length < 2 ^ 64) (d : Decoder) {cb1 cb2 : List Call → Int} (s c : St) (hr : WRel b bot E W s c) (hd : DInv W.length c)
    (hne : ¬ AtEnd d c) (hcb : CbOK b W cb1 cb2 c.trace) : SSh b bot E W (step d cb1 data s) (step d cb2 W c) := by
  obtain ⟨⟨L, rfl, hL⟩, hi, htr⟩ := hr
  unfold step
  have e0 : (sh b bot L (c.trace.map (shc b)) c).pc = c.pc := rfl
  rw [e0]
  cases ho : d.machine[c.pc]? with
  | none => trivial
  | some op =>
    dsimp only
    cases opLen op with
    | none => trivial
    | some l =>
      dsimp only
      by_cases h1 : c.pc + l > d.machine.length
      · rw [if_pos h1]; trivial
      · rw [if_neg h1, if_neg h1]
        unfold exec
        by_cases h2 : op ≤ 0x1b
        · rw [if_pos h2, if_pos h2]
          have h3 := matchOp_sh hW hN d bot E L (c.trace.map (shc b)) op l c hd hi
          have h4 := matchOp_spec d W hN op l c hd
          cases hm : matchOp d data op l (sh b bot L (c.trace.map (shc b)) c) with
          | skip s' =>
            rw [hm] at h3
            obtain ⟨c', k1, k2, k3, k4, k5, k6⟩ := h3
            rw [k1]
            intro _
            refine ⟨c', rfl, ⟨L, by rw [k2, k6], by rw [k4, k5]; exact hL⟩, k3, by rw [k6]; exact htr⟩
          | go s' =>
            rw [hm] at h3
            obtain ⟨c', k1, k2, k3, k4⟩ := h3
            rw [k1] at h4 ⊢
            rw [k2, ← k4]
            exact afterMatch_sh hW hN d op l c c' h4.1 (by rw [k4]; exact hcb) k3 (by rw [k4]; exact htr)
          | err => trivial
          | dataFault => trivial
          | machFault => trivial
        · rw [if_neg h2, if_neg h2]
          by_cases h3 : op ∈ endOps
          · rw [if_pos h3, if_pos h3]
            exact endOp_sh hW hN d op l c L hd (fun h => hne ⟨op, ho, h3, h⟩) hcb hi htr
          · rw [if_neg h3, if_neg h3]
            exact ctlOp_sh d op l c L hL hd hcb hi htr

end LC.Asn1.Win
