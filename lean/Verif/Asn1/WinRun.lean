import Verif.Asn1.Window
import Verif.Asn1.DecTree
/-
The run of a decoder with actions inside a window, up to the end of the window.
-/
namespace LC.Asn1.Win
open LC.Asn1 LC.Asn1.Nest LC.Asn1.Tr

set_option maxRecDepth 8000

variable {π : Type}

/-! ### Elements -/

theorem slice_sh {data : List UInt8} {b : Nat} {W : List UInt8} (hW : IsWin data b W) (off len : Nat) (h : off + len ≤ W.length) :
    (data.drop (b + off)).take len = (W.drop off).take len := by
  apply List.ext_getElem?
  intro i
  rw [List.getElem?_take, List.getElem?_take, List.getElem?_drop, List.getElem?_drop]
  split
  · rw [Nat.add_assoc]
    exact hW _ (by omega)
  · rfl

theorem elOf_sh {data : List UInt8} {b : Nat} {W : List UInt8} (hW : IsWin data b W) (x : Call) (h1 : x.hdr ≤ x.off) (h2 : x.off + x.len ≤ W.length) :
    elOf data (shc b x) = elOf W x := by
  unfold elOf shc
  dsimp only
  have e : b + x.off - x.hdr = b + (x.off - x.hdr) := by omega
  rw [e, slice_sh hW _ _ (by omega), slice_sh hW _ _ h2]

theorem foldTr_sh {data : List UInt8} {b : Nat} {W : List UInt8} (hW : IsWin data b W) (act : PAct π) (p0 : π) :
    ∀ tr : List Call, (∀ x ∈ tr, x.hdr ≤ x.off ∧ x.off + x.len ≤ W.length) → foldTr act data p0 (tr.map (shc b)) = foldTr act W p0 tr
  | [], _ => rfl
  | x :: tr, h => by
    have ih := foldTr_sh hW act p0 tr (fun y hy => h y (List.mem_cons_of_mem _ hy))
    have hx := h x List.mem_cons_self
    unfold foldTr
    dsimp only [List.map]
    rw [ih, elOf_sh hW x hx.1 hx.2]
    rfl

theorem cbOf_sh {data : List UInt8} {b : Nat} {W : List UInt8} (hW : IsWin data b W) (act : PAct π) (p0 : π) (tr : List Call)
    (h : ∀ x ∈ tr, x.hdr ≤ x.off ∧ x.off + x.len ≤ W.length) : CbOK b W (cbOf act data p0) (cbOf act W p0) tr := by
  intro x h1 h2
  have := foldTr_sh hW act p0 (x :: tr) (fun y hy => by
    rcases List.mem_cons.mp hy with rfl | hy
    · exact ⟨h1, h2⟩
    · exact h y hy)
  unfold cbOf
  rw [← this]
  rfl

/-! ### The record only grows; success needs all types to have ended -/

def Grows (s : St) : Res → Prop
  | .next s' => ∃ new, s'.trace = new ++ s.trace
  | .halt r s' => (∃ new, s'.trace = new ++ s.trace) ∧ (r = 0 → s.cstk = []) ∧ r ≤ 0
  | _ => True

theorem callAct_grows (d : Decoder) (cb : List Call → Int) (s0 s : St) (ht : s.trace = s0.trace) (i tag off len : Nat) (k : St → St) (hk : ∀ s, (k s).trace = s.trace) :
    Grows s0 (callAct d cb s i tag off len k) := by
  unfold callAct
  split
  · trivial
  · split
    · trivial
    · dsimp only
      split
      · rename_i h
        exact ⟨⟨[_], by rw [ht]; rfl⟩, (fun h0 => by omega), by omega⟩
      · exact ⟨[_], by rw [hk, ht]; rfl⟩

theorem bad_grows (s0 s : St) (h : s.trace = s0.trace) : Grows s0 (.halt (-EBADMSG) s) := ⟨⟨[], h⟩, (fun h => by cases h), by decide⟩

theorem leafAct_grows (d : Decoder) (cb : List Call → Int) (op l : Nat) (s0 s : St) (ht : s.trace = s0.trace) : Grows s0 (leafAct d cb op l s) := by
  unfold leafAct
  dsimp only
  split
  · exact callAct_grows d cb s0 s ht _ _ _ _ _ (fun _ => rfl)
  · exact ⟨[], ht⟩

theorem endAct_grows (d : Decoder) (cb : List Call → Int) (op l : Nat) (s0 s : St) (ht : s.trace = s0.trace) : Grows s0 (endAct d cb op l s) := by
  unfold endAct
  dsimp only
  split
  · exact callAct_grows d cb s0 s ht _ _ _ _ _ (fun _ => rfl)
  · exact ⟨[], ht⟩

theorem endContinue_grows (d : Decoder) (s0 s : St) (ht : s.trace = s0.trace) : Grows s0 (endContinue d s) := by
  unfold endContinue
  split
  · trivial
  · exact ⟨[], ht⟩

def MTr (s0 : St) : MRes → Prop
  | .skip s => s.trace = s0.trace
  | .go s => s.trace = s0.trace
  | _ => True

theorem pushCons_tr (s0 s : St) (ht : s.trace = s0.trace) : MTr s0 (pushCons s) := by
  unfold pushCons
  split
  · split
    · trivial
    · split
      · exact ht
      · exact ht
  · exact ht

theorem matchLen_tr (data : List UInt8) (s0 s : St) (ht : s.trace = s0.trace) : MTr s0 (matchLen data s) := by
  unfold matchLen
  cases data[s.dp]? with
  | none => trivial
  | some x =>
    dsimp only
    generalize x.toNat - 0x80 = n
    split
    · split
      · split
        · trivial
        · split
          · trivial
          · exact pushCons_tr _ _ ht
      · split
        · trivial
        · split
          · trivial
          · cases readLen data n (s.dp + 1) 0 with
            | none => trivial
            | some r =>
              dsimp only
              split
              · trivial
              · exact pushCons_tr _ _ ht
    · split
      · trivial
      · exact pushCons_tr _ _ ht

theorem matchOp_tr (d : Decoder) (data : List UInt8) (op l : Nat) (s : St) : MTr s (matchOp d data op l s) := by
  unfold matchOp
  split
  · exact rfl
  · split
    · trivial
    · split
      · trivial
      · split
        · trivial
        · unfold matchTag
          dsimp only
          split
          · exact matchLen_tr _ _ _ rfl
          · split
            · trivial
            · split
              · split
                · exact rfl
                · trivial
              · exact matchLen_tr _ _ _ rfl

theorem step_grows (d : Decoder) (cb : List Call → Int) (data : List UInt8) (s : St) : Grows s (step d cb data s) := by
  unfold step
  split
  · exact bad_grows s s rfl
  · split
    · trivial
    · split
      · exact bad_grows s s rfl
      · rename_i op _ _ l _ _
        unfold exec
        split
        · have h := matchOp_tr d data op l s
          cases hm : matchOp d data op l s with
          | skip s' => rw [hm] at h; exact ⟨[], h⟩
          | go s' =>
            rw [hm] at h
            have h' : s'.trace = s.trace := h
            show Grows s (afterMatch d cb data op l s')
            unfold afterMatch
            split
            · unfold leafOp
              split
              · split
                · exact leafAct_grows d cb op l s _ h'
                · exact bad_grows s s' h'
                · trivial
                · trivial
              · exact leafAct_grows d cb op l s _ h'
            · split
              · unfold jumpOp
                split
                · exact bad_grows s s' h'
                · split
                  · trivial
                  · exact ⟨[], h'⟩
              · exact bad_grows s s' h'
          | err => exact bad_grows s s rfl
          | dataFault => trivial
          | machFault => trivial
        · split
          · unfold endOp
            split
            · exact bad_grows s s rfl
            · split
              · exact bad_grows s s rfl
              · dsimp only
                split
                · unfold endIndef
                  split
                  · exact bad_grows s _ rfl
                  · split
                    · trivial
                    · split
                      · split
                        · exact endContinue_grows d s _ rfl
                        · exact bad_grows s _ rfl
                      · split
                        · trivial
                        · split
                          · exact bad_grows s _ rfl
                          · exact endAct_grows d cb op l s _ rfl
                · unfold endDef
                  split
                  · exact endContinue_grows d s _ rfl
                  · split
                    · exact bad_grows s _ rfl
                    · exact endAct_grows d cb op l s _ rfl
          · unfold ctlOp
            dsimp only
            split
            · split
              · exact ⟨[], rfl⟩
              · exact bad_grows s s rfl
            · split
              · split
                · exact bad_grows s s rfl
                · rename_i h
                  exact ⟨⟨[], rfl⟩, fun _ => List.length_eq_zero_iff.mp (Decidable.byContradiction fun h' => h (.inr h')), Int.le_refl 0⟩
              · split
                · exact ⟨[], rfl⟩
                · split
                  · exact callAct_grows d cb s s rfl _ _ _ _ _ (fun _ => rfl)
                  · split
                    · split
                      · exact bad_grows s s rfl
                      · exact ⟨[], rfl⟩
                    · exact bad_grows s s rfl

theorem run_grows (d : Decoder) (cb : List Call → Int) (data : List UInt8) : ∀ (n : Nat) (s : St) (r : Int) (sf : St),
    run d cb data n s = .halt r sf → (∃ new, sf.trace = new ++ s.trace) ∧ r ≤ 0
  | 0, s, r, sf, h => by cases h
  | n + 1, s, r, sf, h => by
    unfold run at h
    have hg := step_grows d cb data s
    cases hs : step d cb data s with
    | next s' =>
      rw [hs] at h hg
      obtain ⟨new, hn⟩ := hg
      obtain ⟨⟨new', hn'⟩, hr⟩ := run_grows d cb data n s' r sf h
      exact ⟨⟨new' ++ new, by rw [hn', hn, List.append_assoc]⟩, hr⟩
    | halt r' s' =>
      rw [hs] at h hg
      injection h with h1 h2
      subst h1; subst h2
      exact ⟨hg.1, hg.2.2⟩
    | dataFault => rw [hs] at h; cases h
    | machFault => rw [hs] at h; cases h

theorem decode_le {d : Decoder} {cb : List Call → Int} {data : List UInt8} {n : Nat} {r : Int} {sf : St} (h : decode d cb data n = .halt r sf) : r ≤ 0 := by
  unfold decode at h
  split at h
  · injection h with h _
    rw [← h]
    decide
  · exact (run_grows d cb data n _ r sf h).2

/-- The first step of a successful run with open types. -/
theorem run_open {d : Decoder} {cb : List Call → Int} {data : List UInt8} {n : Nat} {s sf : St} (h : run d cb data n s = .halt 0 sf)
    (ho : s.cstk ≠ []) : ∃ m s', n = m + 1 ∧ step d cb data s = .next s' ∧ run d cb data m s' = .halt 0 sf := by
  cases n with
  | zero => cases h
  | succ m =>
    unfold run at h
    have hg := step_grows d cb data s
    cases hs : step d cb data s with
    | next s' => rw [hs] at h; exact ⟨m, s', rfl, rfl, h⟩
    | halt r' s' =>
      rw [hs] at h hg
      injection h with h1 h2
      exact absurd (hg.2.1 h1) ho
    | dataFault => rw [hs] at h; cases h
    | machFault => rw [hs] at h; cases h

/-! ### Up to the end of the window -/

/-- The run inside the window, up to the end of the type that fills it. -/
inductive ToEnd (d : Decoder) (cb : List Call → Int) (W : List UInt8) : St → St → Prop
  | here {c : St} (h : AtEnd d c) : ToEnd d cb W c c
  | step {c c1 c2 : St} (h : ¬ AtEnd d c) (hs : step d cb W c = .next c1) (ht : ToEnd d cb W c1 c2) : ToEnd d cb W c c2

theorem ToEnd.det {d : Decoder} {cb : List Call → Int} {W : List UInt8} {c c1 : St} (h1 : ToEnd d cb W c c1) :
    ∀ {c2 : St}, ToEnd d cb W c c2 → c1 = c2 := by
  induction h1 with
  | here h => intro c2 h2; cases h2 with
    | here _ => rfl
    | step h' _ _ => exact absurd h h'
  | step h hs _ ih => intro c2 h2; cases h2 with
    | here h' => exact absurd h' h
    | step _ hs' ht =>
      rw [hs] at hs'
      injection hs' with e
      subst e
      exact ih ht

theorem Cert.all_mem {C : Cert} {f : AS → Bool} (h : (C.all fun r => r.all fun b => b.all f) = true) {a : AS} (ha : C.mem a = true) : f a = true := by
  unfold Cert.mem at ha
  rw [List.getD_eq_getElem?_getD (l := C)] at ha
  cases hg : C[a.pc / 16]? with
  | none => rw [hg] at ha; simp at ha
  | some row =>
    rw [hg] at ha
    have h0 := List.all_eq_true.mp h row (List.mem_of_getElem? hg)
    dsimp only [Option.getD_some] at ha
    rw [List.getD_eq_getElem?_getD] at ha
    cases hg' : row[a.pc % 16]? with
    | none => rw [hg'] at ha; simp at ha
    | some b =>
    rw [hg'] at ha
    have h1 := List.all_eq_true.mp h0 b (List.mem_of_getElem? hg')
    exact List.all_eq_true.mp h1 a (by simpa using ha)

/-- Inside of at least `k` open types no call comes into scope. -/
def quiet (d : Decoder) (P : Nest.Prog) (k : Nat) (C : Cert) : Bool := C.all fun r => r.all fun b => b.all fun a =>
  !(a.f && decide (k ≤ a.cs.length)) || ((astep d P a).getD []).all fun x => x.f || decide (x.cs.length < k)

theorem StkR.len {P : Nest.Prog} {tr : List Call} : ∀ {up : Nat} {es : List (Nat × Nat × Nat)} {bs : List Bool}, StkR P tr up es bs → es.length = bs.length
  | _, [], [], _ => rfl
  | _, _ :: _, _ :: _, h => congrArg (· + 1) (StkR.len h.2.2)
  | _, [], _ :: _, h => h.elim
  | _, _ :: _, [], h => h.elim

theorem run_win (P : Nest.Prog) (d : Decoder) (C : Cert) (hC : closed d P C = true) {data : List UInt8} {b : Nat} {bot : List (Nat × Nat × Nat)} {E : Nat} {W : List UInt8}
    (hq : quiet d P bot.length C = true) (hb : bot ≠ []) (hW : IsWin data b W) (hN : data.length < 2 ^ 64) (hNW : W.length < 2 ^ 64)
    (act : PAct π) (p0 : π) (sf : St) :
    ∀ (n : Nat) (s c : St) (a : AS), run d (cbOf act data p0) data n s = .halt 0 sf → WRel b bot E W s c → DInv W.length c →
      C.mem a = true → R P data.length s a → a.f = true →
      ∃ s' c' a' m, ToEnd d (cbOf act W p0) W c c' ∧ WRel b bot E W s' c' ∧ DInv W.length c' ∧ C.mem a' = true ∧ R P data.length s' a' ∧ a'.f = true ∧ AtEnd d c' ∧
        run d (cbOf act data p0) data m s' = .halt 0 sf
  | n, s, c, a, h, hr, hd, ha, hR, hf => by
    by_cases hA : AtEnd d c
    · exact ⟨s, c, a, n, .here hA, hr, hd, ha, hR, hf, hA, h⟩
    · have hso : s.cstk ≠ [] := by
        obtain ⟨⟨L, rfl, _⟩, _, _⟩ := hr
        intro h0
        exact hb (List.append_eq_nil_iff.mp h0).2
      obtain ⟨m, s', hnm, hs, hm⟩ := run_open h hso
      have hS := step_win hW hNW d (cb1 := cbOf act data p0) (cb2 := cbOf act W p0) s c hr hd hA (cbOf_sh hW act p0 c.trace hr.tr)
      have hX := hC
      unfold closed at hX
      rw [Bool.and_eq_true] at hX
      have hcl := Cert.all_mem hX.2 ha
      have hqa := Cert.all_mem hq ha
      cases hL : astep d P a with
      | none => rw [hL] at hcl; cases hcl
      | some Ls =>
        rw [hL] at hcl hqa
        have hnx := step_nest P d (cbOf act data p0) data hN s a hR Ls hL (fun x => x ∈ Ls) (fun x hx => hx)
        rw [hs] at hnx hS
        obtain ⟨a', ha', hR'⟩ := hnx
        obtain ⟨c', hc', hr'⟩ := hS (fun x hx => hR'.low x hx)
        have hd' := step_data d (cbOf act W p0) W hNW c hd
        rw [hc'] at hd'
        have hlen : ∀ (s : St) (c : St), WRel b bot E W s c → bot.length ≤ s.cstk.length := by
          intro s c hr
          obtain ⟨⟨L, rfl, _⟩, _, _⟩ := hr
          unfold sh
          dsimp only
          rw [List.length_append]
          omega
        have hf' : a'.f = true := by
          have l1 := StkR.len hR.stk
          have l2 := hlen s c hr
          have l3 := StkR.len hR'.stk
          have l4 := hlen s' c' hr'
          rw [hf, decide_eq_true (by omega : bot.length ≤ a.cs.length)] at hqa
          have := List.all_eq_true.mp hqa a' ha'
          rw [decide_eq_false (by omega : ¬ a'.cs.length < bot.length), Bool.or_false] at this
          exact this
        obtain ⟨s2, c2, a2, m2, k1, k2⟩ := run_win P d C hC hq hb hW hN hNW act p0 sf m s' c' a' hm hr' hd' (List.all_eq_true.mp hcl a' ha') hR' hf'
        exact ⟨s2, c2, a2, m2, .step hA hc' k1, k2⟩
  termination_by n => n

end LC.Asn1.Win
