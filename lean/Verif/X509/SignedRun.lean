import Verif.Asn1.WinRun
import Verif.Asn1.Machines
/-
The run of the certificate decoder: two opened types, the run inside of the signed part, the call of `x509_note_tbs_certificate`, the rest.
-/
namespace LC.Crt
open LC.Asn1 LC.Asn1.Nest LC.Asn1.Tr LC.Asn1.Win

set_option maxRecDepth 8000

variable {π : Type}

/-- `x509_note_tbs_certificate` is called; afterwards only the actions of the outer algorithm identifier and of the signature are. -/
def PT : Nest.Prog := ⟨fun _ => false, (· == 16), fun _ => false, fun i => !(i == 6 || i == 11 || i == 20 || i == 14), fun f => !f⟩

/-- `x509_note_signature` is called, as the last action. -/
def PS : Nest.Prog := ⟨fun _ => false, (· == 14), fun _ => false, fun _ => true, fun f => !f⟩

theorem closedT : closed x509 PT (certOf x509 PT) = true := by decide +kernel
theorem closedS : closed x509 PS (certOf x509 PS) = true := by decide +kernel
theorem quietT : quiet x509 PT 2 (certOf x509 PT) = true := by decide +kernel

/-- Where a type ends with two types open and the signed part not yet noted. -/
theorem endT : ((certOf x509 PT).all fun r => r.all fun b => b.all fun a =>
    !(a.f && a.cs.length == 2 && (match x509.machine[a.pc]? with | some op => decide (op ∈ endOps) | none => false)) || a.pc == 63) = true := by decide +kernel

/-! ### Opening a type -/

/-- The number of further length octets. -/
def ext (lb : UInt8) : Nat := if lb.toNat ≤ 0x7f then 0 else lb.toNat - 0x80

def openDef (s : St) (h l t : Nat) : St :=
  { s with pc := s.pc + 2, dp := s.dp + h, tdp := s.dp + h, len := l, datalen := s.dp + h + l, hdr := h, tag := t, indef := false, matched := true,
           last := false, cons := true, cstk := (s.dp + h, s.datalen, h) :: s.cstk }

def openIndef (s : St) (t : Nat) : St :=
  { s with pc := s.pc + 2, dp := s.dp + 2, tdp := s.dp + 2, len := 0x80, hdr := 2, tag := t, indef := true, matched := true,
           last := false, cons := true, cstk := (s.dp + 2, 0, 2) :: s.cstk }

def Opened (data : List UInt8) (s s' : St) : Prop :=
  ∃ t lb, data[s.dp]? = some t ∧ data[s.dp + 1]? = some lb ∧ s.dp + 2 ≤ s.datalen ∧
    ((lb.toNat = 0x80 ∧ s' = openIndef s t.toNat) ∨
     (lb.toNat ≠ 0x80 ∧ ∃ l, s.dp + (2 + ext lb) + l ≤ s.datalen ∧ s' = openDef s (2 + ext lb) l t.toNat))

def POp (F : St → Prop) : MRes → Prop
  | .go s' => F { s' with pc := s'.pc + 2 } ∧ s'.cons = true
  | .skip _ => False
  | _ => True

theorem pushCons_open (s : St) (F : St → Prop) (hc : s.cons = true)
    (h : F { (if s.indef then { s with cstk := (s.dp, 0, s.hdr) :: s.cstk, tdp := s.dp }
      else { s with cstk := (s.dp, s.datalen, s.hdr) :: s.cstk, datalen := s.dp + s.len, tdp := s.dp }) with pc := s.pc + 2 }) : POp F (pushCons s) := by
  unfold pushCons
  rw [if_pos hc]
  split
  · trivial
  · split
    · rename_i hi
      rw [if_pos hi] at h
      exact ⟨h, hc⟩
    · rename_i hi
      rw [if_neg hi] at h
      exact ⟨h, hc⟩

theorem matchOp_open (d : Decoder) (data : List UInt8) (hN : data.length < 2 ^ 64) (s : St) (hd : DInv data.length s) (h48 : d.machine[s.pc + 1]? = some 48) :
    POp (Opened data s) (matchOp d data 0 2 s) := by
  have hdp := hd.dp
  have hdl := hd.dl
  unfold matchOp
  rw [if_neg (by simp [isCond, isSkip])]
  rw [wsub_eq hdp (by omega)]
  split
  · trivial
  · rename_i h2
    cases ht : data[s.dp]? with
    | none => trivial
    | some t =>
      dsimp only
      split
      · trivial
      · unfold matchTag
        rw [if_neg (by simp [isAny])]
        dsimp only
        rw [h48]
        dsimp only
        split
        · rw [if_neg (by simp [isSkip])]; trivial
        · unfold matchLen
          dsimp only
          cases hb : data[s.dp + 1]? with
          | none => trivial
          | some lb =>
            dsimp only
            rw [wsub_eq (show s.dp + 1 + 1 ≤ s.datalen by omega) (by omega)]
            by_cases h3 : lb.toNat > 0x7f
            · rw [if_pos h3]
              by_cases h4 : lb.toNat = 0x80
              · rw [if_pos h4]
                split
                · trivial
                · split
                  · trivial
                  · refine pushCons_open { s with dp := s.dp + 1 + 1, len := lb.toNat, hdr := 2, tag := t.toNat, indef := true, matched := true, last := false, cons := consBit 48 } _ rfl ?_
                    refine ⟨t, lb, ht, hb, by omega, .inl ⟨h4, ?_⟩⟩
                    rw [if_pos rfl]
                    unfold openIndef
                    dsimp only
                    rw [h4]
                    rfl
              · rw [if_neg h4]
                generalize hn : lb.toNat - 0x80 = n
                split
                · trivial
                · split
                  · trivial
                  · rename_i h5 h6
                    obtain ⟨l, hl⟩ := readLen_spec data n (s.dp + 1 + 1) 0 (by omega)
                    rw [hl]
                    dsimp only
                    rw [wsub_eq (by omega) (by omega)]
                    split
                    · trivial
                    · rename_i h7
                      refine pushCons_open { s with dp := s.dp + 1 + 1 + n, len := l, hdr := 2 + n, tag := t.toNat, indef := false, matched := true, last := false, cons := consBit 48 } _ rfl ?_
                      have he : ext lb = n := by unfold ext; rw [if_neg (by omega)]; exact hn
                      refine ⟨t, lb, ht, hb, by omega, .inr ⟨h4, l, by rw [he]; omega, ?_⟩⟩
                      rw [if_neg (fun h => by cases h), he]
                      unfold openDef
                      dsimp only
                      have e : s.dp + 1 + 1 + n = s.dp + (2 + n) := by omega
                      rw [e]
                      rfl
            · rw [if_neg h3]
              split
              · trivial
              · rename_i h5
                refine pushCons_open { s with dp := s.dp + 1 + 1, len := lb.toNat, hdr := 2, tag := t.toNat, indef := false, matched := true, last := false, cons := consBit 48 } _ rfl ?_
                have he : ext lb = 0 := by unfold ext; rw [if_pos (by omega)]
                refine ⟨t, lb, ht, hb, by omega, .inr ⟨by omega, lb.toNat, by rw [he]; omega, ?_⟩⟩
                rw [if_neg (fun h => by cases h), he]
                rfl

/-- A successful run begins with opening the type. -/
theorem run_opened (d : Decoder) (cb : List Call → Int) (data : List UInt8) (hN : data.length < 2 ^ 64) (n : Nat) (s sf : St) (hd : DInv data.length s)
    (h0 : d.machine[s.pc]? = some 0) (h48 : d.machine[s.pc + 1]? = some 48) (hl : s.pc + 2 ≤ d.machine.length) (h : run d cb data n s = .halt 0 sf) :
    ∃ m s', n = m + 1 ∧ Opened data s s' ∧ step d cb data s = .next s' ∧ run d cb data m s' = .halt 0 sf := by
  have hm := matchOp_open d data hN s hd h48
  have hst : step d cb data s = matchCont d cb data 0 2 s (matchOp d data 0 2 s) := by
    unfold step
    rw [h0]
    dsimp only
    rw [show opLen 0 = some 2 from rfl]
    dsimp only
    rw [if_neg (by omega)]
    unfold exec
    rw [if_pos (by decide)]
  cases n with
  | zero => cases h
  | succ m =>
    unfold run at h
    rw [hst] at h ⊢
    cases hmo : matchOp d data 0 2 s with
    | go s' =>
      rw [hmo] at hm h
      obtain ⟨k1, k2⟩ := hm
      have e : matchCont d cb data 0 2 s (.go s') = .next { s' with pc := s'.pc + 2 } := by
        unfold matchCont afterMatch
        dsimp only
        rw [if_pos (by decide)]
        unfold leafOp
        rw [if_neg (by rw [k2]; simp)]
        unfold leafAct
        dsimp only
        rw [if_neg (by simp [isAct]), k2]
        rfl
      rw [e] at h
      exact ⟨m, _, rfl, k1, e, h⟩
    | skip s' => rw [hmo] at hm; exact hm.elim
    | err => rw [hmo] at h; cases h
    | dataFault => rw [hmo] at h; cases h
    | machFault => rw [hmo] at h; cases h

/-! ### The end of the signed part -/

theorem pop16 {cb : List Call → Int} {data : List UInt8} {m : Nat} {s sf : St} {t0 dl0 h0 : Nat} {e : Nat × Nat × Nat} {rest : List (Nat × Nat × Nat)}
    (h : run x509 cb data m s = .halt 0 sf) (hp : s.pc = 63) (hc : s.cstk = (t0, dl0, h0) :: e :: rest) :
    ∃ post tag len, sf.trace = post ++ ⟨16, h0, tag, t0, len⟩ :: s.trace ∧ (dl0 ≠ 0 → len = wsub s.datalen t0) := by
  obtain ⟨m1, s1, _, hs, hm⟩ := run_open h (by rw [hc]; exact fun h => by cases h)
  have k1 : s1.pc = 64 ∧ s1.cstk = e :: rest ∧ s1.hdr = h0 ∧ s1.tdp = t0 ∧ s1.trace = s.trace ∧ (dl0 ≠ 0 → s1.len = wsub s.datalen t0) := by
    unfold step at hs
    rw [hp, show x509.machine[63]? = some 32 from rfl] at hs
    dsimp only at hs
    rw [show opLen 32 = some 1 from rfl] at hs
    dsimp only at hs
    rw [if_neg (by decide)] at hs
    unfold exec at hs
    rw [if_neg (by decide), if_pos (by decide)] at hs
    unfold endOp at hs
    rw [if_neg (by simp), hc] at hs
    dsimp only at hs
    have ea : ∀ z : St, endAct x509 cb 32 1 z = .next { z with pc := z.pc + 1 } := by
      intro z
      unfold endAct
      dsimp only
      rw [if_neg (by decide)]
    by_cases h2 : dl0 = 0
    · rw [if_pos h2] at hs
      unfold endIndef at hs
      split at hs
      · cases hs
      · split at hs
        · cases hs
        · split at hs
          · rw [if_neg (by decide)] at hs; cases hs
          · split at hs
            · cases hs
            · split at hs
              · cases hs
              · rw [ea] at hs
                injection hs with hs
                subst hs
                exact ⟨by show s.pc + 1 = 64; omega, rfl, rfl, rfl, rfl, fun h => absurd h2 h⟩
    · rw [if_neg h2] at hs
      unfold endDef at hs
      split at hs
      · rename_i h3
        exact absurd h3.2 (by decide)
      · split at hs
        · cases hs
        · rw [ea] at hs
          injection hs with hs
          subst hs
          exact ⟨by show s.pc + 1 = 64; omega, rfl, rfl, rfl, rfl, fun _ => rfl⟩
  obtain ⟨j1, j2, j3, j4, j5, j6⟩ := k1
  obtain ⟨m2, s2, _, hs2, hm2⟩ := run_open hm (by rw [j2]; exact fun h => by cases h)
  have k2 : s2.trace = ⟨16, h0, s1.tag, t0, s1.len⟩ :: s.trace := by
    unfold step at hs2
    rw [j1, show x509.machine[64]? = some 30 from rfl] at hs2
    dsimp only at hs2
    rw [show opLen 30 = some 2 from rfl] at hs2
    dsimp only at hs2
    rw [if_neg (by decide)] at hs2
    unfold exec at hs2
    rw [if_neg (by decide), if_neg (by decide)] at hs2
    unfold ctlOp at hs2
    dsimp only at hs2
    rw [if_neg (by decide), if_neg (by decide), if_neg (by simp), if_pos (by decide)] at hs2
    unfold callAct at hs2
    rw [j1, show x509.machine[64 + 1]? = some 16 from rfl] at hs2
    dsimp only at hs2
    rw [if_neg (by decide)] at hs2
    split at hs2
    · cases hs2
    · injection hs2 with hs2
      rw [← hs2, j3, j4, j5]
  obtain ⟨⟨post, hpo⟩, _⟩ := run_grows x509 cb data m2 s2 0 sf hm2
  exact ⟨post, s1.tag, s1.len, by rw [hpo, k2], j6⟩

/-! ### The whole run -/

/-- The state after opening the type that fills the window. -/
def cOf (W : List UInt8) : St :=
  let h := 2 + ext (W.getD 1 0)
  { pc := 4, dp := h, tdp := h, len := W.length - h, datalen := W.length, hdr := h, tag := (W.getD 0 0).toNat, indef := false, matched := true, last := false, cons := true }

theorem start_nest (P : Nest.Prog) (d : Decoder) (C : Cert) (hC : closed d P C = true) (data : List UInt8) :
    C.mem { pc := 0 } = true ∧ R P data.length (start data) { pc := 0 } := by
  refine ⟨?_, ⟨Nat.zero_le _, Nat.le_refl _, trivial, Nat.zero_le _, Nat.zero_le _⟩, rfl, rfl, rfl, rfl, Nat.le_refl _, (fun _ => Nat.le_refl _), (fun h => by cases h), rfl,
    (fun _ x hx => by cases hx), trivial, (fun c hc => by cases hc), TrOK.nil P⟩
  unfold closed at hC
  rw [Bool.and_eq_true] at hC
  exact hC.1

theorem step_inv {d : Decoder} {cb : List Call → Int} {data : List UInt8} {s s' : St} (hN : data.length < 2 ^ 64) (hd : DInv data.length s)
    (h : step d cb data s = .next s') : DInv data.length s' := by
  have := step_data d cb data hN s hd
  rw [h] at this
  exact this

theorem nest2 {P : Nest.Prog} {d : Decoder} {C : Cert} (hC : closed d P C = true) {cb : List Call → Int} {data : List UInt8} (hN : data.length < 2 ^ 64)
    {s s1 s2 : St} {a : AS} (hm : C.mem a = true) (hR : R P data.length s a) (h1 : step d cb data s = .next s1) (h2 : step d cb data s1 = .next s2) :
    ∃ a, C.mem a = true ∧ R P data.length s2 a := by
  have := run_nest P d C hC cb data hN 2 s a hm hR
  unfold run at this
  rw [h1] at this
  dsimp only at this
  unfold run at this
  rw [h2] at this
  exact this

theorem atEnd63 {c : St} {a : AS} {data : List UInt8} {s : St} {b E : Nat} {e1 e2 : Nat × Nat × Nat} {W : List UInt8} (hA : AtEnd x509 c)
    (hm : (certOf x509 PT).mem a = true) (hR : R PT data.length s a) (hf : a.f = true) (hr : WRel b [e1, e2] E W s c) :
    s.pc = 63 ∧ s.cstk = [e1, e2] ∧ s.datalen = b + E ∧ s.trace = c.trace.map (shc b) := by
  obtain ⟨op, h1, h2, h3⟩ := hA
  obtain ⟨⟨L, rfl, _⟩, hi, _⟩ := hr
  have hc : (sh b [e1, e2] L (c.trace.map (shc b)) c).cstk = [e1, e2] := by
    unfold sh
    dsimp only
    rw [h3]
    rfl
  have hpc : a.pc = c.pc := hR.pc.symm
  have hl := StkR.len hR.stk
  rw [hc] at hl
  have h4 := Cert.all_mem endT hm
  rw [hf, ← hl, hpc, h1] at h4
  have h5 : (c.pc == 63) = true := by
    simp only [List.length_cons, List.length_nil, Nat.zero_add, beq_self_eq_true, Bool.and_self, decide_eq_true h2, Bool.not_true, Bool.false_or] at h4
    exact h4
  refine ⟨beq_iff_eq.mp h5, hc, ?_, rfl⟩
  have := hi.chain
  rw [h3] at this
  exact congrArg (b + ·) this

/-- What is known about a successful run: the record of the calls is the record of the run inside the signed part `W`, then the call that
notes `W`, then others. -/
inductive TbsRun (act : PAct π) (p0 : π) (data : List UInt8) (tr : List Call) : Prop
  | definite (b : Nat) (W : List UInt8) (c : St) (x : Call) (post : List Call) (lb : UInt8) (hW : IsWin data b W)
      (h1 : W[1]? = some lb) (h2 : lb.toNat ≠ 0x80) (he : ToEnd x509 (cbOf act W p0) W (cOf W) c)
      (ht : tr = post ++ x :: c.trace.map (shc b)) (hok : ∀ y ∈ c.trace, y.hdr ≤ y.off ∧ y.off + y.len ≤ W.length)
      (hx : x.act = 16) (hel : (elOf data x).hdr ++ (elOf data x).content = W)
  | indefinite (x : Call) (post pre : List Call) (ht : tr = post ++ x :: pre) (hx : x.act = 16) (hel : (elOf data x).hdr[1]? = some 0x80)

theorem x509_run (act : PAct π) (p0 : π) (data : List UInt8) (n : Nat) (sf : St)
    (h : decode x509 (cbOf act data p0) data n = .halt 0 sf) : TbsRun act p0 data sf.trace := by
  unfold decode at h
  split at h
  · cases h
  · rename_i hlen
    have hN : data.length < 2 ^ 64 := by omega
    obtain ⟨hm0, hR0⟩ := start_nest PT x509 _ closedT data
    obtain ⟨m1, s1, rfl, ho1, hs1, hr1⟩ := run_opened x509 _ data hN n (start data) sf hR0.inv rfl rfl (show 0 + 2 ≤ x509.machine.length by decide) h
    have hd1 : DInv data.length s1 := step_inv hN hR0.inv hs1
    have f1 : s1.pc = 2 ∧ s1.jstk = [] ∧ s1.trace = [] ∧ 2 ≤ s1.dp ∧ ∃ e, s1.cstk = [e] := by
      obtain ⟨t, lb, _, _, _, ⟨_, rfl⟩ | ⟨_, l, _, rfl⟩⟩ := ho1
      · exact ⟨rfl, rfl, rfl, by show 2 ≤ 0 + 2; omega, _, rfl⟩
      · exact ⟨rfl, rfl, rfl, by show 2 ≤ 0 + (2 + ext lb); omega, _, rfl⟩
    obtain ⟨g1, g2, g3, g4, e2, g5⟩ := f1
    obtain ⟨m2, s2, rfl, ho2, hs2, hr2⟩ := run_opened x509 _ data hN m1 s1 sf hd1 (by rw [g1]; rfl) (by rw [g1]; rfl) (by rw [g1]; decide) hr1
    obtain ⟨a2, ha2, hR2⟩ := nest2 closedT hN hm0 hR0 hs1 hs2
    have htr2 : s2.trace = [] := by
      obtain ⟨t, lb, _, _, _, ⟨_, rfl⟩ | ⟨_, l, _, rfl⟩⟩ := ho2
      · exact g3
      · exact g3
    have hf2 : a2.f = true := by
      rw [hR2.f, htr2]
      rfl
    obtain ⟨t, lb, ht, hlb, hl2, ⟨hb, hs⟩ | ⟨hb, l, hle, hs⟩⟩ := ho2
    · -- indefinite length: the window is the whole input
      have hW : IsWin data 0 data := fun i _ => by rw [Nat.zero_add]
      have hst : s2.cstk = [(s1.dp + 2, 0, 2), e2] := by rw [hs]; unfold openIndef; rw [g5]
      have hrel : WRel 0 [(s1.dp + 2, 0, 2), e2] s2.datalen data s2 { s2 with cstk := [] } := by
        refine ⟨⟨s2.len, ?_, .inl rfl⟩, ?_, ?_⟩
        · unfold sh
          dsimp only
          rw [htr2, ← hst, Nat.zero_add, Nat.zero_add, Nat.zero_add]
          cases s2
          rename_i tr
          have : tr = [] := htr2
          rw [this]
          rfl
        · rw [hs]
          exact ⟨by show 0 < s1.dp + 2; omega, by show 2 ≤ s1.dp + 2; omega, by show 2 ≤ s1.dp + 2; omega, (fun e he => by cases he), rfl⟩
        · dsimp only
          rw [htr2]
          exact fun y hy => by cases hy
      have hdv : DInv data.length { s2 with cstk := [] } := ⟨hR2.inv.dp, hR2.inv.dl, trivial, Nat.zero_le _, hR2.inv.jsp⟩
      obtain ⟨s', c', a', m', k1, k2, k3, k4, k5, k6, k7, k8⟩ := run_win (bot := [(s1.dp + 2, 0, 2), e2]) PT x509 _ closedT quietT (fun h => by cases h) hW hN hN act p0 sf m2 s2 _ a2 hr2 hrel hdv ha2 hR2 hf2
      obtain ⟨j1, j2, j3, j4⟩ := atEnd63 k7 k4 k5 k6 k2
      obtain ⟨post, tag, len, q1, q2⟩ := pop16 k8 j1 j2
      refine .indefinite ⟨16, 2, tag, s1.dp + 2, len⟩ post s'.trace q1 rfl ?_
      show ((data.drop (s1.dp + 2 - 2)).take 2)[1]? = some 0x80
      rw [List.getElem?_take_of_lt (by omega), List.getElem?_drop, Nat.add_sub_cancel, hlb]
      exact congrArg some (UInt8.toNat_inj.mp hb)
    · -- definite length
      have hdl1 := hd1.dl
      have hWl : ((data.drop s1.dp).take (2 + ext lb + l)).length = 2 + ext lb + l := by
        rw [List.length_take, List.length_drop]
        omega
      have hW : IsWin data s1.dp ((data.drop s1.dp).take (2 + ext lb + l)) := by
        intro i hi
        rw [hWl] at hi
        rw [List.getElem?_take_of_lt hi, List.getElem?_drop]
      have hW0 : ((data.drop s1.dp).take (2 + ext lb + l))[0]? = some t := by
        rw [← hW 0 (by rw [hWl]; omega)]
        exact ht
      have hW1 : ((data.drop s1.dp).take (2 + ext lb + l))[1]? = some lb := by
        rw [← hW 1 (by rw [hWl]; omega)]
        exact hlb
      generalize hWe : (data.drop s1.dp).take (2 + ext lb + l) = W at hWl hW hW0 hW1
      have hc0 : cOf W = { pc := 4, dp := 2 + ext lb, tdp := 2 + ext lb, len := l, datalen := 2 + ext lb + l, hdr := 2 + ext lb, tag := t.toNat, indef := false, matched := true, last := false, cons := true } := by
        unfold cOf
        rw [List.getD_eq_getElem?_getD, List.getD_eq_getElem?_getD, hW0, hW1, hWl]
        dsimp only [Option.getD_some]
        rw [Nat.add_sub_cancel_left]
      have hd1p := hd1.dp
      have hst : s2.cstk = [(s1.dp + (2 + ext lb), s1.datalen, 2 + ext lb), e2] := by rw [hs]; unfold openDef; rw [g5]
      have hrel : WRel s1.dp [(s1.dp + (2 + ext lb), s1.datalen, 2 + ext lb), e2] W.length W s2 (cOf W) := by
        rw [hc0]
        refine ⟨⟨l, ?_, .inl rfl⟩, ?_, ?_⟩
        · rw [hs]
          unfold openDef sh
          dsimp only
          rw [g1, g2, g3, g5, Nat.add_assoc]
          rfl
        · exact ⟨by show 0 < 2 + ext lb; omega, Nat.le_refl _, by show 2 ≤ 2 + ext lb; omega, (fun e he => by cases he), hWl.symm⟩
        · exact fun y hy => by cases hy
      have hdv : DInv W.length (cOf W) := by
        rw [hc0]
        exact ⟨by show 2 + ext lb ≤ 2 + ext lb + l; omega, by show 2 + ext lb + l ≤ W.length; omega, trivial, Nat.zero_le _, Nat.zero_le _⟩
      obtain ⟨s', c', a', m', k1, k2, k3, k4, k5, k6, k7, k8⟩ := run_win (bot := [(s1.dp + (2 + ext lb), s1.datalen, 2 + ext lb), e2]) PT x509 _ closedT quietT (fun h => by cases h) hW hN (by omega) act p0 sf m2 s2 _ a2 hr2 hrel hdv ha2 hR2 hf2
      obtain ⟨j1, j2, j3, j4⟩ := atEnd63 k7 k4 k5 k6 k2
      obtain ⟨post, tag, len, q1, q2⟩ := pop16 k8 j1 j2
      have hlen : len = l := by
        rw [q2 (by omega), j3, wsub_sh, hWl, wsub_eq (by omega) (by omega)]
        omega
      refine .definite s1.dp W c' ⟨16, 2 + ext lb, tag, s1.dp + (2 + ext lb), len⟩ post lb hW hW1 hb k1 (by rw [q1, j4]) k2.tr rfl ?_
      show (data.drop (s1.dp + (2 + ext lb) - (2 + ext lb))).take (2 + ext lb) ++ (data.drop (s1.dp + (2 + ext lb))).take len = W
      rw [Nat.add_sub_cancel, hlen, ← hWe, ← List.drop_drop, ← List.take_add]

end LC.Crt
