import Verif.Asn1.Machines
import Verif.Asn1.Term
/-
Properties of the BER decoder: C28 (memory safety), C29 (termination), C66 (mandatory elements).
The statements only mention the outcome of `decode` and the record of the action calls.
-/
namespace LC.Asn1

/-! ### C28: memory safety -/

/-- The decoder never reads outside the input, whatever the bytecode, the input, the results of the
actions and the number of rounds are. -/
theorem decode_reads_inside (d : Decoder) (cb : List Call → Int) (data : List UInt8) (n : Nat) :
    decode d cb data n ≠ .dataFault := by
  unfold decode
  split
  · simp
  · have := run_data d cb data (by omega) n _ (start_inv data)
    intro h
    rw [h] at this
    exact this

/-- Nor does it use more than the ten entries of its two stacks. -/
theorem decode_stacks (d : Decoder) (cb : List Call → Int) (data : List UInt8) (n : Nat) (s : St)
    (h : decode d cb data n = .next s) :
    s.cstk.length ≤ 10 ∧ s.jstk.length ≤ 10 ∧ s.dp ≤ data.length := by
  unfold decode at h
  split at h
  · cases h
  · have := run_data d cb data (by omega) n _ (start_inv data)
    rw [h] at this
    exact ⟨this.csp, this.jsp, Nat.le_trans this.dp this.dl⟩

/-- What memory safety demands of an outcome: no access out of range, and every action that has been called
exists and was given a slice of the input. -/
def Safe (d : Decoder) (data : List UInt8) : Res → Prop
  | .next s | .halt _ s => ∀ c ∈ s.trace, c.act < d.nact ∧ c.off + c.len ≤ data.length
  | .dataFault | .machFault => False

/-- Memory safety for every bytecode program that passes the static check. -/
theorem decode_safe_checked (d : Decoder) (c : List Nat) (hc : check d c = true) (cb : List Call → Int)
    (data : List UInt8) (n : Nat) : Safe d data (decode d cb data n) := by
  unfold decode
  split
  · intro c hc; cases hc
  · have := run_mach d c cb data (by omega) hc n _ (start_minv d c hc data)
    generalize run d cb data n _ = r at this ⊢
    cases r with
    | next s => exact this.tr
    | halt r s => exact this
    | dataFault => exact this
    | machFault => exact this

set_option maxRecDepth 100000 in
theorem shipped_checked : ∀ p ∈ shipped, check p.1 p.2 = true := by decide +kernel

/-- Memory safety of the decoder with each of the grammars of the library, for every input, all results of
the actions, and at every point of the run. -/
theorem decode_safe : ∀ p ∈ shipped, ∀ (cb : List Call → Int) (data : List UInt8) (n : Nat),
    Safe p.1 data (decode p.1 cb data n) :=
  fun p hp cb data n => decode_safe_checked p.1 p.2 (shipped_checked p hp) cb data n

/-- The check is needed: bytecode with `MATCH_ACT` on a constructed tag hands 128 bytes of a 4 byte input
to the action when the input uses the indefinite length form. -/
def badMachine : Decoder := { machine := [0x02, 0x30, 0], nact := 1 }

theorem unchecked_overread : ∃ data : List UInt8, data.length = 4 ∧
    ¬ Safe badMachine data (decode badMachine (fun _ => 0) data 1) := by
  refine ⟨[0x30, 0x80, 0, 0], rfl, ?_⟩
  have h : decode badMachine (fun _ => 0) [0x30, 0x80, 0, 0] 1 =
    .next { pc := 3, dp := 2, tdp := 2, len := 0x80, datalen := 4, hdr := 2, tag := 0x30, indef := true,
            matched := true, cons := true, cstk := [(2, 0, 2)], trace := [⟨0, 2, 0x30, 2, 0x80⟩] } := by
    rfl
  rw [h]
  intro hs
  exact absurd (hs ⟨0, 2, 0x30, 2, 0x80⟩ (by simp)).2 (by decide)

/-! ### C29: termination and the result -/

set_option maxRecDepth 100000 in
theorem shipped_blocked : ∀ p ∈ shipped, loopsBlocked p.1 p.2 = true := by decide +kernel

/-- The decoder returns for each of the grammars of the library on every input. -/
theorem decode_returns : ∀ p ∈ shipped, ∀ (cb : List Call → Int) (data : List UInt8),
    ∃ n ret s, decode p.1 cb data n = .halt ret s := by
  intro p hp cb data
  unfold decode
  split
  · exact ⟨0, _, _, rfl⟩
  · exact halts p.1 p.2 cb data (by omega) (shipped_checked p hp) (shipped_blocked p hp) _
      (start_minv p.1 p.2 (shipped_checked p hp) data)

/-- More rounds do not change the result. -/
theorem run_stable (d : Decoder) (cb : List Call → Int) (data : List UInt8) (n m : Nat) (s s' : St) (r : Int)
    (h : run d cb data n s = .halt r s') (hm : n ≤ m) : run d cb data m s = .halt r s' := by
  induction n generalizing s m with
  | zero => cases h
  | succ n ih =>
    obtain ⟨m, rfl⟩ : ∃ k, m = k + 1 := ⟨m - 1, by omega⟩
    unfold run at h ⊢
    generalize step d cb data s = x at h ⊢
    cases x with
    | next s1 => exact ih m s1 h (by omega)
    | halt r s => exact h
    | dataFault => cases h
    | machFault => cases h

theorem decode_stable (d : Decoder) (cb : List Call → Int) (data : List UInt8) (n m : Nat) (s : St) (r : Int)
    (h : decode d cb data n = .halt r s) (hm : n ≤ m) : decode d cb data m = .halt r s := by
  unfold decode at h ⊢
  split
  · rename_i h0; rw [if_pos h0] at h; exact h
  · rename_i h0; rw [if_neg h0] at h; exact run_stable d cb data n m _ s r h hm

/-- What a returned value means. -/
def RetOK (d : Decoder) (cb : List Call → Int) (ret : Int) (s : St) : Prop :=
  (ret = 0 ∧ d.machine[s.pc]? = some 0x1d ∧ s.jstk = [] ∧ s.cstk = []) ∨ ret = -EBADMSG ∨
  (ret < 0 ∧ ret = cb s.trace)

def ROk (P : Int → St → Prop) : Res → Prop
  | .halt r s => P r s
  | _ => True

theorem callAct_ret (d : Decoder) (cb : List Call → Int) (s : St) (i tag off len : Nat) (k : St → St) :
    ROk (RetOK d cb) (callAct d cb s i tag off len k) := by
  unfold callAct
  split
  · trivial
  · split
    · trivial
    · dsimp only
      split
      · rename_i h; exact .inr (.inr ⟨h, rfl⟩)
      · trivial

theorem bad_ret (d : Decoder) (cb : List Call → Int) (s : St) : ROk (RetOK d cb) (.halt (-EBADMSG) s) :=
  .inr (.inl rfl)

theorem leafAct_ret (d : Decoder) (cb : List Call → Int) (op l : Nat) (s : St) :
    ROk (RetOK d cb) (leafAct d cb op l s) := by
  unfold leafAct
  dsimp only
  split
  · exact callAct_ret d cb _ _ _ _ _ _
  · trivial

theorem endAct_ret (d : Decoder) (cb : List Call → Int) (op l : Nat) (s : St) :
    ROk (RetOK d cb) (endAct d cb op l s) := by
  unfold endAct
  dsimp only
  split
  · exact callAct_ret d cb _ _ _ _ _ _
  · trivial

theorem endContinue_ret (d : Decoder) (cb : List Call → Int) (s : St) :
    ROk (RetOK d cb) (endContinue d s) := by
  unfold endContinue; split <;> trivial

theorem step_ret (d : Decoder) (cb : List Call → Int) (data : List UInt8) (s : St) :
    ROk (RetOK d cb) (step d cb data s) := by
  unfold step
  split
  · exact bad_ret d cb s
  · rename_i op hop
    split
    · trivial
    · rename_i l hl
      split
      · exact bad_ret d cb s
      · unfold exec
        split
        · generalize matchOp d data op l s = r
          cases r with
          | skip s' => trivial
          | go s' =>
            simp only [matchCont]
            unfold afterMatch
            split
            · unfold leafOp
              split
              · split
                · exact leafAct_ret d cb op l _
                · exact bad_ret d cb _
                · trivial
                · trivial
              · exact leafAct_ret d cb op l _
            · split
              · unfold jumpOp
                split
                · exact bad_ret d cb _
                · split <;> trivial
              · exact bad_ret d cb _
          | err => exact bad_ret d cb _
          | dataFault => trivial
          | machFault => trivial
        · split
          · unfold endOp
            split
            · exact bad_ret d cb _
            · split
              · exact bad_ret d cb _
              · dsimp only
                split
                · unfold endIndef
                  split
                  · exact bad_ret d cb _
                  · split
                    · trivial
                    · split
                      · split
                        · exact endContinue_ret d cb _
                        · exact bad_ret d cb _
                      · split
                        · trivial
                        · split
                          · exact bad_ret d cb _
                          · exact endAct_ret d cb op l _
                · unfold endDef
                  split
                  · exact endContinue_ret d cb _
                  · split
                    · exact bad_ret d cb _
                    · exact endAct_ret d cb op l _
          · unfold ctlOp
            dsimp only
            split
            · split
              · trivial
              · exact bad_ret d cb _
            · split
              · rename_i h1d
                split
                · exact bad_ret d cb _
                · rename_i hst
                  refine .inl ⟨rfl, by rw [hop, h1d], ?_, ?_⟩
                  · exact List.length_eq_zero_iff.1 (by omega)
                  · exact List.length_eq_zero_iff.1 (by omega)
              · split
                · trivial
                · split
                  · exact callAct_ret d cb _ _ _ _ _ _
                  · split
                    · split
                      · exact bad_ret d cb _
                      · trivial
                    · exact bad_ret d cb _

/-- The returned value is 0 only if the program ran to `COMPLETE` with every constructed type closed;
otherwise it is `-EMSGSIZE`, `-EBADMSG`, or the negative value returned by the last action, in which case the
run stopped at once. -/
theorem decode_result (d : Decoder) (cb : List Call → Int) (data : List UInt8) (n : Nat) (ret : Int) (s : St)
    (h : decode d cb data n = .halt ret s) :
    (ret = 0 ∧ d.machine[s.pc]? = some 0x1d ∧ s.jstk = [] ∧ s.cstk = []) ∨ ret = -EBADMSG ∨
    (ret < 0 ∧ ret = cb s.trace) ∨ (ret = -EMSGSIZE ∧ 2 ^ 18 < data.length) := by
  have key : ∀ n s0, run d cb data n s0 = .halt ret s → RetOK d cb ret s := by
    intro n
    induction n with
    | zero => intro s0 h; cases h
    | succ n ih =>
      intro s0 h
      unfold run at h
      have := step_ret d cb data s0
      generalize step d cb data s0 = x at h this
      cases x with
      | next s1 => exact ih s1 h
      | halt r s2 => injection h with h1 h2; subst h1 h2; exact this
      | dataFault => cases h
      | machFault => cases h
  unfold decode at h
  split at h
  · rename_i h0
    injection h with h1 h2
    exact .inr (.inr (.inr ⟨h1.symm, h0⟩))
  · rcases key n _ h with h | h | h
    · exact .inl h
    · exact .inr (.inl h)
    · exact .inr (.inr (.inl h))

/-- The code is not total for arbitrary bytecode: an unused opcode has length 0 and is skipped forever. -/
theorem unchecked_loops : ∀ n, ∃ s, run { machine := [0x07], nact := 0 } (fun _ => 0) [] n (start []) = .next s := by
  have h : step { machine := [0x07], nact := 0 } (fun _ => 0) [] (start []) = .next (start []) := rfl
  intro n
  induction n with
  | zero => exact ⟨_, rfl⟩
  | succ n ih =>
    obtain ⟨s, hs⟩ := ih
    exact ⟨s, by unfold run; rw [h]; exact hs⟩

/-! ### Examples: the statements are about runs that do something -/

/-- The returned value and the action calls of a finished run. -/
def outcome : Res → Option (Int × List Call)
  | .halt r s => some (r, s.trace)
  | _ => none

/-- A key usage extension value (`BIT STRING`) is decoded with one action call. -/
example : outcome (decode x509_keyusage (fun _ => 0) [0x03, 0x02, 0x05, 0xa0] 10) =
    some (0, [⟨0, 2, 3, 2, 2⟩]) := by decide +kernel

/-- An error of an action is returned. -/
example : outcome (decode x509_keyusage (fun _ => -22) [0x03, 0x02, 0x05, 0xa0] 10) =
    some (-22, [⟨0, 2, 3, 2, 2⟩]) := by decide +kernel

/-- Truncated input is refused. -/
example : outcome (decode x509_keyusage (fun _ => 0) [0x03, 0x05, 0x05, 0xa0] 10) =
    some (-EBADMSG, []) := by decide +kernel

/-! ### C66: a mandatory element that is missing

The `Validity` of a certificate has two times.  When it has only one, the second `CHOICE` is
skipped because there is no input left, the flag `matched` of the first one is still set, and
the action of the second one is called with the slice of the first. -/

/-- A certificate (names, algorithms and keys are placeholders) whose `Validity` contains the
times `ts`. -/
def certWithTimes (ts : List UInt8) : List UInt8 :=
  let tlv (t : UInt8) (v : List UInt8) : List UInt8 := [t, UInt8.ofNat v.length] ++ v
  let alg := tlv 0x30 (tlv 0x06 [0x2a])
  let name := tlv 0x30 (tlv 0x31 (tlv 0x30 (tlv 0x06 [0x2a] ++ tlv 0x0c [0x41])))
  let spki := tlv 0x30 (alg ++ tlv 0x03 [0x00])
  let tbs := tlv 0x30 (tlv 0x02 [0x01] ++ alg ++ name ++ tlv 0x30 ts ++ name ++ spki)
  tlv 0x30 (tbs ++ alg ++ tlv 0x03 [0x00])

/-- The calls of the actions for notBefore (10) and notAfter (9): tag, offset, length. -/
def timeCalls : Res → Option (Int × List (Nat × Nat × Nat × Nat))
  | .halt r s => some (r, (s.trace.reverse.filter (fun c => c.act = 9 ∨ c.act = 10)).map
      (fun c => (c.act, c.tag, c.off, c.len)))
  | _ => none

/-- With two times both actions get their own slice. -/
theorem two_times : timeCalls (decode x509 (fun _ => 0) (certWithTimes [0x17, 1, 0x39, 0x17, 1, 0x38]) 200) =
    some (0, [(10, 0x17, 28, 1), (9, 0x17, 31, 1)]) := by decide +kernel

/-- With one time the decoder reports success, and both actions get the same slice. -/
theorem missing_time_accepted : timeCalls (decode x509 (fun _ => 0) (certWithTimes [0x17, 1, 0x39]) 200) =
    some (0, [(10, 0x17, 28, 1), (9, 0x17, 28, 1)]) := by decide +kernel

/-- With an empty `Validity` both get the (empty) content of the sequence itself. -/
theorem missing_both_times : timeCalls (decode x509 (fun _ => 0) (certWithTimes []) 200) =
    some (0, [(10, 0x30, 26, 0), (9, 0x30, 26, 0)]) := by decide +kernel

/-- Input behind the outermost element is ignored. -/
theorem trailing_accepted (junk : UInt8) :
    outcome (decode x509_keyusage (fun _ => 0) [0x03, 0x02, 0x05, 0xa0, junk] 10) =
      some (0, [⟨0, 2, 3, 2, 2⟩]) := by
  obtain ⟨x, rfl⟩ : ∃ x : Fin 256, junk = UInt8.ofNat x.val :=
    ⟨⟨junk.toNat, junk.toNat_lt⟩, by simp⟩
  revert x
  decide +kernel

end LC.Asn1
