import Verif.X509.Model
/-
Property theorems: C34 (certificate policy predicates), C39 (key identifier comparison).
-/
namespace LC.X509

/-! ### C39 -/

/-- Well formed identifiers: what `asymmetric_key_generate_id` produces. -/
def Kid.WF (k : Kid) : Prop := k.data.length = kidMax ∧ k.len ≤ kidMax

theorem generateId_spec (a b : Bytes) (k : Kid) (h : generateId a b = .ok k) :
    k.WF ∧ k.value = a ++ b := by
  unfold generateId at h
  split at h
  · simp at h
  · rename_i hl
    simp only [Except.ok.injEq] at h
    subst h
    refine ⟨⟨?_, by dsimp only; omega⟩, ?_⟩
    · show (a ++ b ++ List.replicate _ 0).length = _
      simp only [List.length_append, List.length_replicate]
      omega
    · show (a ++ b ++ List.replicate _ 0).take (a.length + b.length) = _
      exact List.take_left' (by simp)

/-- What the comparison decides: the second identifier is a prefix of the first one's buffer. -/
theorem idSame_iff_prefix (k1 k2 : Kid) (h1 : k1.WF) (h2 : k2.WF) :
    idSame k1 k2 = true ↔ k2.value <+: k1.data := by
  unfold idSame Kid.value
  rw [beq_iff_eq]
  constructor
  · intro h; rw [← h]; exact List.take_prefix _ _
  · intro h
    have := List.prefix_iff_eq_take.mp h
    rw [List.length_take, h2.1] at this
    rw [this]
    congr 1
    have := h2.2
    omega

/-- C39 for identifiers of equal length: the comparison is equality of the identifiers.
Missing for the full claim: identifiers of different length, see `idSame_prefix` and
`idSame_not_symmetric`. -/
theorem idSame_partial (k1 k2 : Kid) (hl : k1.len = k2.len) :
    idSame k1 k2 = true ↔ k1.value = k2.value := by
  unfold idSame Kid.value
  rw [beq_iff_eq, hl]

/-- Equal identifiers are always found equal (no false negatives). -/
theorem idSame_complete (k1 k2 : Kid) (h1 : k1.WF) (h2 : k2.WF) (h : k1.value = k2.value) :
    idSame k1 k2 = true := by
  rw [idSame_iff_prefix k1 k2 h1 h2, ← h]
  exact List.take_prefix _ _

/-- C39 is false for identifiers of different length: every proper prefix (in particular the empty
identifier) is found equal to the longer identifier, but not the other way round. -/
theorem idSame_prefix (a b : Bytes) (k1 k2 : Kid) (h1 : generateId a b = .ok k1)
    (h2 : generateId a [] = .ok k2) : idSame k1 k2 = true := by
  obtain ⟨w1, v1⟩ := generateId_spec _ _ _ h1
  obtain ⟨w2, v2⟩ := generateId_spec _ _ _ h2
  rw [idSame_iff_prefix k1 k2 w1 w2, v2, List.append_nil]
  have : a <+: k1.value := by rw [v1]; exact List.prefix_append _ _
  exact this.trans (List.take_prefix _ _)

theorem idSame_not_symmetric :
    ∃ k1 k2 : Kid, k1.WF ∧ k2.WF ∧ k1.value ≠ k2.value ∧ idSame k1 k2 = true ∧ idSame k2 k1 = false := by
  refine ⟨⟨2, [1, 2] ++ List.replicate 190 0⟩, ⟨1, [1] ++ List.replicate 191 0⟩, ?_⟩
  refine ⟨⟨by decide +kernel, by decide⟩, ⟨by decide +kernel, by decide⟩, by decide +kernel, by decide +kernel,
    by decide +kernel⟩

/-- The identifier built from serial number and issuer does not determine the two: moving bytes
over the boundary gives the same identifier. -/
theorem generateId_boundary (a b c : Bytes) : generateId (a ++ b) c = generateId a (b ++ c) := by
  unfold generateId
  simp only [List.length_append, List.append_assoc, Nat.add_assoc]

/-! ### C34 -/

/-- Bit test. -/
def Spec.Has (x m : UInt16) : Prop := ∀ i < 16, m.toNat.testBit i = true → x.toNat.testBit i = true

theorem and_eq_iff_has (x m : UInt16) : x &&& m = m ↔ Spec.Has x m := by
  rw [← UInt16.toNat_inj, UInt16.toNat_and]
  constructor
  · intro h i _ hm
    have := congrArg (·.testBit i) h
    simp only [Nat.testBit_and, hm, Bool.and_true] at this
    exact this
  · intro h
    apply Nat.eq_of_testBit_eq
    intro i
    rw [Nat.testBit_and]
    by_cases hi : i < 16
    · cases hm : m.toNat.testBit i
      · simp
      · simp [h i hi hm]
    · have : m.toNat.testBit i = false :=
        Nat.testBit_lt_two_pow (Nat.lt_of_lt_of_le m.toNat_lt (Nat.pow_le_pow_right (by decide) (by omega)))
      simp [this]

theorem and_not_and (x p r : UInt16) (h : r &&& p = 0) : (x &&& ~~~p) &&& r = x &&& r := by
  apply UInt16.eq_of_toBitVec_eq
  have h' := congrArg UInt16.toBitVec h
  ext i hi
  have hb := congrArg (fun z : BitVec 16 => z[i]) h'
  simp at hb ⊢
  cases hr : r.toBitVec[i] <;> cases hp : p.toBitVec[i] <;> simp_all

/-- C34, key usage: no requirement is always met; otherwise the extension has to be present and to
contain every required bit. -/
theorem matchKeyUsage_iff (c : Cert) (req : UInt16) (hreq : req &&& KU_PRESENT = 0) :
    matchKeyUsage c req = true ↔
      req = 0 ∨ (c.pub.keyUsage &&& KU_PRESENT ≠ 0 ∧ Spec.Has c.pub.keyUsage req) := by
  unfold matchKeyUsage
  by_cases h0 : req = 0
  · simp [h0]
  · rw [if_neg h0]
    by_cases hp : c.pub.keyUsage &&& KU_PRESENT = 0
    · simp [hp, h0]
    · rw [if_neg hp]
      have e := and_not_and c.pub.keyUsage KU_PRESENT req hreq
      rw [e]
      simp [h0, hp, and_eq_iff_has]

/-- C34, extended key usage. -/
theorem matchEku_iff (c : Cert) (req : UInt16) (hreq : req &&& EKU_PRESENT = 0) :
    matchEku c req = true ↔
      req = 0 ∨ (c.pub.keyEku &&& EKU_PRESENT ≠ 0 ∧ Spec.Has c.pub.keyEku req) := by
  unfold matchEku
  by_cases h0 : req = 0
  · simp [h0]
  · rw [if_neg h0]
    by_cases hp : c.pub.keyEku &&& EKU_PRESENT = 0
    · simp [hp, h0]
    · rw [if_neg hp]
      have e := and_not_and c.pub.keyEku EKU_PRESENT req hreq
      rw [e]
      simp [h0, hp, and_eq_iff_has]

/-- C34, validity period: for a certificate whose bounds are given and not the epoch itself, the
check is exactly `notBefore ≤ now ≤ notAfter` (RFC 5280 4.1.2.5).
Missing for the full claim: bounds equal to the epoch, see `timeValid_epoch_unbounded`. -/
theorem timeValid_partial (c : Cert) (now : Int) (hn : 0 ≤ now) (hf : 0 < c.validFrom)
    (ht : 0 < c.validTo) :
    timeValid c now = 1 ↔ c.validFrom ≤ now ∧ now ≤ c.validTo := by
  unfold timeValid
  rw [if_neg (by omega), if_neg (by omega)]
  split
  · constructor
    · intro h; exact absurd h (by decide)
    · intro h; omega
  · split
    · constructor
      · intro h; exact absurd h (by decide)
      · intro h; omega
    · exact ⟨fun _ => by omega, fun _ => rfl⟩

/-- The result is one of: error for a negative time, false, true. -/
theorem timeValid_range (c : Cert) (now : Int) :
    (timeValid c now = -EINVAL ∧ now < 0) ∨ timeValid c now = 0 ∨ timeValid c now = 1 := by
  unfold timeValid
  repeat' split
  all_goals simp_all

/-- C34 is false for a certificate that expired at the epoch: `notAfter = 1970-01-01 00:00:00Z`
(which the decoder accepts as UTCTime `700101000000Z`) is treated as "no upper bound" and the
certificate is valid at every later time. -/
theorem timeValid_epoch_unbounded (c : Cert) (now : Int) (hf : c.validFrom = 0) (ht : c.validTo = 0)
    (hn : 0 ≤ now) : timeValid c now = 1 := by
  unfold timeValid
  rw [if_neg (by omega), hf, ht]
  simp

/-- C34, CA: RFC 5280 4.2.1.2 (subject key identifier), 4.2.1.3 (keyCertSign if key usage is
present), 4.2.1.9 (basic constraints critical, cA), version 3, a signature and an identification
(4.2.1.6). -/
theorem isCa_iff (c : Cert) : isCa c = true ↔
    c.rawSkid ≠ [] ∧
    (c.rawSubject.isSome ∨ c.sanDns.isSome ∨ c.sanIp.isSome) ∧
    (c.pub.keyUsage &&& KU_PRESENT ≠ 0 → c.pub.keyUsage &&& KU_KEYCERTSIGN ≠ 0) ∧
    c.pub.caPathlen &&& CA_MASK ≠ 0 ∧ c.pub.caPathlen &&& CA_CRITICAL ≠ 0 ∧
    3 ≤ c.version ∧ (∃ s, c.sig.s = some s ∧ s ≠ []) := by
  have hsig : containsSignature c = true ↔ ∃ s, c.sig.s = some s ∧ s ≠ [] := by
    unfold containsSignature
    cases c.sig.s with
    | none => simp
    | some s => simp
  have hval : certValid c = true ↔
      c.rawSkid ≠ [] ∧ (c.rawSubject.isSome ∨ c.sanDns.isSome ∨ c.sanIp.isSome) := by
    unfold certValid
    cases c.rawSubject <;> cases c.sanDns <;> cases c.sanIp <;> simp
  rw [← hsig]
  unfold isCa
  by_cases h1 : certValid c = true
  · obtain ⟨a, b⟩ := hval.mp h1
    have a' : ¬ c.rawSkid.length = 0 := by simpa using a
    rw [h1]
    simp only [Bool.not_true, Bool.false_eq_true, if_false, a', ne_eq, a, not_false_eq_true, b, true_and]
    by_cases h2 : c.pub.keyUsage &&& KU_PRESENT = 0 <;>
    by_cases h3 : c.pub.keyUsage &&& KU_KEYCERTSIGN = 0 <;>
    by_cases h4 : c.pub.caPathlen &&& CA_MASK = 0 <;>
    by_cases h5 : c.pub.caPathlen &&& CA_CRITICAL = 0 <;>
    by_cases h6 : 3 ≤ c.version <;>
    cases h7 : containsSignature c <;>
    simp [h2, h3, h4, h5, h6]
  · have : certValid c = false := by simpa using h1
    rw [this]
    simp only [Bool.not_false, if_true, Bool.false_eq_true, false_iff]
    rintro ⟨a, b, _⟩
    exact h1 (hval.mpr ⟨a, b⟩)

/-- C34, root CA: a CA whose signature verified under its own key and whose authority key
identifier, if present, is its subject key identifier. -/
theorem isRootCa_iff (c : Cert) : isRootCa c = true ↔
    isCa c = true ∧ c.selfSigned = true ∧ (∀ a, c.rawAkid = some a → a = c.rawSkid) := by
  unfold isRootCa
  by_cases hca : isCa c = true
  · have hs : ¬ c.rawSkid.length = 0 := by
      have := (isCa_iff c).mp hca
      simpa using this.1
    cases hk : c.rawAkid with
    | none => simp [hca]
    | some a =>
      have hm : matchAkid c (some c.rawSkid) = (a == c.rawSkid) := by
        unfold matchAkid; rw [hk]
      rw [if_neg hs, hm]
      by_cases e : a = c.rawSkid
      · subst e; simp [hca]
      · simp [e]
  · have : isCa c = false := by simpa using hca
    rw [this]
    simp

/-- The self-signed flag is only ever set on a certificate whose own key verifies its signature
and whose subject is its issuer. -/
theorem selfSigned_sound (cr : Crypto) (c : Cert) (h0 : c.selfSigned = false)
    (h : (checkSelfSigned cr c).2.selfSigned = true) :
    verifySignature cr c.pub c.sig ≥ 0 ∧ c.rawSubject.getD [] = c.rawIssuer.getD [] := by
  unfold checkSelfSigned at h
  split at h
  · simp [h0] at h
  · rename_i hs
    dsimp only at h
    split at h
    · simp [h0] at h
    · split at h
      · simp [h0] at h
      · split at h
        · simp [h0] at h
        · split at h
          · split at h <;> simp [h0] at h
          · exact ⟨by omega, by simpa using hs⟩

/-- What a successful signature check means: the algorithm implementation accepted the signature
bytes for the selected message under this key. -/
theorem verifySignature_sound (cr : Crypto) (k : PubKey) (sig : Sig)
    (h : verifySignature cr k sig ≥ 0) :
    ∃ s m, sig.s = some s ∧ sig.message = some m ∧ cr.supported k.algo = true ∧
      cr.prim k.algo k.key m s ≥ 0 ∧ (sig.algo > 0 → sig.algo = k.algo) := by
  unfold verifySignature at h
  cases hs : sig.s with
  | none => simp only [hs] at h; exact absurd h (by decide)
  | some s =>
    simp only [hs] at h
    split at h
    · exact absurd h (by decide)
    · rename_i ha
      split at h
      · omega
      · split at h
        · rename_i hsup
          cases hm : sig.message with
          | none => rw [hm] at h; simp [callPrim, EOPNOTSUPP] at h
          | some m =>
            rw [hm] at h
            refine ⟨s, m, rfl, rfl, hsup, h, ?_⟩
            intro hp
            by_cases e : k.algo = sig.algo
            · exact e.symm
            · exact absurd ⟨hp, e⟩ ha
        · exact absurd h (by decide)

/-! ### Extension parsing (part of C34) -/

/-- RFC 5280 4.2.1.3: named bit `i` of the key usage BIT STRING, most significant bit first. -/
def Spec.kuBit (bits : UInt8) (i : Nat) : Bool := bits.toNat.testBit (7 - i)

/-- The flag masks of `lc_x509_common.h:133-140` for the named bits 0 to 7. -/
def kuMask : List UInt16 := [0x80, 0x40, 0x20, 0x10, 0x08, 0x04, 0x02, 0x01]

/-- C34, key usage from its encoding: parsing a key usage extension with one content octet sets
exactly the flags of the named bits. -/
theorem keyUsage_bits (st st' : ExtState) (unused bits : UInt8) (hu : unused < 8)
    (h : keyUsageAct st [unused, bits] = some st') (i : Fin 8) :
    (st'.keyUsage &&& kuMask.getD i.val 0 ≠ 0) ↔ Spec.kuBit bits i.val = true := by
  unfold keyUsageAct at h
  simp only [Option.some.injEq] at h
  subst h
  dsimp only
  obtain ⟨u, rfl⟩ : ∃ u : Fin 8, unused = UInt8.ofNat u.val :=
    ⟨⟨unused.toNat, by simpa [UInt8.lt_iff_toNat_lt] using hu⟩, by simp⟩
  obtain ⟨b, rfl⟩ : ∃ b : Fin 256, bits = UInt8.ofNat b.val := ⟨⟨bits.toNat, bits.toNat_lt⟩, by simp⟩
  cases st.critical
  all_goals
    clear st hu
    revert i u b
    decide +kernel

/-- C34, basic constraints from the encoding: after one basic constraints extension the CA
conditions of `isCa` hold exactly if `cA` is TRUE. -/
theorem basicConstraints_ca (ca pl : Option Bytes) (crit : Option Bytes) (st st' : ExtState)
    (h0 : st.caPathlen = 0) (h : extStep st ⟨crit, .basicConstraints ca pl⟩ = some st') :
    (st'.caPathlen &&& CA_MASK ≠ 0 ∧ st'.caPathlen &&& CA_CRITICAL ≠ 0) ↔ ca = some [0xff] := by
  have hbyte : ∀ v w : UInt8,
      ((((if v = 0xff then CA_MAXLEN else 0) ||| (if v = 0xff then CA_CRITICAL else 0)) &&& ~~~CA_MAXLEN |||
        (if CA_MAXLEN < w then CA_MAXLEN else w)) &&& CA_MASK ≠ 0 ∧
      (((if v = 0xff then CA_MAXLEN else 0) ||| (if v = 0xff then CA_CRITICAL else 0)) &&& ~~~CA_MAXLEN |||
        (if CA_MAXLEN < w then CA_MAXLEN else w)) &&& CA_CRITICAL ≠ 0) ↔ v = 0xff ∧ w ≠ 0 := by
    intro v w
    by_cases hv : v = 0xff
    · simp only [hv, if_true, true_and]
      obtain ⟨x, rfl⟩ : ∃ x : Fin 256, w = UInt8.ofNat x.val := ⟨⟨w.toNat, w.toNat_lt⟩, by simp⟩
      revert x
      decide +kernel
    · simp only [hv, if_false, false_and, iff_false]
      obtain ⟨x, rfl⟩ : ∃ x : Fin 256, w = UInt8.ofNat x.val := ⟨⟨w.toNat, w.toNat_lt⟩, by simp⟩
      clear hv
      revert x
      decide +kernel
  have hbyte0 : ∀ w : UInt8,
      ¬ (((0 : UInt8) &&& ~~~CA_MAXLEN ||| (if CA_MAXLEN < w then CA_MAXLEN else w)) &&& CA_MASK ≠ 0 ∧
      ((0 : UInt8) &&& ~~~CA_MAXLEN ||| (if CA_MAXLEN < w then CA_MAXLEN else w)) &&& CA_CRITICAL ≠ 0) := by
    intro w
    obtain ⟨x, rfl⟩ : ∃ x : Fin 256, w = UInt8.ofNat x.val := ⟨⟨w.toNat, w.toNat_lt⟩, by simp⟩
    revert x
    decide +kernel
  have hca : ∀ v : UInt8,
      ((((if v = 0xff then CA_MAXLEN else 0) ||| (if v = 0xff then CA_CRITICAL else 0)) &&& CA_MASK ≠ 0 ∧
      ((if v = 0xff then CA_MAXLEN else 0) ||| (if v = 0xff then CA_CRITICAL else 0)) &&& CA_CRITICAL ≠ 0)) ↔
        v = 0xff := by
    intro v
    by_cases hv : v = 0xff
    · simp only [hv, if_true, iff_true]; decide
    · simp only [hv, if_false, iff_false]; decide
  unfold extStep at h
  simp only at h
  obtain ⟨st1, h1, h2⟩ := Option.bind_eq_some_iff.mp h
  have hst1 : st1.caPathlen = 0 := by
    unfold extCritical at h1
    split at h1
    · cases h1; exact h0
    · cases h1; exact h0
    · cases h1
  unfold extBody at h2
  simp only at h2
  obtain ⟨st2, h3, h4⟩ := Option.bind_eq_some_iff.mp h2
  unfold basicConstraintsPathlen at h4
  unfold basicConstraintsCa at h3
  split at h3
  · cases h3
    simp only [reduceCtorEq, iff_false]
    split at h4
    · cases h4; rw [hst1]; decide
    · split at h4
      · cases h4; rw [hst1]; decide
      · cases h4
        dsimp only
        rw [hst1]
        exact hbyte0 _
    · cases h4
  · rename_i v
    cases h3
    dsimp only at h4
    have hinj : (some [v] = some [(0xff : UInt8)]) ↔ v = 0xff := by simp
    rw [hinj]
    split at h4
    · cases h4; exact hca v
    · split at h4
      · cases h4; exact hca v
      · rename_i w hw
        cases h4
        rw [hbyte v w]
        exact ⟨fun x => x.1, fun x => ⟨x, hw⟩⟩
    · cases h4
  · cases h3

/-- RFC 5280 4.2.1.9 demands that a CA's basic constraints are marked critical, and `isCa` means to
enforce it (`x509_policies.c:86-89`).  The enforcement is void: the "critical" flag stored with
the path length is copied from the `cA` BOOLEAN, so that an extension explicitly marked
non-critical gives the same state as a critical one. -/
theorem basicConstraints_criticality_not_enforced :
    ∃ st', extStep {} ⟨some [0x00], .basicConstraints (some [0xff]) none⟩ = some st' ∧
      st'.caPathlen &&& CA_CRITICAL ≠ 0 ∧ st'.caPathlen &&& CA_MASK ≠ 0 := by
  exact ⟨_, rfl, by decide, by decide⟩

/-- The criticality of an extension without explicit `critical` (DEFAULT FALSE) is taken over from
the extension before it: the same key usage extension is recorded as critical or not depending
on what precedes it. -/
theorem criticality_is_sticky :
    ∃ st1 st2 : ExtState,
      extRun {} [⟨none, .keyUsage [1, 6]⟩] = some st1 ∧
      extRun {} [⟨some [0xff], .other⟩, ⟨none, .keyUsage [1, 6]⟩] = some st2 ∧
      st1.keyUsage &&& KU_CRITICAL = 0 ∧ st2.keyUsage &&& KU_CRITICAL ≠ 0 :=
  ⟨_, _, rfl, rfl, by decide, by decide⟩

/-! ### Non-vacuity -/

def exampleCa : Cert where
  pub := { key := [1], algo := 2, keyUsage := 0x2006, caPathlen := 0x90 }
  sig := { s := some [7], algo := 2, raw := some [9] }
  id := ⟨2, [1, 2] ++ List.replicate 190 0⟩
  rawSubject := some [5]
  rawIssuer := some [5]
  rawSkid := [3]
  selfSigned := true
  validFrom := 10
  validTo := 20

example : isCa exampleCa = true ∧ isRootCa exampleCa = true ∧ matchKeyUsage exampleCa KU_KEYCERTSIGN = true ∧
    timeValid exampleCa 15 = 1 ∧ timeValid exampleCa 21 = 0 := by decide
example : ∃ k, generateId [1, 2] [3] = .ok k := ⟨_, rfl⟩

end LC.X509
