import Verif.X509.CertExts
/-
The certificate that the generator writes for a given input.
-/
namespace LC.Crt
open LC.Asn1 LC.Asn1.Enc LC.Asn1.Gen LC.Asn1.Tr
open LC.Oid (oidData)

/-- The components of a name have the sizes of `struct lc_x509_certificate_name_component` (`uint8_t`). -/
def Name.Small (nm : Name) : Prop := ∀ e ∈ nameTab nm, e.2.1.length < 256

/-- Input for which the generator writes a complete certificate: there is an issuer and a subject, a serial number and a key with
algorithms that have OIDs; the directory name of the subject alternative name is not used; of the extended key usage only the defined
purposes; the times are from 1950 on. -/
structure Good (c : In) : Prop where
  serial : c.serial ≠ []
  issuer : c.issuer ≠ {}
  issuerSmall : c.issuer.Small
  subject : c.subject ≠ {}
  subjectSmall : c.subject.Small
  dir : c.sanDir = {}
  eku : c.keyEku &&& 0xFC05 = 0
  from0 : c.validFrom ≠ 0 ∨ c.validTo = 0
  from50 : -631152000 ≤ c.validFrom
  to50 : -631152000 ≤ c.validTo
  sigOid : (sigToOid c.sigAlgo).isSome = true
  sigSize : (sigSize c.sigAlgo).isSome = true
  keyOid : (sigToOid c.pubAlgo).isSome = true
  key : (c.gen.sigType ∈ [1, 2, 3, 8, 9, 10, 11, 12, 13] ∧ c.gen.pk ≠ []) ∨ (c.gen.sigType ∈ [4, 5, 6] ∧ c.gen.pk ≠ [] ∧ c.gen.pkEd ≠ [])
  digest : c.gen.digest ≠ []

theorem Good.skid {c : In} (h : Good c) : skidBytes c ≠ [] := by
  unfold skidBytes
  by_cases hs : c.skid = []
  · rw [if_neg (by simp [hs])]; exact h.digest
  · rw [if_pos (by simp [hs])]; exact hs

theorem Good.comp {c : In} (h : Good c) : c.gen.sigType ∈ [4, 5, 6] → c.gen.pk ≠ [] ∧ c.gen.pkEd ≠ [] := by
  intro hk
  rcases h.key with ⟨h1, _⟩ | ⟨_, h1⟩
  · exfalso
    revert h1 hk
    generalize c.gen.sigType = t
    intro h1 hk
    simp only [List.mem_cons, List.not_mem_nil, or_false] at h1 hk
    omega
  · exact h1

/-- The signature placeholder. -/
def sigRoom (c : In) : Bytes := List.replicate ((sigSize c.sigAlgo).getD 0) 0xff

/-- What is written for `c`. -/
def parts (c : In) : CertParts where
  serial := c.serial
  alg := oidData ((sigToOid c.sigAlgo).getD 0)
  issuer := nameAttrs c.issuer
  notBefore := timeTree c.validFrom
  notAfter := timeTree c.validTo
  subject := nameAttrs c.subject
  keyAlg := oidData ((sigToOid c.pubAlgo).getD 0)
  key := keyBytes c
  exts := (kinds c).map (xitem c)
  sig := 0 :: sigRoom c

theorem sigToOid_lt (t o : Nat) (h : sigToOid t = some o) : o < 124 := by
  unfold sigToOid at h
  rw [Option.map_eq_some_iff] at h
  obtain ⟨e, he, rfl⟩ := h
  have : ∀ e ∈ algoTable, e.1 < 124 := by decide
  exact this e (List.mem_of_find?_eq_some he)

theorem algOid_ok (c : In) (x : GCtx) (t : Nat) (ht : (if x.algoSet + 1 = 2 then c.pubAlgo else c.sigAlgo) = t)
    (h : (sigToOid t).isSome = true) : certG c 6 x = out0 (oidData ((sigToOid t).getD 0)) { x with algoSet := x.algoSet + 1 } := by
  have : certG c 6 x = gactS (fun _ => algOidEnc c) 0 x := rfl
  rw [this]
  unfold gactS
  dsimp only
  unfold algOidEnc
  dsimp only
  rw [ht]
  obtain ⟨o, ho⟩ := Option.isSome_iff_exists.mp h
  rw [ho]
  rfl

theorem algOid_ne (t : Nat) (h : (sigToOid t).isSome = true) : oidData ((sigToOid t).getD 0) ≠ [] := by
  obtain ⟨o, ho⟩ := Option.isSome_iff_exists.mp h
  rw [ho]
  exact oid_ne o (sigToOid_lt t o ho)

theorem key_ok (c : In) (h : Good c) (x : GCtx) : certG c 5 x = out0 (keyBytes c) x := by
  unfold certG
  rw [if_neg (by decide)]
  by_cases hk : c.gen.sigType ∈ [4, 5, 6]
  · rw [if_pos ⟨rfl, hk⟩]
  · rw [if_neg (fun h => hk h.2)]
    have h1 : c.gen.sigType ∈ [1, 2, 3, 8, 9, 10, 11, 12, 13] ∧ c.gen.pk ≠ [] := by
      rcases h.key with h1 | h1
      · exact h1
      · exact absurd h1.1 hk
    unfold gactS
    show (match keyEnc c x with | .ok v => some (outT v) | .error _ => none) = _
    unfold keyEnc
    rw [if_pos h1.1]
    unfold bitString
    rw [if_neg h1.2]
    unfold keyBytes
    rw [if_neg hk]
    rfl

theorem keyBytes_ne (c : In) : keyBytes c ≠ [] := by
  unfold keyBytes
  split
  · exact ser_ne _ _
  · simp

theorem sig_ok (c : In) (h : (sigSize c.sigAlgo).isSome = true) (x : GCtx) : certG c 14 x = out0 (0 :: sigRoom c) x := by
  have : certG c 14 x = gactS (fun _ => sigEnc c) 0 x := rfl
  rw [this]
  unfold gactS
  dsimp only
  unfold sigEnc sigRoom
  obtain ⟨o, ho⟩ := Option.isSome_iff_exists.mp h
  rw [ho]
  rfl

theorem notBefore_ok (c : In) (x : GCtx) (h : x.time = c.validFrom) : certG c 10 x = out0 [] { x with timeSet := false } := by
  have : certG c 10 x = gactS (fun _ => notBeforeEnc c) 0 x := rfl
  rw [this]
  unfold gactS
  dsimp only
  unfold notBeforeEnc
  rw [if_neg (by rw [h]; simp)]
  rfl

theorem notAfter_ok (c : In) (x : GCtx) (h : x.time = c.validTo) : certG c 9 x = out0 [] { x with timeSet := false } := by
  have : certG c 9 x = gactS (fun _ => notAfterEnc c) 0 x := rfl
  rw [this]
  unfold gactS
  dsimp only
  unfold notAfterEnc
  rw [if_neg (by rw [h]; simp)]
  rfl

theorem issuer_acts (c : In) (x : GCtx) (h : x.subjAttr = false) : NameActs (certG c) c.issuer (fun d => { x with issDone := d }) where
  h7 := by
    intro d
    show out0 (nameOid (curName c { x with issDone := d }) (curDone { x with issDone := d })) _ = _
    unfold curName curDone
    dsimp only
    rw [h]
    rfl
  h4 := by
    intro d
    show out0 (nameSeg (curName c { x with issDone := d }) (curDone { x with issDone := d })).1 (if x.subjAttr then _ else _) = _
    unfold curName curDone
    dsimp only
    rw [h]
    rfl
  h0 := by
    intro d
    show some (⟨if nameUn (curName c { x with issDone := d }) (curDone { x with issDone := d }) then 1 else 0, [], none, _⟩ : AOut GCtx) = _
    unfold curName curDone
    dsimp only
    rw [h]
    rfl

theorem subject_acts (c : In) (x : GCtx) (h : x.subjAttr = true) : NameActs (certG c) c.subject (fun d => { x with subDone := d }) where
  h7 := by
    intro d
    show out0 (nameOid (curName c { x with subDone := d }) (curDone { x with subDone := d })) _ = _
    unfold curName curDone
    dsimp only
    rw [h]
    rfl
  h4 := by
    intro d
    show out0 (nameSeg (curName c { x with subDone := d }) (curDone { x with subDone := d })).1 (if x.subjAttr then _ else _) = _
    unfold curName curDone
    dsimp only
    rw [h]
    rfl
  h0 := by
    intro d
    show some (⟨if nameUn (curName c { x with subDone := d }) (curDone { x with subDone := d }) then 1 else 0, [], none, _⟩ : AOut GCtx) = _
    unfold curName curDone
    dsimp only
    rw [h]
    rfl

/-- The actions of the generator give the parts. -/
theorem cert_run (c : In) (h : Good c) (hf : ¬ (gmtime c.validFrom).year < 1900) (ht : ¬ (gmtime c.validTo).year < 1900) :
    Nonempty (CertRun (certG c) {} (parts c)) := by
  have e1 := algOid_ok c {} c.sigAlgo rfl h.sigOid
  obtain ⟨d1, hi⟩ := name_run (issuer_acts c { algoSet := 1 } rfl) h.issuer
  have b1 := time_run c { algoSet := 1, issDone := d1, subjAttr := true } rfl hf
  have b2 := notBefore_ok c { algoSet := 1, issDone := d1, subjAttr := true, time := c.validFrom, timeSet := true } rfl
  have hn : nextTime c { algoSet := 1, issDone := d1, subjAttr := true, time := c.validFrom } = c.validTo := by
    unfold nextTime
    dsimp only
    rcases h.from0 with h0 | h0
    · rw [if_neg h0]
    · by_cases h1 : c.validFrom = 0
      · rw [if_pos h1, h1, h0]
      · rw [if_neg h1]
  have a1 := time_run c { algoSet := 1, issDone := d1, subjAttr := true, time := c.validFrom } rfl (by rw [hn]; exact ht)
  rw [hn] at a1
  have a2 := notAfter_ok c { algoSet := 1, issDone := d1, subjAttr := true, time := c.validTo, timeSet := true } rfl
  obtain ⟨d2, hs⟩ := name_run (subject_acts c { algoSet := 1, issDone := d1, subjAttr := true, time := c.validTo } rfl) h.subject
  have e2 := algOid_ok c { algoSet := 1, issDone := d1, subDone := d2, time := c.validTo } c.pubAlgo rfl h.keyOid
  obtain ⟨x', hx, hal⟩ := kinds_run c h.dir h.eku h.skid { algoSet := 2, issDone := d1, subDone := d2, time := c.validTo }
    ⟨rfl, rfl, rfl, rfl, rfl, rfl⟩
  have e3 := algOid_ok c x' c.sigAlgo (by rw [hal]; rfl) h.sigOid
  exact ⟨{
    x1 := _, x2 := _, x3 := _, x4 := _, x5 := _, x6 := _, x7 := _, x8 := _, x9 := _, x10 := _, x11 := _, x12 := _
    h21 := rfl
    h12 := rfl
    serial := h.serial
    h6 := e1
    alg := algOid_ne _ h.sigOid
    h11 := fun _ => rfl
    h13 := fun _ => rfl
    issuer := hi
    h8 := rfl
    before := b1
    h10 := b2
    after := a1
    h9 := a2
    subject := hs
    h15 := rfl
    h6' := e2
    keyAlg := algOid_ne _ h.keyOid
    h5 := key_ok c h _
    key := keyBytes_ne c
    exts := hx
    h16 := fun _ => rfl
    h6'' := e3
    h20 := fun _ => rfl
    h14 := sig_ok c h.sigSize _
    sig := by simp [parts] }⟩

end LC.Crt
