import Verif.P7.AA
/-
What `lc_pkcs7_generate` writes.
-/
namespace LC.P7
open LC.Asn1 LC.Asn1.Enc LC.Asn1.Gen LC.Asn1.Tr
open LC.X509 (kidMax)
open LC.Oid (oidData)
open LC.Crt (EINVAL EFAULT ENOPKG ENOSTEPS maxTime sigToOid)

set_option maxRecDepth 8000

/-- The DER encoding of the authenticated attributes of a signer. -/
def aaDer (v : Env) (m : GMsg) (h : Nat) (s : Signer) : Bytes := serL ((aaList v m h s).map aaTree)

/-- What a signer signs: the digest of the content or of the attributes as a SET OF. -/
def tbs (v : Env) (m : GMsg) (h : Nat) (s : Signer) : Bytes :=
  if s.aaSet = 0 then v.hash h m.data else v.hash h (tlv 0x31 (aaDer v m h s))

/-- The messages considered. -/
structure Ready (v : Env) (m : GMsg) (h : Nat) : Prop where
  certsNe : m.certs ≠ []
  signersNe : m.signers ≠ []
  certs : ∀ c ∈ m.certs, ∃ b, c.raw = tlv 0x30 b ∧ 2 ≤ b.length ∧ b.length < 2 ^ 24
  dataType : m.dataType = OID_data
  hlt : h < 8
  hash : ∀ s ∈ m.signers, getDigest s = .ok h
  skid : ∀ s ∈ m.signers, s.cert.skid ≠ [] ∧ s.cert.skid.length ≤ kidMax
  anySkid : ∃ c ∈ m.certs, c.skid ≠ []
  alg : ∀ s ∈ m.signers, (sigToOid s.cert.pubAlgo).isSome = true
  sigType : ∀ s ∈ m.signers, s.cert.sigType ≠ 0
  signs : ∀ s ∈ m.signers, ∃ b, b ≠ [] ∧ v.sign s.cert (.digest h (tbs v m h s)) = some b
  hashNe : ∀ b, v.hash h b ≠ []
  now0 : 0 ≤ v.now
  now1 : v.now ≤ maxTime
  attrs : (∀ s ∈ m.signers, s.aaSet = 5 ∨ s.aaSet = 7) ∨ ∃ s, m.signers = [s] ∧ s.aaSet = 0

/-! ### The actions -/

/-- The states in which the attributes are written as expected. -/
def AAState (h : Nat) (x : GC) : Prop :=
  ∃ s ss, x.sinfos = s :: ss ∧ (s.aaSet = 5 ∨ s.aaSet = 7) ∧ x.applied = 0 ∧ getDigest s = .ok h

def aaOut (v : Env) (m : GMsg) (h : Nat) (s : Signer) (x : GC) : AOut GC :=
  let d := tbs v m h s
  ⟨0, aaDer v m h s, none, { x with applied := s.aaSet, digSize := d.length, digBuf := d ++ x.digBuf.drop d.length }⟩

open Classical in
/-- The results of the actions. -/
noncomputable def p7G (v : Env) (m : GMsg) (h n : Nat) : GAct GC := fun i x =>
  if i = 24 ∧ AAState h x then
    match x.sinfos with
    | [] => none
    | s :: _ => some (aaOut v m h s x)
  else (p7Acts v m (some h) n i x).toOption

theorem stripHdr_neg (b : Bytes) (r : Int) (h : stripHdr b = .error r) : r < 0 := by
  unfold stripHdr at h
  dsimp only at h
  split at h
  · split at h
    · cases h; decide
    · split at h
      · cases h; decide
      · split at h
        · cases h; decide
        · cases h
  · cases h

theorem authattrs_neg (v : Env) (m : GMsg) (ah : Option Nat) (n : Nat) (x : GC) (r : Int) (h : authattrsEnc v m ah n x = .error r) : r < 0 := by
  unfold authattrsEnc at h
  split at h
  · cases h
  · cases h; decide
  · split at h
    · cases h
    · split at h
      · split at h
        · cases h; assumption
        · split at h
          · cases h; decide
          · split at h
            · cases h; decide
            · split at h
              · rename_i he; cases h; exact stripHdr_neg _ _ he
              · cases h
      · cases h; decide

theorem p7Acts_neg (v : Env) (m : GMsg) (ah : Option Nat) (n i : Nat) (x : GC) (r : Int) (h : p7Acts v m ah n i x = .error r) : r < 0 := by
  unfold p7Acts at h
  split at h
  · unfold attrContEnc at h; split at h <;> cases h; decide
  · cases h
  · cases h
  · unfold digestOidEnc at h
    split at h
    · cases h; decide
    · split at h
      · rename_i he; cases h; exact getDigest_neg _ _ he
      · split at h <;> cases h; decide
  · unfold attrSegEnc at h
    split at h
    · cases h; decide
    · split at h <;> cases h
  · unfold certContEnc at h; split at h <;> cases h
  · unfold certEnc at h
    split at h
    · cases h; decide
    · split at h
      · cases h; decide
      · split at h
        · rename_i he; cases h; exact stripHdr_neg _ _ he
        · cases h
  · unfold attrOidEnc at h; split at h <;> cases h; decide
  · cases h
  · unfold signedInfoEnc at h; split at h <;> cases h
  · cases h
  · unfold siVersionEnc at h; split at h <;> cases h; decide
  · unfold pkeyOidEnc at h
    dsimp only at h
    split at h
    · cases h; decide
    · split at h <;> cases h; decide
  · unfold serialEnc at h; split at h <;> cases h; decide
  · exact authattrs_neg v m ah n x r h
  · unfold signatureEnc at h
    split at h
    · cases h; decide
    · split at h
      · cases h; decide
      · split at h
        · rename_i he; cases h; exact getDigest_neg _ _ he
        · dsimp only at h
          split at h <;> cases h; decide
  · unfold skidEnc at h; split at h <;> cases h; decide
  · cases h

/-- If the attributes are written then as expected. -/
theorem authattrs_some (v : Env) (m : GMsg) (h n : Nat) (hd : m.dataType = OID_data) (hh : ∀ b, v.hash h b ≠ []) (h0 : 0 ≤ v.now)
    (h1 : v.now ≤ maxTime) (x : GC) (s : Signer) (ss : List Signer) (hx : x.sinfos = s :: ss) (hs : s.aaSet = 5 ∨ s.aaSet = 7)
    (ha : x.applied = 0) (hg : getDigest s = .ok h) (o : AOut GC) (ho : authattrsEnc v m (some h) n x = .ok o) : o = aaOut v m h s x := by
  unfold authattrsEnc at ho
  rw [hx] at ho
  dsimp only at ho
  have hz : s.aaSet ≠ 0 := by rcases hs with e | e <;> rw [e] <;> decide
  rw [if_neg hz] at ho
  cases he : encode (aaEncoder v m) small x 500 n with
  | halt r st =>
    rw [he] at ho
    dsimp only at ho
    by_cases hr : r < 0
    · rw [if_pos hr] at ho; cases ho
    · rw [if_neg hr] at ho
      obtain ⟨e1, e2, e3, e4⟩ := aa_encode v m h s hs hg hd (hh _) h0 h1 x ss hx ha 500 n r st he hr
      have e5 : st.out = tlv 0x31 (aaDer v m h s) := e1
      have e6 : (aaDer v m h s).length < 2 ^ 24 := e4
      rw [if_neg (by rcases hs with e | e <;> rw [e] <;> decide), if_neg (by rcases hs with e | e <;> rw [e] <;> exact fun hq => absurd hq.2 (by decide)),
        e5, stripHdr_tlv _ _ e6, e2] at ho
      dsimp only at ho
      have e7 : (0x31 : UInt8) :: (tlv 0x31 (aaDer v m h s)).drop 1 = tlv 0x31 (aaDer v m h s) := rfl
      rw [e7] at ho
      have e8 : tbs v m h s = v.hash h (tlv 0x31 (aaDer v m h s)) := by unfold tbs; rw [if_neg hz]
      unfold aaOut
      rw [e8]
      dsimp only
      injection ho with ho
      exact ho.symm
  | _ => rw [he] at ho; cases ho

theorem p7_agree (v : Env) (m : GMsg) (h n : Nat) (hd : m.dataType = OID_data) (hh : ∀ b, v.hash h b ≠ []) (h0 : 0 ≤ v.now)
    (h1 : v.now ≤ maxTime) : Agree (p7Encoder v m (some h) n) (p7G v m h n) where
  ok := by
    intro i x avail o ho
    have hs := (simple_agree (p7Acts v m (some h) n) pkcs7 (p7Acts_neg v m (some h) n)).ok i x avail o ho
    unfold simpleG at hs
    unfold p7G
    by_cases hc : i = 24 ∧ AAState h x
    · rw [if_pos hc]
      obtain ⟨hi, s, ss, hx, hq, ha, hg⟩ := hc
      subst hi
      rw [hx]
      dsimp only
      have hs' : (authattrsEnc v m (some h) n x).toOption = some o := hs
      cases he : authattrsEnc v m (some h) n x with
      | error e => rw [he] at hs'; cases hs'
      | ok o' =>
        rw [he] at hs'
        injection hs' with hs'
        subst hs'
        rw [authattrs_some v m h n hd hh h0 h1 x s ss hx hq ha hg _ he]
    · rw [if_neg hc]
      exact hs
  err := (simple_agree (p7Acts v m (some h) n) pkcs7 (p7Acts_neg v m (some h) n)).err

variable {v : Env} {m : GMsg} {h n : Nat}

theorem p7G_ne (i : Nat) (hi : i ≠ 24) (x : GC) : p7G v m h n i x = (p7Acts v m (some h) n i x).toOption := by
  unfold p7G
  rw [if_neg (fun hc => hi hc.1)]

theorem p7G_nops : Nops (p7G v m h n) where
  h1 := fun x => p7G_ne 1 (by decide) x
  h2 := fun x => p7G_ne 2 (by decide) x
  h9 := fun x => p7G_ne 9 (by decide) x
  h12 := fun x => p7G_ne 12 (by decide) x
  h13 := fun x => p7G_ne 13 (by decide) x
  h18 := fun x => p7G_ne 18 (by decide) x
  h19 := fun x => p7G_ne 19 (by decide) x
  h20 := fun x => p7G_ne 20 (by decide) x
  h21 := fun x => p7G_ne 21 (by decide) x

/-! ### The run -/

/-- The contents of a certificate. -/
def body (c : GCert) : Bytes := (stripHdr c.raw).toOption.getD []

theorem tlv_len (t : UInt8) (b : Bytes) : b.length + 2 ≤ (tlv t b).length := by
  unfold tlv
  have := derLen_length b.length
  simp
  omega

theorem body_ok (c : GCert) (hc : ∃ b, c.raw = tlv 0x30 b ∧ 2 ≤ b.length ∧ b.length < 2 ^ 24) :
    body c ≠ [] ∧ c.raw = tlv 0x30 (body c) ∧ (body c).length < 2 ^ 24 ∧
    ∀ x : GC, ∀ cs, x.certs = c :: cs → certEnc x = .ok ⟨0, body c, some 0x30, x⟩ := by
  obtain ⟨b, e, h2, h3⟩ := hc
  have hb : body c = b := by unfold body; rw [e, stripHdr_tlv _ _ h3]; rfl
  rw [hb]
  refine ⟨by intro h; rw [h] at h2; simp at h2, e, h3, fun x cs hx => ?_⟩
  unfold certEnc
  rw [hx]
  dsimp only
  have := tlv_len 0x30 b
  rw [e, if_neg (by omega), stripHdr_tlv _ _ h3]
  rfl

theorem certs_run : ∀ (cs : List GCert), cs ≠ [] → (∀ c ∈ cs, ∃ b, c.raw = tlv 0x30 b ∧ 2 ≤ b.length ∧ b.length < 2 ^ 24) → ∀ x : GC,
    x.certs = cs → CertsRun (p7G v m h n) x (cs.map fun c => (0x30, body c)) { x with certs := [] }
  | [], hc, _, _, _ => absurd rfl hc
  | [c], _, hb, x, hx => by
    obtain ⟨h1, _, _, h2⟩ := body_ok c (hb c (by simp))
    refine ⟨h1, ?_, ?_⟩
    · rw [p7G_ne 10 (by decide)]
      show (certEnc x).toOption = _
      rw [h2 x [] hx]
      rfl
    · rw [p7G_ne 8 (by decide)]
      show (certContEnc x).toOption = _
      unfold certContEnc
      rw [hx]
      rfl
  | c :: c' :: cs, _, hb, x, hx => by
    obtain ⟨h1, _, _, h2⟩ := body_ok c (hb c (by simp))
    refine ⟨h1, ?_, { x with certs := c' :: cs }, ?_, ?_⟩
    · rw [p7G_ne 10 (by decide)]
      show (certEnc x).toOption = _
      rw [h2 x _ hx]
      rfl
    · rw [p7G_ne 8 (by decide)]
      show (certContEnc x).toOption = _
      unfold certContEnc
      rw [hx]
      rfl
    · exact certs_run (c' :: cs) (by simp) (fun a ha => hb a (by simp [ha])) { x with certs := c' :: cs } rfl

/-- The signature of a signer. -/
def sigOf (v : Env) (m : GMsg) (h : Nat) (s : Signer) : Bytes := (v.sign s.cert (.digest h (tbs v m h s))).getD []

def hOid (h : Nat) : Bytes := oidData ((hashToOid h).getD 0)

def pkOid (s : Signer) : Bytes := oidData ((sigToOid s.cert.pubAlgo).getD 0)

def siOf (v : Env) (m : GMsg) (h : Nat) (s : Signer) : SiP :=
  ⟨3, .skid s.cert.skid, hOid h, aaDer v m h s, pkOid s, sigOf v m h s⟩

theorem hOid_ne : ∀ h, h < 8 → hOid h ≠ [] := by decide

/-- What is known of a signer. -/
structure SOk (v : Env) (m : GMsg) (h : Nat) (s : Signer) : Prop where
  hash : getDigest s = .ok h
  skid : s.cert.skid ≠ []
  alg : (sigToOid s.cert.pubAlgo).isSome = true
  sigType : s.cert.sigType ≠ 0
  signs : ∃ b, b ≠ [] ∧ v.sign s.cert (.digest h (tbs v m h s)) = some b

theorem hash_act (hlt : h < 8) (s : Signer) (ss : List Signer) (hg : getDigest s = .ok h) (x : GC) (hx : x.sinfos = s :: ss) :
    p7G v m h n 5 x = out0 (hOid h) x := by
  rw [p7G_ne 5 (by decide)]
  show (digestOidEnc x).toOption = _
  unfold digestOidEnc
  rw [hx]
  dsimp only
  rw [hg]
  dsimp only
  have : ∀ h, h < 8 → hashToOid h = some ((hashToOid h).getD 0) := by decide
  rw [this h hlt]
  rfl

/-- The part of a SignerInfo behind the attributes. -/
theorem si_rest (hlt : h < 8) (s : Signer) (ss : List Signer) (ho : SOk v m h s) (x x2 : GC) (hx : x.sinfos = s :: ss)
    (h24 : p7G v m h n 24 x = out0 (aaDer v m h s) x2) (h2 : x2.sinfos = s :: ss) (h2c : x2.certs = [])
    (hd : (x2.digSize ≠ 0 ∧ x2.digBuf.take x2.digSize = tbs v m h s) ∨ (x2.digSize = 0 ∧ v.hash h m.data = tbs v m h s)) :
    ∃ dz, SiRun (p7G v m h n) x (siOf v m h s) (if ss = [] then 0 else 1) { x2 with sinfos := ss, applied := 0, digSize := dz } := by
  obtain ⟨b, hb, hs⟩ := ho.signs
  have hsig : sigOf v m h s = b := by unfold sigOf; rw [hs]; rfl
  refine ⟨if x2.digSize ≠ 0 then x2.digSize else (tbs v m h s).length, ?_⟩
  refine ⟨?_, hOid_ne h hlt, LC.Crt.algOid_ne _ ho.alg, ?_, x, x2,
    { x2 with digSize := if x2.digSize ≠ 0 then x2.digSize else (tbs v m h s).length }, ⟨rfl, ho.skid, ?_, ?_, ?_, ?_, ?_⟩,
    hash_act hlt s ss ho.hash x hx, h24, ?_, ?_, ?_⟩
  · rw [p7G_ne 17 (by decide)]
    show (siVersionEnc x).toOption = _
    unfold siVersionEnc
    rw [hx]
    dsimp only
    rw [if_pos (by simpa using ho.skid)]
    rfl
  · show sigOf v m h s ≠ []
    rw [hsig]; exact hb
  · rw [p7G_ne 11 (by decide)]
    show (attrOidEnc x).toOption = _
    unfold attrOidEnc
    rw [hx]
    dsimp only
    rw [if_pos (by simpa using ho.skid)]
    rfl
  · rw [p7G_ne 6 (by decide)]
    show (attrSegEnc x).toOption = _
    unfold attrSegEnc
    rw [hx]
    dsimp only
    rw [if_pos (by simpa using ho.skid)]
    rfl
  · rw [p7G_ne 0 (by decide)]
    show (attrContEnc x).toOption = _
    unfold attrContEnc
    rw [hx]
    dsimp only
    rw [if_neg (fun hc => ho.skid hc.1)]
    rfl
  · rw [p7G_ne 23 (by decide)]
    show (serialEnc x).toOption = _
    unfold serialEnc
    rw [hx]
    dsimp only
    rw [if_pos (by simpa using ho.skid)]
    rfl
  · rw [p7G_ne 26 (by decide)]
    show (skidEnc x).toOption = _
    unfold skidEnc
    rw [hx]
    rfl
  · rw [p7G_ne 22 (by decide)]
    show (pkeyOidEnc x2).toOption = _
    unfold pkeyOidEnc
    rw [h2, h2c]
    dsimp only
    obtain ⟨o, ho'⟩ := Option.isSome_iff_exists.mp ho.alg
    unfold siOf pkOid
    rw [ho']
    rfl
  · rw [p7G_ne 25 (by decide)]
    show (signatureEnc v m x2).toOption = _
    unfold signatureEnc
    rw [h2]
    dsimp only
    rw [if_neg ho.sigType, ho.hash]
    dsimp only
    have e : (if x2.digSize ≠ 0 then x2.digBuf.take x2.digSize else v.hash h m.data) = tbs v m h s := by
      rcases hd with ⟨h1, h2⟩ | ⟨h1, h2⟩
      · rw [if_pos h1]; exact h2
      · rw [if_neg (by simpa using h1)]; exact h2
    rw [e, hs]
    show _ = out0 (sigOf v m h s) _
    rw [hsig]
    rfl
  · rw [p7G_ne 15 (by decide)]
    show (signedInfoEnc _).toOption = _
    unfold signedInfoEnc
    dsimp only
    rw [h2]
    cases ss with
    | nil => rfl
    | cons a b => rfl

/-- The last state does not matter. -/
theorem sis_aa (hlt : h < 8) (hh : ∀ b, v.hash h b ≠ []) : ∀ (ss : List Signer), ss ≠ [] → (∀ s ∈ ss, SOk v m h s) →
    (∀ s ∈ ss, s.aaSet = 5 ∨ s.aaSet = 7) → ∀ x : GC, x.certs = [] → x.sinfos = ss → x.applied = 0 →
    ∃ x', SisRun (p7G v m h n) x (ss.map (siOf v m h)) x'
  | [], hn, _, _, _, _, _, _ => absurd rfl hn
  | s :: ss, _, hok, haa, x, hc, hx, ha => by
    have hs := haa s (by simp)
    have ho := hok s (by simp)
    have hz : s.aaSet ≠ 0 := by rcases hs with e | e <;> rw [e] <;> decide
    have h24 : p7G v m h n 24 x = some (aaOut v m h s x) := by
      unfold p7G
      rw [if_pos ⟨rfl, s, ss, hx, hs, ha, ho.hash⟩, hx]
    have hne : tbs v m h s ≠ [] := by unfold tbs; rw [if_neg hz]; exact hh _
    obtain ⟨dz, hr⟩ := si_rest hlt s ss ho x _ hx h24 hx hc (.inl ⟨by
      show (tbs v m h s).length ≠ 0
      intro e; exact hne (List.length_eq_zero_iff.mp e), by
      show (tbs v m h s ++ x.digBuf.drop (tbs v m h s).length).take (tbs v m h s).length = _
      simp⟩)
    cases ss with
    | nil => exact ⟨_, hr⟩
    | cons a b =>
      have hi := fun y => sis_aa hlt hh (a :: b) (by simp) (fun t ht => hok t (by simp [ht])) (fun t ht => haa t (by simp [ht])) y
      generalize hy : ({ x with certs := x.certs, sinfos := a :: b, applied := 0, digSize := dz, digBuf := tbs v m h s ++ x.digBuf.drop (tbs v m h s).length } : GC) = y at hr
      obtain ⟨x', hx'⟩ := hi y (by subst hy; exact hc) (by subst hy; rfl) (by subst hy; rfl)
      exact ⟨x', y, hr, hx'⟩

theorem sis_one (hlt : h < 8) (s : Signer) (ho : SOk v m h s) (hz : s.aaSet = 0) (x : GC) (hc : x.certs = []) (hx : x.sinfos = [s])
    (hd : x.digSize = 0) : ∃ x', SisRun (p7G v m h n) x [siOf v m h s] x' := by
  have h24 : p7G v m h n 24 x = out0 (aaDer v m h s) x := by
    unfold p7G
    rw [if_neg (fun hq => by
      obtain ⟨_, s', ss', e1, e2, _⟩ := hq
      rw [hx] at e1
      injection e1 with e1
      rw [← e1, hz] at e2
      rcases e2 with e2 | e2 <;> exact absurd e2 (by decide))]
    show (authattrsEnc v m (some h) n x).toOption = _
    unfold authattrsEnc aaDer aaList
    rw [hx]
    dsimp only
    rw [if_pos hz, if_pos hz]
    rfl
  obtain ⟨dz, hr⟩ := si_rest hlt s [] ho x x hx h24 hx hc (.inr ⟨hd, by unfold tbs; rw [if_pos hz]⟩)
  exact ⟨_, hr⟩

theorem Ready.sok (hr : Ready v m h) (s : Signer) (hs : s ∈ m.signers) : SOk v m h s :=
  ⟨hr.hash s hs, (hr.skid s hs).1, hr.alg s hs, hr.sigType s hs, hr.signs s hs⟩

def msgOf (v : Env) (m : GMsg) (h : Nat) : MsgP :=
  ⟨3, hOid h, if m.embed then m.data else [], m.certs.map fun c => (0x30, body c), m.signers.map (siOf v m h)⟩

theorem msg_run (hr : Ready v m h) :
    MsgRun (p7G v m h n) (oidData OID_signed_data) (oidData OID_data) { certs := m.certs, sinfos := m.signers } (msgOf v m h) where
  hso := by decide
  hdO := by decide
  hash := hOid_ne h hr.hlt
  h3 := p7G_ne 3 (by decide) _
  h16 := by
    rw [p7G_ne 16 (by decide)]
    show (msgVersionEnc m _).toOption = _
    unfold msgVersionEnc
    obtain ⟨c, hc, hs⟩ := hr.anySkid
    rw [if_pos (List.any_eq_true.mpr ⟨c, hc, by simpa using hs⟩)]
    rfl
  h5 := by
    obtain ⟨s, ss, e⟩ := List.exists_cons_of_ne_nil hr.signersNe
    exact hash_act hr.hlt s ss (hr.hash s (by rw [e]; simp)) _ e
  h4 := p7G_ne 4 (by decide) _
  h14 := p7G_ne 14 (by decide) _
  run := by
    refine ⟨{ certs := [], sinfos := m.signers }, ?_⟩
    have hc := certs_run (v := v) (m := m) (h := h) (n := n) m.certs hr.certsNe hr.certs { certs := m.certs, sinfos := m.signers } rfl
    rcases hr.attrs with ha | ⟨s, e, hz⟩
    · obtain ⟨x', hx'⟩ := sis_aa (n := n) hr.hlt hr.hashNe m.signers hr.signersNe hr.sok ha { certs := [], sinfos := m.signers } rfl rfl rfl
      exact ⟨x', hc, hx'⟩
    · obtain ⟨x', hx'⟩ := sis_one (n := n) hr.hlt s (hr.sok s (by rw [e]; simp)) hz { certs := [], sinfos := m.signers } rfl e rfl
      refine ⟨x', hc, ?_⟩
      unfold msgOf
      dsimp only
      rw [show m.signers.map (siOf v m h) = [siOf v m h s] by rw [e]; rfl]
      exact hx'

theorem init_ok (first : Signer) (h : Nat) (hd : getDigest first = .ok h) : ∀ (ss : List Signer) (ah : Option Nat),
    (ah = none ∧ ss ≠ []) ∨ ah = some h → initLoop first ah ss = .ok (some h)
  | [], _, .inl h => absurd rfl h.2
  | [], _, .inr h => by subst h; rfl
  | s :: ss, _, .inl e => by
    obtain ⟨e, _⟩ := e
    subst e
    unfold initLoop
    rw [hd]
    exact init_ok first h hd ss (some h) (.inr rfl)
  | s :: ss, _, .inr e => by
    subst e
    unfold initLoop
    rw [hd]
    dsimp only
    rw [if_neg (by simp), if_neg (by simp)]
    exact init_ok first h hd ss (some h) (.inr rfl)

/-- A generated message is the serialisation of the tree. -/
theorem generate_out (hr : Ready v m h) (avail n : Nat) (D : Bytes) (hg : generate v m avail n = .ok D) :
    D = ser (msgTree (oidData OID_signed_data) (oidData OID_data) (msgOf v m h)) ∧
    WF (msgTree (oidData OID_signed_data) (oidData OID_data) (msgOf v m h)) ∧ D.length ≤ 2 ^ 18 := by
  unfold generate at hg
  obtain ⟨c, cs, ec⟩ := List.exists_cons_of_ne_nil hr.certsNe
  obtain ⟨s, ss, es⟩ := List.exists_cons_of_ne_nil hr.signersNe
  have hi := init_ok s h (hr.hash s (by rw [es]; simp)) m.signers none (.inl ⟨rfl, hr.signersNe⟩)
  obtain ⟨b, ⟨k, hk⟩, hb⟩ := msg_walk (act := p7G v m h n) p7G_nops _ _ _ _ (msg_run (n := n) hr)
  have hag := p7_agree v m h n hr.dataType hr.hashNe hr.now0 hr.now1
  generalize hx : ({ certs := m.certs, sinfos := m.signers } : GC) = x at hg hk
  generalize hcs : m.certs = mc at hg
  rw [es] at hi
  generalize hss : m.signers = ms at hg
  rw [← hcs, ec, ← hss, es] at hg
  dsimp only at hg
  rw [hi] at hg
  dsimp only at hg
  cases he : encode (p7Encoder v m (some h) n) large x avail n with
  | halt r st =>
    rw [he] at hg
    dsimp only at hg
    by_cases hn : r < 0
    · rw [if_pos hn] at hg; cases hg
    · rw [if_neg hn] at hg
      injection hg with hg
      obtain ⟨_, h2, _, h4, h5⟩ := encode_tot _ large _ hag x avail n r st he hn k b hk
      rw [hb] at h2 h4
      rw [serL_single] at h2
      subst hg
      exact ⟨h2, h4.1, h5⟩
  | _ => rw [he] at hg; cases hg

end LC.P7
