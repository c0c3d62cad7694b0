import Verif.P7.Out
/-
A generated message is read back by the parser.
-/
namespace LC.P7
open LC.Asn1 LC.Asn1.Enc LC.Asn1.Gen LC.Asn1.Tr
open LC.X509 (kidMax Kid generateId)
open LC.Oid (oidData lookUp lookUp_registered)
open LC.Crt (maxTime sigToOid timeTag ENOSTEPS)
open LC.Pkcs7 (SInfo)

set_option maxRecDepth 8000

variable {v : Env} {m : GMsg} {h : Nat} {κ : Type}

/-! ### The tree that is read -/

def rsiOf (v : Env) (m : GMsg) (h : Nat) (s : Signer) : RSi :=
  ⟨3, .skid s.cert.skid, hOid h, aaList v m h s, pkOid s, sigOf v m h s⟩

def rmsgOf (v : Env) (m : GMsg) (h : Nat) : RMsg :=
  ⟨oidData OID_signed_data, oidData OID_data, 3, hOid h, if m.embed then m.data else [], m.certs.map body, m.signers.map (rsiOf v m h)⟩

theorem ser_cons_ne (t : Tree) (ts : List Tree) : serL (t :: ts) ≠ [] := by
  intro hc
  have : ser t ++ serL ts = [] := hc
  rw [List.append_eq_nil_iff] at this
  cases t <;> simp [ser, tlv] at this

theorem aaDer_nil (s : Signer) : aaDer v m h s = [] ↔ aaList v m h s = [] := by
  unfold aaDer
  cases aaList v m h s with
  | nil => exact ⟨fun _ => rfl, fun _ => rfl⟩
  | cons a b => exact ⟨fun hc => absurd hc (ser_cons_ne _ _), fun hc => by cases hc⟩

theorem opt_ser (s : Signer) : serL (optLeaf 0xa0 (aaDer v m h s)) = serL (aaNode (aaList v m h s)) := by
  unfold optLeaf aaNode
  by_cases hc : aaList v m h s = []
  · rw [if_pos hc, if_pos ((aaDer_nil s).mpr hc)]
  · rw [if_neg hc, if_neg (fun e => hc ((aaDer_nil s).mp e))]
    rfl

theorem si_ser (s : Signer) : ser (siTree (siOf v m h s)) = ser (rsiTree (rsiOf v m h s)) := by
  unfold siTree rsiTree siOf rsiOf
  dsimp only
  simp only [ser, serL, serL_append, opt_ser]

theorem sis_ser : ∀ ss : List Signer, serL ((ss.map (siOf v m h)).map siTree) = serL ((ss.map (rsiOf v m h)).map rsiTree)
  | [] => rfl
  | s :: ss => by
    simp only [List.map_cons, serL, si_ser]
    rw [sis_ser ss]

theorem certs_same : (m.certs.map fun c => ((0x30 : UInt8), body c)).map certLeaf = (m.certs.map body).map cLeaf := by
  rw [List.map_map, List.map_map]
  rfl

theorem msg_ser : ser (msgTree (oidData OID_signed_data) (oidData OID_data) (msgOf v m h)) = ser (rmsgTree (rmsgOf v m h)) := by
  unfold msgTree rmsgTree msgTree' msgOf rmsgOf
  dsimp only
  rw [certs_same]
  simp only [ser, serL, sis_ser]

/-- Trees of attributes are well formed if they are short. -/
theorem aas_wf : ∀ as : List AAttr, (serL (as.map aaTree)).length < 2 ^ 24 → WFL (as.map aaTree)
  | [], _ => trivial
  | a :: as, hl => by
    simp only [List.map_cons, serL, List.length_append] at hl
    refine ⟨?_, aas_wf as (by omega)⟩
    have h1 : (ser (aaTree a)).length < 2 ^ 24 := by omega
    unfold aaTree at h1 ⊢
    have h2 := LC.Crt.ser_node_le 0x30 [.leaf 6 a.oid, .node 0x31 [.leaf a.tag a.val]]
    have h3 := LC.Crt.ser_mem_le [.leaf 6 a.oid, .node 0x31 [.leaf a.tag a.val]] (.leaf 6 a.oid) (by simp)
    have h4 := LC.Crt.ser_mem_le [.leaf 6 a.oid, .node 0x31 [.leaf a.tag a.val]] (.node 0x31 [.leaf a.tag a.val]) (by simp)
    have h5 := LC.Crt.ser_node_le 0x31 [.leaf a.tag a.val]
    have h6 := LC.Crt.ser_mem_le [.leaf a.tag a.val] (.leaf a.tag a.val) (by simp)
    have h7 := LC.Crt.ser_leaf_le 6 a.oid
    have h8 := LC.Crt.ser_leaf_le a.tag a.val
    simp only [WF, WFL, and_true]
    exact ⟨by decide, by omega, by omega, by decide, by omega, by omega⟩

theorem opt_wf (s : Signer) (hw : WFL (optLeaf 0xa0 (aaDer v m h s))) : WFL (aaNode (aaList v m h s)) := by
  unfold optLeaf at hw
  unfold aaNode
  by_cases hc : aaList v m h s = []
  · rw [if_pos hc]; trivial
  · rw [if_neg (fun e => hc ((aaDer_nil s).mp e))] at hw
    rw [if_neg hc]
    have hl : (serL ((aaList v m h s).map aaTree)).length < 2 ^ 24 := hw.1
    exact ⟨⟨by decide, hl, aas_wf _ hl⟩, trivial⟩

theorem si_wf (s : Signer) (hw : WF (siTree (siOf v m h s))) : WF (rsiTree (rsiOf v m h s)) := by
  have hs := si_ser (v := v) (m := m) (h := h) s
  unfold siTree siOf at hw
  unfold rsiTree rsiOf
  dsimp only at hw ⊢
  obtain ⟨h1, h2, h3, h4, h5, h6⟩ := hw
  rw [WFL_append] at h6
  refine ⟨h1, ?_, h3, h4, h5, ?_⟩
  · simp only [serL, serL_append, opt_ser] at h2 ⊢
    exact h2
  · rw [WFL_append]
    exact ⟨opt_wf s h6.1, h6.2⟩

theorem sis_wf : ∀ ss : List Signer, WFL ((ss.map (siOf v m h)).map siTree) → WFL ((ss.map (rsiOf v m h)).map rsiTree)
  | [], _ => trivial
  | s :: ss, hw => ⟨si_wf s hw.1, sis_wf ss hw.2⟩

theorem msg_wf (hw : WF (msgTree (oidData OID_signed_data) (oidData OID_data) (msgOf v m h))) : WF (rmsgTree (rmsgOf v m h)) := by
  unfold msgTree msgTree' msgOf at hw
  unfold rmsgTree msgTree' rmsgOf
  dsimp only at hw ⊢
  rw [certs_same] at hw
  simp only [WF, WFL, serL, ser, sis_ser] at hw ⊢
  obtain ⟨a1, a2, a3, ⟨a4, a5, ⟨⟨a6, a7, b1, b2, b3, b4, b5⟩, b6⟩⟩, b7⟩ := hw
  exact ⟨a1, a2, a3, ⟨a4, a5, ⟨⟨a6, a7, b1, b2, b3, b4, ⟨b5.1.1, b5.1.2.1, sis_wf _ b5.1.2.2⟩, b5.2⟩, b6⟩⟩, b7⟩

/-! ### The results -/

/-- The identifier of the signer. -/
def kidOf (b : Bytes) : Kid := ⟨b.length, b ++ List.replicate (kidMax - b.length) 0⟩

/-- The SignerInfo that the parser reports. -/
def sinfoOf (v : Env) (m : GMsg) (h : Nat) (s : Signer) : SInfo :=
  { sig := { s := some (sigOf v m h s), algo := s.cert.pubAlgo, hash := some h, auth0 := kidOf s.cert.skid }
    authattrs := if s.aaSet = 0 then none else some (derLen (aaDer v m h s).length ++ aaDer v m h s)
    msgdigest := if s.aaSet = 0 then none else some (v.hash h m.data)
    signingTime := if s.aaSet = 7 then some v.now else none }

theorem lookUp_hash : ∀ h, h < 8 → oidToHash (lookUp (hOid h)) = some h := by decide +kernel

theorem lookUp_pk (s : Signer) (ha : (sigToOid s.cert.pubAlgo).isSome = true) : LC.Crt.oidToSig (lookUp (pkOid s)) = some s.cert.pubAlgo := by
  obtain ⟨o, ho⟩ := Option.isSome_iff_exists.mp ha
  unfold pkOid
  rw [ho]
  show LC.Crt.oidToSig (lookUp (oidData o)) = _
  rw [lookUp_registered o (LC.Crt.sigToOid_lt _ _ ho)]
  exact LC.Crt.oid_sig _ _ ho

theorem lk_md : lookUp (oidData OID_messageDigest) = OID_messageDigest := lookUp_registered _ (by decide)
theorem lk_ct : lookUp (oidData OID_contentType) = OID_contentType := lookUp_registered _ (by decide)
theorem lk_st : lookUp (oidData OID_signingTime) = OID_signingTime := lookUp_registered _ (by decide)
theorem lk_data : lookUp (oidData OID_data) = OID_data := lookUp_registered _ (by decide)
theorem lk_sd : lookUp (oidData OID_signed_data) = OID_signed_data := lookUp_registered _ (by decide)

theorem once_ok (b : UInt64) (p : PC κ) (hb : p.aaSet &&& b = 0) : onceBit b p = .ok { p with aaSet := p.aaSet ||| b } := by
  unfold onceBit
  rw [if_neg (by rw [hb]; decide)]

theorem note_md (e : El) (p : PC κ) (hl : p.lastOid = OID_messageDigest) (ht : e.tag = 4) (hb : p.aaSet &&& HAS_MESSAGE_DIGEST = 0)
    (r : UInt64) (hr : p.aaSet ||| HAS_MESSAGE_DIGEST = r) :
    noteAuthAttr e p = .ok { p with aaSet := r, cur := { p.cur with msgdigest := some e.content } } := by
  unfold noteAuthAttr
  rw [if_neg (by rw [hl]; decide), if_neg (by rw [hl]; decide), if_pos hl, once_ok _ _ hb, hr]
  show (if e.tag ≠ 4 then _ else _) = _
  rw [if_neg (by simp [ht])]

theorem note_ct (e : El) (p : PC κ) (hl : p.lastOid = OID_contentType) (ht : lookUp e.content = p.dataType) (hb : p.aaSet &&& HAS_CONTENT_TYPE = 0)
    (r : UInt64) (hr : p.aaSet ||| HAS_CONTENT_TYPE = r) :
    noteAuthAttr e p = .ok { p with aaSet := r } := by
  unfold noteAuthAttr
  rw [if_pos hl, once_ok _ _ hb, hr]
  show (if lookUp e.content ≠ p.dataType then _ else _) = _
  rw [if_neg (by simp [ht])]

theorem note_st (e : El) (p : PC κ) (hl : p.lastOid = OID_signingTime) (t : Int) (ht : LC.X509.decodeTime e.tag e.content = some t)
    (hb : p.aaSet &&& HAS_SIGNING_TIME = 0)
    (r : UInt64) (hr : p.aaSet ||| HAS_SIGNING_TIME = r) :
    noteAuthAttr e p = .ok { p with aaSet := r, cur := { p.cur with signingTime := some t } } := by
  unfold noteAuthAttr
  rw [if_neg (by rw [hl]; decide), if_pos hl, once_ok _ _ hb, hr]
  show (match LC.X509.decodeTime e.tag e.content with | none => _ | some t => _) = _
  rw [ht]

theorem timeTag_cases (t : Int) : timeTag t = 23 ∨ timeTag t = 24 := by
  unfold timeTag
  split
  · exact .inl rfl
  · exact .inr rfl

/-- The attributes are read. -/
theorem aas_P (s : Signer) (hs : s.aaSet = 5 ∨ s.aaSet = 7) (h0 : 0 ≤ v.now) (h1 : v.now ≤ maxTime) (p : PC κ) (ha : p.aaSet = 0)
    (hd : p.dataType = OID_data) (hst : p.cur.signingTime = none) :
    ∃ l, AAsP p (aaList v m h s) { p with lastOid := l, aaSet := s.aaSet, cur := { p.cur with
      msgdigest := some (v.hash h m.data), signingTime := if s.aaSet = 7 then some v.now else none } } := by
  obtain ⟨lo, ver, dt, da, mc, ce, si, ⟨sg, aa, md, stt⟩, as, ex, se, is, sk⟩ := p
  dsimp only at ha hd hst
  subst ha hd hst
  unfold aaList
  have e1 := note_md (κ := κ) ⟨4, hdrOf (.leaf 4 (v.hash h m.data)), v.hash h m.data⟩
    ⟨OID_messageDigest, ver, OID_data, da, mc, ce, si, ⟨sg, aa, md, none⟩, 0, ex, se, is, sk⟩ rfl rfl (show (0 : UInt64) &&& HAS_MESSAGE_DIGEST = 0 by decide) 4 (show (0 : UInt64) ||| HAS_MESSAGE_DIGEST = 4 by decide)
  have e2 := note_ct (κ := κ) ⟨0, hdrOf (.leaf 0 (oidData OID_data)), oidData OID_data⟩
    ⟨OID_contentType, ver, OID_data, da, mc, ce, si, ⟨sg, aa, some (v.hash h m.data), none⟩, 4, ex, se, is, sk⟩ rfl lk_data (show (4 : UInt64) &&& HAS_CONTENT_TYPE = 0 by decide) 5 (show (4 : UInt64) ||| HAS_CONTENT_TYPE = 5 by decide)
  rcases hs with hs | hs
  · rw [hs, if_neg (by decide), if_neg (by decide), if_neg (by decide)]
    refine ⟨OID_contentType, (show 4 % 32 ≠ 31 by decide), ⟨OID_messageDigest, ver, OID_data, da, mc, ce, si, ⟨sg, aa, some (v.hash h m.data), none⟩, 4, ex, se, is, sk⟩, ?_, (by decide),
      ⟨OID_contentType, ver, OID_data, da, mc, ce, si, ⟨sg, aa, some (v.hash h m.data), none⟩, 5, ex, se, is, sk⟩, ?_, rfl⟩
    · unfold withOid; rw [lk_md]; exact e1
    · unfold withOid; rw [lk_ct]; exact e2
  · rw [hs, if_neg (by decide), if_pos rfl, if_pos rfl]
    have hn : (UInt8.ofNat (timeTag v.now)).toNat = timeTag v.now := by
      rcases timeTag_cases v.now with e | e <;> rw [e] <;> rfl
    have e3 := note_st (κ := κ) ⟨(UInt8.ofNat (timeTag v.now)).toNat, hdrOf (.leaf (UInt8.ofNat (timeTag v.now)) (LC.Crt.timeVal v.now)), LC.Crt.timeVal v.now⟩
      ⟨OID_signingTime, ver, OID_data, da, mc, ce, si, ⟨sg, aa, some (v.hash h m.data), none⟩, 5, ex, se, is, sk⟩ rfl v.now
      (by show LC.X509.decodeTime (UInt8.ofNat (timeTag v.now)).toNat _ = _; rw [hn]; exact LC.Crt.utcTime_read v.now h0 h1) (show (5 : UInt64) &&& HAS_SIGNING_TIME = 0 by decide) 7 (show (5 : UInt64) ||| HAS_SIGNING_TIME = 7 by decide)
    refine ⟨OID_signingTime, (show 4 % 32 ≠ 31 by decide), ⟨OID_messageDigest, ver, OID_data, da, mc, ce, si, ⟨sg, aa, some (v.hash h m.data), none⟩, 4, ex, se, is, sk⟩, ?_, (by decide),
      ⟨OID_contentType, ver, OID_data, da, mc, ce, si, ⟨sg, aa, some (v.hash h m.data), none⟩, 5, ex, se, is, sk⟩, ?_, ?_, ⟨OID_signingTime, ver, OID_data, da, mc, ce, si, ⟨sg, aa, some (v.hash h m.data), some v.now⟩, 7, ex, se, is, sk⟩, ?_, rfl⟩
    · unfold withOid; rw [lk_md]; exact e1
    · unfold withOid; rw [lk_ct]; exact e2
    · show (UInt8.ofNat (timeTag v.now)).toNat % 32 ≠ 31
      rw [hn]
      rcases timeTag_cases v.now with e | e <;> rw [e] <;> decide
    · unfold withOid; rw [lk_st]; exact e3

theorem id_ok (b : Bytes) (hb : b.length ≤ kidMax) : generateId b [] = .ok (kidOf b) := by
  unfold generateId kidOf
  rw [if_neg (by simp; omega)]
  simp

/-- A SignerInfo is read. -/
theorem si_reads (hlt : h < 8) (s : Signer) (ha : s.aaSet = 0 ∨ s.aaSet = 5 ∨ s.aaSet = 7) (ho : SOk v m h s) (hk : s.cert.skid.length ≤ kidMax)
    (h0 : 0 ≤ v.now) (h1 : v.now ≤ maxTime) (p : PC κ) (hv : p.version = 3) (hd : p.dataType = OID_data)
    (hc : p.cur = { sig := { s := none, algo := 0 } }) (has : p.aaSet = 0) :
    ∃ l, Nonempty (SiReads p (rsiOf v m h s) { p with lastOid := l, sinfos := p.sinfos ++ [sinfoOf v m h s], expectSkid := true, skid := s.cert.skid }) := by
  obtain ⟨lo, ver, dt, da, mc, ce, si, cur, as, ex, se, is, sk⟩ := p
  dsimp only at hv hd hc has
  subst hv hd hc has
  let sg : LC.X509.Sig := { s := none, algo := 0, hash := some h }
  let p2 : PC κ := ⟨lookUp (hOid h), 3, OID_data, da, mc, ce, si, ⟨sg, none, none, none⟩, 0, true, se, is, s.cert.skid⟩
  have h19 : noteDigestAlgo (withOid (hOid h) (⟨lo, 3, OID_data, da, mc, ce, si, { sig := { s := none, algo := 0 } }, 0, true, se, is, s.cert.skid⟩ : PC κ))
      = .ok p2 := by
    unfold noteDigestAlgo withOid
    dsimp only
    rw [lookUp_hash h hlt]
  -- behind the attributes
  have hrest : ∀ (l : Nat) (as : UInt64) (aa md : Option Bytes) (st : Option Int),
      notePkeyAlgo (withOid (pkOid s) (⟨l, 3, OID_data, da, mc, ce, si, ⟨sg, aa, md, st⟩, as, true, se, is, s.cert.skid⟩ : PC κ)) =
        .ok ⟨lookUp (pkOid s), 3, OID_data, da, mc, ce, si, ⟨{ sg with algo := s.cert.pubAlgo }, aa, md, st⟩, as, true, se, is, s.cert.skid⟩ := by
    intro l as aa md st
    unfold notePkeyAlgo withOid
    dsimp only
    rw [lookUp_pk s ho.alg]
  have hsig : ∀ (l : Nat) (as : UInt64) (aa md : Option Bytes) (st : Option Int),
      noteSignedInfo (⟨l, 3, OID_data, da, mc, ce, si, ⟨{ sg with algo := s.cert.pubAlgo, s := some (sigOf v m h s) }, aa, md, st⟩, as, true, se, is,
        s.cert.skid⟩ : PC κ) = .ok ⟨l, 3, OID_data, da, mc, ce, si ++ [⟨{ sg with algo := s.cert.pubAlgo, s := some (sigOf v m h s), auth0 := kidOf s.cert.skid }, aa, md, st⟩], { sig := { s := none, algo := 0 } }, 0, true, se, is, s.cert.skid⟩ := by
    intro l as aa md st
    unfold noteSignedInfo
    rw [if_neg (fun hq => absurd hq.1 (show OID_data ≠ OID_msIndirectData by decide)), if_pos rfl]
    dsimp only
    rw [id_ok _ hk]
  refine ⟨lookUp (pkOid s), ?_⟩
  unfold sinfoOf
  by_cases hz : s.aaSet = 0
  · rw [if_pos hz, if_pos hz, if_neg (by rw [hz]; decide)]
    refine ⟨⟨_, p2, p2, _, _, trivial, rfl, h19, .inl ⟨?_, rfl⟩, hrest _ _ _ _ _, rfl, hsig _ _ _ _ _⟩⟩
    show aaList v m h s = []
    unfold aaList
    rw [if_pos hz]
  · have hs : s.aaSet = 5 ∨ s.aaSet = 7 := by
      rcases ha with e | e | e
      · exact absurd e hz
      · exact .inl e
      · exact .inr e
    rw [if_neg hz, if_neg hz]
    obtain ⟨l, hA⟩ := aas_P (v := v) (m := m) (h := h) s hs h0 h1 p2 rfl rfl rfl
    let aa := some (derLen (aaDer v m h s).length ++ aaDer v m h s)
    let st := if s.aaSet = 7 then some v.now else none
    refine ⟨⟨_, p2, ⟨l, 3, OID_data, da, mc, ce, si, ⟨sg, aa, some (v.hash h m.data), st⟩, s.aaSet, true, se, is, s.cert.skid⟩, _, _, trivial, rfl, h19,
      .inr ⟨?_, _, hA, ?_⟩, hrest l s.aaSet aa _ st, rfl, hsig _ s.aaSet aa _ st⟩⟩
    · show aaList v m h s ≠ []
      unfold aaList
      rw [if_neg hz]
      simp
    · intro tg
      unfold noteAuthAttrs
      dsimp only
      rw [if_neg (by rcases hs with e | e <;> rw [e] <;> decide), if_neg (by rcases hs with e | e <;> rw [e] <;> exact fun hq => absurd hq.2 (by decide))]
      rfl

theorem sis_reads (hlt : h < 8) (h0 : 0 ≤ v.now) (h1 : v.now ≤ maxTime) : ∀ (ss : List Signer)
    (_ : ∀ s ∈ ss, (s.aaSet = 0 ∨ s.aaSet = 5 ∨ s.aaSet = 7) ∧ SOk v m h s ∧ s.cert.skid.length ≤ kidMax) (p : PC κ) (_ : p.version = 3)
    (_ : p.dataType = OID_data) (_ : p.cur = { sig := { s := none, algo := 0 } }) (_ : p.aaSet = 0),
    ∃ p', SisReads p (ss.map (rsiOf v m h)) p' ∧ p'.sinfos = p.sinfos ++ ss.map (sinfoOf v m h) ∧ p'.version = 3 ∧ p'.dataType = OID_data ∧
      p'.data = p.data ∧ p'.msgCerts = p.msgCerts
  | [], _, p, hv, hd, _, _ => ⟨p, rfl, by simp, hv, hd, rfl, rfl⟩
  | s :: ss, hok, p, hv, hd, hc, ha => by
    obtain ⟨a1, a2, a3⟩ := hok s (by simp)
    obtain ⟨l, hr⟩ := si_reads hlt s a1 a2 a3 h0 h1 p hv hd hc ha
    obtain ⟨p', hs, e1, e2, e3, e4, e5⟩ := sis_reads hlt h0 h1 ss (fun t ht => hok t (by simp [ht]))
      { p with lastOid := l, sinfos := p.sinfos ++ [sinfoOf v m h s], expectSkid := true, skid := s.cert.skid } hv hd hc ha
    refine ⟨p', ⟨_, hr, hs⟩, ?_, e2, e3, e4, e5⟩
    rw [e1]
    simp

theorem certs_reads (cp : Bytes → Except Int κ) : ∀ (cs : List GCert) (ks : List κ)
    (_ : ∀ c ∈ cs, ∃ b, c.raw = tlv 0x30 b ∧ 2 ≤ b.length ∧ b.length < 2 ^ 24) (_ : cs.map (fun c => cp c.raw) = ks.map Except.ok) (p : PC κ),
    CertsReads cp p (cs.map body) { p with certs := p.certs ++ ks }
  | [], [], _, _, p => by
    show p = _
    simp
  | [], _ :: _, _, hk, _ => by cases hk
  | _ :: _, [], _, hk, _ => by cases hk
  | c :: cs, k :: ks, hb, hk, p => by
    simp only [List.map_cons] at hk
    injection hk with hk1 hk2
    obtain ⟨_, e1, e2, _⟩ := body_ok c (hb c (by simp))
    refine ⟨{ p with certs := p.certs ++ [k] }, ?_, ?_⟩
    · unfold extractCert
      dsimp only
      have hh : hdrOf (.leaf 0x30 (body c)) ++ body c = c.raw := by rw [e1]; rfl
      rw [if_neg (by decide), hh, if_neg ?_, hk1]
      show (derLen (body c).length).getD 0 0 ≠ 0x80
      unfold derLen
      split
      · rename_i hl
        simp only [List.getD_cons_zero]
        unfold byte
        intro hq
        have := congrArg UInt8.toNat hq
        simp at this
        omega
      · split
        · exact (show (129 : UInt8) ≠ 128 by decide)
        · split
          · exact (show (130 : UInt8) ≠ 128 by decide)
          · exact (show (131 : UInt8) ≠ 128 by decide)
    · have := certs_reads cp cs ks (fun a ha => hb a (by simp [ha])) hk2 { p with certs := p.certs ++ [k] }
      simpa using this

/-- The content of a message. -/
def content (m : GMsg) : Option Bytes := if m.embed = true ∧ m.data ≠ [] then some m.data else none

/-- The result of the parser. -/
def parsedOf (v : Env) (m : GMsg) (h : Nat) (ks : List κ) : Parsed κ := ⟨3, OID_data, content m, ks, m.signers.map (sinfoOf v m h)⟩

theorem Ready.sets (hr : Ready v m h) (s : Signer) (hs : s ∈ m.signers) : s.aaSet = 0 ∨ s.aaSet = 5 ∨ s.aaSet = 7 := by
  rcases hr.attrs with ha | ⟨t, e, hz⟩
  · exact .inr (ha s hs)
  · rw [e] at hs
    rw [List.mem_singleton.mp hs]
    exact .inl hz

theorem msg_reads (hr : Ready v m h) (cp : Bytes → Except Int κ) (ks : List κ) (hk : m.certs.map (fun c => cp c.raw) = ks.map Except.ok) :
    ∃ p', Nonempty (MsgReads cp (rmsgOf v m h) p') ∧ p'.sinfos = m.signers.map (sinfoOf v m h) ∧ p'.version = 3 ∧ p'.dataType = OID_data ∧
      p'.data = content m ∧ p'.msgCerts = ks := by
  generalize hdd : (if m.embed then m.data else []) = d
  have hcont : content m = if d = [] then none else some d := by
    unfold content
    by_cases he : m.embed = true
    · rw [if_pos he] at hdd
      subst hdd
      by_cases hm : m.data = []
      · rw [if_neg (fun hq => hq.2 hm), if_pos hm]
      · rw [if_pos ⟨he, hm⟩, if_neg hm]
    · rw [if_neg he] at hdd
      subst hdd
      rw [if_neg (fun hq => he hq.1), if_pos rfl]
  let p5 : PC κ := { lastOid := OID_data, version := 3, dataType := OID_data, data := content m, msgCerts := ks }
  obtain ⟨p', hs, e1, e2, e3, e4, e5⟩ := sis_reads (v := v) (m := m) (h := h) hr.hlt hr.now0 hr.now1 m.signers
    (fun s hs => ⟨hr.sets s hs, hr.sok s hs, (hr.skid s hs).2⟩) p5 rfl rfl rfl rfl
  refine ⟨p', ⟨?_⟩, by rw [e1]; rfl, e2, e3, e4, e5⟩
  have hc := certs_reads cp m.certs ks hr.certs hk { lastOid := OID_data, version := 3, dataType := OID_data, data := content m }
  refine ⟨{ lastOid := OID_signed_data }, { lastOid := OID_signed_data, version := 3 },
    { lastOid := OID_data, version := 3, dataType := OID_data, data := content m }, _, p5, {}, ?_, ?_, ?_, rfl, ?_, hc, ?_, hs⟩
  · show m.certs.map body ≠ []
    intro hq
    exact hr.certsNe (List.map_eq_nil_iff.mp hq)
  · show m.signers.map (rsiOf v m h) ≠ []
    intro hq
    exact hr.signersNe (List.map_eq_nil_iff.mp hq)
  · show checkContentType (withOid (oidData OID_signed_data) {}) = _
    unfold withOid
    rw [lk_sd]
    rfl
  · show noteContent (dataP (if m.embed then m.data else []) (withOid (oidData OID_data) _)) = _
    rw [hdd, hcont]
    unfold withOid
    rw [lk_data]
    unfold dataP
    by_cases hd : d = []
    · rw [if_pos hd, if_pos hd]; rfl
    · rw [if_neg hd, if_neg hd]; rfl
  · show Except.ok _ = _
    simp [p5]

theorem check_ok (hr : Ready v m h) : checkAuthattrs (m.signers.map (sinfoOf v m h)) = true := by
  rcases hr.attrs with ha | ⟨s, e, _⟩
  · obtain ⟨s, ss, e⟩ := List.exists_cons_of_ne_nil hr.signersNe
    have hz : ∀ t ∈ m.signers, t.aaSet ≠ 0 := by
      intro t ht
      rcases ha t ht with e | e <;> rw [e] <;> decide
    have hi : ∀ t ∈ m.signers, (sinfoOf v m h t).authattrs.isSome = true := by
      intro t ht
      unfold sinfoOf
      dsimp only
      rw [if_neg (hz t ht)]
      rfl
    rw [e] at hi ⊢
    show (ss.map (sinfoOf v m h)).all (fun t => t.authattrs.isSome == (sinfoOf v m h s).authattrs.isSome) = true
    rw [List.all_eq_true]
    intro t ht
    obtain ⟨u, hu, rfl⟩ := List.mem_map.mp ht
    rw [hi u (by simp [hu]), hi s (by simp)]
    rfl
  · rw [e]; rfl

/-- A generated message is read back. -/
theorem generate_read (hr : Ready v m h) (cp : Bytes → Except Int κ) (ks : List κ) (hk : m.certs.map (fun c => cp c.raw) = ks.map Except.ok)
    (avail n : Nat) (D : Bytes) (hg : generate v m avail n = .ok D) :
    ∃ N, ∀ k, (k ≤ N ∧ messageParse cp D k = .error (-ENOSTEPS)) ∨ messageParse cp D k = .ok (parsedOf v m h ks) := by
  obtain ⟨e1, e2, e3⟩ := generate_out hr avail n D hg
  obtain ⟨p', ⟨hm⟩, a1, a2, a3, a4, a5⟩ := msg_reads hr cp ks hk
  obtain ⟨a, ha, hp, hh⟩ := msg_read (E := fun _ => False) (cp := cp) _ p' hm
  rw [msg_ser] at e1
  have hs : serL [rmsgTree (rmsgOf v m h)] = D := by rw [serL_single, e1]
  obtain ⟨N, hN⟩ := parse_tot (E := fun _ => False) pkcs7 (acts cp) {} [rmsgTree (rmsgOf v m h)] ⟨msg_wf e2, trivial⟩ (by rw [hs]; exact e3) a ha hh
  refine ⟨N, fun k => ?_⟩
  have hk := hN 0 k
  rw [hs] at hk
  unfold messageParse
  rcases hk with ⟨h1, h2⟩ | ⟨h1, _⟩ | h1
  · refine .inl ⟨h1, ?_⟩
    have h2' : parse pkcs7 (p7PActs cp) {} D k = .fuel := h2
    rw [h2']
  · exact absurd h1 id
  · refine .inr ?_
    have h1' : parse pkcs7 (p7PActs cp) {} D k = .done 0 (some a.p) := h1
    rw [h1']
    dsimp only
    rw [if_neg (by decide), hp, a1, check_ok hr, if_pos rfl, a2, a3, a4, a5]
    rfl

end LC.P7
