import Verif.X509.CertExtRead
import Verif.X509.CertOut
import Verif.X509.CertTime
/-
The parser on the certificate that the generator writes.
-/
namespace LC.Crt
open LC.Asn1 LC.Asn1.Enc LC.Asn1.Gen LC.Asn1.Tr
open LC.X509 (ExtState Kid generateId)
open LC.Oid (oidData lookUp)

/-! ### Names -/

/-- The issuer is known. -/
def SI (p : P) (l : Nat) (nm : Name) : P := { p with lastOid := l, issuer := nm, cn := nm.cn, o := nm.o, email := nm.email }
/-- The subject is known. -/
def SS (p : P) (l : Nat) (nm : Name) : P := { p with lastOid := l, subject := nm, cn := nm.cn, o := nm.o, email := nm.email }

theorem u8take_small (v : Bytes) (h : v.length < 256) : u8take v = v := by
  unfold u8take
  rw [Nat.mod_eq_of_lt h, List.take_length]

theorem attr_I (p : P) (l : Nat) (nm : Name) (k : Nat) (v : Bytes) (hk : k < 124) (hr : p.rawIssuer = none) (hv : v.length < 256)
    (h : k = OID_CN ∨ k = OID_O ∨ k = OID_email ∨ k = OID_C ∨ k = OID_ST ∨ k = OID_OU) :
    attrP (SI p l nm) (oidData k, v) = SI p k (setSeg k v nm) := by
  unfold attrP nameSegment
  dsimp only
  rw [noteOid_reg k hk, u8take_small v hv]
  rcases h with rfl | rfl | rfl | rfl | rfl | rfl
  all_goals
    unfold SI
    dsimp only
    rw [hr]
    rfl

theorem attr_S (p : P) (l : Nat) (nm : Name) (k : Nat) (v : Bytes) (hk : k < 124) (hr : p.rawIssuer.isSome = true) (hv : v.length < 256)
    (h : k = OID_CN ∨ k = OID_O ∨ k = OID_email ∨ k = OID_C ∨ k = OID_ST ∨ k = OID_OU) :
    attrP (SS p l nm) (oidData k, v) = SS p k (setSeg k v nm) := by
  unfold attrP nameSegment
  dsimp only
  rw [noteOid_reg k hk, u8take_small v hv]
  rcases h with rfl | rfl | rfl | rfl | rfl | rfl
  all_goals
    unfold SS
    dsimp only
    rw [if_pos (by exact hr)]
    rfl

/-- The attributes of a name, read with a function that sets the segments. -/
theorem attrs_fold (S : Nat → Name → P) (nm : Name) (hs : nm.Small)
    (hS : ∀ l m k v, k < 124 → v.length < 256 → (k = OID_CN ∨ k = OID_O ∨ k = OID_email ∨ k = OID_C ∨ k = OID_ST ∨ k = OID_OU) →
      attrP (S l m) (oidData k, v) = S k (setSeg k v m)) (l : Nat) :
    ∃ l', (nameAttrs nm).foldl attrP (S l {}) = S l' nm := by
  have hstep : ∀ (e : Nat × Bytes × UInt8) (he : e ∈ nameTab nm) (l : Nat) (m m' : Name),
      (e.1 = OID_CN ∨ e.1 = OID_O ∨ e.1 = OID_email ∨ e.1 = OID_C ∨ e.1 = OID_ST ∨ e.1 = OID_OU) →
      setSeg e.1 e.2.1 m = m' → (e.2.1 = [] → m = m') →
      ∃ l', (if (e.2.1 != []) = true then attrP (S l m) (oidData e.1, e.2.1) else S l m) = S l' m' := by
    intro e he l m m' hk h1 h2
    by_cases h : e.2.1 = []
    · rw [if_neg (by simp [h]), h2 h]
      exact ⟨l, rfl⟩
    · rw [if_pos (by simp [h]), hS l m e.1 e.2.1 (nameTab_oid nm e he) (hs e he) hk, h1]
      exact ⟨_, rfl⟩
  unfold nameAttrs
  rw [List.foldl_map, List.foldl_filter]
  obtain ⟨cn, o, em, co, st, ou⟩ := nm
  simp only [nameTab, List.foldl_cons, List.foldl_nil]
  simp only [nameTab, List.mem_cons, List.not_mem_nil, or_false] at hstep
  obtain ⟨l1, h1⟩ := hstep (OID_CN, cn, 1) (.inl rfl) l {} ⟨cn, [], [], [], [], []⟩ (.inl rfl) rfl (by rintro rfl; rfl)
  dsimp only at h1
  rw [h1]
  obtain ⟨l2, h2⟩ := hstep (OID_O, o, 2) (.inr (.inl rfl)) l1 ⟨cn, [], [], [], [], []⟩ ⟨cn, o, [], [], [], []⟩ (.inr (.inl rfl)) rfl (by rintro rfl; rfl)
  dsimp only at h2
  rw [h2]
  obtain ⟨l3, h3⟩ := hstep (OID_email, em, 4) (.inr (.inr (.inl rfl))) l2 ⟨cn, o, [], [], [], []⟩ ⟨cn, o, em, [], [], []⟩ (.inr (.inr (.inl rfl))) rfl (by rintro rfl; rfl)
  dsimp only at h3
  rw [h3]
  obtain ⟨l4, h4⟩ := hstep (OID_C, co, 8) (.inr (.inr (.inr (.inl rfl)))) l3 ⟨cn, o, em, [], [], []⟩ ⟨cn, o, em, co, [], []⟩ (.inr (.inr (.inr (.inl rfl)))) rfl (by rintro rfl; rfl)
  dsimp only at h4
  rw [h4]
  obtain ⟨l5, h5⟩ := hstep (OID_ST, st, 16) (.inr (.inr (.inr (.inr (.inl rfl))))) l4 ⟨cn, o, em, co, [], []⟩ ⟨cn, o, em, co, st, []⟩ (.inr (.inr (.inr (.inr (.inl rfl))))) rfl (by rintro rfl; rfl)
  dsimp only at h5
  rw [h5]
  obtain ⟨l6, h6⟩ := hstep (OID_OU, ou, 32) (.inr (.inr (.inr (.inr (.inr rfl))))) l5 ⟨cn, o, em, co, st, []⟩ ⟨cn, o, em, co, st, ou⟩ (.inr (.inr (.inr (.inr (.inr rfl))))) rfl (by rintro rfl; rfl)
  exact ⟨l6, h6⟩

/-- The parts of the name from which the parser makes its own name fit into the buffer. -/
def NameFits (cn o email : Bytes) : Prop := cn.length + o.length ≤ 125 ∧ email.length ≤ 128

theorem fab_gives (p : P) (s : Bool) (hs : s = false ∨ (p.sanDns = [] ∧ p.sanIp = [])) :
    (¬ NameFits p.cn p.o p.email ∧ ∃ e, fabricate p s = .error e ∧ e < 0) ∨
    ∃ nm, fabricate p s = .ok (nm, { p with cn := [], o := [], email := [] }) := by
  have hsg : ∀ v : Bytes, (NameFits p.cn p.o p.email → v.length ≤ 128) →
      (¬ NameFits p.cn p.o p.email ∧ ∃ e, (if v.length > 128 then Except.error (-EOVERFLOW)
        else Except.ok (some v, { p with cn := [], o := [], email := [] }) : Except Int (Option Bytes × P)) = .error e ∧ e < 0) ∨
      ∃ nm, (if v.length > 128 then Except.error (-EOVERFLOW)
        else Except.ok (some v, { p with cn := [], o := [], email := [] }) : Except Int (Option Bytes × P)) =
        .ok (nm, { p with cn := [], o := [], email := [] }) := by
    intro v hv
    by_cases h : v.length > 128
    · rw [if_pos h]
      exact .inl ⟨fun hf => by have := hv hf; omega, _, rfl, by decide⟩
    · rw [if_neg h]
      exact .inr ⟨_, rfl⟩
  unfold fabricate
  rw [if_neg (by rcases hs with rfl | ⟨h, _⟩ <;> simp [*]), if_neg (by rcases hs with rfl | ⟨_, h⟩ <;> simp [*])]
  dsimp only
  by_cases h1 : p.cn = [] ∧ p.o = [] ∧ p.email = []
  · rw [if_pos h1]
    exact .inr ⟨_, rfl⟩
  rw [if_neg h1]
  by_cases h2 : p.cn ≠ [] ∧ p.o ≠ []
  · rw [if_pos h2]
    by_cases h3 : p.cn = p.o
    · rw [if_pos h3]
      exact hsg _ (fun h => by have := h.1; omega)
    rw [if_neg h3]
    by_cases h4 : p.cn.length ≥ 7 ∧ p.o.length ≥ 7 ∧ p.cn.take 7 = p.o.take 7
    · rw [if_pos h4]
      exact hsg _ (fun h => by have := h.1; omega)
    rw [if_neg h4]
    by_cases h5 : p.o.length + 2 + p.cn.length + 1 > 128
    · rw [if_pos h5]
      exact .inl ⟨fun h => by have := h.1; omega, _, rfl, by decide⟩
    · rw [if_neg h5]
      exact .inr ⟨_, rfl⟩
  rw [if_neg h2]
  by_cases h3 : p.cn ≠ []
  · rw [if_pos h3]
    exact hsg _ (fun h => by have := h.1; omega)
  rw [if_neg h3]
  by_cases h4 : p.o ≠ []
  · rw [if_pos h4]
    exact hsg _ (fun h => by have := h.1; omega)
  rw [if_neg h4]
  exact hsg _ (fun h => h.2)

theorem noteIssuer_gives {F : Prop} (v : Bytes) (p : P) (h0 : p.authId2.len = 0) (hF : ¬ (v.length ≤ 192 ∧ NameFits p.cn p.o p.email) → F) :
    ∃ k nm, Gives F (noteIssuer v p) { p with rawIssuer := some v, authId2 := k, cn := [], o := [], email := [], issuerName := nm } := by
  unfold noteIssuer
  dsimp only
  rw [if_pos h0]
  unfold generateId
  by_cases h : v.length + ([] : Bytes).length ≤ 192
  · rw [if_neg (by unfold LC.X509.kidMax; omega)]
    dsimp only [Except.map]
    rcases fab_gives { p with rawIssuer := some v, authId2 := ⟨v.length + ([] : Bytes).length,
        v ++ [] ++ List.replicate (LC.X509.kidMax - (v.length + ([] : Bytes).length)) 0⟩ } false (.inl rfl) with ⟨h1, e, h2, h3⟩ | ⟨nm, h1⟩
    · rw [h2]
      exact ⟨Kid.zero, none, .inl ⟨hF (fun hh => h1 hh.2), e, rfl, h3⟩⟩
    · rw [h1]
      exact ⟨_, nm, .inr rfl⟩
  · rw [if_pos (by unfold LC.X509.kidMax; omega)]
    exact ⟨Kid.zero, none, .inl ⟨hF (fun hh => by simp at h; omega), _, rfl, by decide⟩⟩

theorem noteSubject_gives {F : Prop} (v : Bytes) (p : P) (hd : p.sanDns = []) (hi : p.sanIp = []) (hF : ¬ NameFits p.cn p.o p.email → F) :
    ∃ nm, Gives F (noteSubject v p) { p with rawSubject := some v, cn := [], o := [], email := [], subjectName := nm } := by
  unfold noteSubject
  rcases fab_gives { p with rawSubject := some v } true (.inr ⟨hd, hi⟩) with ⟨h1, e, h2, h3⟩ | ⟨nm, h1⟩
  · rw [h2]
    exact ⟨none, .inl ⟨hF h1, e, rfl, h3⟩⟩
  · rw [h1]
    exact ⟨nm, .inr rfl⟩

/-! ### Algorithms and lengths -/

theorem oid_sig (t o : Nat) (h : sigToOid t = some o) : oidToSig o = some t := by
  unfold sigToOid at h
  rw [Option.map_eq_some_iff] at h
  obtain ⟨e, he, rfl⟩ := h
  have h1 : ∀ e ∈ algoTable, oidToSig e.1 = some e.2 := by decide
  have h2 := List.find?_some he
  rw [h1 e (List.mem_of_find?_eq_some he)]
  simp at h2
  rw [h2]

theorem ser_node_le (t : UInt8) (ks : List Tree) : (serL ks).length ≤ (ser (.node t ks)).length := by
  simp only [ser, tlv, List.length_cons, List.length_append]
  omega

theorem ser_leaf_le (t : UInt8) (v : Bytes) : v.length ≤ (ser (.leaf t v)).length := by
  simp only [ser, tlv, List.length_cons, List.length_append]
  omega

theorem ser_mem_le (ks : List Tree) (k : Tree) (h : k ∈ ks) : (ser k).length ≤ (serL ks).length := by
  induction ks with
  | nil => cases h
  | cons a as ih =>
    simp only [serL, List.length_append]
    rcases List.mem_cons.mp h with rfl | h
    · omega
    · have := ih h; omega

theorem tbs_le (q : CertParts) : (serL (tbsKids q)).length ≤ (ser (certTree q)).length := by
  have h1 := ser_node_le 0x30 [.node 0x30 (tbsKids q), algTree q.alg, .leaf 3 q.sig]
  have h2 := ser_mem_le [.node 0x30 (tbsKids q), algTree q.alg, .leaf 3 q.sig] _ (List.mem_cons_self)
  have h3 := ser_node_le 0x30 (tbsKids q)
  exact Nat.le_trans h3 (Nat.le_trans h2 h1)

theorem ext_le (q : CertParts) (e : ExtItem) (he : e ∈ q.exts) : e.val.length ≤ (ser (certTree q)).length := by
  have h0 := tbs_le q
  have h1 : (ser (.node 0xa3 [.node 0x30 (q.exts.map extItemTree)])).length ≤ (serL (tbsKids q)).length :=
    ser_mem_le _ _ (by simp [tbsKids])
  have h2 := ser_node_le 0xa3 [.node 0x30 (q.exts.map extItemTree)]
  have h3 := ser_mem_le [.node 0x30 (q.exts.map extItemTree)] _ List.mem_cons_self
  have h4 := ser_node_le 0x30 (q.exts.map extItemTree)
  have h5 := ser_mem_le (q.exts.map extItemTree) _ (List.mem_map_of_mem he)
  have h6 : e.val.length ≤ (ser (extItemTree e)).length := by
    unfold extItemTree
    refine Nat.le_trans (ser_leaf_le 4 e.val) (Nat.le_trans (ser_mem_le _ _ ?_) (ser_node_le _ _))
    simp
  omega

/-! ### The whole certificate -/

/-- The issuer as the parser keeps it. -/
def issuerDer (c : In) : Bytes := serL [.node 0x31 ((nameAttrs c.issuer).map attrTree)]
def subjectDer (c : In) : Bytes := serL [.node 0x31 ((nameAttrs c.subject).map attrTree)]

/-- The parser has room for the identifiers and names of `c`. -/
structure Fits (c : In) : Prop where
  id : c.serial.length + (issuerDer c).length ≤ 192
  issuer : NameFits c.issuer.cn c.issuer.o c.issuer.email
  subject : NameFits c.subject.cn c.subject.o c.subject.email
  skid : (skidBytes c).length ≤ 192
  akid : c.akid.length ≤ 192

/-- What is written as signature and what the parser takes as signature. -/
def SigAs (c : In) (v raw : Bytes) : Prop :=
  (c.sigAlgo ∈ [4, 5, 6] ∧ v = raw) ∨ (c.sigAlgo ∉ [4, 5, 6] ∧ c.sigAlgo ≠ 0 ∧ v = 0 :: raw)

/-- The certificate with the signature `v`. -/
def withSig (c : In) (v : Bytes) : CertParts := { parts c with sig := v }

/-- The public key as the parser keeps it. -/
def keyRead (c : In) : Bytes :=
  if c.gen.sigType ∈ [4, 5, 6] then serL [.node 0x30 [.leaf 3 (0 :: c.gen.pk), .leaf 3 (0 :: c.gen.pkEd)]] else c.gen.pk

/-- What the parser knows at the end of the grammar. -/
structure Known (c : In) (raw : Bytes) (p : P) : Prop where
  version : p.version = 3
  serial : p.serial = c.serial
  issuer : p.issuer = c.issuer
  subject : p.subject = c.subject
  rawIssuer : p.rawIssuer = some (issuerDer c)
  validFrom : p.validFrom = c.validFrom
  validTo : p.validTo = c.validTo
  sigType : p.sigType = c.sigAlgo
  pkType : p.pkType = c.pubAlgo
  key : p.key = some (keyRead c)
  sanDns : p.sanDns = c.sanDns
  sanIp : p.sanIp = c.sanIp
  rawSkid : p.rawSkid = skidBytes c
  akidExt : p.akidExt = akidOf c
  rawAkid : p.rawAkid = []
  authId1 : p.authId1.len = 0
  keyUsage : p.ext.keyUsage = kuRead c.keyUsage
  keyEku : p.ext.keyEku = ekuRead c.keyEku
  caPathlen : p.ext.caPathlen = caRead (pathlen c)
  tbs : p.tbs = ser (.node 0x30 (tbsKids (parts c)))
  rawSig : p.rawSig = raw

theorem isTime_tree (t : Int) : IsTime (timeTree t) (timeTag t) (timeVal t) := by
  unfold timeTree timeTag timeVal
  by_cases h : t < 2524608000
  · simp only [if_pos h]
    exact ⟨.inl ⟨rfl, rfl⟩⟩
  · simp only [if_neg h]
    exact ⟨.inr ⟨rfl, rfl⟩⟩

theorem nameAttrs_ne' (nm : Name) (h : nm ≠ {}) : nameAttrs nm ≠ [] := by
  intro he
  unfold nameAttrs at he
  rw [List.map_eq_nil_iff] at he
  exact nameAttrs_ne nm h he

theorem kinds_ne (c : In) : kinds c ≠ [] := by
  unfold kinds
  simp

theorem keyData_read (c : In) (p : P) (t : Nat) (h : oidToSig p.lastOid = some t) :
    keyData (keyBytes c) p = .ok { p with keyOid := p.lastOid, pkType := t, key := some (keyRead c) } := by
  unfold keyData
  rw [h]
  unfold keyBytes keyRead
  by_cases hc : c.gen.sigType ∈ [4, 5, 6]
  · simp only [if_pos hc]
    have : ∀ ks, ∃ x, serL [.node 0x30 ks] = (0x30 : UInt8) :: x := fun ks => by
      simp only [serL, ser, tlv, List.cons_append]
      exact ⟨_, rfl⟩
    obtain ⟨x, hx⟩ := this [.leaf 3 (0 :: c.gen.pk), .leaf 3 (0 :: c.gen.pkEd)]
    rw [hx]
    rfl
  · simp only [if_neg hc]

theorem sig_read (c : In) (v raw : Bytes) (hv : SigAs c v raw) (p : P) (h1 : p.lastOid = p.sigOid) (h2 : p.sigType = c.sigAlgo) :
    noteSignature v p = .ok { p with rawSig := raw } := by
  unfold noteSignature
  rw [if_neg (fun h => h h1), h2]
  rcases hv with ⟨h, rfl⟩ | ⟨h, h0, rfl⟩
  · rw [if_pos (.inl h)]
  · rw [if_neg (fun h' => h'.elim h h0), ← h2]
    rfl

theorem cert_reads (c : In) (h : Good c) (hf0 : 0 ≤ c.validFrom) (hf1 : c.validFrom ≤ maxTime) (ht0 : 0 ≤ c.validTo) (ht1 : c.validTo ≤ maxTime)
    (v raw : Bytes) (hv : SigAs c v raw) (hl : (ser (certTree (withSig c v))).length ≤ 2 ^ 18) :
    ∃ p' N, Nonempty (CertReads (fun n => ¬ Fits c ∨ n ≤ N) (withSig c v) p') ∧ Known c raw p' := by
  obtain ⟨so, hso⟩ := Option.isSome_iff_exists.mp h.sigOid
  obtain ⟨ko, hko⟩ := Option.isSome_iff_exists.mp h.keyOid
  have hso' := sigToOid_lt _ _ hso
  have hko' := sigToOid_lt _ _ hko
  have hpC : noteSigAlgo (noteOid (oidData so) { version := 3, serial := c.serial }) =
      .ok { version := 3, serial := c.serial, lastOid := so, sigOid := so, sigType := c.sigAlgo } := by
    rw [noteOid_reg so hso']
    unfold noteSigAlgo
    dsimp only
    rw [oid_sig _ _ hso]
  obtain ⟨l1, hi⟩ := attrs_fold (SI { version := 3, serial := c.serial, lastOid := so, sigOid := so, sigType := c.sigAlgo }) c.issuer
    h.issuerSmall (fun l m k v hk hv hh => attr_I _ l m k v hk rfl hv hh) so
  obtain ⟨k2, n1, hE⟩ := noteIssuer_gives (F := ¬ Fits c) (issuerDer c)
    (SI { version := 3, serial := c.serial, lastOid := so, sigOid := so, sigType := c.sigAlgo } l1 c.issuer) rfl
    (fun hh hf => hh ⟨by have := hf.id; omega, hf.issuer⟩)
  unfold SI at hE
  dsimp only at hE
  obtain ⟨l2, hs⟩ := attrs_fold (SS
    { version := 3, serial := c.serial, lastOid := l1, sigOid := so, sigType := c.sigAlgo, issuer := c.issuer, rawIssuer := some (issuerDer c),
      authId2 := k2, cn := [], o := [], email := [], issuerName := n1, validFrom := c.validFrom, validTo := c.validTo }) c.subject
    h.subjectSmall (fun l m k v hk hv hh => attr_S _ l m k v hk rfl hv hh) l1
  obtain ⟨n2, hI⟩ := noteSubject_gives (F := ¬ Fits c) (subjectDer c) (SS
    { version := 3, serial := c.serial, lastOid := l1, sigOid := so, sigType := c.sigAlgo, issuer := c.issuer, rawIssuer := some (issuerDer c),
      authId2 := k2, cn := [], o := [], email := [], issuerName := n1, validFrom := c.validFrom, validTo := c.validTo } l2 c.subject) rfl rfl
    (fun hh hf => hh hf.subject)
  unfold SS at hI
  dsimp only at hI
  have hK := keyData_read c
    { version := 3, serial := c.serial, lastOid := ko, sigOid := so, sigType := c.sigAlgo, issuer := c.issuer, rawIssuer := some (issuerDer c),
      authId2 := k2, cn := [], o := [], email := [], issuerName := n1, validFrom := c.validFrom, validTo := c.validTo,
      subject := c.subject, rawSubject := some (subjectDer c), subjectName := n2 } c.pubAlgo (oid_sig _ _ hko)
  dsimp only at hK
  obtain ⟨o, cr, sn, k, N, hX⟩ := exts_steps (F := ¬ Fits c) c
    { version := 3, serial := c.serial, lastOid := ko, sigOid := so, sigType := c.sigAlgo, issuer := c.issuer, rawIssuer := some (issuerDer c),
      authId2 := k2, cn := [], o := [], email := [], issuerName := n1, validFrom := c.validFrom, validTo := c.validTo,
      subject := c.subject, rawSubject := some (subjectDer c), subjectName := n2, keyOid := ko, pkType := c.pubAlgo, key := some (keyRead c) }
    (fun kk hk => by
      have := ext_le (withSig c v) (xitem c kk) (by show _ ∈ (kinds c).map (xitem c); exact List.mem_map_of_mem hk)
      exact Nat.le_trans this hl)
    h.skid rfl rfl rfl rfl rfl rfl rfl (fun hh hf => hh hf.skid)
  have hS := sig_read c v raw hv
    { extRead c o cr sn k
        { version := 3, serial := c.serial, lastOid := ko, sigOid := so, sigType := c.sigAlgo, issuer := c.issuer, rawIssuer := some (issuerDer c),
          authId2 := k2, cn := [], o := [], email := [], issuerName := n1, validFrom := c.validFrom, validTo := c.validTo,
          subject := c.subject, rawSubject := some (subjectDer c), subjectName := n2, keyOid := ko, pkType := c.pubAlgo, key := some (keyRead c) }
      with tbs := ser (.node 0x30 (tbsKids (parts c))), lastOid := so } rfl rfl
  have halg : (parts c).alg = oidData so := by
    show oidData ((sigToOid c.sigAlgo).getD 0) = _
    rw [hso]; rfl
  have hkalg : (parts c).keyAlg = oidData ko := by
    show oidData ((sigToOid c.pubAlgo).getD 0) = _
    rw [hko]; rfl
  have H13 : noteSigAlgo (noteOid (withSig c v).alg { version := 3, serial := (withSig c v).serial }) = .ok { version := 3, serial := c.serial, lastOid := so, sigOid := so, sigType := c.sigAlgo } := by
    show noteSigAlgo (noteOid (parts c).alg _) = _
    rw [halg]
    exact hpC
  have H8 : ∀ n, Gives (¬ Fits c ∨ n ≤ N) (noteIssuer (issuerDer c) ((nameAttrs c.issuer).foldl attrP
      (SI { version := 3, serial := c.serial, lastOid := so, sigOid := so, sigType := c.sigAlgo } so {})))
      { version := 3, serial := c.serial, lastOid := l1, sigOid := so, sigType := c.sigAlgo, issuer := c.issuer, rawIssuer := some (issuerDer c), authId2 := k2, issuerName := n1 } := by
    intro n
    rw [hi]
    exact hE.mono .inl
  have H10 : ∀ n, Gives (¬ Fits c ∨ n ≤ N) (timeP (timeTag c.validFrom) (timeVal c.validFrom) fun t =>
      { ({ version := 3, serial := c.serial, lastOid := l1, sigOid := so, sigType := c.sigAlgo, issuer := c.issuer, rawIssuer := some (issuerDer c), authId2 := k2, issuerName := n1 } : P) with validFrom := t })
      { version := 3, serial := c.serial, lastOid := l1, sigOid := so, sigType := c.sigAlgo, issuer := c.issuer, rawIssuer := some (issuerDer c), authId2 := k2, issuerName := n1, validFrom := c.validFrom } := by
    intro n
    unfold timeP
    rw [utcTime_read _ hf0 hf1]
    exact .inr rfl
  have H9 : ∀ n, Gives (¬ Fits c ∨ n ≤ N) (timeP (timeTag c.validTo) (timeVal c.validTo) fun t =>
      { ({ version := 3, serial := c.serial, lastOid := l1, sigOid := so, sigType := c.sigAlgo, issuer := c.issuer, rawIssuer := some (issuerDer c), authId2 := k2, issuerName := n1, validFrom := c.validFrom } : P) with validTo := t })
      { version := 3, serial := c.serial, lastOid := l1, sigOid := so, sigType := c.sigAlgo, issuer := c.issuer, rawIssuer := some (issuerDer c), authId2 := k2, issuerName := n1, validFrom := c.validFrom, validTo := c.validTo } := by
    intro n
    unfold timeP
    rw [utcTime_read _ ht0 ht1]
    exact .inr rfl
  have H15 : ∀ n, Gives (¬ Fits c ∨ n ≤ N) (noteSubject (subjectDer c) ((nameAttrs c.subject).foldl attrP (SS
      { version := 3, serial := c.serial, lastOid := l1, sigOid := so, sigType := c.sigAlgo, issuer := c.issuer, rawIssuer := some (issuerDer c),
        authId2 := k2, cn := [], o := [], email := [], issuerName := n1, validFrom := c.validFrom, validTo := c.validTo } l1 {})))
      { version := 3, serial := c.serial, lastOid := l2, sigOid := so, sigType := c.sigAlgo, issuer := c.issuer, rawIssuer := some (issuerDer c), authId2 := k2, issuerName := n1, validFrom := c.validFrom, validTo := c.validTo, subject := c.subject, rawSubject := some (subjectDer c), subjectName := n2 } := by
    intro n
    rw [hs]
    exact hI.mono .inl
  have H14 : ∀ n, Gives (¬ Fits c ∨ n ≤ N) (noteSignature v (noteOid (parts c).alg
    { extRead c o cr sn k
        { version := 3, serial := c.serial, lastOid := ko, sigOid := so, sigType := c.sigAlgo, issuer := c.issuer, rawIssuer := some (issuerDer c),
          authId2 := k2, cn := [], o := [], email := [], issuerName := n1, validFrom := c.validFrom, validTo := c.validTo,
          subject := c.subject, rawSubject := some (subjectDer c), subjectName := n2, keyOid := ko, pkType := c.pubAlgo, key := some (keyRead c) }
      with tbs := ser (.node 0x30 (tbsKids (parts c))) }))
      { extRead c o cr sn k
        { version := 3, serial := c.serial, lastOid := ko, sigOid := so, sigType := c.sigAlgo, issuer := c.issuer, rawIssuer := some (issuerDer c),
          authId2 := k2, cn := [], o := [], email := [], issuerName := n1, validFrom := c.validFrom, validTo := c.validTo,
          subject := c.subject, rawSubject := some (subjectDer c), subjectName := n2, keyOid := ko, pkType := c.pubAlgo, key := some (keyRead c) }
      with tbs := ser (.node 0x30 (tbsKids (parts c))), lastOid := so, rawSig := raw } := by
    intro n
    rw [halg, noteOid_reg so hso']
    exact .inr hS
  refine ⟨_, N, ⟨{
    pC := _, pE := _, pF := _, pG := _, pI := _, pK := _, pL := _, t1 := _, t2 := _, v1 := _, v2 := _
    issNe := nameAttrs_ne' _ h.issuer
    subNe := nameAttrs_ne' _ h.subject
    extNe := fun he => kinds_ne c (List.map_eq_nil_iff.mp he)
    h13 := H13
    h8 := H8
    nb := isTime_tree _
    h10 := H10
    na := isTime_tree _
    h9 := H9
    h15 := H15
    h5 := ?_
    exts := hX
    h14 := H14 }⟩, ?_⟩
  · show keyData (keyBytes c) (noteOid (parts c).keyAlg _) = _
    rw [hkalg, noteOid_reg ko hko']
    exact hK
  · exact ⟨rfl, rfl, rfl, rfl, rfl, rfl, rfl, rfl, rfl, rfl, rfl, rfl, rfl, rfl, rfl, rfl, rfl, rfl, rfl, rfl, rfl⟩

/-! ### The parser and the generator -/

/-- The authority key identifier after the certificate. -/
def akidPart (n : Nat) (o : Option Bytes) (p : P) : Except Int P :=
  match o with
  | some v => subParse x509_akid akidPActs n v p
  | none => .ok p

theorem certParse_eq (n : Nat) (data : Bytes) : certParse n data =
    match subParse x509 (certPActs n) n data {} with
    | .error e => .error e
    | .ok p =>
      match akidPart n p.akidExt p with
      | .error e => .error e
      | .ok p => (generateId p.serial (p.rawIssuer.getD [])).map fun k => { p with id := k } := by
  unfold certParse akidPart
  cases subParse x509 (certPActs n) n data {} with
  | error e => rfl
  | ok p =>
    cases p
    rename_i o _ _ _ _ _ _ _
    dsimp only [bind, Except.bind]
    cases o with
    | none =>
      dsimp only
      cases generateId _ _ <;> rfl
    | some v =>
      dsimp only
      cases subParse x509_akid akidPActs n v _ with
      | error e => rfl
      | ok p =>
        dsimp only
        cases generateId p.serial (p.rawIssuer.getD []) <;> rfl

theorem grammar_read (c : In) (h : Good c) (hf0 : 0 ≤ c.validFrom) (hf1 : c.validFrom ≤ maxTime) (ht0 : 0 ≤ c.validTo) (ht1 : c.validTo ≤ maxTime)
    (v raw : Bytes) (hv : SigAs c v raw) (hwf : WF (certTree (withSig c v))) (hl : (ser (certTree (withSig c v))).length ≤ 2 ^ 18) :
    ∃ p' N, Known c raw p' ∧
      ∀ n, Gives (¬ Fits c ∨ n ≤ N) (subParse x509 (certPActs n) n (ser (certTree (withSig c v))) {}) p' := by
  obtain ⟨p', N, ⟨hr⟩, hk⟩ := cert_reads c h hf0 hf1 ht0 ht1 v raw hv hl
  obtain ⟨a, h1, rfl, h2⟩ := cert_read _ _ hr
  have hs : serL [certTree (withSig c v)] = ser (certTree (withSig c v)) := by simp [serL]
  obtain ⟨k, hk'⟩ := parse_tot x509 certPActs {} [certTree (withSig c v)] ⟨hwf, trivial⟩ (by rw [hs]; exact hl) a h1 h2
  refine ⟨a.p, max N k, hk, fun n => ?_⟩
  rw [← hs]
  unfold subParse
  rcases hk' n n with ⟨h1, h2⟩ | ⟨h1, r, x, h2, h3⟩ | h2
  · rw [h2]
    exact .inl ⟨.inr (by omega), _, rfl, by decide⟩
  · rw [h2]
    refine .inl ⟨h1.imp id (fun _ => by omega), r, ?_, h3⟩
    cases x <;> (dsimp only; rw [if_pos h3])
  · rw [h2]
    exact .inr rfl

theorem parse_read (c : In) (h : Good c) (hf0 : 0 ≤ c.validFrom) (hf1 : c.validFrom ≤ maxTime) (ht0 : 0 ≤ c.validTo) (ht1 : c.validTo ≤ maxTime)
    (v raw : Bytes) (hv : SigAs c v raw) (hwf : WF (certTree (withSig c v))) (hl : (ser (certTree (withSig c v))).length ≤ 2 ^ 18) :
    ∃ p N, ∃ p', Known c raw p' ∧ (∃ a k, p = { p' with rawAkid := c.akid, authId1 := a, id := k }) ∧
      ∀ n, Gives (¬ Fits c ∨ n ≤ N) (certParse n (ser (certTree (withSig c v)))) p := by
  obtain ⟨p', N, hk, hg⟩ := grammar_read c h hf0 hf1 ht0 ht1 v raw hv hwf hl
  have hA : ∃ a M, ∀ n, Gives (¬ Fits c ∨ n ≤ M) (akidPart n p'.akidExt p') { p' with rawAkid := c.akid, authId1 := a } := by
    suffices hh : ∀ o, o = akidOf c → ∃ a M, ∀ n, Gives (¬ Fits c ∨ n ≤ M) (akidPart n o p') { p' with rawAkid := c.akid, authId1 := a } from
      hh _ hk.akidExt
    rintro _ rfl
    unfold akidOf
    by_cases ha : c.akid = []
    · rw [if_pos ha, ha, ← hk.rawAkid]
      exact ⟨p'.authId1, 0, fun n => .inr rfl⟩
    · rw [if_neg ha]
      have hle : (serL [.node 0x30 [.leaf 0x80 c.akid]]).length ≤ 2 ^ 18 := by
        have := ext_le (withSig c v) (xitem c .akid) (by
          show _ ∈ (kinds c).map (xitem c)
          refine List.mem_map_of_mem ?_
          unfold kinds
          simp [ha])
        exact Nat.le_trans this hl
      obtain ⟨a, hq⟩ := genId_gives (F := ¬ Fits c) c.akid [] (fun k => { p' with rawAkid := c.akid, authId1 := k })
        (fun hh hf => hh (by have := hf.akid; simpa using this))
      obtain ⟨M, hM⟩ := akid_read (F := ¬ Fits c) c.akid p' _ hle (by
        unfold akidKidP
        rw [if_neg (fun hh => hh hk.authId1)]
        exact hq)
      exact ⟨a, M, hM⟩
  obtain ⟨a, M, hA⟩ := hA
  obtain ⟨k, hid⟩ := genId_gives (F := ¬ Fits c) p'.serial (p'.rawIssuer.getD []) (fun k => { p' with rawAkid := c.akid, authId1 := a, id := k })
    (fun hh hf => hh (by rw [hk.serial, hk.rawIssuer]; exact hf.id))
  refine ⟨_, max N M, p', hk, ⟨a, k, rfl⟩, fun n => ?_⟩
  rw [certParse_eq]
  rcases hg n with ⟨h1, e, h2, h3⟩ | h2
  · rw [h2]
    exact .inl ⟨h1.imp id (fun _ => by omega), e, rfl, h3⟩
  rw [h2]
  dsimp only
  rcases hA n with ⟨h1, e, h2, h3⟩ | h2
  · rw [h2]
    exact .inl ⟨h1.imp id (fun _ => by omega), e, rfl, h3⟩
  rw [h2]
  dsimp only
  exact Gives.mono (G := ¬ Fits c ∨ n ≤ max N M) hid Or.inl

/-! ### The place of the signature -/

theorem derLen_leaf (v w : Bytes) (h : v.length = w.length) : (ser (.leaf 3 v)).length = (ser (.leaf 3 w)).length := by
  simp only [ser, tlv, List.length_cons, List.length_append, h]

theorem kids_len (c : In) (v w : Bytes) (h : v.length = w.length) :
    (serL [.node 0x30 (tbsKids (parts c)), algTree (parts c).alg, .leaf 3 v]).length =
    (serL [.node 0x30 (tbsKids (parts c)), algTree (parts c).alg, .leaf 3 w]).length := by
  simp only [serL, List.length_append, derLen_leaf v w h]

theorem sig_wf (c : In) (v w : Bytes) (h : v.length = w.length) (hw : WF (certTree (withSig c v)))
    (hl : (ser (certTree (withSig c v))).length ≤ 2 ^ 18) :
    WF (certTree (withSig c w)) ∧ (ser (certTree (withSig c w))).length ≤ 2 ^ 18 := by
  have hk := kids_len c v w h
  have ht : ∀ v, certTree (withSig c v) = .node 0x30 [.node 0x30 (tbsKids (parts c)), algTree (parts c).alg, .leaf 3 v] := fun _ => rfl
  rw [ht] at hw hl ⊢
  obtain ⟨h1, h2, h3, h4, h5, _⟩ := hw
  refine ⟨⟨h1, by rw [← hk]; exact h2, h3, h4, ?_, trivial⟩, ?_⟩
  · show w.length < 2 ^ 24
    rw [← h]
    exact h5
  · simp only [ser, tlv, List.length_cons, List.length_append] at hl ⊢
    rw [← hk]
    exact hl

/-- What comes before a signature of `n` bytes. -/
def certPre (c : In) (n : Nat) : Bytes :=
  0x30 :: (derLen (serL [.node 0x30 (tbsKids (parts c)), algTree (parts c).alg, .leaf 3 (List.replicate n 0)]).length ++
    (serL [.node 0x30 (tbsKids (parts c)), algTree (parts c).alg] ++ 3 :: derLen n))

theorem cert_pre (c : In) (v : Bytes) : ser (certTree (withSig c v)) = certPre c v.length ++ v := by
  have ht : certTree (withSig c v) = .node 0x30 [.node 0x30 (tbsKids (parts c)), algTree (parts c).alg, .leaf 3 v] := rfl
  rw [ht]
  unfold certPre
  rw [kids_len c (List.replicate v.length 0) v (by simp)]
  simp only [ser, tlv, serL, List.cons_append, List.append_assoc, List.append_nil]

theorem take_pre (a v : Bytes) : (a ++ v).take ((a ++ v).length - v.length) = a := by
  rw [List.length_append, Nat.add_sub_cancel, List.take_left]

/-- The generator puts the signature of the data to be signed at the end. -/
theorem gen_out (sign : Bytes → Nat → Except Int Bytes) (c : In) (h : Good c) (hf0 : 0 ≤ c.validFrom) (hf1 : c.validFrom ≤ maxTime)
    (ht0 : 0 ≤ c.validTo) (ht1 : c.validTo ≤ maxTime) (avail n : Nat) (D : Bytes) (hg : certGen sign c avail n = .ok D) :
    ∃ sig v raw, sign (ser (.node 0x30 (tbsKids (parts c)))) raw.length = .ok sig ∧ sig <+: raw ∧ SigAs c v raw ∧
      D = ser (certTree (withSig c v)) ∧ WF (certTree (withSig c v)) ∧ (ser (certTree (withSig c v))).length ≤ 2 ^ 18 := by
  obtain ⟨hrun⟩ := cert_run c h (time_year _ hf0) (time_year _ ht0)
  unfold certGen at hg
  obtain ⟨E, hE⟩ : ∃ E, certEncode c avail n = E := ⟨_, rfl⟩
  rw [hE] at hg
  cases E with
  | halt r s =>
    dsimp only at hg
    by_cases hr : r < 0
    · rw [if_pos hr] at hg; cases hg
    rw [if_neg hr] at hg
    obtain ⟨_, ho, hw, hl⟩ := certEncode_tree c h.dir h.eku h.comp _ hrun avail n r s hE hr
    have hsz : c.sigAlgo ≠ 0 := by
      intro h0
      have := h.sigSize
      rw [h0] at this
      cases this
    obtain ⟨raw0, hraw⟩ : ∃ raw0, SigAs c (0 :: sigRoom c) raw0 := by
      by_cases hc : c.sigAlgo ∈ [4, 5, 6]
      · exact ⟨_, .inl ⟨hc, rfl⟩⟩
      · exact ⟨_, .inr ⟨hc, hsz, rfl⟩⟩
    have hp : parts c = withSig c (0 :: sigRoom c) := rfl
    rw [hp] at ho hw hl
    obtain ⟨p', N, hk, hgr⟩ := grammar_read c h hf0 hf1 ht0 ht1 _ raw0 hraw hw hl
    have hgr := hgr n
    rw [← ho] at hgr
    rcases hgr with ⟨_, e, he, _⟩ | he
    · rw [he] at hg; cases hg
    rw [he] at hg
    dsimp only at hg
    rw [hk.tbs, hk.rawSig] at hg
    obtain ⟨S, hS⟩ : ∃ S, sign (ser (.node 0x30 (tbsKids (parts c)))) raw0.length = S := ⟨_, rfl⟩
    rw [hS] at hg
    cases S with
    | error e => cases hg
    | ok sig =>
      dsimp only at hg
      by_cases hlen : sig.length > raw0.length
      · rw [if_pos hlen] at hg; cases hg
      rw [if_neg hlen] at hg
      have hrl : (sig ++ raw0.drop sig.length).length = raw0.length := by simp; omega
      injection hg with hg
      rcases hraw with ⟨hc, hr0⟩ | ⟨hc, h0, hr0⟩
      · refine ⟨sig, sig ++ raw0.drop sig.length, sig ++ raw0.drop sig.length, ?_, List.prefix_append _ _, .inl ⟨hc, rfl⟩, ?_, ?_⟩
        · rw [hrl]; exact hS
        · rw [← hg, ho, hr0, cert_pre, cert_pre, take_pre, hrl]
        · rw [hr0] at hw hl
          exact sig_wf c raw0 _ hrl.symm hw hl
      · refine ⟨sig, 0 :: (sig ++ raw0.drop sig.length), sig ++ raw0.drop sig.length, ?_, List.prefix_append _ _, .inr ⟨hc, h0, rfl⟩, ?_, ?_⟩
        · rw [hrl]; exact hS
        · rw [← hg, ho, hr0, cert_pre, cert_pre, List.length_cons, List.length_cons, hrl,
            show certPre c (raw0.length + 1) ++ 0 :: raw0 = (certPre c (raw0.length + 1) ++ [0]) ++ raw0 by simp, take_pre]
          simp
        · rw [hr0] at hw hl
          exact sig_wf c (0 :: raw0) _ (by rw [List.length_cons, List.length_cons, hrl]) hw hl
  | _ => cases hg

end LC.Crt
