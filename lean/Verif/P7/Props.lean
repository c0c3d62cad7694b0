import Verif.P7.Read
import Verif.Asn1.GenLog
/-
Properties of PKCS#7 messages that `lc_pkcs7_generate` produces: `lc_pkcs7_message_parse` and `lc_pkcs7_verify` on them.
-/
namespace LC.P7
open LC.Asn1 LC.Asn1.Enc LC.Asn1.Gen LC.Asn1.Tr
open LC.X509 (kidMax Kid generateId idSame Cert)
open LC.Oid (oidData)
open LC.Crt (maxTime sigToOid ENOSTEPS)
open LC.Pkcs7 (SInfo World Msg Rules digest digestAttrs findKey verifySigner verifyOne verifyLoop verify rulesBad signingTimeBad verifySigChain)

set_option maxRecDepth 8000

variable {κ : Type}

/-! ### C97: read back -/

/-- The parser reports what the generator was given: certificates, content, and for each signer the identifier, the algorithms, the
attributes requested and a signature by the signer's key. -/
structure Reported (v : Env) (m : GMsg) (h : Nat) (ks : List κ) (P : Parsed κ) : Prop where
  certs : P.certs = ks
  kind : P.dataType = m.dataType
  data : P.data = if m.embed = true ∧ m.data ≠ [] then some m.data else none
  count : P.sinfos.length = m.signers.length
  signer : ∀ (i : Nat) (s : Signer), m.signers[i]? = some s → ∃ si : SInfo, P.sinfos[i]? = some si ∧
    generateId s.cert.skid [] = .ok si.sig.auth0 ∧ si.sig.algo = s.cert.pubAlgo ∧ si.sig.hash = some h ∧
    si.authattrs.isSome = (s.aaSet != 0) ∧ si.msgdigest = (if s.aaSet = 0 then none else some (v.hash h m.data)) ∧
    si.signingTime = (if s.aaSet &&& HAS_SIGNING_TIME ≠ 0 then some v.now else none) ∧
    ∃ d sg, v.sign s.cert (.digest h d) = some sg ∧ si.sig.s = some sg

theorem sign_sigOf {v : Env} {m : GMsg} {h : Nat} (s : Signer)
    (hs : ∃ b, b ≠ [] ∧ v.sign s.cert (.digest h (tbs v m h s)) = some b) :
    v.sign s.cert (.digest h (tbs v m h s)) = some (sigOf v m h s) := by
  obtain ⟨b, _, hb⟩ := hs
  unfold sigOf
  rw [hb]
  rfl

theorem reported {v : Env} {m : GMsg} {h : Nat} (hr : Ready v m h) (ks : List κ) : Reported v m h ks (parsedOf v m h ks) where
  certs := rfl
  kind := hr.dataType.symm
  data := rfl
  count := by unfold parsedOf; simp
  signer := by
    intro i s hi
    have hm : s ∈ m.signers := List.mem_of_getElem? hi
    refine ⟨sinfoOf v m h s, ?_, id_ok _ (hr.skid s hm).2, rfl, rfl, ?_, rfl, ?_, tbs v m h s, sigOf v m h s, sign_sigOf s (hr.signs s hm), rfl⟩
    · show (m.signers.map (sinfoOf v m h))[i]? = _
      rw [List.getElem?_map, hi]
      rfl
    · unfold sinfoOf
      dsimp only
      by_cases hz : s.aaSet = 0
      · rw [if_pos hz, hz]; rfl
      · rw [if_neg hz]; simp [hz]
    · unfold sinfoOf
      dsimp only
      rcases hr.sets s hm with e | e | e <;> rw [e] <;> rfl

/-- C97: a generated message is read back: the certificates in their order, the content, the signers in their order with identifier,
algorithms, attributes and signature.  For messages of signers that have subject key identifiers and a common hash function, with
`aa_set` content type and message digest with or without the signing time, or one signer without attributes.
Not proved for others; `c97_negation` shows that the parser rejects the message if one of the signers has no identifier. -/
theorem c97_readback_partial (v : Env) (m : GMsg) (h : Nat) (hr : Ready v m h) (cp : Bytes → Except Int κ) (ks : List κ)
    (hk : m.certs.map (fun c => cp c.raw) = ks.map Except.ok) (avail n : Nat) (D : Bytes) (hg : generate v m avail n = .ok D) :
    ∃ N, ∀ k, k > N → ∃ P, messageParse cp D k = .ok P ∧ Reported v m h ks P := by
  obtain ⟨N, hN⟩ := generate_read hr cp ks hk avail n D hg
  refine ⟨N, fun k hk => ?_⟩
  rcases hN k with ⟨h1, _⟩ | h1
  · omega
  · exact ⟨_, h1, reported hr ks⟩

/-! ### C98: what is signed is what is verified -/

theorem digest_ok {v : Env} {m : GMsg} {h : Nat} (hr : Ready v m h) (w : World) (hw : ∀ b, w.hash h b = v.hash h b) (s : Signer) :
    digest w m.data (sinfoOf v m h s) = (0, { sinfoOf v m h s with sig := { (sinfoOf v m h s).sig with digest := tbs v m h s } }) := by
  unfold digest sinfoOf
  dsimp only
  rw [if_neg (by simp)]
  unfold digestAttrs tbs
  dsimp only
  by_cases hz : s.aaSet = 0
  · rw [if_pos hz, if_pos hz, if_pos hz, hw]
  · rw [if_neg hz, if_neg hz, if_neg hz]
    dsimp only
    rw [hw, if_neg (by simp), if_neg (by simp), hw]
    rfl

/-- C98: for each signer of a generated message, `pkcs7_digest` on the content computes the digest that the signer signed; it returns
zero.  Under the conditions of `c97_readback_partial`; see `c98_negation` and `c98_negation_hashes`. -/
theorem c98_digest_partial (v : Env) (m : GMsg) (h : Nat) (hr : Ready v m h) (cp : Bytes → Except Int κ) (ks : List κ)
    (hk : m.certs.map (fun c => cp c.raw) = ks.map Except.ok) (avail n : Nat) (D : Bytes) (hg : generate v m avail n = .ok D)
    (w : World) (hw : ∀ b, w.hash h b = v.hash h b) (k : Nat) (P : Parsed κ) (hp : messageParse cp D k = .ok P) :
    P.sinfos.length = m.signers.length ∧ ∀ (i : Nat) (s : Signer) (si : SInfo), m.signers[i]? = some s → P.sinfos[i]? = some si →
      (digest w m.data si).1 = 0 ∧ v.sign s.cert (.digest h (digest w m.data si).2.sig.digest) = si.sig.s := by
  obtain ⟨N, hN⟩ := generate_read hr cp ks hk avail n D hg
  have he : P = parsedOf v m h ks := by
    rcases hN k with ⟨_, h1⟩ | h1
    · rw [h1] at hp; cases hp
    · rw [h1] at hp; injection hp with hp; exact hp.symm
  subst he
  refine ⟨by simp [parsedOf], fun i s si hi hs => ?_⟩
  have hm : s ∈ m.signers := List.mem_of_getElem? hi
  have hs' : (m.signers.map (sinfoOf v m h))[i]? = some si := hs
  rw [List.getElem?_map, hi] at hs'
  injection hs' with hs'
  subst hs'
  have hd := digest_ok hr w hw s
  refine ⟨by rw [hd], ?_⟩
  rw [hd]
  exact sign_sigOf s (hr.signs s hm)

/-! ### C99: acceptance -/

/-- `lc_pkcs7_supply_detached_data`, `/repo/asn1/src/pkcs7_verify.c:509-525`. -/
def supply (P : Parsed κ) (d : Bytes) : Parsed κ :=
  match P.data with
  | some _ => P
  | none => { P with data := some d }

/-- The message as `lc_pkcs7_verify` sees it. -/
def toMsg (P : Parsed Nat) : Msg := ⟨P.certs, P.dataType = OID_data, P.data, P.sinfos⟩

/-- The verifier trusts the signers: the hash function is the same, the certificate of each signer can be told from the others, carries
the key the signatures of the signer are valid under, satisfies the rules, is valid at the time of the signature, and its chain is
accepted. -/
structure Trusts (w : World) (v : Env) (m : GMsg) (h : Nat) (ks : List Nat) (store : Option (List Nat)) (rules : Option Rules) : Prop where
  hash : ∀ b, w.hash h b = v.hash h b
  key : ∀ s ∈ m.signers, ∃ x ∈ ks, generateId s.cert.skid [] = .ok (w.cert x).skid ∧
    (∀ y ∈ ks, idSame (w.cert y).id (w.cert x).skid = true ∨ idSame (w.cert y).skid (w.cert x).skid = true → y = x) ∧
    (w.cert x).pub.algo = s.cert.pubAlgo ∧ w.cr.supported s.cert.pubAlgo = true ∧ 0 ≤ w.cr.checkHash s.cert.pubAlgo h ∧
    (∀ d b, v.sign s.cert (.digest h d) = some b → w.cr.prim s.cert.pubAlgo (w.cert x).pub.key d b = 0) ∧
    (s.aaSet &&& HAS_SIGNING_TIME ≠ 0 → (w.cert x).validFrom ≤ v.now ∧ v.now ≤ (w.cert x).validTo) ∧
    rulesBad rules (w.cert x) = false ∧ verifySigChain w ks store x = 0

theorem find_unique (p : Nat → Bool) : ∀ (l : List Nat) (x : Nat), x ∈ l → p x = true → (∀ y ∈ l, p y = true → y = x) → l.find? p = some x
  | [], _, h, _, _ => by cases h
  | a :: l, x, hm, hp, hu => by
    rw [List.find?_cons]
    by_cases ha : p a = true
    · rw [ha, hu a (by simp) ha]
    · have : p a = false := by simpa using ha
      rw [this]
      refine find_unique p l x ?_ hp (fun y hy => hu y (by simp [hy]))
      rcases List.mem_cons.mp hm with e | e
      · subst e; exact absurd hp ha
      · exact e

theorem one_ok {v : Env} {m : GMsg} {h : Nat} (hr : Ready v m h) (w : World) (ks : List Nat) (store : Option (List Nat)) (rules : Option Rules)
    (ht : Trusts w v m h ks store rules) (M : Msg) (hM : M.certs = ks) (s : Signer) (hs : s ∈ m.signers) :
    (verifyOne w M m.data store rules (sinfoOf v m h s)).1 = 0 := by
  obtain ⟨x, hx, hid, hu, ha, hsup, hch, hpr, hti, hru, hcc⟩ := ht.key s hs
  unfold verifyOne
  dsimp only
  rw [digest_ok hr w ht.hash s, if_neg (show ¬ (0 : Int) < 0 by decide)]
  dsimp only
  have hk : kidOf s.cert.skid = (w.cert x).skid := by
    rw [id_ok _ (hr.skid s hs).2] at hid
    injection hid
  unfold verifySigner
  have hf : findKey w M { sinfoOf v m h s with sig := { (sinfoOf v m h s).sig with digest := tbs v m h s } } = some x := by
    unfold findKey
    rw [hM]
    apply find_unique
    · exact hx
    · show (idSame _ (kidOf s.cert.skid) || idSame _ (kidOf s.cert.skid)) = true
      rw [hk]
      simp [idSame]
    · intro y hy hp
      refine hu y hy ?_
      have hp' : (idSame (w.cert y).id (kidOf s.cert.skid) || idSame (w.cert y).skid (kidOf s.cert.skid)) = true := hp
      rw [hk] at hp'
      simpa using hp'
  rw [hf]
  dsimp only
  have htb : signingTimeBad { sinfoOf v m h s with sig := { (sinfoOf v m h s).sig with digest := tbs v m h s } } (w.cert x) = false := by
    unfold signingTimeBad sinfoOf
    dsimp only
    by_cases h7 : s.aaSet = 7
    · rw [if_pos h7]
      obtain ⟨t1, t2⟩ := hti (by rw [h7]; decide)
      simp
      omega
    · rw [if_neg h7]
  rw [htb, hru]
  have hne : tbs v m h s ≠ [] := by
    unfold tbs
    split
    · exact hr.hashNe _
    · exact hr.hashNe _
  have hv : LC.X509.verifySignature w.cr (w.cert x).pub { (sinfoOf v m h s).sig with digest := tbs v m h s } = 0 := by
    unfold LC.X509.verifySignature LC.X509.hashCheck LC.X509.callPrim LC.X509.Sig.message sinfoOf
    dsimp only
    rw [if_neg (fun hq => hq.2 ha), ha, if_neg (by omega), if_pos hsup, if_pos hne]
    exact hpr _ _ (sign_sigOf s (hr.signs s hs))
  rw [hv]
  rw [hM]
  simpa using hcc

theorem loop_ok (w : World) (M : Msg) (d : Bytes) (store : Option (List Nat)) (rules : Option Rules) : ∀ (l : List SInfo) (c : Int),
    (∀ si ∈ l, (verifyOne w M d store rules si).1 = 0) → (l ≠ [] ∨ c = 0) → (verifyLoop w M d store rules c l).1 = 0
  | [], c, _, hc => by
    rcases hc with hc | hc
    · exact absurd rfl hc
    · exact hc
  | si :: l, c, h, _ => by
    unfold verifyLoop
    dsimp only
    have h0 := h si (by simp)
    rw [h0, if_neg (by decide), if_neg (by decide), if_pos rfl]
    exact loop_ok w M d store rules l 0 (fun t ht => h t (by simp [ht])) (.inr rfl)

/-- C99: `lc_pkcs7_verify` accepts a generated message, after the content has been supplied if it is not part of the message, if the
verifier trusts the signers and signatures are valid under the signers' keys.  The message must have content or not be embedded
(`c99_negation`), and the conditions of `c97_readback_partial` hold. -/
theorem c99_accepted_partial (v : Env) (m : GMsg) (h : Nat) (hr : Ready v m h) (hd : m.embed = true → m.data ≠ [])
    (cp : Bytes → Except Int Nat) (ks : List Nat) (hk : m.certs.map (fun c => cp c.raw) = ks.map Except.ok) (avail n : Nat) (D : Bytes)
    (hg : generate v m avail n = .ok D) (w : World) (store : Option (List Nat)) (rules : Option Rules) (ht : Trusts w v m h ks store rules)
    (k : Nat) (P : Parsed Nat) (hp : messageParse cp D k = .ok P) :
    (verify w (toMsg (supply P m.data)) store rules).1 = 0 := by
  obtain ⟨N, hN⟩ := generate_read hr cp ks hk avail n D hg
  have he : P = parsedOf v m h ks := by
    rcases hN k with ⟨_, h1⟩ | h1
    · rw [h1] at hp; cases hp
    · rw [h1] at hp; injection hp with hp; exact hp.symm
  have hs : supply P m.data = { parsedOf v m h ks with data := some m.data } := by
    subst he
    unfold supply parsedOf content
    dsimp only
    by_cases hc : m.embed = true ∧ m.data ≠ []
    · rw [if_pos hc]
    · rw [if_neg hc]
  rw [hs]
  unfold verify toMsg parsedOf
  dsimp only
  rw [if_neg (by simp)]
  dsimp only
  apply loop_ok
  · intro si hsi
    obtain ⟨s, hm, rfl⟩ := List.mem_map.mp hsi
    exact one_ok hr w ks store rules ht _ rfl s hm
  · refine .inl ?_
    intro hq
    exact hr.signersNe (List.map_eq_nil_iff.mp hq)

/-! ### C100: the generator returns -/

theorem grun_more (d : Decoder) (act : GAct GC) (k j : Nat) (a : GS GC) (r : Int) (b : GS GC) (h : grun d act k a = .halt r b) :
    grun d act (k + j) a = .halt r b := by
  induction k generalizing a with
  | zero => cases h
  | succ k ih =>
    rw [show k + 1 + j = (k + j) + 1 by omega]
    unfold grun at h ⊢
    cases hs : gstep d act a with
    | next a' => rw [hs] at h; exact ih a' h
    | halt r' a' => rw [hs] at h; exact h
    | err => rw [hs] at h; cases h
    | stuck => rw [hs] at h; cases h

/-- C100: the encoder of the attributes returns if the attributes requested are content type and message digest, with or without the
signing time.  For other sets it need not return, see `c100_negation`. -/
theorem c100_returns_partial (v : Env) (m : GMsg) (h : Nat) (s : Signer) (hs : s.aaSet = 5 ∨ s.aaSet = 7) (hd : getDigest s = .ok h)
    (hm : m.dataType = OID_data) (hh : v.hash h m.data ≠ []) (h0 : 0 ≤ v.now) (h1 : v.now ≤ maxTime) (x : GC) (ss : List Signer)
    (hx : x.sinfos = s :: ss) (ha : x.applied = 0) (avail : Nat) :
    ∃ N, ∀ n, n ≥ N → ∀ st, encode (aaEncoder v m) small x avail n ≠ .next st := by
  obtain ⟨b, ⟨k, hb⟩, _, _⟩ := aaSet_walk (aaList v m h s) x _ (aa_run v m h s hs hd hm hh h0 h1 x ss hx ha)
  refine ⟨k, fun n hn st he => ?_⟩
  obtain ⟨j, rfl⟩ : ∃ j, n = k + j := ⟨n - k, by omega⟩
  have hsim := grun_sim (aaEncoder v m) small _ (simple_agree (aaActs v m) pkcs7_aa (aaActs_neg v m)) (min small.maxStack avail) (k + j)
    { ctx := x } { ctx := x }
    ⟨rfl, rfl, rfl, rfl, rfl, rfl, rfl, rfl, ⟨_, [], rfl, rfl, rfl, rfl⟩, ⟨trivial, by intro _ hb; cases hb⟩, Nat.zero_le _⟩
  unfold encode at he
  rw [he] at hsim
  have hg : grun (aaEncoder v m).d (simpleG (aaActs v m)) (k + j) { ctx := x } = .halt 0 b := grun_more _ _ k j _ 0 b hb
  rw [hg] at hsim
  rcases hsim with ⟨s', e, _⟩ | ⟨c', s', e, _⟩ | e <;> cases e

/-! ### Examples and negations -/

/-- A toy environment: the digest is the hash number, the length and the first octet of the message; the signature is key and digest. -/
def toy : Env where
  hash := fun h b => [UInt8.ofNat (h + 1), UInt8.ofNat b.length, b.getD 0 0, b.getD 8 0]
  sign := fun c t => match t with
    | .digest _ d => some (c.key ++ d)
    | .raw m => some (c.key ++ m)
  now := 1700000000

def toyC1 : GCert := { raw := [0x30, 2, 1, 2], skid := [9, 9], serial := [1], subject := { cn := [65] }, pubAlgo := 1, sigType := 1, key := [1] }
def toyC2 : GCert := { raw := [0x30, 3, 1, 2, 3], skid := [8, 8, 8], serial := [2], subject := { cn := [66], o := [67] }, pubAlgo := 3, sigType := 3, key := [2] }
def toyC0 : GCert := { toyC2 with skid := [] }

/-- Two signers with attributes. -/
def toyM : GMsg := { certs := [toyC1, toyC2], signers := [⟨toyC1, some 7, 0, 7⟩, ⟨toyC2, some 7, 0, 5⟩], data := [1, 2, 3] }

/-- One signer without attributes, detached. -/
def toyD : GMsg := { certs := [toyC1, toyC2], signers := [⟨toyC1, some 7, 0, 0⟩], data := [1, 2, 3], embed := false }

theorem toyM_ready : Ready toy toyM 7 where
  certsNe := by decide
  signersNe := by decide
  certs := by
    intro c hc
    simp only [toyM, List.mem_cons, List.not_mem_nil, or_false] at hc
    rcases hc with rfl | rfl
    · exact ⟨[1, 2], by decide, by decide, by decide⟩
    · exact ⟨[1, 2, 3], by decide, by decide, by decide⟩
  dataType := rfl
  hlt := by decide
  hash := by
    intro s hs
    simp only [toyM, List.mem_cons, List.not_mem_nil, or_false] at hs
    rcases hs with rfl | rfl <;> rfl
  skid := by decide
  anySkid := ⟨toyC1, by decide, by decide⟩
  alg := by decide
  sigType := by decide
  signs := by
    intro s hs
    simp only [toyM, List.mem_cons, List.not_mem_nil, or_false] at hs
    rcases hs with rfl | rfl
    · exact ⟨_, by simp [toyC1], rfl⟩
    · exact ⟨_, by simp [toyC2], rfl⟩
  hashNe := by intro b; simp [toy]
  now0 := by decide
  now1 := by decide
  attrs := .inl (by decide)

theorem toyD_ready : Ready toy toyD 7 where
  certsNe := by decide
  signersNe := by decide
  certs := toyM_ready.certs
  dataType := rfl
  hlt := by decide
  hash := by
    intro s hs
    simp only [toyD, List.mem_cons, List.not_mem_nil, or_false] at hs
    subst hs; rfl
  skid := by decide
  anySkid := ⟨toyC1, by decide, by decide⟩
  alg := by decide
  sigType := by decide
  signs := by
    intro s hs
    simp only [toyD, List.mem_cons, List.not_mem_nil, or_false] at hs
    subst hs
    exact ⟨_, by simp [toyC1], rfl⟩
  hashNe := by intro b; simp [toy]
  now0 := by decide
  now1 := by decide
  attrs := .inr ⟨_, rfl, rfl⟩

def isOk {α : Type} (r : Except Int α) : Bool := match r with | .ok _ => true | .error _ => false

theorem isOk_iff {α : Type} (r : Except Int α) (h : isOk r = true) : ∃ D, r = .ok D := by
  cases r with
  | ok D => exact ⟨D, rfl⟩
  | error e => cases h

/-- Certificates are told by their octets. -/
def toyParse (b : Bytes) : Except Int Nat := if b = toyC1.raw then .ok 0 else if b = toyC2.raw then .ok 1 else .error (-EINVAL)

example : (∃ D, generate toy toyM 4000 1000 = .ok D) ∧ toyM.certs.map (fun c => toyParse c.raw) = [0, 1].map Except.ok ∧
    ∃ D, generate toy toyD 4000 1000 = .ok D :=
  ⟨isOk_iff _ (by decide +kernel), rfl, isOk_iff _ (by decide +kernel)⟩

/-- A verifier with the certificates of the toy signers at the addresses 0 and 1, both of them root certificates. -/
def toyW : World where
  cert := fun x =>
    { pub := { key := if x = 0 then [1] else [2], algo := if x = 0 then 1 else 3, caPathlen := 0x90, keyUsage := 0x2004 }
      sig := { s := some [1], algo := 1 }
      id := ⟨1, 77 :: List.replicate 191 0⟩
      skid := kidOf (if x = 0 then [9, 9] else [8, 8, 8]), rawSkid := if x = 0 then [9, 9] else [8, 8, 8], rawSubject := some [1]
      validTo := 2000000000, selfSigned := true }
  cr := { supported := fun _ => true, checkHash := fun _ _ => 0, prim := fun _ key d s => if s = key ++ d then 0 else -74 }
  hash := toy.hash
  clock := .unsupported

theorem toyW_trusts : Trusts toyW toy toyM 7 [0, 1] none none where
  hash := fun _ => rfl
  key := by
    intro s hs
    simp only [toyM, List.mem_cons, List.not_mem_nil, or_false] at hs
    rcases hs with rfl | rfl
    · refine ⟨0, by decide, id_ok _ (by decide), by decide, rfl, rfl, by decide, ?_, by decide, rfl, by decide⟩
      intro d b hb
      have hb' : some ([1] ++ d) = some b := hb
      injection hb' with hb'
      show (if b = [1] ++ d then (0 : Int) else -74) = 0
      rw [if_pos hb'.symm]
    · refine ⟨1, by decide, id_ok _ (by decide), by decide, rfl, rfl, by decide, ?_, by decide, rfl, by decide⟩
      intro d b hb
      have hb' : some ([2] ++ d) = some b := hb
      injection hb' with hb'
      show (if b = [2] ++ d then (0 : Int) else -74) = 0
      rw [if_pos hb'.symm]

example : Trusts toyW toy toyM 7 [0, 1] none none ∧ (toyM.embed = true → toyM.data ≠ []) := ⟨toyW_trusts, by decide⟩

example (s : Signer) (ss : List Signer) (hs : toyM.signers = s :: ss) : (s.aaSet = 5 ∨ s.aaSet = 7) ∧ getDigest s = .ok 7 ∧ toy.hash 7 toyM.data ≠ [] := by
  injection hs with h1 h2
  subst h1
  exact ⟨.inr rfl, rfl, by simp [toy]⟩

/-- A signer with a subject key identifier and one without. -/
def mixedM : GMsg := { toyM with certs := [toyC1, toyC0], signers := [⟨toyC1, some 7, 0, 7⟩, ⟨toyC0, some 7, 0, 7⟩] }

def errIs {α : Type} (r : Except Int α) (e : Int) : Bool := match r with | .ok _ => false | .error x => x == e

theorem errIs_iff {α : Type} (r : Except Int α) (e : Int) (h : errIs r e = true) : r = .error e := by
  cases r with
  | ok D => cases h
  | error x => rw [show x = e by simpa [errIs] using h]

def thenP {α β : Type} (r : Except Int α) (f : α → Except Int β) : Except Int β := match r with | .ok a => f a | .error e => .error e

theorem thenP_ok {α β : Type} (r : Except Int α) (f : α → Except Int β) (q : β → Bool)
    (h : (match thenP r f with | .ok b => q b | .error _ => false) = true) : ∃ a b, r = .ok a ∧ f a = .ok b ∧ q b = true := by
  cases r with
  | ok a =>
    cases hb : f a with
    | ok b =>
      refine ⟨a, b, rfl, hb, ?_⟩
      have h' : (match f a with | .ok b => q b | .error _ => false) = true := h
      rw [hb] at h'
      exact h'
    | error e =>
      have h' : (match f a with | .ok b => q b | .error _ => false) = true := h
      rw [hb] at h'
      cases h'
  | error e => cases h

theorem thenP_err {α β : Type} (r : Except Int α) (f : α → Except Int β) (e : Int)
    (h : (match r with | .ok a => errIs (f a) e | .error _ => false) = true) : ∃ a, r = .ok a ∧ f a = .error e := by
  cases r with
  | ok a => exact ⟨a, rfl, errIs_iff _ _ h⟩
  | error e => cases h

/-- C97, negation of the general claim: if one of two signers has no subject key identifier, `lc_pkcs7_generate` succeeds and
`lc_pkcs7_message_parse` answers `-EBADMSG`. -/
theorem c97_negation : ∃ D, generate toy mixedM 4000 1000 = .ok D ∧ messageParse toyParse D 1000 = .error (-EBADMSG) :=
  thenP_err _ _ _ (by decide +kernel)

/-- Two signers that ask for no attributes. -/
def plainM : GMsg := { toyM with signers := [⟨toyC1, some 7, 0, 0⟩, ⟨toyC2, some 7, 0, 0⟩] }

/-- C98, negation: of two signers without attributes the second does not sign the digest that `pkcs7_digest` computes, and
`lc_pkcs7_verify` fails. -/
theorem c98_negation : ∃ D P, generate toy plainM 4000 1000 = .ok D ∧ messageParse toyParse D 1000 = .ok P ∧
    (∃ si, P.sinfos[1]? = some si ∧ toy.sign toyC2 (.digest 7 (digest toyW plainM.data si).2.sig.digest) ≠ si.sig.s) ∧
    (verify toyW (toMsg P) none none).1 < 0 := by
  obtain ⟨D, P, h1, h2, h3⟩ := thenP_ok (generate toy plainM 4000 1000) (fun D => messageParse toyParse D 1000)
    (fun P => (match P.sinfos[1]? with
      | some si => decide (toy.sign toyC2 (.digest 7 (digest toyW plainM.data si).2.sig.digest) ≠ si.sig.s)
      | none => false) && decide ((verify toyW (toMsg P) none none).1 < 0)) (by decide +kernel)
  rw [Bool.and_eq_true] at h3
  refine ⟨D, P, h1, h2, ?_, of_decide_eq_true h3.2⟩
  cases hs : P.sinfos[1]? with
  | none => rw [hs] at h3; cases h3.1
  | some si => rw [hs] at h3; exact ⟨si, rfl, of_decide_eq_true h3.1⟩

/-- Two signers with attributes and different hash functions. -/
def hashesM : GMsg := { toyM with signers := [⟨toyC1, some 7, 0, 5⟩, ⟨toyC2, some 5, 0, 5⟩] }

/-- C98, negation: of two signers with different hash functions the second signs a digest made with the hash function of the first. -/
theorem c98_negation_hashes : ∃ D P, generate toy hashesM 4000 1000 = .ok D ∧ messageParse toyParse D 1000 = .ok P ∧
    (∃ si, P.sinfos[1]? = some si ∧ ∀ g, toy.sign toyC2 (.digest g (digest toyW hashesM.data si).2.sig.digest) ≠ si.sig.s) ∧
    (verify toyW (toMsg P) none none).1 < 0 := by
  obtain ⟨D, P, h1, h2, h3⟩ := thenP_ok (generate toy hashesM 4000 1000) (fun D => messageParse toyParse D 1000)
    (fun P => (match P.sinfos[1]? with
      | some si => decide (toy.sign toyC2 (.digest 5 (digest toyW hashesM.data si).2.sig.digest) ≠ si.sig.s)
      | none => false) && decide ((verify toyW (toMsg P) none none).1 < 0)) (by decide +kernel)
  rw [Bool.and_eq_true] at h3
  refine ⟨D, P, h1, h2, ?_, of_decide_eq_true h3.2⟩
  cases hs : P.sinfos[1]? with
  | none => rw [hs] at h3; cases h3.1
  | some si => rw [hs] at h3; exact ⟨si, rfl, fun _ => of_decide_eq_true h3.1⟩

/-- An embedded empty content. -/
def emptyM : GMsg := { toyM with data := [] }

/-- C99, negation: a message with an empty embedded content is generated and read, and `lc_pkcs7_verify` answers `-ENODATA`. -/
theorem c99_negation : ∃ D P, generate toy emptyM 4000 1000 = .ok D ∧ messageParse toyParse D 1000 = .ok P ∧
    (verify toyW (toMsg P) none none).1 = -LC.X509.ENODATA := by
  obtain ⟨D, P, h1, h2, h3⟩ := thenP_ok (generate toy emptyM 4000 1000) (fun D => messageParse toyParse D 1000)
    (fun P => decide ((verify toyW (toMsg P) none none).1 = -LC.X509.ENODATA)) (by decide +kernel)
  exact ⟨D, P, h1, h2, of_decide_eq_true h3⟩

/-- A signer that asks for the content type attribute and not for the message digest. -/
def loopS : Signer := ⟨toyC1, some 7, 0, HAS_CONTENT_TYPE⟩
def loopM : GMsg := { toyM with signers := [loopS] }
def loopX : GC := { certs := [], sinfos := [loopS] }

def loopRun (n : Nat) (s : St GC) : Gen.Res GC := Gen.run (aaEncoder toy loopM) small (min small.maxStack 500) n s

def stOf : Gen.Res GC → St GC
  | .next s => s
  | .halt _ s => s
  | .fault => { ctx := loopX }

/-- The state after fifteen rounds; it recurs every seven rounds. -/
def loopSt : St GC := stOf (loopRun 15 { ctx := loopX })

theorem loop_enter : loopRun 15 { ctx := loopX } = .next loopSt := rfl

theorem loop_round : loopRun 7 loopSt = .next { loopSt with log := (stOf (loopRun 7 loopSt)).log } := rfl

/-- C100, negation: the encoder of the attributes that `pkcs7_authattrs_enc` calls does not return for a signer that asks for the
content type and not for the message digest. -/
theorem c100_negation : ∀ n, ∃ s, encode (aaEncoder toy loopM) small loopX 500 n = .next s :=
  cycle (aaEncoder toy loopM) small (min small.maxStack 500) 15 7 (by decide) { ctx := loopX } loopSt _ loop_enter loop_round

end LC.P7
