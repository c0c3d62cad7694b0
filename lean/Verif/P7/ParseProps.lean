import Verif.P7.Signed
import Mathlib.Data.List.Infix
/-
Property theorems of the parser of PKCS#7 messages, `/repo/asn1/src/pkcs7_parser.c`, for all inputs: C101, C102, C103, C104.
-/
namespace LC.P7
open LC.Asn1 LC.Asn1.Nest LC.Asn1.Enc LC.Asn1.Gen LC.Asn1.Tr
open LC.X509 (kidMax Kid generateId idSame Cert EKEYREJECTED)
open LC.Oid (oidData lookUp)
open LC.Crt (oidToSig)
open LC.Pkcs7 (SInfo World Msg Rules digest verify)

set_option maxRecDepth 8000

variable {κ : Type}

/-- What a successful parse says about the run of the decoder. -/
theorem messageParse_ok (cp : Bytes → Except Int κ) (data : Bytes) (n : Nat) (P : Parsed κ) (h : messageParse cp data n = .ok P) :
    ∃ r s p, decode pkcs7 (cbOf (p7PActs cp) data {}) data n = .halt r s ∧ foldTr (p7PActs cp) data {} s.trace = .ok p ∧
      PInv cp data p ∧ checkAuthattrs p.sinfos = true ∧ P = ⟨p.version, p.dataType, p.data, p.msgCerts, p.sinfos⟩ := by
  unfold messageParse at h
  split at h
  · rename_i r p hp
    split at h
    · cases h
    · split at h
      · rename_i hc
        injection h with h
        have h0 : PInv cp data ({} : PC κ) :=
          { kind := .inl rfl, cont := (by intro b hb; cases hb), serial := List.nil_infix, issuer := List.nil_infix, skid := List.nil_infix,
            certs := (by intro c hc; cases hc), curMd := (fun hq => absurd (show (0 : UInt64) &&& HAS_MESSAGE_DIGEST = 0 by decide) hq),
            cur := { sig := (by intro b hb; cases hb), md := (by intro b hb; cases hb), hash := (by intro b hb; cases hb), algo := .inl rfl, fresh := rfl },
            curAa := (by intro hq; cases hq), done := (by intro si hs; cases hs) }
        have hi := parse_inv pkcs7 (p7PActs cp) data {} (PInv cp data) h0 (fun i e p p' => inv_act cp data i e p p') n r p hp
        unfold parse presOf at hp
        split at hp
        · rename_i r' s hd
          injection hp with h1 h2
          cases hf : foldTr (p7PActs cp) data {} s.trace with
          | error e => rw [hf] at h2; cases h2
          | ok q =>
            rw [hf] at h2
            injection h2 with h2
            subst h2
            exact ⟨r', s, q, hd, hf, hi, hc, h.symm⟩
        · cases hp
        · cases hp
      · cases h
  · split at h <;> cases h
  · cases h

/-! ### C101 -/

/-- C101: whatever octets `lc_pkcs7_message_parse` accepts: the message has at least one signer; all of them have signed attributes or
none; one with signed attributes has a message digest; its signature and message digest and the content are contiguous parts of the
input; hash function and signature algorithm come from the known tables; the content is of a known type; each certificate is what
`lc_x509_cert_parse` made of octets of the input. -/
theorem c101_parsed (cp : Bytes → Except Int κ) (data : Bytes) (n : Nat) (P : Parsed κ) (h : messageParse cp data n = .ok P) :
    P.sinfos ≠ [] ∧
    (∀ si ∈ P.sinfos, ∀ sj ∈ P.sinfos, si.authattrs.isSome = sj.authattrs.isSome) ∧
    (∀ si ∈ P.sinfos, (si.authattrs ≠ none → si.msgdigest ≠ none) ∧ (∀ b, si.sig.s = some b → b <:+: data) ∧
      (∀ b, si.msgdigest = some b → b <:+: data) ∧ (∀ f, si.sig.hash = some f → ∃ o, oidToHash o = some f) ∧
      (si.sig.algo = 0 ∨ ∃ o, oidToSig o = some si.sig.algo)) ∧
    (∀ b, P.data = some b → b <:+: data) ∧
    (P.dataType = 0 ∨ P.dataType = OID_data ∨ P.dataType = OID_msIndirectData) ∧
    (∀ c ∈ P.certs, ∃ a b, a <:+: data ∧ b <:+: data ∧ cp (a ++ b) = .ok c) := by
  obtain ⟨r, s, p, _, _, hi, hc, rfl⟩ := messageParse_ok cp data n P h
  refine ⟨?_, ?_, ?_, hi.cont, hi.kind, fun c hc => hi.certs c (List.mem_append_right _ hc)⟩
  · intro he
    dsimp only at he
    rw [he] at hc
    cases hc
  · dsimp only
    have key : ∀ l : List SInfo, checkAuthattrs l = true → ∃ b, ∀ si ∈ l, si.authattrs.isSome = b := by
      intro l hl
      cases l with
      | nil => cases hl
      | cons a as =>
        refine ⟨a.authattrs.isSome, fun si hs => ?_⟩
        rcases List.mem_cons.mp hs with rfl | hs
        · rfl
        · have := List.all_eq_true.mp hl si hs
          simpa using this
    obtain ⟨b, hb⟩ := key _ hc
    intro si hs sj hj
    rw [hb si hs, hb sj hj]
  · intro si hs
    obtain ⟨k1, k2, _⟩ := hi.done si hs
    refine ⟨?_, k1.sig, k1.md, k1.hash, k1.algo⟩
    intro ha hm
    cases hq : si.authattrs with
    | none => exact ha hq
    | some a =>
      have := k2 (by rw [hq]; rfl)
      rw [hm] at this
      cases this

/-- A parsed message to which `c101_parsed` and `c104_signed_attributes` apply: two signers with signed attributes. -/
example : ∃ D P, generate toy toyM 4000 1000 = .ok D ∧ messageParse toyParse D 1000 = .ok P ∧
    (P.sinfos.map fun si => (si.authattrs.isSome, si.msgdigest.isSome, si.signingTime.isSome)) = [(true, true, true), (true, true, false)] := by
  obtain ⟨D, P, h1, h2, h3⟩ := thenP_ok (generate toy toyM 4000 1000) (fun D => messageParse toyParse D 1000)
    (fun P => decide ((P.sinfos.map fun si => (si.authattrs.isSome, si.msgdigest.isSome, si.signingTime.isSome)) =
      [(true, true, true), (true, true, false)])) (by decide +kernel)
  exact ⟨D, P, h1, h2, of_decide_eq_true h3⟩

/-! ### C104 -/

/-- C104: whatever octets `lc_pkcs7_message_parse` accepts, for a signer with signed attributes: the message digest that
`lc_pkcs7_verify` compares with that of the content, and the signing time, are read from inside the octets that are hashed for the
signature of that signer. -/
theorem c104_signed_attributes (cp : Bytes → Except Int κ) (data : Bytes) (n : Nat) (P : Parsed κ) (h : messageParse cp data n = .ok P)
    (si : SInfo) (hs : si ∈ P.sinfos) (aa : Bytes) (ha : si.authattrs = some aa) :
    (∃ md, si.msgdigest = some md ∧ md <:+: aa) ∧
    ∀ t, si.signingTime = some t → ∃ tag v, v <:+: aa ∧ X509.decodeTime tag v = some t := by
  obtain ⟨r, s, p, hd, hf, hi, _, rfl⟩ := messageParse_ok cp data n P h
  have hA := decode_nest PA pkcs7 _ closedA (cbOf (p7PActs cp) data {}) data n
  have hB := decode_nest PB pkcs7 _ closedB (cbOf (p7PActs cp) data {}) data n
  rw [hd] at hA hB
  obtain ⟨k1, k2⟩ := (jinv cp data s.trace p hA.1 hB.1 hf).done si hs aa ha
  refine ⟨?_, k2⟩
  have hm := (hi.done si hs).2.1 (by rw [ha]; rfl)
  obtain ⟨md, hmd⟩ := Option.isSome_iff_exists.mp hm
  exact ⟨md, hmd, k1 md hmd⟩

/-! ### C102 -/

/-- A message of the signer of `toyD` with the time 14 Nov 2023 in `aaSequence`. -/
def seqEarly : Bytes := [48, 129, 135, 6, 9, 42, 134, 72, 134, 247, 13, 1, 7, 2, 160, 122, 48, 120, 2, 1, 3, 49, 13, 48, 11, 6, 9, 96, 134, 72, 1, 101, 3, 4, 2, 12,
   48, 11, 6, 9, 42, 134, 72, 134, 247, 13, 1, 7, 1, 160, 9, 48, 2, 1, 2, 48, 3, 1, 2, 3, 49, 76, 48, 74, 2, 1, 3, 128, 2, 9, 9, 48,
   11, 6, 9, 96, 134, 72, 1, 101, 3, 4, 2, 12, 162, 32, 48, 30, 48, 28, 6, 9, 42, 134, 72, 134, 247, 13, 1, 9, 5, 49, 15, 23, 13, 50, 51, 49,
   49, 49, 52, 50, 50, 49, 51, 50, 48, 90, 48, 11, 6, 9, 96, 134, 72, 1, 101, 3, 4, 3, 17, 4, 5, 1, 8, 3, 1, 0]

/-- The same with the time 1 Jan 2040. -/
def seqLate : Bytes := [48, 129, 135, 6, 9, 42, 134, 72, 134, 247, 13, 1, 7, 2, 160, 122, 48, 120, 2, 1, 3, 49, 13, 48, 11, 6, 9, 96, 134, 72, 1, 101, 3, 4, 2, 12,
   48, 11, 6, 9, 42, 134, 72, 134, 247, 13, 1, 7, 1, 160, 9, 48, 2, 1, 2, 48, 3, 1, 2, 3, 49, 76, 48, 74, 2, 1, 3, 128, 2, 9, 9, 48,
   11, 6, 9, 96, 134, 72, 1, 101, 3, 4, 2, 12, 162, 32, 48, 30, 48, 28, 6, 9, 42, 134, 72, 134, 247, 13, 1, 9, 5, 49, 15, 23, 13, 52, 48, 48,
   49, 48, 49, 48, 48, 48, 48, 48, 48, 90, 48, 11, 6, 9, 96, 134, 72, 1, 101, 3, 4, 3, 17, 4, 5, 1, 8, 3, 1, 0]

/-- C102: a signing time that is reported is part of what has been signed: for the messages of `lc_pkcs7_generate`.
Not true for all messages, see `c102_negation`. -/
theorem c102_time_signed_partial (v : Env) (m : GMsg) (h : Nat) (hr : Ready v m h) (cp : Bytes → Except Int κ) (ks : List κ)
    (hk : m.certs.map (fun c => cp c.raw) = ks.map Except.ok) (avail n : Nat) (D : Bytes) (hg : generate v m avail n = .ok D)
    (k : Nat) (P : Parsed κ) (hp : messageParse cp D k = .ok P) (si : SInfo) (hs : si ∈ P.sinfos) (t : Int) (ht : si.signingTime = some t) :
    ∃ aa tag u, si.authattrs = some aa ∧ u <:+: aa ∧ X509.decodeTime tag u = some t := by
  have hrep : Reported v m h ks P := by
    obtain ⟨N, hN⟩ := generate_read hr cp ks hk avail n D hg
    rcases hN k with ⟨_, h1⟩ | h1
    · rw [h1] at hp; cases hp
    · rw [h1] at hp
      injection hp with hp
      exact hp ▸ reported hr ks
  obtain ⟨i, hi⟩ := List.getElem?_of_mem hs
  have hlt : i < m.signers.length := by
    have := hrep.count
    have := (List.getElem?_eq_some_iff.mp hi).1
    omega
  obtain ⟨sj, h1, _, _, _, h2, _, h3, _⟩ := hrep.signer i m.signers[i] (List.getElem?_eq_getElem hlt)
  rw [hi] at h1
  injection h1 with h1
  subst h1
  have hz : (m.signers[i]).aaSet ≠ 0 := by
    intro hz
    rw [h3, hz, if_neg (by decide)] at ht
    cases ht
  have hsome : si.authattrs.isSome = true := by rw [h2]; simpa using hz
  obtain ⟨aa, haa⟩ := Option.isSome_iff_exists.mp hsome
  obtain ⟨tag, u, k1, k2⟩ := (c104_signed_attributes cp D k P hp si hs aa haa).2 t ht
  exact ⟨aa, tag, u, haa, k1, k2⟩

def bothOk {α β : Type} (r : Except Int α) (t : Except Int β) (q : α → β → Bool) : Bool :=
  match r, t with
  | .ok a, .ok b => q a b
  | _, _ => false

theorem bothOk_iff {α β : Type} (r : Except Int α) (t : Except Int β) (q : α → β → Bool) (h : bothOk r t q = true) :
    ∃ a b, r = .ok a ∧ t = .ok b ∧ q a b = true := by
  unfold bothOk at h
  split at h
  · rename_i a b
    exact ⟨a, b, rfl, rfl, h⟩
  · cases h

def seqCheck (P Q : Parsed Nat) : Bool :=
  (match P.sinfos, Q.sinfos with
   | [si], [sj] => decide (si.sig = sj.sig ∧ si.authattrs = none ∧ sj.authattrs = none ∧ si.signingTime = some 1700000000 ∧ sj.signingTime = some 2208988800)
   | _, _ => false) &&
  decide ((verify toyW (toMsg (supply P [1, 2, 3])) none none).1 = 0 ∧ (verify toyW (toMsg (supply Q [1, 2, 3])) none none).1 < 0)

/-- C102, negation of the general claim: two messages with the same signature over the same digest of the same content; no signed
attributes are reported.  The times differ, and with them the verdict of `lc_pkcs7_verify` about the validity of the certificate. -/
theorem c102_negation : ∃ P Q, messageParse toyParse seqEarly 1000 = .ok P ∧ messageParse toyParse seqLate 1000 = .ok Q ∧
    (∃ si sj, P.sinfos = [si] ∧ Q.sinfos = [sj] ∧ si.sig = sj.sig ∧ si.authattrs = none ∧ sj.authattrs = none ∧
      si.signingTime = some 1700000000 ∧ sj.signingTime = some 2208988800) ∧
    (verify toyW (toMsg (supply P [1, 2, 3])) none none).1 = 0 ∧ (verify toyW (toMsg (supply Q [1, 2, 3])) none none).1 < 0 := by
  have h : bothOk (messageParse toyParse seqEarly 1000) (messageParse toyParse seqLate 1000) seqCheck = true := by decide +kernel
  obtain ⟨P, Q, h1, h2, h3⟩ := bothOk_iff _ _ _ h
  refine ⟨P, Q, h1, h2, ?_⟩
  unfold seqCheck at h3
  rw [Bool.and_eq_true] at h3
  obtain ⟨h3, h4⟩ := h3
  refine ⟨?_, of_decide_eq_true h4⟩
  split at h3
  · rename_i si sj hs hj
    exact ⟨si, sj, hs, hj, of_decide_eq_true h3⟩
  · cases h3

/-! ### C103 -/

/-- Two signers of version 3; the first is identified by the subject key identifier `[9, 9]`, the second by issuer and serial number. -/
def stale : Bytes := [48, 129, 161, 6, 9, 42, 134, 72, 134, 247, 13, 1, 7, 2, 160, 129, 147, 48, 129, 144, 2, 1, 3, 49, 13, 48, 11, 6, 9, 96, 134, 72, 1, 101, 3, 4,
   2, 12, 48, 11, 6, 9, 42, 134, 72, 134, 247, 13, 1, 7, 1, 160, 9, 48, 2, 1, 2, 48, 3, 1, 2, 3, 49, 100, 48, 40, 2, 1, 3, 128, 2, 9,
   9, 48, 11, 6, 9, 96, 134, 72, 1, 101, 3, 4, 2, 12, 48, 11, 6, 9, 96, 134, 72, 1, 101, 3, 4, 3, 17, 4, 5, 1, 8, 3, 1, 0, 48, 56,
   2, 1, 3, 48, 18, 48, 13, 49, 11, 48, 9, 6, 3, 85, 4, 3, 12, 2, 65, 66, 2, 1, 5, 48, 11, 6, 9, 96, 134, 72, 1, 101, 3, 4, 2, 12,
   48, 11, 6, 9, 96, 134, 72, 1, 101, 3, 4, 3, 17, 4, 5, 1, 8, 3, 1, 0]

/-- The second `SignerInfo` of `stale`. -/
def staleSi : Bytes := [48, 56, 2, 1, 3, 48, 18, 48, 13, 49, 11, 48, 9, 6, 3, 85, 4, 3, 12, 2, 65, 66, 2, 1, 5, 48, 11, 6, 9, 96, 134, 72, 1, 101, 3, 4,
   2, 12, 48, 11, 6, 9, 96, 134, 72, 1, 101, 3, 4, 3, 17, 4, 5, 1, 8, 3, 1, 0]

/-- C103: the identifier by which the certificate of a signer is looked up is made of octets of the message.  Missing: that they are
octets of the `SignerInfo` of that signer; this is not true, see `c103_negation`. -/
theorem c103_identifier_partial (cp : Bytes → Except Int κ) (data : Bytes) (n : Nat) (P : Parsed κ) (h : messageParse cp data n = .ok P)
    (si : SInfo) (hs : si ∈ P.sinfos) : ∃ a b, a <:+: data ∧ b <:+: data ∧ generateId a b = .ok si.sig.auth0 := by
  obtain ⟨r, s, p, _, _, hi, _, rfl⟩ := messageParse_ok cp data n P h
  exact (hi.done si hs).2.2

def staleCheck (P : Parsed Nat) (k : Kid) : Bool :=
  (match P.sinfos with
   | [_, sj] => decide (sj.sig.auth0 = k)
   | _ => false) && decide ((verify toyW (toMsg (supply P [1, 2, 3])) none none).1 = 0)

/-- C103, negation of the general claim: the message ends with the `SignerInfo` of its second signer, which names issuer and serial number;
the parser reports for it the subject key identifier of the first signer, and `lc_pkcs7_verify` accepts the message. -/
theorem c103_negation : ∃ P pre, stale = pre ++ staleSi ∧ messageParse toyParse stale 1000 = .ok P ∧ P.sinfos.length = 2 ∧
    (∃ si, P.sinfos[1]? = some si ∧ generateId [9, 9] [] = .ok si.sig.auth0 ∧ ¬ [9, 9] <:+: staleSi) ∧
    (verify toyW (toMsg (supply P [1, 2, 3])) none none).1 = 0 := by
  have h : bothOk (messageParse toyParse stale 1000) (generateId [9, 9] []) staleCheck = true := by decide +kernel
  obtain ⟨P, k, h1, h2, h3⟩ := bothOk_iff _ _ _ h
  unfold staleCheck at h3
  rw [Bool.and_eq_true] at h3
  obtain ⟨h3, h4⟩ := h3
  refine ⟨P, stale.take (stale.length - staleSi.length), by decide +kernel, h1, ?_⟩
  split at h3
  · rename_i si sj hs
    refine ⟨by rw [hs]; rfl, ⟨sj, by rw [hs]; rfl, ?_, ?_⟩, of_decide_eq_true h4⟩
    · rw [h2, ← of_decide_eq_true h3]
    · decide +kernel
  · cases h3

end LC.P7
