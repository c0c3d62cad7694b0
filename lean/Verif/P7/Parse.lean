import Verif.P7.Props
/-
Properties of `lc_pkcs7_message_parse` for all inputs.
-/
namespace LC.P7
open LC.Asn1 LC.Asn1.Enc LC.Asn1.Gen LC.Asn1.Tr
open LC.X509 (kidMax Kid generateId idSame Cert EKEYREJECTED)
open LC.Oid (oidData lookUp)
open LC.Crt (oidToSig)
open LC.Pkcs7 (SInfo World Msg Rules digest verify)

set_option maxRecDepth 8000

variable {κ : Type}

/-! ### Invariants of the actions are invariants of the parser -/

/-- The element is a part of the data. -/
def ElIn (data : Bytes) (e : El) : Prop := e.content <:+: data ∧ e.hdr <:+: data

theorem elOf_in (data : Bytes) (c : Call) : ElIn data (elOf data c) :=
  ⟨(List.take_prefix _ _).isInfix.trans (List.drop_suffix _ _).isInfix, (List.take_prefix _ _).isInfix.trans (List.drop_suffix _ _).isInfix⟩

theorem foldTr_inv {π : Type} (act : PAct π) (data : Bytes) (p0 : π) (I : π → Prop) (h0 : I p0)
    (hs : ∀ i e p p', ElIn data e → I p → act i e p = .ok p' → I p') : ∀ (tr : List Call) (p : π), foldTr act data p0 tr = .ok p → I p
  | [], p, h => by
    injection h with h
    exact h ▸ h0
  | c :: tr, p, h => by
    unfold foldTr at h
    cases hf : foldTr act data p0 tr with
    | error e => rw [hf] at h; cases h
    | ok q =>
      rw [hf] at h
      exact hs _ _ _ _ (elOf_in data c) (foldTr_inv act data p0 I h0 hs tr q hf) h

theorem parse_inv {π : Type} (d : Decoder) (act : PAct π) (data : Bytes) (p0 : π) (I : π → Prop) (h0 : I p0)
    (hs : ∀ i e p p', ElIn data e → I p → act i e p = .ok p' → I p') (n : Nat) (r : Int) (p : π)
    (h : parse d act p0 data n = .done r (some p)) : I p := by
  unfold parse presOf at h
  split at h
  · rename_i s hd
    injection h with _ h
    cases hf : foldTr act data p0 s.trace with
    | error e => rw [hf] at h; cases h
    | ok q =>
      rw [hf] at h
      injection h with h
      subst h
      exact foldTr_inv act data p0 I h0 hs _ _ hf
  · cases h
  · cases h

/-! ### The invariant -/

/-- A signed info that is complete or under construction: its parts are parts of the data. -/
structure SiOk (data : Bytes) (si : SInfo) : Prop where
  sig : ∀ b, si.sig.s = some b → b <:+: data
  md : ∀ b, si.msgdigest = some b → b <:+: data
  hash : ∀ h, si.sig.hash = some h → ∃ o, oidToHash o = some h
  algo : si.sig.algo = 0 ∨ ∃ o, oidToSig o = some si.sig.algo
  fresh : si.sig.digest = []

structure PInv (cp : Bytes → Except Int κ) (data : Bytes) (p : PC κ) : Prop where
  kind : p.dataType = 0 ∨ p.dataType = OID_data ∨ p.dataType = OID_msIndirectData
  cont : ∀ b, p.data = some b → b <:+: data
  serial : p.serial <:+: data
  issuer : p.issuer <:+: data
  skid : p.skid <:+: data
  certs : ∀ c ∈ p.certs ++ p.msgCerts, ∃ h b, h <:+: data ∧ b <:+: data ∧ cp (h ++ b) = .ok c
  cur : SiOk data p.cur
  curMd : p.aaSet &&& HAS_MESSAGE_DIGEST ≠ 0 → p.cur.msgdigest.isSome = true
  curAa : p.cur.authattrs.isSome = true → p.cur.msgdigest.isSome = true
  done : ∀ si ∈ p.sinfos, SiOk data si ∧ (si.authattrs.isSome = true → si.msgdigest.isSome = true) ∧
    ∃ a b, a <:+: data ∧ b <:+: data ∧ generateId a b = .ok si.sig.auth0

theorem onceBit_eq {b : UInt64} {p p' : PC κ} (h : onceBit b p = .ok p') : p' = { p with aaSet := p.aaSet ||| b } := by
  unfold onceBit at h
  split at h
  · cases h
  · injection h with h
    exact h.symm

theorem or_bit (a b m : UInt64) (h : (a ||| b) &&& m ≠ 0) (hb : b &&& m = 0) : a &&& m ≠ 0 := by
  intro ha
  apply h
  apply UInt64.eq_of_toBitVec_eq
  have h1 := congrArg UInt64.toBitVec ha
  have h2 := congrArg UInt64.toBitVec hb
  simp only [UInt64.toBitVec_and, UInt64.toBitVec_or] at h1 h2 ⊢
  ext i hi
  have e1 := congrArg (fun x => x[i]) h1
  have e2 := congrArg (fun x => x[i]) h2
  simp only [BitVec.getElem_and, BitVec.getElem_or] at e1 e2 ⊢
  rw [Bool.and_or_distrib_right, e1, e2]
  simp

/-- Setting another bit than that of the message digest. -/
theorem inv_bit {cp : Bytes → Except Int κ} {data : Bytes} {p : PC κ} (hi : PInv cp data p) (b : UInt64) (hb : b &&& HAS_MESSAGE_DIGEST = 0) :
    PInv cp data { p with aaSet := p.aaSet ||| b } :=
  { hi with curMd := fun h => hi.curMd (or_bit _ _ _ h hb) }

theorem inv_attr {cp : Bytes → Except Int κ} {data : Bytes} {p p' : PC κ} {e : El} (he : ElIn data e) (hi : PInv cp data p)
    (h : noteAuthAttr e p = .ok p') : PInv cp data p' := by
  unfold noteAuthAttr at h
  by_cases h1 : p.lastOid = OID_contentType
  · rw [if_pos h1] at h
    cases ho : onceBit HAS_CONTENT_TYPE p with
    | error e => rw [ho] at h; cases h
    | ok q =>
      rw [ho] at h
      change (if lookUp e.content ≠ q.dataType then Except.error (-EBADMSG) else Except.ok q) = .ok p' at h
      split at h
      · cases h
      · injection h with h
        subst h
        rw [onceBit_eq ho]
        exact inv_bit hi _ (by decide)
  rw [if_neg h1] at h
  by_cases h2 : p.lastOid = OID_signingTime
  · rw [if_pos h2] at h
    cases ho : onceBit HAS_SIGNING_TIME p with
    | error e => rw [ho] at h; cases h
    | ok q =>
      rw [ho] at h
      change (match X509.decodeTime e.tag e.content with
        | none => Except.error (-EBADMSG)
        | some t => .ok { q with cur := { q.cur with signingTime := some t } }) = .ok p' at h
      split at h
      · cases h
      · injection h with h
        subst h
        rw [onceBit_eq ho]
        have hb := inv_bit hi HAS_SIGNING_TIME (by decide)
        exact { hb with cur := { sig := hb.cur.sig, md := hb.cur.md, hash := hb.cur.hash, algo := hb.cur.algo, fresh := hb.cur.fresh } }
  rw [if_neg h2] at h
  by_cases h3 : p.lastOid = OID_messageDigest
  · rw [if_pos h3] at h
    cases ho : onceBit HAS_MESSAGE_DIGEST p with
    | error e => rw [ho] at h; cases h
    | ok q =>
      rw [ho] at h
      change (if e.tag ≠ 4 then Except.error (-EBADMSG) else .ok { q with cur := { q.cur with msgdigest := some e.content } }) = .ok p' at h
      split at h
      · cases h
      · injection h with h
        subst h
        rw [onceBit_eq ho]
        refine { kind := hi.kind, cont := hi.cont, serial := hi.serial, issuer := hi.issuer, skid := hi.skid, certs := hi.certs, done := hi.done, cur := ?_, curMd := fun _ => rfl, curAa := fun _ => rfl }
        refine { sig := hi.cur.sig, hash := hi.cur.hash, algo := hi.cur.algo, fresh := hi.cur.fresh, md := ?_ }
        intro b hb
        injection hb with hb
        exact hb ▸ he.1
  rw [if_neg h3] at h
  by_cases h4 : p.lastOid = OID_smimeCapabilites
  · rw [if_pos h4] at h
    rw [onceBit_eq h]
    exact inv_bit hi _ (by decide)
  rw [if_neg h4] at h
  by_cases h5 : p.lastOid = OID_msSpOpusInfo
  · rw [if_pos h5] at h
    cases ho : onceBit HAS_MS_OPUS_INFO p with
    | error e => rw [ho] at h; cases h
    | ok q =>
      rw [ho] at h
      change (if q.dataType ≠ OID_msIndirectData then Except.error (-EKEYREJECTED) else .ok q) = .ok p' at h
      split at h
      · cases h
      · injection h with h
        subst h
        rw [onceBit_eq ho]
        exact inv_bit hi _ (by decide)
  rw [if_neg h5] at h
  by_cases h6 : p.lastOid = OID_msStatementType
  · rw [if_pos h6] at h
    cases ho : onceBit HAS_MS_STATEMENT_TYPE p with
    | error e => rw [ho] at h; cases h
    | ok q =>
      rw [ho] at h
      change (if q.dataType ≠ OID_msIndirectData then Except.error (-EKEYREJECTED) else .ok q) = .ok p' at h
      split at h
      · cases h
      · injection h with h
        subst h
        rw [onceBit_eq ho]
        exact inv_bit hi _ (by decide)
  rw [if_neg h6] at h
  injection h with h
  exact h ▸ hi

theorem inv_act (cp : Bytes → Except Int κ) (data : Bytes) (i : Nat) (e : El) (p p' : PC κ) (he : ElIn data e) (hi : PInv cp data p)
    (h : p7PActs cp i e p = .ok p') : PInv cp data p' := by
  unfold p7PActs at h
  split at h
  all_goals first
    | (unfold noteOid at h; injection h with h; subst h; exact { hi with })
    | skip
  · -- checkContentType
    unfold checkContentType at h
    split at h
    · cases h
    · injection h with h; exact h ▸ hi
  iterate 3
    · unfold extractCert at h
      split at h
      · cases h
      · split at h
        · cases h
        · split at h
          · cases h
          · rename_i c hc
            injection h with h
            subst h
            refine { hi with certs := ?_ }
            intro x hx
            simp only [List.append_assoc, List.mem_append, List.mem_singleton] at hx
            rcases hx with hx | rfl | hx
            · exact hi.certs x (by simp [hx])
            · exact ⟨_, _, he.2, he.1, hc⟩
            · exact hi.certs x (by simp [hx])
  · unfold noteCertList at h
    injection h with h
    subst h
    exact { hi with certs := fun x hx => hi.certs x (by simpa using hx) }
  · unfold noteContent at h
    split at h
    · cases h
    · rename_i hn
      injection h with h
      subst h
      refine { hi with kind := .inr ?_ }
      by_cases hd : p.lastOid = OID_data
      · exact .inl hd
      · refine .inr ?_
        by_cases hm : p.lastOid = OID_msIndirectData
        · exact hm
        · exact absurd ⟨hd, hm⟩ hn
  · unfold noteData at h
    injection h with h
    subst h
    refine { hi with cont := ?_ }
    intro b hb
    injection hb with hb
    exact hb ▸ he.1
  · unfold noteSignedInfo at h
    split at h
    · cases h
    · split at h
      · cases h
      · rename_i k hk
        injection h with h
        subst h
        refine { hi with cur := ?_, curMd := ?_, curAa := ?_, done := ?_ }
        · exact { sig := (by intro b hb; cases hb), md := (by intro b hb; cases hb), hash := (by intro b hb; cases hb), algo := .inl rfl, fresh := rfl }
        · intro hq; exact absurd (show (0 : UInt64) &&& HAS_MESSAGE_DIGEST = 0 by decide) hq
        · intro hq; cases hq
        · intro si hs
          rcases List.mem_append.mp hs with hs | hs
          · exact hi.done si hs
          · rw [List.mem_singleton] at hs
            subst hs
            refine ⟨{ sig := hi.cur.sig, md := hi.cur.md, hash := hi.cur.hash, algo := hi.cur.algo, fresh := hi.cur.fresh }, hi.curAa, ?_⟩
            by_cases hx : p.expectSkid = true
            · rw [if_pos hx] at hk
              exact ⟨_, _, hi.skid, List.nil_infix, hk⟩
            · rw [if_neg hx] at hk
              exact ⟨_, _, hi.serial, hi.issuer, hk⟩
  · unfold noteMsgVersion at h
    split at h
    · split at h
      · injection h with h; subst h; exact { hi with }
      · cases h
    · cases h
  · unfold noteSiVersion at h
    split at h
    · split at h
      · split at h
        · cases h
        · injection h with h; subst h; exact { hi with }
      · split at h
        · split at h
          · cases h
          · injection h with h; subst h; exact { hi with }
        · cases h
    · cases h
  · exact inv_attr he hi h
  · unfold noteDigestAlgo at h
    split at h
    · cases h
    · rename_i a ha
      injection h with h
      subst h
      refine { hi with cur := { sig := hi.cur.sig, md := hi.cur.md, algo := hi.cur.algo, fresh := hi.cur.fresh, hash := ?_ } }
      intro b hb
      injection hb with hb
      exact ⟨_, hb ▸ ha⟩
  · injection h with h; subst h; exact { hi with issuer := he.1 }
  · unfold notePkeyAlgo at h
    split at h
    · cases h
    · rename_i a ha
      injection h with h
      subst h
      exact { hi with cur := { sig := hi.cur.sig, md := hi.cur.md, hash := hi.cur.hash, fresh := hi.cur.fresh, algo := .inr ⟨_, ha⟩ } }
  · injection h with h; subst h; exact { hi with serial := he.1 }
  · unfold noteAuthAttrs at h
    split at h
    · cases h
    · rename_i hn
      split at h
      · cases h
      · injection h with h
        subst h
        have hm : p.aaSet &&& HAS_MESSAGE_DIGEST ≠ 0 := by
          intro hq
          apply hn
          rw [hq]
          simp
        exact { hi with cur := { sig := hi.cur.sig, md := hi.cur.md, hash := hi.cur.hash, algo := hi.cur.algo, fresh := hi.cur.fresh }, curAa := fun _ => hi.curMd hm }
  · unfold noteSignature at h
    split at h
    · cases h
    · injection h with h
      subst h
      refine { hi with cur := { md := hi.cur.md, hash := hi.cur.hash, algo := hi.cur.algo, fresh := hi.cur.fresh, sig := ?_ } }
      intro b hb
      injection hb with hb
      exact hb ▸ he.1
  · injection h with h; subst h; exact { hi with skid := he.1 }
  · injection h with h; exact h ▸ hi

end LC.P7
