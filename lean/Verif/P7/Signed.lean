import Verif.P7.Parse
import Verif.Asn1.Nest
/-
What is reported as signed attribute is part of the octets that are hashed for the signature, for all inputs.
-/
namespace LC.P7
open LC.Asn1 LC.Asn1.Nest LC.Asn1.Enc LC.Asn1.Gen LC.Asn1.Tr
open LC.X509 (kidMax Kid generateId idSame Cert EKEYREJECTED)
open LC.Oid (oidData lookUp)
open LC.Crt (oidToSig)
open LC.Pkcs7 (SInfo World Msg Rules digest verify)

set_option maxRecDepth 8000

variable {κ : Type}

/-- The attributes of a signer (18) lie inside the set of attributes (24) of that signer (15). -/
def PA : Prog := ⟨(· == 15), (· == 18), (· == 24), fun _ => false, fun _ => true⟩

/-- No attribute (18) and no second set follows the set of attributes (24) of a signer (15). -/
def PB : Prog := ⟨(· == 15), (· == 24), fun _ => false, fun i => i == 18 || i == 24, fun _ => true⟩

theorem closedA : closed pkcs7 PA (certOf pkcs7 PA) = true := by decide +kernel
theorem closedB : closed pkcs7 PB (certOf pkcs7 PB) = true := by decide +kernel

/-! ### The invariant along the calls -/

/-- The attributes that are reported are parts of the octets. -/
def Inside (a : Bytes) (si : SInfo) : Prop :=
  (∀ b, si.msgdigest = some b → b <:+: a) ∧ ∀ t, si.signingTime = some t → ∃ tag v, v <:+: a ∧ X509.decodeTime tag v = some t

structure JInv (data : Bytes) (tr : List Call) (p : PC κ) : Prop where
  md : p.cur.authattrs = none → ∀ b, p.cur.msgdigest = some b → ∃ x ∈ scope PA tr, b = (elOf data x).content
  tm : p.cur.authattrs = none → ∀ t, p.cur.signingTime = some t → ∃ x ∈ scope PA tr, ∃ tag, X509.decodeTime tag (elOf data x).content = some t
  aa : ∀ a, p.cur.authattrs = some a → Inside a p.cur
  set : p.cur.authattrs.isSome = true → scope PB tr ≠ []
  done : ∀ si ∈ p.sinfos, ∀ a, si.authattrs = some a → Inside a si

/-- The same reported attributes. -/
def Same (p p' : PC κ) : Prop :=
  p'.cur.authattrs = p.cur.authattrs ∧ p'.cur.msgdigest = p.cur.msgdigest ∧ p'.cur.signingTime = p.cur.signingTime ∧ p'.sinfos = p.sinfos

theorem Same.refl (p : PC κ) : Same p p := ⟨rfl, rfl, rfl, rfl⟩

theorem onceBit_same {b : UInt64} {p p' : PC κ} (h : onceBit b p = .ok p') : Same p p' := by
  rw [onceBit_eq h]
  exact ⟨rfl, rfl, rfl, rfl⟩

theorem act_same (cp : Bytes → Except Int κ) (i : Nat) (e : El) (p p' : PC κ) (h15 : i ≠ 15) (h18 : i ≠ 18) (h24 : i ≠ 24)
    (h : p7PActs cp i e p = .ok p') : Same p p' := by
  unfold p7PActs at h
  split at h
  all_goals first
    | exact absurd rfl h15
    | exact absurd rfl h18
    | exact absurd rfl h24
    | (injection h with h; subst h; exact ⟨rfl, rfl, rfl, rfl⟩)
    | (unfold noteOid at h; injection h with h; subst h; exact ⟨rfl, rfl, rfl, rfl⟩)
    | (unfold noteCertList at h; injection h with h; subst h; exact ⟨rfl, rfl, rfl, rfl⟩)
    | (unfold noteData at h; injection h with h; subst h; exact ⟨rfl, rfl, rfl, rfl⟩)
    | skip
  · unfold checkContentType at h
    split at h
    · cases h
    · injection h with h; subst h; exact ⟨rfl, rfl, rfl, rfl⟩
  iterate 3
    · unfold extractCert at h
      split at h
      · cases h
      · split at h
        · cases h
        · split at h
          · cases h
          · injection h with h; subst h; exact ⟨rfl, rfl, rfl, rfl⟩
  · unfold noteContent at h
    split at h
    · cases h
    · injection h with h; subst h; exact ⟨rfl, rfl, rfl, rfl⟩
  · unfold noteMsgVersion at h
    split at h
    · split at h
      · injection h with h; subst h; exact ⟨rfl, rfl, rfl, rfl⟩
      · cases h
    · cases h
  · unfold noteSiVersion at h
    split at h
    · split at h
      · split at h
        · cases h
        · injection h with h; subst h; exact ⟨rfl, rfl, rfl, rfl⟩
      · split at h
        · split at h
          · cases h
          · injection h with h; subst h; exact ⟨rfl, rfl, rfl, rfl⟩
        · cases h
    · cases h
  · unfold noteDigestAlgo at h
    split at h
    · cases h
    · injection h with h; subst h; exact ⟨rfl, rfl, rfl, rfl⟩
  · unfold notePkeyAlgo at h
    split at h
    · cases h
    · injection h with h; subst h; exact ⟨rfl, rfl, rfl, rfl⟩
  · unfold noteSignature at h
    split at h
    · cases h
    · injection h with h; subst h; exact ⟨rfl, rfl, rfl, rfl⟩

theorem attr_cases {p p' : PC κ} {e : El} (h : noteAuthAttr e p = .ok p') :
    p'.sinfos = p.sinfos ∧ p'.cur.authattrs = p.cur.authattrs ∧
    (p'.cur.msgdigest = p.cur.msgdigest ∨ p'.cur.msgdigest = some e.content) ∧
    (p'.cur.signingTime = p.cur.signingTime ∨ ∃ t, p'.cur.signingTime = some t ∧ X509.decodeTime e.tag e.content = some t) := by
  have hsame : ∀ q : PC κ, Same p q → (q.sinfos = p.sinfos ∧ q.cur.authattrs = p.cur.authattrs ∧
      (q.cur.msgdigest = p.cur.msgdigest ∨ q.cur.msgdigest = some e.content) ∧
      (q.cur.signingTime = p.cur.signingTime ∨ ∃ t, q.cur.signingTime = some t ∧ X509.decodeTime e.tag e.content = some t)) :=
    fun q hq => ⟨hq.2.2.2, hq.1, .inl hq.2.1, .inl hq.2.2.1⟩
  unfold noteAuthAttr at h
  by_cases h1 : p.lastOid = OID_contentType
  · rw [if_pos h1] at h
    cases ho : onceBit HAS_CONTENT_TYPE p with
    | error e => rw [ho] at h; cases h
    | ok q =>
      rw [ho] at h
      dsimp only [Bind.bind, Except.bind] at h
      split at h
      · cases h
      · injection h with h
        exact h ▸ hsame _ (onceBit_same ho)
  rw [if_neg h1] at h
  by_cases h2 : p.lastOid = OID_signingTime
  · rw [if_pos h2] at h
    cases ho : onceBit HAS_SIGNING_TIME p with
    | error e => rw [ho] at h; cases h
    | ok q =>
      rw [ho] at h
      dsimp only [Bind.bind, Except.bind] at h
      split at h
      · cases h
      · rename_i t ht
        injection h with h
        obtain ⟨s1, s2, s3, s4⟩ := onceBit_same ho
        subst h
        exact ⟨s4, s1, .inl s2, .inr ⟨t, rfl, ht⟩⟩
  rw [if_neg h2] at h
  by_cases h3 : p.lastOid = OID_messageDigest
  · rw [if_pos h3] at h
    cases ho : onceBit HAS_MESSAGE_DIGEST p with
    | error e => rw [ho] at h; cases h
    | ok q =>
      rw [ho] at h
      dsimp only [Bind.bind, Except.bind] at h
      split at h
      · cases h
      · injection h with h
        obtain ⟨s1, s2, s3, s4⟩ := onceBit_same ho
        subst h
        exact ⟨s4, s1, .inr rfl, .inl s3⟩
  rw [if_neg h3] at h
  by_cases h4 : p.lastOid = OID_smimeCapabilites
  · rw [if_pos h4] at h
    exact hsame _ (onceBit_same h)
  rw [if_neg h4] at h
  by_cases h5 : p.lastOid = OID_msSpOpusInfo
  · rw [if_pos h5] at h
    cases ho : onceBit HAS_MS_OPUS_INFO p with
    | error e => rw [ho] at h; cases h
    | ok q =>
      rw [ho] at h
      dsimp only [Bind.bind, Except.bind] at h
      split at h
      · cases h
      · injection h with h
        exact h ▸ hsame _ (onceBit_same ho)
  rw [if_neg h5] at h
  by_cases h6 : p.lastOid = OID_msStatementType
  · rw [if_pos h6] at h
    cases ho : onceBit HAS_MS_STATEMENT_TYPE p with
    | error e => rw [ho] at h; cases h
    | ok q =>
      rw [ho] at h
      dsimp only [Bind.bind, Except.bind] at h
      split at h
      · cases h
      · injection h with h
        exact h ▸ hsame _ (onceBit_same ho)
  rw [if_neg h6] at h
  injection h with h
  exact h ▸ hsame _ (Same.refl p)

/-- A slice inside a slice is a part of it. -/
theorem slice_in (data : Bytes) (x c : Call) (h1 : c.off ≤ x.off) (h2 : x.off + x.len ≤ c.off + c.len) :
    (elOf data x).content <:+: (elOf data c).content := by
  unfold elOf
  dsimp only
  have e : (data.drop x.off).take x.len = ((((data.drop c.off).take c.len).drop (x.off - c.off)).take x.len) := by
    rw [List.drop_take, List.drop_drop, List.take_take, show c.off + (x.off - c.off) = x.off by omega, show min x.len (c.len - (x.off - c.off)) = x.len by omega]
  rw [e]
  exact (List.take_prefix _ _).isInfix.trans (List.drop_suffix _ _).isInfix

theorem scope_other (P : Prog) (c : Call) (tr : List Call) (h1 : P.reset c.act = false) (h2 : P.sel c.act = false) : scope P (c :: tr) = scope P tr := by
  rw [scope, h1, h2]
  rfl

theorem jinv (cp : Bytes → Except Int κ) (data : Bytes) : ∀ (tr : List Call) (p : PC κ), TrOK PA tr → TrOK PB tr →
    foldTr (p7PActs cp) data {} tr = .ok p → JInv data tr p
  | [], p, _, _, h => by
    injection h with h
    subst h
    exact ⟨(by intro _ b hb; cases hb), (by intro _ t ht; cases ht), (by intro a ha; cases ha), (by intro hq; cases hq), (by intro si hs; cases hs)⟩
  | c :: tr, p', hA, hB, h => by
    unfold foldTr at h
    cases hf : foldTr (p7PActs cp) data {} tr with
    | error e => rw [hf] at h; cases h
    | ok p =>
      rw [hf] at h
      dsimp only at h
      have hi := jinv cp data tr p (fun post x pre e => hA (c :: post) x pre (by rw [e]; rfl)) (fun post x pre e => hB (c :: post) x pre (by rw [e]; rfl)) hf
      have cA := (hA [] c tr rfl).1
      have cB := (hB [] c tr rfl).2
      by_cases h15 : c.act = 15
      · rw [h15] at h
        have h : noteSignedInfo p = .ok p' := h
        unfold noteSignedInfo at h
        split at h
        · cases h
        · split at h
          · cases h
          · injection h with h
            subst h
            refine ⟨(by intro _ b hb; cases hb), (by intro _ t ht; cases ht), (by intro a ha; cases ha), (by intro hq; cases hq), ?_⟩
            intro si hs a ha
            rcases List.mem_append.mp hs with hs | hs
            · exact hi.done si hs a ha
            · rw [List.mem_singleton] at hs
              subst hs
              exact hi.aa a ha
      by_cases h18 : c.act = 18
      · rw [h18] at h
        have h : noteAuthAttr (elOf data c) p = .ok p' := h
        obtain ⟨k1, k2, k3, k4⟩ := attr_cases h
        have hnone : p.cur.authattrs = none := by
          cases ha : p.cur.authattrs with
          | none => rfl
          | some a => exact absurd (cB (by rw [h18]; decide)) (hi.set (by rw [ha]; rfl))
        have hsc : scope PA (c :: tr) = c :: scope PA tr := by
          rw [scope, h18]; rfl
        refine ⟨?_, ?_, ?_, ?_, ?_⟩
        · intro _ b hb
          rw [hsc]
          rcases k3 with k3 | k3
          · obtain ⟨x, hx, hxe⟩ := hi.md hnone b (by rw [← k3]; exact hb)
            exact ⟨x, List.mem_cons_of_mem _ hx, hxe⟩
          · rw [k3] at hb
            injection hb with hb
            exact ⟨c, List.mem_cons_self, hb.symm⟩
        · intro _ t ht
          rw [hsc]
          rcases k4 with k4 | ⟨u, k4, k5⟩
          · obtain ⟨x, hx, hxe⟩ := hi.tm hnone t (by rw [← k4]; exact ht)
            exact ⟨x, List.mem_cons_of_mem _ hx, hxe⟩
          · rw [k4] at ht
            injection ht with ht
            exact ⟨c, List.mem_cons_self, _, ht ▸ k5⟩
        · intro a ha
          rw [k2, hnone] at ha
          cases ha
        · intro ha
          rw [k2, hnone] at ha
          cases ha
        · rw [k1]; exact hi.done
      by_cases h24 : c.act = 24
      · rw [h24] at h
        have h : noteAuthAttrs (elOf data c) p = .ok p' := h
        have hnone : p.cur.authattrs = none := by
          cases ha : p.cur.authattrs with
          | none => rfl
          | some a => exact absurd (cB (by rw [h24]; decide)) (hi.set (by rw [ha]; rfl))
        unfold noteAuthAttrs at h
        split at h
        · cases h
        · split at h
          · cases h
          · injection h with h
            subst h
            have hin : ∀ x ∈ scope PA tr, (elOf data x).content <:+: (elOf data c).hdr.drop 1 ++ (elOf data c).content := by
              intro x hx
              obtain ⟨q1, q2⟩ := cA (by rw [h24]; decide) x hx
              exact (slice_in data x c q1 q2).trans (List.suffix_append _ _).isInfix
            refine ⟨(by intro ha; cases ha), (by intro ha; cases ha), ?_, ?_, hi.done⟩
            · intro a ha
              injection ha with ha
              subst ha
              refine ⟨?_, ?_⟩
              · intro b hb
                obtain ⟨x, hx, hxe⟩ := hi.md hnone b hb
                rw [hxe]
                exact hin x hx
              · intro t ht
                obtain ⟨x, hx, tag, hxe⟩ := hi.tm hnone t ht
                exact ⟨tag, _, hin x hx, hxe⟩
            · intro _
              rw [scope, h24]
              exact List.cons_ne_nil _ _
      · obtain ⟨s1, s2, s3, s4⟩ := act_same cp _ _ p p' h15 h18 h24 h
        have a1 : scope PA (c :: tr) = scope PA tr := scope_other PA c tr (by simp [PA, h15]) (by simp [PA, h18])
        have a2 : scope PB (c :: tr) = scope PB tr := scope_other PB c tr (by simp [PB, h15]) (by simp [PB, h24])
        refine ⟨?_, ?_, ?_, ?_, ?_⟩
        · rw [s1, s2, a1]; exact hi.md
        · rw [s1, s3, a1]; exact hi.tm
        · unfold Inside
          rw [s1, s2, s3]; exact hi.aa
        · rw [s1, a2]; exact hi.set
        · rw [s4]; exact hi.done

end LC.P7
