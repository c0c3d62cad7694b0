import Verif.P7.ReadWalk
import Verif.X509.CertTime
import Verif.X509.CertRead
/-
The authenticated attributes that the generator writes.
-/
namespace LC.P7
open LC.Asn1 LC.Asn1.Enc LC.Asn1.Gen LC.Asn1.Tr
open LC.Oid (oidData)
open LC.Crt (EINVAL EFAULT ENOPKG ENOSTEPS timeTag gmtime maxTime)

set_option maxRecDepth 8000

/-- The results of the actions, errors are `none`. -/
def simpleG (f : Nat → Simple) : GAct GC := fun i x => (f i x).toOption

theorem simple_agree (f : Nat → Simple) (d : Decoder) (h : ∀ i x r, f i x = .error r → r < 0) :
    Agree (⟨d, fun i => sized (f i)⟩ : Encoder GC) (simpleG f) where
  ok := by
    intro i x avail o ho
    have ho' : sized (f i) x avail = .ok o := ho
    unfold sized at ho'
    unfold simpleG
    cases hf : f i x with
    | error e => rw [hf] at ho'; cases ho'
    | ok o' =>
      rw [hf] at ho'
      dsimp only at ho'
      by_cases hl : avail < o'.bytes.length
      · rw [if_pos hl] at ho'; cases ho'
      · rw [if_neg hl] at ho'; cases ho'; rfl
  err := by
    intro i x avail r hr
    have hr' : sized (f i) x avail = .error r := hr
    unfold sized at hr'
    cases hf : f i x with
    | error e => rw [hf] at hr'; cases hr'; exact h i x _ hf
    | ok o' =>
      rw [hf] at hr'
      dsimp only at hr'
      by_cases hl : avail < o'.bytes.length
      · rw [if_pos hl] at hr'; cases hr'; decide
      · rw [if_neg hl] at hr'; cases hr'

theorem getDigest_neg (s : Signer) (r : Int) (h : getDigest s = .error r) : r < 0 := by
  unfold getDigest at h
  split at h
  · cases h
  · split at h
    · cases h
    · cases h; decide

theorem timeVal_neg (t : Int) (r : Int) (h : timeVal t = .error r) : r < 0 := by
  unfold timeVal at h
  split at h
  · cases h
  · split at h
    · cases h; decide
    · split at h
      · cases h; decide
      · cases h

theorem aaActs_neg (v : Env) (m : GMsg) (i : Nat) (x : GC) (r : Int) (h : aaActs v m i x = .error r) : r < 0 := by
  unfold aaActs at h
  split at h
  · unfold aaValEnc at h
    split at h
    · cases h; decide
    · split at h
      · split at h
        · rename_i hd; cases h; exact getDigest_neg _ _ hd
        · cases h
      · split at h
        · split at h
          · cases h; decide
          · cases h
        · split at h
          · split at h
            · rename_i hd; cases h; exact timeVal_neg _ _ hd
            · cases h
          · split at h
            · cases h; decide
            · cases h
  · unfold aaOidEnc at h
    split at h
    · cases h; decide
    · cases h
  · unfold aaContEnc at h
    split at h
    · cases h; decide
    · cases h

/-! ### Walk -/

variable {act : GAct GC}

/-- The results of the actions for the attributes. -/
def AARun (act : GAct GC) : GC → List AAttr → GC → Prop
  | _, [], _ => False
  | x, [a], x' => a.oid ≠ [] ∧ a.val ≠ [] ∧ act 1 x = out0 a.oid x ∧
      ∃ tg, act 0 x = some ⟨0, a.val, tg, x'⟩ ∧ tg.getD 0 = a.tag ∧ act 2 x' = out0 [] x'
  | x, a :: as, x' => a.oid ≠ [] ∧ a.val ≠ [] ∧ act 1 x = out0 a.oid x ∧
      ∃ tg x1, act 0 x = some ⟨0, a.val, tg, x1⟩ ∧ tg.getD 0 = a.tag ∧ act 2 x1 = out1 x1 ∧ AARun act x1 as x'

/-- A state. -/
abbrev ast (pc : Nat) (tag : Option UInt8) (lv : List GL) (x : GC) : GS GC := { pc := pc, tag := tag, lv := lv, ctx := x }

theorem aa_walk (x x' : GC) (a : AAttr) (h1 : a.oid ≠ []) (h2 : a.val ≠ []) (h3 : act 1 x = out0 a.oid x) (tg : Option UInt8)
    (h4 : act 0 x = some ⟨0, a.val, tg, x'⟩) (ht : tg.getD 0 = a.tag) (r : Nat) (h5 : act 2 x' = some ⟨r, [], none, x'⟩)
    (hr : r = 0 ∨ r = 1) (acc : List Tree) (t : Option UInt8) :
    GTo pkcs7_aa act (ast 2 t [lvl 0x31 acc] x) { ast 15 (some 0x30) [lvl 0x31 (acc ++ [aaTree a])] x' with cont := r == 1 } := by
  obtain ⟨o, t', v⟩ := a
  obtain ⟨y, ys, rfl⟩ := List.exists_cons_of_ne_nil h1
  obtain ⟨z, zs, rfl⟩ := List.exists_cons_of_ne_nil h2
  dsimp only at *
  subst ht
  refine (GTo.run 1 (b := ast 4 none [lvl 0x30 [], lvl 0x31 acc] x) rfl).trans ?_
  refine (GTo.step (b := ast 7 (some 6) [lvl 0x30 [.leaf 6 (y :: ys)], lvl 0x31 acc] x)
    ((gstep_leaf _ _ _ rfl rfl rfl rfl rfl h3).trans rfl)).trans ?_
  refine (GTo.run 1 (b := ast 9 none [lvl 0x31 [], lvl 0x30 [.leaf 6 (y :: ys)], lvl 0x31 acc] x) rfl).trans ?_
  have hv : GTo pkcs7_aa act (ast 9 none [lvl 0x31 [], lvl 0x30 [.leaf 6 (y :: ys)], lvl 0x31 acc] x)
      (ast 11 (some (tg.getD 0)) [lvl 0x31 [.leaf (tg.getD 0) (z :: zs)], lvl 0x30 [.leaf 6 (y :: ys)], lvl 0x31 acc] x') := by
    cases tg with
    | none => exact GTo.step ((gstep_any _ _ _ rfl rfl rfl rfl h4).trans rfl)
    | some t => exact GTo.step ((gstep_any _ _ _ rfl rfl rfl rfl h4).trans rfl)
  refine hv.trans ?_
  generalize tg.getD 0 = t2
  refine (GTo.run 1 (b := ast 13 (some 0x31) [lvl 0x30 [.leaf 6 (y :: ys), .node 0x31 [.leaf t2 (z :: zs)]], lvl 0x31 acc] x') rfl).trans ?_
  rcases hr with rfl | rfl
  · exact GTo.step ((gstep_end _ _ _ rfl rfl rfl rfl h5).trans rfl)
  · exact GTo.step ((gstep_end _ _ _ rfl rfl rfl rfl h5).trans rfl)

theorem aas_walk : ∀ (as : List AAttr) (x x' : GC) (_ : AARun act x as x') (acc : List Tree) (t : Option UInt8),
    GTo pkcs7_aa act (ast 2 t [lvl 0x31 acc] x) (ast 15 (some 0x30) [lvl 0x31 (acc ++ as.map aaTree)] x')
  | [], _, _, h, _, _ => absurd h id
  | [a], x, x', h, acc, t => by
    obtain ⟨h1, h2, h3, tg, h4, h5, h6⟩ := h
    exact aa_walk x x' a h1 h2 h3 tg h4 h5 0 h6 (.inl rfl) acc t
  | a :: a' :: as, x, x', h, acc, t => by
    obtain ⟨h1, h2, h3, tg, x1, h4, h5, h6, h7⟩ := h
    refine (aa_walk x x1 a h1 h2 h3 tg h4 h5 1 h6 (.inr rfl) acc t).trans ?_
    refine (GTo.run 1 (b := ast 2 (some 0x30) [lvl 0x31 (acc ++ [aaTree a])] x1) rfl).trans ?_
    have := aas_walk (a' :: as) x1 x' h7 (acc ++ [aaTree a]) (some 0x30)
    rwa [List.append_assoc] at this

theorem aaSet_walk (as : List AAttr) (x x' : GC) (h : AARun act x as x') :
    ∃ b, (∃ k, grun pkcs7_aa act k { ctx := x } = .halt 0 b) ∧ b.out = [.node 0x31 (as.map aaTree)] ∧ b.ctx = x' := by
  refine ⟨{ ast 17 (some 0x31) [] x' with out := [.node 0x31 (as.map aaTree)] }, GTo.halt ?_ rfl, rfl, rfl⟩
  refine (GTo.run 1 (b := ast 2 none [lvl 0x31 []] x) rfl).trans ?_
  refine (aas_walk as x x' h [] none).trans ?_
  have hne : ∃ k ks, as.map aaTree = k :: ks := by
    match as, h with
    | a :: as, _ => exact ⟨_, _, rfl⟩
  obtain ⟨k, ks, hk⟩ := hne
  rw [List.nil_append, hk]
  exact GTo.run 1 rfl

/-! ### What is written -/

/-- The signing time. -/
def timeBytes (t : Int) : Bytes := match timeVal t with | .ok p => p.2 | .error _ => []

theorem timeVal_ok (t : Int) (h0 : 0 ≤ t) (h1 : t ≤ maxTime) : timeVal t = .ok (UInt8.ofNat (timeTag t), LC.Crt.timeVal t) := by
  have hy := LC.Crt.time_year t h0
  unfold timeVal timeTag LC.Crt.timeVal
  by_cases h : t < 2524608000
  · rw [if_pos h, if_pos h, if_neg (by omega), if_neg (by omega), if_neg hy]
    rfl
  · rw [if_neg h, if_neg h, if_pos (by omega)]
    rfl

/-- The attributes of a signer, in the order in which they are written. -/
def aaList (v : Env) (m : GMsg) (h : Nat) (s : Signer) : List AAttr :=
  if s.aaSet = 0 then [] else
  [⟨oidData OID_messageDigest, 4, v.hash h m.data⟩, ⟨oidData OID_contentType, 0, oidData OID_data⟩] ++
  (if s.aaSet = 7 then [⟨oidData OID_signingTime, UInt8.ofNat (timeTag v.now), LC.Crt.timeVal v.now⟩] else [])

theorem aaVal_md (v : Env) (m : GMsg) (h : Nat) (s : Signer) (ss : List Signer) (x : GC) (hx : x.sinfos = s :: ss) (hd : getDigest s = .ok h)
    (hf : mdForced s x = true) :
    simpleG (aaActs v m) 0 x = some ⟨0, v.hash h m.data, some 4, { x with applied := x.applied ||| HAS_MESSAGE_DIGEST }⟩ := by
  show (aaValEnc v m x).toOption = _
  unfold aaValEnc
  rw [hx]
  dsimp only
  rw [if_pos hf, hd]
  rfl

theorem aaVal_ct (v : Env) (m : GMsg) (s : Signer) (ss : List Signer) (x : GC) (hx : x.sinfos = s :: ss) (hm : m.dataType = OID_data)
    (hf : mdForced s x = false) (hc : aaUn s x HAS_CONTENT_TYPE = true) :
    simpleG (aaActs v m) 0 x = some ⟨0, oidData OID_data, none, { x with applied := x.applied ||| HAS_CONTENT_TYPE }⟩ := by
  show (aaValEnc v m x).toOption = _
  unfold aaValEnc
  rw [hx]
  dsimp only
  rw [hf, if_neg (by decide), if_pos hc, if_neg (by rw [hm]; decide), hm]
  rfl

theorem aaVal_st (v : Env) (m : GMsg) (s : Signer) (ss : List Signer) (x : GC) (hx : x.sinfos = s :: ss) (t : UInt8) (b : Bytes)
    (ht : timeVal v.now = .ok (t, b))
    (hf : mdForced s x = false) (hc : aaUn s x HAS_CONTENT_TYPE = false) (hs : aaUn s x HAS_SIGNING_TIME = true) :
    simpleG (aaActs v m) 0 x = some ⟨0, b, some t, { x with applied := x.applied ||| HAS_SIGNING_TIME }⟩ := by
  show (aaValEnc v m x).toOption = _
  unfold aaValEnc
  rw [hx]
  dsimp only
  rw [hf, if_neg (by decide), hc, if_neg (by decide), if_pos hs, ht]
  rfl

theorem aaOid_at (v : Env) (m : GMsg) (s : Signer) (ss : List Signer) (x : GC) (hx : x.sinfos = s :: ss) (b : Bytes) (hb : aaOid s x = b) :
    simpleG (aaActs v m) 1 x = out0 b x := by
  show (aaOidEnc x).toOption = _
  unfold aaOidEnc
  rw [hx]
  dsimp only
  rw [hb]
  rfl

theorem aaCont_at (v : Env) (m : GMsg) (s : Signer) (ss : List Signer) (x : GC) (hx : x.sinfos = s :: ss) :
    simpleG (aaActs v m) 2 x = some ⟨if x.applied ≠ s.aaSet then 1 else 0, [], none, x⟩ := by
  show (aaContEnc x).toOption = _
  unfold aaContEnc
  rw [hx]
  rfl

theorem oid_MD_ne : oidData OID_messageDigest ≠ [] := by decide
theorem oid_CT_ne : oidData OID_contentType ≠ [] := by decide
theorem oid_ST_ne : oidData OID_signingTime ≠ [] := by decide
theorem oid_data_ne : oidData OID_data ≠ [] := by decide

theorem time_ne (t : Int) : LC.Crt.timeVal t ≠ [] := by
  unfold LC.Crt.timeVal
  split
  · exact LC.Crt.utc_ne t
  · exact LC.Crt.gen_ne t

theorem aa_run (v : Env) (m : GMsg) (h : Nat) (s : Signer) (hs : s.aaSet = 5 ∨ s.aaSet = 7) (hd : getDigest s = .ok h)
    (hm : m.dataType = OID_data) (hh : v.hash h m.data ≠ []) (h0 : 0 ≤ v.now) (h1 : v.now ≤ maxTime) (x : GC) (ss : List Signer)
    (hx : x.sinfos = s :: ss) (ha : x.applied = 0) :
    AARun (simpleG (aaActs v m)) x (aaList v m h s) { x with applied := s.aaSet } := by
  obtain ⟨cs, si, ap, sd, dz, db⟩ := x
  dsimp only at hx ha
  subst hx ha
  have ht := timeVal_ok v.now h0 h1
  unfold aaList
  have e1 : mdForced s ⟨cs, s :: ss, 0, sd, dz, db⟩ = true := by
    unfold mdForced; rcases hs with h | h <;> rw [h] <;> dsimp only <;> decide
  have e2 : mdForced s ⟨cs, s :: ss, 4, sd, dz, db⟩ = false := by
    unfold mdForced; rcases hs with h | h <;> rw [h] <;> dsimp only <;> decide
  have e3 : mdForced s ⟨cs, s :: ss, 5, sd, dz, db⟩ = false := by
    unfold mdForced; rcases hs with h | h <;> rw [h] <;> dsimp only <;> decide
  have e4 : aaUn s ⟨cs, s :: ss, 4, sd, dz, db⟩ HAS_CONTENT_TYPE = true := by
    unfold aaUn; rcases hs with h | h <;> rw [h] <;> dsimp only <;> decide
  have e5 : aaUn s ⟨cs, s :: ss, 5, sd, dz, db⟩ HAS_CONTENT_TYPE = false := by
    unfold aaUn; rcases hs with h | h <;> rw [h] <;> dsimp only <;> decide
  have o1 := aaOid_at v m s ss ⟨cs, s :: ss, 0, sd, dz, db⟩ rfl (oidData OID_messageDigest) (by unfold aaOid; rw [if_pos e1])
  have o2 := aaOid_at v m s ss ⟨cs, s :: ss, 4, sd, dz, db⟩ rfl (oidData OID_contentType)
    (by unfold aaOid; rw [e2, if_neg (by decide), if_pos e4])
  have v1 := aaVal_md v m h s ss ⟨cs, s :: ss, 0, sd, dz, db⟩ rfl hd e1
  have v2 := aaVal_ct v m s ss ⟨cs, s :: ss, 4, sd, dz, db⟩ rfl hm e2 e4
  have c1 := aaCont_at v m s ss ⟨cs, s :: ss, 4, sd, dz, db⟩ rfl
  have c2 := aaCont_at v m s ss ⟨cs, s :: ss, 5, sd, dz, db⟩ rfl
  dsimp only at *
  rcases hs with hs | hs
  · rw [hs] at c1 c2 ⊢
    rw [if_neg (by decide), if_neg (by decide)]
    exact ⟨oid_MD_ne, hh, o1, some 4, _, v1, rfl, c1, oid_CT_ne, oid_data_ne, o2, none, v2, rfl, c2⟩
  · have e6 : aaUn s ⟨cs, s :: ss, 5, sd, dz, db⟩ HAS_SIGNING_TIME = true := by
      unfold aaUn; rw [hs]; dsimp only; decide
    have o3 := aaOid_at v m s ss ⟨cs, s :: ss, 5, sd, dz, db⟩ rfl (oidData OID_signingTime)
      (by unfold aaOid; rw [e3, if_neg (by decide), e5, if_neg (by decide), if_pos e6])
    have v3 := aaVal_st v m s ss ⟨cs, s :: ss, 5, sd, dz, db⟩ rfl _ _ ht e3 e5 e6
    have c3 := aaCont_at v m s ss ⟨cs, s :: ss, 7, sd, dz, db⟩ rfl
    dsimp only at *
    rw [hs] at c1 c2 c3 ⊢
    rw [if_neg (by decide), if_pos rfl]
    exact ⟨oid_MD_ne, hh, o1, some 4, _, v1, rfl, c1, oid_CT_ne, oid_data_ne, o2, none, _, v2, rfl, c2, oid_ST_ne, time_ne _, o3,
      some _, v3, rfl, c3⟩

/-- The encoder of the attributes succeeds only with the attributes of the signer. -/
theorem aa_encode (v : Env) (m : GMsg) (h : Nat) (s : Signer) (hs : s.aaSet = 5 ∨ s.aaSet = 7) (hd : getDigest s = .ok h)
    (hm : m.dataType = OID_data) (hh : v.hash h m.data ≠ []) (h0 : 0 ≤ v.now) (h1 : v.now ≤ maxTime) (x : GC) (ss : List Signer)
    (hx : x.sinfos = s :: ss) (ha : x.applied = 0) (avail n : Nat) (r : Int) (st : Gen.St GC)
    (he : encode (aaEncoder v m) small x avail n = .halt r st) (hr : ¬ r < 0) :
    st.out = ser (.node 0x31 ((aaList v m h s).map aaTree)) ∧ st.ctx = { x with applied := s.aaSet } ∧
    WFL ((aaList v m h s).map aaTree) ∧ (serL ((aaList v m h s).map aaTree)).length < 2 ^ 24 := by
  obtain ⟨b, ⟨k, hb⟩, ho, hc⟩ := aaSet_walk (aaList v m h s) x _ (aa_run v m h s hs hd hm hh h0 h1 x ss hx ha)
  obtain ⟨_, h2, h3, h4, _⟩ := encode_tot _ small _ (simple_agree (aaActs v m) pkcs7_aa (aaActs_neg v m)) x avail n r st he hr k b hb
  rw [ho] at h2 h4
  rw [serL_single] at h2
  rw [hc] at h3
  simp only [WFL, WF] at h4
  exact ⟨h2, h3, h4.1.2.2, h4.1.2.1⟩

theorem stripHdr_tlv (t : UInt8) (c : Bytes) (h : c.length < 2 ^ 24) : stripHdr (tlv t c) = .ok c := by
  unfold tlv derLen stripHdr
  by_cases h1 : c.length < 128
  · rw [if_pos h1]
    have : (byte c.length).toNat = c.length := by unfold byte; simp; omega
    simp only [List.getD_cons_succ, List.cons_append, List.getD_cons_zero, this]
    rw [if_neg (by omega)]
    rfl
  · rw [if_neg h1]
    by_cases h2 : c.length < 256
    · rw [if_pos h2]
      simp
    · rw [if_neg h2]
      by_cases h3 : c.length < 65536
      · rw [if_pos h3]
        simp
      · rw [if_neg h3]
        simp

end LC.P7
