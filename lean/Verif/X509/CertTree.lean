import Verif.X509.CertWalk
/-
The certificate that the generator writes, as a tree.
-/
namespace LC.Crt
open LC.Asn1 LC.Asn1.Enc LC.Asn1.Gen LC.Asn1.Tr
open LC.Oid (oidData)

/-! ### Bits -/

theorem u16_split (z a b : UInt16) : z &&& (a ||| b) = (z &&& a) ||| (z &&& b) := by
  apply UInt16.toBitVec_inj.mp
  simp only [UInt16.toBitVec_and, UInt16.toBitVec_or, BitVec.and_or_distrib_left]

theorem u16_andnot (k d b : UInt16) : k &&& ~~~(d ||| b) = (k &&& ~~~d) &&& ~~~b := by
  apply UInt16.toBitVec_inj.mp
  simp only [UInt16.toBitVec_and, UInt16.toBitVec_or, UInt16.toBitVec_not, BitVec.not_or, BitVec.and_assoc]

theorem u16_and_right_comm (z a b : UInt16) : (z &&& a) &&& b = z &&& (b &&& a) := by
  apply UInt16.toBitVec_inj.mp
  simp only [UInt16.toBitVec_and, BitVec.and_assoc, BitVec.and_comm a.toBitVec]

theorem u8_split (a b z : UInt8) : (a ||| b) &&& z = (a &&& z) ||| (b &&& z) := by
  apply UInt8.toBitVec_inj.mp
  simp only [UInt8.toBitVec_and, UInt8.toBitVec_or, BitVec.and_or_distrib_right]

theorem u8_or_eq_zero {a b : UInt8} (h : a ||| b = 0) : a = 0 := by
  have := congrArg UInt8.toBitVec h
  simp only [UInt8.toBitVec_or] at this
  have h2 := BitVec.or_eq_zero_iff.mp this
  exact UInt8.toBitVec_inj.mp h2.1

/-! ### Extended key usage -/

def ekuBits : List (UInt16 × Nat) :=
  [(8, OID_any), (0x10, OID_serverAuth), (0x20, OID_clientAuth), (0x40, OID_codeSigning), (0x80, OID_emailProtection),
   (0x100, OID_timeStamping), (0x200, OID_OCSPSigning)]

theorem ekuEnc_find (c : In) (x : GCtx) :
    ekuEnc c x = match ekuBits.find? (fun e => ekuUn c x e.1) with
      | some e => .ok (0, oidData e.2, { x with ekuDone := x.ekuDone ||| e.1 })
      | none => .error (-EINVAL) := by
  unfold ekuEnc ekuBits
  simp only [List.find?]
  cases ekuUn c x 8
  · cases ekuUn c x 0x10
    · cases ekuUn c x 0x20
      · cases ekuUn c x 0x40
        · cases ekuUn c x 0x80
          · cases ekuUn c x 0x100
            · cases ekuUn c x 0x200 <;> rfl
            · rfl
          · rfl
        · rfl
      · rfl
    · rfl
  · rfl

theorem eku_some (c : In) (hk : c.keyEku &&& 0xFC05 = 0) (x : GCtx) (h : ekuUn c x EKU_MASK = true) :
    ∃ e, ekuBits.find? (fun e => ekuUn c x e.1) = some e := by
  match hf : ekuBits.find? (fun e => ekuUn c x e.1) with
  | some e => exact ⟨e, hf⟩
  | none =>
    exfalso
    rw [List.find?_eq_none] at hf
    have hz : ∀ e ∈ ekuBits, (c.keyEku &&& ~~~x.ekuDone) &&& e.1 = 0 := by
      intro e he
      have := hf e he
      unfold ekuUn at this
      simpa using this
    have hl : (c.keyEku &&& ~~~x.ekuDone) &&& 0xFC05 = 0 := by
      rw [u16_and_right_comm, ← UInt16.and_assoc, hk, UInt16.zero_and]
    unfold ekuUn at h
    have h8 := hz (8, OID_any) (by simp [ekuBits])
    have h10 := hz (0x10, OID_serverAuth) (by simp [ekuBits])
    have h20 := hz (0x20, OID_clientAuth) (by simp [ekuBits])
    have h40 := hz (0x40, OID_codeSigning) (by simp [ekuBits])
    have h80 := hz (0x80, OID_emailProtection) (by simp [ekuBits])
    have h100 := hz (0x100, OID_timeStamping) (by simp [ekuBits])
    have h200 := hz (0x200, OID_OCSPSigning) (by simp [ekuBits])
    generalize (c.keyEku &&& ~~~x.ekuDone) = z at *
    rw [show EKU_MASK = 8 ||| (0x10 ||| (0x20 ||| (0x40 ||| (0x80 ||| (0x100 ||| (0x200 ||| 0xFC05)))))) by decide] at h
    simp only [u16_split] at h
    dsimp only at h8 h10 h20 h40 h80 h100 h200
    rw [h8, h10, h20, h40, h80, h100, h200, hl] at h
    revert h
    decide

theorem oid_ne (o : Nat) (h : o < 124) : oidData o ≠ [] := by
  have : ∀ o < 124, oidData o ≠ [] := by decide +kernel
  exact this o h

theorem ekuBits_oid : ∀ e ∈ ekuBits, e.2 < 124 := by decide

theorem ekuBits_find {c : In} {x : GCtx} {e : UInt16 × Nat} (h : ekuBits.find? (fun e => ekuUn c x e.1) = some e) : oidData e.2 ≠ [] :=
  oid_ne _ (ekuBits_oid e (List.mem_of_find?_eq_some h))

/-! ### The extensions -/

/-- What action 17 writes and the context behind it. -/
def extO (c : In) (x : GCtx) : List Tree × GCtx :=
  if ekuUn c x EKU_MASK then
    (match ekuBits.find? (fun e => ekuUn c x e.1) with
     | some e => ([.node 0x30 [.leaf 6 (oidData e.2)]], { x with ekuDone := x.ekuDone ||| e.1 })
     | none => ([], x))
  else if pathUn c x then (bcTree c, { x with pathDone := pathlen c })
  else if sanUn c x then (sanTree c x, sanCtx c x)
  else if kuUn c x then ([.leaf 3 (kuBytes c)], { x with kuDone := c.keyUsage })
  else if !x.skidDone then (skidTree c, { x with skidDone := true })
  else if akidUn c x then ([.node 0x30 [.leaf 0x80 c.akid]], { x with akidDone := true })
  else ([], x)

theorem procExt_ok (c : In) (hdir : c.sanDir = {}) (hk : c.keyEku &&& 0xFC05 = 0) (n : Nat) (x : GCtx) (avail : Nat) (o : AOut GCtx)
    (h : procExtEnc c n x avail = .ok o) : o = ⟨0, serL (extO c x).1, none, (extO c x).2⟩ := by
  unfold procExtEnc at h
  unfold extO
  by_cases h1 : ekuUn c x EKU_MASK = true
  · rw [if_pos h1] at h ⊢
    obtain ⟨e, he⟩ := eku_some c hk x h1
    have hen := ekuEnc_find c x
    have hne := ekuBits_find he
    rw [he] at hen ⊢
    dsimp only at hen ⊢
    obtain ⟨y, ys, hy⟩ := List.exists_cons_of_ne_nil hne
    rw [hy] at hen ⊢
    exact (nested_ok _ _ (eku_neg c) _ _ _ _ _ h _ (eku_run c x _ y ys hen)).1
  · rw [if_neg h1] at h ⊢
    by_cases h2 : pathUn c x = true
    · rw [if_pos h2] at h ⊢
      obtain ⟨b, hb, hb1, hb2⟩ := bc_run c x h2
      rw [(nested_ok _ _ (bc_neg c) _ _ _ _ _ h _ hb).1, hb1, hb2]
    · rw [if_neg h2] at h ⊢
      by_cases h3 : sanUn c x = true
      · rw [if_pos h3] at h ⊢
        obtain ⟨b, hb, hb1, hb2⟩ := san_run c hdir x h3
        rw [(nested_ok _ _ (san_neg c) _ _ _ _ _ h _ hb).1, hb1, hb2]
      · rw [if_neg h3] at h ⊢
        by_cases h4 : kuUn c x = true
        · rw [if_pos h4] at h ⊢
          rw [(nested_ok _ _ (ku_neg c) _ _ _ _ _ h _ (ku_run c x)).1]
        · rw [if_neg h4] at h ⊢
          by_cases h5 : (!x.skidDone) = true
          · rw [if_pos h5] at h ⊢
            rw [(nested_ok _ _ (skid_neg c) _ _ _ _ _ h _ (skid_run c x)).1]
          · rw [if_neg h5] at h ⊢
            by_cases h6 : akidUn c x = true
            · rw [if_pos h6] at h ⊢
              obtain ⟨b, hb, hb1, hb2⟩ := akid_run c hdir x (by
                unfold akidUn at h6
                simp only [Bool.and_eq_true, bne_iff_ne] at h6
                exact h6.1)
              rw [(nested_ok _ _ (akid_neg c) _ _ _ _ _ h _ hb).1, hb1, hb2]
            · rw [if_neg h6] at h ⊢
              cases h
              rfl

theorem procExt_neg (c : In) (n : Nat) (x : GCtx) (avail : Nat) (e : Int) (h : procExtEnc c n x avail = .error e) : e < 0 := by
  unfold procExtEnc at h
  repeat' split at h
  all_goals first | exact nested_neg _ _ _ _ _ _ _ h | (cases h; done)

/-! ### The actions -/

/-- The public key as written. -/
def keyBytes (c : In) : Bytes :=
  if c.gen.sigType ∈ [4, 5, 6] then serL [.node 0x30 [.leaf 3 (0 :: c.gen.pk), .leaf 3 (0 :: c.gen.pkEd)]] else 0 :: c.gen.pk

/-- The actions of the certificate grammar without limits. -/
def certG (c : In) : GAct GCtx := fun i x =>
  if i = 17 then some ⟨0, serL (extO c x).1, none, (extO c x).2⟩
  else if i = 5 ∧ c.gen.sigType ∈ [4, 5, 6] then some ⟨0, keyBytes c, none, x⟩
  else gactS (topActs c) i x

theorem top_neg (c : In) : ∀ i x e, topActs c i x = .error e → e < 0 := by
  intro i x e h
  unfold topActs at h
  split at h
  case h_6 =>
    unfold keyEnc at h
    split at h
    · cases h
    · cases h; decide
  case h_7 =>
    unfold algOidEnc at h
    dsimp only at h
    split at h
    · cases h; decide
    · cases h
  case h_10 =>
    unfold notAfterEnc at h
    split at h
    · cases h; decide
    · cases h
  case h_11 =>
    unfold notBeforeEnc at h
    split at h
    · cases h; decide
    · cases h
  case h_13 =>
    unfold sigEnc at h
    split at h
    · cases h; decide
    · cases h
  case h_15 =>
    unfold genEnc at h
    dsimp only at h
    repeat' split at h
    all_goals cases h
  case h_16 =>
    unfold utcEnc at h
    dsimp only at h
    repeat' split at h
    all_goals first | (cases h; done) | (cases h; decide)
  all_goals cases h

theorem certG_agree (c : In) (hdir : c.sanDir = {}) (hk : c.keyEku &&& 0xFC05 = 0)
    (hkey : c.gen.sigType ∈ [4, 5, 6] → c.gen.pk ≠ [] ∧ c.gen.pkEd ≠ []) (n : Nat) :
    Agree ⟨x509, certActs c n⟩ (certG c) where
  ok := by
    intro i x avail o h
    have h' : certActs c n i x avail = .ok o := h
    unfold certActs at h'
    unfold certG
    by_cases h1 : i = 17
    · rw [if_pos h1] at h' ⊢
      rw [procExt_ok c hdir hk n x avail o h']
    · rw [if_neg h1] at h' ⊢
      by_cases h2 : i = 5 ∧ c.gen.sigType ∈ [4, 5, 6]
      · rw [if_pos h2] at h' ⊢
        obtain ⟨b, hb, hb1, hb2⟩ := comp_run c x (hkey h2.2).1 (hkey h2.2).2
        rw [(nested_ok _ _ (comp_neg c) _ _ _ _ _ h' _ hb).1, hb1, hb2]
        unfold keyBytes
        rw [if_pos h2.2]
      · rw [if_neg h2] at h' ⊢
        obtain ⟨v, h3, h4⟩ := simple_ok h'
        unfold gactS
        rw [h3, h4]
  err := by
    intro i x avail r h
    have h' : certActs c n i x avail = .error r := h
    unfold certActs at h'
    by_cases h1 : i = 17
    · rw [if_pos h1] at h'
      exact procExt_neg c n x avail r h'
    · rw [if_neg h1] at h'
      by_cases h2 : i = 5 ∧ c.gen.sigType ∈ [4, 5, 6]
      · rw [if_pos h2] at h'
        exact nested_neg _ _ _ _ _ _ _ h'
      · rw [if_neg h2] at h'
        exact simple_err (top_neg c i) h'

theorem certEncode_tree (c : In) (hdir : c.sanDir = {}) (hk : c.keyEku &&& 0xFC05 = 0)
    (hkey : c.gen.sigType ∈ [4, 5, 6] → c.gen.pk ≠ [] ∧ c.gen.pkEd ≠ []) (p : CertParts) (hp : CertRun (certG c) {} p)
    (avail n : Nat) (r : Int) (s : Gen.St GCtx) (h : certEncode c avail n = .halt r s) (hr : ¬ r < 0) :
    r = 0 ∧ s.out = ser (certTree p) ∧ WF (certTree p) ∧ (ser (certTree p)).length ≤ 2 ^ 18 := by
  obtain ⟨b, ⟨k, hb⟩, ho⟩ := cert_walk {} p hp
  obtain ⟨h0, h1, h2, h3, h4⟩ := encode_tot _ large _ (certG_agree c hdir hk hkey n) {} avail n r s h hr k b hb
  rw [ho] at h1 h3
  have he : serL [certTree p] = ser (certTree p) := by simp [serL]
  rw [he] at h1
  refine ⟨h0, h1, ?_, ?_⟩
  · have := h3
    simp only [WFL] at this
    exact this.1
  · rw [← h1]; exact h4

end LC.Crt
