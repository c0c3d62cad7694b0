import Verif.X509.CertSub
import Verif.Oid.Props
/-
The extensions that the generator writes, read by the parser.
-/
namespace LC.Crt
open LC.Asn1 LC.Asn1.Enc LC.Asn1.Gen LC.Asn1.Tr
open LC.X509 (ExtState Kid generateId extCritical basicConstraintsCa basicConstraintsPathlen keyUsageAct)
open LC.Oid (oidData lookUp)

theorem ExtsP.mono {E G : Nat → Prop} (h : ∀ n, E n → G n) : ∀ {es : List ExtItem} {p p' : P}, ExtsP E p es p' → ExtsP G p es p'
  | [], _, _, hp => hp
  | _ :: _, _, _, ⟨hc, p1, hg, hr⟩ => ⟨hc, p1, fun n => (hg n).mono (h n), hr.mono h⟩

theorem ExtsP.append {E : Nat → Prop} : ∀ {es fs : List ExtItem} {p q r : P}, ExtsP E p es q → ExtsP E q fs r → ExtsP E p (es ++ fs) r
  | [], _, _, _, _, h1, h2 => by
    cases h1
    exact h2
  | _ :: _, _, _, _, _, ⟨hc, p1, hg, hr⟩, h2 => ⟨hc, p1, hg, hr.append h2⟩

/-- The extensions are read, or reading fails because of `F` or for want of steps. -/
def Steps (F : Prop) (p : P) (es : List ExtItem) (p' : P) : Prop := ∃ N, ExtsP (fun n => F ∨ n ≤ N) p es p'

theorem Steps.nil {F : Prop} (p : P) : Steps F p [] p := ⟨0, rfl⟩

theorem Steps.append {F : Prop} {es fs : List ExtItem} {p q r : P} (h1 : Steps F p es q) (h2 : Steps F q fs r) : Steps F p (es ++ fs) r := by
  obtain ⟨N, h1⟩ := h1
  obtain ⟨M, h2⟩ := h2
  refine ⟨max N M, (h1.mono ?_).append (h2.mono ?_)⟩
  · rintro n (h | h)
    · exact .inl h
    · exact .inr (by omega)
  · rintro n (h | h)
    · exact .inl h
    · exact .inr (by omega)

theorem Steps.one {F : Prop} {p q : P} {e : ExtItem} (hc : e.crit = [] ∨ ∃ b, e.crit = [b])
    (h : ∃ N, ∀ n, Gives (F ∨ n ≤ N) (procExtP n e.val (critP e.crit (noteOid e.oid p))) q) : Steps F p [e] q := by
  obtain ⟨N, h⟩ := h
  exact ⟨N, hc, q, h, rfl⟩

theorem noteOid_reg (o : Nat) (h : o < 124) (p : P) : noteOid (oidData o) p = { p with lastOid := o } := by
  unfold noteOid
  rw [LC.Oid.lookUp_registered o h]

theorem critP_bool (b : Bool) (p : P) : critP (boolByte b) p = { p with ext := { p.ext with critical := b } } := by
  cases b <;> rfl

theorem procExt_sub {F : Prop} {n : Nat} {v : Bytes} {p q : P} (d : Decoder) (act : PAct P) (o : Nat)
    (hs : (d = x509_eku ∧ act = ekuPActs ∧ o = OID_EKU) ∨ (d = x509_basic_constraints ∧ act = bcPActs ∧ o = OID_BC) ∨
      (d = x509_san ∧ act = sanPActs ∧ o = OID_SAN) ∨ (d = x509_keyusage ∧ act = kuPActs ∧ o = OID_keyUsage) ∨
      (d = x509_skid ∧ act = skidPActs ∧ o = OID_SKID))
    (ho : p.lastOid = o) (hq : q.lastOid = o ∨ (o = OID_EKU ∧ 68 < q.lastOid))
    (h : Gives F (subParse d act n v p) q) : Gives F (procExtP n v p) q := by
  have key : (∀ e, subParse d act n v p = .error e → procExtP n v p = .error e) ∧
      (subParse d act n v p = .ok q → procExtP n v p = .ok q) := by
    rcases hs with ⟨rfl, rfl, rfl⟩ | ⟨rfl, rfl, rfl⟩ | ⟨rfl, rfl, rfl⟩ | ⟨rfl, rfl, rfl⟩ | ⟨rfl, rfl, rfl⟩
    all_goals
      constructor
      · intro e he
        unfold procExtP
        simp only [ho, OID_EKU, OID_BC, OID_SAN, OID_keyUsage, OID_SKID, OID_AKID, bind, Except.bind, Nat.reduceEqDiff, if_false, if_true, he]
      · intro he
        have hq' : q.lastOid = _ ∨ _ := hq
        unfold procExtP
        simp only [OID_EKU, OID_BC, OID_SAN, OID_keyUsage, OID_SKID, Nat.reduceEqDiff, false_and, or_false, true_and] at ho hq'
        simp only [ho, OID_EKU, OID_BC, OID_SAN, OID_keyUsage, OID_SKID, OID_AKID, bind, Except.bind, Nat.reduceEqDiff, if_false, if_true, he]
        first
          | done
          | simp only [hq', Nat.reduceEqDiff, if_false]
          | exact if_neg (by omega)
  rcases h with ⟨hF, e, he, hn⟩ | h
  · exact .inl ⟨hF, e, key.1 e he, hn⟩
  · exact .inr (key.2 h)

theorem eku_oid : ∀ e ∈ ekuBits, oidToEku (lookUp (oidData e.2)) = some e.1 ∧ lookUp (oidData e.2) = e.2 ∧ 68 < e.2 := by
  decide +kernel

abbrev ekuP (cr : Bool) (p : P) (bit : UInt16) (o : Nat) : P :=
  { p with lastOid := o, ext := { p.ext with critical := cr, keyEku := ((p.ext.keyEku ||| bit) ||| (if cr then 2 else 0)) ||| 4 } }

theorem step_eku {F : Prop} (c : In) (p : P) (bit : UInt16) (o : Nat) (he : (bit, o) ∈ ekuBits)
    (hl : (serL (xtree c (.eku bit o))).length ≤ 2 ^ 18) :
    Steps F p [xitem c (.eku bit o)] (ekuP (c.keyEku &&& 2 != 0) p bit o) := by
  obtain ⟨h1, h2, h3⟩ := eku_oid _ he
  refine Steps.one (.inr ⟨_, rfl⟩) ?_
  dsimp only [xitem, xcrit, xoid]
  rw [noteOid_reg _ (by decide), critP_bool]
  obtain ⟨N, hN⟩ := eku_read (F := F) (oidData o) { p with lastOid := OID_EKU, ext := { p.ext with critical := c.keyEku &&& 2 != 0 } }
    (ekuP (c.keyEku &&& 2 != 0) p bit o) hl (.ok (by
      unfold ekuActP
      dsimp only at h1 h2
      rw [h1, h2]))
  exact ⟨N, fun n => procExt_sub x509_eku ekuPActs OID_EKU (.inl ⟨rfl, rfl, rfl⟩) rfl (.inr ⟨rfl, h3⟩) (hN n)⟩

/-! ### The extended key usage -/

/-- The bits after reading the extensions for `l`. -/
def ekuFold (k : UInt16) (acc : UInt16) (l : List (UInt16 × Nat)) : UInt16 :=
  l.foldl (fun a e => if k &&& e.1 != 0 then ((a ||| e.1) ||| (if k &&& 2 != 0 then 2 else 0)) ||| 4 else a) acc

theorem steps_eku {F : Prop} (c : In) : ∀ (l : List (UInt16 × Nat)) (_ : ∀ e ∈ l, e ∈ ekuBits)
    (_ : ∀ k ∈ ekuKinds c l, (serL (xtree c k)).length ≤ 2 ^ 18) (p : P),
    ∃ o cr, Steps F p ((ekuKinds c l).map (xitem c))
      { p with lastOid := o, ext := { p.ext with critical := cr, keyEku := ekuFold c.keyEku p.ext.keyEku l } }
  | [], _, _, p => ⟨p.lastOid, p.ext.critical, Steps.nil p⟩
  | e :: l, hl, hk, p => by
    unfold ekuKinds at hk ⊢
    unfold ekuFold
    rw [List.foldl_cons]
    by_cases he : (c.keyEku &&& e.1 != 0) = true
    · rw [List.filter_cons_of_pos (p := fun e : UInt16 × Nat => c.keyEku &&& e.1 != 0) he] at hk ⊢
      rw [if_pos he, List.map_cons, List.map_cons]
      have h1 := step_eku (F := F) c p e.1 e.2 (hl e (List.mem_cons_self ..)) (hk _ (by rw [List.map_cons]; exact List.mem_cons_self ..))
      obtain ⟨o, cr, h2⟩ := steps_eku (F := F) c l (fun e he => hl e (List.mem_cons_of_mem _ he))
        (fun k h => hk k (by rw [List.map_cons]; exact List.mem_cons_of_mem _ h)) (ekuP (c.keyEku &&& 2 != 0) p e.1 e.2)
      exact ⟨o, cr, h1.append h2⟩
    · rw [List.filter_cons_of_neg (p := fun e : UInt16 × Nat => c.keyEku &&& e.1 != 0) he] at hk ⊢
      rw [if_neg he]
      exact steps_eku c l (fun e he => hl e (List.mem_cons_of_mem _ he)) hk p

/-- What is read for the extended key usage `k`. -/
def ekuRead (k : UInt16) : UInt16 := if k &&& 0x3F8 = 0 then 0 else (k &&& 0x3FA) ||| 4

theorem ekuFold_eq (k : UInt16) : ekuFold k 0 ekuBits = ekuRead k := by
  have hk : ∀ v : Fin 1024, ekuFold (UInt16.ofNat v.val) 0 ekuBits = ekuRead (UInt16.ofNat v.val) := by decide +kernel
  have hm : ∀ b : UInt16, 0x3FF &&& b = b → (k &&& 0x3FF) &&& b = k &&& b := by
    intro b hb
    rw [UInt16.and_assoc, hb]
  have hlt : (k &&& 0x3FF).toNat < 1024 := by
    rw [UInt16.toNat_and]
    exact Nat.lt_of_le_of_lt Nat.and_le_right (by decide)
  have h1 := hk ⟨(k &&& 0x3FF).toNat, hlt⟩
  rw [show UInt16.ofNat (k &&& 0x3FF).toNat = k &&& 0x3FF from UInt16.ofNat_toNat] at h1
  have h2 : ekuRead (k &&& 0x3FF) = ekuRead k := by
    unfold ekuRead
    rw [hm 0x3F8 (by decide), hm 0x3FA (by decide)]
  have h3 : ekuFold (k &&& 0x3FF) 0 ekuBits = ekuFold k 0 ekuBits := by
    unfold ekuFold ekuBits
    simp only [List.foldl]
    rw [hm 2 (by decide), hm 8 (by decide), hm 0x10 (by decide), hm 0x20 (by decide), hm 0x40 (by decide), hm 0x80 (by decide),
      hm 0x100 (by decide), hm 0x200 (by decide)]
  rw [← h3, h1, h2]

/-! ### The others -/

/-- What is read for the path length `pl` of a CA: the extension is read as critical even if it is not. -/
def caRead (pl : UInt8) : UInt8 := if pl = 0 then 0 else 0x80 ||| (if 16 < pl then 16 else pl)

theorem caRead_eq : ∀ pl : Fin 256, UInt8.ofNat pl.val ≠ 0 → ((if (16 : UInt8) < UInt8.ofNat pl.val then 16 else UInt8.ofNat pl.val) : UInt8) ||| 0x80 =
    0x80 ||| (if (16 : UInt8) < UInt8.ofNat pl.val then 16 else UInt8.ofNat pl.val) := by decide +kernel

theorem step_bc {F : Prop} (c : In) (p : P) (h0 : pathlen c ≠ 0) (hl : (serL (xtree c .bc)).length ≤ 2 ^ 18) :
    ∃ o cr, Steps F p [xitem c .bc] { p with lastOid := o, ext := { p.ext with critical := cr, caPathlen := caRead (pathlen c) } } := by
  refine ⟨OID_BC, true, Steps.one (.inr ⟨_, rfl⟩) ?_⟩
  dsimp only [xitem, xcrit, xoid]
  rw [noteOid_reg _ (by decide), critP_bool]
  have hb : (pathlen c != 0) = true := by simp [h0]
  have ht : xtree c .bc = [.node 0x30 (.leaf 1 [0xff] :: plTree (if pathlen c != 16 then some (pathlen c) else none))] := by
    show bcTree c = _
    unfold bcTree
    rw [if_pos hb]
    by_cases h16 : (pathlen c != 16) = true
    · rw [if_pos h16, if_pos h16]; rfl
    · rw [if_neg h16, if_neg h16]; rfl
  rw [ht] at hl ⊢
  obtain ⟨N, hN⟩ := bc_read (F := F) 0xff (if pathlen c != 16 then some (pathlen c) else none)
    { p with lastOid := OID_BC, ext := { p.ext with critical := c.caPathlen &&& 0x80 != 0 } }
    { p with lastOid := OID_BC, ext := { p.ext with critical := true, caPathlen := caRead (pathlen c) } }
    { p.ext with critical := true, caPathlen := 0x90 } hl rfl (by
      unfold caRead
      rw [if_neg h0]
      by_cases h16 : (pathlen c != 16) = true
      · rw [if_pos h16]
        have h90 : (0x90 &&& ~~~LC.X509.CA_MAXLEN : UInt8) = 0x80 := by decide
        show liftExt _ (if pathlen c = 0 then _ else some ⟨_, _, _, (0x90 &&& ~~~LC.X509.CA_MAXLEN) ||| _⟩) = _
        rw [if_neg h0, h90]
        rfl
      · rw [if_neg h16]
        have : pathlen c = 16 := by simpa using h16
        rw [this]
        rfl)
  exact ⟨N, fun n => procExt_sub x509_basic_constraints bcPActs OID_BC (.inr (.inl ⟨rfl, rfl, rfl⟩)) rfl (.inl rfl) (hN n)⟩

theorem step_san {F : Prop} (c : In) (p : P) (h0 : c.sanDns ≠ [] ∨ c.sanIp ≠ []) (hl : (serL (xtree c .san)).length ≤ 2 ^ 18)
    (hd : p.sanDns = []) (hi : p.sanIp = []) :
    ∃ o cr sn, Steps F p [xitem c .san] { p with lastOid := o, ext := { p.ext with critical := cr }, subjectName := sn,
                                                 sanDns := c.sanDns, sanIp := c.sanIp } := by
  refine ⟨OID_SAN, p.ext.critical, if c.sanDns = [] then p.subjectName else some (c.sanDns.take 128), Steps.one (.inl rfl) ?_⟩
  dsimp only [xitem, xcrit, xoid]
  rw [noteOid_reg _ (by decide)]
  unfold critP
  dsimp only
  obtain ⟨N, hN⟩ := san_read (F := F) c.sanDns c.sanIp h0 { p with lastOid := OID_SAN }
    { p with lastOid := OID_SAN, subjectName := if c.sanDns = [] then p.subjectName else some (c.sanDns.take 128), sanDns := c.sanDns } hl (by
      by_cases h : c.sanDns = []
      · rw [if_pos h, if_pos h, h, ← hd]
      · rw [if_neg h, if_neg h]
        unfold sanDnsP fabricate
        dsimp only
        rw [if_pos (by simp [h])])
  refine ⟨N, fun n => procExt_sub x509_san sanPActs OID_SAN (.inr (.inr (.inl ⟨rfl, rfl, rfl⟩))) rfl (.inl rfl) ?_⟩
  have := hN n
  by_cases h : c.sanIp = []
  · rw [if_pos h] at this
    rw [show c.sanIp = p.sanIp from h.trans hi.symm]
    exact this
  · rw [if_neg h] at this
    exact this

/-- What is read for the key usage `k`. -/
def kuRead (k : UInt16) : UInt16 := if k &&& 0x9FFF = 0 then 0 else (k &&& 0xDFFF) ||| 0x2000

theorem u16_bytes (v : UInt16) : ((v >>> 8).toUInt8.toUInt16 <<< 8) ||| v.toUInt8.toUInt16 = v := by
  apply UInt16.toNat_inj.mp
  have hv := v.toNat_lt
  simp only [UInt16.toNat_or, UInt16.toNat_shiftLeft, UInt16.toNat_shiftRight, UInt8.toNat_toUInt16, UInt16.toNat_toUInt8, UInt16.reduceToNat,
    Nat.reduceMod, Nat.shiftRight_eq_div_pow, Nat.shiftLeft_eq, Nat.reducePow]
  have h1 : v.toNat / 256 % 256 * 256 % 65536 = 2 ^ 8 * (v.toNat / 256) := by omega
  rw [h1, ← Nat.two_pow_add_eq_or_of_lt (by omega)]
  omega

theorem ku_bits (k : UInt16) : ((k &&& 0x9FFF) ||| (if (k &&& 0x4000 != 0) = true then 0x4000 else 0)) ||| 0x2000 = (k &&& 0xDFFF) ||| 0x2000 := by
  have h : (if (k &&& 0x4000 != 0) = true then (0x4000 : UInt16) else 0) = k &&& 0x4000 := by
    have h1 : (k &&& 0x4000).toNat = (k.toNat.testBit 14).toNat * 2 ^ 14 := by
      rw [UInt16.toNat_and]
      show k.toNat &&& 2 ^ 14 = _
      apply Nat.eq_of_testBit_eq
      intro i
      rw [Nat.testBit_and, Nat.testBit_two_pow]
      by_cases hi : 14 = i
      · subst hi
        cases k.toNat.testBit 14 <;> decide
      · cases k.toNat.testBit 14
        · simp [hi]
        · rw [show (true.toNat * 2 ^ 14) = 2 ^ 14 from rfl, Nat.testBit_two_pow]
          simp [hi]
    cases hb : k.toNat.testBit 14
    · have h0 : k &&& 0x4000 = 0 := by
        apply UInt16.toNat_inj.mp
        rw [h1, hb]
        rfl
      rw [h0]
      decide
    · have h0 : k &&& 0x4000 = 0x4000 := by
        apply UInt16.toNat_inj.mp
        rw [h1, hb]
        rfl
      rw [h0]
      decide
  rw [h, ← u16_split]
  rfl

theorem step_ku {F : Prop} (c : In) (p : P) (h0 : c.keyUsage &&& KU_MASK ≠ 0) (hl : (serL (xtree c .ku)).length ≤ 2 ^ 18) :
    ∃ o cr, Steps F p [xitem c .ku] { p with lastOid := o, ext := { p.ext with critical := cr, keyUsage := kuRead c.keyUsage } } := by
  refine ⟨OID_keyUsage, c.keyUsage &&& 0x4000 != 0, Steps.one (.inr ⟨_, rfl⟩) ?_⟩
  dsimp only [xitem, xcrit, xoid]
  rw [noteOid_reg _ (by decide), critP_bool]
  obtain ⟨N, hN⟩ := ku_read (F := F) (kuBytes c)
    { p with lastOid := OID_keyUsage, ext := { p.ext with critical := c.keyUsage &&& 0x4000 != 0 } }
    { p with lastOid := OID_keyUsage, ext := { p.ext with critical := c.keyUsage &&& 0x4000 != 0, keyUsage := kuRead c.keyUsage } } hl (.ok (by
      unfold kuBytes keyUsageAct
      dsimp only
      rw [u16_bytes]
      unfold liftExt
      dsimp only
      unfold kuRead
      rw [if_neg (show ¬ c.keyUsage &&& 0x9FFF = 0 from h0), ← ku_bits]
      rfl))
  exact ⟨N, fun n => procExt_sub x509_keyusage kuPActs OID_keyUsage (.inr (.inr (.inr (.inl ⟨rfl, rfl, rfl⟩)))) rfl (.inl rfl) (hN n)⟩

theorem genId_gives {F : Prop} (v w : Bytes) (f : Kid → P) (hF : ¬ v.length + w.length ≤ 192 → F) :
    ∃ k, Gives F ((generateId v w).map f) (f k) := by
  unfold generateId
  by_cases h : v.length + w.length ≤ 192
  · rw [if_neg (by unfold LC.X509.kidMax; omega)]
    exact ⟨_, .inr rfl⟩
  · rw [if_pos (by unfold LC.X509.kidMax; omega)]
    exact ⟨Kid.zero, .inl ⟨hF h, _, rfl, by decide⟩⟩

theorem step_skid {F : Prop} (c : In) (p : P) (h0 : skidBytes c ≠ []) (hl : (serL (xtree c .skid)).length ≤ 2 ^ 18)
    (hs : p.skid.len = 0) (hF : ¬ (skidBytes c).length ≤ 192 → F) :
    ∃ o cr k, Steps F p [xitem c .skid] { p with lastOid := o, ext := { p.ext with critical := cr }, rawSkid := skidBytes c, skid := k } := by
  have ht : xtree c .skid = [.leaf 4 (skidBytes c)] := by
    show skidTree c = _
    unfold skidTree
    rw [if_neg h0]
  obtain ⟨k, hk⟩ := genId_gives (F := F) (skidBytes c) []
    (fun k => { p with lastOid := OID_SKID, rawSkid := skidBytes c, skid := k }) (by simpa using hF)
  refine ⟨OID_SKID, p.ext.critical, k, Steps.one (.inl rfl) ?_⟩
  dsimp only [xitem, xcrit, xoid]
  rw [noteOid_reg _ (by decide)]
  unfold critP
  dsimp only
  rw [ht] at hl ⊢
  obtain ⟨N, hN⟩ := skid_read (F := F) (skidBytes c) { p with lastOid := OID_SKID }
    { p with lastOid := OID_SKID, rawSkid := skidBytes c, skid := k } hl (by
      unfold skidP
      rw [if_neg (by simp [hs, h0])]
      exact hk)
  exact ⟨N, fun n => procExt_sub x509_skid skidPActs OID_SKID (.inr (.inr (.inr (.inr ⟨rfl, rfl, rfl⟩)))) rfl (.inl rfl) (hN n)⟩

theorem step_akid {F : Prop} (c : In) (p : P) :
    ∃ o cr, Steps F p [xitem c .akid] { p with lastOid := o, ext := { p.ext with critical := cr }, akidExt := some (serL [.node 0x30 [.leaf 0x80 c.akid]]) } := by
  refine ⟨OID_AKID, p.ext.critical, Steps.one (.inl rfl) ⟨0, fun n => .ok ?_⟩⟩
  dsimp only [xitem, xcrit, xoid]
  rw [noteOid_reg _ (by decide)]
  unfold critP procExtP
  dsimp only
  simp only [OID_keyUsage, OID_SKID, OID_AKID, bind, Except.bind, Nat.reduceEqDiff, if_false, if_true]
  rfl

/-- The extension of the authority key identifier. -/
def akidOf (c : In) : Option Bytes := if c.akid = [] then none else some (serL [.node 0x30 [.leaf 0x80 c.akid]])

/-- What the parser knows after the extensions. -/
def extRead (c : In) (o : Nat) (cr : Bool) (sn : Option Bytes) (k : Kid) (p : P) : P :=
  { p with lastOid := o, subjectName := sn, sanDns := c.sanDns, sanIp := c.sanIp, rawSkid := skidBytes c, skid := k, akidExt := akidOf c,
           ext := ⟨cr, kuRead c.keyUsage, ekuRead c.keyEku, caRead (pathlen c)⟩ }

theorem exts_steps {F : Prop} (c : In) (p : P) (hl : ∀ k ∈ kinds c, (serL (xtree c k)).length ≤ 2 ^ 18) (hs : skidBytes c ≠ [])
    (hd : p.sanDns = []) (hi : p.sanIp = []) (hk : p.skid.len = 0) (ha : p.akidExt = none)
    (h1 : p.ext.keyEku = 0) (h2 : p.ext.keyUsage = 0) (h3 : p.ext.caPathlen = 0) (hF : ¬ (skidBytes c).length ≤ 192 → F) :
    ∃ o cr sn k, Steps F p ((kinds c).map (xitem c)) (extRead c o cr sn k p) := by
  unfold kinds at hl ⊢
  simp only [List.mem_append] at hl
  simp only [List.map_append]
  obtain ⟨o1, cr1, s1⟩ := steps_eku (F := F) c ekuBits (fun _ h => h) (fun k h => hl k (.inl h)) p
  rw [h1, ekuFold_eq] at s1
  have s2 : ∀ (o : Nat) (cr : Bool), ∃ o' cr', Steps F { p with lastOid := o, ext := ⟨cr, p.ext.keyUsage, ekuRead c.keyEku, p.ext.caPathlen⟩ }
      (((if (pathlen c != 0) = true then [XKind.bc] else [])).map (xitem c))
      { p with lastOid := o', ext := ⟨cr', p.ext.keyUsage, ekuRead c.keyEku, caRead (pathlen c)⟩ } := by
    intro o cr
    by_cases h : pathlen c = 0
    · rw [if_neg (by simp [h]), h, h3]
      exact ⟨o, cr, Steps.nil _⟩
    · rw [if_pos (by simp [h])]
      obtain ⟨o', cr', hh⟩ := step_bc (F := F) c { p with lastOid := o, ext := ⟨cr, p.ext.keyUsage, ekuRead c.keyEku, p.ext.caPathlen⟩ } h
        (hl _ (.inr (.inl (by rw [if_pos (by simp [h])]; exact List.mem_singleton.mpr rfl))))
      exact ⟨o', cr', hh⟩
  obtain ⟨o2, cr2, s2⟩ := s2 o1 cr1
  have s3 : ∀ (o : Nat) (cr : Bool), ∃ o' cr' sn, Steps F { p with lastOid := o, ext := ⟨cr, p.ext.keyUsage, ekuRead c.keyEku, caRead (pathlen c)⟩ }
      (((if (c.sanDns != [] || c.sanIp != []) = true then [XKind.san] else [])).map (xitem c))
      { p with lastOid := o', subjectName := sn, sanDns := c.sanDns, sanIp := c.sanIp,
               ext := ⟨cr', p.ext.keyUsage, ekuRead c.keyEku, caRead (pathlen c)⟩ } := by
    intro o cr
    by_cases h : c.sanDns ≠ [] ∨ c.sanIp ≠ []
    · rw [if_pos (by simpa using h)]
      obtain ⟨o', cr', sn, hh⟩ := step_san (F := F) c { p with lastOid := o, ext := ⟨cr, p.ext.keyUsage, ekuRead c.keyEku, caRead (pathlen c)⟩ } h
        (hl _ (.inr (.inr (.inl (by rw [if_pos (by simpa using h)]; exact List.mem_singleton.mpr rfl))))) hd hi
      exact ⟨o', cr', sn, hh⟩
    · rw [if_neg (by simpa using h)]
      have h4 : c.sanDns = p.sanDns := by rw [hd]; exact Decidable.not_not.mp fun hh => h (.inl hh)
      have h5 : c.sanIp = p.sanIp := by rw [hi]; exact Decidable.not_not.mp fun hh => h (.inr hh)
      rw [h4, h5]
      exact ⟨o, cr, p.subjectName, Steps.nil _⟩
  obtain ⟨o3, cr3, sn, s3⟩ := s3 o2 cr2
  have s4 : ∀ (o : Nat) (cr : Bool), ∃ o' cr', Steps F
          { p with lastOid := o, subjectName := sn, sanDns := c.sanDns, sanIp := c.sanIp,
                   ext := ⟨cr, p.ext.keyUsage, ekuRead c.keyEku, caRead (pathlen c)⟩ }
      (((if (c.keyUsage &&& KU_MASK != 0) = true then [XKind.ku] else [])).map (xitem c))
      { p with lastOid := o', subjectName := sn, sanDns := c.sanDns, sanIp := c.sanIp,
               ext := ⟨cr', kuRead c.keyUsage, ekuRead c.keyEku, caRead (pathlen c)⟩ } := by
    intro o cr
    by_cases h : c.keyUsage &&& KU_MASK = 0
    · rw [if_neg (by simp [h]), h2, show kuRead c.keyUsage = 0 by unfold kuRead; exact if_pos h]
      exact ⟨o, cr, Steps.nil _⟩
    · rw [if_pos (by simp [h])]
      obtain ⟨o', cr', hh⟩ := step_ku (F := F) c
          { p with lastOid := o, subjectName := sn, sanDns := c.sanDns, sanIp := c.sanIp,
                   ext := ⟨cr, p.ext.keyUsage, ekuRead c.keyEku, caRead (pathlen c)⟩ } h
        (hl _ (.inr (.inr (.inr (.inl (by rw [if_pos (by simp [h])]; exact List.mem_singleton.mpr rfl))))))
      exact ⟨o', cr', hh⟩
  obtain ⟨o4, cr4, s4⟩ := s4 o3 cr3
  obtain ⟨o5, cr5, k, s5⟩ := step_skid (F := F) c
          { p with lastOid := o4, subjectName := sn, sanDns := c.sanDns, sanIp := c.sanIp,
                   ext := ⟨cr4, kuRead c.keyUsage, ekuRead c.keyEku, caRead (pathlen c)⟩ } hs
        (hl _ (.inr (.inr (.inr (.inr (.inl (List.mem_singleton.mpr rfl))))))) hk hF
  have s6 : ∀ (o : Nat) (cr : Bool), ∃ o' cr', Steps F
          { p with lastOid := o, subjectName := sn, sanDns := c.sanDns, sanIp := c.sanIp,
                   rawSkid := skidBytes c, skid := k, ext := ⟨cr, kuRead c.keyUsage, ekuRead c.keyEku, caRead (pathlen c)⟩ }
      (((if (c.akid != []) = true then [XKind.akid] else [])).map (xitem c)) (extRead c o' cr' sn k p) := by
    intro o cr
    unfold extRead akidOf
    by_cases h : c.akid = []
    · rw [if_neg (by simp [h]), if_pos h, ← ha]
      exact ⟨o, cr, Steps.nil _⟩
    · rw [if_pos (by simp [h]), if_neg h]
      obtain ⟨o', cr', hh⟩ := step_akid (F := F) c
          { p with lastOid := o, subjectName := sn, sanDns := c.sanDns, sanIp := c.sanIp,
                   rawSkid := skidBytes c, skid := k, ext := ⟨cr, kuRead c.keyUsage, ekuRead c.keyEku, caRead (pathlen c)⟩ }
      exact ⟨o', cr', hh⟩
  obtain ⟨o6, cr6, s6⟩ := s6 o5 cr5
  exact ⟨o6, cr6, sn, k, s1.append (s2.append (s3.append (s4.append (s5.append s6))))⟩

end LC.Crt
