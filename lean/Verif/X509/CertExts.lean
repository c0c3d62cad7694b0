import Verif.X509.CertParts
/-
The extensions that the generator writes for a given input.
-/
namespace LC.Crt
open LC.Asn1 LC.Asn1.Enc LC.Asn1.Gen LC.Asn1.Tr
open LC.Oid (oidData)

inductive XKind where
  | eku (bit : UInt16) (oid : Nat)
  | bc | san | ku | skid | akid

/-- The value of an extension as a tree. -/
def xtree (c : In) : XKind → List Tree
  | .eku _ o => [.node 0x30 [.leaf 6 (oidData o)]]
  | .bc => bcTree c
  | .san => [.node 0x30 (optLeaf 0x82 c.sanDns ++ optLeaf 0x87 c.sanIp)]
  | .ku => [.leaf 3 (kuBytes c)]
  | .skid => skidTree c
  | .akid => [.node 0x30 [.leaf 0x80 c.akid]]

def xoid : XKind → Nat
  | .eku _ _ => OID_EKU
  | .bc => OID_BC
  | .san => OID_SAN
  | .ku => OID_keyUsage
  | .skid => OID_SKID
  | .akid => OID_AKID

def xcrit (c : In) : XKind → Bytes
  | .eku _ _ => boolByte (c.keyEku &&& 2 != 0)
  | .bc => boolByte (c.caPathlen &&& 0x80 != 0)
  | .ku => boolByte (c.keyUsage &&& 0x4000 != 0)
  | _ => []

def xitem (c : In) (k : XKind) : ExtItem := ⟨oidData (xoid k), xcrit c k, serL (xtree c k)⟩

def ekuKinds (c : In) (l : List (UInt16 × Nat)) : List XKind := (l.filter fun e => c.keyEku &&& e.1 != 0).map fun e => .eku e.1 e.2

/-- The extensions of a certificate. -/
def kinds (c : In) : List XKind :=
  ekuKinds c ekuBits ++ ((if pathlen c != 0 then [.bc] else []) ++ ((if c.sanDns != [] || c.sanIp != [] then [.san] else []) ++
    ((if c.keyUsage &&& KU_MASK != 0 then [.ku] else []) ++ ([.skid] ++ (if c.akid != [] then [.akid] else [])))))

/-- Something is left to be written. -/
def un (c : In) (x : GCtx) : Bool := ekuUn c x EKU_MASK || pathUn c x || sanUn c x || kuUn c x || !x.skidDone || akidUn c x

/-- Extensions written one after the other. -/
def EPath (c : In) : GCtx → List XKind → GCtx → Prop
  | x, [], x' => x = x'
  | x, k :: ks, x' => un c x = true ∧ certG c 1 x = out0 (oidData (xoid k)) x ∧ certG c 3 x = out0 (xcrit c k) x ∧
      ∃ x1, certG c 17 x = out0 (serL (xtree c k)) x1 ∧ EPath c x1 ks x'

theorem EPath.append {c : In} : ∀ {as bs : List XKind} {x y z : GCtx}, EPath c x as y → EPath c y bs z → EPath c x (as ++ bs) z
  | [], _, _, _, _, h1, h2 => by
    cases h1
    exact h2
  | _ :: _, _, _, _, _, ⟨h1, h2, h3, x1, h4, h5⟩, h => ⟨h1, h2, h3, x1, h4, h5.append h⟩

theorem ser_ne (t : Tree) (ts : List Tree) : serL (t :: ts) ≠ [] := by
  intro h
  have := congrArg List.length h
  rw [serL] at this
  cases t <;> simp [ser, tlv] at this

theorem xtree_ne (c : In) (hs : skidBytes c ≠ []) (k : XKind) : serL (xtree c k) ≠ [] := by
  match k with
  | .eku _ _ => exact ser_ne _ _
  | .bc => exact ser_ne _ _
  | .san => exact ser_ne _ _
  | .ku => exact ser_ne _ _
  | .skid =>
    unfold xtree skidTree
    rw [if_neg hs]
    exact ser_ne _ _
  | .akid => exact ser_ne _ _

theorem xoid_lt (k : XKind) : xoid k < 124 := by
  cases k
  · exact (by decide : OID_EKU < 124)
  all_goals decide

theorem ExtRun.mk {act : GAct GCtx} {x x1 x' : GCtx} {e : ExtItem} {es : List ExtItem} (h1 : e.oid ≠ []) (h2 : e.val ≠ [])
    (a1 : act 1 x = out0 e.oid x) (a3 : act 3 x = out0 e.crit x) (a17 : act 17 x = out0 e.val x1)
    (hs : (es = [] ∧ act 2 x1 = out0 [] x1 ∧ x1 = x') ∨ (act 2 x1 = out1 x1 ∧ ExtRun act x1 es x')) : ExtRun act x (e :: es) x' := by
  rcases hs with ⟨rfl, h0, rfl⟩ | ⟨h0, hs⟩
  · exact ⟨h1, h2, a1, a3, a17, h0⟩
  · match es, hs with
    | b :: bs, hs => exact ⟨h1, h2, a1, a3, x1, a17, h0, hs⟩

theorem certG_2 (c : In) (x : GCtx) : certG c 2 x = some ⟨if un c x then 1 else 0, [], none, x⟩ := rfl

theorem EPath.run {c : In} (hs : skidBytes c ≠ []) : ∀ {ks : List XKind} {x x' : GCtx}, EPath c x ks x' → un c x' = false → ks ≠ [] →
    ExtRun (certG c) x (ks.map (xitem c)) x'
  | [], _, _, _, _, h => absurd rfl h
  | [k], x, x', ⟨_, h2, h3, x1, h4, h5⟩, hu, _ => by
    cases h5
    refine ExtRun.mk (e := xitem c k) (oid_ne _ (xoid_lt k)) (xtree_ne c hs k) h2 h3 h4 (.inl ⟨rfl, ?_, rfl⟩)
    rw [certG_2, hu]
    rfl
  | k :: k' :: ks, x, x', ⟨_, h2, h3, x1, h4, h5⟩, hu, _ => by
    refine ExtRun.mk (e := xitem c k) (oid_ne _ (xoid_lt k)) (xtree_ne c hs k) h2 h3 h4 (.inr ⟨?_, ?_⟩)
    · rw [certG_2, h5.1]
      rfl
    · exact h5.run hs hu (by simp)

/-! ### The stages -/

theorem certG_1 (c : In) (x : GCtx) : certG c 1 x =
    out0 (if ekuUn c x EKU_MASK then oidData OID_EKU
          else if pathUn c x then oidData OID_BC
          else if sanUn c x then oidData OID_SAN
          else if kuUn c x then oidData OID_keyUsage
          else if !x.skidDone then oidData OID_SKID
          else if akidUn c x then oidData OID_AKID
          else []) x := rfl

theorem certG_3 (c : In) (x : GCtx) : certG c 3 x =
    out0 (if ekuUn c x EKU_MASK then boolByte (c.keyEku &&& 2 != 0)
          else if pathUn c x then boolByte (c.caPathlen &&& 0x80 != 0)
          else if sanUn c x then []
          else if kuUn c x then boolByte (c.keyUsage &&& 0x4000 != 0)
          else []) x := rfl

theorem certG_17 (c : In) (x : GCtx) : certG c 17 x = out0 (serL (extO c x).1) (extO c x).2 := rfl

theorem eku_step (c : In) (x : GCtx) (h : ekuUn c x EKU_MASK = true) (e : UInt16 × Nat)
    (hf : ekuBits.find? (fun e => ekuUn c x e.1) = some e) :
    EPath c x [.eku e.1 e.2] { x with ekuDone := x.ekuDone ||| e.1 } := by
  refine ⟨by unfold un; rw [h]; simp, ?_, ?_, _, ?_, rfl⟩
  · rw [certG_1, if_pos h]; rfl
  · rw [certG_3, if_pos h]; rfl
  · rw [certG_17]
    unfold extO
    rw [if_pos h, hf]
    rfl

theorem eku_path_aux (c : In) : ∀ (suf pre : List (UInt16 × Nat)) (x : GCtx), ekuBits = pre ++ suf →
    (∀ e ∈ pre, ekuUn c x e.1 = false) → (∀ e ∈ suf, (c.keyEku &&& ~~~x.ekuDone) &&& e.1 = c.keyEku &&& e.1) →
    suf.Pairwise (fun a b => b.1 &&& ~~~a.1 = b.1) →
    ∃ d, EPath c x (ekuKinds c suf) { x with ekuDone := d } ∧ ∀ e ∈ ekuBits, ekuUn c { x with ekuDone := d } e.1 = false
  | [], pre, x, htab, hpre, _, _ => by
    refine ⟨x.ekuDone, rfl, ?_⟩
    intro e he
    rw [htab, List.append_nil] at he
    exact hpre e he
  | e :: suf, pre, x, htab, hpre, hsuf, hpw => by
    have hz := hsuf e (List.mem_cons_self ..)
    by_cases he : c.keyEku &&& e.1 = 0
    · have hk : ekuKinds c (e :: suf) = ekuKinds c suf := by
        unfold ekuKinds
        rw [List.filter_cons_of_neg (by simp [he])]
      rw [hk]
      refine eku_path_aux c suf (pre ++ [e]) x (by rw [htab]; simp) ?_ (fun a h => hsuf a (List.mem_cons_of_mem _ h))
        (List.pairwise_cons.mp hpw).2
      intro a h
      rcases List.mem_append.mp h with h | h
      · exact hpre a h
      · rw [List.mem_singleton.mp h]
        unfold ekuUn
        rw [hz, he]
        decide
    · have hk : ekuKinds c (e :: suf) = .eku e.1 e.2 :: ekuKinds c suf := by
        unfold ekuKinds
        rw [List.filter_cons_of_pos (by simp [he])]
        rfl
      have hue : ekuUn c x e.1 = true := by
        unfold ekuUn
        rw [hz]
        simp [he]
      have hfind : ekuBits.find? (fun e => ekuUn c x e.1) = some e := by
        rw [htab, find_suffix _ _ _ hpre, List.find?_cons_of_pos (p := fun e : UInt16 × Nat => ekuUn c x e.1) hue]
      have hmem : e ∈ ekuBits := by rw [htab]; simp
      have hmask : ∀ e ∈ ekuBits, EKU_MASK &&& e.1 = e.1 := by decide
      have hum : ekuUn c x EKU_MASK = true := by
        unfold ekuUn at hue ⊢
        simp only [bne_iff_ne, ne_eq] at hue ⊢
        intro h0
        apply hue
        rw [← hmask e hmem, ← UInt16.and_assoc, h0, UInt16.zero_and]
      have hself : ∀ e ∈ ekuBits, e.1 &&& ~~~e.1 = 0 := by decide
      have hpre' : ∀ a ∈ pre ++ [e], ekuUn c { x with ekuDone := x.ekuDone ||| e.1 } a.1 = false := by
        intro a h
        unfold ekuUn
        dsimp only
        rw [u16_andnot, u16_and_right_comm]
        rcases List.mem_append.mp h with h | h
        · have := hpre a h
          unfold ekuUn at this
          simp only [bne_eq_false_iff_eq] at this
          rw [← UInt16.and_assoc, this, UInt16.zero_and]
          decide
        · rw [List.mem_singleton.mp h, hself e hmem, UInt16.and_zero]
          decide
      have hsuf' : ∀ a ∈ suf, (c.keyEku &&& ~~~(x.ekuDone ||| e.1)) &&& a.1 = c.keyEku &&& a.1 := by
        intro a h
        rw [u16_andnot, u16_and_right_comm, (List.pairwise_cons.mp hpw).1 a h]
        exact hsuf a (List.mem_cons_of_mem _ h)
      obtain ⟨d, h1, h2⟩ := eku_path_aux c suf (pre ++ [e]) { x with ekuDone := x.ekuDone ||| e.1 } (by rw [htab]; simp) hpre' hsuf'
        (List.pairwise_cons.mp hpw).2
      refine ⟨d, ?_, h2⟩
      rw [hk]
      exact (eku_step c x hum e hfind).append h1

theorem eku_path (c : In) (hk : c.keyEku &&& 0xFC05 = 0) (x : GCtx) (hx : x.ekuDone = 0) :
    ∃ d, EPath c x (ekuKinds c ekuBits) { x with ekuDone := d } ∧ ekuUn c { x with ekuDone := d } EKU_MASK = false := by
  obtain ⟨d, h1, h2⟩ := eku_path_aux c ekuBits [] x rfl (by intro _ h; cases h) (by
    intro e _
    rw [hx, show (~~~(0 : UInt16)) = 0xFFFF by decide, UInt16.and_assoc, show ∀ e : UInt16, 0xFFFF &&& e = e by
      intro e
      exact UInt16.neg_one_and]) (by decide)
  refine ⟨d, h1, ?_⟩
  rw [← Bool.not_eq_true]
  intro h
  obtain ⟨e, he⟩ := eku_some c hk { x with ekuDone := d } h
  have := List.find?_some he
  rw [h2 e (List.mem_of_find?_eq_some he)] at this
  cases this

theorem bc_path (c : In) (x : GCtx) (h1 : ekuUn c x EKU_MASK = false) (hx : x.pathDone = 0) :
    EPath c x (if pathlen c != 0 then [.bc] else []) { x with pathDone := pathlen c } := by
  by_cases hp : pathlen c = 0
  · rw [if_neg (by simp [hp]), hp]
    exact (by rw [← hx] : x = { x with pathDone := 0 })
  · rw [if_pos (by simp [hp])]
    have hu : pathUn c x = true := by simp [pathUn, hx, hp]
    refine ⟨by unfold un; rw [hu]; simp, ?_, ?_, _, ?_, rfl⟩
    · rw [certG_1, h1, if_neg (by decide), if_pos hu]; rfl
    · rw [certG_3, h1, if_neg (by decide), if_pos hu]; rfl
    · rw [certG_17]
      unfold extO
      rw [h1, if_neg (by decide), if_pos hu]
      rfl

theorem san_path (c : In) (hdir : c.sanDir = {}) (x : GCtx) (h1 : ekuUn c x EKU_MASK = false) (h2 : pathUn c x = false)
    (hx : x.sanDone = 0) :
    ∃ s, EPath c x (if c.sanDns != [] || c.sanIp != [] then [.san] else []) { x with sanDone := s } ∧
      sanUn c { x with sanDone := s } = false := by
  have hnu : ∀ s, nameUn c.sanDir s = false := by intro s; rw [hdir]; rfl
  by_cases hp : (c.sanDns != [] || c.sanIp != []) = true
  · rw [if_pos hp]
    have hu : sanUn c x = true := by
      unfold sanUn
      rw [hx, hnu]
      simp only [UInt8.zero_and]
      simpa using hp
    refine ⟨(sanCtx c x).sanDone, ⟨by unfold un; rw [hu]; simp, ?_, ?_, _, ?_, rfl⟩, ?_⟩
    · rw [certG_1, h1, if_neg (by decide), h2, if_neg (by decide), if_pos hu]; rfl
    · rw [certG_3, h1, if_neg (by decide), h2, if_neg (by decide), if_pos hu]; rfl
    · rw [certG_17]
      unfold extO
      rw [h1, if_neg (by decide), h2, if_neg (by decide), if_pos hu]
      have hd : dnsBytes c x = c.sanDns := by
        unfold dnsBytes
        rw [hx]
        by_cases hd : c.sanDns = [] <;> simp [hd]
      have hi : ipBytes c x = c.sanIp := by
        unfold ipBytes
        rw [hx]
        by_cases hd : c.sanIp = [] <;> simp [hd]
      show out0 (serL (sanTree c x)) (sanCtx c x) = _
      unfold sanTree
      rw [hd, hi]
      rfl
    · unfold sanUn
      rw [hnu]
      unfold sanCtx
      rw [hx]
      by_cases hd : c.sanDns = [] <;> by_cases hi : c.sanIp = [] <;> simp [hd, hi] <;> decide
  · rw [if_neg hp]
    refine ⟨x.sanDone, rfl, ?_⟩
    unfold sanUn
    rw [hnu]
    simp only [Bool.or_eq_true, not_or, bne_iff_ne, ne_eq, Decidable.not_not] at hp
    simp [hp.1, hp.2]

theorem ku_path (c : In) (x : GCtx) (h1 : ekuUn c x EKU_MASK = false) (h2 : pathUn c x = false) (h3 : sanUn c x = false)
    (hx : x.kuDone = 0) :
    ∃ k, EPath c x (if c.keyUsage &&& KU_MASK != 0 then [.ku] else []) { x with kuDone := k } ∧ kuUn c { x with kuDone := k } = false := by
  have hz : c.keyUsage &&& ~~~(0 : UInt16) = c.keyUsage := by
    rw [show (~~~(0 : UInt16)) = -1 by decide, UInt16.and_neg_one]
  by_cases hp : c.keyUsage &&& KU_MASK = 0
  · rw [if_neg (by simp [hp])]
    refine ⟨x.kuDone, rfl, ?_⟩
    unfold kuUn
    rw [hx, hz, hp]
    decide
  · rw [if_pos (by simp [hp])]
    have hu : kuUn c x = true := by
      unfold kuUn
      rw [hx, hz]
      simp [hp]
    refine ⟨c.keyUsage, ⟨by unfold un; rw [hu]; simp, ?_, ?_, _, ?_, rfl⟩, ?_⟩
    · rw [certG_1, h1, if_neg (by decide), h2, if_neg (by decide), h3, if_neg (by decide), if_pos hu]; rfl
    · rw [certG_3, h1, if_neg (by decide), h2, if_neg (by decide), h3, if_neg (by decide), if_pos hu]; rfl
    · rw [certG_17]
      unfold extO
      rw [h1, if_neg (by decide), h2, if_neg (by decide), h3, if_neg (by decide), if_pos hu]
      rfl
    · unfold kuUn
      dsimp only
      rw [UInt16.and_not_self, UInt16.zero_and]
      decide

theorem skid_path (c : In) (x : GCtx) (h1 : ekuUn c x EKU_MASK = false) (h2 : pathUn c x = false) (h3 : sanUn c x = false)
    (h4 : kuUn c x = false) (hx : x.skidDone = false) : EPath c x [.skid] { x with skidDone := true } := by
  have hu : (!x.skidDone) = true := by rw [hx]; rfl
  refine ⟨by unfold un; rw [hu]; simp, ?_, ?_, _, ?_, rfl⟩
  · rw [certG_1, h1, if_neg (by decide), h2, if_neg (by decide), h3, if_neg (by decide), h4, if_neg (by decide), if_pos hu]; rfl
  · rw [certG_3, h1, if_neg (by decide), h2, if_neg (by decide), h3, if_neg (by decide), h4, if_neg (by decide)]; rfl
  · rw [certG_17]
    unfold extO
    rw [h1, if_neg (by decide), h2, if_neg (by decide), h3, if_neg (by decide), h4, if_neg (by decide), if_pos hu]
    rfl

theorem akid_path (c : In) (x : GCtx) (h1 : ekuUn c x EKU_MASK = false) (h2 : pathUn c x = false) (h3 : sanUn c x = false)
    (h4 : kuUn c x = false) (h5 : x.skidDone = true) (hx : x.akidDone = false) :
    ∃ b, EPath c x (if c.akid != [] then [.akid] else []) { x with akidDone := b } ∧ akidUn c { x with akidDone := b } = false := by
  have hs : (!x.skidDone) = false := by rw [h5]; rfl
  by_cases hp : c.akid = []
  · rw [if_neg (by simp [hp])]
    refine ⟨x.akidDone, rfl, ?_⟩
    simp [akidUn, hp]
  · rw [if_pos (by simp [hp])]
    have hu : akidUn c x = true := by simp [akidUn, hp, hx]
    refine ⟨true, ⟨by unfold un; rw [hu]; simp, ?_, ?_, _, ?_, rfl⟩, by simp [akidUn]⟩
    · rw [certG_1, h1, if_neg (by decide), h2, if_neg (by decide), h3, if_neg (by decide), h4, if_neg (by decide), hs,
        if_neg (by decide), if_pos hu]; rfl
    · rw [certG_3, h1, if_neg (by decide), h2, if_neg (by decide), h3, if_neg (by decide), h4, if_neg (by decide)]; rfl
    · rw [certG_17]
      unfold extO
      rw [h1, if_neg (by decide), h2, if_neg (by decide), h3, if_neg (by decide), h4, if_neg (by decide), hs, if_neg (by decide),
        if_pos hu]
      rfl

/-- The context before the extensions. -/
structure Virgin (x : GCtx) : Prop where
  eku : x.ekuDone = 0
  path : x.pathDone = 0
  san : x.sanDone = 0
  ku : x.kuDone = 0
  skid : x.skidDone = false
  akid : x.akidDone = false

theorem kinds_run (c : In) (hdir : c.sanDir = {}) (hk : c.keyEku &&& 0xFC05 = 0) (hs : skidBytes c ≠ []) (x : GCtx) (hx : Virgin x) :
    ∃ x', ExtRun (certG c) x ((kinds c).map (xitem c)) x' ∧ x'.algoSet = x.algoSet := by
  obtain ⟨d, a1, u1⟩ := eku_path c hk x hx.eku
  have a2 := bc_path c { x with ekuDone := d } u1 hx.path
  have u2 : pathUn c { x with ekuDone := d, pathDone := pathlen c } = false := by simp [pathUn]
  obtain ⟨s, a3, u3⟩ := san_path c hdir { x with ekuDone := d, pathDone := pathlen c } u1 u2 hx.san
  obtain ⟨k, a4, u4⟩ := ku_path c { x with ekuDone := d, pathDone := pathlen c, sanDone := s } u1 u2 u3 hx.ku
  have a5 := skid_path c { x with ekuDone := d, pathDone := pathlen c, sanDone := s, kuDone := k } u1 u2 u3 u4 hx.skid
  obtain ⟨b, a6, u6⟩ := akid_path c { x with ekuDone := d, pathDone := pathlen c, sanDone := s, kuDone := k, skidDone := true }
    u1 u2 u3 u4 rfl hx.akid
  have ha := a1.append (a2.append (a3.append (a4.append (a5.append a6))))
  refine ⟨_, ha.run hs ?_ ?_, rfl⟩
  · unfold un
    have e1 : ekuUn c { x with ekuDone := d, pathDone := pathlen c, sanDone := s, kuDone := k, skidDone := true, akidDone := b }
      EKU_MASK = false := u1
    have e2 : pathUn c { x with ekuDone := d, pathDone := pathlen c, sanDone := s, kuDone := k, skidDone := true, akidDone := b }
      = false := u2
    have e3 : sanUn c { x with ekuDone := d, pathDone := pathlen c, sanDone := s, kuDone := k, skidDone := true, akidDone := b }
      = false := u3
    have e4 : kuUn c { x with ekuDone := d, pathDone := pathlen c, sanDone := s, kuDone := k, skidDone := true, akidDone := b }
      = false := u4
    rw [e1, e2, e3, e4, u6]
    rfl
  · simp [ekuKinds]

end LC.Crt
