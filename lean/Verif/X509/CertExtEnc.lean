import Verif.Asn1.Reach
import Verif.X509.CertModel
/-
What the nested encoders of the certificate generator write, as trees.
-/
namespace LC.Crt
open LC.Asn1 LC.Asn1.Enc LC.Asn1.Gen LC.Asn1.Tr
open LC.Oid (oidData)

theorem GTo.halt {σ : Type} {d : Decoder} {act : GAct σ} {a b : GS σ} (h : GTo d act a b) (hb : gstep d act b = .halt 0 b) :
    ∃ k, grun d act k a = .halt 0 b := by
  obtain ⟨k, h⟩ := h
  refine ⟨k + 1, ?_⟩
  rw [grun_add d act k 1 a b h]
  unfold grun
  rw [hb]

def outT (v : Nat × Bytes × GCtx) : AOut GCtx := { ret := v.1, bytes := v.2.1, ctx := v.2.2 }

def gactS (f : Nat → Simple) : GAct GCtx := fun i x =>
  match f i x with
  | .ok v => some (outT v)
  | .error _ => none

theorem simple_ok {f : Simple} {x : GCtx} {avail : Nat} {o : AOut GCtx} (h : simple f x avail = .ok o) :
    ∃ v, f x = .ok v ∧ o = outT v := by
  unfold simple at h
  match hf : f x with
  | .error e => rw [hf] at h; cases h
  | .ok (r, b, x') =>
    rw [hf] at h
    dsimp only at h
    by_cases hl : avail < b.length
    · rw [if_pos hl] at h; cases h
    · rw [if_neg hl] at h
      cases h
      exact ⟨_, rfl, rfl⟩

theorem simple_err {f : Simple} (hneg : ∀ x e, f x = .error e → e < 0) {x : GCtx} {avail : Nat} {e : Int}
    (h : simple f x avail = .error e) : e < 0 := by
  unfold simple at h
  match hf : f x with
  | .error e' => rw [hf] at h; cases h; exact hneg x e hf
  | .ok (r, b, x') =>
    rw [hf] at h
    dsimp only at h
    by_cases hl : avail < b.length
    · rw [if_pos hl] at h; cases h; decide
    · rw [if_neg hl] at h; cases h

theorem agreeS (d : Decoder) (f : Nat → Simple) (hneg : ∀ i x e, f i x = .error e → e < 0) :
    Agree ⟨d, fun i => simple (f i)⟩ (gactS f) where
  ok := by
    intro i x avail o h
    obtain ⟨v, h1, h2⟩ := simple_ok h
    unfold gactS
    rw [h1, h2]
  err := by
    intro i x avail r h
    exact simple_err (hneg i) h

theorem nested_ok (d : Decoder) (f : Nat → Simple) (hneg : ∀ i x e, f i x = .error e → e < 0) (cfg : Cfg) (n : Nat) (x : GCtx)
    (avail : Nat) (o : AOut GCtx) (h : nested d f cfg n x avail = .ok o) (b : GS GCtx)
    (hb : ∃ k, grun d (gactS f) k { ctx := x } = .halt 0 b) :
    o = { bytes := serL b.out, ctx := b.ctx } ∧ WFL b.out ∧ (serL b.out).length ≤ cfg.maxStack := by
  obtain ⟨k, hb⟩ := hb
  unfold nested at h
  match he : encode ⟨d, fun i => simple (f i)⟩ cfg x avail n with
  | .next s => rw [he] at h; cases h
  | .fault => rw [he] at h; cases h
  | .halt r s =>
    rw [he] at h
    dsimp only at h
    by_cases hr : r < 0
    · rw [if_pos hr] at h; cases h
    · rw [if_neg hr] at h
      cases h
      obtain ⟨_, h1, h2, h3, h4⟩ := encode_tot _ cfg _ (agreeS d f hneg) x avail n r s he hr k b hb
      rw [h1] at h4
      exact ⟨by rw [h1, h2], h3, h4⟩

/-- The nested encoder fails if the abstract machine does. -/
theorem nested_err (d : Decoder) (f : Nat → Simple) (hneg : ∀ i x e, f i x = .error e → e < 0) (cfg : Cfg) (n : Nat) (x : GCtx)
    (avail : Nat) (o : AOut GCtx) (h : nested d f cfg n x avail = .ok o) (k : Nat)
    (hb : grun d (gactS f) k { ctx := x } = .err) : False := by
  unfold nested at h
  match he : encode ⟨d, fun i => simple (f i)⟩ cfg x avail n with
  | .next s => rw [he] at h; cases h
  | .fault => rw [he] at h; cases h
  | .halt r s =>
    rw [he] at h
    dsimp only at h
    by_cases hr : r < 0
    · rw [if_pos hr] at h; cases h
    · have hh := grun_sim ⟨d, fun i => simple (f i)⟩ cfg _ (agreeS d f hneg) (min cfg.maxStack avail) n { ctx := x } { ctx := x }
        ⟨rfl, rfl, rfl, rfl, rfl, rfl, rfl, rfl, ⟨_, [], rfl, rfl, rfl, rfl⟩, ⟨trivial, by intro _ hb; cases hb⟩, Nat.zero_le _⟩
      unfold encode at he
      rw [he] at hh
      rcases grun_fix d (gactS f) k _ _ hb (by intro _ he; cases he) n with h1 | ⟨b', h1⟩
      · rw [h1] at hh
        rcases hh with ⟨c', s', h2, h3⟩ | h2
        · cases h2; exact hr h3
        · cases h2
      · rw [h1] at hh
        rcases hh with ⟨s', h2, _⟩ | ⟨c', s', h2, h3⟩ | h2
        · cases h2
        · cases h2; exact hr h3
        · cases h2

theorem nested_neg (d : Decoder) (f : Nat → Simple) (cfg : Cfg) (n : Nat) (x : GCtx)
    (avail : Nat) (e : Int) (h : nested d f cfg n x avail = .error e) : e < 0 := by
  unfold nested at h
  match he : encode ⟨d, fun i => simple (f i)⟩ cfg x avail n with
  | .next s => rw [he] at h; cases h; decide
  | .fault => rw [he] at h; cases h; decide
  | .halt r s =>
    rw [he] at h
    dsimp only at h
    by_cases hr : r < 0
    · rw [if_pos hr] at h; cases h; exact hr
    · rw [if_neg hr] at h; cases h

/-! ### Extended key usage -/

theorem eku_neg (c : In) : ∀ i x e, ekuActs c i x = .error e → e < 0 := by
  intro i x e h
  unfold ekuActs ekuEnc at h
  repeat' split at h
  all_goals first | (cases h; done) | (cases h; decide)

theorem eku_run (c : In) (x x' : GCtx) (y : UInt8) (ys : Bytes) (h : ekuEnc c x = .ok (0, y :: ys, x')) :
    ∃ k, grun x509_eku (gactS (ekuActs c)) k { ctx := x } =
      .halt 0 { pc := 7, tag := some 0x30, out := [.node 0x30 [.leaf 6 (y :: ys)]], ctx := x' } := by
  refine GTo.halt ?_ rfl
  have ho : gactS (ekuActs c) 0 x = some ⟨0, y :: ys, none, x'⟩ := by unfold gactS ekuActs; rw [h]; rfl
  generalize gactS (ekuActs c) = act at ho
  refine (GTo.run 1 (b := { pc := 2, lv := [⟨some 0x30, []⟩], ctx := x }) rfl).trans ?_
  refine (GTo.step (b := { pc := 5, tag := some 6, lv := [⟨some 0x30, [.leaf 6 (y :: ys)]⟩], ctx := x' })
    ((gstep_leaf _ _ _ rfl rfl rfl rfl rfl ho).trans rfl)).trans ?_
  exact GTo.run 1 rfl

/-! ### Basic constraints -/

theorem bc_neg (c : In) : ∀ i x e, bcActs c i x = .error e → e < 0 := by
  intro i x e h
  unfold bcActs at h
  by_cases hi : i = 0
  · rw [if_pos hi] at h
    unfold bcCaEnc at h
    by_cases hp : pathUn c x = true
    · rw [if_pos hp] at h; cases h
    · rw [if_neg hp] at h; cases h
  · rw [if_neg hi] at h
    unfold bcPathEnc at h
    by_cases hp : pathUn c x = true
    · rw [if_pos hp] at h; cases h
    · rw [if_neg hp] at h; cases h

def bcTree (c : In) : List Tree :=
  [.node 0x30 (.leaf 1 [if pathlen c != 0 then 0xff else 0] :: (if pathlen c != 16 then [.leaf 2 [pathlen c]] else []))]

theorem bc_run (c : In) (x : GCtx) (h : pathUn c x = true) :
    ∃ b, (∃ k, grun x509_basic_constraints (gactS (bcActs c)) k { ctx := x } = .halt 0 b) ∧ b.out = bcTree c ∧
      b.ctx = { x with pathDone := pathlen c } := by
  unfold bcTree
  have h0 : gactS (bcActs c) 0 x = some ⟨0, [if pathlen c != 0 then 0xff else 0], none, { x with pathDone := 16 }⟩ := by
    unfold gactS bcActs
    rw [if_pos rfl]
    unfold bcCaEnc
    rw [if_pos h]
    rfl
  generalize hca : (if pathlen c != 0 then (0xff : UInt8) else 0) = ca at h0
  by_cases hp : pathlen c = 16
  · have h1 : gactS (bcActs c) 1 { x with pathDone := 16 } = some ⟨0, [], none, { x with pathDone := 16 }⟩ := by
      unfold gactS bcActs
      rw [if_neg (by decide)]
      unfold bcPathEnc
      rw [if_neg (by simp [pathUn, hp])]
      rfl
    refine ⟨_, GTo.halt (b := { pc := 9, tag := some 0x30, out := [.node 0x30 [.leaf 1 [ca]]], ctx := { x with pathDone := 16 } }) ?_ rfl, by simp [hp], by rw [hp]⟩
    generalize gactS (bcActs c) = act at h0 h1
    refine (GTo.run 1 (b := { pc := 2, lv := [⟨some 0x30, []⟩], ctx := x }) rfl).trans ?_
    refine (GTo.step (b := { pc := 5, tag := some 1, lv := [⟨some 0x30, [.leaf 1 [ca]]⟩], ctx := { x with pathDone := 16 } })
      ((gstep_leaf _ _ _ rfl rfl rfl rfl rfl h0).trans rfl)).trans ?_
    refine (GTo.step (b := { pc := 8, tag := some 2, lv := [⟨some 0x30, [.leaf 1 [ca]]⟩], ctx := { x with pathDone := 16 } })
      ((gstep_leaf _ _ _ rfl rfl rfl rfl rfl h1).trans rfl)).trans ?_
    exact GTo.run 1 rfl
  · have h1 : gactS (bcActs c) 1 { x with pathDone := 16 } = some ⟨0, [pathlen c], none, { x with pathDone := pathlen c }⟩ := by
      unfold gactS bcActs
      rw [if_neg (by decide)]
      unfold bcPathEnc
      rw [if_pos (by simp [pathUn, hp])]
      rfl
    refine ⟨_, GTo.halt (b := { pc := 9, tag := some 0x30, out := [.node 0x30 [.leaf 1 [ca], .leaf 2 [pathlen c]]], ctx := { x with pathDone := pathlen c } }) ?_ rfl, by simp [hp], rfl⟩
    generalize gactS (bcActs c) = act at h0 h1
    generalize pathlen c = p at *
    refine (GTo.run 1 (b := { pc := 2, lv := [⟨some 0x30, []⟩], ctx := x }) rfl).trans ?_
    refine (GTo.step (b := { pc := 5, tag := some 1, lv := [⟨some 0x30, [.leaf 1 [ca]]⟩], ctx := { x with pathDone := 16 } })
      ((gstep_leaf _ _ _ rfl rfl rfl rfl rfl h0).trans rfl)).trans ?_
    refine (GTo.step (b := { pc := 8, tag := some 2, lv := [⟨some 0x30, [.leaf 1 [ca], .leaf 2 [p]]⟩], ctx := { x with pathDone := p } })
      ((gstep_leaf _ _ _ rfl rfl rfl rfl rfl h1).trans rfl)).trans ?_
    exact GTo.run 1 rfl

/-! ### Key usage, subject key identifier -/

theorem ku_neg (c : In) : ∀ i x e, kuActs c i x = .error e → e < 0 := by
  intro i x e h
  cases h

def kuBytes (c : In) : Bytes := [((c.keyUsage &&& KU_MASK) >>> 8).toUInt8, (c.keyUsage &&& KU_MASK).toUInt8]

theorem ku_run (c : In) (x : GCtx) :
    ∃ k, grun x509_keyusage (gactS (kuActs c)) k { ctx := x } =
      .halt 0 { pc := 3, tag := some 3, out := [.leaf 3 (kuBytes c)], ctx := { x with kuDone := c.keyUsage } } := by
  refine GTo.halt ?_ rfl
  have ho : gactS (kuActs c) 0 x = some ⟨0, kuBytes c, none, { x with kuDone := c.keyUsage }⟩ := rfl
  generalize gactS (kuActs c) = act at ho
  unfold kuBytes at ho ⊢
  exact GTo.step ((gstep_leaf _ _ _ rfl rfl rfl rfl rfl ho).trans rfl)

theorem skid_neg (c : In) : ∀ i x e, skidActs c i x = .error e → e < 0 := by
  intro i x e h
  cases h

def skidBytes (c : In) : Bytes := if c.skid != [] then c.skid else c.gen.digest

def skidTree (c : In) : List Tree := if skidBytes c = [] then [] else [.leaf 4 (skidBytes c)]

theorem skid_run (c : In) (x : GCtx) :
    ∃ k, grun x509_skid (gactS (skidActs c)) k { ctx := x } =
      .halt 0 { pc := 3, tag := some 4, out := skidTree c, ctx := { x with skidDone := true } } := by
  refine GTo.halt ?_ rfl
  have ho : gactS (skidActs c) 0 x = some ⟨0, skidBytes c, none, { x with skidDone := true }⟩ := rfl
  generalize gactS (skidActs c) = act at ho
  unfold skidTree
  match hb : skidBytes c with
  | [] =>
    rw [hb] at ho
    exact GTo.step ((gstep_leaf _ _ _ rfl rfl rfl rfl rfl ho).trans rfl)
  | y :: ys =>
    rw [hb] at ho
    exact GTo.step ((gstep_leaf _ _ _ rfl rfl rfl rfl rfl ho).trans rfl)

/-! ### Subject alternative name -/

theorem san_neg (c : In) : ∀ i x e, sanActs c i x = .error e → e < 0 := by
  intro i x e h
  unfold sanActs at h
  by_cases h0 : i = 0
  · rw [if_pos h0] at h; cases h
  · rw [if_neg h0] at h
    by_cases h1 : i = 1
    · rw [if_pos h1] at h; cases h
    · rw [if_neg h1] at h
      by_cases h2 : i = 2
      · rw [if_pos h2] at h
        unfold sanDnsEnc at h
        by_cases hp : (c.sanDns != [] && x.sanDone &&& 64 == 0) = true
        · rw [if_pos hp] at h; cases h
        · rw [if_neg hp] at h; cases h
      · rw [if_neg h2] at h
        unfold sanIpEnc at h
        by_cases hp : (c.sanIp != [] && x.sanDone &&& 128 == 0) = true
        · rw [if_pos hp] at h; cases h
        · rw [if_neg hp] at h; cases h

def optLeaf (t : UInt8) (b : Bytes) : List Tree := if b = [] then [] else [.leaf t b]

/-- The bytecode of the subject alternative name for actions that write a DNS name, an address, no directory name. -/
theorem san_walk (act : GAct GCtx) (x x2 x3 : GCtx) (b2 b3 : Bytes) (h0 : ∀ x, act 0 x = some ⟨0, [], none, x⟩)
    (h1 : ∀ x, act 1 x = some ⟨0, [], none, x⟩) (h2 : act 2 x = some ⟨0, b2, none, x2⟩) (h3 : act 3 x2 = some ⟨0, b3, none, x3⟩)
    (hne : b2 ≠ [] ∨ b3 ≠ []) :
    ∃ b, (∃ k, grun x509_san act k { ctx := x } = .halt 0 b) ∧
      b.out = [.node 0x30 (optLeaf 0x82 b2 ++ optLeaf 0x87 b3)] ∧ b.ctx = x3 := by
  have start : GTo x509_san act { ctx := x } { pc := 7, tag := some 129, lv := [⟨some 0x30, []⟩], matched := true, ctx := x } :=
    GTo.run 9 rfl
  match b2 with
  | y :: ys =>
    have s2 : GTo x509_san act { ctx := x }
        { pc := 21, tag := some 134, lv := [⟨some 0x30, [.leaf 0x82 (y :: ys)]⟩], matched := true, last := true, ctx := x2 } := by
      refine start.trans ?_
      refine (GTo.step (b := { pc := 10, tag := some 130, lv := [⟨some 0x30, [.leaf 0x82 (y :: ys)]⟩], matched := true, ctx := x2 })
        ((gstep_leaf _ _ _ rfl rfl rfl rfl rfl h2).trans rfl)).trans ?_
      exact GTo.run 16 rfl
    match b3 with
    | z :: zs =>
      refine ⟨{ pc := 29, tag := some 0x30, matched := true, last := true,
                out := [.node 0x30 [.leaf 0x82 (y :: ys), .leaf 0x87 (z :: zs)]], ctx := x3 }, GTo.halt (s2.trans ?_) rfl, rfl, rfl⟩
      refine (GTo.step (b := { pc := 24, tag := some 135, lv := [⟨some 0x30, [.leaf 0x82 (y :: ys), .leaf 0x87 (z :: zs)]⟩],
                               matched := true, last := true, ctx := x3 })
        ((gstep_leaf _ _ _ rfl rfl rfl rfl rfl h3).trans rfl)).trans ?_
      exact GTo.run 3 rfl
    | [] =>
      refine ⟨{ pc := 29, tag := some 0x30, matched := true, last := true,
                out := [.node 0x30 [.leaf 0x82 (y :: ys)]], ctx := x3 }, GTo.halt (s2.trans ?_) rfl, rfl, rfl⟩
      refine (GTo.step (b := { pc := 24, tag := some 135, lv := [⟨some 0x30, [.leaf 0x82 (y :: ys)]⟩],
                               matched := true, last := true, ctx := x3 })
        ((gstep_leaf _ _ _ rfl rfl rfl rfl rfl h3).trans rfl)).trans ?_
      exact GTo.run 3 rfl
  | [] =>
    have s2 : GTo x509_san act { ctx := x } { pc := 21, tag := some 134, lv := [⟨some 0x30, []⟩], matched := true, ctx := x2 } := by
      refine start.trans ?_
      refine (GTo.step (b := { pc := 10, tag := some 130, lv := [⟨some 0x30, []⟩], matched := true, ctx := x2 })
        ((gstep_leaf _ _ _ rfl rfl rfl rfl rfl h2).trans rfl)).trans ?_
      refine (GTo.run 8 (b := { pc := 47, lv := [⟨some 48, []⟩, ⟨some 49, []⟩, ⟨some 48, []⟩, ⟨some 164, []⟩, ⟨some 48, []⟩],
                                jstk := [16], matched := true, ctx := x2 }) rfl).trans ?_
      refine (GTo.step (b := { pc := 50, tag := some 6, lv := [⟨some 48, []⟩, ⟨some 49, []⟩, ⟨some 48, []⟩, ⟨some 164, []⟩, ⟨some 48, []⟩],
                               jstk := [16], matched := true, ctx := x2 })
        ((gstep_leaf _ _ _ rfl rfl rfl rfl rfl (h1 x2)).trans rfl)).trans ?_
      refine (GTo.step (b := { pc := 52, tag := some 0, lv := [⟨some 48, []⟩, ⟨some 49, []⟩, ⟨some 48, []⟩, ⟨some 164, []⟩, ⟨some 48, []⟩],
                               jstk := [16], matched := true, ctx := x2 })
        ((gstep_any _ _ _ rfl rfl rfl rfl (h0 x2)).trans rfl)).trans ?_
      exact GTo.run 16 rfl
    match b3 with
    | z :: zs =>
      refine ⟨{ pc := 29, tag := some 0x30, matched := true, out := [.node 0x30 [.leaf 0x87 (z :: zs)]], ctx := x3 },
        GTo.halt (s2.trans ?_) rfl, rfl, rfl⟩
      refine (GTo.step (b := { pc := 24, tag := some 135, lv := [⟨some 0x30, [.leaf 0x87 (z :: zs)]⟩], matched := true, ctx := x3 })
        ((gstep_leaf _ _ _ rfl rfl rfl rfl rfl h3).trans rfl)).trans ?_
      exact GTo.run 3 rfl
    | [] => rcases hne with h | h <;> exact absurd rfl h

def dnsBytes (c : In) (x : GCtx) : Bytes := if c.sanDns != [] && x.sanDone &&& 64 == 0 then c.sanDns else []
def ipBytes (c : In) (x : GCtx) : Bytes := if c.sanIp != [] && x.sanDone &&& 128 == 0 then c.sanIp else []
def sanCtx (c : In) (x : GCtx) : GCtx :=
  { x with sanDone := (x.sanDone ||| (if c.sanDns != [] && x.sanDone &&& 64 == 0 then 64 else 0)) |||
                      (if c.sanIp != [] && x.sanDone &&& 128 == 0 then 128 else 0) }
def sanTree (c : In) (x : GCtx) : List Tree := [.node 0x30 (optLeaf 0x82 (dnsBytes c x) ++ optLeaf 0x87 (ipBytes c x))]

theorem san_bit (s : UInt8) : (s ||| 64) &&& 128 = s &&& 128 := by
  apply UInt8.toBitVec_inj.mp
  simp only [UInt8.toBitVec_and, UInt8.toBitVec_or]
  generalize s.toBitVec = v
  revert v
  decide +kernel

theorem nameSeg_empty (s : UInt8) : nameSeg {} s = ([], s) := rfl
theorem nameOid_empty (s : UInt8) : nameOid {} s = [] := rfl
theorem nameUn_empty (s : UInt8) : nameUn {} s = false := rfl

theorem u8_or_zero (s : UInt8) : s ||| 0 = s := by simp

theorem san_run (c : In) (hdir : c.sanDir = {}) (x : GCtx) (h : sanUn c x = true) :
    ∃ b, (∃ k, grun x509_san (gactS (sanActs c)) k { ctx := x } = .halt 0 b) ∧ b.out = sanTree c x ∧ b.ctx = sanCtx c x := by
  have a0 : ∀ x, gactS (sanActs c) 0 x = some ⟨0, [], none, x⟩ := by
    intro x
    show some (outT (0, (nameSeg c.sanDir x.sanDone).1, { x with sanDone := (nameSeg c.sanDir x.sanDone).2 })) = _
    rw [hdir, nameSeg_empty]
    rfl
  have a1 : ∀ x, gactS (sanActs c) 1 x = some ⟨0, [], none, x⟩ := by
    intro x
    show some (outT (0, nameOid c.sanDir x.sanDone, x)) = _
    rw [hdir, nameOid_empty]
    rfl
  have hne : dnsBytes c x ≠ [] ∨ ipBytes c x ≠ [] := by
    unfold sanUn at h
    rw [hdir, nameUn_empty, Bool.or_false, Bool.or_eq_true] at h
    rcases h with h | h
    · left
      unfold dnsBytes
      rw [if_pos h]
      simp only [Bool.and_eq_true, bne_iff_ne] at h
      exact h.1
    · right
      unfold ipBytes
      rw [if_pos h]
      simp only [Bool.and_eq_true, bne_iff_ne] at h
      exact h.1
  have a2 : gactS (sanActs c) 2 x = some ⟨0, dnsBytes c x, none,
      { x with sanDone := x.sanDone ||| (if c.sanDns != [] && x.sanDone &&& 64 == 0 then 64 else 0) }⟩ := by
    unfold gactS sanActs
    rw [if_neg (by decide), if_neg (by decide), if_pos rfl]
    unfold sanDnsEnc dnsBytes
    by_cases hp : (c.sanDns != [] && x.sanDone &&& 64 == 0) = true
    · rw [if_pos hp, if_pos hp, if_pos hp]; rfl
    · rw [if_neg hp, if_neg hp, if_neg hp, u8_or_zero]; rfl
  have a3 : gactS (sanActs c) 3 { x with sanDone := x.sanDone ||| (if c.sanDns != [] && x.sanDone &&& 64 == 0 then 64 else 0) } =
      some ⟨0, ipBytes c x, none, sanCtx c x⟩ := by
    unfold gactS sanActs
    rw [if_neg (by decide), if_neg (by decide), if_neg (by decide)]
    have hs : (x.sanDone ||| (if c.sanDns != [] && x.sanDone &&& 64 == 0 then 64 else 0)) &&& 128 = x.sanDone &&& 128 := by
      by_cases hp : (c.sanDns != [] && x.sanDone &&& 64 == 0) = true
      · rw [if_pos hp, san_bit]
      · rw [if_neg hp, u8_or_zero]
    unfold sanIpEnc ipBytes sanCtx
    dsimp only
    rw [hs]
    by_cases hp : (c.sanIp != [] && x.sanDone &&& 128 == 0) = true
    · rw [if_pos hp, if_pos hp, if_pos hp]; rfl
    · rw [if_neg hp, if_neg hp, if_neg hp, u8_or_zero]; rfl
  exact san_walk _ x _ _ _ _ a0 a1 a2 a3 hne

/-! ### Authority key identifier -/

theorem akid_neg (c : In) : ∀ i x e, akidActs c i x = .error e → e < 0 := by
  intro i x e h
  unfold akidActs at h
  by_cases h0 : i = 1
  · rw [if_pos h0] at h; cases h
  · rw [if_neg h0] at h
    by_cases h1 : i = 4
    · rw [if_pos h1] at h; cases h
    · rw [if_neg h1] at h; cases h

theorem akid_walk (act : GAct GCtx) (x x1 : GCtx) (y : UInt8) (ys : Bytes) (h0 : ∀ x, act 0 x = some ⟨0, [], none, x⟩)
    (h1 : act 1 x = some ⟨0, y :: ys, none, x1⟩) (h2 : ∀ x, act 2 x = some ⟨0, [], none, x⟩)
    (h3 : ∀ x, act 3 x = some ⟨0, [], none, x⟩) (h4 : ∀ x, act 4 x = some ⟨0, [], none, x⟩) :
    ∃ b, (∃ k, grun x509_akid act k { ctx := x } = .halt 0 b) ∧ b.out = [.node 0x30 [.leaf 0x80 (y :: ys)]] ∧ b.ctx = x1 := by
  refine ⟨{ pc := 12, tag := some 0x30, matched := true, last := true, out := [.node 0x30 [.leaf 0x80 (y :: ys)]], ctx := x1 },
    GTo.halt ?_ rfl, rfl, rfl⟩
  refine (GTo.run 1 (b := { pc := 2, lv := [⟨some 0x30, []⟩], ctx := x }) rfl).trans ?_
  refine (GTo.step (b := { pc := 5, tag := some 128, lv := [⟨some 0x30, [.leaf 0x80 (y :: ys)]⟩], ctx := x1 })
    ((gstep_leaf _ _ _ rfl rfl rfl rfl rfl h1).trans rfl)).trans ?_
  generalize hl : (⟨some 0x30, [.leaf 0x80 (y :: ys)]⟩ : GL) = lv0
  refine (GTo.run 18 (b := { pc := 56, lv := [⟨some 48, []⟩, ⟨some 49, []⟩, ⟨some 48, []⟩, ⟨some 164, []⟩, ⟨some 161, []⟩, lv0],
                             jstk := [26, 8], matched := true, ctx := x1 }) rfl).trans ?_
  refine (GTo.step (b := { pc := 59, tag := some 6, lv := [⟨some 48, []⟩, ⟨some 49, []⟩, ⟨some 48, []⟩, ⟨some 164, []⟩, ⟨some 161, []⟩, lv0],
                           jstk := [26, 8], matched := true, ctx := x1 })
    ((gstep_leaf _ _ _ rfl rfl rfl rfl rfl (h0 x1)).trans rfl)).trans ?_
  refine (GTo.step (b := { pc := 61, tag := some 4, lv := [⟨some 48, []⟩, ⟨some 49, []⟩, ⟨some 48, []⟩, ⟨some 164, []⟩, ⟨some 161, []⟩, lv0],
                           jstk := [26, 8], matched := true, ctx := x1 })
    ((gstep_any _ _ _ rfl rfl rfl rfl (h4 x1)).trans rfl)).trans ?_
  refine (GTo.run 3 (b := { pc := 66, tag := some 48, lv := [⟨some 164, []⟩, ⟨some 161, []⟩, lv0],
                            jstk := [26, 8], matched := true, ctx := x1 }) rfl).trans ?_
  refine (GTo.step (b := { pc := 68, tag := some 48, lv := [⟨some 164, []⟩, ⟨some 161, []⟩, lv0],
                           jstk := [26, 8], matched := true, ctx := x1 })
    ((gstep_act _ _ _ rfl (show 66 + 2 ≤ x509_akid.machine.length by decide) rfl (h2 x1)).trans rfl)).trans ?_
  refine (GTo.run 17 (b := { pc := 38, tag := some 161, lv := [lv0], jstk := [8], matched := true, ctx := x1 }) rfl).trans ?_
  subst hl
  refine (GTo.run 1 (b := { pc := 8, tag := some 161, lv := [⟨some 0x30, [.leaf 0x80 (y :: ys)]⟩], matched := true, last := true,
                            ctx := x1 }) rfl).trans ?_
  refine (GTo.step (b := { pc := 11, tag := some 130, lv := [⟨some 0x30, [.leaf 0x80 (y :: ys)]⟩], matched := true, last := true,
                           ctx := x1 })
    ((gstep_leaf _ _ _ rfl rfl rfl rfl rfl (h3 x1)).trans rfl)).trans ?_
  exact GTo.run 1 rfl

theorem akid_run (c : In) (hdir : c.sanDir = {}) (x : GCtx) (h : c.akid ≠ []) :
    ∃ b, (∃ k, grun x509_akid (gactS (akidActs c)) k { ctx := x } = .halt 0 b) ∧ b.out = [.node 0x30 [.leaf 0x80 c.akid]] ∧
      b.ctx = { x with akidDone := true } := by
  obtain ⟨y, ys, hy⟩ := List.exists_cons_of_ne_nil h
  rw [hy]
  refine akid_walk _ x _ y ys (fun x => rfl) ?_ (fun x => rfl) (fun x => rfl) ?_
  · show some (outT (0, c.akid, { x with akidDone := true })) = _
    rw [hy]
    rfl
  · intro x
    show some (outT (0, (nameSeg c.sanDir x.sanDone).1, { x with sanDone := (nameSeg c.sanDir x.sanDone).2 })) = _
    rw [hdir, nameSeg_empty]
    rfl

/-! ### Composite public key -/

theorem comp_neg (c : In) : ∀ i x e, compositeActs c i x = .error e → e < 0 := by
  intro i x e h
  cases h

theorem comp_walk (act : GAct GCtx) (x : GCtx) (y z : UInt8) (ys zs : Bytes) (h1 : act 1 x = some ⟨0, y :: ys, none, x⟩)
    (h0 : act 0 x = some ⟨0, z :: zs, none, x⟩) :
    ∃ b, (∃ k, grun x509_composite_mldsa_pubkey act k { ctx := x } = .halt 0 b) ∧
      b.out = [.node 0x30 [.leaf 3 (y :: ys), .leaf 3 (z :: zs)]] ∧ b.ctx = x := by
  refine ⟨{ pc := 9, tag := some 0x30, out := [.node 0x30 [.leaf 3 (y :: ys), .leaf 3 (z :: zs)]], ctx := x }, GTo.halt ?_ rfl, rfl, rfl⟩
  refine (GTo.run 1 (b := { pc := 2, lv := [⟨some 0x30, []⟩], ctx := x }) rfl).trans ?_
  refine (GTo.step (b := { pc := 5, tag := some 3, lv := [⟨some 0x30, [.leaf 3 (y :: ys)]⟩], ctx := x })
    ((gstep_leaf _ _ _ rfl rfl rfl rfl rfl h1).trans rfl)).trans ?_
  refine (GTo.step (b := { pc := 8, tag := some 3, lv := [⟨some 0x30, [.leaf 3 (y :: ys), .leaf 3 (z :: zs)]⟩], ctx := x })
    ((gstep_leaf _ _ _ rfl rfl rfl rfl rfl h0).trans rfl)).trans ?_
  exact GTo.run 1 rfl

theorem comp_run (c : In) (x : GCtx) (h1 : c.gen.pk ≠ []) (h0 : c.gen.pkEd ≠ []) :
    ∃ b, (∃ k, grun x509_composite_mldsa_pubkey (gactS (compositeActs c)) k { ctx := x } = .halt 0 b) ∧
      b.out = [.node 0x30 [.leaf 3 (0 :: c.gen.pk), .leaf 3 (0 :: c.gen.pkEd)]] ∧ b.ctx = x := by
  refine comp_walk _ x 0 0 c.gen.pk c.gen.pkEd ?_ ?_
  · show some (outT (0, bitString (c.gen.pk), x)) = _
    unfold bitString
    rw [if_neg h1]
    rfl
  · show some (outT (0, bitString (c.gen.pkEd), x)) = _
    unfold bitString
    rw [if_neg h0]
    rfl

end LC.Crt
