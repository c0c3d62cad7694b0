import Verif.X509.CertExtEnc
/-
The bytecode of `x509.asn1.c` in the encoder: what is written for given results of the actions.
-/
namespace LC.Crt
open LC.Asn1 LC.Asn1.Enc LC.Asn1.Gen LC.Asn1.Tr

set_option maxRecDepth 8000

variable {act : GAct GCtx}

/-- A state behind the version. -/
abbrev gst (pc : Nat) (tag : Option UInt8) (lv : List GL) (jstk : List Nat) (x : GCtx) : GS GCtx :=
  { pc := pc, tag := tag, lv := lv, jstk := jstk, matched := true, last := true, ctx := x }

abbrev lvl (t : UInt8) (f : List Tree) : GL := ⟨some t, f⟩

abbrev out0 (b : Bytes) (x : GCtx) : Option (AOut GCtx) := some ⟨0, b, none, x⟩
abbrev out1 (x : GCtx) : Option (AOut GCtx) := some ⟨1, [], none, x⟩

/-- AlgorithmIdentifier. -/
theorem alg_walk (x x' : GCtx) (y : UInt8) (ys : Bytes) (h6 : act 6 x = out0 (y :: ys) x') (h11 : ∀ x, act 11 x = out0 [] x)
    (b : GL) (L : List GL) (r : Nat) (js : List Nat) :
    GTo x509 act (gst 82 none (lvl 0x30 [] :: b :: L) (r :: js) x)
      (gst r (some 0x30) (⟨b.tag, b.f ++ [.node 0x30 [.leaf 6 (y :: ys)]]⟩ :: L) js x') := by
  refine (GTo.step (b := gst 85 (some 6) (lvl 0x30 [.leaf 6 (y :: ys)] :: b :: L) (r :: js) x')
    ((gstep_leaf _ _ _ rfl rfl rfl rfl rfl h6).trans rfl)).trans ?_
  refine (GTo.step (b := gst 87 (some 11) (lvl 0x30 [.leaf 6 (y :: ys)] :: b :: L) (r :: js) x')
    ((gstep_any _ _ _ rfl rfl rfl rfl (h11 x')).trans rfl)).trans ?_
  exact GTo.run 2 rfl

/-- The results of the actions for a name: the attributes with OID and value. -/
def NameRun (act : GAct GCtx) : GCtx → List (Bytes × Bytes) → GCtx → Prop
  | _, [], _ => False
  | x, [a], x' => a.1 ≠ [] ∧ a.2 ≠ [] ∧ act 7 x = out0 a.1 x ∧ act 4 x = out0 a.2 x' ∧ act 0 x' = out0 [] x'
  | x, a :: as, x' => a.1 ≠ [] ∧ a.2 ≠ [] ∧ act 7 x = out0 a.1 x ∧
      ∃ x1, act 4 x = out0 a.2 x1 ∧ act 0 x1 = out1 x1 ∧ NameRun act x1 as x'

def attrTree (a : Bytes × Bytes) : Tree := .node 0x30 [.leaf 6 a.1, .leaf 4 a.2]
def nameTree (as : List (Bytes × Bytes)) : Tree := .node 0x30 [.node 0x31 (as.map attrTree)]

theorem attr_walk (x x' : GCtx) (a : Bytes × Bytes) (h1 : a.1 ≠ []) (h2 : a.2 ≠ []) (h7 : act 7 x = out0 a.1 x)
    (h4 : act 4 x = out0 a.2 x') (r : Nat) (h0 : act 0 x' = some ⟨r, [], none, x'⟩) (hr : r = 0 ∨ r = 1) (acc : List Tree) (L : List GL)
    (js : List Nat) (t : Option UInt8) :
    GTo x509 act (gst 91 t (lvl 0x31 acc :: L) js x)
      { gst 100 (some 0x30) (lvl 0x31 (acc ++ [attrTree a]) :: L) js x' with cont := r == 1 } := by
  obtain ⟨o, v⟩ := a
  obtain ⟨y, ys, rfl⟩ := List.exists_cons_of_ne_nil h1
  obtain ⟨z, zs, rfl⟩ := List.exists_cons_of_ne_nil h2
  refine (GTo.run 1 (b := gst 93 none (lvl 0x30 [] :: lvl 0x31 acc :: L) js x) rfl).trans ?_
  refine (GTo.step (b := gst 96 (some 6) (lvl 0x30 [.leaf 6 (y :: ys)] :: lvl 0x31 acc :: L) js x)
    ((gstep_leaf _ _ _ rfl rfl rfl rfl rfl h7).trans rfl)).trans ?_
  refine (GTo.step (b := gst 98 (some 4) (lvl 0x30 [.leaf 6 (y :: ys), .leaf 4 (z :: zs)] :: lvl 0x31 acc :: L) js x')
    ((gstep_any _ _ _ rfl rfl rfl rfl h4).trans rfl)).trans ?_
  rcases hr with rfl | rfl
  · exact GTo.step ((gstep_end _ _ _ rfl rfl rfl rfl h0).trans rfl)
  · exact GTo.step ((gstep_end _ _ _ rfl rfl rfl rfl h0).trans rfl)

theorem attrs_walk : ∀ (as : List (Bytes × Bytes)) (x x' : GCtx) (h : NameRun act x as x') (acc : List Tree) (L : List GL) (js : List Nat)
    (t : Option UInt8),
    GTo x509 act (gst 91 t (lvl 0x31 acc :: L) js x) (gst 100 (some 0x30) (lvl 0x31 (acc ++ as.map attrTree) :: L) js x')
  | [], _, _, h, _, _, _, _ => absurd h id
  | [a], x, x', h, acc, L, js, t => by
    obtain ⟨h1, h2, h3, h4, h5⟩ := h
    exact attr_walk x x' a h1 h2 h3 h4 0 h5 (.inl rfl) acc L js t
  | a :: a' :: as, x, x', h, acc, L, js, t => by
    obtain ⟨h1, h2, h3, x1, h4, h5, h6⟩ := h
    refine (attr_walk x x1 a h1 h2 h3 h4 1 h5 (.inr rfl) acc L js t).trans ?_
    refine (GTo.run 1 (b := gst 91 (some 0x30) (lvl 0x31 (acc ++ [attrTree a]) :: L) js x1) rfl).trans ?_
    have := attrs_walk (a' :: as) x1 x' h6 (acc ++ [attrTree a]) L js (some 0x30)
    rwa [List.append_assoc] at this

/-- Name. -/
theorem name_walk (as : List (Bytes × Bytes)) (x x' : GCtx) (h : NameRun act x as x') (b : GL) (L : List GL) (r : Nat) (js : List Nat)
    (t : Option UInt8) :
    GTo x509 act (gst 89 t (lvl 0x30 [] :: b :: L) (r :: js) x) (gst r (some 0x30) (⟨b.tag, b.f ++ [nameTree as]⟩ :: L) js x') := by
  refine (GTo.run 1 (b := gst 91 none (lvl 0x31 [] :: lvl 0x30 [] :: b :: L) (r :: js) x) rfl).trans ?_
  refine (attrs_walk as x x' h [] (lvl 0x30 [] :: b :: L) (r :: js) none).trans ?_
  have hne : ∃ k ks, as.map attrTree = k :: ks := by
    match as, h with
    | a :: as, _ => exact ⟨_, _, rfl⟩
  obtain ⟨k, ks, hk⟩ := hne
  unfold nameTree
  rw [List.nil_append, hk]
  exact GTo.run 3 rfl

/-- The results of the actions for a time. -/
def TimeRun (act : GAct GCtx) (x : GCtx) (t : Tree) (x' : GCtx) : Prop :=
  ∃ b b' x1, act 19 x = out0 b x1 ∧ act 18 x1 = out0 b' x' ∧
    ((b ≠ [] ∧ b' = [] ∧ t = .leaf 23 b) ∨ (b = [] ∧ b' ≠ [] ∧ t = .leaf 24 b'))

theorem time1_walk (x x' x2 : GCtx) (t : Tree) (h : TimeRun act x t x') (h10 : act 10 x' = out0 [] x2) (L : List GL) :
    GTo x509 act (gst 23 none (lvl 0x30 [] :: L) [] x) (gst 32 (some 24) (lvl 0x30 [t] :: L) [] x2) := by
  obtain ⟨b, b', x1, h19, h18, h | h⟩ := h
  · obtain ⟨hb, rfl, rfl⟩ := h
    obtain ⟨y, ys, rfl⟩ := List.exists_cons_of_ne_nil hb
    refine (GTo.step (b := gst 26 (some 23) (lvl 0x30 [.leaf 23 (y :: ys)] :: L) [] x1)
      ((gstep_leaf _ _ _ rfl rfl rfl rfl rfl h19).trans rfl)).trans ?_
    refine (GTo.step (b := gst 29 (some 24) (lvl 0x30 [.leaf 23 (y :: ys)] :: L) [] x')
      ((gstep_leaf _ _ _ rfl rfl rfl rfl rfl h18).trans rfl)).trans ?_
    refine (GTo.run 1 (b := gst 30 (some 24) (lvl 0x30 [.leaf 23 (y :: ys)] :: L) [] x') rfl).trans ?_
    exact GTo.step ((gstep_act _ _ _ rfl (show 30 + 2 ≤ x509.machine.length by decide) rfl h10).trans rfl)
  · obtain ⟨rfl, hb, rfl⟩ := h
    obtain ⟨y, ys, rfl⟩ := List.exists_cons_of_ne_nil hb
    refine (GTo.step (b := gst 26 (some 23) (lvl 0x30 [] :: L) [] x1)
      ((gstep_leaf _ _ _ rfl rfl rfl rfl rfl h19).trans rfl)).trans ?_
    refine (GTo.step (b := gst 29 (some 24) (lvl 0x30 [.leaf 24 (y :: ys)] :: L) [] x')
      ((gstep_leaf _ _ _ rfl rfl rfl rfl rfl h18).trans rfl)).trans ?_
    refine (GTo.run 1 (b := gst 30 (some 24) (lvl 0x30 [.leaf 24 (y :: ys)] :: L) [] x') rfl).trans ?_
    exact GTo.step ((gstep_act _ _ _ rfl (show 30 + 2 ≤ x509.machine.length by decide) rfl h10).trans rfl)

theorem time2_walk (x x' x2 : GCtx) (t : Tree) (h : TimeRun act x t x') (h9 : act 9 x' = out0 [] x2) (t0 : Tree) (L : List GL) :
    GTo x509 act (gst 32 (some 24) (lvl 0x30 [t0] :: L) [] x) (gst 41 (some 24) (lvl 0x30 [t0, t] :: L) [] x2) := by
  obtain ⟨b, b', x1, h19, h18, h | h⟩ := h
  · obtain ⟨hb, rfl, rfl⟩ := h
    obtain ⟨y, ys, rfl⟩ := List.exists_cons_of_ne_nil hb
    refine (GTo.step (b := gst 35 (some 23) (lvl 0x30 [t0, .leaf 23 (y :: ys)] :: L) [] x1)
      ((gstep_leaf _ _ _ rfl rfl rfl rfl rfl h19).trans rfl)).trans ?_
    refine (GTo.step (b := gst 38 (some 24) (lvl 0x30 [t0, .leaf 23 (y :: ys)] :: L) [] x')
      ((gstep_leaf _ _ _ rfl rfl rfl rfl rfl h18).trans rfl)).trans ?_
    refine (GTo.run 1 (b := gst 39 (some 24) (lvl 0x30 [t0, .leaf 23 (y :: ys)] :: L) [] x') rfl).trans ?_
    exact GTo.step ((gstep_act _ _ _ rfl (show 39 + 2 ≤ x509.machine.length by decide) rfl h9).trans rfl)
  · obtain ⟨rfl, hb, rfl⟩ := h
    obtain ⟨y, ys, rfl⟩ := List.exists_cons_of_ne_nil hb
    refine (GTo.step (b := gst 35 (some 23) (lvl 0x30 [t0] :: L) [] x1)
      ((gstep_leaf _ _ _ rfl rfl rfl rfl rfl h19).trans rfl)).trans ?_
    refine (GTo.step (b := gst 38 (some 24) (lvl 0x30 [t0, .leaf 24 (y :: ys)] :: L) [] x')
      ((gstep_leaf _ _ _ rfl rfl rfl rfl rfl h18).trans rfl)).trans ?_
    refine (GTo.run 1 (b := gst 39 (some 24) (lvl 0x30 [t0, .leaf 24 (y :: ys)] :: L) [] x') rfl).trans ?_
    exact GTo.step ((gstep_act _ _ _ rfl (show 39 + 2 ≤ x509.machine.length by decide) rfl h9).trans rfl)

/-- An extension: OID, criticality or nothing, value. -/
structure ExtItem where
  oid : Bytes
  crit : Bytes
  val : Bytes

def extItemTree (e : ExtItem) : Tree := .node 0x30 (.leaf 6 e.oid :: (optLeaf 1 e.crit ++ [.leaf 4 e.val]))

/-- The results of the actions for the extensions. -/
def ExtRun (act : GAct GCtx) : GCtx → List ExtItem → GCtx → Prop
  | _, [], _ => False
  | x, [e], x' => e.oid ≠ [] ∧ e.val ≠ [] ∧ act 1 x = out0 e.oid x ∧ act 3 x = out0 e.crit x ∧ act 17 x = out0 e.val x' ∧
      act 2 x' = out0 [] x'
  | x, e :: es, x' => e.oid ≠ [] ∧ e.val ≠ [] ∧ act 1 x = out0 e.oid x ∧ act 3 x = out0 e.crit x ∧
      ∃ x1, act 17 x = out0 e.val x1 ∧ act 2 x1 = out1 x1 ∧ ExtRun act x1 es x'

theorem ext_walk (x x' : GCtx) (e : ExtItem) (h1 : e.oid ≠ []) (h2 : e.val ≠ []) (a1 : act 1 x = out0 e.oid x)
    (a3 : act 3 x = out0 e.crit x) (a17 : act 17 x = out0 e.val x') (r : Nat) (a2 : act 2 x' = some ⟨r, [], none, x'⟩) (hr : r = 0 ∨ r = 1)
    (acc : List Tree) (L : List GL) (js : List Nat) (t : Option UInt8) :
    GTo x509 act (gst 107 t (lvl 0x30 acc :: L) js x)
      { gst 120 (some 0x30) (lvl 0x30 (acc ++ [extItemTree e]) :: L) js x' with cont := r == 1 } := by
  obtain ⟨o, k, v⟩ := e
  obtain ⟨y, ys, rfl⟩ := List.exists_cons_of_ne_nil h1
  obtain ⟨z, zs, rfl⟩ := List.exists_cons_of_ne_nil h2
  refine (GTo.run 1 (b := gst 109 none (lvl 0x30 [] :: lvl 0x30 acc :: L) js x) rfl).trans ?_
  refine (GTo.step (b := gst 112 (some 6) (lvl 0x30 [.leaf 6 (y :: ys)] :: lvl 0x30 acc :: L) js x)
    ((gstep_leaf _ _ _ rfl rfl rfl rfl rfl a1).trans rfl)).trans ?_
  match k with
  | [] =>
    refine (GTo.step (b := gst 115 (some 1) (lvl 0x30 [.leaf 6 (y :: ys)] :: lvl 0x30 acc :: L) js x)
      ((gstep_leaf _ _ _ rfl rfl rfl rfl rfl a3).trans rfl)).trans ?_
    refine (GTo.step (b := gst 118 (some 4) (lvl 0x30 [.leaf 6 (y :: ys), .leaf 4 (z :: zs)] :: lvl 0x30 acc :: L) js x')
      ((gstep_leaf _ _ _ rfl rfl rfl rfl rfl a17).trans rfl)).trans ?_
    rcases hr with rfl | rfl
    · exact GTo.step ((gstep_end _ _ _ rfl rfl rfl rfl a2).trans rfl)
    · exact GTo.step ((gstep_end _ _ _ rfl rfl rfl rfl a2).trans rfl)
  | k :: ks =>
    refine (GTo.step (b := gst 115 (some 1) (lvl 0x30 [.leaf 6 (y :: ys), .leaf 1 (k :: ks)] :: lvl 0x30 acc :: L) js x)
      ((gstep_leaf _ _ _ rfl rfl rfl rfl rfl a3).trans rfl)).trans ?_
    refine (GTo.step (b := gst 118 (some 4) (lvl 0x30 [.leaf 6 (y :: ys), .leaf 1 (k :: ks), .leaf 4 (z :: zs)] :: lvl 0x30 acc :: L) js x')
      ((gstep_leaf _ _ _ rfl rfl rfl rfl rfl a17).trans rfl)).trans ?_
    rcases hr with rfl | rfl
    · exact GTo.step ((gstep_end _ _ _ rfl rfl rfl rfl a2).trans rfl)
    · exact GTo.step ((gstep_end _ _ _ rfl rfl rfl rfl a2).trans rfl)

theorem exts_walk : ∀ (es : List ExtItem) (x x' : GCtx) (h : ExtRun act x es x') (acc : List Tree) (L : List GL) (js : List Nat)
    (t : Option UInt8),
    GTo x509 act (gst 107 t (lvl 0x30 acc :: L) js x) (gst 120 (some 0x30) (lvl 0x30 (acc ++ es.map extItemTree) :: L) js x')
  | [], _, _, h, _, _, _, _ => absurd h id
  | [a], x, x', h, acc, L, js, t => by
    obtain ⟨h1, h2, h3, h4, h5, h6⟩ := h
    exact ext_walk x x' a h1 h2 h3 h4 h5 0 h6 (.inl rfl) acc L js t
  | a :: a' :: as, x, x', h, acc, L, js, t => by
    obtain ⟨h1, h2, h3, h3', x1, h4, h5, h6⟩ := h
    refine (ext_walk x x1 a h1 h2 h3 h3' h4 1 h5 (.inr rfl) acc L js t).trans ?_
    refine (GTo.run 1 (b := gst 107 (some 0x30) (lvl 0x30 (acc ++ [extItemTree a]) :: L) js x1) rfl).trans ?_
    have := exts_walk (a' :: as) x1 x' h6 (acc ++ [extItemTree a]) L js (some 0x30)
    rwa [List.append_assoc] at this

/-- Extensions. -/
theorem extensions_walk (es : List ExtItem) (x x' : GCtx) (h : ExtRun act x es x') (b : GL) (L : List GL) (r : Nat) (js : List Nat)
    (t : Option UInt8) :
    GTo x509 act (gst 105 t (lvl 0xa3 [] :: b :: L) (r :: js) x)
      (gst r (some 0xa3) (⟨b.tag, b.f ++ [.node 0xa3 [.node 0x30 (es.map extItemTree)]]⟩ :: L) js x') := by
  refine (GTo.run 1 (b := gst 107 none (lvl 0x30 [] :: lvl 0xa3 [] :: b :: L) (r :: js) x) rfl).trans ?_
  refine (exts_walk es x x' h [] (lvl 0xa3 [] :: b :: L) (r :: js) none).trans ?_
  have hne : ∃ k ks, es.map extItemTree = k :: ks := by
    match es, h with
    | a :: as, _ => exact ⟨_, _, rfl⟩
  obtain ⟨k, ks, hk⟩ := hne
  rw [List.nil_append, hk]
  exact GTo.run 3 rfl

/-- The parts of a certificate. -/
structure CertParts where
  serial : Bytes
  alg : Bytes
  issuer : List (Bytes × Bytes)
  notBefore : Tree
  notAfter : Tree
  subject : List (Bytes × Bytes)
  keyAlg : Bytes
  key : Bytes
  exts : List ExtItem
  sig : Bytes

def algTree (o : Bytes) : Tree := .node 0x30 [.leaf 6 o]

def tbsKids (p : CertParts) : List Tree :=
  [.node 0xa0 [.leaf 2 [2]], .leaf 2 p.serial, algTree p.alg, nameTree p.issuer, .node 0x30 [p.notBefore, p.notAfter],
   nameTree p.subject, .node 0x30 [algTree p.keyAlg, .leaf 3 p.key], .node 0xa3 [.node 0x30 (p.exts.map extItemTree)]]

def certTree (p : CertParts) : Tree := .node 0x30 [.node 0x30 (tbsKids p), algTree p.alg, .leaf 3 p.sig]

/-- The results of the actions for a certificate. -/
structure CertRun (act : GAct GCtx) (x0 : GCtx) (p : CertParts) where
  (x1 x2 x3 x4 x5 x6 x7 x8 x9 x10 x11 x12 : GCtx)
  h21 : act 21 x0 = out0 [2] x0
  h12 : act 12 x0 = out0 p.serial x0
  serial : p.serial ≠ []
  h6 : act 6 x0 = out0 p.alg x1
  alg : p.alg ≠ []
  h11 : ∀ x, act 11 x = out0 [] x
  h13 : ∀ x, act 13 x = out0 [] x
  issuer : NameRun act x1 p.issuer x2
  h8 : act 8 x2 = out0 [] x3
  before : TimeRun act x3 p.notBefore x4
  h10 : act 10 x4 = out0 [] x5
  after : TimeRun act x5 p.notAfter x6
  h9 : act 9 x6 = out0 [] x7
  subject : NameRun act x7 p.subject x8
  h15 : act 15 x8 = out0 [] x9
  h6' : act 6 x9 = out0 p.keyAlg x10
  keyAlg : p.keyAlg ≠ []
  h5 : act 5 x10 = out0 p.key x10
  key : p.key ≠ []
  exts : ExtRun act x10 p.exts x11
  h16 : ∀ x, act 16 x = out0 [] x
  h6'' : act 6 x11 = out0 p.alg x12
  h20 : ∀ x, act 20 x = out0 [] x
  h14 : act 14 x12 = out0 p.sig x12
  sig : p.sig ≠ []

theorem cert_walk (x0 : GCtx) (p : CertParts) (h : CertRun act x0 p) :
    ∃ b, (∃ k, grun x509 act k { ctx := x0 } = .halt 0 b) ∧ b.out = [certTree p] := by
  obtain ⟨sn, al, iss, nb, na, sub, kal, key, es, sig⟩ := p
  have hsn := h.serial
  have hal := h.alg
  have hkal := h.keyAlg
  have hkey := h.key
  have hsig := h.sig
  have e21 := h.h21
  have e12 := h.h12
  have e6 := h.h6
  have e6' := h.h6'
  have e6'' := h.h6''
  have e5 := h.h5
  have e14 := h.h14
  have hiss := h.issuer
  have hsub := h.subject
  have hb := h.before
  have ha := h.after
  have hes := h.exts
  dsimp only at *
  obtain ⟨s1, s2, rfl⟩ := List.exists_cons_of_ne_nil hsn
  obtain ⟨a1, a2, rfl⟩ := List.exists_cons_of_ne_nil hal
  obtain ⟨k1, k2, rfl⟩ := List.exists_cons_of_ne_nil hkal
  obtain ⟨q1, q2, rfl⟩ := List.exists_cons_of_ne_nil hkey
  obtain ⟨g1, g2, rfl⟩ := List.exists_cons_of_ne_nil hsig
  refine ⟨{ gst 75 (some 0x30) [] [] h.x12 with
            out := [certTree ⟨s1 :: s2, a1 :: a2, iss, nb, na, sub, k1 :: k2, q1 :: q2, es, g1 :: g2⟩] }, GTo.halt ?_ rfl, rfl⟩
  -- version
  refine (GTo.run 4 (b := { pc := 78, tag := some 2, lv := [lvl 0xa0 [], lvl 0x30 [], lvl 0x30 []], jstk := [7], ctx := x0 }) rfl).trans ?_
  refine (GTo.step (b := { pc := 80, tag := some 2, lv := [lvl 0xa0 [.leaf 2 [2]], lvl 0x30 [], lvl 0x30 []], jstk := [7], ctx := x0 })
    ((gstep_act _ _ _ rfl (show 78 + 2 ≤ x509.machine.length by decide) rfl e21).trans rfl)).trans ?_
  generalize hv : Tree.node 0xa0 [.leaf 2 [2]] = v
  refine (GTo.run 2 (b := gst 7 (some 0xa0) [lvl 0x30 [v], lvl 0x30 []] [] x0) (by subst hv; rfl)).trans ?_
  -- serial number
  refine (GTo.run 1 (b := gst 9 (some 2) [lvl 0x30 [v], lvl 0x30 []] [] x0) rfl).trans ?_
  refine (GTo.step (b := gst 11 (some 2) [lvl 0x30 [v, .leaf 2 (s1 :: s2)], lvl 0x30 []] [] x0)
    ((gstep_act _ _ _ rfl (show 9 + 2 ≤ x509.machine.length by decide) rfl e12).trans rfl)).trans ?_
  generalize hs : Tree.leaf 2 (s1 :: s2) = sn
  -- algorithm
  refine (GTo.run 1 (b := gst 82 none [lvl 0x30 [], lvl 0x30 [v, sn], lvl 0x30 []] [14] x0) rfl).trans ?_
  refine (alg_walk x0 h.x1 a1 a2 e6 h.h11 (lvl 0x30 [v, sn]) [lvl 0x30 []] 14 []).trans ?_
  generalize hg : Tree.node 0x30 [.leaf 6 (a1 :: a2)] = alg
  refine (GTo.step (b := gst 16 (some 0x30) [lvl 0x30 [v, sn, alg], lvl 0x30 []] [] h.x1)
    ((gstep_act _ _ _ rfl (show 14 + 2 ≤ x509.machine.length by decide) rfl (h.h13 h.x1)).trans rfl)).trans ?_
  -- issuer
  refine (GTo.run 1 (b := gst 89 none [lvl 0x30 [], lvl 0x30 [v, sn, alg], lvl 0x30 []] [19] h.x1) rfl).trans ?_
  refine (name_walk iss h.x1 h.x2 hiss (lvl 0x30 [v, sn, alg]) [lvl 0x30 []] 19 [] none).trans ?_
  generalize hi : nameTree iss = isst
  refine (GTo.step (b := gst 21 (some 0x30) [lvl 0x30 [v, sn, alg, isst], lvl 0x30 []] [] h.x3)
    ((gstep_act _ _ _ rfl (show 19 + 2 ≤ x509.machine.length by decide) rfl h.h8).trans rfl)).trans ?_
  -- validity
  refine (GTo.run 1 (b := gst 23 none [lvl 0x30 [], lvl 0x30 [v, sn, alg, isst], lvl 0x30 []] [] h.x3) rfl).trans ?_
  refine (time1_walk h.x3 h.x4 h.x5 nb hb h.h10 _).trans ?_
  refine (time2_walk h.x5 h.x6 h.x7 na ha h.h9 nb _).trans ?_
  refine (GTo.run 1 (b := gst 42 (some 0x30) [lvl 0x30 [v, sn, alg, isst, .node 0x30 [nb, na]], lvl 0x30 []] [] h.x7) rfl).trans ?_
  generalize hvl : Tree.node 0x30 [nb, na] = val
  -- subject
  refine (GTo.run 1 (b := gst 89 none [lvl 0x30 [], lvl 0x30 [v, sn, alg, isst, val], lvl 0x30 []] [45] h.x7) rfl).trans ?_
  refine (name_walk sub h.x7 h.x8 hsub (lvl 0x30 [v, sn, alg, isst, val]) [lvl 0x30 []] 45 [] none).trans ?_
  generalize hsu : nameTree sub = subt
  refine (GTo.step (b := gst 47 (some 0x30) [lvl 0x30 [v, sn, alg, isst, val, subt], lvl 0x30 []] [] h.x9)
    ((gstep_act _ _ _ rfl (show 45 + 2 ≤ x509.machine.length by decide) rfl h.h15).trans rfl)).trans ?_
  -- key
  refine (GTo.run 2 (b := gst 82 none [lvl 0x30 [], lvl 0x30 [], lvl 0x30 [v, sn, alg, isst, val, subt], lvl 0x30 []] [52] h.x9) rfl).trans ?_
  refine (alg_walk h.x9 h.x10 k1 k2 e6' h.h11 (lvl 0x30 []) [lvl 0x30 [v, sn, alg, isst, val, subt], lvl 0x30 []] 52 []).trans ?_
  refine (GTo.step (b := gst 55 (some 3) [lvl 0x30 [.node 0x30 [.leaf 6 (k1 :: k2)], .leaf 3 (q1 :: q2)],
      lvl 0x30 [v, sn, alg, isst, val, subt], lvl 0x30 []] [] h.x10)
    ((gstep_leaf _ _ _ rfl rfl rfl rfl rfl e5).trans rfl)).trans ?_
  refine (GTo.run 1 (b := gst 56 (some 0x30)
    [lvl 0x30 [v, sn, alg, isst, val, subt, .node 0x30 [.node 0x30 [.leaf 6 (k1 :: k2)], .leaf 3 (q1 :: q2)]], lvl 0x30 []] [] h.x10) rfl).trans ?_
  generalize hkk : Tree.node 0x30 [.node 0x30 [.leaf 6 (k1 :: k2)], .leaf 3 (q1 :: q2)] = kt
  -- extensions
  refine (GTo.run 3 (b := gst 105 none [lvl 0xa3 [], lvl 0x30 [v, sn, alg, isst, val, subt, kt], lvl 0x30 []] [63] h.x10) rfl).trans ?_
  refine (extensions_walk es h.x10 h.x11 hes (lvl 0x30 [v, sn, alg, isst, val, subt, kt]) [lvl 0x30 []] 63 [] none).trans ?_
  generalize hee : Tree.node 0xa3 [.node 0x30 (es.map extItemTree)] = et
  refine (GTo.run 1 (b := gst 64 (some 0x30) [lvl 0x30 [.node 0x30 [v, sn, alg, isst, val, subt, kt, et]]] [] h.x11) rfl).trans ?_
  have htbs : Tree.node 0x30 [v, sn, alg, isst, val, subt, kt, et] =
      .node 0x30 (tbsKids ⟨s1 :: s2, a1 :: a2, iss, nb, na, sub, k1 :: k2, q1 :: q2, es, g1 :: g2⟩) := by
    subst hv hs hg hi hvl hsu hkk hee
    rfl
  rw [htbs]
  unfold certTree
  generalize Tree.node 0x30 (tbsKids ⟨s1 :: s2, a1 :: a2, iss, nb, na, sub, k1 :: k2, q1 :: q2, es, g1 :: g2⟩) = tbs
  refine (GTo.step (b := gst 66 (some 0x30) [lvl 0x30 [tbs]] [] h.x11)
    ((gstep_act _ _ _ rfl (show 64 + 2 ≤ x509.machine.length by decide) rfl (h.h16 h.x11)).trans rfl)).trans ?_
  refine (GTo.run 1 (b := gst 82 none [lvl 0x30 [], lvl 0x30 [tbs]] [69] h.x11) rfl).trans ?_
  refine (alg_walk h.x11 h.x12 a1 a2 e6'' h.h11 (lvl 0x30 [tbs]) [] 69 []).trans ?_
  refine (GTo.step (b := gst 71 (some 0x30) [lvl 0x30 [tbs, .node 0x30 [.leaf 6 (a1 :: a2)]]] [] h.x12)
    ((gstep_act _ _ _ rfl (show 69 + 2 ≤ x509.machine.length by decide) rfl (h.h20 h.x12)).trans rfl)).trans ?_
  refine (GTo.step (b := gst 74 (some 3) [lvl 0x30 [tbs, .node 0x30 [.leaf 6 (a1 :: a2)], .leaf 3 (g1 :: g2)]] [] h.x12)
    ((gstep_leaf _ _ _ rfl rfl rfl rfl rfl e14).trans rfl)).trans ?_
  exact GTo.run 1 rfl

end LC.Crt
