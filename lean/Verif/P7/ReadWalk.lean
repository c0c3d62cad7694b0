import Verif.P7.Walk
/-
The bytecode of `pkcs7.asn1.c` in the decoder, on a message of the shape that the generator writes.
-/
namespace LC.P7
open LC.Asn1 LC.Asn1.Enc LC.Asn1.Gen LC.Asn1.Tr

set_option maxRecDepth 8000

variable {κ : Type} {E : Nat → Prop} {cp : Bytes → Except Int κ}

/-- A state of the decoder. -/
abbrev rst (pc : Nat) (cur : List Tree) (frs : List Fr) (jstk : List Nat) (m l : Bool) (tag : Nat) (el : Option (List UInt8 × List UInt8))
    (p : PC κ) : TS (PC κ) :=
  { pc := pc, cur := cur, frs := frs, jstk := jstk, matched := m, last := l, tag := tag, el := el, p := p }

/-- The actions; they do not depend on a number of steps. -/
abbrev acts (cp : Bytes → Except Int κ) : Nat → PAct (PC κ) := fun _ => p7PActs cp

local macro "mt" pc:term:max tg:term:max : term =>
  `(tstep_match _ _ _ $pc $tg rfl rfl rfl (by decide) (by decide) rfl rfl rfl (by decide) rfl rfl rfl)
local macro "ma" pc:term:max tg:term:max : term =>
  `(tstep_any _ _ _ $pc $tg rfl rfl rfl (by decide) (by decide) rfl rfl rfl (by decide) rfl)
local macro "ms" pc:term:max tg:term:max : term =>
  `(tstep_skip _ _ _ $pc $tg rfl rfl rfl (by decide) (by decide) rfl rfl rfl (by decide) rfl rfl rfl rfl)

/-- `pkcs7_note_OID`. -/
def withOid (o : Bytes) (p : PC κ) : PC κ := { p with lastOid := LC.Oid.lookUp o }

theorem alg_read (o : Bytes) (p : PC κ) (f : Fr) (fs : List Fr) (r : Nat) (js : List Nat) (l : Bool) (tag : Nat)
    (el : Option (List UInt8 × List UInt8)) :
    TTo E pkcs7 (acts cp) (rst 114 [.leaf 6 o] (f :: fs) (r :: js) true l tag el p)
      (rst r f.rest fs js true true 6 (some (f.hdr, f.content)) (withOid o p)) := by
  refine (TTo.call (m := 5) (i := 2) (l := 3) (tag := 6) (el := (hdrOf (.leaf 6 o), o))
    (a' := rst 114 [] (f :: fs) (r :: js) true false 6 (some (hdrOf (.leaf 6 o), o)) p)
    (b := rst 117 [] (f :: fs) (r :: js) true false 6 (some (hdrOf (.leaf 6 o), o)) (withOid o p))
    (fun n => (mt 114 6).trans rfl) rfl (by decide) (fun n => .ok rfl) rfl).trans ?_
  exact TTo.run 3 (fun n => rfl)

/-! ### Authenticated attributes -/

structure AAttr where
  oid : Bytes
  tag : UInt8
  val : Bytes

def aaTree (a : AAttr) : Tree := .node 0x30 [.leaf 6 a.oid, .node 0x31 [.leaf a.tag a.val]]

/-- The attributes, read one after the other, lead from `p` to `p'`. -/
def AAsP : PC κ → List AAttr → PC κ → Prop
  | p, [], p' => p = p'
  | p, a :: as, p' => a.tag.toNat % 32 ≠ 31 ∧
      ∃ p1, noteAuthAttr ⟨a.tag.toNat, hdrOf (.leaf a.tag a.val), a.val⟩ (withOid a.oid p) = .ok p1 ∧ AAsP p1 as p'

theorem aa_read (a : AAttr) (rest : List Tree) (p p1 : PC κ) (ht : a.tag.toNat % 32 ≠ 31)
    (h : noteAuthAttr ⟨a.tag.toNat, hdrOf (.leaf a.tag a.val), a.val⟩ (withOid a.oid p) = .ok p1) (f1 f2 f3 f4 f5 f6 : Fr) (tag : Nat)
    (l : Bool) (el : Option (List UInt8 × List UInt8)) :
    ∃ el', TTo E pkcs7 (acts cp) (rst 194 (aaTree a :: rest) [f1, f2, f3, f4, f5, f6] [143, 105, 52, 10] true l tag el p)
      (rst 197 rest [f1, f2, f3, f4, f5, f6] [143, 105, 52, 10] true true a.tag.toNat (some el') p1) := by
  obtain ⟨o, t, v⟩ := a
  refine ⟨(hdrOf (aaTree ⟨o, t, v⟩), contentOf (aaTree ⟨o, t, v⟩)), ?_⟩
  generalize hf : (⟨rest, hdrOf (aaTree ⟨o, t, v⟩), contentOf (aaTree ⟨o, t, v⟩)⟩ : Fr) = f
  refine (TTo.one (b := rst 221 [.leaf 6 o, .node 0x31 [.leaf t v]] [f, f1, f2, f3, f4, f5, f6] [197, 143, 105, 52, 10] true false 48
    (some (hdrOf (aaTree ⟨o, t, v⟩), contentOf (aaTree ⟨o, t, v⟩))) p) (fun n => by subst hf; exact (mt 194 48).trans rfl)).trans ?_
  refine (TTo.call (m := 1) (i := 2) (l := 3) (tag := 6) (el := (hdrOf (.leaf 6 o), o))
    (a' := rst 221 [.node 0x31 [.leaf t v]] [f, f1, f2, f3, f4, f5, f6] [197, 143, 105, 52, 10] true false 6 (some (hdrOf (.leaf 6 o), o)) p)
    (b := rst 224 [.node 0x31 [.leaf t v]] [f, f1, f2, f3, f4, f5, f6] [197, 143, 105, 52, 10] true false 6 (some (hdrOf (.leaf 6 o), o)) (withOid o p))
    (fun n => (mt 221 6).trans rfl) rfl (by decide) (fun n => .ok rfl) rfl).trans ?_
  generalize hg : (⟨[], hdrOf (.node 0x31 [.leaf t v]), contentOf (.node 0x31 [.leaf t v])⟩ : Fr) = g
  refine (TTo.one (b := rst 226 [.leaf t v] [g, f, f1, f2, f3, f4, f5, f6] [197, 143, 105, 52, 10] true false 49
    (some (hdrOf (.node 0x31 [.leaf t v]), contentOf (.node 0x31 [.leaf t v]))) (withOid o p))
    (fun n => by subst hg; exact (mt 224 49).trans rfl)).trans ?_
  refine (TTo.call (m := 18) (i := 1) (l := 2) (tag := t.toNat) (el := (hdrOf (.leaf t v), v))
    (a' := rst 226 [] [g, f, f1, f2, f3, f4, f5, f6] [197, 143, 105, 52, 10] true false t.toNat (some (hdrOf (.leaf t v), v)) (withOid o p))
    (b := rst 228 [] [g, f, f1, f2, f3, f4, f5, f6] [197, 143, 105, 52, 10] true false t.toNat (some (hdrOf (.leaf t v), v)) p1)
    (fun n => (tstep_any _ _ _ 226 t rfl rfl rfl (by decide) (by decide) rfl rfl rfl ht rfl).trans rfl) rfl (by decide)
    (fun n => .ok h) rfl).trans ?_
  subst hf
  subst hg
  exact TTo.run 3 (fun n => rfl)

theorem aa_more (t : Tree) (rest : List Tree) (p : PC κ) (f1 f2 f3 f4 f5 f6 : Fr) (tag : Nat) (el : Option (List UInt8 × List UInt8)) :
    TTo E pkcs7 (acts cp) (rst 197 (t :: rest) [f1, f2, f3, f4, f5, f6] [143, 105, 52, 10] true true tag el p)
      (rst 194 (t :: rest) [f1, f2, f3, f4, f5, f6] [143, 105, 52, 10] true true tag none p) := TTo.run 1 (fun n => rfl)

theorem aas_read : ∀ (as : List AAttr) (_ : as ≠ []) (p p' : PC κ) (_ : AAsP p as p') (f1 f2 f3 f4 f5 f6 : Fr) (tag : Nat) (l : Bool)
    (el : Option (List UInt8 × List UInt8)),
    ∃ el' tg', TTo E pkcs7 (acts cp) (rst 194 (as.map aaTree) [f1, f2, f3, f4, f5, f6] [143, 105, 52, 10] true l tag el p)
      (rst 197 [] [f1, f2, f3, f4, f5, f6] [143, 105, 52, 10] true true tg' (some el') p')
  | [], h, _, _, _, _, _, _, _, _, _, _, _, _ => absurd rfl h
  | [a], _, p, p', ⟨ht, p1, h1, hr⟩, f1, f2, f3, f4, f5, f6, tag, l, el => by
    have hr' : p1 = p' := hr
    subst hr'
    obtain ⟨el', h⟩ := aa_read (E := E) (cp := cp) a [] p p1 ht h1 f1 f2 f3 f4 f5 f6 tag l el
    exact ⟨el', _, h⟩
  | a :: b :: as, _, p, p', ⟨ht, p1, h1, hr⟩, f1, f2, f3, f4, f5, f6, tag, l, el => by
    obtain ⟨el1, h1⟩ := aa_read (E := E) (cp := cp) a ((b :: as).map aaTree) p p1 ht h1 f1 f2 f3 f4 f5 f6 tag l el
    obtain ⟨el2, tg', h2⟩ := aas_read (b :: as) (by simp) p1 p' hr f1 f2 f3 f4 f5 f6 a.tag.toNat true none
    rw [List.map_cons] at h1 h2
    have h3 := aa_more (E := E) (cp := cp) (aaTree b) (as.map aaTree) p1 f1 f2 f3 f4 f5 f6 a.tag.toNat (some el1)
    exact ⟨el2, tg', (h1.trans h3).trans h2⟩

/-! ### SignerInfo -/

/-- A name. -/
def attrP (p : PC κ) (a : Bytes × Bytes) : PC κ := withOid a.1 p

theorem attr_read (a : Bytes × Bytes) (rest : List Tree) (p : PC κ) (f1 f2 f3 f4 f5 f6 f7 f8 : Fr) (tag : Nat)
    (el : Option (List UInt8 × List UInt8)) :
    ∃ el', TTo E pkcs7 (acts cp) (rst 173 (attrTree a :: rest) [f1, f2, f3, f4, f5, f6, f7, f8] [131, 105, 52, 10] true false tag el p)
      (rst 182 rest [f1, f2, f3, f4, f5, f6, f7, f8] [131, 105, 52, 10] true false 6 (some el') (attrP p a)) := by
  obtain ⟨o, v⟩ := a
  refine ⟨(hdrOf (attrTree (o, v)), contentOf (attrTree (o, v))), ?_⟩
  generalize hf : (⟨rest, hdrOf (attrTree (o, v)), contentOf (attrTree (o, v))⟩ : Fr) = f
  refine (TTo.one (b := rst 175 [.leaf 6 o, .leaf 6 v] [f, f1, f2, f3, f4, f5, f6, f7, f8] [131, 105, 52, 10] true false 48
    (some (hdrOf (attrTree (o, v)), contentOf (attrTree (o, v)))) p) (fun n => by subst hf; exact (mt 173 48).trans rfl)).trans ?_
  refine (TTo.call (m := 11) (i := 2) (l := 3) (tag := 6) (el := (hdrOf (.leaf 6 o), o))
    (a' := rst 175 [.leaf 6 v] [f, f1, f2, f3, f4, f5, f6, f7, f8] [131, 105, 52, 10] true false 6 (some (hdrOf (.leaf 6 o), o)) p)
    (b := rst 178 [.leaf 6 v] [f, f1, f2, f3, f4, f5, f6, f7, f8] [131, 105, 52, 10] true false 6 (some (hdrOf (.leaf 6 o), o)) (withOid o p))
    (fun n => (mt 175 6).trans rfl) rfl (by decide) (fun n => .ok rfl) rfl).trans ?_
  refine (TTo.call (m := 6) (i := 1) (l := 2) (tag := 6) (el := (hdrOf (.leaf 6 v), v))
    (a' := rst 178 [] [f, f1, f2, f3, f4, f5, f6, f7, f8] [131, 105, 52, 10] true false 6 (some (hdrOf (.leaf 6 v), v)) (withOid o p))
    (b := rst 180 [] [f, f1, f2, f3, f4, f5, f6, f7, f8] [131, 105, 52, 10] true false 6 (some (hdrOf (.leaf 6 v), v)) (withOid o p))
    (fun n => (ma 178 6).trans rfl) rfl (by decide) (fun n => .ok rfl) rfl).trans ?_
  subst hf
  exact TTo.call (m := 0) (i := 1) (l := 2) (tag := 0) (el := (hdrOf (attrTree (o, v)), contentOf (attrTree (o, v))))
    (a' := rst 180 rest [f1, f2, f3, f4, f5, f6, f7, f8] [131, 105, 52, 10] true false 6
      (some (hdrOf (attrTree (o, v)), contentOf (attrTree (o, v)))) (withOid o p))
    (fun n => rfl) rfl (by decide) (fun n => .ok rfl) rfl

theorem attr_more (t : Tree) (rest : List Tree) (p : PC κ) (f1 f2 f3 f4 f5 f6 f7 f8 : Fr) (tag : Nat)
    (el : Option (List UInt8 × List UInt8)) :
    TTo E pkcs7 (acts cp) (rst 182 (t :: rest) [f1, f2, f3, f4, f5, f6, f7, f8] [131, 105, 52, 10] true false tag el p)
      (rst 173 (t :: rest) [f1, f2, f3, f4, f5, f6, f7, f8] [131, 105, 52, 10] true false tag none p) := TTo.run 1 (fun n => rfl)

theorem attrs_read : ∀ (as : List (Bytes × Bytes)) (_ : as ≠ []) (p : PC κ) (f1 f2 f3 f4 f5 f6 f7 f8 : Fr) (tag : Nat)
    (el : Option (List UInt8 × List UInt8)),
    ∃ el', TTo E pkcs7 (acts cp) (rst 173 (as.map attrTree) [f1, f2, f3, f4, f5, f6, f7, f8] [131, 105, 52, 10] true false tag el p)
      (rst 182 [] [f1, f2, f3, f4, f5, f6, f7, f8] [131, 105, 52, 10] true false 6 (some el') (as.foldl attrP p))
  | [], h, _, _, _, _, _, _, _, _, _, _, _ => absurd rfl h
  | [a], _, p, f1, f2, f3, f4, f5, f6, f7, f8, tag, el => attr_read a [] p f1 f2 f3 f4 f5 f6 f7 f8 tag el
  | a :: b :: as, _, p, f1, f2, f3, f4, f5, f6, f7, f8, tag, el => by
    obtain ⟨el1, h1⟩ := attr_read (E := E) (cp := cp) a ((b :: as).map attrTree) p f1 f2 f3 f4 f5 f6 f7 f8 tag el
    obtain ⟨el2, h2⟩ := attrs_read (b :: as) (by simp) (attrP p a) f1 f2 f3 f4 f5 f6 f7 f8 6 none
    rw [List.map_cons] at h1 h2
    have h3 := attr_more (E := E) (cp := cp) (attrTree b) (as.map attrTree) (attrP p a) f1 f2 f3 f4 f5 f6 f7 f8 6 (some el1)
    rw [List.foldl_cons]
    exact ⟨el2, (h1.trans h3).trans h2⟩

/-- The identification of the signer is noted. -/
def idP (p : PC κ) : Ident → PC κ
  | .skid b => { p with skid := b }
  | .ias as sn => { as.foldl attrP p with issuer := serL [.node 0x31 (as.map attrTree)], serial := sn }

def Ident.Ok : Ident → Prop
  | .skid _ => True
  | .ias as _ => as ≠ []

theorem ident_read (id : Ident) (hid : id.Ok) (rest : List Tree) (p : PC κ) (f1 f2 f3 f4 f5 : Fr) (el : Option (List UInt8 × List UInt8)) :
    ∃ tg el' l', TTo E pkcs7 (acts cp) (rst 128 (identTree id :: rest) [f1, f2, f3, f4, f5] [105, 52, 10] true false 2 el p)
      (rst 135 rest [f1, f2, f3, f4, f5] [105, 52, 10] true l' tg el' (idP p id)) := by
  match id, hid with
  | .skid b, _ =>
    refine ⟨0x80, some (hdrOf (.leaf 0x80 b), b), false, ?_⟩
    refine (TTo.one (b := rst 131 (.leaf 0x80 b :: rest) [f1, f2, f3, f4, f5] [105, 52, 10] false false 0x80 none p)
      (fun n => (ms 128 0x80).trans rfl)).trans ?_
    refine (TTo.call (m := 26) (i := 2) (l := 3) (tag := 0x80) (el := (hdrOf (.leaf 0x80 b), b))
      (a' := rst 131 rest [f1, f2, f3, f4, f5] [105, 52, 10] true false 0x80 (some (hdrOf (.leaf 0x80 b), b)) p)
      (b := rst 134 rest [f1, f2, f3, f4, f5] [105, 52, 10] true false 0x80 (some (hdrOf (.leaf 0x80 b), b)) { p with skid := b })
      (fun n => (mt 131 0x80).trans rfl) rfl (by decide) (fun n => .ok rfl) rfl).trans ?_
    exact TTo.run 1 (fun n => rfl)
  | .ias as sn, hne =>
    have hit : identTree (.ias as sn) = .node 0x30 [.node 0x30 [.node 0x31 (as.map attrTree)], .leaf 2 sn] := rfl
    rw [hit]
    generalize hnm : Tree.node 0x30 [.node 0x31 (as.map attrTree)] = nm
    generalize hf : (⟨rest, hdrOf (.node 0x30 [nm, .leaf 2 sn]), contentOf (.node 0x30 [nm, .leaf 2 sn])⟩ : Fr) = f
    refine ⟨2, some (f.hdr, f.content), false, ?_⟩
    refine (TTo.one (b := rst 169 [nm, .leaf 2 sn] [f, f1, f2, f3, f4, f5] [131, 105, 52, 10] true false 48
      (some (hdrOf (.node 0x30 [nm, .leaf 2 sn]), contentOf (.node 0x30 [nm, .leaf 2 sn]))) p)
      (fun n => by subst hf; exact (mt 128 48).trans rfl)).trans ?_
    have hnc : contentOf nm = serL [.node 0x31 (as.map attrTree)] := by rw [← hnm]; rfl
    generalize hg : (⟨[.leaf 2 sn], hdrOf nm, contentOf nm⟩ : Fr) = g
    refine (TTo.one (b := rst 171 [.node 0x31 (as.map attrTree)] [g, f, f1, f2, f3, f4, f5] [131, 105, 52, 10] true false 48
      (some (hdrOf nm, contentOf nm)) p) (fun n => by subst hg; subst hnm; exact (mt 169 48).trans rfl)).trans ?_
    generalize hh : (⟨[], hdrOf (.node 0x31 (as.map attrTree)), contentOf (.node 0x31 (as.map attrTree))⟩ : Fr) = h
    refine (TTo.one (b := rst 173 (as.map attrTree) [h, g, f, f1, f2, f3, f4, f5] [131, 105, 52, 10] true false 49
      (some (hdrOf (.node 0x31 (as.map attrTree)), contentOf (.node 0x31 (as.map attrTree)))) p)
      (fun n => by subst hh; exact (mt 171 49).trans rfl)).trans ?_
    obtain ⟨el1, h1⟩ := attrs_read (E := E) (cp := cp) as hne p h g f f1 f2 f3 f4 f5 49
      (some (hdrOf (.node 0x31 (as.map attrTree)), contentOf (.node 0x31 (as.map attrTree))))
    refine h1.trans ?_
    have hr : idP p (.ias as sn) = { as.foldl attrP p with issuer := serL [.node 0x31 (as.map attrTree)], serial := sn } := rfl
    rw [hr]
    generalize as.foldl attrP p = p2
    rw [← hnc]
    refine (TTo.run 2 (b := rst 186 [.leaf 2 sn] [f, f1, f2, f3, f4, f5] [131, 105, 52, 10] true false 6 (some (hdrOf nm, contentOf nm)) p2)
      (fun n => by subst hh; subst hg; rfl)).trans ?_
    refine (TTo.call (m := 20) (i := 1) (l := 2) (tag := 6) (el := (hdrOf nm, contentOf nm))
      (a' := rst 186 [.leaf 2 sn] [f, f1, f2, f3, f4, f5] [131, 105, 52, 10] true false 6 (some (hdrOf nm, contentOf nm)) p2)
      (b := rst 188 [.leaf 2 sn] [f, f1, f2, f3, f4, f5] [131, 105, 52, 10] true false 6 (some (hdrOf nm, contentOf nm))
        { p2 with issuer := contentOf nm }) (fun n => rfl) rfl (by decide) (fun n => .ok rfl) rfl).trans ?_
    refine (TTo.one (b := rst 190 [] [f, f1, f2, f3, f4, f5] [131, 105, 52, 10] true false 2 (some (hdrOf (.leaf 2 sn), sn))
      { p2 with issuer := contentOf nm }) (fun n => (mt 188 2).trans rfl)).trans ?_
    refine (TTo.call (m := 23) (i := 1) (l := 2) (tag := 2) (el := (hdrOf (.leaf 2 sn), sn))
      (a' := rst 190 [] [f, f1, f2, f3, f4, f5] [131, 105, 52, 10] true false 2 (some (hdrOf (.leaf 2 sn), sn)) { p2 with issuer := contentOf nm })
      (b := rst 192 [] [f, f1, f2, f3, f4, f5] [131, 105, 52, 10] true false 2 (some (hdrOf (.leaf 2 sn), sn))
        { p2 with issuer := contentOf nm, serial := sn }) (fun n => rfl) rfl (by decide) (fun n => .ok rfl) rfl).trans ?_
    subst hf
    exact TTo.run 4 (fun n => rfl)

/-- The parts of a SignerInfo, with the authenticated attributes one by one. -/
structure RSi where
  ver : UInt8
  id : Ident
  hash : Bytes
  aas : List AAttr
  pk : Bytes
  sig : Bytes

/-- The authenticated attributes, if there are any. -/
def aaNode (as : List AAttr) : List Tree := if as = [] then [] else [.node 0xa0 (as.map aaTree)]

def rsiTree (p : RSi) : Tree :=
  .node 0x30 (.leaf 2 [p.ver] :: identTree p.id :: .node 0x30 [.leaf 6 p.hash] ::
    (aaNode p.aas ++ [.node 0x30 [.leaf 6 p.pk], .leaf 4 p.sig]))

/-- Reading a SignerInfo leads from `p` to `p'`. -/
structure SiReads (p : PC κ) (s : RSi) (p' : PC κ) where
  (p1 p2 p3 p4 p5 : PC κ)
  id : s.id.Ok
  h17 : noteSiVersion ⟨2, hdrOf (.leaf 2 [s.ver]), [s.ver]⟩ p = .ok p1
  h19 : noteDigestAlgo (withOid s.hash (idP p1 s.id)) = .ok p2
  h24 : (s.aas = [] ∧ p3 = p2) ∨ (s.aas ≠ [] ∧ ∃ q, AAsP p2 s.aas q ∧
    ∀ tg, noteAuthAttrs ⟨tg, hdrOf (.node 0xa0 (s.aas.map aaTree)), serL (s.aas.map aaTree)⟩ q = .ok p3)
  h21 : notePkeyAlgo (withOid s.pk p3) = .ok p4
  h25 : noteSignature ⟨4, hdrOf (.leaf 4 s.sig), s.sig⟩ p4 = .ok p5
  h15 : noteSignedInfo p5 = .ok p'

theorem si_read (s : RSi) (rest : List Tree) (p p' : PC κ) (h : SiReads p s p') (f1 f2 f3 f4 : Fr) (tag : Nat) (l : Bool)
    (el : Option (List UInt8 × List UInt8)) :
    ∃ el', TTo E pkcs7 (acts cp) (rst 102 (rsiTree s :: rest) [f1, f2, f3, f4] [52, 10] true l tag el p)
      (rst 105 rest [f1, f2, f3, f4] [52, 10] true true 4 (some el') p') := by
  obtain ⟨ver, id, hash, aas, pk, sig⟩ := s
  obtain ⟨p1, p2, p3, p4, p5, hid, h17, h19, h24, h21, h25, h15⟩ := h
  dsimp only at *
  generalize hks : identTree id :: .node 0x30 [.leaf 6 hash] :: (aaNode aas ++ [.node 0x30 [.leaf 6 pk], .leaf 4 sig]) = ks
  have ht : rsiTree ⟨ver, id, hash, aas, pk, sig⟩ = .node 0x30 (.leaf 2 [ver] :: ks) := by rw [← hks]; rfl
  rw [ht]
  clear ht
  generalize hf : (⟨rest, hdrOf (.node 0x30 (.leaf 2 [ver] :: ks)), contentOf (.node 0x30 (.leaf 2 [ver] :: ks))⟩ : Fr) = f
  refine ⟨(f.hdr, f.content), ?_⟩
  refine (TTo.one (b := rst 125 (.leaf 2 [ver] :: ks) [f, f1, f2, f3, f4] [105, 52, 10] true false 48
    (some (hdrOf (.node 0x30 (.leaf 2 [ver] :: ks)), contentOf (.node 0x30 (.leaf 2 [ver] :: ks)))) p)
    (fun n => by subst hf; exact (mt 102 48).trans rfl)).trans ?_
  refine (TTo.call (m := 17) (i := 2) (l := 3) (tag := 2) (el := (hdrOf (.leaf 2 [ver]), [ver]))
    (a' := rst 125 ks [f, f1, f2, f3, f4] [105, 52, 10] true false 2 (some (hdrOf (.leaf 2 [ver]), [ver])) p)
    (b := rst 128 ks [f, f1, f2, f3, f4] [105, 52, 10] true false 2 (some (hdrOf (.leaf 2 [ver]), [ver])) p1)
    (fun n => (mt 125 2).trans rfl) rfl (by decide) (fun n => .ok h17) rfl).trans ?_
  subst hks
  generalize htl : [Tree.node 0x30 [.leaf 6 pk], .leaf 4 sig] = tl
  obtain ⟨tg1, el1, l1, hi⟩ := ident_read (E := E) (cp := cp) id hid (.node 0x30 [.leaf 6 hash] :: (aaNode aas ++ tl)) p1 f f1 f2 f3 f4
    (some (hdrOf (.leaf 2 [ver]), [ver]))
  refine hi.trans ?_
  generalize hfa : (⟨aaNode aas ++ tl, hdrOf (.node 0x30 [.leaf 6 hash]), contentOf (.node 0x30 [.leaf 6 hash])⟩ : Fr) = fa
  refine (TTo.one (b := rst 114 [.leaf 6 hash] [fa, f, f1, f2, f3, f4] [138, 105, 52, 10] true false 48
    (some (hdrOf (.node 0x30 [.leaf 6 hash]), contentOf (.node 0x30 [.leaf 6 hash]))) (idP p1 id))
    (fun n => by subst hfa; exact (mt 135 48).trans rfl)).trans ?_
  refine (alg_read hash (idP p1 id) fa [f, f1, f2, f3, f4] 138 [105, 52, 10] false 48 _).trans ?_
  rw [show fa.rest = aaNode aas ++ tl by rw [← hfa]]
  refine (TTo.call (m := 19) (i := 1) (l := 2) (tag := 6) (el := (fa.hdr, fa.content))
    (a' := rst 138 (aaNode aas ++ tl) [f, f1, f2, f3, f4] [105, 52, 10] true true 6 (some (fa.hdr, fa.content)) (withOid hash (idP p1 id)))
    (b := rst 140 (aaNode aas ++ tl) [f, f1, f2, f3, f4] [105, 52, 10] true true 6 (some (fa.hdr, fa.content)) p2)
    (fun n => rfl) rfl (by decide) (fun n => .ok h19) rfl).trans ?_
  generalize (some (fa.hdr, fa.content)) = ela
  have haa : ∃ m tg el, TTo E pkcs7 (acts cp) (rst 140 (aaNode aas ++ tl) [f, f1, f2, f3, f4] [105, 52, 10] true true 6 ela p2)
      (rst 148 tl [f, f1, f2, f3, f4] [105, 52, 10] m false tg el p3) := by
    rcases h24 with ⟨rfl, rfl⟩ | ⟨hne, q, hq, h24⟩
    · refine ⟨false, 48, none, ?_⟩
      rw [show aaNode [] ++ tl = tl from rfl, ← htl]
      refine (TTo.one (b := rst 143 [Tree.node 0x30 [.leaf 6 pk], .leaf 4 sig] [f, f1, f2, f3, f4] [105, 52, 10] false false 48 none p3)
        (fun n => (ms 140 48).trans rfl)).trans ?_
      refine (TTo.run 1 (b := rst 145 [Tree.node 0x30 [.leaf 6 pk], .leaf 4 sig] [f, f1, f2, f3, f4] [105, 52, 10] false false 48 none p3)
        (fun n => rfl)).trans ?_
      exact TTo.one (fun n => (ms 145 48).trans rfl)
    · rw [show aaNode aas = [.node 0xa0 (aas.map aaTree)] by unfold aaNode; rw [if_neg hne], List.singleton_append]
      generalize hfb : (⟨tl, hdrOf (.node 0xa0 (aas.map aaTree)), serL (aas.map aaTree)⟩ : Fr) = fb
      obtain ⟨el2, tg2, h2⟩ := aas_read (E := E) (cp := cp) aas hne p2 q hq fb f f1 f2 f3 f4 0xa0 false
        (some (hdrOf (.node 0xa0 (aas.map aaTree)), serL (aas.map aaTree)))
      refine ⟨true, tg2, some (fb.hdr, fb.content), ?_⟩
      refine (TTo.one (fun n => ?_)).trans (h2.trans ?_)
      · subst hfb
        exact (mt 140 0xa0).trans rfl
      · refine (TTo.run 2 (b := rst 143 tl [f, f1, f2, f3, f4] [105, 52, 10] true true tg2 (some (fb.hdr, fb.content)) q)
          (fun n => by subst hfb; rfl)).trans ?_
        have h24' : noteAuthAttrs ⟨tg2, fb.hdr, fb.content⟩ q = .ok p3 := by
          rw [← hfb]; exact h24 tg2
        refine (TTo.call (m := 24) (i := 1) (l := 2) (tag := tg2) (el := (fb.hdr, fb.content))
          (a' := rst 143 tl [f, f1, f2, f3, f4] [105, 52, 10] true true tg2 (some (fb.hdr, fb.content)) q)
          (b := rst 145 tl [f, f1, f2, f3, f4] [105, 52, 10] true true tg2 (some (fb.hdr, fb.content)) p3)
          (fun n => rfl) rfl (by decide) (fun n => .ok h24') rfl).trans ?_
        exact TTo.run 1 (fun n => rfl)
  obtain ⟨m3, tg3, el3, haa⟩ := haa
  refine haa.trans ?_
  rw [← htl]
  generalize hfp : (⟨[.leaf 4 sig], hdrOf (.node 0x30 [.leaf 6 pk]), contentOf (.node 0x30 [.leaf 6 pk])⟩ : Fr) = fp
  refine (TTo.one (b := rst 150 [.leaf 6 pk] [fp, f, f1, f2, f3, f4] [105, 52, 10] true false 48
    (some (hdrOf (.node 0x30 [.leaf 6 pk]), contentOf (.node 0x30 [.leaf 6 pk]))) p3)
    (fun n => by subst hfp; exact (mt 148 48).trans rfl)).trans ?_
  refine (TTo.call (m := 22) (i := 2) (l := 3) (tag := 6) (el := (hdrOf (.leaf 6 pk), pk))
    (a' := rst 150 [] [fp, f, f1, f2, f3, f4] [105, 52, 10] true false 6 (some (hdrOf (.leaf 6 pk), pk)) p3)
    (b := rst 153 [] [fp, f, f1, f2, f3, f4] [105, 52, 10] true false 6 (some (hdrOf (.leaf 6 pk), pk)) (withOid pk p3))
    (fun n => (mt 150 6).trans rfl) rfl (by decide) (fun n => .ok rfl) rfl).trans ?_
  refine (TTo.run 2 (b := rst 155 [.leaf 4 sig] [f, f1, f2, f3, f4] [105, 52, 10] true false 6 (some (fp.hdr, fp.content)) (withOid pk p3))
    (fun n => by subst hfp; rfl)).trans ?_
  refine (TTo.call (m := 21) (i := 1) (l := 2) (tag := 6) (el := (fp.hdr, fp.content))
    (a' := rst 155 [.leaf 4 sig] [f, f1, f2, f3, f4] [105, 52, 10] true false 6 (some (fp.hdr, fp.content)) (withOid pk p3))
    (b := rst 157 [.leaf 4 sig] [f, f1, f2, f3, f4] [105, 52, 10] true false 6 (some (fp.hdr, fp.content)) p4)
    (fun n => rfl) rfl (by decide) (fun n => .ok h21) rfl).trans ?_
  refine (TTo.call (m := 25) (i := 2) (l := 3) (tag := 4) (el := (hdrOf (.leaf 4 sig), sig))
    (a' := rst 157 [] [f, f1, f2, f3, f4] [105, 52, 10] true false 4 (some (hdrOf (.leaf 4 sig), sig)) p4)
    (b := rst 160 [] [f, f1, f2, f3, f4] [105, 52, 10] true false 4 (some (hdrOf (.leaf 4 sig), sig)) p5)
    (fun n => (mt 157 4).trans rfl) rfl (by decide) (fun n => .ok h25) rfl).trans ?_
  refine (TTo.run 2 (b := rst 166 [] [f, f1, f2, f3, f4] [105, 52, 10] true false 4 (some (hdrOf (.leaf 4 sig), sig)) p5)
    (fun n => rfl)).trans ?_
  refine (TTo.call (m := 15) (i := 1) (l := 2) (tag := 0) (el := (f.hdr, f.content))
    (a' := rst 166 f.rest [f1, f2, f3, f4] [105, 52, 10] true false 4 (some (f.hdr, f.content)) p5)
    (b := rst 168 f.rest [f1, f2, f3, f4] [105, 52, 10] true false 4 (some (f.hdr, f.content)) p')
    (fun n => rfl) rfl (by decide) (fun n => .ok h15) rfl).trans ?_
  rw [show f.rest = rest by rw [← hf]]
  exact TTo.run 1 (fun n => rfl)

theorem si_more (t : Tree) (rest : List Tree) (p : PC κ) (f1 f2 f3 f4 : Fr) (tag : Nat) (el : Option (List UInt8 × List UInt8)) :
    TTo E pkcs7 (acts cp) (rst 105 (t :: rest) [f1, f2, f3, f4] [52, 10] true true tag el p)
      (rst 102 (t :: rest) [f1, f2, f3, f4] [52, 10] true true tag none p) := TTo.run 1 (fun n => rfl)

/-- Reading the signers leads from `p` to `p'`. -/
def SisReads : PC κ → List RSi → PC κ → Prop
  | p, [], p' => p = p'
  | p, s :: ss, p' => ∃ p1, Nonempty (SiReads p s p1) ∧ SisReads p1 ss p'

theorem sis_read : ∀ (ss : List RSi) (_ : ss ≠ []) (p p' : PC κ) (_ : SisReads p ss p') (f1 f2 f3 f4 : Fr) (tag : Nat) (l : Bool)
    (el : Option (List UInt8 × List UInt8)),
    ∃ el', TTo E pkcs7 (acts cp) (rst 102 (ss.map rsiTree) [f1, f2, f3, f4] [52, 10] true l tag el p)
      (rst 105 [] [f1, f2, f3, f4] [52, 10] true true 4 (some el') p')
  | [], h, _, _, _, _, _, _, _, _, _, _ => absurd rfl h
  | [s], _, p, p', ⟨p1, ⟨h1⟩, hr⟩, f1, f2, f3, f4, tag, l, el => by
    have hr' : p1 = p' := hr
    subst hr'
    exact si_read (E := E) (cp := cp) s [] p p1 h1 f1 f2 f3 f4 tag l el
  | a :: b :: as, _, p, p', ⟨p1, ⟨h1⟩, hr⟩, f1, f2, f3, f4, tag, l, el => by
    obtain ⟨el1, h1⟩ := si_read (E := E) (cp := cp) a ((b :: as).map rsiTree) p p1 h1 f1 f2 f3 f4 tag l el
    obtain ⟨el2, h2⟩ := sis_read (b :: as) (by simp) p1 p' hr f1 f2 f3 f4 4 true none
    rw [List.map_cons] at h1 h2
    have h3 := si_more (E := E) (cp := cp) (rsiTree b) (as.map rsiTree) p1 f1 f2 f3 f4 4 (some el1)
    exact ⟨el2, (h1.trans h3).trans h2⟩

/-! ### Certificates -/

/-- Reading the certificates leads from `p` to `p'`. -/
def CertsReads (cp : Bytes → Except Int κ) : PC κ → List Bytes → PC κ → Prop
  | p, [], p' => p = p'
  | p, c :: cs, p' => ∃ p1, extractCert cp ⟨0x30, hdrOf (.leaf 0x30 c), c⟩ p = .ok p1 ∧ CertsReads cp p1 cs p'

def cLeaf (b : Bytes) : Tree := .leaf 0x30 b

theorem cert_read (c : Bytes) (rest : List Tree) (p p1 : PC κ) (h : extractCert cp ⟨0x30, hdrOf (.leaf 0x30 c), c⟩ p = .ok p1)
    (f1 f2 f3 f4 : Fr) (tag : Nat) (el : Option (List UInt8 × List UInt8)) :
    TTo E pkcs7 (acts cp) (rst 75 (cLeaf c :: rest) [f1, f2, f3, f4] [38, 10] true false tag el p)
      (rst 80 rest [f1, f2, f3, f4] [38, 10] true false 48 (some (hdrOf (.leaf 0x30 c), c)) p1) := by
  refine (TTo.call (m := 10) (i := 1) (l := 2) (tag := 48) (el := (hdrOf (.leaf 0x30 c), c))
    (a' := rst 75 rest [f1, f2, f3, f4] [38, 10] true false 48 (some (hdrOf (.leaf 0x30 c), c)) p)
    (b := rst 77 rest [f1, f2, f3, f4] [38, 10] true false 48 (some (hdrOf (.leaf 0x30 c), c)) p1)
    (fun n => (ma 75 48).trans rfl) rfl (by decide) (fun n => .ok h) rfl).trans ?_
  refine (TTo.run 1 (b := rst 78 rest [f1, f2, f3, f4] [38, 10] true false 48 (some (hdrOf (.leaf 0x30 c), c)) p1) (fun n => rfl)).trans ?_
  exact TTo.call (m := 8) (i := 1) (l := 2) (tag := 48) (el := (hdrOf (.leaf 0x30 c), c))
    (a' := rst 78 rest [f1, f2, f3, f4] [38, 10] true false 48 (some (hdrOf (.leaf 0x30 c), c)) p1)
    (fun n => rfl) rfl (by decide) (fun n => .ok rfl) rfl

theorem cert_more (t : Tree) (rest : List Tree) (p : PC κ) (f1 f2 f3 f4 : Fr) (tag : Nat) (el : Option (List UInt8 × List UInt8)) :
    TTo E pkcs7 (acts cp) (rst 80 (t :: rest) [f1, f2, f3, f4] [38, 10] true false tag el p)
      (rst 75 (t :: rest) [f1, f2, f3, f4] [38, 10] true false tag none p) := TTo.run 1 (fun n => rfl)

theorem certs_read : ∀ (cs : List Bytes) (_ : cs ≠ []) (p p' : PC κ) (_ : CertsReads cp p cs p') (f1 f2 f3 f4 : Fr) (tag : Nat)
    (el : Option (List UInt8 × List UInt8)),
    ∃ el', TTo E pkcs7 (acts cp) (rst 75 (cs.map cLeaf) [f1, f2, f3, f4] [38, 10] true false tag el p)
      (rst 80 [] [f1, f2, f3, f4] [38, 10] true false 48 (some el') p')
  | [], h, _, _, _, _, _, _, _, _, _ => absurd rfl h
  | [c], _, p, p', ⟨p1, h1, hr⟩, f1, f2, f3, f4, tag, el => by
    have hr' : p1 = p' := hr
    subst hr'
    exact ⟨_, cert_read (E := E) c [] p p1 h1 f1 f2 f3 f4 tag el⟩
  | a :: b :: as, _, p, p', ⟨p1, h1, hr⟩, f1, f2, f3, f4, tag, el => by
    have h1 := cert_read (E := E) a ((b :: as).map cLeaf) p p1 h1 f1 f2 f3 f4 tag el
    obtain ⟨el2, h2⟩ := certs_read (b :: as) (by simp) p1 p' hr f1 f2 f3 f4 48 none
    rw [List.map_cons] at h1 h2
    have h3 := cert_more (E := E) (cp := cp) (cLeaf b) (as.map cLeaf) p1 f1 f2 f3 f4 48 (some (hdrOf (.leaf 0x30 a), a))
    exact ⟨el2, (h1.trans h3).trans h2⟩

/-! ### The message -/

structure RMsg where
  so : Bytes
  dO : Bytes
  ver : UInt8
  hash : Bytes
  data : Bytes
  certs : List Bytes
  sis : List RSi

def rmsgTree (q : RMsg) : Tree := msgTree' q.so q.dO q.ver q.hash q.data (q.certs.map cLeaf) (q.sis.map rsiTree)

/-- The content is noted. -/
def dataP (d : Bytes) (p : PC κ) : PC κ := if d = [] then p else { p with data := some d }

structure MsgReads (cp : Bytes → Except Int κ) (q : RMsg) (p' : PC κ) where
  (p1 p2 p3 p4 p5 p6 : PC κ)
  certsNe : q.certs ≠ []
  sisNe : q.sis ≠ []
  h2 : checkContentType (withOid q.so {} : PC κ) = .ok p1
  h16 : noteMsgVersion ⟨2, hdrOf (.leaf 2 [q.ver]), [q.ver]⟩ p1 = .ok p2
  h13 : noteContent (dataP q.data (withOid q.dO (withOid q.hash p2))) = .ok p3
  certs : CertsReads cp p3 q.certs p4
  h12 : noteCertList p4 = .ok p5
  sis : SisReads p5 q.sis p'

theorem msg_read (q : RMsg) (p' : PC κ) (h : MsgReads cp q p') :
    ∃ a : TS (PC κ), TTo E pkcs7 (acts cp) { cur := [rmsgTree q], p := {} } a ∧ a.p = p' ∧ ∀ n, tstep pkcs7 (acts cp n) a = .halt 0 a.p := by
  obtain ⟨so, dO, ver, hash, data, certs, sis⟩ := q
  obtain ⟨p1, p2, p3, p4, p5, p6, hcn, hsn, h2, h16, h13, hcs, h12, hss⟩ := h
  dsimp only at *
  unfold rmsgTree msgTree'
  dsimp only
  generalize hks : [Tree.leaf 2 [ver], .node 0x31 [.node 0x30 [.leaf 6 hash]], contentTree dO data, .node 0xa0 (certs.map cLeaf),
    .node 0x31 (sis.map rsiTree)] = ks
  generalize hm : Tree.node 0x30 [.leaf 6 so, .node 0xa0 [.node 0x30 ks]] = mt'
  generalize hf1 : (⟨[], hdrOf mt', contentOf mt'⟩ : Fr) = f1
  refine ⟨rst 11 [] [] [] true true 4 (some (f1.hdr, f1.content)) p', ?_, rfl, fun n => rfl⟩
  refine (TTo.one (b := rst 2 [.leaf 6 so, .node 0xa0 [.node 0x30 ks]] [f1] [] true false 48 (some (hdrOf mt', contentOf mt')) {})
    (fun n => by subst hf1; subst hm; exact (mt 0 48).trans rfl)).trans ?_
  generalize (some (hdrOf mt', contentOf mt')) = el1
  refine (TTo.call (m := 3) (i := 2) (l := 3) (tag := 6) (el := (hdrOf (.leaf 6 so), so))
    (a' := rst 2 [.node 0xa0 [.node 0x30 ks]] [f1] [] true false 6 (some (hdrOf (.leaf 6 so), so)) {})
    (b := rst 5 [.node 0xa0 [.node 0x30 ks]] [f1] [] true false 6 (some (hdrOf (.leaf 6 so), so)) (withOid so {}))
    (fun n => (mt 2 6).trans rfl) rfl (by decide) (fun n => .ok rfl) rfl).trans ?_
  refine (TTo.call (m := 2) (i := 1) (l := 2) (tag := 6) (el := (hdrOf (.leaf 6 so), so))
    (a' := rst 5 [.node 0xa0 [.node 0x30 ks]] [f1] [] true false 6 (some (hdrOf (.leaf 6 so), so)) (withOid so {}))
    (b := rst 7 [.node 0xa0 [.node 0x30 ks]] [f1] [] true false 6 (some (hdrOf (.leaf 6 so), so)) p1)
    (fun n => rfl) rfl (by decide) (fun n => .ok h2) rfl).trans ?_
  generalize (some (hdrOf (.leaf 6 so), so)) = el2
  generalize hf2 : (⟨[], hdrOf (.node 0xa0 [.node 0x30 ks]), contentOf (.node 0xa0 [.node 0x30 ks])⟩ : Fr) = f2
  refine (TTo.one (b := rst 12 [.node 0x30 ks] [f2, f1] [10] true false 0xa0
    (some (hdrOf (.node 0xa0 [.node 0x30 ks]), contentOf (.node 0xa0 [.node 0x30 ks]))) p1)
    (fun n => by subst hf2; exact (mt 7 0xa0).trans rfl)).trans ?_
  generalize hf3 : (⟨[], hdrOf (.node 0x30 ks), contentOf (.node 0x30 ks)⟩ : Fr) = f3
  refine (TTo.one (b := rst 14 ks [f3, f2, f1] [10] true false 48 (some (hdrOf (.node 0x30 ks), contentOf (.node 0x30 ks))) p1)
    (fun n => by subst hf3; exact (mt 12 48).trans rfl)).trans ?_
  generalize (some (hdrOf (.node 0x30 ks), contentOf (.node 0x30 ks))) = el3
  have hf3r : f3.rest = [] := by rw [← hf3]
  have hf2r : f2.rest = [] := by rw [← hf2]
  have hf1r : f1.rest = [] := by rw [← hf1]
  clear hf3 hf2 hf1 hm
  subst hks
  -- version
  generalize hkv : [Tree.node 0x31 [.node 0x30 [.leaf 6 hash]], contentTree dO data, .node 0xa0 (certs.map cLeaf),
    .node 0x31 (sis.map rsiTree)] = kv
  refine (TTo.call (m := 16) (i := 2) (l := 3) (tag := 2) (el := (hdrOf (.leaf 2 [ver]), [ver]))
    (a' := rst 14 kv [f3, f2, f1] [10] true false 2 (some (hdrOf (.leaf 2 [ver]), [ver])) p1)
    (b := rst 17 kv [f3, f2, f1] [10] true false 2 (some (hdrOf (.leaf 2 [ver]), [ver])) p2)
    (fun n => (mt 14 2).trans rfl) rfl (by decide) (fun n => .ok h16) rfl).trans ?_
  generalize (some (hdrOf (.leaf 2 [ver]), [ver])) = el4
  subst hkv
  -- digest algorithms
  generalize hkv : [contentTree dO data, .node 0xa0 (certs.map cLeaf), .node 0x31 (sis.map rsiTree)] = kv
  generalize hat : Tree.node 0x31 [.node 0x30 [.leaf 6 hash]] = at1
  generalize hf4 : (⟨kv, hdrOf at1, contentOf at1⟩ : Fr) = f4
  refine (TTo.one (b := rst 59 [.node 0x30 [.leaf 6 hash]] [f4, f3, f2, f1] [20, 10] true false 49 (some (hdrOf at1, contentOf at1)) p2)
    (fun n => by subst hf4; subst hat; exact (mt 17 49).trans rfl)).trans ?_
  generalize (some (hdrOf at1, contentOf at1)) = el5
  generalize hf5 : (⟨[], hdrOf (.node 0x30 [.leaf 6 hash]), contentOf (.node 0x30 [.leaf 6 hash])⟩ : Fr) = f5
  refine (TTo.one (b := rst 114 [.leaf 6 hash] [f5, f4, f3, f2, f1] [62, 20, 10] true false 48
    (some (hdrOf (.node 0x30 [.leaf 6 hash]), contentOf (.node 0x30 [.leaf 6 hash]))) p2)
    (fun n => by subst hf5; exact (mt 59 48).trans rfl)).trans ?_
  refine (alg_read hash p2 f5 [f4, f3, f2, f1] 62 [20, 10] false 48 _).trans ?_
  rw [show f5.rest = [] by rw [← hf5]]
  generalize (some (f5.hdr, f5.content)) = el6
  refine (TTo.run 4 (b := rst 24 f4.rest [f3, f2, f1] [10] true false 6 (some (f4.hdr, f4.content)) (withOid hash p2)) (fun n => rfl)).trans ?_
  rw [show f4.rest = kv by rw [← hf4]]
  generalize (some (f4.hdr, f4.content)) = el7
  clear hf4
  subst hkv
  -- content
  generalize hkv : [Tree.node 0xa0 (certs.map cLeaf), .node 0x31 (sis.map rsiTree)] = kv
  have hcont : ∃ (tg : Bool × Nat) (el : List UInt8 × List UInt8), TTo E pkcs7 (acts cp) (rst 24 (contentTree dO data :: kv) [f3, f2, f1] [10] true false 6 el7 (withOid hash p2))
      (rst 33 kv [f3, f2, f1] [10] true tg.1 tg.2 (some el) (dataP data (withOid dO (withOid hash p2)))) := by
    unfold contentTree
    generalize hd : (if data = [] then ([] : List Tree) else [.node 0xa0 [.leaf 14 data]]) = dk
    generalize hf6 : (⟨kv, hdrOf (.node 0x30 (.leaf 6 dO :: dk)), contentOf (.node 0x30 (.leaf 6 dO :: dk))⟩ : Fr) = f6
    have h24 : TTo E pkcs7 (acts cp) (rst 24 (.node 0x30 (.leaf 6 dO :: dk) :: kv) [f3, f2, f1] [10] true false 6 el7 (withOid hash p2))
        (rst 29 dk [f6, f3, f2, f1] [10] true false 6 (some (hdrOf (.leaf 6 dO), dO)) (withOid dO (withOid hash p2))) := by
      refine (TTo.one (b := rst 26 (.leaf 6 dO :: dk) [f6, f3, f2, f1] [10] true false 48
        (some (hdrOf (.node 0x30 (.leaf 6 dO :: dk)), contentOf (.node 0x30 (.leaf 6 dO :: dk)))) (withOid hash p2))
        (fun n => by subst hf6; exact (mt 24 48).trans rfl)).trans ?_
      exact TTo.call (m := 4) (i := 2) (l := 3) (tag := 6) (el := (hdrOf (.leaf 6 dO), dO))
        (a' := rst 26 dk [f6, f3, f2, f1] [10] true false 6 (some (hdrOf (.leaf 6 dO), dO)) (withOid hash p2))
        (fun n => (mt 26 6).trans rfl) rfl (by decide) (fun n => .ok rfl) rfl
    have hf6r : f6.rest = kv := by rw [← hf6]
    generalize (withOid dO (withOid hash p2)) = q at *
    unfold dataP
    by_cases hde : data = []
    · rw [if_pos hde] at hd ⊢
      subst hd
      refine ⟨(false, 6), (f6.hdr, f6.content), h24.trans ?_⟩
      refine (TTo.run 2 (b := rst 33 f6.rest [f3, f2, f1] [10] true false 6 (some (f6.hdr, f6.content)) q) (fun n => rfl)).trans ?_
      rw [hf6r]
      exact TTo.refl _ _ _
    · rw [if_neg hde] at hd ⊢
      subst hd
      refine ⟨(true, 14), (f6.hdr, f6.content), h24.trans ?_⟩
      generalize hf7 : (⟨[], hdrOf (.node 0xa0 [.leaf 14 data]), contentOf (.node 0xa0 [.leaf 14 data])⟩ : Fr) = f7
      refine (TTo.one (b := rst 71 [.leaf 14 data] [f7, f6, f3, f2, f1] [32, 10] true false 0xa0
        (some (hdrOf (.node 0xa0 [.leaf 14 data]), contentOf (.node 0xa0 [.leaf 14 data]))) q)
        (fun n => by subst hf7; exact (mt 29 0xa0).trans rfl)).trans ?_
      refine (TTo.call (m := 14) (i := 1) (l := 2) (tag := 14) (el := (hdrOf (.leaf 14 data), data))
        (a' := rst 71 [] [f7, f6, f3, f2, f1] [32, 10] true false 14 (some (hdrOf (.leaf 14 data), data)) q)
        (b := rst 73 [] [f7, f6, f3, f2, f1] [32, 10] true false 14 (some (hdrOf (.leaf 14 data), data)) { q with data := some data })
        (fun n => (ma 71 14).trans rfl) rfl (by decide) (fun n => .ok rfl) rfl).trans ?_
      refine (TTo.run 3 (b := rst 33 f6.rest [f3, f2, f1] [10] true true 14 (some (f6.hdr, f6.content)) { q with data := some data })
        (fun n => by subst hf7; rfl)).trans ?_
      rw [hf6r]
      exact TTo.refl _ _ _
  obtain ⟨⟨l8, tg8⟩, el8, hcont⟩ := hcont
  dsimp only at hcont
  refine hcont.trans ?_
  clear hcont
  refine (TTo.call (m := 13) (i := 1) (l := 2) (tag := tg8) (el := el8)
    (a' := rst 33 kv [f3, f2, f1] [10] true l8 tg8 (some el8) (dataP data (withOid dO (withOid hash p2))))
    (b := rst 35 kv [f3, f2, f1] [10] true l8 tg8 (some el8) p3)
    (fun n => rfl) rfl (by decide) (fun n => .ok h13) rfl).trans ?_
  generalize (some el8) = el9
  subst hkv
  -- certificates
  generalize hcl : certs.map cLeaf = cl
  generalize hkv : [Tree.node 0x31 (sis.map rsiTree)] = kv
  generalize hf8 : (⟨kv, hdrOf (.node 0xa0 cl), contentOf (.node 0xa0 cl)⟩ : Fr) = f8
  refine (TTo.one (b := rst 75 cl [f8, f3, f2, f1] [38, 10] true false 0xa0 (some (hdrOf (.node 0xa0 cl), contentOf (.node 0xa0 cl))) p3)
    (fun n => by subst hf8; exact (mt 35 0xa0).trans rfl)).trans ?_
  obtain ⟨el10, hcr⟩ := certs_read (E := E) certs hcn p3 p4 hcs f8 f3 f2 f1 0xa0 (some (hdrOf (.node 0xa0 cl), contentOf (.node 0xa0 cl)))
  rw [hcl] at hcr
  refine hcr.trans ?_
  refine (TTo.run 3 (b := rst 41 f8.rest [f3, f2, f1] [10] true false 48 (some (f8.hdr, f8.content)) p4) (fun n => rfl)).trans ?_
  rw [show f8.rest = kv by rw [← hf8]]
  refine (TTo.call (m := 12) (i := 1) (l := 2) (tag := 48) (el := (f8.hdr, f8.content))
    (a' := rst 41 kv [f3, f2, f1] [10] true false 48 (some (f8.hdr, f8.content)) p4)
    (b := rst 43 kv [f3, f2, f1] [10] true false 48 (some (f8.hdr, f8.content)) p5)
    (fun n => rfl) rfl (by decide) (fun n => .ok h12) rfl).trans ?_
  generalize (some (f8.hdr, f8.content)) = el11
  subst hkv
  -- signers
  generalize hsl : sis.map rsiTree = sl
  refine (TTo.one (b := rst 46 [.node 0x31 sl] [f3, f2, f1] [10] false false 49 none p5) (fun n => (ms 43 49).trans rfl)).trans ?_
  refine (TTo.one (b := rst 49 [.node 0x31 sl] [f3, f2, f1] [10] false false 49 none p5) (fun n => (ms 46 49).trans rfl)).trans ?_
  generalize hf9 : (⟨[], hdrOf (.node 0x31 sl), contentOf (.node 0x31 sl)⟩ : Fr) = f9
  refine (TTo.one (b := rst 102 sl [f9, f3, f2, f1] [52, 10] true false 49 (some (hdrOf (.node 0x31 sl), contentOf (.node 0x31 sl))) p5)
    (fun n => by subst hf9; exact (mt 49 49).trans rfl)).trans ?_
  obtain ⟨el12, hsr⟩ := sis_read (E := E) (cp := cp) sis hsn p5 p' hss f9 f3 f2 f1 49 false (some (hdrOf (.node 0x31 sl), contentOf (.node 0x31 sl)))
  rw [hsl] at hsr
  refine hsr.trans ?_
  have hf9r : f9.rest = [] := by rw [← hf9]
  obtain ⟨r9, h9, c9⟩ := f9
  obtain ⟨r3, h3, c3⟩ := f3
  obtain ⟨r2, h2', c2⟩ := f2
  obtain ⟨r1, h1, c1⟩ := f1
  dsimp only at hf9r hf3r hf2r hf1r
  subst hf9r hf3r hf2r hf1r
  exact TTo.run 8 (fun n => rfl)

end LC.P7
