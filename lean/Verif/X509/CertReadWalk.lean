import Verif.X509.CertWalk
/-
The bytecode of `x509.asn1.c` in the decoder, on a certificate of the shape that the generator writes.
-/
namespace LC.Crt
open LC.Asn1 LC.Asn1.Enc LC.Asn1.Gen LC.Asn1.Tr

set_option maxRecDepth 8000

variable {E : Nat → Prop}

/-- A state of the decoder. -/
abbrev rst (pc : Nat) (cur : List Tree) (frs : List Fr) (jstk : List Nat) (m l : Bool) (tag : Nat) (el : Option (List UInt8 × List UInt8))
    (p : P) : TS P :=
  { pc := pc, cur := cur, frs := frs, jstk := jstk, matched := m, last := l, tag := tag, el := el, p := p }

local macro "mt" pc:term:max tg:term:max : term =>
  `(tstep_match _ _ _ $pc $tg rfl rfl rfl (by decide) (by decide) rfl rfl rfl (by decide) rfl rfl rfl)
local macro "ma" pc:term:max tg:term:max : term =>
  `(tstep_any _ _ _ $pc $tg rfl rfl rfl (by decide) (by decide) rfl rfl rfl (by decide) rfl)
local macro "ms" pc:term:max tg:term:max : term =>
  `(tstep_skip _ _ _ $pc $tg rfl rfl rfl (by decide) (by decide) rfl rfl rfl (by decide) rfl rfl rfl rfl)

theorem alg_read (o : Bytes) (p : P) (f : Fr) (fs : List Fr) (r : Nat) (js : List Nat) (l : Bool) (tag : Nat)
    (el : Option (List UInt8 × List UInt8)) :
    TTo E x509 certPActs (rst 82 [.leaf 6 o] (f :: fs) (r :: js) true l tag el p)
      (rst r f.rest fs js true true 6 (some (f.hdr, f.content)) (noteOid o p)) := by
  refine (TTo.call (m := 6) (i := 2) (l := 3) (tag := 6) (el := (hdrOf (.leaf 6 o), o)) (a' := rst 82 [] (f :: fs) (r :: js) true false 6 (some (hdrOf (.leaf 6 o), o)) p)
    (b := rst 85 [] (f :: fs) (r :: js) true false 6 (some (hdrOf (.leaf 6 o), o)) (noteOid o p))
    (fun n => (mt 82 6).trans rfl) rfl (by decide) (fun n => .ok rfl) rfl).trans ?_
  exact TTo.run 3 (fun n => rfl)

/-- An attribute of a name. -/
def attrP (p : P) (a : Bytes × Bytes) : P := nameSegment a.2 (noteOid a.1 p)

theorem attr_read (a : Bytes × Bytes) (rest : List Tree) (p : P) (f1 f2 f3 f4 : Fr) (js : List Nat) (tag : Nat)
    (el : Option (List UInt8 × List UInt8)) :
    ∃ el', TTo E x509 certPActs (rst 91 (attrTree a :: rest) [f1, f2, f3, f4] js true false tag el p)
      (rst 100 rest [f1, f2, f3, f4] js true false 4 (some el') (attrP p a)) := by
  obtain ⟨o, v⟩ := a
  refine ⟨(hdrOf (attrTree (o, v)), contentOf (attrTree (o, v))), ?_⟩
  generalize hf : (⟨rest, hdrOf (attrTree (o, v)), contentOf (attrTree (o, v))⟩ : Fr) = f
  refine (TTo.one (b := rst 93 [.leaf 6 o, .leaf 4 v] [f, f1, f2, f3, f4] js true false 48
    (some (hdrOf (attrTree (o, v)), contentOf (attrTree (o, v)))) p) (fun n => by subst hf; exact (mt 91 48).trans rfl)).trans ?_
  refine (TTo.call (m := 7) (i := 2) (l := 3) (tag := 6) (el := (hdrOf (.leaf 6 o), o)) (a' := rst 93 [.leaf 4 v] [f, f1, f2, f3, f4] js true false 6 (some (hdrOf (.leaf 6 o), o)) p)
    (b := rst 96 [.leaf 4 v] [f, f1, f2, f3, f4] js true false 6 (some (hdrOf (.leaf 6 o), o)) (noteOid o p))
    (fun n => (mt 93 6).trans rfl) rfl (by decide) (fun n => .ok rfl) rfl).trans ?_
  refine (TTo.call (m := 4) (i := 1) (l := 2) (tag := 4) (el := (hdrOf (.leaf 4 v), v)) (a' := rst 96 [] [f, f1, f2, f3, f4] js true false 4 (some (hdrOf (.leaf 4 v), v)) (noteOid o p))
    (b := rst 98 [] [f, f1, f2, f3, f4] js true false 4 (some (hdrOf (.leaf 4 v), v)) (nameSegment v (noteOid o p)))
    (fun n => (ma 96 4).trans rfl) rfl (by decide) (fun n => .ok rfl) rfl).trans ?_
  subst hf
  exact TTo.call (m := 0) (i := 1) (l := 2) (tag := 0) (el := (hdrOf (attrTree (o, v)), contentOf (attrTree (o, v)))) (a' := rst 98 rest [f1, f2, f3, f4] js true false 4
      (some (hdrOf (attrTree (o, v)), contentOf (attrTree (o, v)))) (nameSegment v (noteOid o p)))
    (fun n => rfl) rfl (by decide) (fun n => .ok rfl) rfl

theorem attr_more (t : Tree) (rest : List Tree) (p : P) (f1 f2 f3 f4 : Fr) (js : List Nat) (tag : Nat)
    (el : Option (List UInt8 × List UInt8)) :
    TTo E x509 certPActs (rst 100 (t :: rest) [f1, f2, f3, f4] js true false tag el p)
      (rst 91 (t :: rest) [f1, f2, f3, f4] js true false tag none p) := TTo.run 1 (fun n => rfl)

theorem attrs_read : ∀ (as : List (Bytes × Bytes)) (_ : as ≠ []) (p : P) (f1 f2 f3 f4 : Fr) (js : List Nat) (tag : Nat)
    (el : Option (List UInt8 × List UInt8)),
    ∃ el', TTo E x509 certPActs (rst 91 (as.map attrTree) [f1, f2, f3, f4] js true false tag el p)
      (rst 100 [] [f1, f2, f3, f4] js true false 4 (some el') (as.foldl attrP p))
  | [], h, _, _, _, _, _, _, _, _ => absurd rfl h
  | [a], _, p, f1, f2, f3, f4, js, tag, el => attr_read a [] p f1 f2 f3 f4 js tag el
  | a :: b :: as, _, p, f1, f2, f3, f4, js, tag, el => by
    obtain ⟨el1, h1⟩ := attr_read (E := E) a ((b :: as).map attrTree) p f1 f2 f3 f4 js tag el
    obtain ⟨el2, h2⟩ := attrs_read (b :: as) (by simp) (attrP p a) f1 f2 f3 f4 js 4 none
    rw [List.map_cons] at h1 h2
    have h3 := attr_more (E := E) (attrTree b) (as.map attrTree) (attrP p a) f1 f2 f3 f4 js 4 (some el1)
    rw [List.foldl_cons]
    exact ⟨el2, (h1.trans h3).trans h2⟩

theorem name_read (as : List (Bytes × Bytes)) (h : as ≠ []) (p : P) (f2 f3 f4 : Fr) (r : Nat) (js : List Nat) (tag : Nat)
    (el : Option (List UInt8 × List UInt8)) :
    TTo E x509 certPActs (rst 89 [.node 0x31 (as.map attrTree)] [f2, f3, f4] (r :: js) true false tag el p)
      (rst r f2.rest [f3, f4] js true true 4 (some (f2.hdr, f2.content)) (as.foldl attrP p)) := by
  generalize hf : (⟨[], hdrOf (.node 0x31 (as.map attrTree)), contentOf (.node 0x31 (as.map attrTree))⟩ : Fr) = f
  obtain ⟨el1, h1⟩ := attrs_read (E := E) as h p f f2 f3 f4 (r :: js) 49
    (some (hdrOf (.node 0x31 (as.map attrTree)), contentOf (.node 0x31 (as.map attrTree))))
  refine (TTo.one (fun n => ?_)).trans (h1.trans ?_)
  · subst hf
    exact (mt 89 0x31).trans rfl
  · subst hf
    exact TTo.run 3 (fun n => rfl)

/-- The criticality. -/
def critP (b : Bytes) (p : P) : P :=
  match b with
  | [v] => { p with ext := { p.ext with critical := v = 0xff } }
  | _ => p

/-- The extensions: those after which the parser state is `p'`. -/
def ExtsP (E : Nat → Prop) : P → List ExtItem → P → Prop
  | p, [], p' => p = p'
  | p, e :: es, p' => (e.crit = [] ∨ ∃ b, e.crit = [b]) ∧
      ∃ p1, (∀ n, Gives (E n) (procExtP n e.val (critP e.crit (noteOid e.oid p))) p1) ∧ ExtsP E p1 es p'

theorem ext_read (e : ExtItem) (rest : List Tree) (p p1 : P) (hc : e.crit = [] ∨ ∃ b, e.crit = [b])
    (h : ∀ n, Gives (E n) (procExtP n e.val (critP e.crit (noteOid e.oid p))) p1) (f1 f2 f3 f4 : Fr) (js : List Nat) (tag : Nat)
    (el : Option (List UInt8 × List UInt8)) :
    ∃ el', TTo E x509 certPActs (rst 107 (extItemTree e :: rest) [f1, f2, f3, f4] js true false tag el p)
      (rst 120 rest [f1, f2, f3, f4] js true false 4 (some el') p1) := by
  obtain ⟨o, k, v⟩ := e
  refine ⟨(hdrOf (extItemTree ⟨o, k, v⟩), contentOf (extItemTree ⟨o, k, v⟩)), ?_⟩
  generalize hf : (⟨rest, hdrOf (extItemTree ⟨o, k, v⟩), contentOf (extItemTree ⟨o, k, v⟩)⟩ : Fr) = f
  refine (TTo.one (b := rst 109 (.leaf 6 o :: (optLeaf 1 k ++ [.leaf 4 v])) [f, f1, f2, f3, f4] js true false 48
    (some (hdrOf (extItemTree ⟨o, k, v⟩), contentOf (extItemTree ⟨o, k, v⟩))) p)
    (fun n => by subst hf; exact (mt 107 48).trans rfl)).trans ?_
  refine (TTo.call (m := 1) (i := 2) (l := 3) (tag := 6) (el := (hdrOf (.leaf 6 o), o)) (a' := rst 109 (optLeaf 1 k ++ [.leaf 4 v]) [f, f1, f2, f3, f4] js true false 6 (some (hdrOf (.leaf 6 o), o)) p)
    (b := rst 112 (optLeaf 1 k ++ [.leaf 4 v]) [f, f1, f2, f3, f4] js true false 6 (some (hdrOf (.leaf 6 o), o)) (noteOid o p))
    (fun n => (mt 109 6).trans rfl) rfl (by decide) (fun n => .ok rfl) rfl).trans ?_
  have hend : ∀ el, TTo E x509 certPActs (rst 118 [] [f, f1, f2, f3, f4] js true false 4 el p1)
      (rst 120 rest [f1, f2, f3, f4] js true false 4 (some (hdrOf (extItemTree ⟨o, k, v⟩), contentOf (extItemTree ⟨o, k, v⟩))) p1) := by
    intro el
    subst hf
    exact TTo.call (m := 2) (i := 1) (l := 2) (tag := 0) (el := (hdrOf (extItemTree ⟨o, k, v⟩), contentOf (extItemTree ⟨o, k, v⟩))) (a' := rst 118 rest [f1, f2, f3, f4] js true false 4
        (some (hdrOf (extItemTree ⟨o, k, v⟩), contentOf (extItemTree ⟨o, k, v⟩))) p1)
      (fun n => rfl) rfl (by decide) (fun n => .ok rfl) rfl
  dsimp only at hc h
  rcases hc with rfl | ⟨b, rfl⟩
  · refine TTo.trans ?_ (hend (some (hdrOf (.leaf 4 v), v)))
    refine (TTo.one (b := rst 115 [.leaf 4 v] [f, f1, f2, f3, f4] js false false 4 none (noteOid o p))
      (fun n => (ms 112 4).trans rfl)).trans ?_
    exact TTo.call (m := 17) (i := 2) (l := 3) (tag := 4) (el := (hdrOf (.leaf 4 v), v)) (a' := rst 115 [] [f, f1, f2, f3, f4] js true false 4 (some (hdrOf (.leaf 4 v), v)) (noteOid o p))
      (fun n => (mt 115 4).trans rfl) rfl (by decide) h rfl
  · refine TTo.trans ?_ (hend (some (hdrOf (.leaf 4 v), v)))
    refine (TTo.call (m := 3) (i := 2) (l := 3) (tag := 1) (el := (hdrOf (.leaf 1 [b]), [b]))
      (a' := rst 112 [.leaf 4 v] [f, f1, f2, f3, f4] js true false 1 (some (hdrOf (.leaf 1 [b]), [b])) (noteOid o p))
      (b := rst 115 [.leaf 4 v] [f, f1, f2, f3, f4] js true false 1 (some (hdrOf (.leaf 1 [b]), [b])) (critP [b] (noteOid o p)))
      (fun n => (mt 112 1).trans rfl) rfl (by decide) (fun n => .ok rfl) rfl).trans ?_
    exact TTo.call (m := 17) (i := 2) (l := 3) (tag := 4) (el := (hdrOf (.leaf 4 v), v)) (a' := rst 115 [] [f, f1, f2, f3, f4] js true false 4 (some (hdrOf (.leaf 4 v), v)) (critP [b] (noteOid o p)))
      (fun n => (mt 115 4).trans rfl) rfl (by decide) h rfl

theorem ext_more (t : Tree) (rest : List Tree) (p : P) (f1 f2 f3 f4 : Fr) (js : List Nat) (tag : Nat)
    (el : Option (List UInt8 × List UInt8)) :
    TTo E x509 certPActs (rst 120 (t :: rest) [f1, f2, f3, f4] js true false tag el p)
      (rst 107 (t :: rest) [f1, f2, f3, f4] js true false tag none p) := TTo.run 1 (fun n => rfl)

theorem exts_read : ∀ (es : List ExtItem) (_ : es ≠ []) (p p' : P) (_ : ExtsP E p es p') (f1 f2 f3 f4 : Fr) (js : List Nat) (tag : Nat)
    (el : Option (List UInt8 × List UInt8)),
    ∃ el', TTo E x509 certPActs (rst 107 (es.map extItemTree) [f1, f2, f3, f4] js true false tag el p)
      (rst 120 [] [f1, f2, f3, f4] js true false 4 (some el') p')
  | [], h, _, _, _, _, _, _, _, _, _, _ => absurd rfl h
  | [e], _, p, p', ⟨hc, p1, hg, hr⟩, f1, f2, f3, f4, js, tag, el => by
    have hr' : p1 = p' := hr
    subst hr'
    exact ext_read e [] p p1 hc hg f1 f2 f3 f4 js tag el
  | e :: e' :: es, _, p, p', ⟨hc, p1, hg, hr⟩, f1, f2, f3, f4, js, tag, el => by
    obtain ⟨el1, h1⟩ := ext_read (E := E) e ((e' :: es).map extItemTree) p p1 hc hg f1 f2 f3 f4 js tag el
    obtain ⟨el2, h2⟩ := exts_read (e' :: es) (by simp) p1 p' hr f1 f2 f3 f4 js 4 none
    rw [List.map_cons] at h1 h2
    have h3 := ext_more (E := E) (extItemTree e') (es.map extItemTree) p1 f1 f2 f3 f4 js 4 (some el1)
    exact ⟨el2, (h1.trans h3).trans h2⟩

/-- Extensions. -/
theorem extensions_read (es : List ExtItem) (hne : es ≠ []) (p p' : P) (hes : ExtsP E p es p') (f2 f3 f4 : Fr) (r : Nat) (js : List Nat)
    (tag : Nat) (el : Option (List UInt8 × List UInt8)) :
    TTo E x509 certPActs (rst 105 [.node 0x30 (es.map extItemTree)] [f2, f3, f4] (r :: js) true false tag el p)
      (rst r f2.rest [f3, f4] js true true 4 (some (f2.hdr, f2.content)) p') := by
  generalize hf : (⟨[], hdrOf (.node 0x30 (es.map extItemTree)), contentOf (.node 0x30 (es.map extItemTree))⟩ : Fr) = f
  obtain ⟨el1, h1⟩ := exts_read (E := E) es hne p p' hes f f2 f3 f4 (r :: js) 48
    (some (hdrOf (.node 0x30 (es.map extItemTree)), contentOf (.node 0x30 (es.map extItemTree))))
  refine (TTo.one (fun n => ?_)).trans (h1.trans ?_)
  · subst hf
    exact (mt 105 0x30).trans rfl
  · subst hf
    exact TTo.run 3 (fun n => rfl)

/-- A time of one of the two kinds. -/
structure IsTime (t : Tree) (tag : Nat) (v : Bytes) : Prop where
  h : (t = .leaf 23 v ∧ tag = 23) ∨ (t = .leaf 24 v ∧ tag = 24)

theorem time1_read (t : Tree) (tg : Nat) (v : Bytes) (ht : IsTime t tg v) (rest : List Tree) (p p' : P)
    (hg : ∀ n, Gives (E n) (timeP tg v fun t => { p with validFrom := t }) p') (frs : List Fr) (tag : Nat)
    (el : Option (List UInt8 × List UInt8)) :
    TTo E x509 certPActs (rst 23 (t :: rest) frs [] true false tag el p)
      (rst 32 rest frs [] true false tg (some (hdrOf t, v)) p') := by
  rcases ht.h with ⟨rfl, rfl⟩ | ⟨rfl, rfl⟩
  · refine (TTo.call (m := 19) (i := 2) (l := 3) (tag := 23) (el := (hdrOf (.leaf 23 v), v)) (a' := rst 23 rest frs [] true false 23 (some (hdrOf (.leaf 23 v), v)) p)
      (b := rst 26 rest frs [] true false 23 (some (hdrOf (.leaf 23 v), v)) p) (fun n => (mt 23 23).trans rfl) rfl (by decide)
      (fun n => .ok rfl) rfl).trans ?_
    refine (TTo.run 2 (b := rst 30 rest frs [] true false 23 (some (hdrOf (.leaf 23 v), v)) p) (fun n => rfl)).trans ?_
    exact TTo.call (m := 10) (i := 1) (l := 2) (tag := 23) (el := (hdrOf (.leaf 23 v), v)) (a' := rst 30 rest frs [] true false 23 (some (hdrOf (.leaf 23 v), v)) p) (fun n => rfl) rfl (by decide) hg rfl
  · refine (TTo.one (b := rst 26 (.leaf 24 v :: rest) frs [] false false 24 none p) (fun n => (ms 23 24).trans rfl)).trans ?_
    refine (TTo.call (m := 18) (i := 2) (l := 3) (tag := 24) (el := (hdrOf (.leaf 24 v), v)) (a' := rst 26 rest frs [] true false 24 (some (hdrOf (.leaf 24 v), v)) p)
      (b := rst 29 rest frs [] true false 24 (some (hdrOf (.leaf 24 v), v)) p) (fun n => (mt 26 24).trans rfl) rfl (by decide)
      (fun n => .ok rfl) rfl).trans ?_
    refine (TTo.run 1 (b := rst 30 rest frs [] true false 24 (some (hdrOf (.leaf 24 v), v)) p) (fun n => rfl)).trans ?_
    exact TTo.call (m := 10) (i := 1) (l := 2) (tag := 24) (el := (hdrOf (.leaf 24 v), v)) (a' := rst 30 rest frs [] true false 24 (some (hdrOf (.leaf 24 v), v)) p) (fun n => rfl) rfl (by decide) hg rfl

theorem time2_read (t : Tree) (tg : Nat) (v : Bytes) (ht : IsTime t tg v) (rest : List Tree) (p p' : P)
    (hg : ∀ n, Gives (E n) (timeP tg v fun t => { p with validTo := t }) p') (frs : List Fr) (tag : Nat)
    (el : Option (List UInt8 × List UInt8)) :
    TTo E x509 certPActs (rst 32 (t :: rest) frs [] true false tag el p)
      (rst 41 rest frs [] true false tg (some (hdrOf t, v)) p') := by
  rcases ht.h with ⟨rfl, rfl⟩ | ⟨rfl, rfl⟩
  · refine (TTo.call (m := 19) (i := 2) (l := 3) (tag := 23) (el := (hdrOf (.leaf 23 v), v)) (a' := rst 32 rest frs [] true false 23 (some (hdrOf (.leaf 23 v), v)) p)
      (b := rst 35 rest frs [] true false 23 (some (hdrOf (.leaf 23 v), v)) p) (fun n => (mt 32 23).trans rfl) rfl (by decide)
      (fun n => .ok rfl) rfl).trans ?_
    refine (TTo.run 2 (b := rst 39 rest frs [] true false 23 (some (hdrOf (.leaf 23 v), v)) p) (fun n => rfl)).trans ?_
    exact TTo.call (m := 9) (i := 1) (l := 2) (tag := 23) (el := (hdrOf (.leaf 23 v), v)) (a' := rst 39 rest frs [] true false 23 (some (hdrOf (.leaf 23 v), v)) p) (fun n => rfl) rfl (by decide) hg rfl
  · refine (TTo.one (b := rst 35 (.leaf 24 v :: rest) frs [] false false 24 none p) (fun n => (ms 32 24).trans rfl)).trans ?_
    refine (TTo.call (m := 18) (i := 2) (l := 3) (tag := 24) (el := (hdrOf (.leaf 24 v), v)) (a' := rst 35 rest frs [] true false 24 (some (hdrOf (.leaf 24 v), v)) p)
      (b := rst 38 rest frs [] true false 24 (some (hdrOf (.leaf 24 v), v)) p) (fun n => (mt 35 24).trans rfl) rfl (by decide)
      (fun n => .ok rfl) rfl).trans ?_
    refine (TTo.run 1 (b := rst 39 rest frs [] true false 24 (some (hdrOf (.leaf 24 v), v)) p) (fun n => rfl)).trans ?_
    exact TTo.call (m := 9) (i := 1) (l := 2) (tag := 24) (el := (hdrOf (.leaf 24 v), v)) (a' := rst 39 rest frs [] true false 24 (some (hdrOf (.leaf 24 v), v)) p) (fun n => rfl) rfl (by decide) hg rfl

/-- The parser state on the way through a certificate. -/
structure CertReads (E : Nat → Prop) (q : CertParts) (p' : P) where
  (pC pE pF pG pI pK pL : P)
  (t1 t2 : Nat)
  (v1 v2 : Bytes)
  issNe : q.issuer ≠ []
  subNe : q.subject ≠ []
  extNe : q.exts ≠ []
  h13 : noteSigAlgo (noteOid q.alg { version := 3, serial := q.serial }) = .ok pC
  h8 : ∀ n, Gives (E n) (noteIssuer (serL [.node 0x31 (q.issuer.map attrTree)]) (q.issuer.foldl attrP pC)) pE
  nb : IsTime q.notBefore t1 v1
  h10 : ∀ n, Gives (E n) (timeP t1 v1 fun t => { pE with validFrom := t }) pF
  na : IsTime q.notAfter t2 v2
  h9 : ∀ n, Gives (E n) (timeP t2 v2 fun t => { pF with validTo := t }) pG
  h15 : ∀ n, Gives (E n) (noteSubject (serL [.node 0x31 (q.subject.map attrTree)]) (q.subject.foldl attrP pG)) pI
  h5 : keyData q.key (noteOid q.keyAlg pI) = .ok pK
  exts : ExtsP E pK q.exts pL
  h14 : ∀ n, Gives (E n) (noteSignature q.sig (noteOid q.alg { pL with tbs := ser (.node 0x30 (tbsKids q)) })) p'

theorem cert_read (q : CertParts) (p' : P) (h : CertReads E q p') :
    ∃ a : TS P, TTo E x509 certPActs { cur := [certTree q], p := {} } a ∧ a.p = p' ∧ ∀ n, tstep x509 (certPActs n) a = .halt 0 a.p := by
  obtain ⟨sn, al, iss, nb, na, sub, kal, key, es, sig⟩ := q
  have h13 := h.h13
  have h5 := h.h5
  have h8 := h.h8
  have h10 := h.h10
  have h9 := h.h9
  have h15 := h.h15
  have h14 := h.h14
  have hex := h.exts
  have hnb := h.nb
  have hna := h.na
  have i1 := h.issNe
  have i2 := h.subNe
  have i3 := h.extNe
  dsimp only at *
  have hk : tbsKids ⟨sn, al, iss, nb, na, sub, kal, key, es, sig⟩ = [.node 0xa0 [.leaf 2 [2]], .leaf 2 sn, .node 0x30 [.leaf 6 al],
    .node 0x30 [.node 0x31 (iss.map attrTree)], .node 0x30 [nb, na], .node 0x30 [.node 0x31 (sub.map attrTree)],
    .node 0x30 [.node 0x30 [.leaf 6 kal], .leaf 3 key], .node 0xa3 [.node 0x30 (es.map extItemTree)]] := rfl
  have hct : certTree ⟨sn, al, iss, nb, na, sub, kal, key, es, sig⟩ =
    .node 0x30 [.node 0x30 (tbsKids ⟨sn, al, iss, nb, na, sub, kal, key, es, sig⟩), .node 0x30 [.leaf 6 al], .leaf 3 sig] := rfl
  rw [hct]
  generalize hks : tbsKids ⟨sn, al, iss, nb, na, sub, kal, key, es, sig⟩ = ks at *
  clear hct
  generalize hfc : (⟨[], hdrOf (.node 0x30 [.node 0x30 ks, .node 0x30 [.leaf 6 al], .leaf 3 sig]),
    contentOf (.node 0x30 [.node 0x30 ks, .node 0x30 [.leaf 6 al], .leaf 3 sig])⟩ : Fr) = fc
  generalize hft : (⟨[.node 0x30 [.leaf 6 al], .leaf 3 sig], hdrOf (.node 0x30 ks), contentOf (.node 0x30 ks)⟩ : Fr) = ft
  -- the end of the certificate
  have send : ∀ tg, TTo E x509 certPActs (rst 64 [.node 0x30 [.leaf 6 al], .leaf 3 sig] [fc] [] true true tg
      (some (hdrOf (.node 0x30 ks), contentOf (.node 0x30 ks))) h.pL) (rst 75 [] [] [] true false 3 (some (fc.hdr, fc.content)) p') := by
    intro tg
    refine (TTo.call (m := 16) (i := 1) (l := 2) (tag := tg) (el := (hdrOf (.node 0x30 ks), contentOf (.node 0x30 ks))) (a' := rst 64 [.node 0x30 [.leaf 6 al], .leaf 3 sig] [fc] [] true true tg
      (some (hdrOf (.node 0x30 ks), contentOf (.node 0x30 ks))) h.pL)
      (b := rst 66 [.node 0x30 [.leaf 6 al], .leaf 3 sig] [fc] [] true true tg
      (some (hdrOf (.node 0x30 ks), contentOf (.node 0x30 ks))) { h.pL with tbs := ser (.node 0x30 ks) })
      (fun n => rfl) rfl (by decide) (fun n => .ok rfl) rfl).trans ?_
    generalize ({ h.pL with tbs := ser (.node 0x30 ks) } : P) = pM at *
    generalize hfa : (⟨[.leaf 3 sig], hdrOf (.node 0x30 [.leaf 6 al]), contentOf (.node 0x30 [.leaf 6 al])⟩ : Fr) = fa
    refine (TTo.one (b := rst 82 [.leaf 6 al] [fa, fc] [69] true false 48
      (some (hdrOf (.node 0x30 [.leaf 6 al]), contentOf (.node 0x30 [.leaf 6 al]))) pM)
      (fun n => by subst hfa; exact (mt 66 48).trans rfl)).trans ?_
    refine (alg_read al pM fa [fc] 69 [] false 48 _).trans ?_
    rw [show fa.rest = [.leaf 3 sig] by rw [← hfa]]
    refine (TTo.call (m := 20) (i := 1) (l := 2) (tag := 6) (el := (fa.hdr, fa.content)) (a' := rst 69 [.leaf 3 sig] [fc] [] true true 6 (some (fa.hdr, fa.content)) (noteOid al pM))
      (b := rst 71 [.leaf 3 sig] [fc] [] true true 6 (some (fa.hdr, fa.content)) (noteOid al pM)) (fun n => rfl) rfl (by decide)
      (fun n => .ok rfl) rfl).trans ?_
    refine (TTo.call (m := 14) (i := 2) (l := 3) (tag := 3) (el := (hdrOf (.leaf 3 sig), sig)) (a' := rst 71 [] [fc] [] true false 3 (some (hdrOf (.leaf 3 sig), sig)) (noteOid al pM))
      (b := rst 74 [] [fc] [] true false 3 (some (hdrOf (.leaf 3 sig), sig)) p') (fun n => (mt 71 3).trans rfl) rfl (by decide)
      h14 rfl).trans ?_
    subst hfc
    exact TTo.one (fun n => rfl)
  refine ⟨rst 75 [] [] [] true false 3 (some (fc.hdr, fc.content)) p', ?_, rfl, fun n => rfl⟩
  refine (TTo.one (b := rst 2 [.node 0x30 ks, .node 0x30 [.leaf 6 al], .leaf 3 sig] [fc] [] true false 48
      (some (hdrOf (.node 0x30 [.node 0x30 ks, .node 0x30 [.leaf 6 al], .leaf 3 sig]),
             contentOf (.node 0x30 [.node 0x30 ks, .node 0x30 [.leaf 6 al], .leaf 3 sig]))) {})
    (fun n => by subst hfc; exact (mt 0 48).trans rfl)).trans ?_
  refine (TTo.one (b := rst 4 ks [ft, fc] [] true false 48 (some (hdrOf (.node 0x30 ks), contentOf (.node 0x30 ks))) {})
    (fun n => by subst hft; exact (mt 2 48).trans rfl)).trans ?_
  have hftr : ft.rest = [.node 0x30 [.leaf 6 al], .leaf 3 sig] := by rw [← hft]
  have hfth : ft.hdr = hdrOf (.node 0x30 ks) := by rw [← hft]
  have hftc : ft.content = contentOf (.node 0x30 ks) := by rw [← hft]
  generalize (some (hdrOf (.node 0x30 ks), contentOf (.node 0x30 ks))) = el0
  rw [hk]
  -- version
  generalize hkv : [Tree.leaf 2 sn, .node 0x30 [.leaf 6 al],
    .node 0x30 [.node 0x31 (iss.map attrTree)], .node 0x30 [nb, na], .node 0x30 [.node 0x31 (sub.map attrTree)],
    .node 0x30 [.node 0x30 [.leaf 6 kal], .leaf 3 key], .node 0xa3 [.node 0x30 (es.map extItemTree)]] = kv
  generalize hfv : (⟨kv, hdrOf (.node 0xa0 [.leaf 2 [2]]), contentOf (.node 0xa0 [.leaf 2 [2]])⟩ : Fr) = fv
  refine (TTo.one (b := rst 76 [.leaf 2 [2]] [fv, ft, fc] [7] true false 160
    (some (hdrOf (.node 0xa0 [.leaf 2 [2]]), contentOf (.node 0xa0 [.leaf 2 [2]]))) {})
    (fun n => by subst hfv; exact (mt 4 0xa0).trans rfl)).trans ?_
  refine (TTo.one (b := rst 78 [] [fv, ft, fc] [7] true false 2 (some (hdrOf (.leaf 2 [2]), [2])) {}) (fun n => (mt 76 2).trans rfl)).trans ?_
  refine (TTo.call (m := 21) (i := 1) (l := 2) (tag := 2) (el := (hdrOf (.leaf 2 [2]), [2])) (a' := rst 78 [] [fv, ft, fc] [7] true false 2 (some (hdrOf (.leaf 2 [2]), [2])) {})
    (b := rst 80 [] [fv, ft, fc] [7] true false 2 (some (hdrOf (.leaf 2 [2]), [2])) { version := 3 })
    (fun n => rfl) rfl (by decide) (fun n => .ok rfl) rfl).trans ?_
  refine (TTo.run 2 (b := rst 7 kv [ft, fc] [] true true 2 (some (fv.hdr, fv.content)) { version := 3 })
    (fun n => by subst hfv; rfl)).trans ?_
  generalize (some (fv.hdr, fv.content)) = elv
  subst hkv
  -- serial number
  generalize hkv : [Tree.node 0x30 [.leaf 6 al],
    .node 0x30 [.node 0x31 (iss.map attrTree)], .node 0x30 [nb, na], .node 0x30 [.node 0x31 (sub.map attrTree)],
    .node 0x30 [.node 0x30 [.leaf 6 kal], .leaf 3 key], .node 0xa3 [.node 0x30 (es.map extItemTree)]] = kv
  refine (TTo.one (b := rst 9 kv [ft, fc] [] true false 2 (some (hdrOf (.leaf 2 sn), sn)) { version := 3 })
    (fun n => (mt 7 2).trans rfl)).trans ?_
  refine (TTo.call (m := 12) (i := 1) (l := 2) (tag := 2) (el := (hdrOf (.leaf 2 sn), sn)) (a' := rst 9 kv [ft, fc] [] true false 2 (some (hdrOf (.leaf 2 sn), sn)) { version := 3 })
    (b := rst 11 kv [ft, fc] [] true false 2 (some (hdrOf (.leaf 2 sn), sn)) { version := 3, serial := sn })
    (fun n => rfl) rfl (by decide) (fun n => .ok rfl) rfl).trans ?_
  subst hkv
  -- algorithm
  generalize hkv : [Tree.node 0x30 [.node 0x31 (iss.map attrTree)], .node 0x30 [nb, na], .node 0x30 [.node 0x31 (sub.map attrTree)],
    .node 0x30 [.node 0x30 [.leaf 6 kal], .leaf 3 key], .node 0xa3 [.node 0x30 (es.map extItemTree)]] = kv
  generalize hfa : (⟨kv, hdrOf (.node 0x30 [.leaf 6 al]), contentOf (.node 0x30 [.leaf 6 al])⟩ : Fr) = fa
  refine (TTo.one (b := rst 82 [.leaf 6 al] [fa, ft, fc] [14] true false 48
    (some (hdrOf (.node 0x30 [.leaf 6 al]), contentOf (.node 0x30 [.leaf 6 al]))) { version := 3, serial := sn })
    (fun n => by subst hfa; exact (mt 11 48).trans rfl)).trans ?_
  refine (alg_read al _ fa [ft, fc] 14 [] false 48 _).trans ?_
  rw [show fa.rest = kv by rw [← hfa]]
  refine (TTo.call (m := 13) (i := 1) (l := 2) (tag := 6) (el := (fa.hdr, fa.content)) (a' := rst 14 kv [ft, fc] [] true true 6 (some (fa.hdr, fa.content)) (noteOid al { version := 3, serial := sn }))
    (b := rst 16 kv [ft, fc] [] true true 6 (some (fa.hdr, fa.content)) h.pC)
    (fun n => rfl) rfl (by decide) (fun n => .ok h13) rfl).trans ?_
  subst hkv
  -- issuer
  generalize hkv : [Tree.node 0x30 [nb, na], .node 0x30 [.node 0x31 (sub.map attrTree)],
    .node 0x30 [.node 0x30 [.leaf 6 kal], .leaf 3 key], .node 0xa3 [.node 0x30 (es.map extItemTree)]] = kv
  generalize hfi : (⟨kv, hdrOf (.node 0x30 [.node 0x31 (iss.map attrTree)]), serL [.node 0x31 (iss.map attrTree)]⟩ : Fr) = fi
  refine (TTo.one (b := rst 89 [.node 0x31 (iss.map attrTree)] [fi, ft, fc] [19] true false 48
    (some (hdrOf (.node 0x30 [.node 0x31 (iss.map attrTree)]), contentOf (.node 0x30 [.node 0x31 (iss.map attrTree)]))) h.pC)
    (fun n => by subst hfi; exact (mt 16 48).trans rfl)).trans ?_
  refine (name_read iss i1 h.pC fi ft fc 19 [] 48 _).trans ?_
  rw [show fi.rest = kv by rw [← hfi], show fi.content = serL [.node 0x31 (iss.map attrTree)] by rw [← hfi]]
  refine (TTo.call (m := 8) (i := 1) (l := 2) (tag := 4) (el := (fi.hdr, serL [.node 0x31 (iss.map attrTree)])) (a' := rst 19 kv [ft, fc] [] true true 4 (some (fi.hdr, serL [.node 0x31 (iss.map attrTree)])) (iss.foldl attrP h.pC))
    (b := rst 21 kv [ft, fc] [] true true 4 (some (fi.hdr, serL [.node 0x31 (iss.map attrTree)])) h.pE)
    (fun n => rfl) rfl (by decide) h8 rfl).trans ?_
  generalize (some (fi.hdr, serL [.node 0x31 (iss.map attrTree)])) = eli
  subst hkv
  -- validity
  generalize hkv : [Tree.node 0x30 [.node 0x31 (sub.map attrTree)],
    .node 0x30 [.node 0x30 [.leaf 6 kal], .leaf 3 key], .node 0xa3 [.node 0x30 (es.map extItemTree)]] = kv
  generalize hfd : (⟨kv, hdrOf (.node 0x30 [nb, na]), contentOf (.node 0x30 [nb, na])⟩ : Fr) = fd
  refine (TTo.one (b := rst 23 [nb, na] [fd, ft, fc] [] true false 48
    (some (hdrOf (.node 0x30 [nb, na]), contentOf (.node 0x30 [nb, na]))) h.pE)
    (fun n => by subst hfd; exact (mt 21 48).trans rfl)).trans ?_
  refine (time1_read nb h.t1 h.v1 hnb [na] h.pE h.pF h10 [fd, ft, fc] 48 _).trans ?_
  refine (time2_read na h.t2 h.v2 hna [] h.pF h.pG h9 [fd, ft, fc] h.t1 _).trans ?_
  refine (TTo.one (b := rst 42 kv [ft, fc] [] true false h.t2 (some (fd.hdr, fd.content)) h.pG)
    (fun n => by subst hfd; rfl)).trans ?_
  generalize (some (fd.hdr, fd.content)) = eld
  subst hkv
  -- subject
  generalize hkv : [Tree.node 0x30 [.node 0x30 [.leaf 6 kal], .leaf 3 key], .node 0xa3 [.node 0x30 (es.map extItemTree)]] = kv
  generalize hfs : (⟨kv, hdrOf (.node 0x30 [.node 0x31 (sub.map attrTree)]), serL [.node 0x31 (sub.map attrTree)]⟩ : Fr) = fs
  refine (TTo.one (b := rst 89 [.node 0x31 (sub.map attrTree)] [fs, ft, fc] [45] true false 48
    (some (hdrOf (.node 0x30 [.node 0x31 (sub.map attrTree)]), contentOf (.node 0x30 [.node 0x31 (sub.map attrTree)]))) h.pG)
    (fun n => by subst hfs; exact (mt 42 48).trans rfl)).trans ?_
  refine (name_read sub i2 h.pG fs ft fc 45 [] 48 _).trans ?_
  rw [show fs.rest = kv by rw [← hfs], show fs.content = serL [.node 0x31 (sub.map attrTree)] by rw [← hfs]]
  refine (TTo.call (m := 15) (i := 1) (l := 2) (tag := 4) (el := (fs.hdr, serL [.node 0x31 (sub.map attrTree)])) (a' := rst 45 kv [ft, fc] [] true true 4 (some (fs.hdr, serL [.node 0x31 (sub.map attrTree)])) (sub.foldl attrP h.pG))
    (b := rst 47 kv [ft, fc] [] true true 4 (some (fs.hdr, serL [.node 0x31 (sub.map attrTree)])) h.pI)
    (fun n => rfl) rfl (by decide) h15 rfl).trans ?_
  generalize (some (fs.hdr, serL [.node 0x31 (sub.map attrTree)])) = els
  subst hkv
  -- key
  generalize hkv : [Tree.node 0xa3 [.node 0x30 (es.map extItemTree)]] = kv
  generalize hfk : (⟨kv, hdrOf (.node 0x30 [.node 0x30 [.leaf 6 kal], .leaf 3 key]),
    contentOf (.node 0x30 [.node 0x30 [.leaf 6 kal], .leaf 3 key])⟩ : Fr) = fk
  refine (TTo.one (b := rst 49 [.node 0x30 [.leaf 6 kal], .leaf 3 key] [fk, ft, fc] [] true false 48
    (some (hdrOf (.node 0x30 [.node 0x30 [.leaf 6 kal], .leaf 3 key]), contentOf (.node 0x30 [.node 0x30 [.leaf 6 kal], .leaf 3 key]))) h.pI)
    (fun n => by subst hfk; exact (mt 47 48).trans rfl)).trans ?_
  generalize hfb : (⟨[.leaf 3 key], hdrOf (.node 0x30 [.leaf 6 kal]), contentOf (.node 0x30 [.leaf 6 kal])⟩ : Fr) = fb
  refine (TTo.one (b := rst 82 [.leaf 6 kal] [fb, fk, ft, fc] [52] true false 48
    (some (hdrOf (.node 0x30 [.leaf 6 kal]), contentOf (.node 0x30 [.leaf 6 kal]))) h.pI)
    (fun n => by subst hfb; exact (mt 49 48).trans rfl)).trans ?_
  refine (alg_read kal _ fb [fk, ft, fc] 52 [] false 48 _).trans ?_
  rw [show fb.rest = [.leaf 3 key] by rw [← hfb]]
  refine (TTo.call (m := 5) (i := 2) (l := 3) (tag := 3) (el := (hdrOf (.leaf 3 key), key)) (a' := rst 52 [] [fk, ft, fc] [] true false 3 (some (hdrOf (.leaf 3 key), key)) (noteOid kal h.pI))
    (b := rst 55 [] [fk, ft, fc] [] true false 3 (some (hdrOf (.leaf 3 key), key)) h.pK)
    (fun n => (mt 52 3).trans rfl) rfl (by decide) (fun n => .ok h5) rfl).trans ?_
  refine (TTo.one (b := rst 56 kv [ft, fc] [] true false 3 (some (fk.hdr, fk.content)) h.pK) (fun n => by subst hfk; rfl)).trans ?_
  generalize (some (fk.hdr, fk.content)) = elk
  subst hkv
  -- extensions
  refine (TTo.one (b := rst 58 [.node 0xa3 [.node 0x30 (es.map extItemTree)]] [ft, fc] [] false false 0xa3 none h.pK)
    (fun n => (ms 56 0xa3).trans rfl)).trans ?_
  refine (TTo.one (b := rst 60 [.node 0xa3 [.node 0x30 (es.map extItemTree)]] [ft, fc] [] false false 0xa3 none h.pK)
    (fun n => (ms 58 0xa3).trans rfl)).trans ?_
  generalize hfe : (⟨[], hdrOf (.node 0xa3 [.node 0x30 (es.map extItemTree)]), contentOf (.node 0xa3 [.node 0x30 (es.map extItemTree)])⟩ : Fr) = fe
  refine (TTo.one (b := rst 105 [.node 0x30 (es.map extItemTree)] [fe, ft, fc] [63] true false 0xa3
    (some (hdrOf (.node 0xa3 [.node 0x30 (es.map extItemTree)]), contentOf (.node 0xa3 [.node 0x30 (es.map extItemTree)]))) h.pK)
    (fun n => by subst hfe; exact (mt 60 0xa3).trans rfl)).trans ?_
  refine (extensions_read es i3 h.pK h.pL hex fe ft fc 63 [] 0xa3 _).trans ?_
  rw [show fe.rest = [] by rw [← hfe]]
  refine (TTo.one (b := rst 64 ft.rest [fc] [] true true 4 (some (ft.hdr, ft.content)) h.pL) (fun n => rfl)).trans ?_
  rw [hftr, hfth, hftc]
  exact send 4

end LC.Crt
