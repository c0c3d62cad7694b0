import Verif.P7.Model
import Verif.Asn1.Reach
/-
The bytecode of `pkcs7.asn1.c` in the encoder: what is written for given results of the actions.
-/
namespace LC.P7
open LC.Asn1 LC.Asn1.Enc LC.Asn1.Gen LC.Asn1.Tr

set_option maxRecDepth 8000

variable {act : GAct GC}

/-- A state behind the first value that is written. -/
abbrev gst (pc : Nat) (tag : Option UInt8) (lv : List GL) (jstk : List Nat) (l : Bool) (x : GC) : GS GC :=
  { pc := pc, tag := tag, lv := lv, jstk := jstk, matched := true, last := l, ctx := x }

abbrev lvl (t : UInt8) (f : List Tree) : GL := ⟨some t, f⟩

abbrev out0 (b : Bytes) (x : GC) : Option (AOut GC) := some ⟨0, b, none, x⟩
abbrev out1 (x : GC) : Option (AOut GC) := some ⟨1, [], none, x⟩

def optLeaf (t : UInt8) (b : Bytes) : List Tree := if b = [] then [] else [.leaf t b]

theorem GTo.halt {d : Decoder} {a b : GS GC} (h : GTo d act a b) (hs : gstep d act b = .halt 0 b) : ∃ k, grun d act k a = .halt 0 b := by
  obtain ⟨k, hk⟩ := h
  refine ⟨k + 1, ?_⟩
  rw [grun_add d act k 1 a b hk]
  simp only [grun, hs]

/-- Return to a level that is not empty. -/
theorem gret (d : Decoder) (a : GS GC) (r : Nat) (js : List Nat) (t : Option UInt8) (f : List Tree) (L : List GL)
    (h0 : d.machine[a.pc]? = some 0x28) (hl : a.pc + 1 ≤ d.machine.length) (hj : a.jstk = r :: js) (hv : a.lv = ⟨t, f⟩ :: L) (hf : f ≠ []) :
    GTo d act a { a with pc := r, jstk := js, matched := true, last := true } := by
  apply GTo.step
  unfold gstep
  rw [h0]
  dsimp only
  rw [show opLen 0x28 = some 1 from rfl]
  dsimp only
  rw [if_neg (by omega), if_neg (by decide), if_neg (by decide), if_neg (by decide)]
  unfold gctl
  rw [if_neg (by decide), if_neg (by decide), if_neg (by intro h; exact absurd h.1 (by decide)), if_neg (by decide), if_pos rfl]
  unfold greturn
  rw [hj, hv]
  dsimp only
  have : f.isEmpty = false := by
    cases f with
    | nil => exact absurd rfl hf
    | cons a b => rfl
  rw [this, Bool.not_false, Bool.or_true]

/-- Digest algorithm identifier. -/
theorem alg_walk (x : GC) (y : UInt8) (ys : Bytes) (h5 : act 5 x = out0 (y :: ys) x)
    (t : Option UInt8) (f : List Tree) (L : List GL) (r : Nat) (js : List Nat) (l m : Bool) :
    GTo pkcs7 act { gst 114 none (lvl 0x30 [] :: ⟨t, f⟩ :: L) (r :: js) l x with matched := m }
      (gst r (some 0x30) (⟨t, f ++ [.node 0x30 [.leaf 6 (y :: ys)]]⟩ :: L) js true x) := by
  refine (GTo.step (b := { gst 117 (some 6) (lvl 0x30 [.leaf 6 (y :: ys)] :: ⟨t, f⟩ :: L) (r :: js) l x with matched := m })
    ((gstep_leaf _ _ _ rfl rfl rfl rfl rfl h5).trans rfl)).trans ?_
  refine (GTo.run 2 (b := { gst 119 (some 0x30) (⟨t, f ++ [.node 0x30 [.leaf 6 (y :: ys)]]⟩ :: L) (r :: js) l x with matched := m }) rfl).trans ?_
  exact gret _ _ r js t _ L rfl (show 119 + 1 ≤ pkcs7.machine.length by decide) rfl rfl (by simp)

/-- The results of the actions for the certificates: tag and contents. -/
def CertsRun (act : GAct GC) : GC → List (UInt8 × Bytes) → GC → Prop
  | _, [], _ => False
  | x, [a], x' => a.2 ≠ [] ∧ act 10 x = some ⟨0, a.2, some a.1, x⟩ ∧ act 8 x = out0 [] x'
  | x, a :: as, x' => a.2 ≠ [] ∧ act 10 x = some ⟨0, a.2, some a.1, x⟩ ∧ ∃ x1, act 8 x = out1 x1 ∧ CertsRun act x1 as x'

def certLeaf (a : UInt8 × Bytes) : Tree := .leaf a.1 a.2

theorem cert_walk (x x' : GC) (a : UInt8 × Bytes) (h : a.2 ≠ []) (h10 : act 10 x = some ⟨0, a.2, some a.1, x⟩) (r : Nat)
    (h8 : act 8 x = some ⟨r, [], none, x'⟩) (hr : r = 0 ∨ r = 1) (acc : List Tree) (L : List GL) (js : List Nat) (t : Option UInt8) (l : Bool) :
    GTo pkcs7 act (gst 75 t (lvl 0xa0 acc :: L) js l x)
      { gst 80 (some a.1) (lvl 0xa0 (acc ++ [certLeaf a]) :: L) js l x' with cont := r == 1 } := by
  obtain ⟨o, v⟩ := a
  obtain ⟨y, ys, rfl⟩ := List.exists_cons_of_ne_nil h
  refine (GTo.step (b := gst 77 (some o) (lvl 0xa0 (acc ++ [.leaf o (y :: ys)]) :: L) js l x)
    ((gstep_any _ _ _ rfl rfl rfl rfl h10).trans rfl)).trans ?_
  refine (GTo.run 1 (b := gst 78 (some o) (lvl 0xa0 (acc ++ [.leaf o (y :: ys)]) :: L) js l x) rfl).trans ?_
  rcases hr with rfl | rfl
  · exact GTo.step ((gstep_act _ _ _ rfl (show 78 + 2 ≤ pkcs7.machine.length by decide) rfl h8).trans rfl)
  · exact GTo.step ((gstep_act _ _ _ rfl (show 78 + 2 ≤ pkcs7.machine.length by decide) rfl h8).trans rfl)

theorem certs_walk : ∀ (as : List (UInt8 × Bytes)) (x x' : GC) (_ : CertsRun act x as x') (acc : List Tree) (L : List GL) (js : List Nat)
    (t : Option UInt8) (l : Bool), ∃ t',
    GTo pkcs7 act (gst 75 t (lvl 0xa0 acc :: L) js l x) (gst 80 t' (lvl 0xa0 (acc ++ as.map certLeaf) :: L) js l x')
  | [], _, _, h, _, _, _, _, _ => absurd h id
  | [a], x, x', h, acc, L, js, t, l => by
    obtain ⟨h1, h2, h3⟩ := h
    exact ⟨_, cert_walk x x' a h1 h2 0 h3 (.inl rfl) acc L js t l⟩
  | a :: a' :: as, x, x', h, acc, L, js, t, l => by
    obtain ⟨h1, h2, x1, h3, h4⟩ := h
    obtain ⟨t', h5⟩ := certs_walk (a' :: as) x1 x' h4 (acc ++ [certLeaf a]) L js (some a.1) l
    refine ⟨t', (cert_walk x x1 a h1 h2 1 h3 (.inr rfl) acc L js t l).trans ?_⟩
    refine (GTo.run 1 (b := gst 75 (some a.1) (lvl 0xa0 (acc ++ [certLeaf a]) :: L) js l x1) rfl).trans ?_
    rwa [List.append_assoc] at h5

/-! ### SignerInfo -/

/-- How a signer is identified. -/
inductive Ident where
  | skid (b : Bytes)
  | ias (as : List (Bytes × Bytes)) (serial : Bytes)

def attrTree (a : Bytes × Bytes) : Tree := .node 0x30 [.leaf 6 a.1, .leaf 6 a.2]

def identTree : Ident → Tree
  | .skid b => .leaf 0x80 b
  | .ias as sn => .node 0x30 [.node 0x30 [.node 0x31 (as.map attrTree)], .leaf 2 sn]

/-- The results of the actions for a name. -/
def NameRun (act : GAct GC) : GC → List (Bytes × Bytes) → GC → Prop
  | _, [], _ => False
  | x, [a], x' => a.1 ≠ [] ∧ a.2 ≠ [] ∧ act 11 x = out0 a.1 x ∧ act 6 x = out0 a.2 x' ∧ act 0 x' = out0 [] x'
  | x, a :: as, x' => a.1 ≠ [] ∧ a.2 ≠ [] ∧ act 11 x = out0 a.1 x ∧
      ∃ x1, act 6 x = out0 a.2 x1 ∧ act 0 x1 = out1 x1 ∧ NameRun act x1 as x'

theorem attr_walk (x x' : GC) (a : Bytes × Bytes) (h1 : a.1 ≠ []) (h2 : a.2 ≠ []) (h11 : act 11 x = out0 a.1 x)
    (h6 : act 6 x = out0 a.2 x') (r : Nat) (h0 : act 0 x' = some ⟨r, [], none, x'⟩) (hr : r = 0 ∨ r = 1) (acc : List Tree) (L : List GL)
    (js : List Nat) (t : Option UInt8) (l : Bool) :
    GTo pkcs7 act (gst 173 t (lvl 0x31 acc :: L) js l x)
      { gst 182 (some 0x30) (lvl 0x31 (acc ++ [attrTree a]) :: L) js l x' with cont := r == 1 } := by
  obtain ⟨o, v⟩ := a
  obtain ⟨y, ys, rfl⟩ := List.exists_cons_of_ne_nil h1
  obtain ⟨z, zs, rfl⟩ := List.exists_cons_of_ne_nil h2
  refine (GTo.run 1 (b := gst 175 none (lvl 0x30 [] :: lvl 0x31 acc :: L) js l x) rfl).trans ?_
  refine (GTo.step (b := gst 178 (some 6) (lvl 0x30 [.leaf 6 (y :: ys)] :: lvl 0x31 acc :: L) js l x)
    ((gstep_leaf _ _ _ rfl rfl rfl rfl rfl h11).trans rfl)).trans ?_
  refine (GTo.step (b := gst 180 (some 6) (lvl 0x30 [.leaf 6 (y :: ys), .leaf 6 (z :: zs)] :: lvl 0x31 acc :: L) js l x')
    ((gstep_any _ _ _ rfl rfl rfl rfl h6).trans rfl)).trans ?_
  rcases hr with rfl | rfl
  · exact GTo.step ((gstep_end _ _ _ rfl rfl rfl rfl h0).trans rfl)
  · exact GTo.step ((gstep_end _ _ _ rfl rfl rfl rfl h0).trans rfl)

theorem attrs_walk : ∀ (as : List (Bytes × Bytes)) (x x' : GC) (_ : NameRun act x as x') (acc : List Tree) (L : List GL) (js : List Nat)
    (t : Option UInt8) (l : Bool),
    GTo pkcs7 act (gst 173 t (lvl 0x31 acc :: L) js l x) (gst 182 (some 0x30) (lvl 0x31 (acc ++ as.map attrTree) :: L) js l x')
  | [], _, _, h, _, _, _, _, _ => absurd h id
  | [a], x, x', h, acc, L, js, t, l => by
    obtain ⟨h1, h2, h3, h4, h5⟩ := h
    exact attr_walk x x' a h1 h2 h3 h4 0 h5 (.inl rfl) acc L js t l
  | a :: a' :: as, x, x', h, acc, L, js, t, l => by
    obtain ⟨h1, h2, h3, x1, h4, h5, h6⟩ := h
    refine (attr_walk x x1 a h1 h2 h3 h4 1 h5 (.inr rfl) acc L js t l).trans ?_
    refine (GTo.run 1 (b := gst 173 (some 0x30) (lvl 0x31 (acc ++ [attrTree a]) :: L) js l x1) rfl).trans ?_
    have := attrs_walk (a' :: as) x1 x' h6 (acc ++ [attrTree a]) L js (some 0x30) l
    rwa [List.append_assoc] at this

/-- The results of the actions for the identification of the signer. -/
def IdRun (act : GAct GC) (x : GC) : Ident → GC → Prop
  | .skid b, x' => x' = x ∧ b ≠ [] ∧ act 11 x = out0 [] x ∧ act 6 x = out0 [] x ∧ act 0 x = out0 [] x ∧ act 23 x = out0 [] x ∧
      act 26 x = out0 b x
  | .ias as sn, x' => sn ≠ [] ∧ NameRun act x as x' ∧ act 23 x' = out0 sn x' ∧ act 26 x' = out0 [] x'

theorem ident_walk (id : Ident) (x x' : GC) (h : IdRun act x id x') (h20 : ∀ x, act 20 x = out0 [] x) (v : Tree) (L : List GL)
    (js : List Nat) (t : Option UInt8) (l : Bool) :
    GTo pkcs7 act (gst 128 t (lvl 0x30 [v] :: L) js l x) (gst 135 (some 0x80) (lvl 0x30 [v, identTree id] :: L) js true x') := by
  match id, h with
  | .skid b, ⟨e, hb, h11, h6, h0, h23, h26⟩ =>
    subst e
    obtain ⟨y, ys, rfl⟩ := List.exists_cons_of_ne_nil hb
    refine (GTo.run 4 (b := gst 175 none (lvl 0x30 [] :: lvl 0x31 [] :: lvl 0x30 [] :: lvl 0x30 [] :: lvl 0x30 [v] :: L) (131 :: js) l x') rfl).trans ?_
    refine (GTo.step (b := gst 178 (some 6) (lvl 0x30 [] :: lvl 0x31 [] :: lvl 0x30 [] :: lvl 0x30 [] :: lvl 0x30 [v] :: L) (131 :: js) l x')
      ((gstep_leaf _ _ _ rfl rfl rfl rfl rfl h11).trans rfl)).trans ?_
    refine (GTo.step (b := gst 180 (some 6) (lvl 0x30 [] :: lvl 0x31 [] :: lvl 0x30 [] :: lvl 0x30 [] :: lvl 0x30 [v] :: L) (131 :: js) l x')
      ((gstep_any _ _ _ rfl rfl rfl rfl h6).trans rfl)).trans ?_
    refine (GTo.step (b := gst 182 (some 0x30) (lvl 0x31 [] :: lvl 0x30 [] :: lvl 0x30 [] :: lvl 0x30 [v] :: L) (131 :: js) l x')
      ((gstep_end _ _ _ rfl rfl rfl rfl h0).trans rfl)).trans ?_
    refine (GTo.run 2 (b := gst 186 (some 0x30) (lvl 0x30 [] :: lvl 0x30 [v] :: L) (131 :: js) l x') rfl).trans ?_
    refine (GTo.step (b := gst 188 (some 0x30) (lvl 0x30 [] :: lvl 0x30 [v] :: L) (131 :: js) l x')
      ((gstep_act _ _ _ rfl (show 186 + 2 ≤ pkcs7.machine.length by decide) rfl (h20 x')).trans rfl)).trans ?_
    refine (GTo.run 1 (b := gst 190 (some 2) (lvl 0x30 [] :: lvl 0x30 [v] :: L) (131 :: js) l x') rfl).trans ?_
    refine (GTo.step (b := gst 192 (some 2) (lvl 0x30 [] :: lvl 0x30 [v] :: L) (131 :: js) l x')
      ((gstep_act _ _ _ rfl (show 190 + 2 ≤ pkcs7.machine.length by decide) rfl h23).trans rfl)).trans ?_
    refine (GTo.run 1 (b := gst 193 (some 0x30) (lvl 0x30 [v] :: L) (131 :: js) l x') rfl).trans ?_
    refine (gret _ _ 131 js (some 0x30) [v] L rfl (show 193 + 1 ≤ pkcs7.machine.length by decide) rfl rfl (by simp)).trans ?_
    refine (GTo.step (b := gst 134 (some 0x80) (lvl 0x30 [v, .leaf 0x80 (y :: ys)] :: L) js true x')
      ((gstep_leaf _ _ _ rfl rfl rfl rfl rfl h26).trans rfl)).trans ?_
    exact GTo.run 1 rfl
  | .ias as sn, ⟨hb, hn, h23, h26⟩ =>
    obtain ⟨y, ys, rfl⟩ := List.exists_cons_of_ne_nil hb
    refine (GTo.run 3 (b := gst 173 none (lvl 0x31 [] :: lvl 0x30 [] :: lvl 0x30 [] :: lvl 0x30 [v] :: L) (131 :: js) l x) rfl).trans ?_
    refine (attrs_walk as x x' hn [] (lvl 0x30 [] :: lvl 0x30 [] :: lvl 0x30 [v] :: L) (131 :: js) none l).trans ?_
    have hne : ∃ k ks, as.map attrTree = k :: ks := by
      match as, hn with
      | a :: as, _ => exact ⟨_, _, rfl⟩
    obtain ⟨k, ks, hk⟩ := hne
    have he : identTree (.ias as (y :: ys)) = .node 0x30 [.node 0x30 [.node 0x31 (k :: ks)], .leaf 2 (y :: ys)] := by rw [← hk]; rfl
    rw [List.nil_append, hk, he]
    refine (GTo.run 2 (b := gst 186 (some 0x30) (lvl 0x30 [.node 0x30 [.node 0x31 (k :: ks)]] :: lvl 0x30 [v] :: L) (131 :: js) l x') rfl).trans ?_
    generalize hg : Tree.node 0x30 [.node 0x31 (k :: ks)] = nm
    refine (GTo.step (b := gst 188 (some 0x30) (lvl 0x30 [nm] :: lvl 0x30 [v] :: L) (131 :: js) l x')
      ((gstep_act _ _ _ rfl (show 186 + 2 ≤ pkcs7.machine.length by decide) rfl (h20 x')).trans rfl)).trans ?_
    refine (GTo.run 1 (b := gst 190 (some 2) (lvl 0x30 [nm] :: lvl 0x30 [v] :: L) (131 :: js) l x') rfl).trans ?_
    refine (GTo.step (b := gst 192 (some 2) (lvl 0x30 [nm, .leaf 2 (y :: ys)] :: lvl 0x30 [v] :: L) (131 :: js) l x')
      ((gstep_act _ _ _ rfl (show 190 + 2 ≤ pkcs7.machine.length by decide) rfl h23).trans rfl)).trans ?_
    refine (GTo.run 1 (b := gst 193 (some 0x30) (lvl 0x30 [v, .node 0x30 [nm, .leaf 2 (y :: ys)]] :: L) (131 :: js) l x') rfl).trans ?_
    refine (gret _ _ 131 js (some 0x30) _ L rfl (show 193 + 1 ≤ pkcs7.machine.length by decide) rfl rfl (by simp)).trans ?_
    refine (GTo.step (b := gst 134 (some 0x80) (lvl 0x30 [v, .node 0x30 [nm, .leaf 2 (y :: ys)]] :: L) js true x')
      ((gstep_leaf _ _ _ rfl rfl rfl rfl rfl h26).trans rfl)).trans ?_
    exact GTo.run 1 rfl

/-- The parts of a SignerInfo; `aa` are the contents of the authenticated attributes, empty if there are none. -/
structure SiP where
  ver : UInt8
  id : Ident
  hash : Bytes
  aa : Bytes
  pk : Bytes
  sig : Bytes

def siTree (p : SiP) : Tree :=
  .node 0x30 (.leaf 2 [p.ver] :: identTree p.id :: .node 0x30 [.leaf 6 p.hash] ::
    (optLeaf 0xa0 p.aa ++ [.node 0x30 [.leaf 6 p.pk], .leaf 4 p.sig]))

/-- The actions that do nothing. -/
structure Nops (act : GAct GC) : Prop where
  h1 : ∀ x, act 1 x = out0 [] x
  h2 : ∀ x, act 2 x = out0 [] x
  h9 : ∀ x, act 9 x = out0 [] x
  h12 : ∀ x, act 12 x = out0 [] x
  h13 : ∀ x, act 13 x = out0 [] x
  h18 : ∀ x, act 18 x = out0 [] x
  h19 : ∀ x, act 19 x = out0 [] x
  h20 : ∀ x, act 20 x = out0 [] x
  h21 : ∀ x, act 21 x = out0 [] x

/-- The results of the actions for a SignerInfo. -/
structure SiRun (act : GAct GC) (x : GC) (p : SiP) (r : Nat) (x' : GC) : Prop where
  h17 : act 17 x = out0 [p.ver] x
  hash : p.hash ≠ []
  pk : p.pk ≠ []
  sig : p.sig ≠ []
  run : ∃ x1 x2 x3, IdRun act x p.id x1 ∧ act 5 x1 = out0 p.hash x1 ∧ act 24 x1 = out0 p.aa x2 ∧ act 22 x2 = out0 p.pk x2 ∧
    act 25 x2 = out0 p.sig x3 ∧ act 15 x3 = some ⟨r, [], none, x'⟩

/-- The end of a SignerInfo, behind the authenticated attributes. -/
theorem si_end (x2 x3 x' : GC) (hn : Nops act) (p1 : UInt8) (p2 : Bytes) (s1 : UInt8) (s2 : Bytes) (r : Nat) (hr : r = 0 ∨ r = 1)
    (h22 : act 22 x2 = out0 (p1 :: p2) x2) (h25 : act 25 x2 = out0 (s1 :: s2) x3) (h15 : act 15 x3 = some ⟨r, [], none, x'⟩)
    (k : Tree) (ks : List Tree) (acc : List Tree) (L : List GL) (js : List Nat) (t : Option UInt8) :
    GTo pkcs7 act (gst 145 t (lvl 0x30 (k :: ks) :: lvl 0x31 acc :: L) (105 :: js) true x2)
      { gst 105 (some 0x30) (lvl 0x31 (acc ++ [.node 0x30 (k :: ks ++ [.node 0x30 [.leaf 6 (p1 :: p2)], .leaf 4 (s1 :: s2)])]) :: L) js true x' with
        cont := r == 1 } := by
  refine (GTo.run 2 (b := gst 150 none (lvl 0x30 [] :: lvl 0x30 (k :: ks) :: lvl 0x31 acc :: L) (105 :: js) false x2) rfl).trans ?_
  refine (GTo.step (b := gst 153 (some 6) (lvl 0x30 [.leaf 6 (p1 :: p2)] :: lvl 0x30 (k :: ks) :: lvl 0x31 acc :: L) (105 :: js) false x2)
    ((gstep_leaf _ _ _ rfl rfl rfl rfl rfl h22).trans rfl)).trans ?_
  refine (GTo.run 2 (b := gst 155 (some 0x30) (lvl 0x30 (k :: (ks ++ [.node 0x30 [.leaf 6 (p1 :: p2)]])) :: lvl 0x31 acc :: L)
    (105 :: js) false x2) rfl).trans ?_
  generalize hg : Tree.node 0x30 [.leaf 6 (p1 :: p2)] = pk
  refine (GTo.step (b := gst 157 (some 0x30) (lvl 0x30 (k :: (ks ++ [pk])) :: lvl 0x31 acc :: L) (105 :: js) false x2)
    ((gstep_act _ _ _ rfl (show 155 + 2 ≤ pkcs7.machine.length by decide) rfl (hn.h21 x2)).trans rfl)).trans ?_
  refine (GTo.step (b := gst 160 (some 4) (lvl 0x30 (k :: (ks ++ [pk] ++ [.leaf 4 (s1 :: s2)])) :: lvl 0x31 acc :: L) (105 :: js) false x3)
    ((gstep_leaf _ _ _ rfl rfl rfl rfl rfl h25).trans rfl)).trans ?_
  rw [List.append_assoc, List.singleton_append]
  generalize hg2 : ks ++ [pk, .leaf 4 (s1 :: s2)] = rest
  have hrest : k :: ks ++ [pk, .leaf 4 (s1 :: s2)] = k :: rest := by rw [List.cons_append, hg2]
  rw [hrest]
  refine (GTo.run 8 (b := gst 212 (some 0x30) (lvl 0xa1 [] :: lvl 0x30 (k :: rest) :: lvl 0x31 acc :: L) (163 :: 105 :: js) false x3) rfl).trans ?_
  refine (GTo.run 3 (b := gst 166 (some 0xa1) (lvl 0x30 (k :: rest) :: lvl 0x31 acc :: L) (105 :: js) false x3) rfl).trans ?_
  have hlast : GTo pkcs7 act (gst 166 (some 0xa1) (lvl 0x30 (k :: rest) :: lvl 0x31 acc :: L) (105 :: js) false x3)
      { gst 168 (some 0x30) (lvl 0x31 (acc ++ [.node 0x30 (k :: rest)]) :: L) (105 :: js) false x' with cont := r == 1 } := by
    rcases hr with rfl | rfl
    · exact GTo.step ((gstep_end _ _ _ rfl rfl rfl rfl h15).trans rfl)
    · exact GTo.step ((gstep_end _ _ _ rfl rfl rfl rfl h15).trans rfl)
  refine hlast.trans ?_
  exact gret _ _ 105 js (some 0x31) _ L rfl (show 168 + 1 ≤ pkcs7.machine.length by decide) rfl rfl (by simp)

theorem si_walk (x x' : GC) (p : SiP) (r : Nat) (hn : Nops act) (h : SiRun act x p r x') (hr : r = 0 ∨ r = 1) (acc : List Tree)
    (L : List GL) (js : List Nat) (t : Option UInt8) (l : Bool) :
    GTo pkcs7 act (gst 102 t (lvl 0x31 acc :: L) js l x)
      { gst 105 (some 0x30) (lvl 0x31 (acc ++ [siTree p]) :: L) js true x' with cont := r == 1 } := by
  obtain ⟨ver, id, hash, aa, pk, sig⟩ := p
  obtain ⟨h17, e1, e2, e3, x1, x2, x3, hid, h5, h24, h22, h25, h15⟩ := h
  dsimp only at *
  obtain ⟨a1, a2, rfl⟩ := List.exists_cons_of_ne_nil e1
  obtain ⟨p1, p2, rfl⟩ := List.exists_cons_of_ne_nil e2
  obtain ⟨s1, s2, rfl⟩ := List.exists_cons_of_ne_nil e3
  refine (GTo.run 1 (b := gst 125 none (lvl 0x30 [] :: lvl 0x31 acc :: L) (105 :: js) l x) rfl).trans ?_
  refine (GTo.step (b := gst 128 (some 2) (lvl 0x30 [.leaf 2 [ver]] :: lvl 0x31 acc :: L) (105 :: js) l x)
    ((gstep_leaf _ _ _ rfl rfl rfl rfl rfl h17).trans rfl)).trans ?_
  refine (ident_walk id x x1 hid hn.h20 (.leaf 2 [ver]) (lvl 0x31 acc :: L) (105 :: js) (some 2) l).trans ?_
  unfold siTree
  dsimp only
  generalize Tree.leaf 2 [ver] = v
  generalize identTree id = idt
  refine (GTo.run 1 (b := gst 114 none (lvl 0x30 [] :: lvl 0x30 [v, idt] :: lvl 0x31 acc :: L) (138 :: 105 :: js) true x1) rfl).trans ?_
  refine (alg_walk x1 a1 a2 h5 (some 0x30) [v, idt] (lvl 0x31 acc :: L) 138 (105 :: js) true true).trans ?_
  generalize hg : Tree.node 0x30 [.leaf 6 (a1 :: a2)] = ha
  refine (GTo.step (b := gst 140 (some 0x30) (lvl 0x30 [v, idt, ha] :: lvl 0x31 acc :: L) (105 :: js) true x1)
    ((gstep_act _ _ _ rfl (show 138 + 2 ≤ pkcs7.machine.length by decide) rfl (hn.h19 x1)).trans rfl)).trans ?_
  -- the decoder's place for the attributes: nothing
  refine (GTo.run 2 (b := gst 221 none (lvl 0x30 [] :: lvl 0xa0 [] :: lvl 0x30 [v, idt, ha] :: lvl 0x31 acc :: L) (197 :: 143 :: 105 :: js) true x1)
    rfl).trans ?_
  refine (GTo.step (b := gst 224 (some 6) (lvl 0x30 [] :: lvl 0xa0 [] :: lvl 0x30 [v, idt, ha] :: lvl 0x31 acc :: L) (197 :: 143 :: 105 :: js) true x1)
    ((gstep_leaf _ _ _ rfl rfl rfl rfl rfl (hn.h1 x1)).trans rfl)).trans ?_
  refine (GTo.run 1 (b := gst 226 none (lvl 0x31 [] :: lvl 0x30 [] :: lvl 0xa0 [] :: lvl 0x30 [v, idt, ha] :: lvl 0x31 acc :: L)
    (197 :: 143 :: 105 :: js) true x1) rfl).trans ?_
  refine (GTo.step (b := gst 228 (some 18) (lvl 0x31 [] :: lvl 0x30 [] :: lvl 0xa0 [] :: lvl 0x30 [v, idt, ha] :: lvl 0x31 acc :: L)
    (197 :: 143 :: 105 :: js) true x1) ((gstep_any _ _ _ rfl rfl rfl rfl (hn.h18 x1)).trans rfl)).trans ?_
  refine (GTo.run 5 (b := gst 143 (some 0xa0) (lvl 0x30 [v, idt, ha] :: lvl 0x31 acc :: L) (105 :: js) true x1) rfl).trans ?_
  have hm : GTo pkcs7 act (gst 143 (some 0xa0) (lvl 0x30 [v, idt, ha] :: lvl 0x31 acc :: L) (105 :: js) true x1)
      (gst 145 (some 0xa0) (lvl 0x30 (v :: idt :: ha :: optLeaf 0xa0 aa) :: lvl 0x31 acc :: L) (105 :: js) true x2) := by
    apply GTo.step
    have hs : gstep pkcs7 act (gst 143 (some 0xa0) (lvl 0x30 [v, idt, ha] :: lvl 0x31 acc :: L) (105 :: js) true x1) =
        gcall pkcs7 act (gst 143 (some 0xa0) (lvl 0x30 [v, idt, ha] :: lvl 0x31 acc :: L) (105 :: js) true x1) 1 fun bytes a => gwrite 2 bytes a := rfl
    rw [hs]
    unfold gcall
    rw [show pkcs7.machine[(gst 143 (some 0xa0) (lvl 0x30 [v, idt, ha] :: lvl 0x31 acc :: L) (105 :: js) true x1).pc + 1]? = some 24 from rfl]
    dsimp only
    rw [h24]
    dsimp only
    match aa with
    | [] => rfl
    | a :: as => rfl
  refine hm.trans ?_
  have := si_end x2 x3 x' hn p1 p2 s1 s2 r hr h22 h25 h15 v (idt :: ha :: optLeaf 0xa0 aa) acc L js (some 0xa0)
  exact this

/-- The results of the actions for all signers. -/
def SisRun (act : GAct GC) : GC → List SiP → GC → Prop
  | _, [], _ => False
  | x, [p], x' => SiRun act x p 0 x'
  | x, p :: ps, x' => ∃ x1, SiRun act x p 1 x1 ∧ SisRun act x1 ps x'

theorem sis_walk (hn : Nops act) : ∀ (ps : List SiP) (x x' : GC) (_ : SisRun act x ps x') (acc : List Tree) (L : List GL) (js : List Nat)
    (t : Option UInt8) (l : Bool),
    GTo pkcs7 act (gst 102 t (lvl 0x31 acc :: L) js l x) (gst 105 (some 0x30) (lvl 0x31 (acc ++ ps.map siTree) :: L) js true x')
  | [], _, _, h, _, _, _, _, _ => absurd h id
  | [p], x, x', h, acc, L, js, t, l => si_walk x x' p 0 hn h (.inl rfl) acc L js t l
  | p :: p' :: ps, x, x', h, acc, L, js, t, l => by
    obtain ⟨x1, h1, h2⟩ := h
    refine (si_walk x x1 p 1 hn h1 (.inr rfl) acc L js t l).trans ?_
    refine (GTo.run 1 (b := gst 102 (some 0x30) (lvl 0x31 (acc ++ [siTree p]) :: L) js true x1) rfl).trans ?_
    have := sis_walk hn (p' :: ps) x1 x' h2 (acc ++ [siTree p]) L js (some 0x30) true
    rwa [List.append_assoc] at this

/-! ### The message -/

structure MsgP where
  ver : UInt8
  hash : Bytes
  data : Bytes
  certs : List (UInt8 × Bytes)
  sis : List SiP

def contentTree (oid : Bytes) (d : Bytes) : Tree := .node 0x30 (.leaf 6 oid :: (if d = [] then [] else [.node 0xa0 [.leaf 14 d]]))

/-- The message with given certificates and signers. -/
def msgTree' (signedData dataOid : Bytes) (ver : UInt8) (hash data : Bytes) (certs sis : List Tree) : Tree :=
  .node 0x30 [.leaf 6 signedData, .node 0xa0 [.node 0x30 [.leaf 2 [ver], .node 0x31 [.node 0x30 [.leaf 6 hash]],
    contentTree dataOid data, .node 0xa0 certs, .node 0x31 sis]]]

def msgTree (so dO : Bytes) (p : MsgP) : Tree := msgTree' so dO p.ver p.hash p.data (p.certs.map certLeaf) (p.sis.map siTree)

/-- The results of the actions for a message. -/
structure MsgRun (act : GAct GC) (so dO : Bytes) (x0 : GC) (p : MsgP) : Prop where
  hso : so ≠ []
  hdO : dO ≠ []
  hash : p.hash ≠ []
  h3 : act 3 x0 = out0 so x0
  h16 : act 16 x0 = out0 [p.ver] x0
  h5 : act 5 x0 = out0 p.hash x0
  h4 : act 4 x0 = out0 dO x0
  h14 : act 14 x0 = out0 p.data x0
  run : ∃ x1 x2, CertsRun act x0 p.certs x1 ∧ SisRun act x1 p.sis x2

theorem msg_walk (hn : Nops act) (so dO : Bytes) (x0 : GC) (p : MsgP) (h : MsgRun act so dO x0 p) :
    ∃ b, (∃ k, grun pkcs7 act k { ctx := x0 } = .halt 0 b) ∧ b.out = [msgTree so dO p] := by
  obtain ⟨ver, hash, data, certs, sis⟩ := p
  obtain ⟨e1, e2, e3, h3, h16, h5, h4, h14, x1, x2, hc, hs⟩ := h
  dsimp only at *
  obtain ⟨o1, o2, rfl⟩ := List.exists_cons_of_ne_nil e1
  obtain ⟨d1, d2, rfl⟩ := List.exists_cons_of_ne_nil e2
  obtain ⟨a1, a2, rfl⟩ := List.exists_cons_of_ne_nil e3
  refine ⟨{ gst 11 (some 0x30) [] [] true x2 with out := [msgTree (o1 :: o2) (d1 :: d2) ⟨ver, a1 :: a2, data, certs, sis⟩] },
    GTo.halt ?_ rfl, rfl⟩
  unfold msgTree msgTree'
  dsimp only
  refine (GTo.run 1 (b := { pc := 2, lv := [lvl 0x30 []], ctx := x0 }) rfl).trans ?_
  refine (GTo.step (b := { pc := 5, tag := some 6, lv := [lvl 0x30 [.leaf 6 (o1 :: o2)]], ctx := x0 })
    ((gstep_leaf _ _ _ rfl rfl rfl rfl rfl h3).trans rfl)).trans ?_
  generalize Tree.leaf 6 (o1 :: o2) = so
  refine (GTo.step (b := { pc := 7, tag := some 6, lv := [lvl 0x30 [so]], ctx := x0 })
    ((gstep_act _ _ _ rfl (show 5 + 2 ≤ pkcs7.machine.length by decide) rfl (hn.h2 x0)).trans rfl)).trans ?_
  refine (GTo.run 2 (b := { pc := 14, lv := [lvl 0x30 [], lvl 0xa0 [], lvl 0x30 [so]], jstk := [10], ctx := x0 }) rfl).trans ?_
  refine (GTo.step (b := { pc := 17, tag := some 2, lv := [lvl 0x30 [.leaf 2 [ver]], lvl 0xa0 [], lvl 0x30 [so]], jstk := [10], ctx := x0 })
    ((gstep_leaf _ _ _ rfl rfl rfl rfl rfl h16).trans rfl)).trans ?_
  generalize Tree.leaf 2 [ver] = v
  refine (GTo.run 2 (b := { pc := 114, lv := [lvl 0x30 [], lvl 0x31 [], lvl 0x30 [v], lvl 0xa0 [], lvl 0x30 [so]], jstk := [62, 20, 10], ctx := x0 })
    rfl).trans ?_
  refine (alg_walk x0 a1 a2 h5 (some 0x31) [] [lvl 0x30 [v], lvl 0xa0 [], lvl 0x30 [so]] 62 [20, 10] false false).trans ?_
  generalize hg : Tree.node 0x30 [.leaf 6 (a1 :: a2)] = ha
  refine (GTo.run 5 (b := gst 26 none [lvl 0x30 [], lvl 0x30 [v, .node 0x31 [ha]], lvl 0xa0 [], lvl 0x30 [so]] [10] false x0) rfl).trans ?_
  generalize Tree.node 0x31 [ha] = hs'
  refine (GTo.step (b := gst 29 (some 6) [lvl 0x30 [.leaf 6 (d1 :: d2)], lvl 0x30 [v, hs'], lvl 0xa0 [], lvl 0x30 [so]] [10] false x0)
    ((gstep_leaf _ _ _ rfl rfl rfl rfl rfl h4).trans rfl)).trans ?_
  have hcont : GTo pkcs7 act (gst 29 (some 6) [lvl 0x30 [.leaf 6 (d1 :: d2)], lvl 0x30 [v, hs'], lvl 0xa0 [], lvl 0x30 [so]] [10] false x0)
      (gst 33 (some 0x30) [lvl 0x30 [v, hs', contentTree (d1 :: d2) data], lvl 0xa0 [], lvl 0x30 [so]] [10] true x0) := by
    unfold contentTree
    generalize Tree.leaf 6 (d1 :: d2) = dO
    refine (GTo.run 1 (b := gst 71 none [lvl 0xa0 [], lvl 0x30 [dO], lvl 0x30 [v, hs'], lvl 0xa0 [], lvl 0x30 [so]] [32, 10] false x0) rfl).trans ?_
    match data, h14 with
    | [], h14 =>
      refine (GTo.step (b := gst 73 (some 14) [lvl 0xa0 [], lvl 0x30 [dO], lvl 0x30 [v, hs'], lvl 0xa0 [], lvl 0x30 [so]] [32, 10] false x0)
        ((gstep_any _ _ _ rfl rfl rfl rfl h14).trans rfl)).trans ?_
      exact GTo.run 3 rfl
    | y :: ys, h14 =>
      refine (GTo.step (b := gst 73 (some 14) [lvl 0xa0 [.leaf 14 (y :: ys)], lvl 0x30 [dO], lvl 0x30 [v, hs'], lvl 0xa0 [], lvl 0x30 [so]] [32, 10] false x0)
        ((gstep_any _ _ _ rfl rfl rfl rfl h14).trans rfl)).trans ?_
      rw [if_neg (by simp)]
      exact GTo.run 3 rfl
  refine hcont.trans ?_
  generalize contentTree (d1 :: d2) data = ct
  refine (GTo.step (b := gst 35 (some 0x30) [lvl 0x30 [v, hs', ct], lvl 0xa0 [], lvl 0x30 [so]] [10] true x0)
    ((gstep_act _ _ _ rfl (show 33 + 2 ≤ pkcs7.machine.length by decide) rfl (hn.h13 x0)).trans rfl)).trans ?_
  -- certificates
  refine (GTo.run 1 (b := gst 75 none [lvl 0xa0 [], lvl 0x30 [v, hs', ct], lvl 0xa0 [], lvl 0x30 [so]] [38, 10] true x0) rfl).trans ?_
  obtain ⟨t', hcw⟩ := certs_walk certs x0 x1 hc [] [lvl 0x30 [v, hs', ct], lvl 0xa0 [], lvl 0x30 [so]] [38, 10] none true
  refine hcw.trans ?_
  have hne : ∃ k ks, certs.map certLeaf = k :: ks := by
    match certs, hc with
    | a :: as, _ => exact ⟨_, _, rfl⟩
  obtain ⟨k, ks, hk⟩ := hne
  rw [List.nil_append, hk]
  refine (GTo.run 3 (b := gst 41 (some 0xa0) [lvl 0x30 [v, hs', ct, .node 0xa0 (k :: ks)], lvl 0xa0 [], lvl 0x30 [so]] [10] false x1) rfl).trans ?_
  generalize Tree.node 0xa0 (k :: ks) = cs
  refine (GTo.step (b := gst 43 (some 0xa0) [lvl 0x30 [v, hs', ct, cs], lvl 0xa0 [], lvl 0x30 [so]] [10] false x1)
    ((gstep_act _ _ _ rfl (show 41 + 2 ≤ pkcs7.machine.length by decide) rfl (hn.h12 x1)).trans rfl)).trans ?_
  -- revocation lists: nothing
  refine (GTo.run 2 (b := gst 120 none [lvl 0x30 [], lvl 0xa1 [], lvl 0x30 [v, hs', ct, cs], lvl 0xa0 [], lvl 0x30 [so]] [93, 46, 10] false x1)
    rfl).trans ?_
  refine (GTo.step (b := gst 122 (some 9) [lvl 0x30 [], lvl 0xa1 [], lvl 0x30 [v, hs', ct, cs], lvl 0xa0 [], lvl 0x30 [so]] [93, 46, 10] false x1)
    ((gstep_any _ _ _ rfl rfl rfl rfl (hn.h9 x1)).trans rfl)).trans ?_
  refine (GTo.run 5 (b := gst 49 (some 0xa1) [lvl 0x30 [v, hs', ct, cs], lvl 0xa0 [], lvl 0x30 [so]] [10] false x1) rfl).trans ?_
  -- signers
  refine (GTo.run 1 (b := gst 102 none [lvl 0x31 [], lvl 0x30 [v, hs', ct, cs], lvl 0xa0 [], lvl 0x30 [so]] [52, 10] false x1) rfl).trans ?_
  refine (sis_walk hn sis x1 x2 hs [] [lvl 0x30 [v, hs', ct, cs], lvl 0xa0 [], lvl 0x30 [so]] [52, 10] none false).trans ?_
  have hne : ∃ k ks, sis.map siTree = k :: ks := by
    match sis, hs with
    | a :: as, _ => exact ⟨_, _, rfl⟩
  obtain ⟨k, ks, hk⟩ := hne
  rw [List.nil_append, hk]
  refine (GTo.run 2 (b := gst 52 (some 0x31) [lvl 0x30 [v, hs', ct, cs, .node 0x31 (k :: ks)], lvl 0xa0 [], lvl 0x30 [so]] [10] true x2) rfl).trans ?_
  generalize Tree.node 0x31 (k :: ks) = st
  refine (GTo.run 4 (b := gst 58 (some 0xa0) [lvl 0x30 [so, .node 0xa0 [.node 0x30 [v, hs', ct, cs, st]]]] [10] false x2) rfl).trans ?_
  generalize Tree.node 0xa0 [.node 0x30 [v, hs', ct, cs, st]] = body
  exact GTo.run 2 rfl

end LC.P7
