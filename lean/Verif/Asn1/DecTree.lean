import Verif.Asn1.EncTree
/-
The decoder on DER input.  An abstract machine runs the bytecode over a forest of values; the decoder
does the same on the serialisation of the forest (`step_sim`, `decode_sim`).  Used to relate what the generators
write to what the parsers read.
-/
namespace LC.Asn1.Tr
open LC.Asn1 LC.Asn1.Enc LC.Asn1.Gen

/-! ### Actions with a state -/

/-- What an action of the decoder is given: the tag, the bytes in front of the value that belong to it, the value. -/
structure El where
  tag : Nat
  hdr : List UInt8
  content : List UInt8
deriving DecidableEq, Repr

/-- An action: index, element, parse state to parse state; an error is a negative number. -/
abbrev PAct (π : Type) := Nat → El → π → Except Int π

variable {π : Type}

/-- The element of a call. -/
def elOf (data : List UInt8) (c : Call) : El :=
  ⟨c.tag, (data.drop (c.off - c.hdr)).take c.hdr, (data.drop c.off).take c.len⟩

/-- The parse state after a trace (latest call first). -/
def foldTr (act : PAct π) (data : List UInt8) (p0 : π) : List Call → Except Int π
  | [] => .ok p0
  | c :: tr =>
    match foldTr act data p0 tr with
    | .error e => .error e
    | .ok p => act c.act (elOf data c) p

/-- The results of the actions as `decode` wants them. -/
def cbOf (act : PAct π) (data : List UInt8) (p0 : π) (tr : List Call) : Int :=
  match foldTr act data p0 tr with
  | .ok _ => 0
  | .error e => e

/-- Result of a decoder run with actions. -/
inductive PRes (π : Type) where
  | done (ret : Int) (p : Option π)
  | fault
  | fuel
deriving DecidableEq

/-- The parse state of a decoder result. -/
def presOf (act : PAct π) (data : List UInt8) (p0 : π) : Res → PRes π
  | .halt r s => .done r (match foldTr act data p0 s.trace with | .ok p => some p | .error _ => none)
  | .next _ => .fuel
  | _ => .fault

/-- `asn1_ber_decoder(decoder, ctx, data, datalen)`: the actions work on the parse state. -/
def parse (d : Decoder) (act : PAct π) (p0 : π) (data : List UInt8) (n : Nat) : PRes π :=
  presOf act data p0 (decode d (cbOf act data p0) data n)

/-! ### The machine on trees -/

def tagOf : Tree → UInt8
  | .leaf t _ => t
  | .node t _ => t

def contentOf : Tree → List UInt8
  | .leaf _ c => c
  | .node _ ks => serL ks

/-- Tag and length octets. -/
def hdrOf (t : Tree) : List UInt8 := tagOf t :: derLen (contentOf t).length

/-- A constructed value that has been entered: its octets and what comes behind it. -/
structure Fr where
  rest : List Tree
  hdr : List UInt8
  content : List UInt8

structure TS (π : Type) where
  pc : Nat := 0
  cur : List Tree
  frs : List Fr := []
  jstk : List Nat := []
  matched : Bool := false
  last : Bool := false
  tag : Nat := 0
  el : Option (List UInt8 × List UInt8) := none
  p : π

inductive TRes (π : Type) where
  | next (a : TS π)
  | halt (ret : Int) (p : π)
  | err (ret : Int)
  | stuck

def tcall (d : Decoder) (act : PAct π) (a : TS π) (i tag : Nat) (el : List UInt8 × List UInt8) (l : Nat) : TRes π :=
  match d.machine[a.pc + i]? with
  | none => .stuck
  | some k =>
    if k ≥ d.nact then .stuck
    else match act k ⟨tag, el.1, el.2⟩ a.p with
      | .error e => if e < 0 then .err e else .stuck
      | .ok p => .next { a with p := p, pc := a.pc + l }

/-- The effect of a matched tag. -/
def enter (cons : Bool) (t : Tree) (rest : List Tree) (a : TS π) : Option (TS π) :=
  let a := { a with matched := true, last := false, tag := (tagOf t).toNat, el := some (hdrOf t, contentOf t) }
  if cons then
    match t with
    | .leaf _ _ => none
    | .node _ ks => if a.frs.length ≥ 10 then none else some { a with cur := ks, frs := ⟨rest, hdrOf t, contentOf t⟩ :: a.frs }
  else some { a with cur := rest }

def tgo (d : Decoder) (act : PAct π) (op l : Nat) (cons : Bool) (t : Tree) (rest : List Tree) (a : TS π) : TRes π :=
  match enter cons t rest a with
  | none => .stuck
  | some a =>
    if op ∈ leafOps then
      (if isAct op then tcall d act a (if isAny op then 1 else 2) a.tag (hdrOf t, contentOf t) l
       else .next { a with pc := a.pc + l })
    else if op ∈ jumpOps then
      (if !cons || a.jstk.length == 10 then .stuck
       else match d.machine[a.pc + 2]? with
        | none => .stuck
        | some g => .next { a with jstk := (a.pc + l) % 256 :: a.jstk, pc := g })
    else .stuck

def tmatch (d : Decoder) (act : PAct π) (op l : Nat) (a : TS π) : TRes π :=
  if (isCond op && a.matched) || (isSkip op && a.cur.isEmpty) then .next { a with last := false, pc := a.pc + l }
  else match a.cur with
    | [] => .err (-EBADMSG)
    | t :: rest =>
      if (tagOf t).toNat % 32 = 31 then .err (-EBADMSG)
      else if isAny op then tgo d act op l false t rest a
      else match d.machine[a.pc + 1]? with
        | none => .stuck
        | some o =>
          if tagMatches o (tagOf t).toNat then tgo d act op l (consBit o) t rest a
          else if isSkip op then
            .next { a with matched := false, last := false, tag := (tagOf t).toNat, el := none, pc := a.pc + l }
          else .err (-EBADMSG)

def tend (d : Decoder) (act : PAct π) (op l : Nat) (a : TS π) : TRes π :=
  if (op = 0x21 ∨ op = 0x25) ∧ !a.matched then .err (-EBADMSG)
  else match a.frs with
    | [] => .err (-EBADMSG)
    | f :: fs =>
      if !a.cur.isEmpty then
        (if isOf op then
          (match d.machine[a.pc + 1]? with
           | none => .stuck
           | some g => .next { a with pc := g, el := none })
         else .err (-EBADMSG))
      else
        let a := { a with cur := f.rest, frs := fs, el := some (f.hdr, f.content) }
        if isEndAct op then tcall d act a (if isOf op then 2 else 1) 0 (f.hdr, f.content) l
        else .next { a with pc := a.pc + l }

def tctl (d : Decoder) (act : PAct π) (op l : Nat) (a : TS π) : TRes π :=
  if op = 0x1c then (if a.matched then .next { a with pc := a.pc + l } else .err (-EBADMSG))
  else if op = 0x1d then (if a.jstk.length ≠ 0 ∨ a.frs.length ≠ 0 then .err (-EBADMSG) else .halt 0 a.p)
  else if op = 0x1f ∧ !a.last then .next { a with pc := a.pc + l }
  else if op = 0x1e ∨ op = 0x1f then
    (match a.el with
     | none => .stuck
     | some el => tcall d act a 1 a.tag el l)
  else if op = 0x28 then
    (match a.jstk with
     | [] => .err (-EBADMSG)
     | r :: rest => .next { a with pc := r, jstk := rest, matched := true, last := true })
  else .err (-EBADMSG)

def tstep (d : Decoder) (act : PAct π) (a : TS π) : TRes π :=
  match d.machine[a.pc]? with
  | none => .err (-EBADMSG)
  | some op =>
    match opLen op with
    | none => .stuck
    | some l =>
      if a.pc + l > d.machine.length then .err (-EBADMSG)
      else if op ≤ 0x1b then tmatch d act op l a
      else if op ∈ endOps then tend d act op l a
      else tctl d act op l a

def trun (d : Decoder) (act : PAct π) : Nat → TS π → TRes π
  | 0, a => .next a
  | n + 1, a =>
    match tstep d act a with
    | .next a => trun d act n a
    | r => r

/-! ### Simulation -/

/-- The bytes `l` are at position `i`. -/
def At (data : List UInt8) (i : Nat) (l : List UInt8) : Prop := ∃ pre post, data = pre ++ (l ++ post) ∧ pre.length = i

theorem At.slice {data l : List UInt8} {i : Nat} (h : At data i l) : (data.drop i).take l.length = l := by
  obtain ⟨pre, post, rfl, rfl⟩ := h
  simp

theorem At.le {data l : List UInt8} {i : Nat} (h : At data i l) : i + l.length ≤ data.length := by
  obtain ⟨pre, post, rfl, rfl⟩ := h
  simp

theorem At.left {data a b : List UInt8} {i : Nat} (h : At data i (a ++ b)) : At data i a := by
  obtain ⟨pre, post, rfl, rfl⟩ := h
  exact ⟨pre, b ++ post, by simp, rfl⟩

theorem At.right {data a b : List UInt8} {i : Nat} (h : At data i (a ++ b)) : At data (i + a.length) b := by
  obtain ⟨pre, post, rfl, rfl⟩ := h
  exact ⟨pre ++ a, post, by simp, by simp⟩

theorem At.right' {data a b : List UInt8} {i j : Nat} (h : At data i (a ++ b)) (hj : j = i + a.length) : At data j b :=
  hj ▸ h.right

/-- The levels of constructed values. -/
def Lv (data : List UInt8) (dp datalen : Nat) (cur : List Tree) : List (Nat × Nat × Nat) → List Fr → Prop
  | [], [] => At data dp (serL cur) ∧ datalen = dp + (serL cur).length ∧ WFL cur
  | (tdp, dl, hdr) :: cs, f :: fs =>
    At data dp (serL cur) ∧ datalen = dp + (serL cur).length ∧ WFL cur ∧
    At data (tdp - hdr) (f.hdr ++ f.content) ∧ hdr = f.hdr.length ∧ hdr ≤ tdp ∧ datalen = tdp + f.content.length ∧
    dl ≠ 0 ∧ Lv data datalen dl f.rest cs fs
  | _, _ => False

theorem Lv.head {data : List UInt8} {dp datalen : Nat} {cur : List Tree} {cs : List (Nat × Nat × Nat)} {fs : List Fr}
    (h : Lv data dp datalen cur cs fs) : At data dp (serL cur) ∧ datalen = dp + (serL cur).length ∧ WFL cur := by
  match cs, fs, h with
  | [], [], h => exact h
  | (_, _, _) :: _, _ :: _, h => exact ⟨h.1, h.2.1, h.2.2.1⟩

theorem Lv.length {data : List UInt8} {dp datalen : Nat} {cur : List Tree} {cs : List (Nat × Nat × Nat)} {fs : List Fr}
    (h : Lv data dp datalen cur cs fs) : cs.length = fs.length := by
  induction cs generalizing fs dp datalen cur with
  | nil => cases fs with
    | nil => rfl
    | cons f fs => exact h.elim
  | cons c cs ih => cases fs with
    | nil => exact h.elim
    | cons f fs =>
      obtain ⟨tdp, dl, hdr⟩ := c
      have := ih h.2.2.2.2.2.2.2.2
      simp [this]

/-- Another forest at the current level. -/
theorem Lv.setCur {data : List UInt8} {dp dp' datalen : Nat} {cur cur' : List Tree} {cs : List (Nat × Nat × Nat)}
    {fs : List Fr} (h : Lv data dp datalen cur cs fs) (h1 : At data dp' (serL cur'))
    (h2 : datalen = dp' + (serL cur').length) (h3 : WFL cur') : Lv data dp' datalen cur' cs fs := by
  match cs, fs, h with
  | [], [], h => exact ⟨h1, h2, h3⟩
  | (_, _, _) :: _, _ :: _, h => exact ⟨h1, h2, h3, h.2.2.2⟩

/-- The relation between the decoder and the machine on trees. -/
structure R (act : PAct π) (p0 : π) (data : List UInt8) (s : St) (a : TS π) : Prop where
  pc : s.pc = a.pc
  jstk : s.jstk = a.jstk
  matched : s.matched = a.matched
  last : s.last = a.last
  tag : s.tag = a.tag
  lv : Lv data s.dp s.datalen a.cur s.cstk a.frs
  el : ∀ h c, a.el = some (h, c) → At data (s.tdp - s.hdr) (h ++ c) ∧ s.hdr = h.length ∧ s.hdr ≤ s.tdp ∧ s.len = c.length
  fold : foldTr act data p0 s.trace = .ok a.p
  max : data.length ≤ 2 ^ 18

/-- What a step of the decoder has to be. -/
def Sim (act : PAct π) (p0 : π) (data : List UInt8) (r : Res) : TRes π → Prop
  | .next a => ∃ s, r = .next s ∧ R act p0 data s a
  | .halt c p => ∃ s, r = .halt c s ∧ foldTr act data p0 s.trace = .ok p
  | .err c => c < 0 ∧ ∃ s, r = .halt c s
  | .stuck => True

theorem derLen_length (n : Nat) : 1 ≤ (derLen n).length ∧ (derLen n).length ≤ 4 := by
  unfold derLen
  repeat' split
  all_goals simp

theorem ser_eq (t : Tree) : ser t = tagOf t :: (derLen (contentOf t).length ++ contentOf t) := by
  cases t <;> rfl

theorem ser_length (t : Tree) : 2 ≤ (ser t).length := by
  rw [ser_eq]
  have := (derLen_length (contentOf t).length).1
  simp only [List.length_cons, List.length_append]; omega

theorem WF_len {t : Tree} (h : WF t) : (contentOf t).length < 2 ^ 24 := by
  cases t with
  | leaf t c => exact h
  | node t ks => exact h.2.1

theorem elOf_slice {data h c : List UInt8} {hd tdp : Nat} (k tag : Nat) (h1 : At data (tdp - hd) (h ++ c)) (h2 : hd = h.length)
    (h3 : hd ≤ tdp) : elOf data ⟨k, hd, tag, tdp, c.length⟩ = ⟨tag, h, c⟩ := by
  unfold elOf
  subst h2
  have e1 := h1.left.slice
  have e2 := (h1.right' (j := tdp) (by omega)).slice
  dsimp only
  rw [e1, e2]

theorem call_sim (d : Decoder) (act : PAct π) (p0 : π) (data : List UInt8) (s : St) (a : TS π)
    (i tag off len l : Nat) (k : St → St) (h c : List UInt8)
    (hpc : s.pc = a.pc) (hf : foldTr act data p0 s.trace = .ok a.p)
    (hat : At data (off - s.hdr) (h ++ c)) (hh : s.hdr = h.length) (hle : s.hdr ≤ off) (hl : len = c.length)
    (hk : ∀ p tr, foldTr act data p0 tr = .ok p → R act p0 data (k { s with trace := tr }) { a with p := p, pc := a.pc + l }) :
    Sim act p0 data (callAct d (cbOf act data p0) s i tag off len k) (tcall d act a i tag (h, c) l) := by
  unfold callAct tcall
  rw [show d.machine[s.pc + i]? = d.machine[a.pc + i]? by rw [hpc]]
  match d.machine[a.pc + i]? with
  | none => trivial
  | some m =>
    dsimp only
    by_cases hm : m ≥ d.nact
    · rw [if_pos hm, if_pos hm]; trivial
    · rw [if_neg hm, if_neg hm]
      have he : elOf data ⟨m, s.hdr, tag, off, len⟩ = ⟨tag, h, c⟩ := by rw [hl]; exact elOf_slice _ _ hat hh hle
      have hfold : foldTr act data p0 (⟨m, s.hdr, tag, off, len⟩ :: s.trace) = act m ⟨tag, h, c⟩ a.p := by
        simp only [foldTr, hf, he]
      match hr : act m ⟨tag, h, c⟩ a.p with
      | .error e =>
        dsimp only
        have hcb : cbOf act data p0 (⟨m, s.hdr, tag, off, len⟩ :: s.trace) = e := by
          unfold cbOf; rw [hfold, hr]
        rw [hcb]
        by_cases hneg : e < 0
        · rw [if_pos hneg, if_pos hneg]
          exact ⟨hneg, _, rfl⟩
        · rw [if_neg hneg, if_neg hneg]; trivial
      | .ok p =>
        dsimp only
        have hcb : cbOf act data p0 (⟨m, s.hdr, tag, off, len⟩ :: s.trace) = 0 := by
          unfold cbOf; rw [hfold, hr]
        rw [hcb, if_neg (by decide)]
        exact ⟨_, rfl, hk p _ (hfold.trans hr)⟩

theorem ctl_sim (d : Decoder) (act : PAct π) (p0 : π) (data : List UInt8) (s : St) (a : TS π) (h : R act p0 data s a) (op l : Nat) :
    Sim act p0 data (ctlOp d (cbOf act data p0) op l s) (tctl d act op l a) := by
  obtain ⟨pc, cur, frs, jstk, matched, last, tag, el, p⟩ := a
  obtain ⟨h1, h2, h3, h4, h5, hlv, hel, hfold, hmax⟩ := h
  dsimp only at h1 h2 h3 h4 h5 hlv hel hfold hmax
  subst h1 h2 h3 h4 h5
  unfold ctlOp tctl
  dsimp only
  have hlen := hlv.length
  by_cases c1 : op = 0x1c
  · rw [if_pos c1, if_pos c1]
    by_cases hm : s.matched = true
    · rw [if_pos hm, if_pos hm]
      exact ⟨_, rfl, rfl, rfl, rfl, rfl, rfl, hlv, hel, hfold, hmax⟩
    · rw [if_neg hm, if_neg hm]
      exact ⟨by decide, _, rfl⟩
  rw [if_neg c1, if_neg c1]
  by_cases c2 : op = 0x1d
  · rw [if_pos c2, if_pos c2]
    by_cases c3 : s.jstk.length ≠ 0 ∨ frs.length ≠ 0
    · rw [if_pos c3, if_pos (by rw [hlen]; exact c3)]; exact ⟨by decide, _, rfl⟩
    · rw [if_neg c3, if_neg (by rw [hlen]; exact c3)]; exact ⟨_, rfl, hfold⟩
  rw [if_neg c2, if_neg c2]
  by_cases c3 : op = 0x1f ∧ (!s.last) = true
  · rw [if_pos c3, if_pos c3]
    exact ⟨_, rfl, rfl, rfl, rfl, rfl, rfl, hlv, hel, hfold, hmax⟩
  rw [if_neg c3, if_neg c3]
  by_cases c4 : op = 0x1e ∨ op = 0x1f
  · rw [if_pos c4, if_pos c4]
    match el, hel with
    | none, hel => trivial
    | some (hd, c), hel =>
      obtain ⟨e1, e2, e3, e4⟩ := hel hd c rfl
      dsimp only
      refine call_sim d act p0 data s _ 1 s.tag s.tdp s.len l _ hd c rfl hfold e1 e2 e3 e4 ?_
      intro p tr htr
      exact ⟨rfl, rfl, rfl, rfl, rfl, hlv, hel, htr, hmax⟩
  rw [if_neg c4, if_neg c4]
  by_cases c5 : op = 0x28
  · rw [if_pos c5, if_pos c5]
    generalize hj : s.jstk = j
    match j with
    | [] => exact ⟨by decide, _, rfl⟩
    | r :: rest => exact ⟨_, rfl, rfl, rfl, rfl, rfl, rfl, hlv, hel, hfold, hmax⟩
  · rw [if_neg c5, if_neg c5]; exact ⟨by decide, _, rfl⟩

theorem serL_isEmpty {l : List Tree} : (serL l).length = 0 ↔ l = [] := by
  constructor
  · intro h; exact serL_nil (List.length_eq_zero_iff.1 h)
  · rintro rfl; rfl

theorem end_sim (d : Decoder) (act : PAct π) (p0 : π) (data : List UInt8) (s : St) (a : TS π) (h : R act p0 data s a) (op l : Nat) :
    Sim act p0 data (endOp d (cbOf act data p0) data op l s) (tend d act op l a) := by
  obtain ⟨pc, cur, frs, jstk, matched, last, tag, el, p⟩ := a
  obtain ⟨h1, h2, h3, h4, h5, hlv, hel, hfold, hmax⟩ := h
  dsimp only at h1 h2 h3 h4 h5 hlv hel hfold hmax
  subst h1 h2 h3 h4 h5
  unfold endOp tend
  dsimp only
  by_cases c1 : (op = 0x21 ∨ op = 0x25) ∧ (!s.matched) = true
  · rw [if_pos c1, if_pos c1]; exact ⟨by decide, _, rfl⟩
  rw [if_neg c1, if_neg c1]
  obtain ⟨spc, sdp, stdp, slen, sdatalen, shdr, stag, sindef, smatched, slast, scons, scstk, sjstk, strace⟩ := s
  dsimp only at *
  match scstk, frs, hlv with
  | [], [], _ => exact ⟨by decide, _, rfl⟩
  | [], _ :: _, hlv => exact hlv.elim
  | _ :: _, [], hlv => exact hlv.elim
  | (tdp, dl, hdr) :: cs, f :: fs, hlv =>
    have hlv' := hlv
    obtain ⟨l1, l2, l3, l4, l5, l6, l7, l8, l9⟩ := hlv'
    dsimp only
    rw [if_neg l8]
    unfold endDef
    dsimp only
    have hm2 : sdatalen ≤ data.length := by rw [l2]; exact l1.le
    by_cases hcur : cur = []
    · have hdp : sdp = sdatalen := by rw [l2, hcur]; simp [serL]
      rw [if_neg (by omega), if_neg (by omega)]
      subst hcur
      simp only [List.isEmpty_nil, Bool.not_true, Bool.false_eq_true, if_false]
      unfold endAct
      dsimp only
      have hw : wsub sdatalen tdp = f.content.length := by
        rw [wsub_eq (by omega) (by omega)]; omega
      rw [hw]
      have hel' : ∀ hh cc, some (f.hdr, f.content) = some (hh, cc) → At data (tdp - hdr) (hh ++ cc) ∧ hdr = hh.length ∧
          hdr ≤ tdp ∧ f.content.length = cc.length := by
        intro hh cc he
        simp only [Option.some.injEq, Prod.mk.injEq] at he
        rw [← he.1, ← he.2]
        exact ⟨l4, l5, l6, rfl⟩
      rw [← hdp] at l9
      by_cases c2 : isEndAct op = true
      · rw [if_pos c2, if_pos c2]
        refine call_sim d act p0 data _ _ _ 0 tdp _ l _ f.hdr f.content rfl hfold l4 l5 l6 rfl ?_
        intro p tr htr
        exact ⟨rfl, rfl, rfl, rfl, rfl, l9, hel', htr, hmax⟩
      · rw [if_neg c2, if_neg c2]
        exact ⟨_, rfl, rfl, rfl, rfl, rfl, rfl, l9, hel', hfold, hmax⟩
    · have hpos : 0 < (serL cur).length := Nat.pos_of_ne_zero fun h0 => hcur (serL_isEmpty.1 h0)
      have hne : cur.isEmpty = false := by cases hx : cur with
        | nil => exact absurd hx hcur
        | cons _ _ => rfl
      rw [hne]
      simp only [Bool.not_false, if_true]
      by_cases c2 : isOf op = true
      · rw [if_pos ⟨by omega, c2⟩, if_pos c2]
        unfold endContinue
        dsimp only
        match d.machine[spc + 1]? with
        | none => trivial
        | some g => exact ⟨_, rfl, rfl, rfl, rfl, rfl, rfl, hlv, (fun _ _ he => by cases he), hfold, hmax⟩
      · rw [if_neg (by intro hh; exact c2 hh.2), if_pos (by omega), if_neg c2]
        exact ⟨by decide, _, rfl⟩

/-- Reading tag and length of the first value. -/
theorem matchLen_sim (data : List UInt8) (s : St) (t : Tree) (rest : List Tree) (hat : At data s.dp (serL (t :: rest)))
    (hwf : WF t) (hdl : s.datalen = s.dp + (serL (t :: rest)).length) (hmax : data.length ≤ 2 ^ 18) (s1 : St)
    (h1 : s1.dp = s.dp + 1) (h2 : s1.datalen = s.datalen) (h3 : s1.hdr = 2) :
    matchLen data s1 = pushCons { s1 with dp := s.dp + (hdrOf t).length, len := (contentOf t).length, hdr := (hdrOf t).length } := by
  have hd := derLen_length (contentOf t).length
  have hle := hat.le
  obtain ⟨pre, post, hdata, hpre⟩ := hat
  have hdata' : data = (pre ++ [tagOf t]) ++ (derLen (contentOf t).length ++ (contentOf t ++ (serL rest ++ post))) := by
    rw [hdata]; simp only [serL, ser_eq]; simp
  have hlen : (serL (t :: rest)).length = 1 + (derLen (contentOf t).length).length + (contentOf t).length + (serL rest).length := by
    simp only [serL, ser_eq, List.length_append, List.length_cons]; omega
  have := matchLen_der (pre ++ [tagOf t]) (derLen (contentOf t).length) (contentOf t) (serL rest ++ post)
    (derLen_isDer _ (WF_len hwf)) hd.2 s1 (by rw [h1]; simp [hpre]) (by rw [h2]; omega)
    (by rw [h2, hdl, hlen]; simp [hpre]; omega)
  rw [← hdata'] at this
  rw [this, h3]
  simp only [hdrOf, List.length_append, List.length_cons, List.length_nil, hpre]
  congr 2
  · omega
  · omega

/-- After the tag of the first value has been matched. -/
theorem after_sim (d : Decoder) (act : PAct π) (p0 : π) (data : List UInt8) (op l : Nat) (cons : Bool) (t : Tree) (dp : Nat)
    (hatc : At data dp (hdrOf t ++ contentOf t)) (hmax : data.length ≤ 2 ^ 18) (s : St) (a : TS π)
    (e1 : s.pc = a.pc) (e2 : s.jstk = a.jstk) (e3 : s.matched = a.matched) (e4 : s.last = a.last) (e5 : s.tag = a.tag)
    (e6 : foldTr act data p0 s.trace = .ok a.p) (e7 : s.hdr = (hdrOf t).length) (e8 : s.tdp = dp + (hdrOf t).length)
    (e9 : s.dp = dp + (hdrOf t).length) (e10 : s.len = (contentOf t).length) (e11 : s.cons = cons) (e12 : s.indef = false)
    (e13 : a.el = some (hdrOf t, contentOf t))
    (e14 : Lv data (if cons then s.dp else s.dp + s.len) s.datalen a.cur s.cstk a.frs) :
    Sim act p0 data (afterMatch d (cbOf act data p0) data op l s)
      (if op ∈ leafOps then
        (if isAct op then tcall d act a (if isAny op then 1 else 2) a.tag (hdrOf t, contentOf t) l
         else .next { a with pc := a.pc + l })
      else if op ∈ jumpOps then
        (if !cons || a.jstk.length == 10 then .stuck
         else match d.machine[a.pc + 2]? with
          | none => .stuck
          | some g => .next { a with jstk := (a.pc + l) % 256 :: a.jstk, pc := g })
      else .stuck) := by
  obtain ⟨pc, cur, frs, jstk, matched, last, tag, el, p⟩ := a
  dsimp only at *
  subst e1 e2 e3 e4 e5 e13
  have hel : ∀ hh cc, some (hdrOf t, contentOf t) = some (hh, cc) →
      At data (s.tdp - s.hdr) (hh ++ cc) ∧ s.hdr = hh.length ∧ s.hdr ≤ s.tdp ∧ s.len = cc.length := by
    intro hh cc he
    simp only [Option.some.injEq, Prod.mk.injEq] at he
    rw [← he.1, ← he.2, e7, e8, e10]
    refine ⟨?_, rfl, by omega, rfl⟩
    rw [Nat.add_sub_cancel]; exact hatc
  unfold afterMatch
  by_cases o1 : op ∈ leafOps
  · rw [if_pos o1, if_pos o1]
    unfold leafOp
    rw [if_neg (by rw [e12]; simp)]
    unfold leafAct
    dsimp only
    by_cases o2 : isAct op = true
    · rw [if_pos o2, if_pos o2]
      refine call_sim d act p0 data s _ _ s.tag s.dp s.len l _ (hdrOf t) (contentOf t) rfl
        e6 (by rw [e9, e7, Nat.add_sub_cancel]; exact hatc) e7 (by omega) e10 ?_
      intro p tr htr
      refine ⟨rfl, rfl, rfl, rfl, rfl, ?_, hel, htr, hmax⟩
      dsimp only; rw [e11]; exact e14
    · rw [if_neg o2, if_neg o2]
      refine ⟨_, rfl, rfl, rfl, rfl, rfl, rfl, ?_, hel, e6, hmax⟩
      dsimp only; rw [e11]; exact e14
  rw [if_neg o1, if_neg o1]
  by_cases o2 : op ∈ jumpOps
  · rw [if_pos o2, if_pos o2]
    by_cases o3 : (!cons || s.jstk.length == 10) = true
    · rw [if_pos o3]; trivial
    · rw [if_neg o3]
      unfold jumpOp
      have hj : ¬ s.jstk.length = 10 := by intro hj; apply o3; simp [hj]
      have hcons : cons = true := by
        cases cons
        · exact absurd (by simp) o3
        · rfl
      rw [if_neg hj]
      match d.machine[s.pc + 2]? with
      | none => trivial
      | some g =>
        refine ⟨_, rfl, rfl, rfl, rfl, rfl, rfl, ?_, hel, e6, hmax⟩
        dsimp only; rw [hcons] at e14; exact e14
  · rw [if_neg o2, if_neg o2]; trivial

/-- Length and contents of a matched value. -/
theorem go_sim (d : Decoder) (act : PAct π) (p0 : π) (data : List UInt8) (s : St) (a : TS π) (h : R act p0 data s a) (op l : Nat)
    (t : Tree) (rest : List Tree) (hcur : a.cur = t :: rest) (cons : Bool) :
    Sim act p0 data (matchCont d (cbOf act data p0) data op l s (matchLen data
      { s with indef := false, matched := true, last := false, cons := cons, hdr := 2, tag := (tagOf t).toNat, dp := s.dp + 1 }))
      (tgo d act op l cons t rest a) := by
  obtain ⟨l1, l2, l3⟩ := h.lv.head
  rw [hcur] at l1 l2 l3
  have hle := l1.le
  rw [matchLen_sim data s t rest l1 l3.1 l2 h.max
    { s with indef := false, matched := true, last := false, cons := cons, hdr := 2, tag := (tagOf t).toNat, dp := s.dp + 1 }
    rfl rfl rfl]
  have hsplit : serL (t :: rest) = (hdrOf t ++ contentOf t) ++ serL rest := by simp [serL, ser_eq, hdrOf]
  have hlenS : (serL (t :: rest)).length = (hdrOf t).length + (contentOf t).length + (serL rest).length := by
    rw [hsplit]; simp; omega
  have hs2 : 2 ≤ (serL (t :: rest)).length := by
    have := ser_length t
    simp only [serL, List.length_append]; omega
  rw [hsplit] at l1
  have hatc := l1.left
  have hatr : At data (s.dp + (hdrOf t).length + (contentOf t).length) (serL rest) := l1.right' (by simp; omega)
  unfold tgo enter pushCons
  cases cons
  · simp only [Bool.false_eq_true, if_false]
    unfold matchCont
    refine after_sim d act p0 data op l false t s.dp hatc h.max _ _ h.pc h.jstk rfl rfl rfl h.fold rfl rfl rfl rfl rfl rfl rfl ?_
    rw [if_neg (by simp)]
    exact h.lv.setCur hatr (by dsimp only; omega) l3.2
  · simp only [if_true]
    rw [h.lv.length]
    match t, hatc, hatr, hlenS, l3, l2, hs2 with
    | .leaf _ _, _, _, _, _, _, _ => trivial
    | .node tg ks, hatc, hatr, hlenS, l3, l2, hs2 =>
      dsimp only
      by_cases c3 : a.frs.length ≥ 10
      · rw [if_pos c3, if_pos c3]; trivial
      · rw [if_neg c3, if_neg c3]
        simp only [Bool.false_eq_true, if_false]
        unfold matchCont
        refine after_sim d act p0 data op l true _ s.dp hatc h.max _ _ h.pc h.jstk rfl rfl rfl h.fold rfl rfl rfl rfl rfl rfl rfl ?_
        rw [if_pos rfl]
        dsimp only
        refine ⟨hatc.right' rfl, rfl, l3.1.2.2, ?_, rfl, Nat.le_add_left _ _, rfl, ?_, ?_⟩
        · rw [Nat.add_sub_cancel]; exact hatc
        · omega
        · have e : (contentOf (.node tg ks)).length = (serL ks).length := rfl
          exact h.lv.setCur hatr (by dsimp only; omega) l3.2

theorem match_sim (d : Decoder) (act : PAct π) (p0 : π) (data : List UInt8) (s : St) (a : TS π) (h : R act p0 data s a) (op l : Nat) :
    Sim act p0 data (matchCont d (cbOf act data p0) data op l s (matchOp d data op l s)) (tmatch d act op l a) := by
  have hgo := go_sim d act p0 data s a h op l
  obtain ⟨pc, cur, frs, jstk, matched, last, tag, el, p⟩ := a
  obtain ⟨h1, h2, h3, h4, h5, hlv, hel, hfold, hmax⟩ := h
  dsimp only at h1 h2 h3 h4 h5 hlv hel hfold hmax
  subst h1 h2 h3 h4 h5
  obtain ⟨l1, l2, l3⟩ := hlv.head
  have hle := l1.le
  unfold matchOp tmatch
  dsimp only
  have hemp : (s.dp == s.datalen) = cur.isEmpty := by
    rw [Bool.eq_iff_iff]
    simp only [beq_iff_eq, List.isEmpty_iff, ← serL_isEmpty]
    omega
  rw [hemp]
  by_cases c1 : ((isCond op && s.matched) || (isSkip op && cur.isEmpty)) = true
  · rw [if_pos c1, if_pos c1]
    exact ⟨_, rfl, rfl, rfl, rfl, rfl, rfl, hlv, hel, hfold, hmax⟩
  rw [if_neg c1, if_neg c1]
  match cur, hlv, l1, l2, l3, hle, hgo with
  | [], _, _, l2, _, _, _ =>
    have : (serL []).length = 0 := rfl
    rw [wsub_eq (by omega) (by omega), if_pos (by omega)]
    exact ⟨by decide, _, rfl⟩
  | t :: rest, hlv, l1, l2, l3, hle, hgo =>
    have hs2 : 2 ≤ (serL (t :: rest)).length := by
      have := ser_length t
      simp only [serL, List.length_append]; omega
    rw [wsub_eq (by omega) (by omega), if_neg (by omega)]
    have hget : data[s.dp]? = some (tagOf t) := by
      obtain ⟨pre, post, hdata, hpre⟩ := l1
      rw [hdata, ← hpre]
      simp only [serL, ser_eq]
      simp
    rw [hget]
    dsimp only
    by_cases c2 : (tagOf t).toNat % 32 = 31
    · rw [if_pos c2, if_pos c2]; exact ⟨by decide, _, rfl⟩
    rw [if_neg c2, if_neg c2]
    unfold matchTag
    dsimp only
    by_cases c3 : isAny op = true
    · rw [if_pos c3, if_pos c3]
      exact hgo t rest rfl false
    · rw [if_neg c3, if_neg c3]
      match d.machine[s.pc + 1]? with
      | none => trivial
      | some o =>
        dsimp only
        by_cases c4 : tagMatches o (tagOf t).toNat = true
        · rw [if_pos c4, if_neg (by rw [c4]; simp)]
          exact hgo t rest rfl (consBit o)
        · rw [if_neg c4, if_pos (by simpa using c4)]
          by_cases c5 : isSkip op = true
          · rw [if_pos c5, if_pos c5]
            exact ⟨_, rfl, rfl, rfl, rfl, rfl, rfl, hlv, (fun _ _ he => by cases he), hfold, hmax⟩
          · rw [if_neg c5, if_neg c5]; exact ⟨by decide, _, rfl⟩

theorem step_sim (d : Decoder) (act : PAct π) (p0 : π) (data : List UInt8) (s : St) (a : TS π) (h : R act p0 data s a) :
    Sim act p0 data (step d (cbOf act data p0) data s) (tstep d act a) := by
  unfold step tstep
  rw [h.pc]
  match d.machine[a.pc]? with
  | none => exact ⟨by decide, _, rfl⟩
  | some op =>
    dsimp only
    match opLen op with
    | none => trivial
    | some l =>
      dsimp only
      by_cases c1 : a.pc + l > d.machine.length
      · rw [if_pos c1, if_pos c1]; exact ⟨by decide, _, rfl⟩
      rw [if_neg c1, if_neg c1]
      unfold exec
      by_cases c2 : op ≤ 0x1b
      · rw [if_pos c2, if_pos c2]; exact match_sim d act p0 data s a h op l
      rw [if_neg c2, if_neg c2]
      by_cases c3 : op ∈ endOps
      · rw [if_pos c3, if_pos c3]; exact end_sim d act p0 data s a h op l
      · rw [if_neg c3, if_neg c3]; exact ctl_sim d act p0 data s a h op l

theorem run_sim (d : Decoder) (act : PAct π) (p0 : π) (data : List UInt8) : ∀ (n : Nat) (s : St) (a : TS π),
    R act p0 data s a → Sim act p0 data (run d (cbOf act data p0) data n s) (trun d act n a)
  | 0, s, a, h => ⟨s, rfl, h⟩
  | n + 1, s, a, h => by
    have hs := step_sim d act p0 data s a h
    unfold run trun
    match ht : tstep d act a with
    | .stuck => trivial
    | .next a' =>
      rw [ht] at hs
      obtain ⟨s', h1, h2⟩ := hs
      rw [h1]
      exact run_sim d act p0 data n s' a' h2
    | .halt r p =>
      rw [ht] at hs
      obtain ⟨s', h1, h2⟩ := hs
      rw [h1]
      exact ⟨s', rfl, h2⟩
    | .err r =>
      rw [ht] at hs
      obtain ⟨h0, s', h1⟩ := hs
      rw [h1]
      exact ⟨h0, s', rfl⟩

/-- The decoder on the serialisation of a forest. -/
theorem parse_sim (d : Decoder) (act : PAct π) (p0 : π) (f : List Tree) (hwf : WFL f) (hmax : (serL f).length ≤ 2 ^ 18) (n : Nat) :
    match trun d act n { cur := f, p := p0 } with
    | .halt r p => parse d act p0 (serL f) n = .done r (some p)
    | .err r => r < 0 ∧ ∃ x, parse d act p0 (serL f) n = .done r x
    | .next _ => parse d act p0 (serL f) n = .fuel
    | .stuck => True := by
  have h := run_sim d act p0 (serL f) n (start (serL f)) { cur := f, p := p0 }
    ⟨rfl, rfl, rfl, rfl, rfl, ⟨⟨[], [], by simp [start], rfl⟩, by simp [start], hwf⟩, (fun _ _ he => by cases he), rfl, hmax⟩
  unfold parse decode
  rw [if_neg (by omega)]
  match ht : trun d act n { cur := f, p := p0 } with
  | .stuck => trivial
  | .next a =>
    rw [ht] at h
    obtain ⟨s, h1, _⟩ := h
    rw [h1]; rfl
  | .halt r p =>
    rw [ht] at h
    obtain ⟨s, h1, h2⟩ := h
    rw [h1]
    simp only [presOf, h2]
  | .err r =>
    rw [ht] at h
    obtain ⟨h0, s, h1⟩ := h
    rw [h1]
    exact ⟨h0, _, rfl⟩

end LC.Asn1.Tr
