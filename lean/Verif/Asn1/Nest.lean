import Verif.Asn1.Check
/-
Which action calls lie inside the slice of which other call: a static check of the bytecode (`closed`) and its soundness
(`decode_nest`), for all inputs.  The check explores the control states of the decoder (position, return addresses, open constructed
types, flags) without the input.
-/
namespace LC.Asn1.Nest

/-- What is asked.  `scope` of a record are the calls of actions in `sel` since the last one in `reset`.  When an action in `needG` is
called then all calls in scope must lie inside its slice; when one in `needF` is called then no call may be in scope; `fin` tells what
is allowed at the end (argument: no call is in scope). -/
structure Prog where
  reset : Nat → Bool
  sel : Nat → Bool
  needG : Nat → Bool
  needF : Nat → Bool
  fin : Bool → Bool

def scope (P : Prog) : List Call → List Call
  | [] => []
  | c :: tr => if P.reset c.act then [] else if P.sel c.act then c :: scope P tr else scope P tr

/-- All calls in scope lie inside the slice. -/
def CallIn (P : Prog) (off len : Nat) (pre : List Call) : Prop := ∀ x ∈ scope P pre, off ≤ x.off ∧ x.off + x.len ≤ off + len

/-- The demands on a record of calls (latest first). -/
def TrOK (P : Prog) (tr : List Call) : Prop := ∀ post c pre, tr = post ++ c :: pre →
  (P.needG c.act = true → CallIn P c.off c.len pre) ∧ (P.needF c.act = true → scope P pre = [])

/-! ### The abstract machine -/

structure AS where
  pc : Nat
  jstk : List Nat := []
  /-- for each open constructed type: no call was in scope when it was opened -/
  cs : List Bool := []
  m : Bool := false
  l : Bool := false
  /-- the slice `(tdp, len)` ends before the position; otherwise there is more input in the present constructed type -/
  t : Bool := true
  /-- no call is in scope -/
  f : Bool := true
  /-- all calls in scope lie inside `(tdp, len)` -/
  g : Bool := true
deriving DecidableEq, Repr

/-- The flag `f` after a call. -/
def upd (P : Prog) (act : Nat) (f : Bool) : Bool := if P.reset act then true else if P.sel act then false else f

/-- A call; `none` if a demand is not met. -/
def acall (P : Prog) (act : Nat) (g f : Bool) : Option Bool :=
  if (P.needG act && !g) || (P.needF act && !f) then none else some (upd P act f)

def amatch (d : Decoder) (P : Prog) (op l : Nat) (a : AS) : Option (List AS) :=
  let cons := !isAny op && consBit (d.machine.getD (a.pc + 1) 0)
  if op ∈ leafOps then
    if cons then
      (if isAct op then none
       else some ([true, false].map fun t => { a with pc := a.pc + l, cs := a.f :: a.cs, m := true, l := false, t := t, g := false }))
    else if isAct op then
      match d.machine[a.pc + (if isAny op then 1 else 2)]? with
      | none => some []
      | some act =>
        match acall P act false a.f with
        | none => none
        | some f => some [{ a with pc := a.pc + l, m := true, l := false, t := true, g := false, f := f }]
    else some [{ a with pc := a.pc + l, m := true, l := false, t := true, g := false }]
  else if op ∈ jumpOps then
    match d.machine[a.pc + 2]? with
    | none => some []
    | some p => some ([true, false].map fun t => { a with pc := p, jstk := (a.pc + l) % 256 :: a.jstk, cs := if cons then a.f :: a.cs else a.cs, m := true, l := false, t := t, g := false })
  else some []

def askip (op l : Nat) (a : AS) : List AS :=
  (if isSkip op && a.t then [{ a with pc := a.pc + l, l := false }] else []) ++
  (if isSkip op && !isAny op then [{ a with pc := a.pc + l, l := false, m := false }] else [])

def aend (d : Decoder) (P : Prog) (op l : Nat) (a : AS) : Option (List AS) :=
  match a.cs with
  | [] => some []
  | f0 :: rest =>
    let cont := if isOf op then
        (match d.machine[a.pc + 1]? with
         | none => []
         | some t => [{ a with pc := t, t := false, g := false }])
      else []
    if isEndAct op then
      match d.machine[a.pc + (if isOf op then 2 else 1)]? with
      | none => some cont
      | some act =>
        match acall P act f0 a.f with
        | none => none
        | some f => some ({ a with pc := a.pc + l, cs := rest, t := true, g := false, f := f } :: cont)
    else some ({ a with pc := a.pc + l, cs := rest, t := true, g := f0 } :: cont)

def actl (d : Decoder) (P : Prog) (op l : Nat) (a : AS) : Option (List AS) :=
  if op = 0x1c then some (if a.m then [{ a with pc := a.pc + l }] else [])
  else if op = 0x1d then (if P.fin a.f then some [] else none)
  else if op = 0x1f ∧ ! a.l then some [{ a with pc := a.pc + l }]
  else if op = 0x1e ∨ op = 0x1f then
    (if a.t then
      match d.machine[a.pc + 1]? with
      | none => some []
      | some act =>
        match acall P act a.g a.f with
        | none => none
        | some f => some [{ a with pc := a.pc + l, g := false, f := f }]
     else none)
  else if op = 0x28 then
    match a.jstk with
    | [] => some []
    | r :: rest => some [{ a with pc := r, jstk := rest, m := true, l := true }]
  else some []

def astep (d : Decoder) (P : Prog) (a : AS) : Option (List AS) :=
  match d.machine[a.pc]? with
  | none => some []
  | some op =>
    match opLen op with
    | none => some []
    | some l =>
      if a.pc + l > d.machine.length then some []
      else if op ≤ 0x1b then
        if isCond op && a.m then some [{ a with pc := a.pc + l, l := false }]
        else match amatch d P op l a with
        | none => none
        | some L => some (askip op l a ++ L)
      else if op ∈ endOps then aend d P op l a
      else actl d P op l a

/-- The states, by position (in rows of 16). -/
abbrev Cert := List (List (List AS))

def Cert.mem (C : Cert) (a : AS) : Bool := ((C.getD (a.pc / 16) []).getD (a.pc % 16) []).contains a

/-- The initial state is in the certificate, and the successors of its states. -/
def closed (d : Decoder) (P : Prog) (C : Cert) : Bool :=
  C.mem { pc := 0 } && C.all fun r => r.all fun b => b.all fun a =>
    match astep d P a with
    | none => false
    | some L => L.all C.mem

/-! ### Soundness -/

theorem scope_app (P : Prog) (old : List Call) (h : scope P old = []) : ∀ new : List Call, ∀ x ∈ scope P (new ++ old), x ∈ new
  | [], x, hx => by rw [List.nil_append, h] at hx; cases hx
  | c :: new, x, hx => by
    rw [List.cons_append] at hx
    unfold scope at hx
    split at hx
    · cases hx
    · split at hx
      · rcases List.mem_cons.mp hx with e | hx
        · rw [e]; simp
        · exact List.mem_cons_of_mem _ (scope_app P old h new x hx)
      · exact List.mem_cons_of_mem _ (scope_app P old h new x hx)

theorem scope_sub (P : Prog) : ∀ tr : List Call, ∀ x ∈ scope P tr, x ∈ tr
  | tr, x, hx => by
    have := scope_app P [] rfl tr x (by simpa using hx)
    exact this

theorem upd_eq (P : Prog) (c : Call) (tr : List Call) : (scope P (c :: tr)).isEmpty = upd P c.act (scope P tr).isEmpty := by
  unfold upd
  rw [scope]
  split
  · rfl
  · split <;> rfl

theorem TrOK.nil (P : Prog) : TrOK P [] := by
  intro post c pre h
  have := congrArg List.length h
  simp at this

theorem TrOK.call {P : Prog} {tr : List Call} (h : TrOK P tr) (c : Call) (hg : P.needG c.act = true → CallIn P c.off c.len tr)
    (hf : P.needF c.act = true → scope P tr = []) : TrOK P (c :: tr) := by
  intro post x pre he
  cases post with
  | nil =>
    injection he with h1 h2
    subst h1; subst h2
    exact ⟨hg, hf⟩
  | cons y post =>
    injection he with h1 h2
    exact h post x pre h2

/-- The open constructed types: starts in order, at most `up`; calls since the opening begin behind the start. -/
def StkR (P : Prog) (tr : List Call) : Nat → List (Nat × Nat × Nat) → List Bool → Prop
  | _, [], [] => True
  | up, e :: es, b :: bs => e.1 ≤ up ∧ (∃ new old, tr = new ++ old ∧ (scope P old).isEmpty = b ∧ ∀ c ∈ new, e.1 ≤ c.off) ∧ StkR P tr e.1 es bs
  | _, _, _ => False

theorem StkR.mono {P : Prog} {tr : List Call} {up up' : Nat} (h : up ≤ up') : ∀ {es : List (Nat × Nat × Nat)} {bs : List Bool},
    StkR P tr up es bs → StkR P tr up' es bs
  | [], [], _ => trivial
  | _ :: _, _ :: _, hs => ⟨Nat.le_trans hs.1 h, hs.2⟩
  | [], _ :: _, hs => hs.elim
  | _ :: _, [], hs => hs.elim

theorem StkR.call {P : Prog} {tr : List Call} (c : Call) : ∀ {up : Nat} {es : List (Nat × Nat × Nat)} {bs : List Bool}, up ≤ c.off →
    StkR P tr up es bs → StkR P (c :: tr) up es bs
  | _, [], [], _, _ => trivial
  | up, e :: es, b :: bs, h, hs => by
    obtain ⟨h1, ⟨new, old, h2, h3, h4⟩, h5⟩ := hs
    refine ⟨h1, ⟨c :: new, old, by rw [h2]; rfl, h3, ?_⟩, StkR.call c (by omega) h5⟩
    intro x hx
    rcases List.mem_cons.mp hx with rfl | hx
    · omega
    · exact h4 x hx
  | _, [], _ :: _, _, hs => hs.elim
  | _, _ :: _, [], _, hs => hs.elim

structure R (P : Prog) (N : Nat) (s : St) (a : AS) : Prop where
  inv : DInv N s
  pc : s.pc = a.pc
  jstk : s.jstk = a.jstk
  m : s.matched = a.m
  l : s.last = a.l
  td : s.tdp ≤ s.dp
  t : a.t = true → s.tdp + s.len ≤ s.dp
  mo : a.t = false → s.dp < s.datalen
  f : a.f = (scope P s.trace).isEmpty
  g : a.g = true → CallIn P s.tdp s.len s.trace
  stk : StkR P s.trace s.tdp s.cstk a.cs
  low : ∀ c ∈ s.trace, c.off + c.len ≤ s.dp
  tr : TrOK P s.trace

def NOk (P : Prog) (N : Nat) (C : AS → Prop) : Res → Prop
  | .next s => ∃ a, C a ∧ R P N s a
  | .halt r s => TrOK P s.trace ∧ (r = 0 → P.fin (scope P s.trace).isEmpty = true)
  | _ => True

theorem bad_halt (P : Prog) (N : Nat) (C : AS → Prop) (s : St) (h : TrOK P s.trace) : NOk P N C (.halt (-EBADMSG) s) :=
  ⟨h, fun e => absurd e (by decide)⟩

theorem acall_ok {P : Prog} {act : Nat} {g f f' : Bool} (h : acall P act g f = some f') :
    (P.needG act = true → g = true) ∧ (P.needF act = true → f = true) ∧ f' = upd P act f := by
  unfold acall at h
  split at h
  · cases h
  · rename_i hn
    injection h with h
    refine ⟨?_, ?_, h.symm⟩
    · intro hg
      cases g with
      | true => rfl
      | false => exact absurd (by simp [hg]) hn
    · intro hf
      cases f with
      | true => rfl
      | false => exact absurd (by simp [hf]) hn

theorem callAct_nest (P : Prog) (N : Nat) (C : AS → Prop) (d : Decoder) (cb : List Call → Int) (s : St) (i tag off len : Nat) (k : St → St)
    (g : Bool) (hg : g = true → CallIn P off len s.trace) (htr : TrOK P s.trace)
    (hs : ∀ act, d.machine[s.pc + i]? = some act → ∃ f', acall P act g (scope P s.trace).isEmpty = some f' ∧
      ∀ c : Call, c.off = off → c.len = len → TrOK P (c :: s.trace) → f' = (scope P (c :: s.trace)).isEmpty →
        ∃ a, C a ∧ R P N (k { s with trace := c :: s.trace }) a) : NOk P N C (callAct d cb s i tag off len k) := by
  unfold callAct
  split
  · trivial
  · rename_i act ha
    obtain ⟨f', h1, h2⟩ := hs act ha
    obtain ⟨k1, k2, k3⟩ := acall_ok h1
    split
    · trivial
    · dsimp only
      have ht : TrOK P (⟨act, s.hdr, tag, off, len⟩ :: s.trace) :=
        htr.call _ (fun h => hg (k1 h)) (fun h => by simpa using k2 h)
      split
      · rename_i hcb
        exact ⟨ht, fun h => by omega⟩
      · exact h2 _ rfl rfl ht (by rw [upd_eq]; exact k3)

/-! ### Matching a tag -/

/-- What a match does to the parts the abstract machine knows. -/
def MSt (d : Decoder) (op l : Nat) (s : St) : MRes → Prop
  | .skip s' => s'.last = false ∧ ((s'.matched = s.matched ∧ ((isCond op && s.matched) || isSkip op) = true) ∨
      (s'.matched = false ∧ (isSkip op && !isAny op) = true))
  | .go s' => s'.last = false ∧ s'.cons = (!isAny op && consBit (d.machine.getD (s.pc + 1) 0)) ∧
      (∃ x y, s'.cstk = if s'.cons then (s'.dp, x, y) :: s.cstk else s.cstk)
  | _ => True

def PSt (s : St) : MRes → Prop
  | .go s' => s'.last = s.last ∧ s'.cons = s.cons ∧ (∃ x y, s'.cstk = if s.cons then (s'.dp, x, y) :: s.cstk else s.cstk)
  | .skip _ => False
  | _ => True

theorem pushCons_st (s : St) : PSt s (pushCons s) := by
  unfold pushCons
  split
  · rename_i hc
    split
    · trivial
    · split
      · exact ⟨rfl, rfl, _, _, by rw [if_pos hc]⟩
      · exact ⟨rfl, rfl, _, _, by rw [if_pos hc]⟩
  · rename_i hc
    exact ⟨rfl, rfl, 0, 0, by rw [if_neg hc]⟩

theorem matchLen_st (data : List UInt8) (s : St) : PSt s (matchLen data s) := by
  unfold matchLen
  split
  · trivial
  · rename_i b _
    dsimp only
    split
    · split
      · split
        · trivial
        · split
          · trivial
          · exact pushCons_st _
      · generalize b.toNat - 0x80 = n
        rcases Nat.lt_or_ge 3 n with hn3 | hn3
        · rw [if_pos hn3]; exact True.intro
        · rw [if_neg (Nat.not_lt.2 hn3)]
          split
          · trivial
          · split
            · trivial
            · split
              · trivial
              · exact pushCons_st _
    · split
      · trivial
      · exact pushCons_st _

theorem matchOp_st (d : Decoder) (data : List UInt8) (op l : Nat) (s : St) : MSt d op l s (matchOp d data op l s) := by
  unfold matchOp
  split
  · rename_i hc
    refine ⟨rfl, .inl ⟨rfl, ?_⟩⟩
    revert hc
    cases isCond op <;> cases s.matched <;> cases isSkip op <;> simp
  · split
    · trivial
    · split
      · trivial
      · split
        · trivial
        · unfold matchTag
          dsimp only
          split
          · rename_i hany
            have h := matchLen_st data { s with indef := false, matched := true, last := false, cons := false, hdr := 2, tag := (‹UInt8› : UInt8).toNat, dp := s.dp + 1 }
            generalize matchLen data _ = r at h ⊢
            cases r with
            | go s' => exact ⟨h.1, by rw [h.2.1, hany]; rfl, by rw [h.2.1]; exact h.2.2⟩
            | skip s' => exact h.elim
            | _ => trivial
          · rename_i hany
            split
            · trivial
            · rename_i optag ho
              have hgd : d.machine.getD (s.pc + 1) 0 = optag := by rw [List.getD_eq_getElem?_getD, ho]; rfl
              have hany' : isAny op = false := by simpa using hany
              split
              · split
                · rename_i hsk
                  exact ⟨rfl, .inr ⟨rfl, by rw [hsk, hany']; rfl⟩⟩
                · trivial
              · have h := matchLen_st data { s with indef := false, matched := true, last := false, cons := consBit optag, hdr := 2, tag := (‹UInt8› : UInt8).toNat, dp := s.dp + 1 }
                generalize matchLen data _ = r at h ⊢
                cases r with
                | go s' => exact ⟨h.1, by rw [h.2.1, hany', hgd]; rfl, by rw [h.2.1]; exact h.2.2⟩
                | skip s' => exact h.elim
                | _ => trivial

/-! ### The steps -/

theorem leafAct_nest (P : Prog) (N : Nat) (C : AS → Prop) (d : Decoder) (cb : List Call → Int) (op l : Nat) (s0 s : St) (a : AS)
    (hr : R P N s0 a) (hpc : s.pc = s0.pc) (hj : s.jstk = s0.jstk) (ht : s.trace = s0.trace) (hdp : s0.dp ≤ s.dp) (htdp : s.tdp = s.dp)
    (hm : s.matched = true) (hl : s.last = false) (hc : s.cons = false) (hstk : s.cstk = s0.cstk) (hinv : DInv N s)
    (hlen : s.dp + s.len ≤ s.datalen)
    (h1 : isAct op = true → ∀ act, d.machine[a.pc + (if isAny op then 1 else 2)]? = some act →
      ∃ f, acall P act false a.f = some f ∧ C { a with pc := a.pc + l, m := true, l := false, t := true, g := false, f := f })
    (h2 : isAct op = false → C { a with pc := a.pc + l, m := true, l := false, t := true, g := false }) :
    NOk P N C (leafAct d cb op l s) := by
  have hdi := leafAct_data N d cb op l s hinv (fun _ => hlen)
  have h3 := hr.stk.mono (show s0.tdp ≤ s.tdp by have := hr.td; omega)
  unfold leafAct at hdi ⊢
  dsimp only at hdi ⊢
  split
  · rename_i ha
    rw [if_pos ha] at hdi
    refine callAct_nest P N C d cb s _ _ _ _ _ false (fun h => by cases h) (by rw [ht]; exact hr.tr) ?_
    intro act hact
    rw [hpc, hr.pc] at hact
    obtain ⟨f, k1, k2⟩ := h1 ha act hact
    refine ⟨f, by rw [ht, ← hr.f]; exact k1, ?_⟩
    intro c c1 c2 c3 c4
    refine ⟨_, k2, ?_⟩
    have hst : StkR P (c :: s.trace) s.tdp s.cstk a.cs := by
      rw [ht, hstk]
      exact h3.call c (by omega)
    rw [hc]
    dsimp only
    refine ⟨⟨by simp; omega, hinv.dl, hinv.stk.mono (by simp), hinv.csp, hinv.jsp⟩, by rw [hpc, hr.pc], by rw [hj, hr.jstk], hm, hl, by simp; omega, (fun _ => by simp; omega), (fun h => by cases h),
      c4, (fun h => by cases h), hst, ?_, c3⟩
    intro x hx
    rcases List.mem_cons.mp hx with rfl | hx
    · simp; omega
    · rw [ht] at hx
      have := hr.low x hx
      simp
      omega
  · rename_i ha
    refine ⟨_, h2 (by simpa using ha), ?_⟩
    rw [hc]
    refine ⟨⟨by simp; omega, hinv.dl, hinv.stk.mono (by simp), hinv.csp, hinv.jsp⟩, by rw [hpc, hr.pc], by rw [hj, hr.jstk], hm, hl, by simp; omega, (fun _ => by simp; omega), (fun h => by cases h),
      by rw [ht]; exact hr.f, (fun h => by cases h), by rw [ht, hstk]; exact h3, ?_, by rw [ht]; exact hr.tr⟩
    intro x hx
    rw [ht] at hx
    have := hr.low x hx
    simp
    omega

theorem after_nest (P : Prog) (d : Decoder) (cb : List Call → Int) (data : List UInt8) (hN : data.length < 2 ^ 64) (op l : Nat) (s0 s : St) (a : AS)
    (hr : R P data.length s0 a) (hm : Matched data.length s0 s) (hs : MSt d op l s0 (.go s)) (L : List AS) (hL : amatch d P op l a = some L)
    (C : AS → Prop) (hC : ∀ x ∈ L, C x) : NOk P data.length C (afterMatch d cb data op l s) := by
  obtain ⟨m1, m2, x, y, m3⟩ := hs
  have hpc0 := hr.pc
  rw [hpc0] at m2
  unfold amatch at hL
  dsimp only at hL
  rw [← m2] at hL
  have htd := hr.td
  have hdp := hm.dp
  have hcase : ∃ t : Bool, (t = true → s.tdp + s.len ≤ s.dp) ∧ (t = false → s.dp < s.datalen) := by
    have e1 := hm.fin
    have e2 := hm.inf
    have e3 := hm.tdp
    by_cases h0 : s.dp < s.datalen
    · exact ⟨false, (fun h => by cases h), fun _ => h0⟩
    · refine ⟨true, fun _ => ?_, (fun h => by cases h)⟩
      cases hi : s.indef with
      | true => have := e2 hi; omega
      | false => have := e1 hi; omega
  obtain ⟨tt, ht1, ht2⟩ := hcase
  unfold afterMatch
  by_cases hleaf : op ∈ leafOps
  · rw [if_pos hleaf] at hL ⊢
    unfold leafOp
    cases hc : s.cons with
    | true =>
      rw [hc] at hL m3
      rw [if_pos rfl] at hL m3
      have hna : isAct op = false := by
        cases hA : isAct op with
        | false => rfl
        | true => rw [hA, if_pos rfl] at hL; cases hL
      rw [hna] at hL
      injection hL with hL
      rw [if_neg (by simp)]
      unfold leafAct
      dsimp only
      rw [hna, if_neg (by decide), hc]
      subst hL
      refine ⟨_, hC _ (List.mem_map.mpr ⟨tt, by cases tt <;> decide, rfl⟩), ?_⟩
      have hi := hm.inv
      refine ⟨⟨hi.dp, hi.dl, hi.stk, hi.csp, hi.jsp⟩, by simp [hm.pc, hr.pc], by simp [hm.jstk, hr.jstk], hm.matched, m1, by simp [hm.tdp], ht1, ht2,
        by simp [hm.trace, hr.f], (fun h => by cases h), ?_, ?_, by simpa [hm.trace] using hr.tr⟩
      · dsimp only
        rw [m3, hm.trace, hm.tdp]
        exact ⟨Nat.le_refl _, ⟨[], s0.trace, rfl, hr.f.symm, by intro c hc; cases hc⟩, hr.stk.mono (by dsimp only; omega)⟩
      · intro c hc
        have hc' : c ∈ s0.trace := by simpa [hm.trace] using hc
        have := hr.low c hc'
        simp
        omega
    | false =>
      rw [hc] at hL m3
      rw [if_neg (by decide)] at hL m3
      have h1 : isAct op = true → ∀ act, d.machine[a.pc + (if isAny op then 1 else 2)]? = some act →
          ∃ f, acall P act false a.f = some f ∧ C { a with pc := a.pc + l, m := true, l := false, t := true, g := false, f := f } := by
        intro ha act hact
        rw [ha, if_pos rfl, hact] at hL
        dsimp only at hL
        cases hq : acall P act false a.f with
        | none => rw [hq] at hL; cases hL
        | some f =>
          rw [hq] at hL
          injection hL with hL
          exact ⟨f, rfl, hC _ (by rw [← hL]; exact List.mem_singleton.mpr rfl)⟩
      have h2 : isAct op = false → C { a with pc := a.pc + l, m := true, l := false, t := true, g := false } := by
        intro ha
        rw [ha, if_neg (by decide)] at hL
        injection hL with hL
        exact hC _ (by rw [← hL]; exact List.mem_singleton.mpr rfl)
      cases hin : s.indef with
      | true =>
        rw [if_pos (by rfl)]
        have hi := hm.inv
        have hdl := hi.dl
        rcases findIndef_spec data s.datalen hi.dl (by omega) (s.datalen + 1) s.dp 1 hi.dp (by omega) with e | ⟨e, he, h6, h7⟩
        · rw [e]; exact bad_halt _ _ _ _ (by rw [hm.trace]; exact hr.tr)
        · rw [he]
          exact leafAct_nest P _ C d cb op l s0 _ a hr hm.pc hm.jstk hm.trace (by dsimp only; omega) hm.tdp hm.matched m1 rfl m3
            ⟨hi.dp, hi.dl, hi.stk, hi.csp, hi.jsp⟩ (by dsimp only; omega) h1 h2
      | false =>
        rw [if_neg (by decide)]
        exact leafAct_nest P _ C d cb op l s0 s a hr hm.pc hm.jstk hm.trace (by omega) hm.tdp hm.matched m1 hc m3 hm.inv (hm.fin hin) h1 h2
  · rw [if_neg hleaf] at hL ⊢
    by_cases hj : op ∈ jumpOps
    · rw [if_pos hj] at hL ⊢
      unfold jumpOp
      split
      · exact bad_halt _ _ _ _ (by rw [hm.trace]; exact hr.tr)
      · rename_i hjl
        rw [hm.pc, hpc0]
        cases ht : d.machine[a.pc + 2]? with
        | none => trivial
        | some t =>
          rw [ht] at hL
          injection hL with hL
          subst hL
          refine ⟨_, hC _ (List.mem_map.mpr ⟨tt, by cases tt <;> decide, rfl⟩), ?_⟩
          have hi := hm.inv
          have hjs := hi.jsp
          refine ⟨⟨hi.dp, hi.dl, hi.stk, hi.csp, by simp; omega⟩, rfl, by simp [hm.jstk, hr.jstk], hm.matched, m1, by simp [hm.tdp], ht1, ht2,
            by simp [hm.trace, hr.f], (fun h => by cases h), ?_, ?_, by simpa [hm.trace] using hr.tr⟩
          · dsimp only
            rw [m3, hm.trace, hm.tdp]
            cases hc : s.cons with
            | true =>
              rw [if_pos rfl, if_pos rfl]
              exact ⟨Nat.le_refl _, ⟨[], s0.trace, rfl, hr.f.symm, by intro c hc; cases hc⟩, hr.stk.mono (by dsimp only; omega)⟩
            | false =>
              rw [if_neg (by decide), if_neg (by decide)]
              exact hr.stk.mono (by omega)
          · intro c hc
            have hc' : c ∈ s0.trace := by simpa [hm.trace] using hc
            have := hr.low c hc'
            simp
            omega
    · rw [if_neg hj]
      exact bad_halt _ _ _ _ (by rw [hm.trace]; exact hr.tr)


theorem endAct_nest (P : Prog) (N : Nat) (C : AS → Prop) (d : Decoder) (cb : List Call → Int) (op l : Nat) (s : St) (a : AS) (f0 : Bool) (rest : List Bool)
    (hinv : DInv N s) (hpc : s.pc = a.pc) (hj : s.jstk = a.jstk) (hm : s.matched = a.m) (hl : s.last = a.l) (htd : s.tdp ≤ s.dp) (ht : s.tdp + s.len ≤ s.dp)
    (hf : a.f = (scope P s.trace).isEmpty) (hg : f0 = true → CallIn P s.tdp s.len s.trace) (hstk : StkR P s.trace s.tdp s.cstk rest)
    (hlow : ∀ c ∈ s.trace, c.off + c.len ≤ s.dp) (htr : TrOK P s.trace)
    (h1 : isEndAct op = true → ∀ act, d.machine[a.pc + (if isOf op then 2 else 1)]? = some act →
      ∃ f, acall P act f0 a.f = some f ∧ C { a with pc := a.pc + l, cs := rest, t := true, g := false, f := f })
    (h2 : isEndAct op = false → C { a with pc := a.pc + l, cs := rest, t := true, g := f0 }) :
    NOk P N C (endAct d cb op l s) := by
  unfold endAct
  dsimp only
  split
  · rename_i ha
    refine callAct_nest P N C d cb s _ _ _ _ _ f0 hg htr ?_
    intro act hact
    rw [hpc] at hact
    obtain ⟨f, k1, k2⟩ := h1 ha act hact
    refine ⟨f, by rw [← hf]; exact k1, ?_⟩
    intro c c1 c2 c3 c4
    refine ⟨_, k2, ?_⟩
    refine ⟨⟨hinv.dp, hinv.dl, hinv.stk, hinv.csp, hinv.jsp⟩, by dsimp only; rw [hpc], hj, hm, hl, htd, (fun _ => ht), (fun h => by cases h),
      c4, (fun h => by cases h), hstk.call c (show s.tdp ≤ c.off by omega), ?_, c3⟩
    intro x hx
    rcases List.mem_cons.mp hx with rfl | hx
    · dsimp only; omega
    · exact hlow x hx
  · rename_i ha
    refine ⟨_, h2 (by simpa using ha), ?_⟩
    exact ⟨⟨hinv.dp, hinv.dl, hinv.stk, hinv.csp, hinv.jsp⟩, by dsimp only; rw [hpc], hj, hm, hl, htd, (fun _ => ht), (fun h => by cases h), hf, hg, hstk, hlow, htr⟩

theorem endContinue_nest (P : Prog) (N : Nat) (C : AS → Prop) (d : Decoder) (s : St) (a : AS)
    (hinv : DInv N s) (hpc : s.pc = a.pc) (hj : s.jstk = a.jstk) (hm : s.matched = a.m) (hl : s.last = a.l) (htd : s.tdp ≤ s.dp) (hmo : s.dp < s.datalen)
    (hf : a.f = (scope P s.trace).isEmpty) (hstk : StkR P s.trace s.tdp s.cstk a.cs)
    (hlow : ∀ c ∈ s.trace, c.off + c.len ≤ s.dp) (htr : TrOK P s.trace)
    (h1 : ∀ t, d.machine[a.pc + 1]? = some t → C { a with pc := t, t := false, g := false }) :
    NOk P N C (endContinue d s) := by
  unfold endContinue
  rw [hpc]
  cases ht : d.machine[a.pc + 1]? with
  | none => trivial
  | some t =>
    exact ⟨_, h1 t ht, ⟨hinv.dp, hinv.dl, hinv.stk, hinv.csp, hinv.jsp⟩, rfl, hj, hm, hl, htd, (fun h => by cases h), (fun _ => hmo), hf, (fun h => by cases h), hstk, hlow, htr⟩

theorem endOp_nest (P : Prog) (d : Decoder) (cb : List Call → Int) (data : List UInt8) (hN : data.length < 2 ^ 64) (op l : Nat) (s : St) (a : AS)
    (hr : R P data.length s a) (L : List AS) (hL : aend d P op l a = some L)
    (C : AS → Prop) (hC : ∀ x ∈ L, C x) : NOk P data.length C (endOp d cb data op l s) := by
  obtain ⟨hinv, hpc, hj, hm, hl, htd, ht, hmo, hf, hg, hstk, hlow, htr⟩ := hr
  unfold endOp
  split
  · exact bad_halt _ _ _ _ htr
  · cases hs : s.cstk with
    | nil => exact bad_halt _ _ _ _ htr
    | cons e rest =>
      obtain ⟨tdp, dl, hdr⟩ := e
      rw [hs] at hstk
      unfold aend at hL
      cases hcs : a.cs with
      | nil => rw [hcs] at hstk; exact hstk.elim
      | cons f0 bs =>
        rw [hcs] at hstk hL
        dsimp only at hL
        obtain ⟨k1, ⟨new, old, k2, k3, k4⟩, k5⟩ := hstk
        dsimp only at k1 k4 k5
        have h1 : isEndAct op = true → ∀ act, d.machine[a.pc + (if isOf op then 2 else 1)]? = some act →
            ∃ f, acall P act f0 a.f = some f ∧ C { a with pc := a.pc + l, cs := bs, t := true, g := false, f := f } := by
          intro ha act hact
          rw [if_pos ha, hact] at hL
          dsimp only at hL
          cases hq : acall P act f0 a.f with
          | none => rw [hq] at hL; cases hL
          | some f =>
            rw [hq] at hL
            injection hL with hL
            exact ⟨f, rfl, hC _ (by rw [← hL]; exact List.mem_cons_self)⟩
        have h2 : isEndAct op = false → C { a with pc := a.pc + l, cs := bs, t := true, g := f0 } := by
          intro ha
          rw [ha, if_neg (by decide)] at hL
          injection hL with hL
          exact hC _ (by rw [← hL]; exact List.mem_cons_self)
        have h3 : isOf op = true → ∀ t, d.machine[a.pc + 1]? = some t → C { a with pc := t, t := false, g := false } := by
          intro ho t ht
          rw [ho, if_pos rfl, ht] at hL
          dsimp only at hL
          refine hC _ ?_
          revert hL
          cases isEndAct op with
          | false => intro hL; injection hL with hL; rw [← hL]; simp [hcs]
          | true =>
            rw [if_pos rfl]
            cases d.machine[a.pc + 2]? with
            | none => intro hL; injection hL with hL; rw [← hL]; simp [hcs]
            | some act =>
              dsimp only
              cases acall P act f0 a.f with
              | none => intro hL; cases hL
              | some f => intro hL; injection hL with hL; rw [← hL]; simp [hcs]
        have hin : ∀ n, tdp + n = s.dp → f0 = true → CallIn P tdp n s.trace := by
          intro n hn h0 x hx
          have hxt := scope_sub P s.trace x hx
          rw [k2] at hx
          have hxn := scope_app P old (by rw [← List.isEmpty_iff, k3]; exact h0) new x hx
          have := k4 x hxn
          have := hlow x hxt
          omega
        have hst0 : StkR P s.trace tdp ((tdp, dl, hdr) :: rest) a.cs := by
          rw [hcs]
          exact ⟨Nat.le_refl _, ⟨new, old, k2, k3, k4⟩, k5⟩
        obtain ⟨i1, i2, i3, i4, i5⟩ := hinv
        rw [hs] at i3 i4
        have i3' := i3
        unfold StackOK at i3
        simp only [List.length_cons] at i4
        dsimp only
        split
        · rename_i h0
          rw [if_pos h0] at i3
          unfold endIndef
          dsimp only
          rw [wsub_eq i1 (by omega)]
          split
          · exact bad_halt _ _ _ _ htr
          · obtain ⟨b, hb⟩ := get_some (data := data) (i := s.dp) (by omega)
            obtain ⟨z, hz⟩ := get_some (data := data) (i := s.dp + 1) (by omega)
            rw [hb]
            dsimp only
            split
            · split
              · rename_i ho
                exact endContinue_nest P _ C d _ a ⟨i1, i2, i3', by dsimp only [List.length_cons]; omega, i5⟩ hpc hj hm hl i3.1 (by dsimp only; omega) hf hst0 hlow htr (h3 ho)
              · exact bad_halt _ _ _ _ htr
            · rw [hz]
              dsimp only
              split
              · exact bad_halt _ _ _ _ htr
              · rw [wsub_eq (show tdp + 2 ≤ s.dp + 2 by omega) (by omega)]
                refine endAct_nest P _ C d cb op l _ a f0 bs ⟨by dsimp only; omega, i2, i3.2.mono (by dsimp only; omega), by dsimp only; omega, i5⟩ hpc hj hm hl
                  (by dsimp only; omega) (by dsimp only; omega) hf (hin (s.dp + 2 - (tdp + 2)) (by omega)) k5 ?_ htr h1 h2
                intro x hx
                have := hlow x hx
                dsimp only
                omega
        · rename_i h0
          rw [if_neg h0] at i3
          unfold endDef
          dsimp only
          split
          · rename_i ho
            exact endContinue_nest P _ C d _ a ⟨i1, i2, i3', by dsimp only [List.length_cons]; omega, i5⟩ hpc hj hm hl i3.1 ho.1 hf hst0 hlow htr (h3 ho.2)
          · split
            · exact bad_halt _ _ _ _ htr
            · rw [wsub_eq (show tdp ≤ s.datalen by omega) (by omega)]
              exact endAct_nest P _ C d cb op l _ a f0 bs ⟨by dsimp only; omega, i3.2.2.1, i3.2.2.2, by dsimp only; omega, i5⟩ hpc hj hm hl
                (by dsimp only; omega) (by dsimp only; omega) hf (hin (s.datalen - tdp) (by omega)) k5 hlow htr h1 h2

theorem ctlOp_nest (P : Prog) (N : Nat) (d : Decoder) (cb : List Call → Int) (op l : Nat) (s : St) (a : AS)
    (hr : R P N s a) (L : List AS) (hL : actl d P op l a = some L)
    (C : AS → Prop) (hC : ∀ x ∈ L, C x) : NOk P N C (ctlOp d cb op l s) := by
  obtain ⟨hinv, hpc, hj, hm, hl, htd, ht, hmo, hf, hg, hstk, hlow, htr⟩ := hr
  unfold actl at hL
  unfold ctlOp
  dsimp only
  by_cases c1 : op = 0x1c
  · rw [if_pos c1] at hL ⊢
    cases hma : a.m with
    | false => rw [if_neg (by rw [hm, hma]; decide)]; exact bad_halt _ _ _ _ htr
    | true =>
      rw [hma, if_pos rfl] at hL
      injection hL with hL
      subst hL
      have hx := hC _ List.mem_cons_self
      rw [if_pos (by rw [hm, hma])]
      exact ⟨_, hx, ⟨hinv.dp, hinv.dl, hinv.stk, hinv.csp, hinv.jsp⟩, by dsimp only; rw [hpc], hj, hm.trans hma, hl, htd, ht, hmo, hf, hg, hstk, hlow, htr⟩
  · rw [if_neg c1] at hL ⊢
    by_cases c2 : op = 0x1d
    · rw [if_pos c2] at hL ⊢
      split
      · exact bad_halt _ _ _ _ htr
      · refine ⟨htr, fun _ => ?_⟩
        rw [← hf]
        split at hL
        · assumption
        · cases hL
    · rw [if_neg c2] at hL ⊢
      by_cases c3 : op = 0x1f ∧ (! a.l) = true
      · rw [if_pos c3] at hL
        rw [if_pos (by rw [hl]; exact c3)]
        injection hL with hL
        subst hL
        have hx := hC _ List.mem_cons_self
        exact ⟨_, hx, ⟨hinv.dp, hinv.dl, hinv.stk, hinv.csp, hinv.jsp⟩, by dsimp only; rw [hpc], hj, hm, hl, htd, ht, hmo, hf, hg, hstk, hlow, htr⟩
      · rw [if_neg c3] at hL
        rw [if_neg (by rw [hl]; exact c3)]
        by_cases c4 : op = 0x1e ∨ op = 0x1f
        · rw [if_pos c4] at hL ⊢
          cases hta : a.t with
          | false => rw [hta, if_neg (by decide)] at hL; cases hL
          | true =>
            rw [hta, if_pos rfl] at hL
            refine callAct_nest P N C d cb s _ _ _ _ _ a.g hg htr ?_
            intro act hact
            rw [hpc] at hact
            rw [hact] at hL
            dsimp only at hL
            cases hq : acall P act a.g a.f with
            | none => rw [hq] at hL; cases hL
            | some f =>
              rw [hq] at hL
              injection hL with hL
              subst hL
              have hx := hC _ List.mem_cons_self
              refine ⟨f, by rw [← hf]; exact hq, ?_⟩
              intro c d1 d2 d3 d4
              refine ⟨_, hx, ⟨hinv.dp, hinv.dl, hinv.stk, hinv.csp, hinv.jsp⟩, by dsimp only; rw [hpc], hj, hm, hl, htd, (fun _ => ht hta), (fun h => by cases h),
                d4, (fun h => by cases h), hstk.call c (show s.tdp ≤ c.off by omega), ?_, d3⟩
              have := ht hta
              intro x hy
              rcases List.mem_cons.mp hy with rfl | hy
              · dsimp only; omega
              · exact hlow x hy
        · rw [if_neg c4] at hL ⊢
          by_cases c5 : op = 0x28
          · rw [if_pos c5] at hL ⊢
            rw [hj]
            cases hja : a.jstk with
            | nil => exact bad_halt _ _ _ _ htr
            | cons r rest =>
              rw [hja] at hL
              injection hL with hL
              subst hL
              have hx := hC _ List.mem_cons_self
              have i5 := hinv.jsp
              rw [hj, hja] at i5
              simp only [List.length_cons] at i5
              exact ⟨_, hx, ⟨hinv.dp, hinv.dl, hinv.stk, hinv.csp, by dsimp only; omega⟩, rfl, rfl, rfl, rfl, htd, ht, hmo, hf, hg, hstk, hlow, htr⟩
          · rw [if_neg c5]
            exact bad_halt _ _ _ _ htr

theorem step_nest (P : Prog) (d : Decoder) (cb : List Call → Int) (data : List UInt8) (hN : data.length < 2 ^ 64) (s : St) (a : AS)
    (hr : R P data.length s a) (L : List AS) (hL : astep d P a = some L)
    (C : AS → Prop) (hC : ∀ x ∈ L, C x) : NOk P data.length C (step d cb data s) := by
  unfold astep at hL
  unfold step
  rw [hr.pc]
  cases ho : d.machine[a.pc]? with
  | none => exact bad_halt _ _ _ _ hr.tr
  | some op =>
    rw [ho] at hL
    dsimp only at hL ⊢
    cases hol : opLen op with
    | none => trivial
    | some l =>
      rw [hol] at hL
      dsimp only at hL ⊢
      split
      · exact bad_halt _ _ _ _ hr.tr
      · rename_i hb
        rw [if_neg hb] at hL
        unfold exec
        by_cases h1 : op ≤ 0x1b
        · rw [if_pos h1] at hL ⊢
          by_cases hcm : (isCond op && a.m) = true
          · rw [if_pos hcm] at hL
            injection hL with hL
            subst hL
            have hx := hC _ List.mem_cons_self
            have hcs : ((isCond op && s.matched) || (isSkip op && s.dp == s.datalen)) = true := by rw [hr.m, hcm]; rfl
            unfold matchOp
            rw [if_pos hcs]
            exact ⟨_, hx, ⟨hr.inv.dp, hr.inv.dl, hr.inv.stk, hr.inv.csp, hr.inv.jsp⟩, by dsimp only; rw [hr.pc], hr.jstk, hr.m, rfl, hr.td, hr.t, hr.mo, hr.f, hr.g, hr.stk, hr.low, hr.tr⟩
          rw [if_neg hcm] at hL
          cases hq : amatch d P op l a with
          | none => rw [hq] at hL; cases hL
          | some M =>
            rw [hq] at hL
            injection hL with hL
            have hsp := matchOp_spec d data hN op l s hr.inv
            have hst := matchOp_st d data op l s
            cases hm : matchOp d data op l s with
            | skip s' =>
              rw [hm] at hsp hst
              obtain ⟨hk, q2⟩ := hsp
              have q1 := hst.1
              have hd' := hr.inv
              have hx : ∃ x ∈ askip op l a, x = { a with pc := a.pc + l, l := false, m := s'.matched } := by
                refine ⟨_, ?_, rfl⟩
                unfold askip
                rcases q2 with ⟨e1, e2⟩ | ⟨e2, e3, _, e1⟩
                · have hc : (isSkip op && a.t) = true := by
                    rcases e2 with ⟨k1, k2⟩ | ⟨k1, k2⟩
                    · rw [hr.m] at k2
                      exact absurd (by rw [k1, k2]; rfl) hcm
                    · cases hta : a.t with
                      | true => rw [k1]; simp
                      | false => have := hr.mo hta; omega
                  rw [if_pos hc, e1, hr.m]
                  exact List.mem_append_left _ List.mem_cons_self
                · rw [if_pos (show (isSkip op && !isAny op) = true by rw [e2, e3]; rfl), e1]
                  exact List.mem_append_right _ List.mem_cons_self
              obtain ⟨x, hx, hxe⟩ := hx
              have hcx := hC x (by rw [← hL]; exact List.mem_append_left _ hx)
              rw [hxe] at hcx
              obtain ⟨u1, u2, u3, u4, u5, u6, u7, u8⟩ := hk
              refine ⟨_, hcx, ⟨by rw [u2, u5]; exact hd'.dp, by rw [u5]; exact hd'.dl, by rw [u2, u5, u6]; exact hd'.stk, by rw [u6]; exact hd'.csp, by rw [u7]; exact hd'.jsp⟩,
                by rw [u1, hr.pc], by rw [u7, hr.jstk], rfl, q1, by rw [u2, u3]; exact hr.td, by rw [u2, u3, u4]; exact hr.t, by rw [u2, u5]; exact hr.mo, by rw [u8]; exact hr.f,
                by rw [u3, u4, u8]; exact hr.g, by rw [u3, u6, u8]; exact hr.stk, by rw [u2, u8]; exact hr.low, by rw [u8]; exact hr.tr⟩
            | go s' =>
              rw [hm] at hsp hst
              exact after_nest P d cb data hN op l s s' a hr hsp.1 hst M hq C (fun x hx => hC x (by rw [← hL]; exact List.mem_append_right _ hx))
            | err => exact bad_halt _ _ _ _ hr.tr
            | dataFault => trivial
            | machFault => trivial
        · rw [if_neg h1] at hL ⊢
          by_cases h2 : op ∈ endOps
          · rw [if_pos h2] at hL ⊢
            exact endOp_nest P d cb data hN op l s a hr L hL C hC
          · rw [if_neg h2] at hL ⊢
            exact ctlOp_nest P _ d cb op l s a hr L hL C hC


theorem run_nest (P : Prog) (d : Decoder) (C : Cert) (hC : closed d P C = true) (cb : List Call → Int) (data : List UInt8) (hN : data.length < 2 ^ 64) :
    ∀ (n : Nat) (s : St) (a : AS), C.mem a = true → R P data.length s a → NOk P data.length (fun a => C.mem a = true) (run d cb data n s)
  | 0, s, a, ha, hr => ⟨a, ha, hr⟩
  | n + 1, s, a, ha, hr => by
    unfold run
    unfold closed at hC
    rw [Bool.and_eq_true] at hC
    have hb : ∃ L, astep d P a = some L ∧ ∀ x ∈ L, C.mem x = true := by
      unfold Cert.mem at ha
      rw [List.getD_eq_getElem?_getD (l := C)] at ha
      cases hg : C[a.pc / 16]? with
      | none => rw [hg] at ha; simp at ha
      | some row =>
        rw [hg] at ha
        have h0 := List.all_eq_true.mp hC.2 row (List.mem_of_getElem? hg)
        dsimp only [Option.getD_some] at ha
        rw [List.getD_eq_getElem?_getD] at ha
        cases hg' : row[a.pc % 16]? with
        | none => rw [hg'] at ha; simp at ha
        | some b =>
        rw [hg'] at ha
        have h1 := List.all_eq_true.mp h0 b (List.mem_of_getElem? hg')
        have h2 := List.all_eq_true.mp h1 a (by simpa using ha)
        cases hs : astep d P a with
        | none => rw [hs] at h2; cases h2
        | some L =>
          rw [hs] at h2
          exact ⟨L, rfl, List.all_eq_true.mp h2⟩
    obtain ⟨L, h1, h2⟩ := hb
    have h := step_nest P d cb data hN s a hr L h1 (fun a => C.mem a = true) h2
    cases hs : step d cb data s with
    | next s' =>
      rw [hs] at h
      obtain ⟨a', k1, k2⟩ := h
      exact run_nest P d C (by unfold closed; rw [Bool.and_eq_true]; exact hC) cb data hN n s' a' k1 k2
    | halt r s' => rw [hs] at h; exact h
    | dataFault => trivial
    | machFault => trivial

/-- The record of the calls of a run, with its result. -/
def Rec (P : Prog) : Res → Prop
  | .next s => TrOK P s.trace
  | .halt r s => TrOK P s.trace ∧ (r = 0 → P.fin (scope P s.trace).isEmpty = true)
  | _ => True

theorem decode_nest (P : Prog) (d : Decoder) (C : Cert) (hC : closed d P C = true) (cb : List Call → Int) (data : List UInt8) (n : Nat) :
    Rec P (decode d cb data n) := by
  unfold decode
  split
  · exact ⟨TrOK.nil P, fun h => absurd h (by decide)⟩
  · rename_i hlen
    have hN : data.length < 2 ^ 64 := by omega
    have h0 : R P data.length (start data) { pc := 0 } :=
      ⟨⟨Nat.zero_le _, Nat.le_refl _, trivial, Nat.zero_le _, Nat.zero_le _⟩, rfl, rfl, rfl, rfl, Nat.le_refl _, (fun _ => Nat.le_refl _), (fun h => by cases h), rfl,
        (fun _ x hx => by cases hx), trivial, (fun c hc => by cases hc), TrOK.nil P⟩
    have hm : C.mem { pc := 0 } = true := by
      unfold closed at hC
      rw [Bool.and_eq_true] at hC
      exact hC.1
    have h := run_nest P d C hC cb data hN n (start data) { pc := 0 } hm h0
    generalize run d cb data n (start data) = r at h
    cases r with
    | next s => obtain ⟨a, _, h⟩ := h; exact h.tr
    | halt r s => exact h
    | _ => trivial

/-! ### Exploration -/

/-- Add a state. -/
def Cert.add (C : Cert) (a : AS) : Cert := C.modify (a.pc / 16) fun r => r.modify (a.pc % 16) fun b => a :: b

/-- The certificate by exploring from the initial state. -/
def explore (d : Decoder) (P : Prog) : Nat → List AS → Cert → Cert
  | 0, _, C => C
  | _ + 1, [], C => C
  | n + 1, a :: todo, C =>
    if C.mem a then explore d P n todo C
    else explore d P n (((astep d P a).getD []) ++ todo) (C.add a)

def certOf (d : Decoder) (P : Prog) : Cert := explore d P 4000 [{ pc := 0 }] (List.replicate 16 (List.replicate 16 []))

end LC.Asn1.Nest
