import Verif.Asn1.DecTree
/-
The encoder without regard to sizes.  An abstract machine runs the bytecode and builds forests instead of bytes; if the
encoder succeeds, its output is the serialisation of the forest (`encode_sim`).
-/
namespace LC.Asn1.Tr
open LC.Asn1 LC.Asn1.Enc LC.Asn1.Gen

variable {σ : Type}

/-- A level below the current one: its tag and the values written to it. -/
structure GL where
  tag : Option UInt8
  f : List Tree

structure GS (σ : Type) where
  pc : Nat := 0
  tag : Option UInt8 := none
  lv : List GL := []
  jstk : List Nat := []
  matched : Bool := false
  last : Bool := false
  cont : Bool := false
  zero : Bool := false
  out : List Tree := []
  ctx : σ

inductive GRes (σ : Type) where
  | next (a : GS σ)
  | halt (ret : Int) (a : GS σ)
  | err
  | stuck

/-- The actions without sizes; `none` is an error. -/
abbrev GAct (σ : Type) := Nat → σ → Option (AOut σ)

def gcall (d : Decoder) (act : GAct σ) (a : GS σ) (i : Nat) (k : List UInt8 → GS σ → GRes σ) : GRes σ :=
  match d.machine[a.pc + i]? with
  | none => .stuck
  | some m =>
    match act m a.ctx with
    | none => .err
    | some o => k o.bytes { a with tag := o.tag.or a.tag, ctx := o.ctx, cont := a.cont || o.ret == 1, zero := a.zero || o.ret == 2 }

/-- A value goes to the level below. -/
def gput (t : Tree) (l : Nat) (a : GS σ) : GS σ :=
  match a.lv with
  | [] => { a with pc := a.pc + l, zero := false, out := a.out ++ [t] }
  | b :: rest => { a with pc := a.pc + l, zero := false, lv := { b with f := b.f ++ [t] } :: rest }

/-- `write_data_out` of a primitive value. -/
def gwrite (l : Nat) (bytes : List UInt8) (a : GS σ) : GRes σ :=
  if bytes = [] ∧ a.zero = false then .next { a with pc := a.pc + l }
  else match a.tag with
    | none => .stuck
    | some t => .next (gput (.leaf t bytes) l a)

def gleaf (d : Decoder) (act : GAct σ) (op l : Nat) (a : GS σ) : GRes σ :=
  match d.machine[a.pc + 1]? with
  | none => .stuck
  | some t =>
    let a := { a with tag := some (byte t) }
    if !isAny op && consBit t then
      (if isAct op then .stuck
       else .next { a with lv := ⟨a.tag, []⟩ :: a.lv, tag := none, pc := a.pc + l })
    else if isAct op then
      (if consBit t then .stuck else gcall d act a (if isAny op then 1 else 2) fun bytes a => gwrite l bytes a)
    else if !consBit t && op != 0 then gwrite l [] a
    else .next { a with pc := a.pc + l }

def gjump (d : Decoder) (op l : Nat) (a : GS σ) : GRes σ :=
  if op = 0x15 ∧ a.last then .next { a with last := false, pc := a.pc + l }
  else match d.machine[a.pc + 1]?, d.machine[a.pc + 2]? with
    | some t, some target =>
      if consBit t then
        .next { a with jstk := (a.pc + l) % 256 :: a.jstk, lv := ⟨some (byte t), []⟩ :: a.lv, tag := none, pc := target }
      else .next { a with jstk := (a.pc + l) % 256 :: a.jstk, tag := some (byte t), pc := target }
    | _, _ => .stuck

def gpop (l : Nat) (a : GS σ) : GRes σ :=
  match a.lv with
  | [] => .err
  | b :: rest =>
    let a := { a with lv := rest, tag := b.tag }
    if b.f.isEmpty && !a.zero then .next { a with pc := a.pc + l }
    else match b.tag with
      | none => .stuck
      | some t => if t.toNat.testBit 5 then .next (gput (.node t b.f) l a) else .stuck

def gend (d : Decoder) (act : GAct σ) (op l : Nat) (a : GS σ) : GRes σ :=
  if isOf op && a.cont then
    (match d.machine[a.pc + 1]? with
     | none => .stuck
     | some t => .next { a with cont := false, pc := t })
  else if isEndAct op then gcall d act a (if isOf op then 2 else 1) fun _ a => gpop l a
  else gpop l a

def greturn (a : GS σ) : GRes σ :=
  match a.jstk with
  | [] => .err
  | r :: rest =>
    .next { a with pc := r, jstk := rest, matched := true,
                   last := a.last || !(match a.lv with | [] => a.out.isEmpty | b :: _ => b.f.isEmpty) }

def gctl (d : Decoder) (act : GAct σ) (op l : Nat) (a : GS σ) : GRes σ :=
  if op = 0x1c then (if a.matched then .next { a with pc := a.pc + l } else .err)
  else if op = 0x1d then (if a.jstk.length ≠ 0 ∨ a.lv.length ≠ 0 then .err else .halt 0 a)
  else if op = 0x1f ∧ ! a.last then .next { a with pc := a.pc + l }
  else if op = 0x1e ∨ op = 0x1f then gcall d act a 1 fun bytes a => gwrite l bytes a
  else if op = 0x28 then greturn a
  else .err

def gstep (d : Decoder) (act : GAct σ) (a : GS σ) : GRes σ :=
  match d.machine[a.pc]? with
  | none => .err
  | some op =>
    match opLen op with
    | none => .stuck
    | some l =>
      if a.pc + l > d.machine.length then .err
      else if op ∈ leafOps then gleaf d act op l a
      else if op ∈ jumpOps then gjump d op l a
      else if op ∈ endOps then gend d act op l a
      else gctl d act op l a

def grun (d : Decoder) (act : GAct σ) : Nat → GS σ → GRes σ
  | 0, a => .next a
  | n + 1, a =>
    match gstep d act a with
    | .next a => grun d act n a
    | r => r

/-! ### Simulation -/

/-- The relation between the encoder and the machine on forests. -/
structure GR (maxlen : Nat) (s : Gen.St σ) (a : GS σ) : Prop where
  pc : s.pc = a.pc
  jstk : s.jstk = a.jstk
  matched : s.matched = a.matched
  last : s.last = a.last
  cont : s.cont = a.cont
  zero : s.zero = a.zero
  ctx : s.ctx = a.ctx
  out : s.out = serL a.out
  stk : ∃ top rest, s.stk = top :: rest ∧ top.buf = [] ∧ top.tag = a.tag ∧
    rest.map (fun l => (l.tag, l.buf)) = a.lv.map (fun l => (l.tag, serL l.f))
  wf : WFL a.out ∧ ∀ b ∈ a.lv, WFL b.f
  len : s.out.length ≤ maxlen

/-- What a step of the encoder can be. -/
def GSim (maxlen : Nat) (r : Gen.Res σ) : GRes σ → Prop
  | .next a => (∃ s, r = .next s ∧ GR maxlen s a) ∨ (∃ c s, r = .halt c s ∧ c < 0) ∨ r = .fault
  | .halt c a => (∃ s, r = .halt c s ∧ GR maxlen s a) ∨ (∃ c s, r = .halt c s ∧ c < 0) ∨ r = .fault
  | .err => (∃ c s, r = .halt c s ∧ c < 0) ∨ r = .fault
  | .stuck => True

theorem GSim.neg {maxlen : Nat} {r : Gen.Res σ} {g : GRes σ} (h : (∃ c s, r = .halt c s ∧ c < 0) ∨ r = .fault) : GSim maxlen r g := by
  cases g with
  | next a => exact .inr h
  | halt c a => exact .inr h
  | err => exact h
  | stuck => trivial

/-- The encoder and the actions without sizes agree. -/
structure Agree (e : Encoder σ) (act : GAct σ) : Prop where
  ok : ∀ a ctx avail o, e.act a ctx avail = .ok o → act a ctx = some o
  err : ∀ a ctx avail r, e.act a ctx avail = .error r → r < 0

/-- The relation with bytes in the current level. -/
structure GB (maxlen : Nat) (bytes : List UInt8) (s : Gen.St σ) (a : GS σ) : Prop where
  pc : s.pc = a.pc
  jstk : s.jstk = a.jstk
  matched : s.matched = a.matched
  last : s.last = a.last
  cont : s.cont = a.cont
  zero : s.zero = a.zero
  ctx : s.ctx = a.ctx
  out : s.out = serL a.out
  stk : ∃ top rest, s.stk = top :: rest ∧ top.buf = bytes ∧ top.tag = a.tag ∧
    rest.map (fun l => (l.tag, l.buf)) = a.lv.map (fun l => (l.tag, serL l.f))
  wf : WFL a.out ∧ ∀ b ∈ a.lv, WFL b.f
  len : s.out.length ≤ maxlen

theorem serL_single (t : Tree) : serL [t] = ser t := by simp [serL]

/-- `write_data_out` with the value as a tree. -/
theorem write_sim (maxlen l : Nat) (tr : UInt8 → Tree) (bytes : List UInt8) (s : Gen.St σ) (a : GS σ) (h : GB maxlen bytes s a)
    (hser : ∀ t, ser (tr t) = tlv t bytes)
    (hwf : ∀ t, a.tag = some t → bytes.length < 2 ^ 24 → WF (tr t)) :
    GSim maxlen (writeOut maxlen l s) (if bytes = [] ∧ a.zero = false then .next { a with pc := a.pc + l }
      else match a.tag with
        | none => .stuck
        | some t => .next (gput (tr t) l a)) := by
  obtain ⟨pc, tag, lv, jstk, matched, last, cont, zero, out, ctx⟩ := a
  obtain ⟨h1, h2, h3, h4, h5, h6, h7, h8, ⟨top, rest, hs, hbuf, htag, hrest⟩, hw, hl⟩ := h
  dsimp only at *
  subst h1 h2 h3 h4 h5 h6 h7
  unfold writeOut
  rw [hs]
  dsimp only
  by_cases hset : top.set = true
  · rw [if_neg (by simp [hset])]
    by_cases c1 : bytes = [] ∧ s.zero = false
    · rw [if_pos c1, if_pos (by rw [hbuf, c1.1]; exact ⟨rfl, c1.2⟩)]
      refine .inl ⟨_, rfl, rfl, rfl, rfl, rfl, rfl, rfl, rfl, h8, ⟨top, rest, by first | exact hs | rfl, by rw [hbuf]; exact c1.1, htag, hrest⟩, hw, hl⟩
    · rw [if_neg c1, if_neg (by
        rw [hbuf]; intro hh; exact c1 ⟨List.length_eq_zero_iff.1 hh.1, hh.2⟩)]
      rw [htag]
      match tag, htag, hwf with
      | none, _, _ => trivial
      | some t, htag, hwf =>
        dsimp only
        match rest, lv, hrest, hs with
        | [], [], _, hs =>
          dsimp only
          match hr : writeTlv maxlen s.out.length t top.buf with
          | .error e => exact GSim.neg (.inl ⟨_, _, rfl, writeTlv_err hr⟩)
          | .ok b =>
            obtain ⟨w1, w2, w3⟩ := writeTlv_ok hr
            rw [hbuf] at w1 w2
            refine .inl ⟨_, rfl, rfl, rfl, rfl, rfl, rfl, rfl, rfl, ?_, ⟨_, [], rfl, rfl, rfl, rfl⟩, ⟨?_, by intro b hb; cases hb⟩, ?_⟩
            · simp only [gput]
              rw [serL_append, serL_single, hser, ← w1, h8]
            · simp only [gput]
              rw [WFL_append]
              exact ⟨hw.1, hwf t rfl w2, trivial⟩
            · simp only [List.length_append]
              exact w3 hl
        | below :: rest', b :: lv', hrest, hs =>
          dsimp only
          simp only [List.map_cons, List.cons.injEq, Prod.mk.injEq] at hrest
          obtain ⟨⟨r1, r2⟩, r3⟩ := hrest
          by_cases hbs : below.set = true
          · rw [if_neg (by simp [hbs])]
            match hr : writeTlv maxlen below.buf.length t top.buf with
            | .error e => exact GSim.neg (.inl ⟨_, _, rfl, writeTlv_err hr⟩)
            | .ok bb =>
              obtain ⟨w1, w2, w3⟩ := writeTlv_ok hr
              rw [hbuf] at w1 w2
              refine .inl ⟨_, rfl, rfl, rfl, rfl, rfl, rfl, rfl, rfl, h8, ⟨_, _, rfl, rfl, rfl, ?_⟩, ⟨hw.1, ?_⟩, hl⟩
              · simp only [gput, List.map_cons]
                rw [r3, r1, r2, serL_append, serL_single, hser, ← w1]
              · intro x hx
                simp only [gput, List.mem_cons] at hx
                rcases hx with rfl | hx
                · dsimp only
                  rw [WFL_append]
                  exact ⟨hw.2 b (by simp), hwf t rfl w2, trivial⟩
                · exact hw.2 x (by simp [hx])
          · rw [if_pos (by simpa using hbs)]; exact GSim.neg (.inr rfl)
        | [], _ :: _, hrest, _ => simp at hrest
        | _ :: _, [], hrest, _ => simp at hrest
  · rw [if_pos (by simpa using hset)]; exact GSim.neg (.inr rfl)

theorem call_sim' (e : Encoder σ) (act : GAct σ) (hag : Agree e act) (maxlen : Nat) (leaf : Bool) (i : Nat) (s : Gen.St σ) (a : GS σ)
    (h : GB maxlen [] s a) (k : Gen.St σ → Gen.Res σ) (k' : List UInt8 → GS σ → GRes σ)
    (hk : ∀ bytes s a, GB maxlen bytes s a → GSim maxlen (k s) (k' bytes a)) :
    GSim maxlen (Gen.callAct e maxlen leaf s i k) (gcall e.d act a i k') := by
  obtain ⟨pc, tag, lv, jstk, matched, last, cont, zero, out, ctx⟩ := a
  obtain ⟨h1, h2, h3, h4, h5, h6, h7, h8, ⟨top, rest, hs, hbuf, htag, hrest⟩, hw, hl⟩ := h
  dsimp only at *
  subst h1 h2 h3 h4 h5 h6 h7
  unfold Gen.callAct gcall
  dsimp only
  match e.d.machine[s.pc + i]? with
  | none => trivial
  | some m =>
    dsimp only
    by_cases hm : m ≥ e.d.nact
    · rw [if_pos hm]; exact GSim.neg (.inr rfl)
    rw [if_neg hm, hs]
    dsimp only
    by_cases hset : top.set = true
    · rw [if_neg (by simp [hset])]
      match hr : e.act m s.ctx (maxlen - top.buf.length) with
      | .error r => exact GSim.neg (.inl ⟨_, _, rfl, hag.err _ _ _ _ hr⟩)
      | .ok o =>
        rw [hag.ok _ _ _ _ hr]
        dsimp only
        by_cases hlen : o.bytes.length > maxlen - top.buf.length
        · rw [if_pos hlen]; exact GSim.neg (.inr rfl)
        · rw [if_neg hlen]
          apply hk
          exact ⟨rfl, rfl, rfl, rfl, rfl, rfl, rfl, h8, ⟨_, _, rfl, by rw [hbuf]; rfl, by dsimp only; rw [htag], hrest⟩, hw, hl⟩
    · rw [if_pos (by simpa using hset)]; exact GSim.neg (.inr rfl)

theorem GR.toGB {maxlen : Nat} {s : Gen.St σ} {a : GS σ} (h : GR maxlen s a) : GB maxlen [] s a :=
  ⟨h.pc, h.jstk, h.matched, h.last, h.cont, h.zero, h.ctx, h.out, h.stk, h.wf, h.len⟩

theorem GB.setPc {maxlen : Nat} {s : Gen.St σ} {a : GS σ} (h : GB maxlen [] s a) (pc : Nat) :
    GR maxlen { s with pc := pc } { a with pc := pc } :=
  ⟨rfl, h.jstk, h.matched, h.last, h.cont, h.zero, h.ctx, h.out, h.stk, h.wf, h.len⟩

theorem leafWrite_sim (maxlen l : Nat) (bytes : List UInt8) (s : Gen.St σ) (a : GS σ) (h : GB maxlen bytes s a) :
    GSim maxlen (writeOut maxlen l s) (gwrite l bytes a) :=
  write_sim maxlen l (fun t => .leaf t bytes) bytes s a h (fun _ => rfl) (fun _ _ hl => hl)

theorem setTag_GB {maxlen t : Nat} {s : Gen.St σ} {a : GS σ} (r : Bool) (h : GR maxlen s a) :
    GB maxlen [] (setTag r t s) { a with tag := some (byte t) } := by
  obtain ⟨h1, h2, h3, h4, h5, h6, h7, h8, ⟨top, rest, hs, hbuf, htag, hrest⟩, hw, hl⟩ := h
  unfold setTag
  rw [hs]
  cases r
  · exact ⟨h1, h2, h3, h4, h5, h6, h7, h8, ⟨_, _, rfl, hbuf, rfl, hrest⟩, hw, hl⟩
  · exact ⟨h1, h2, h3, h4, h5, h6, h7, h8, ⟨_, _, rfl, rfl, rfl, hrest⟩, hw, hl⟩

theorem push_sim {maxlen : Nat} (c : Cfg) (s : Gen.St σ) (a : GS σ) (h : GB maxlen [] s a) (k : Gen.St σ → Gen.Res σ) (g : GRes σ)
    (hk : ∀ s', GB maxlen [] s' { a with lv := ⟨a.tag, []⟩ :: a.lv, tag := none } → GSim maxlen (k s') g) :
    GSim maxlen (push c s k) g := by
  unfold push
  split
  · exact GSim.neg (.inl ⟨_, _, rfl, by decide⟩)
  · apply hk
    obtain ⟨h1, h2, h3, h4, h5, h6, h7, h8, ⟨top, rest, hs, hbuf, htag, hrest⟩, hw, hl⟩ := h
    refine ⟨h1, h2, h3, h4, h5, h6, h7, h8, ⟨{}, top :: rest, by dsimp only; rw [hs], rfl, rfl, ?_⟩, ⟨hw.1, ?_⟩, hl⟩
    · simp only [List.map_cons]
      rw [hrest, hbuf, htag]; rfl
    · intro b hb
      rcases List.mem_cons.1 hb with rfl | hb
      · trivial
      · exact hw.2 b hb

theorem leaf_sim (e : Encoder σ) (c : Cfg) (act : GAct σ) (hag : Agree e act) (maxlen op l : Nat) (s : Gen.St σ) (a : GS σ)
    (h : GR maxlen s a) : GSim maxlen (Gen.leafOp e c maxlen op l s) (gleaf e.d act op l a) := by
  unfold Gen.leafOp gleaf
  rw [h.pc]
  match e.d.machine[a.pc + 1]? with
  | none => trivial
  | some t =>
    dsimp only
    have hg := setTag_GB (t := t) true h
    have hbody : ∀ s' a', GB maxlen [] s' a' → isAct op = false → (consBit t = true ∨ op = 0) →
        GSim maxlen (leafBody e maxlen op l t s') (.next { a' with pc := a'.pc + l }) := by
      intro s' a' h' h1 h2
      unfold leafBody
      rw [if_neg (by simp [h1]), if_neg (by rcases h2 with h2 | h2 <;> simp [h2])]
      refine .inl ⟨_, rfl, ?_⟩
      rw [h'.pc]
      exact h'.setPc _
    by_cases c1 : (!isAny op && consBit t) = true
    · rw [if_pos c1, if_pos c1]
      by_cases c2 : isAct op = true
      · rw [if_pos c2]; trivial
      · rw [if_neg c2]
        refine push_sim c _ _ hg _ _ fun s' h' => ?_
        exact hbody s' _ h' (by simpa using c2) (.inl (by simp at c1; exact c1.2))
    · rw [if_neg c1, if_neg c1]
      by_cases c2 : isAct op = true
      · rw [if_pos c2]
        by_cases c3 : consBit t = true
        · rw [if_pos c3]; trivial
        · rw [if_neg c3]
          unfold leafBody
          rw [if_pos c2]
          refine call_sim' e act hag maxlen _ _ _ _ hg _ _ ?_
          intro bytes s' a' h'
          rw [if_pos (by simpa using c3)]
          exact leafWrite_sim maxlen l bytes s' a' h'
      · rw [if_neg c2]
        by_cases c3 : (!consBit t && op != 0) = true
        · rw [if_pos c3]
          unfold leafBody
          rw [if_neg c2, if_pos c3]
          exact leafWrite_sim maxlen l [] _ _ hg
        · rw [if_neg c3]
          refine hbody _ _ hg (by simpa using c2) ?_
          rw [Bool.and_eq_true, not_and] at c3
          by_cases c4 : consBit t = true
          · exact .inl c4
          · right
            have := c3 (by simpa using c4)
            simpa using this

theorem jump_sim (e : Encoder σ) (c : Cfg) (maxlen op l : Nat) (s : Gen.St σ) (a : GS σ)
    (h : GR maxlen s a) : GSim maxlen (Gen.jumpOp e c op l s) (gjump e.d op l a) := by
  unfold Gen.jumpOp gjump
  by_cases c1 : op = 0x15 ∧ a.last = true
  · rw [if_pos c1, if_pos (by rw [h.last]; exact c1)]
    exact .inl ⟨_, rfl, by dsimp only; rw [h.pc], h.jstk, h.matched, rfl, h.cont, h.zero, h.ctx, h.out, h.stk, h.wf, h.len⟩
  rw [if_neg c1, if_neg (by rw [h.last]; exact c1)]
  by_cases c2 : s.jstk.length = c.maxStack
  · rw [if_pos c2]; exact GSim.neg (.inl ⟨_, _, rfl, by decide⟩)
  rw [if_neg c2]
  by_cases c3 : s.jstk.length ≥ c.maxLevel
  · rw [if_pos c3]; exact GSim.neg (.inr rfl)
  rw [if_neg c3, h.pc]
  match e.d.machine[a.pc + 1]?, e.d.machine[a.pc + 2]? with
  | some t, some target =>
    dsimp only
    have h' : GR maxlen { s with jstk := (a.pc + l) % 256 :: s.jstk } { a with jstk := (a.pc + l) % 256 :: a.jstk } :=
      ⟨h.pc, by dsimp only; rw [h.jstk], h.matched, h.last, h.cont, h.zero, h.ctx, h.out, h.stk, h.wf, h.len⟩
    have hg := setTag_GB (t := t) false h'
    rw [h.pc] at hg
    by_cases c4 : consBit t = true
    · rw [if_pos c4, if_pos c4]
      refine push_sim c _ _ hg _ _ fun s' h'' => ?_
      exact .inl ⟨_, rfl, h''.setPc target⟩
    · rw [if_neg c4, if_neg c4]
      exact .inl ⟨_, rfl, hg.setPc target⟩
  | none, _ => trivial
  | some _, none => trivial

theorem pop_sim (maxlen l : Nat) (bytes : List UInt8) (s : Gen.St σ) (a : GS σ)
    (h : GB maxlen bytes s a) : GSim maxlen (popWrite maxlen l s) (gpop l a) := by
  obtain ⟨h1, h2, h3, h4, h5, h6, h7, h8, ⟨top, rest, hs, hbuf, htag, hrest⟩, hw, hl⟩ := h
  unfold popWrite gpop
  rw [hs]
  match rest, ha : a.lv, hrest with
  | [], [], _ => exact GSim.neg (.inl ⟨_, _, rfl, by decide⟩)
  | [], _ :: _, hrest => simp at hrest
  | _ :: _, [], hrest => simp at hrest
  | below :: rest', b :: lv', hrest =>
    simp only [List.map_cons, List.cons.injEq, Prod.mk.injEq] at hrest
    obtain ⟨⟨r1, r2⟩, r3⟩ := hrest
    dsimp only
    have hgb : GB maxlen (serL b.f) { s with stk := below :: rest' } { a with lv := lv', tag := b.tag } :=
      ⟨h1, h2, h3, h4, h5, h6, h7, h8, ⟨_, _, rfl, r2, r1, r3⟩,
        ⟨hw.1, fun x hx => hw.2 x (by rw [ha]; simp [hx])⟩, hl⟩
    have hemp : (b.f.isEmpty && !a.zero) = true ↔ (serL b.f = [] ∧ a.zero = false) := by
      simp only [Bool.and_eq_true, List.isEmpty_iff, Bool.not_eq_true']
      constructor
      · rintro ⟨x, y⟩; exact ⟨by rw [x]; rfl, y⟩
      · rintro ⟨x, y⟩; exact ⟨serL_nil x, y⟩
    by_cases hbit : ∀ t, b.tag = some t → t.toNat.testBit 5 = true
    · have hh := write_sim maxlen l (fun t => .node t b.f) (serL b.f) _ _ hgb (fun _ => rfl)
        (fun t ht hlen => ⟨hbit t ht, hlen, hw.2 b (by rw [ha]; simp)⟩)
      dsimp only at hh
      by_cases c1 : (b.f.isEmpty && !a.zero) = true
      · rw [if_pos c1]; rw [if_pos (hemp.1 c1)] at hh; exact hh
      · rw [if_neg c1]; rw [if_neg (fun x => c1 (hemp.2 x))] at hh
        match ht : b.tag with
        | none => trivial
        | some t =>
          rw [ht] at hh
          dsimp only at hh ⊢
          rw [if_pos (hbit t ht)]
          exact hh
    · by_cases c1 : (b.f.isEmpty && !a.zero) = true
      · have hh := write_sim maxlen l (fun t => .leaf t (serL b.f)) (serL b.f) _ _ hgb (fun _ => rfl)
          (fun t ht hlen => hlen)
        dsimp only at hh
        rw [if_pos c1]; rw [if_pos (hemp.1 c1)] at hh; exact hh
      · rw [if_neg c1]
        match ht : b.tag with
        | none => trivial
        | some t =>
          dsimp only
          rw [if_neg (by
            intro hb
            apply hbit
            intro t' ht'
            rw [ht] at ht'
            rw [← Option.some.inj ht']; exact hb)]
          trivial

theorem gend_sim (e : Encoder σ) (act : GAct σ) (hag : Agree e act) (maxlen op l : Nat) (s : Gen.St σ) (a : GS σ)
    (h : GR maxlen s a) : GSim maxlen (Gen.endOp e maxlen op l s) (gend e.d act op l a) := by
  unfold Gen.endOp gend
  rw [h.cont]
  by_cases c1 : (isOf op && a.cont) = true
  · rw [if_pos c1, if_pos c1, h.pc]
    match e.d.machine[a.pc + 1]? with
    | none => trivial
    | some t =>
      exact .inl ⟨_, rfl, rfl, h.jstk, h.matched, h.last, rfl, h.zero, h.ctx, h.out, h.stk, h.wf, h.len⟩
  rw [if_neg c1, if_neg c1]
  by_cases c2 : isEndAct op = true
  · rw [if_pos c2, if_pos c2]
    exact call_sim' e act hag maxlen _ _ _ _ h.toGB _ _ fun bytes s' a' h' => pop_sim maxlen l bytes s' a' h'
  · rw [if_neg c2, if_neg c2]
    exact pop_sim maxlen l [] s a h.toGB

theorem gctl_sim (e : Encoder σ) (act : GAct σ) (hag : Agree e act) (maxlen op l : Nat) (s : Gen.St σ) (a : GS σ)
    (h : GR maxlen s a) : GSim maxlen (Gen.ctlOp e maxlen op l s) (gctl e.d act op l a) := by
  unfold Gen.ctlOp gctl
  have hpc : GR maxlen { s with pc := s.pc + l } { a with pc := a.pc + l } := by rw [h.pc]; exact h.toGB.setPc _
  by_cases c1 : op = 0x1c
  · rw [if_pos c1, if_pos c1]
    by_cases hm : a.matched = true
    · rw [if_pos hm, if_pos (by rw [h.matched]; exact hm)]
      exact .inl ⟨_, rfl, hpc⟩
    · rw [if_neg hm, if_neg (by rw [h.matched]; exact hm)]; exact .inl ⟨_, _, rfl, by decide⟩
  rw [if_neg c1, if_neg c1]
  have hlen : s.stk.length = a.lv.length + 1 := by
    obtain ⟨top, rest, hs, _, _, hr⟩ := h.stk
    have := congrArg List.length hr
    simp only [List.length_map] at this
    rw [hs, List.length_cons, this]
  by_cases c2 : op = 0x1d
  · rw [if_pos c2, if_pos c2]
    by_cases c3 : a.jstk.length ≠ 0 ∨ a.lv.length ≠ 0
    · rw [if_pos c3, if_pos (by rw [h.jstk]; omega)]; exact .inl ⟨_, _, rfl, by decide⟩
    · rw [if_neg c3, if_neg (by rw [h.jstk]; omega)]; exact .inl ⟨_, rfl, h⟩
  rw [if_neg c2, if_neg c2]
  by_cases c3 : op = 0x1f ∧ (!a.last) = true
  · rw [if_pos c3, if_pos (by rw [h.last]; exact c3)]
    exact .inl ⟨_, rfl, hpc⟩
  rw [if_neg c3, if_neg (by rw [h.last]; exact c3)]
  by_cases c4 : op = 0x1e ∨ op = 0x1f
  · rw [if_pos c4, if_pos c4]
    exact call_sim' e act hag maxlen _ _ _ _ h.toGB _ _ fun bytes s' a' h' => leafWrite_sim maxlen l bytes s' a' h'
  rw [if_neg c4, if_neg c4]
  by_cases c5 : op = 0x28
  · rw [if_pos c5, if_pos c5]
    obtain ⟨pc, tag, lv, jstk, matched, last, cont, zero, out, ctx⟩ := a
    obtain ⟨h1, h2, h3, h4, h5, h6, h7, h8, ⟨top, rest, hs, hbuf, htag, hrest⟩, hw, hl⟩ := h
    dsimp only at *
    subst h1 h2 h3 h4 h5 h6 h7
    have hfin : ∀ (len : Nat) (b : Bool), (len != 0) = !b →
        GSim maxlen (returnFin s len)
          (match s.jstk with
           | [] => .err
           | r :: rest' => .next { pc := r, tag := tag, lv := lv, jstk := rest', matched := true, last := s.last || !b,
                                   cont := s.cont, zero := s.zero, out := out, ctx := s.ctx }) := by
      intro len b hb
      unfold returnFin
      generalize hj : s.jstk = j
      match j with
      | [] => exact .inl ⟨_, _, rfl, by decide⟩
      | r :: rest' =>
        refine .inl ⟨_, rfl, rfl, rfl, rfl, ?_, rfl, rfl, rfl, h8, ⟨top, rest, hs, hbuf, htag, hrest⟩, hw, hl⟩
        dsimp only; rw [hb]
    unfold returnOp greturn
    rw [hs]
    have he : ∀ f : List Tree, ((serL f).length != 0) = !f.isEmpty := by
      intro f
      cases f with
      | nil => rfl
      | cons x f =>
        have : (serL (x :: f)).length ≠ 0 := fun h0 => by have := serL_isEmpty.1 h0; cases this
        simpa using this
    match rest, lv, hrest with
    | [], [], _ =>
      dsimp only
      exact hfin _ _ (by rw [h8]; exact he _)
    | [], _ :: _, hrest => simp at hrest
    | _ :: _, [], hrest => simp at hrest
    | below :: rest', b :: lv', hrest =>
      dsimp only
      simp only [List.map_cons, List.cons.injEq, Prod.mk.injEq] at hrest
      by_cases hset : below.set = true
      · rw [if_neg (by simp [hset])]
        exact hfin _ _ (by rw [hrest.1.2]; exact he _)
      · rw [if_pos (by simpa using hset)]; exact GSim.neg (.inr rfl)
  · rw [if_neg c5, if_neg c5]; exact .inl ⟨_, _, rfl, by decide⟩

theorem gstep_sim (e : Encoder σ) (c : Cfg) (act : GAct σ) (hag : Agree e act) (maxlen : Nat) (s : Gen.St σ) (a : GS σ)
    (h : GR maxlen s a) : GSim maxlen (Gen.step e c maxlen s) (gstep e.d act a) := by
  unfold Gen.step gstep
  rw [show e.d.machine[s.pc]? = e.d.machine[a.pc]? by rw [h.pc]]
  match e.d.machine[a.pc]? with
  | none => exact .inl ⟨_, _, rfl, by decide⟩
  | some op =>
    dsimp only
    match opLen op with
    | none => trivial
    | some l =>
      dsimp only
      by_cases c1 : a.pc + l > e.d.machine.length
      · rw [if_pos c1, if_pos (by rw [h.pc]; exact c1)]; exact .inl ⟨_, _, rfl, by decide⟩
      rw [if_neg c1, if_neg (by rw [h.pc]; exact c1)]
      by_cases c2 : op ∈ leafOps
      · rw [if_pos c2, if_pos c2]; exact leaf_sim e c act hag maxlen op l s a h
      rw [if_neg c2, if_neg c2]
      by_cases c3 : op ∈ jumpOps
      · rw [if_pos c3, if_pos c3]; exact jump_sim e c maxlen op l s a h
      rw [if_neg c3, if_neg c3]
      by_cases c4 : op ∈ endOps
      · rw [if_pos c4, if_pos c4]; exact gend_sim e act hag maxlen op l s a h
      · rw [if_neg c4, if_neg c4]; exact gctl_sim e act hag maxlen op l s a h

theorem grun_sim (e : Encoder σ) (c : Cfg) (act : GAct σ) (hag : Agree e act) (maxlen : Nat) : ∀ (n : Nat) (s : Gen.St σ) (a : GS σ),
    GR maxlen s a → GSim maxlen (Gen.run e c maxlen n s) (grun e.d act n a)
  | 0, s, a, h => .inl ⟨s, rfl, h⟩
  | n + 1, s, a, h => by
    have hs := gstep_sim e c act hag maxlen s a h
    unfold Gen.run grun
    match ht : gstep e.d act a with
    | .stuck => trivial
    | .next a' =>
      rw [ht] at hs
      rcases hs with ⟨s', h1, h2⟩ | ⟨c', s', h1, h2⟩ | h1
      · rw [h1]; exact grun_sim e c act hag maxlen n s' a' h2
      · rw [h1]; exact GSim.neg (.inl ⟨_, _, rfl, h2⟩)
      · rw [h1]; exact GSim.neg (.inr rfl)
    | .halt r a' =>
      rw [ht] at hs
      rcases hs with ⟨s', h1, h2⟩ | ⟨c', s', h1, h2⟩ | h1
      · rw [h1]; exact .inl ⟨s', rfl, h2⟩
      · rw [h1]; exact GSim.neg (.inl ⟨_, _, rfl, h2⟩)
      · rw [h1]; exact GSim.neg (.inr rfl)
    | .err =>
      rw [ht] at hs
      rcases hs with ⟨c', s', h1, h2⟩ | h1
      · rw [h1]; exact .inl ⟨_, _, rfl, h2⟩
      · rw [h1]; exact .inr rfl

/-- If the encoder succeeds, it has written the serialisation of the forest. -/
theorem encode_sim (e : Encoder σ) (c : Cfg) (act : GAct σ) (hag : Agree e act) (ctx : σ) (avail n : Nat) (s : Gen.St σ)
    (h : encode e c ctx avail n = .halt 0 s) :
    match grun e.d act n { ctx := ctx } with
    | .halt r a => r = 0 ∧ s.out = serL a.out ∧ s.ctx = a.ctx ∧ WFL a.out ∧ s.out.length ≤ c.maxStack
    | .stuck => True
    | _ => False := by
  have hh := grun_sim e c act hag (min c.maxStack avail) n { ctx := ctx } { ctx := ctx }
    ⟨rfl, rfl, rfl, rfl, rfl, rfl, rfl, rfl, ⟨_, _, rfl, rfl, rfl, rfl⟩, ⟨trivial, by intro b hb; cases hb⟩, Nat.zero_le _⟩
  unfold encode at h
  rw [h] at hh
  match hg : grun e.d act n { ctx := ctx } with
  | .stuck => trivial
  | .next a =>
    rw [hg] at hh
    rcases hh with ⟨s', h1, _⟩ | ⟨c', s', h1, h2⟩ | h1
    · cases h1
    · injection h1 with h1; omega
    · cases h1
  | .err =>
    rw [hg] at hh
    rcases hh with ⟨c', s', h1, h2⟩ | h1
    · injection h1 with h1; omega
    · cases h1
  | .halt r a =>
    rw [hg] at hh
    rcases hh with ⟨s', h1, h2⟩ | ⟨c', s', h1, h2⟩ | h1
    · injection h1 with h1 h3
      subst h3
      exact ⟨h1.symm, h2.out, h2.ctx, h2.wf.1, by have := h2.len; omega⟩
    · injection h1 with h1; omega
    · cases h1

end LC.Asn1.Tr
