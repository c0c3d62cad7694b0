import Verif.Asn1.Encoder
/-
A static check of bytecode for the encoder and its soundness: the positions, jump stacks and levels
that occur in any run are among a finite list computed from the bytecode, and at none of them the
encoder leaves its memory.
-/
namespace LC.Asn1.Gen
open LC.Asn1 LC.Asn1.Enc

/-- What the check knows of a state: position, jump stack, and for every level whether it and its tag
have been set. -/
structure A where
  pc : Nat
  jstk : List Nat
  lv : List (Bool × Bool)
deriving DecidableEq, Repr

/-- Writing out the current level is possible. -/
def okWrite : List (Bool × Bool) → Bool
  | [] => false
  | [(s, t)] => s && t
  | (s, t) :: (s', _) :: _ => s && t && s'

/-- An action can be called with the current level. -/
def okAct (d : Decoder) (pc i : Nat) (lv : List (Bool × Bool)) : Bool :=
  (match d.machine[pc + i]? with | none => false | some a => decide (a < d.nact)) &&
  (match lv with | [] => false | (s, _) :: _ => s)

/-- Successors of `a` for an instruction of length `l`: `none` if memory may be left; the second list
are those of the loops. -/
def anext (d : Decoder) (c : Cfg) (a : A) : Option (List A × List A) :=
  match d.machine[a.pc]? with
  | none => some ([], [])
  | some op =>
    match opLen op with
    | none => none
    | some l =>
      if a.pc + l > d.machine.length then some ([], [])
      else if op ∈ leafOps then
        (match d.machine[a.pc + 1]?, a.lv with
         | some t, _ :: rest =>
           if !isAny op && consBit t then
             (if isAct op then none
              else if a.lv.length = c.maxLevel then some ([], [])
              else some ([⟨a.pc + l, a.jstk, (true, false) :: (true, true) :: rest⟩], []))
           else if isAct op then
             (if okAct d a.pc (if isAny op then 1 else 2) ((true, true) :: rest) && okWrite ((true, true) :: rest) && !consBit t
              then some ([⟨a.pc + l, a.jstk, (true, true) :: rest⟩], []) else none)
           else if okWrite ((true, true) :: rest) then some ([⟨a.pc + l, a.jstk, (true, true) :: rest⟩], [])
           else none
         | _, _ => none)
      else if op ∈ jumpOps then
        let skip : List A := if op = 0x15 then [⟨a.pc + l, a.jstk, a.lv⟩] else []
        if a.jstk.length = c.maxStack then some (skip, [])
        else if a.jstk.length ≥ c.maxLevel then none
        else
          (match d.machine[a.pc + 1]?, d.machine[a.pc + 2]?, a.lv with
           | some t, some target, (s, _) :: rest =>
             let j := (a.pc + l) % 256 :: a.jstk
             if consBit t then
               (if a.lv.length = c.maxLevel then some (skip, [])
                else some (⟨target, j, (true, false) :: (s, true) :: rest⟩ :: skip, []))
             else some (⟨target, j, (s, true) :: rest⟩ :: skip, [])
           | _, _, _ => none)
      else if op ∈ endOps then
        let act := !isEndAct op || okAct d a.pc (if isOf op then 2 else 1) a.lv
        let loop : Option (List A) :=
          if isOf op then (d.machine[a.pc + 1]?).map fun t => [⟨t, a.jstk, a.lv⟩] else some []
        (match loop, a.lv with
         | none, _ => none
         | some lp, _ :: below :: rest =>
           if act && okWrite (below :: rest) then some ([⟨a.pc + l, a.jstk, below :: rest⟩], lp) else none
         | some lp, _ => if act then some ([], lp) else none)
      else if op = 0x1c then some ([⟨a.pc + l, a.jstk, a.lv⟩], [])
      else if op = 0x1d then some ([], [])
      else if op = 0x1e ∨ op = 0x1f then
        (if okAct d a.pc 1 a.lv && okWrite a.lv then some ([⟨a.pc + l, a.jstk, a.lv⟩], []) else none)
      else if op = 0x28 then
        let below := match a.lv with | _ :: (s, _) :: _ => s | _ => true
        (if below then
          (match a.jstk with
           | [] => some ([], [])
           | r :: rest => some ([⟨r, rest, a.lv⟩], []))
         else none)
      else some ([], [])

/-- Positions reachable without the loops, each before its successors. -/
def dfs (d : Decoder) (c : Cfg) : Nat → List A → A → List A
  | 0, seen, _ => seen
  | n + 1, seen, a =>
    if a ∈ seen then seen
    else match anext d c a with
      | none => a :: seen
      | some (l, _) => a :: l.foldl (dfs d c n) seen

/-- Every successor is further down the list, and the targets of the loops are in it. -/
def closed (d : Decoder) (c : Cfg) (all : List A) : List A → Bool
  | [] => true
  | a :: rest =>
    (match anext d c a with
     | none => false
     | some (l, lp) => l.all (fun x => decide (x ∈ rest)) && lp.all (fun x => decide (x ∈ all))) &&
    closed d c all rest

def a0 : A := ⟨0, [], [(false, false)]⟩

/-- The targets of the loops, `n` times. -/
def loops (d : Decoder) (c : Cfg) : Nat → List A → List A
  | 0, seen => seen
  | n + 1, seen =>
    loops d c n (seen.foldl (fun seen a => match anext d c a with
      | none => seen
      | some (_, lp) => lp.foldl (dfs d c 1000) seen) seen)

/-- The list computed by the check. -/
def states (d : Decoder) (c : Cfg) : List A := loops d c 3 (dfs d c 1000 [] a0)

def encCheck (d : Decoder) (c : Cfg) : Bool :=
  decide (a0 ∈ states d c) && closed d c (states d c) (states d c)

/-- The grammars with the instance that is used for them: `pkcs7_generator.c:803,1111`,
`public_key_dilithium.c:197`, `public_key_dilithium_ed25519.c:227,287,495`,
`public_key_sphincs.c:210`, `x509_cert_generator.c:719-743,1329`. -/
def shippedEnc : List (Decoder × Cfg) :=
  [(pkcs7, large), (pkcs7_aa, small), (x509, large), (x509_akid, large), (x509_basic_constraints, small),
   (x509_composite_mldsa_privkey, large), (x509_composite_mldsa_pubkey, large),
   (x509_composite_mldsa_signature, large), (x509_eku, small), (x509_keyusage, small),
   (x509_mldsa_privkey, large), (x509_san, large), (x509_skid, small), (x509_slhdsa_privkey, large)]

theorem shipped_encChecked : ∀ p ∈ shippedEnc, encCheck p.1 p.2 = true := by decide +kernel

/-! ### Soundness -/

variable {σ : Type}

def alv (s : St σ) : List (Bool × Bool) := s.stk.map fun l => (l.set, l.tag.isSome)

def abs (s : St σ) : A := ⟨s.pc, s.jstk, alv s⟩

/-- What is asked of the actions: they write no more than they are offered, and their errors are negative. -/
def Contract (e : Encoder σ) : Prop :=
  ∀ a ctx avail, match e.act a ctx avail with
    | .error r => r < 0
    | .ok o => o.bytes.length ≤ avail

/-- No fault, and `P` of the next state. -/
def Ok (P : St σ → Prop) : Res σ → Prop
  | .next s => P s
  | .halt _ _ => True
  | .fault => False

theorem Ok.mono {P Q : St σ → Prop} (h : ∀ s, P s → Q s) {r : Res σ} (hr : Ok P r) : Ok Q r := by
  cases r with
  | next s => exact h s hr
  | halt _ _ => trivial
  | fault => exact hr

/-- `s'` is at `pc` with the same stacks; context, log and loop flag are those of `s`. -/
structure Same (s : St σ) (pc : Nat) (s' : St σ) : Prop where
  pc : s'.pc = pc
  jstk : s'.jstk = s.jstk
  lv : alv s' = alv s
  ctx : s'.ctx = s.ctx
  cont : s'.cont = s.cont

theorem writeOut_ok (maxlen l : Nat) (s : St σ) (h : okWrite (alv s) = true) :
    Ok (Same s (s.pc + l)) (writeOut maxlen l s) := by
  unfold writeOut
  unfold alv at h
  match hs : s.stk with
  | [] => rw [hs] at h; simp [okWrite] at h
  | [top] =>
    rw [hs] at h
    simp [okWrite] at h
    obtain ⟨h1, h2⟩ := h
    obtain ⟨t, ht⟩ := Option.isSome_iff_exists.1 h2
    simp only [h1, ht, Bool.not_true, Bool.false_eq_true, if_false]
    split
    · exact ⟨rfl, rfl, by unfold alv; rw [hs], rfl, rfl⟩
    · split
      · trivial
      · exact ⟨rfl, rfl, by simp [alv, hs, h1, ht], rfl, rfl⟩
  | top :: below :: rest =>
    rw [hs] at h
    simp [okWrite] at h
    obtain ⟨⟨h1, h2⟩, h3⟩ := h
    obtain ⟨t, ht⟩ := Option.isSome_iff_exists.1 h2
    simp only [h1, ht, h3, Bool.not_true, Bool.false_eq_true, if_false]
    split
    · exact ⟨rfl, rfl, by unfold alv; rw [hs], rfl, rfl⟩
    · split
      · trivial
      · exact ⟨rfl, rfl, by simp [alv, hs, h1, ht, h3], rfl, rfl⟩

/-- How the state changes with the call of an action. -/
structure Called (e : Encoder σ) (s s' : St σ) : Prop where
  pc : s'.pc = s.pc
  jstk : s'.jstk = s.jstk
  lv : ∃ x y, ∃ rest, alv s = (true, x) :: rest ∧ alv s' = (true, y) :: rest ∧ (x = true → y = true)
  act : ∃ a avail o, e.act a s.ctx avail = .ok o ∧ s'.ctx = o.ctx ∧ s'.cont = (s.cont || o.ret == 1)

theorem callAct_ok (e : Encoder σ) (hc : Contract e) (maxlen : Nat) (leaf : Bool) (s : St σ) (i : Nat)
    (k : St σ → Res σ) (P : St σ → Prop) (h : okAct e.d s.pc i (alv s) = true)
    (hk : ∀ s', Called e s s' → Ok P (k s')) : Ok P (callAct e maxlen leaf s i k) := by
  unfold okAct at h
  unfold callAct
  match hm : e.d.machine[s.pc + i]? with
  | none => rw [hm] at h; simp at h
  | some a =>
    rw [hm] at h
    match hs : s.stk with
    | [] => rw [alv, hs] at h; simp at h
    | top :: rest =>
      rw [alv, hs] at h
      simp at h
      obtain ⟨h1, h2⟩ := h
      dsimp only
      rw [if_neg (by omega)]
      simp only [h2, Bool.not_true, Bool.false_eq_true, if_false]
      have hca := hc a s.ctx (maxlen - top.buf.length)
      match he : e.act a s.ctx (maxlen - top.buf.length) with
      | .error r => trivial
      | .ok o =>
        rw [he] at hca
        dsimp only at hca ⊢
        rw [if_neg (by omega)]
        apply hk
        refine ⟨rfl, rfl, ⟨top.tag.isSome, (o.tag.or top.tag).isSome, rest.map fun l => (l.set, l.tag.isSome), ?_, ?_, ?_⟩,
          ⟨a, _, o, he, rfl, rfl⟩⟩
        · simp [alv, hs, h2]
        · simp [alv, h2]
        · intro hx; cases o.tag <;> simp [hx]

/-- What a step does, as far as the check is concerned. -/
def StepOk (e : Encoder σ) (s : St σ) (l lp : List A) (s' : St σ) : Prop :=
  (abs s' ∈ l ∧ ((s'.ctx = s.ctx ∧ s'.cont = s.cont) ∨
    ∃ a avail o, e.act a s.ctx avail = .ok o ∧ s'.ctx = o.ctx ∧ s'.cont = (s.cont || o.ret == 1))) ∨
  (abs s' ∈ lp ∧ s'.ctx = s.ctx ∧ s.cont = true ∧ s'.cont = false)

theorem abs_eq (s : St σ) (pc : Nat) (j : List Nat) (lv : List (Bool × Bool)) (h1 : s.pc = pc) (h2 : s.jstk = j)
    (h3 : alv s = lv) : abs s = ⟨pc, j, lv⟩ := by
  unfold abs; rw [h1, h2, h3]

theorem stk_cons {s : St σ} {x : Bool × Bool} {rest : List (Bool × Bool)} (h : alv s = x :: rest) :
    ∃ top r, s.stk = top :: r ∧ x = (top.set, top.tag.isSome) ∧ rest = r.map fun l => (l.set, l.tag.isSome) := by
  unfold alv at h
  match hs : s.stk with
  | [] => rw [hs] at h; simp at h
  | top :: r => rw [hs] at h; simp at h; exact ⟨top, r, rfl, h.1.symm, h.2.symm⟩

theorem leafOp_ok (e : Encoder σ) (c : Cfg) (hc : Contract e) (maxlen op l : Nat) (s : St σ) (L lp : List A) (t : Nat)
    (x : Bool × Bool) (rest : List (Bool × Bool)) (ht : e.d.machine[s.pc + 1]? = some t) (hlv : alv s = x :: rest)
    (h : (if !isAny op && consBit t then
             (if isAct op then none
              else if (alv s).length = c.maxLevel then some ([], [])
              else some ([⟨s.pc + l, s.jstk, (true, false) :: (true, true) :: rest⟩], []))
           else if isAct op then
             (if okAct e.d s.pc (if isAny op then 1 else 2) ((true, true) :: rest) && okWrite ((true, true) :: rest) && !consBit t
              then some ([⟨s.pc + l, s.jstk, (true, true) :: rest⟩], []) else none)
           else if okWrite ((true, true) :: rest) then some ([⟨s.pc + l, s.jstk, (true, true) :: rest⟩], [])
           else none) = some (L, lp)) :
    Ok (StepOk e s L lp) (leafOp e c maxlen op l s) := by
  obtain ⟨top, r, hs, rfl, hr⟩ := stk_cons hlv
  unfold leafOp
  rw [ht]
  have hset : setTag true t s = { s with stk := ⟨[], true, some (byte t)⟩ :: r } := by
    unfold setTag; rw [hs]; rfl
  have ha : alv ({ s with stk := ⟨[], true, some (byte t)⟩ :: r }) = (true, true) :: rest := by
    unfold alv; rw [hr]; rfl
  dsimp only
  rw [hset]
  split at h
  · rename_i hcons
    rw [if_pos hcons]
    split at h
    · simp at h
    · rename_i hact
      have hct : consBit t = true := by simp at hcons; exact hcons.2
      unfold push
      have hlen : (alv s).length = (⟨[], true, some (byte t)⟩ :: r : List Lvl).length := by rw [hlv, hr]; simp
      split at h
      · rename_i he
        rw [if_pos (by rw [← hlen]; exact he)]; trivial
      · rename_i he
        rw [if_neg (by rw [← hlen]; exact he)]
        unfold leafBody
        rw [if_neg hact, hct]
        simp only [Bool.not_true, Bool.false_and, Bool.false_eq_true, if_false]
        simp only [Option.some.injEq, Prod.mk.injEq] at h
        obtain ⟨rfl, rfl⟩ := h
        refine Or.inl ⟨?_, Or.inl ⟨rfl, rfl⟩⟩
        rw [List.mem_singleton]
        exact abs_eq _ _ _ _ rfl rfl (by unfold alv; rw [hr]; rfl)
  · rename_i hcons
    rw [if_neg hcons]
    unfold leafBody
    split at h
    · rename_i hact
      rw [if_pos hact]
      by_cases hok : (okAct e.d s.pc (if isAny op then 1 else 2) ((true, true) :: rest) && okWrite ((true, true) :: rest) && !consBit t) = true
      · rw [if_pos hok] at h
        simp only [Bool.and_eq_true] at hok
        simp only [Option.some.injEq, Prod.mk.injEq] at h
        obtain ⟨rfl, rfl⟩ := h
        apply callAct_ok e hc
        · rw [ha]; exact hok.1.1
        · intro s' hs'
          rw [if_pos hok.2]
          obtain ⟨p1, p2, ⟨x, y, rst, p3, p4, p5⟩, p6⟩ := hs'
          rw [ha] at p3
          simp only [List.cons.injEq, Prod.mk.injEq, true_and] at p3
          obtain ⟨hx, rfl⟩ := p3
          rw [p5 hx.symm] at p4
          refine (writeOut_ok maxlen l s' (by rw [p4]; exact hok.1.2)).mono ?_
          intro s'' q
          refine Or.inl ⟨?_, Or.inr ?_⟩
          · rw [List.mem_singleton]
            exact abs_eq _ _ _ _ (by rw [q.pc, p1]) (by rw [q.jstk, p2]) (by rw [q.lv, p4])
          · obtain ⟨a, av, o, o1, o2, o3⟩ := p6
            exact ⟨a, av, o, o1, by rw [q.ctx, o2], by rw [q.cont, o3]⟩
      · rw [if_neg hok] at h; simp at h
    · rename_i hact
      rw [if_neg hact]
      split at h
      · rename_i hok
        simp only [Option.some.injEq, Prod.mk.injEq] at h
        obtain ⟨rfl, rfl⟩ := h
        split
        · refine (writeOut_ok maxlen l _ (by rw [ha]; exact hok)).mono ?_
          intro s'' q
          refine Or.inl ⟨?_, Or.inl ⟨q.ctx, q.cont⟩⟩
          rw [List.mem_singleton]
          exact abs_eq _ _ _ _ q.pc q.jstk (by rw [q.lv, ha])
        · refine Or.inl ⟨?_, Or.inl ⟨rfl, rfl⟩⟩
          rw [List.mem_singleton]
          exact abs_eq _ _ _ _ rfl rfl (by rw [← ha]; rfl)
      · simp at h

theorem jumpOp_ok (e : Encoder σ) (c : Cfg) (op l : Nat) (s : St σ) (L lp : List A)
    (h : (let skip : List A := if op = 0x15 then [⟨s.pc + l, s.jstk, alv s⟩] else []
        if s.jstk.length = c.maxStack then some (skip, [])
        else if s.jstk.length ≥ c.maxLevel then none
        else
          (match e.d.machine[s.pc + 1]?, e.d.machine[s.pc + 2]?, alv s with
           | some t, some target, (s', _) :: rest =>
             let j := (s.pc + l) % 256 :: s.jstk
             if consBit t then
               (if (alv s).length = c.maxLevel then some (skip, [])
                else some (⟨target, j, (true, false) :: (s', true) :: rest⟩ :: skip, []))
             else some (⟨target, j, (s', true) :: rest⟩ :: skip, [])
           | _, _, _ => none)) = some (L, lp)) :
    Ok (StepOk e s L lp) (jumpOp e c op l s) := by
  unfold jumpOp
  dsimp only at h
  by_cases hskip : op = 0x15 ∧ s.last = true
  · rw [if_pos hskip]
    have hmem : (⟨s.pc + l, s.jstk, alv s⟩ : A) ∈ L := by
      rw [if_pos hskip.1] at h
      split at h
      · simp only [Option.some.injEq, Prod.mk.injEq] at h; rw [← h.1]; simp
      · split at h
        · simp at h
        · split at h
          · split at h
            · split at h
              · simp only [Option.some.injEq, Prod.mk.injEq] at h; rw [← h.1]; simp
              · simp only [Option.some.injEq, Prod.mk.injEq] at h; rw [← h.1]; simp
            · simp only [Option.some.injEq, Prod.mk.injEq] at h; rw [← h.1]; simp
          · simp at h
    exact Or.inl ⟨hmem, Or.inl ⟨rfl, rfl⟩⟩
  · rw [if_neg hskip]
    generalize (if op = 0x15 then [(⟨s.pc + l, s.jstk, alv s⟩ : A)] else []) = sk at h
    split at h
    · rename_i hj; rw [if_pos hj]; trivial
    · rename_i hj
      rw [if_neg hj]
      split at h
      · simp at h
      · rename_i hj2
        rw [if_neg hj2]
        split at h
        · rename_i t target s1 x rest ht1 ht2 hlv
          obtain ⟨top, r, hs, hx, hr⟩ := stk_cons hlv
          rw [ht1, ht2]
          dsimp only
          have hset : setTag false t { s with jstk := (s.pc + l) % 256 :: s.jstk } =
              { s with jstk := (s.pc + l) % 256 :: s.jstk, stk := { top with tag := some (byte t) } :: r } := by
            unfold setTag; rw [hs]; rfl
          rw [hset]
          simp only [Prod.mk.injEq] at hx
          split at h
          · rename_i hct
            rw [if_pos hct]
            unfold push
            have hlen : (alv s).length = ({ top with tag := some (byte t) } :: r : List Lvl).length := by rw [hlv, hr]; simp
            split at h
            · rename_i he; rw [if_pos (by rw [← hlen]; exact he)]; trivial
            · rename_i he
              rw [if_neg (by rw [← hlen]; exact he)]
              simp only [Option.some.injEq, Prod.mk.injEq] at h
              obtain ⟨rfl, rfl⟩ := h
              refine Or.inl ⟨?_, Or.inl ⟨rfl, rfl⟩⟩
              refine List.mem_cons.2 (Or.inl (abs_eq _ _ _ _ rfl rfl ?_))
              unfold alv; rw [hr, hx.1]; rfl
          · rename_i hct
            rw [if_neg hct]
            simp only [Option.some.injEq, Prod.mk.injEq] at h
            obtain ⟨rfl, rfl⟩ := h
            refine Or.inl ⟨?_, Or.inl ⟨rfl, rfl⟩⟩
            refine List.mem_cons.2 (Or.inl (abs_eq _ _ _ _ rfl rfl ?_))
            unfold alv; rw [hr, hx.1]; rfl
        · simp at h

theorem popWrite_ok (maxlen l : Nat) (s : St σ) (P : St σ → Prop)
    (h : ∀ x below rest, alv s = x :: below :: rest → okWrite (below :: rest) = true ∧
      ∀ s', s'.pc = s.pc + l → s'.jstk = s.jstk → alv s' = below :: rest → s'.ctx = s.ctx → s'.cont = s.cont → P s') :
    Ok P (popWrite maxlen l s) := by
  unfold popWrite
  match hs : s.stk with
  | [] => trivial
  | [_] => trivial
  | top :: below :: rest =>
    have ha : alv s = (top.set, top.tag.isSome) :: (below.set, below.tag.isSome) :: rest.map fun l => (l.set, l.tag.isSome) := by
      unfold alv; rw [hs]; rfl
    obtain ⟨h1, h2⟩ := h _ _ _ ha
    refine (writeOut_ok maxlen l _ (by unfold alv; exact h1)).mono ?_
    intro s' q
    exact h2 s' q.pc q.jstk (by rw [q.lv]; rfl) q.ctx q.cont

theorem endOp_ok (e : Encoder σ) (hc : Contract e) (maxlen op l : Nat) (s : St σ) (L lp : List A)
    (h : (let act := !isEndAct op || okAct e.d s.pc (if isOf op then 2 else 1) (alv s)
        let loop : Option (List A) :=
          if isOf op then (e.d.machine[s.pc + 1]?).map fun t => [⟨t, s.jstk, alv s⟩] else some []
        (match loop, alv s with
         | none, _ => none
         | some lp, _ :: below :: rest =>
           if act && okWrite (below :: rest) then some ([⟨s.pc + l, s.jstk, below :: rest⟩], lp) else none
         | some lp, _ => if act then some ([], lp) else none)) = some (L, lp)) :
    Ok (StepOk e s L lp) (endOp e maxlen op l s) := by
  dsimp only at h
  -- what the check gives
  have key : (isOf op = true → ∃ t, e.d.machine[s.pc + 1]? = some t ∧ (⟨t, s.jstk, alv s⟩ : A) ∈ lp) ∧
      (isEndAct op = true → okAct e.d s.pc (if isOf op then 2 else 1) (alv s) = true) ∧
      (∀ x below rest, alv s = x :: below :: rest → okWrite (below :: rest) = true ∧
        (⟨s.pc + l, s.jstk, below :: rest⟩ : A) ∈ L) := by
    have fact : ∀ lp', (match (some lp' : Option (List A)), alv s with
         | none, _ => none
         | some lp, _ :: below :: rest =>
           if (!isEndAct op || okAct e.d s.pc (if isOf op then 2 else 1) (alv s)) && okWrite (below :: rest) then some ([(⟨s.pc + l, s.jstk, below :: rest⟩ : A)], lp) else none
         | some lp, _ => if (!isEndAct op || okAct e.d s.pc (if isOf op then 2 else 1) (alv s)) then some ([], lp) else none) = some (L, lp) →
        lp' = lp ∧ (isEndAct op = true → okAct e.d s.pc (if isOf op then 2 else 1) (alv s) = true) ∧
        (∀ x below rest, alv s = x :: below :: rest → okWrite (below :: rest) = true ∧
          (⟨s.pc + l, s.jstk, below :: rest⟩ : A) ∈ L) := by
      intro lp' h
      generalize okAct e.d s.pc (if isOf op then 2 else 1) (alv s) = oa at h ⊢
      match ha : alv s with
      | [] =>
        rw [ha] at h
        dsimp only at h
        split at h
        · rename_i hh
          simp only [Option.some.injEq, Prod.mk.injEq] at h
          refine ⟨h.2, fun h1 => by simpa [h1] using hh, by simp⟩
        · simp at h
      | [_] =>
        rw [ha] at h
        dsimp only at h
        split at h
        · rename_i hh
          simp only [Option.some.injEq, Prod.mk.injEq] at h
          refine ⟨h.2, fun h1 => by simpa [h1] using hh, by simp⟩
        · simp at h
      | x :: b :: r =>
        rw [ha] at h
        dsimp only at h
        split at h
        · rename_i hh
          rw [Bool.and_eq_true] at hh
          simp only [Option.some.injEq, Prod.mk.injEq] at h
          refine ⟨h.2, fun h1 => by simpa [h1] using hh.1, ?_⟩
          intro x' b' r' he
          simp only [List.cons.injEq] at he
          obtain ⟨_, rfl, rfl⟩ := he
          exact ⟨hh.2, by rw [← h.1]; simp⟩
        · simp at h
    by_cases hof : isOf op = true
    · rw [if_pos hof] at h
      match hm : e.d.machine[s.pc + 1]? with
      | none => rw [hm] at h; simp at h
      | some t =>
        rw [hm] at h
        obtain ⟨rfl, f2, f3⟩ := fact _ h
        exact ⟨fun _ => ⟨t, rfl, by simp⟩, f2, f3⟩
    · rw [if_neg hof] at h
      obtain ⟨rfl, f2, f3⟩ := fact _ h
      exact ⟨fun hh => absurd hh hof, f2, f3⟩
  obtain ⟨k1, k2, k3⟩ := key
  clear h
  unfold endOp
  split
  · rename_i hcont
    rw [Bool.and_eq_true] at hcont
    obtain ⟨t, ht, hmem⟩ := k1 hcont.1
    rw [ht]
    exact Or.inr ⟨hmem, rfl, hcont.2, rfl⟩
  · split
    · rename_i hact
      apply callAct_ok e hc _ _ _ _ _ _ (k2 hact)
      intro s' hs'
      obtain ⟨p1, p2, ⟨x, y, rst, p3, p4, p5⟩, p6⟩ := hs'
      apply popWrite_ok
      intro x' below rest he
      rw [p4] at he
      simp only [List.cons.injEq] at he
      obtain ⟨_, rfl⟩ := he
      obtain ⟨o1, o2⟩ := k3 _ _ _ p3
      refine ⟨o1, ?_⟩
      intro s'' q1 q2 q3 q4 q5
      refine Or.inl ⟨?_, Or.inr ?_⟩
      · rw [abs_eq s'' _ _ _ q1 q2 q3, p1, p2]; exact o2
      · obtain ⟨a, av, o, w1, w2, w3⟩ := p6
        exact ⟨a, av, o, w1, by rw [q4, w2], by rw [q5, w3]⟩
    · apply popWrite_ok
      intro x below rest he
      obtain ⟨o1, o2⟩ := k3 _ _ _ he
      refine ⟨o1, ?_⟩
      intro s'' q1 q2 q3 q4 q5
      refine Or.inl ⟨?_, Or.inl ⟨q4, q5⟩⟩
      rw [abs_eq s'' _ _ _ q1 q2 q3]; exact o2

theorem returnOp_ok (e : Encoder σ) (s : St σ) (L lp : List A)
    (h : (let below := match alv s with | _ :: (s, _) :: _ => s | _ => true
        (if below then
          (match s.jstk with
           | [] => some ([], [])
           | r :: rest => some ([(⟨r, rest, alv s⟩ : A)], []))
         else none)) = some (L, lp)) :
    Ok (StepOk e s L lp) (returnOp s) := by
  dsimp only at h
  have fin : ∀ len, (match s.jstk with
           | [] => some ([], [])
           | r :: rest => some ([(⟨r, rest, alv s⟩ : A)], [])) = some (L, lp) →
      Ok (StepOk e s L lp) (returnFin s len) := by
    intro len h
    unfold returnFin
    match hj : s.jstk with
    | [] => trivial
    | r :: rest =>
      rw [hj] at h
      simp only [Option.some.injEq, Prod.mk.injEq] at h
      obtain ⟨rfl, rfl⟩ := h
      refine Or.inl ⟨?_, Or.inl ⟨rfl, rfl⟩⟩
      rw [List.mem_singleton]
      exact abs_eq _ _ _ _ rfl rfl rfl
  unfold returnOp
  match hs : s.stk with
  | [] =>
    have ha : alv s = [] := by unfold alv; rw [hs]; rfl
    rw [ha] at h
    dsimp only at h
    rw [if_pos rfl] at h
    exact fin _ (by rw [ha]; exact h)
  | [t] =>
    have ha : alv s = [(t.set, t.tag.isSome)] := by unfold alv; rw [hs]; rfl
    rw [ha] at h
    dsimp only at h
    rw [if_pos rfl] at h
    exact fin _ (by rw [ha]; exact h)
  | t :: b :: r =>
    have ha : alv s = (t.set, t.tag.isSome) :: (b.set, b.tag.isSome) :: r.map fun l => (l.set, l.tag.isSome) := by
      unfold alv; rw [hs]; rfl
    rw [ha] at h
    dsimp only at h
    split at h
    · rename_i hb
      dsimp only
      rw [hb]
      exact fin _ (by rw [ha]; exact h)
    · simp at h

theorem step_ok (e : Encoder σ) (c : Cfg) (hc : Contract e) (maxlen : Nat) (s : St σ) (L lp : List A)
    (h : anext e.d c (abs s) = some (L, lp)) : Ok (StepOk e s L lp) (step e c maxlen s) := by
  unfold anext at h
  unfold step
  have hpc : (abs s).pc = s.pc := rfl
  have hjs : (abs s).jstk = s.jstk := rfl
  have hlv : (abs s).lv = alv s := rfl
  rw [hpc] at h
  match hm : e.d.machine[s.pc]? with
  | none => trivial
  | some op =>
    rw [hm] at h
    dsimp only at h ⊢
    match ho : opLen op with
    | none => rw [ho] at h; simp at h
    | some l =>
      rw [ho] at h
      dsimp only at h ⊢
      rw [hjs, hlv] at h
      split at h
      · rename_i h1; rw [if_pos h1]; trivial
      · rename_i h1
        rw [if_neg h1]
        split at h
        · rename_i h2
          rw [if_pos h2]
          split at h
          · rename_i t x rest ht hl
            exact leafOp_ok e c hc maxlen op l s L lp t x rest ht hl h
          · simp at h
        · rename_i h2
          rw [if_neg h2]
          split at h
          · rename_i h3; rw [if_pos h3]; exact jumpOp_ok e c op l s L lp h
          · rename_i h3
            rw [if_neg h3]
            split at h
            · rename_i h4; rw [if_pos h4]; exact endOp_ok e hc maxlen op l s L lp h
            · rename_i h4
              rw [if_neg h4]
              unfold ctlOp
              split at h
              · rename_i h5
                rw [if_pos h5]
                split
                · simp only [Option.some.injEq, Prod.mk.injEq] at h
                  obtain ⟨rfl, rfl⟩ := h
                  exact Or.inl ⟨by rw [List.mem_singleton]; rfl, Or.inl ⟨rfl, rfl⟩⟩
                · trivial
              · rename_i h5
                rw [if_neg h5]
                split at h
                · rename_i h6
                  rw [if_pos h6]
                  split <;> trivial
                · rename_i h6
                  rw [if_neg h6]
                  split at h
                  · rename_i h7
                    split at h
                    · rename_i hok
                      rw [Bool.and_eq_true] at hok
                      simp only [Option.some.injEq, Prod.mk.injEq] at h
                      obtain ⟨rfl, rfl⟩ := h
                      split
                      · exact Or.inl ⟨by rw [List.mem_singleton]; rfl, Or.inl ⟨rfl, rfl⟩⟩
                      · apply callAct_ok e hc _ _ _ _ _ _ hok.1
                        intro s' hs'
                        obtain ⟨p1, p2, ⟨x, y, rst, p3, p4, p5⟩, p6⟩ := hs'
                        have hx : x = true := by
                          have := hok.2
                          rw [p3] at this
                          match rst, this with
                          | [], this => simpa [okWrite] using this
                          | _ :: _, this => simp [okWrite] at this; exact this.1
                        rw [p5 hx] at p4
                        rw [hx] at p3
                        refine (writeOut_ok maxlen l s' (by rw [p4, ← p3]; exact hok.2)).mono ?_
                        intro s'' q
                        refine Or.inl ⟨?_, Or.inr ?_⟩
                        · rw [List.mem_singleton]
                          exact abs_eq _ _ _ _ (by rw [q.pc, p1]) (by rw [q.jstk, p2]) (by rw [q.lv, p4, p3])
                        · obtain ⟨a, av, o, o1, o2, o3⟩ := p6
                          exact ⟨a, av, o, o1, by rw [q.ctx, o2], by rw [q.cont, o3]⟩
                    · simp at h
                  · rename_i h7
                    have h7' : ¬ (op = 0x1f ∧ (!s.last) = true) := fun hh => h7 (Or.inr hh.1)
                    rw [if_neg h7', if_neg h7]
                    split at h
                    · rename_i h8; rw [if_pos h8]; exact returnOp_ok e s L lp h
                    · rename_i h8; rw [if_neg h8]; trivial

/-- The position of `a` in the list, counted from its end. -/
theorem closed_suffix {d : Decoder} {c : Cfg} {all : List A} : ∀ {l : List A}, closed d c all l = true → ∀ {a}, a ∈ l →
    ∃ rest L lp, (a :: rest) <:+ l ∧ anext d c a = some (L, lp) ∧ (∀ x ∈ L, x ∈ rest) ∧ (∀ x ∈ lp, x ∈ all)
  | [], _, a, ha => by simp at ha
  | b :: l, h, a, ha => by
    unfold closed at h
    rw [Bool.and_eq_true] at h
    rcases List.mem_cons.1 ha with rfl | ha
    · match hn : anext d c a with
      | none => rw [hn] at h; simp at h
      | some (L, lp) =>
        rw [hn] at h
        simp only [Bool.and_eq_true, List.all_eq_true, decide_eq_true_eq] at h
        exact ⟨l, L, lp, List.suffix_refl _, rfl, h.1.1, h.1.2⟩
    · obtain ⟨rest, L, lp, h1, h2, h3, h4⟩ := closed_suffix h.2 ha
      exact ⟨rest, L, lp, h1.trans (List.suffix_cons _ _), h2, h3, h4⟩

/-- In a checked grammar no run faults, and every state is one of the list. -/
theorem run_ok (e : Encoder σ) (c : Cfg) (hc : Contract e) (h : encCheck e.d c = true) (maxlen : Nat) :
    ∀ (n : Nat) (s : St σ), abs s ∈ states e.d c → Ok (fun s => abs s ∈ states e.d c) (run e c maxlen n s)
  | 0, s, hs => hs
  | n + 1, s, hs => by
    unfold encCheck at h
    rw [Bool.and_eq_true] at h
    obtain ⟨rest, L, lp, h1, h2, h3, h4⟩ := closed_suffix h.2 hs
    have hstep := step_ok e c hc maxlen s L lp h2
    unfold run
    match hst : step e c maxlen s with
    | .next s' =>
      rw [hst] at hstep
      refine run_ok e c hc (by unfold encCheck; rw [h.1, h.2]; rfl) maxlen n s' ?_
      rcases hstep with ⟨hm, _⟩ | ⟨hm, _⟩
      · exact h1.subset (List.mem_cons_of_mem _ (h3 _ hm))
      · exact h4 _ hm
    | .halt r s' => trivial
    | .fault => rw [hst] at hstep; exact hstep.elim

theorem start_mem {d : Decoder} {c : Cfg} (h : encCheck d c = true) (ctx : σ) :
    abs ({ ctx := ctx } : St σ) ∈ states d c := by
  unfold encCheck at h
  rw [Bool.and_eq_true, decide_eq_true_eq] at h
  exact h.1

end LC.Asn1.Gen
