import Verif.Asn1.EncCheck
/-
C90: what the encoder writes is the DER serialisation of a tree whose leaves are the values supplied by the
actions.
-/
namespace LC.Asn1.Gen
open LC.Asn1 LC.Asn1.Enc

/-! ### Specification -/

/-- A value in DER: a primitive (or opaque) one or a constructed one. -/
inductive Tree where
  | leaf (tag : UInt8) (content : List UInt8)
  | node (tag : UInt8) (kids : List Tree)

/-- X.690, 10.1: length octets, for lengths below 2^24. -/
def derLen (n : Nat) : List UInt8 :=
  if n < 128 then [byte n]
  else if n < 256 then [0x81, byte n]
  else if n < 65536 then [0x82, byte (n / 256), byte n]
  else [0x83, byte (n / 65536), byte (n / 256), byte n]

def tlv (t : UInt8) (content : List UInt8) : List UInt8 := t :: (derLen content.length ++ content)

mutual
def ser : Tree → List UInt8
  | .leaf t c => tlv t c
  | .node t ks => tlv t (serL ks)
def serL : List Tree → List UInt8
  | [] => []
  | k :: ks => ser k ++ serL ks
end

mutual
/-- The leaves from left to right. -/
def leaves : Tree → List (UInt8 × List UInt8)
  | .leaf t c => [(t, c)]
  | .node _ ks => leavesL ks
def leavesL : List Tree → List (UInt8 × List UInt8)
  | [] => []
  | k :: ks => leaves k ++ leavesL ks
end

mutual
/-- Contents have a DER length, constructed values have the constructed bit. -/
def WF : Tree → Prop
  | .leaf _ c => c.length < 2 ^ 24
  | .node t ks => t.toNat.testBit 5 = true ∧ (serL ks).length < 2 ^ 24 ∧ WFL ks
def WFL : List Tree → Prop
  | [] => True
  | k :: ks => WF k ∧ WFL ks
end

/-- The values that are not empty. -/
def nonempty (l : List (UInt8 × List UInt8)) : List (UInt8 × List UInt8) := l.filter fun x => !x.2.isEmpty

/-- The values supplied by the actions where bytes are expected, in the order of the calls. -/
def supplied (log : List Val) : List (UInt8 × List UInt8) :=
  nonempty ((log.reverse.filter (·.leaf)).map fun v => (v.tag, v.bytes))

/-! ### Lemmas on trees -/

theorem serL_append (a b : List Tree) : serL (a ++ b) = serL a ++ serL b := by
  induction a with
  | nil => rfl
  | cons x a ih => simp [serL, ih]

theorem leavesL_append (a b : List Tree) : leavesL (a ++ b) = leavesL a ++ leavesL b := by
  induction a with
  | nil => rfl
  | cons x a ih => simp [leavesL, ih]

theorem WFL_append (a b : List Tree) : WFL (a ++ b) ↔ WFL a ∧ WFL b := by
  induction a with
  | nil => simp [WFL]
  | cons x a ih => simp [WFL, ih, and_assoc]

theorem ser_ne (t : Tree) : ser t ≠ [] := by cases t <;> simp [ser, tlv]

theorem serL_nil {a : List Tree} (h : serL a = []) : a = [] := by
  cases a with
  | nil => rfl
  | cons x a => simp [serL] at h; exact absurd h.1 (ser_ne x)

theorem nonempty_append (a b : List (UInt8 × List UInt8)) : nonempty (a ++ b) = nonempty a ++ nonempty b := by
  unfold nonempty; rw [List.filter_append]

theorem supplied_cons (v : Val) (log : List Val) :
    supplied (v :: log) = supplied log ++ (if v.leaf then nonempty [(v.tag, v.bytes)] else []) := by
  unfold supplied
  rw [List.reverse_cons, List.filter_append, List.map_append, nonempty_append]
  congr 1
  cases hv : v.leaf
  · simp [hv, nonempty]
  · simp [hv]

theorem byte_mod_eq {a b : Nat} (h : a % 256 = b % 256) : byte a = byte b := by
  apply UInt8.toNat_inj.1
  unfold byte; simpa using h

theorem encodeLength_derLen {avail n a : Nat} {l : List UInt8} (h : encodeLength avail n = some (l, a)) :
    l = derLen n ∧ n < 2 ^ 24 ∧ avail = a + l.length := by
  unfold encodeLength at h
  unfold derLen
  split at h
  · simp at h
  split at h
  · simp only [Option.some.injEq, Prod.mk.injEq] at h
    rw [if_pos (by omega)]
    exact ⟨h.1.symm, by omega, by rw [← h.1, ← h.2]; simp; omega⟩
  split at h
  · simp at h
  split at h
  · simp only [Option.some.injEq, Prod.mk.injEq] at h
    rw [if_neg (by omega), if_pos (by omega)]
    refine ⟨?_, by omega, by rw [← h.1, ← h.2]; simp; omega⟩
    rw [← h.1, and_ff, byte_mod_eq (a := n % 256) (b := n) (by omega)]
  split at h
  · simp at h
  split at h
  · simp only [Option.some.injEq, Prod.mk.injEq] at h
    rw [if_neg (by omega), if_neg (by omega), if_pos (by omega)]
    refine ⟨?_, by omega, by rw [← h.1, ← h.2]; simp; omega⟩
    rw [← h.1, and_ff, and_ff, Nat.shiftRight_eq_div_pow,
      byte_mod_eq (a := n % 256) (b := n) (by omega), byte_mod_eq (a := n / 2 ^ 8 % 256) (b := n / 256) (by omega)]
  split at h
  · simp at h
  split at h
  · simp at h
  · simp only [Option.some.injEq, Prod.mk.injEq] at h
    rw [if_neg (by omega), if_neg (by omega), if_neg (by omega)]
    refine ⟨?_, by omega, by rw [← h.1, ← h.2]; simp; omega⟩
    rw [← h.1, and_ff, and_ff, and_ff, Nat.shiftRight_eq_div_pow, Nat.shiftRight_eq_div_pow,
      byte_mod_eq (a := n % 256) (b := n) (by omega), byte_mod_eq (a := n / 2 ^ 8 % 256) (b := n / 256) (by omega),
      byte_mod_eq (a := n / 2 ^ 16 % 256) (b := n / 65536) (by omega)]

/-- The length octets of the specification are those of X.690. -/
theorem derLen_isDer (n : Nat) (h : n < 2 ^ 24) : IsDerLen n (derLen n) := by
  unfold IsDerLen derLen
  have hb : ∀ m, (byte m).toNat = m % 256 := byte_mod
  split
  · rfl
  · split
    · exact ⟨[byte n], rfl, by simp, by simp [beVal, hb]; omega, by
        simp only [List.head?_cons, ne_eq, Option.some.injEq]; exact byte_ne_zero (by omega) (by omega)⟩
    · split
      · exact ⟨[byte (n / 256), byte n], rfl, by simp, by simp [beVal, hb]; omega, by
          simp only [List.head?_cons, ne_eq, Option.some.injEq]; exact byte_ne_zero (by omega) (by omega)⟩
      · exact ⟨[byte (n / 65536), byte (n / 256), byte n], rfl, by simp, by simp [beVal, hb]; omega, by
          simp only [List.head?_cons, ne_eq, Option.some.injEq]; exact byte_ne_zero (by omega) (by omega)⟩

theorem writeTlv_ok {maxlen used : Nat} {t : UInt8} {content b : List UInt8}
    (h : writeTlv maxlen used t content = .ok b) :
    b = tlv t content ∧ content.length < 2 ^ 24 ∧ (used ≤ maxlen → used + b.length ≤ maxlen) := by
  unfold writeTlv at h
  split at h
  · simp at h
  · split at h
    · simp at h
    · rename_i l avail hl
      obtain ⟨h1, h2, h3⟩ := encodeLength_derLen hl
      split at h
      · simp at h
      · simp only [Except.ok.injEq] at h
        refine ⟨by rw [← h, h1]; rfl, h2, fun hu => ?_⟩
        rw [← h]
        simp only [List.length_cons, List.length_append]
        omega

theorem writeTlv_err {maxlen used : Nat} {t : UInt8} {content : List UInt8} {r : Int}
    (h : writeTlv maxlen used t content = .error r) : r < 0 := by
  unfold writeTlv at h
  split at h
  · simp at h; rw [← h]; decide
  · split at h
    · simp at h; rw [← h]; decide
    · split at h
      · simp at h; rw [← h]; decide
      · simp at h

/-! ### Invariant -/

variable {σ : Type}

/-- Output and lower levels are serialisations of the forests `f` and `g`. -/
structure Base (maxlen : Nat) (o : List UInt8) (rest : List Lvl) (f : List Tree) (g : List (List Tree)) : Prop where
  out : o = serL f
  len : o.length ≤ maxlen
  bufs : rest.map Lvl.buf = g.map serL
  lens : ∀ l ∈ rest, l.buf.length ≤ maxlen
  tags : ∀ l ∈ rest, ∃ t, l.tag = some t ∧ t.toNat.testBit 5 = true
  wf : WFL f ∧ ∀ x ∈ g, WFL x

/-- All leaves, from the output upwards. -/
def allLeaves (f : List Tree) (g : List (List Tree)) : List (UInt8 × List UInt8) :=
  leavesL (f ++ g.reverse.flatten)

/-- Between two instructions. -/
def Inv (maxlen : Nat) (s : St σ) : Prop :=
  ∃ top rest f g, s.stk = top :: rest ∧ top.buf = [] ∧ Base maxlen s.out rest f g ∧
    nonempty (allLeaves f g) = supplied s.log

/-- Before `write_data_out`: the content of the current level is that of the value `mk`. -/
def Pend (maxlen : Nat) (s : St σ) : Prop :=
  ∃ top rest f g, ∃ mk : UInt8 → Tree, s.stk = top :: rest ∧ Base maxlen s.out rest f g ∧
    (top.buf = [] → nonempty (allLeaves f g) = supplied s.log) ∧
    (top.buf.length < 2 ^ 24 → ∀ t, top.tag = some t → ser (mk t) = tlv t top.buf ∧ WF (mk t) ∧
      nonempty (allLeaves f g) ++ nonempty (leaves (mk t)) = supplied s.log)

/-- `P` of the next state and of the state at the end; errors are negative. -/
def Ok2 (P : St σ → Prop) : Res σ → Prop
  | .next s => P s
  | .halt r s => r < 0 ∨ (r = 0 ∧ P s ∧ s.stk.length = 1)
  | .fault => True

theorem writeOut_inv (maxlen l : Nat) (s : St σ) (h : Pend maxlen s) : Ok2 (Inv maxlen) (writeOut maxlen l s) := by
  obtain ⟨top, rest, f, g, mk, hs, hb, h0, h1⟩ := h
  unfold writeOut
  rw [hs]
  dsimp only
  split
  · trivial
  · split
    · rename_i hz
      have hnil : top.buf = [] := List.length_eq_zero_iff.1 hz.1
      exact ⟨top, rest, f, g, rfl, hnil, hb, h0 hnil⟩
    · match ht : top.tag with
      | none => trivial
      | some t =>
        dsimp only
        match rest, hb, h1 with
        | [], hb, h1 =>
          dsimp only
          match hw : writeTlv maxlen s.out.length t top.buf with
          | .error e => exact Or.inl (writeTlv_err hw)
          | .ok b =>
            obtain ⟨w1, w2, w3⟩ := writeTlv_ok hw
            obtain ⟨k1, k2, k3⟩ := h1 w2 t ht
            have hg : g = [] := by have := hb.bufs; simpa using this.symm
            subst hg
            refine ⟨_, [], f ++ [mk t], [], rfl, rfl, ⟨?_, ?_, rfl, by simp, by simp, ?_⟩, ?_⟩
            · show s.out ++ b = _
              rw [serL_append, hb.out, w1, ← k1]; simp [serL]
            · show (s.out ++ b).length ≤ maxlen
              rw [List.length_append]; exact w3 hb.len
            · exact ⟨by rw [WFL_append]; exact ⟨hb.wf.1, k2, trivial⟩, by simp⟩
            · rw [← k3, ← nonempty_append]
              unfold allLeaves
              simp [leavesL_append, leavesL]
        | below :: rest, hb, h1 =>
          dsimp only
          split
          · trivial
          · match hw : writeTlv maxlen below.buf.length t top.buf with
            | .error e => exact Or.inl (writeTlv_err hw)
            | .ok b =>
              obtain ⟨w1, w2, w3⟩ := writeTlv_ok hw
              obtain ⟨k1, k2, k3⟩ := h1 w2 t ht
              match g, hb, k3 with
              | [], hb, k3 => have := hb.bufs; simp at this
              | g0 :: g, hb, k3 =>
                have hbuf := hb.bufs
                simp only [List.map_cons, List.cons.injEq] at hbuf
                refine ⟨_, { below with buf := below.buf ++ b } :: rest, f, (g0 ++ [mk t]) :: g,
                  rfl, rfl, ⟨hb.out, hb.len, ?_, ?_, ?_, ?_⟩, ?_⟩
                · simp only [List.map_cons, List.cons.injEq]
                  refine ⟨?_, hbuf.2⟩
                  rw [serL_append, hbuf.1, w1, ← k1]; simp [serL]
                · intro x hx
                  rcases List.mem_cons.1 hx with rfl | hx
                  · show (below.buf ++ b).length ≤ maxlen
                    rw [List.length_append]
                    exact w3 (hb.lens below (by simp))
                  · exact hb.lens x (by simp [hx])
                · intro x hx
                  rcases List.mem_cons.1 hx with rfl | hx
                  · exact hb.tags below (by simp)
                  · exact hb.tags x (by simp [hx])
                · refine ⟨hb.wf.1, ?_⟩
                  intro x hx
                  rcases List.mem_cons.1 hx with rfl | hx
                  · rw [WFL_append]; exact ⟨hb.wf.2 g0 (by simp), k2, trivial⟩
                  · exact hb.wf.2 x (by simp [hx])
                · rw [← k3, ← nonempty_append]
                  unfold allLeaves
                  simp [leavesL_append, leavesL]

/-- A call with an empty level, at a place whose bytes are written out. -/
theorem callAct_leaf (e : Encoder σ) (hc : Contract e) (maxlen : Nat) (s : St σ) (i : Nat)
    (k : St σ → Res σ) (h : Inv maxlen s) (P : St σ → Prop)
    (hk : ∀ s', Pend maxlen s' → Ok2 P (k s')) : Ok2 P (callAct e maxlen true s i k) := by
  obtain ⟨top, rest, f, g, hs, h0, hb, h1⟩ := h
  unfold callAct
  split
  · trivial
  · rename_i a _
    split
    · trivial
    · rw [hs]
      dsimp only
      split
      · trivial
      · have hca := hc a s.ctx (maxlen - top.buf.length)
        match he : e.act a s.ctx (maxlen - top.buf.length) with
        | .error r => rw [he] at hca; exact Or.inl hca
        | .ok o =>
          dsimp only
          split
          · trivial
          · apply hk
            refine ⟨_, rest, f, g, fun t => .leaf t o.bytes, rfl, hb, ?_, ?_⟩
            · intro hn
              rw [h0] at hn
              simp only [List.nil_append] at hn
              dsimp only
              rw [supplied_cons, h1, hn]
              simp [nonempty]
            · intro hlen t ht
              rw [h0, List.nil_append] at hlen ⊢
              refine ⟨rfl, hlen, ?_⟩
              dsimp only at ht ⊢
              rw [supplied_cons, h1, ht]
              rfl

/-- A call whose bytes are not used. -/
theorem callAct_drop (e : Encoder σ) (hc : Contract e) (maxlen : Nat) (s : St σ) (i : Nat)
    (k : St σ → Res σ) (P : St σ → Prop) (Q : St σ → St σ → Prop)
    (hQ : ∀ s', s'.out = s.out → s'.stk.tail = s.stk.tail → supplied s'.log = supplied s.log → s'.stk.length = s.stk.length → Q s s')
    (hk : ∀ s', Q s s' → Ok2 P (k s')) : Ok2 P (callAct e maxlen false s i k) := by
  unfold callAct
  split
  · trivial
  · rename_i a _
    split
    · trivial
    · match hs : s.stk with
      | [] => trivial
      | top :: rest =>
        dsimp only
        split
        · trivial
        · have hca := hc a s.ctx (maxlen - top.buf.length)
          match he : e.act a s.ctx (maxlen - top.buf.length) with
          | .error r => rw [he] at hca; exact Or.inl hca
          | .ok o =>
            dsimp only
            split
            · trivial
            · apply hk
              apply hQ
              · rfl
              · rw [hs]; rfl
              · rw [supplied_cons]; simp
              · rw [hs]; rfl

theorem popWrite_inv (maxlen l : Nat) (s : St σ) (top : Lvl) (rest : List Lvl) (f : List Tree) (g : List (List Tree))
    (hs : s.stk = top :: rest) (hb : Base maxlen s.out rest f g) (h1 : nonempty (allLeaves f g) = supplied s.log) :
    Ok2 (Inv maxlen) (popWrite maxlen l s) := by
  unfold popWrite
  rw [hs]
  match rest, g, hb, h1 with
  | [], _, _, _ => exact Or.inl (by decide)
  | _ :: _, [], hb, _ => have := hb.bufs; simp at this
  | below :: rest, g0 :: g, hb, h1 =>
    dsimp only
    apply writeOut_inv
    have hbuf := hb.bufs
    simp only [List.map_cons, List.cons.injEq] at hbuf
    refine ⟨below, rest, f, g, fun t => .node t g0, rfl, ⟨hb.out, hb.len, hbuf.2, fun l hl => hb.lens l (by simp [hl]),
      fun l hl => hb.tags l (by simp [hl]), hb.wf.1, fun x hx => hb.wf.2 x (by simp [hx])⟩, ?_, ?_⟩
    · intro hn
      rw [hbuf.1] at hn
      have := serL_nil hn
      subst this
      rw [← h1]
      unfold allLeaves
      simp
    · intro hlen t ht
      obtain ⟨t', ht', h5⟩ := hb.tags below (by simp)
      rw [ht] at ht'
      simp only [Option.some.injEq] at ht'
      subst ht'
      refine ⟨by rw [hbuf.1]; rfl, ⟨h5, by rw [← hbuf.1]; exact hlen, hb.wf.2 g0 (by simp)⟩, ?_⟩
      show _ = supplied s.log
      rw [← h1, ← nonempty_append]
      unfold allLeaves
      simp [leavesL_append, leaves]

theorem endOp_inv (e : Encoder σ) (hc : Contract e) (maxlen op l : Nat) (s : St σ) (h : Inv maxlen s) :
    Ok2 (Inv maxlen) (endOp e maxlen op l s) := by
  unfold endOp
  split
  · split
    · trivial
    · exact h
  · obtain ⟨top, rest, f, g, hs, h0, hb, h1⟩ := h
    split
    · apply callAct_drop e hc maxlen s _ _ _ (fun s s' => s'.out = s.out ∧ s'.stk.tail = s.stk.tail ∧ supplied s'.log = supplied s.log ∧
          s'.stk.length = s.stk.length)
      · intro s' a b c d; exact ⟨a, b, c, d⟩
      · intro s' ⟨a, b, c, d⟩
        match hs' : s'.stk with
        | [] => rw [hs, hs'] at d; simp at d
        | top' :: rest' =>
          rw [hs, hs'] at b
          simp only [List.tail_cons] at b
          subst b
          exact popWrite_inv maxlen l s' top' rest' f g hs' (by rw [a]; exact hb) (by rw [c]; exact h1)
    · exact popWrite_inv maxlen l s top rest f g hs hb h1

theorem consBit_byte (t : Nat) (h : consBit t = true) : (byte t).toNat.testBit 5 = true := by
  rw [byte_mod]
  rw [show 256 = 2 ^ 8 from rfl, Nat.testBit_mod_two_pow]
  unfold consBit at h
  rw [h]; rfl

/-- Entering a constructed value. -/
theorem push_inv (c : Cfg) (maxlen : Nat) (s : St σ) (top : Lvl) (rest : List Lvl) (f : List Tree) (g : List (List Tree)) (t : Nat)
    (hs : s.stk = top :: rest) (h0 : top.buf = []) (ht : top.tag = some (byte t)) (hcons : consBit t = true)
    (hb : Base maxlen s.out rest f g) (h1 : nonempty (allLeaves f g) = supplied s.log) (k : St σ → Res σ) (P : St σ → Prop)
    (hk : ∀ s', Inv maxlen s' → Ok2 P (k s')) : Ok2 P (push c s k) := by
  unfold push
  split
  · exact Or.inl (by decide)
  · apply hk
    refine ⟨{}, top :: rest, f, [] :: g, by rw [hs], rfl, ⟨hb.out, hb.len, by simp [h0, serL, hb.bufs], ?_, ?_, hb.wf.1, ?_⟩, ?_⟩
    · intro x hx
      rcases List.mem_cons.1 hx with rfl | hx
      · rw [h0]; simp
      · exact hb.lens x hx
    · intro x hx
      rcases List.mem_cons.1 hx with rfl | hx
      · exact ⟨_, ht, consBit_byte t hcons⟩
      · exact hb.tags x hx
    · intro x hx
      rcases List.mem_cons.1 hx with rfl | hx
      · trivial
      · exact hb.wf.2 x hx
    · rw [← h1]; unfold allLeaves; simp

theorem leafOp_inv (e : Encoder σ) (c : Cfg) (hc : Contract e) (maxlen op l : Nat) (s : St σ) (h : Inv maxlen s)
    (hop : ∀ t, e.d.machine[s.pc + 1]? = some t → consBit t = true → isAct op = false) :
    Ok2 (Inv maxlen) (leafOp e c maxlen op l s) := by
  obtain ⟨top, rest, f, g, hs, h0, hb, h1⟩ := h
  unfold leafOp
  match hm : e.d.machine[s.pc + 1]? with
  | none => trivial
  | some t =>
    have hset : setTag true t s = { s with stk := ⟨[], true, some (byte t)⟩ :: rest } := by
      unfold setTag; rw [hs]; rfl
    dsimp only
    rw [hset]
    by_cases hcons : consBit t = true
    · have hna := hop t hm hcons
      have body : ∀ s' : St σ, Inv maxlen s' → Ok2 (Inv maxlen) (leafBody e maxlen op l t s') := by
        intro s' hs'
        unfold leafBody
        rw [hna, hcons]
        simp only [Bool.false_eq_true, if_false, Bool.not_true, Bool.false_and]
        exact hs'
      split
      · exact push_inv c maxlen { s with stk := ⟨[], true, some (byte t)⟩ :: rest } ⟨[], true, some (byte t)⟩ rest f g t rfl rfl rfl
          hcons hb h1 _ _ body
      · exact body _ ⟨_, rest, f, g, rfl, rfl, hb, h1⟩
    · have hcons' : consBit t = false := by simpa using hcons
      rw [hcons', Bool.and_false, if_neg (by simp)]
      have hinv : Inv maxlen { s with stk := ⟨[], true, some (byte t)⟩ :: rest } := ⟨_, rest, f, g, rfl, rfl, hb, h1⟩
      unfold leafBody
      rw [hcons']
      simp only [Bool.not_false, if_true, Bool.true_and]
      split
      · exact callAct_leaf e hc maxlen _ _ _ hinv _ fun s' hs' => writeOut_inv maxlen l s' hs'
      · split
        · apply writeOut_inv
          refine ⟨_, rest, f, g, fun t => .leaf t [], rfl, hb, fun _ => h1, ?_⟩
          intro _ t' _
          exact ⟨rfl, by simp [WF], by rw [h1]; simp [leaves, nonempty]⟩
        · exact hinv

theorem jumpOp_inv (e : Encoder σ) (c : Cfg) (maxlen op l : Nat) (s : St σ) (h : Inv maxlen s) :
    Ok2 (Inv maxlen) (jumpOp e c op l s) := by
  unfold jumpOp
  split
  · exact h
  · split
    · exact Or.inl (by decide)
    · split
      · trivial
      · obtain ⟨top, rest, f, g, hs, h0, hb, h1⟩ := h
        split
        · rename_i t target _ _
          have hset : setTag false t { s with jstk := (s.pc + l) % 256 :: s.jstk } =
              { s with jstk := (s.pc + l) % 256 :: s.jstk, stk := { top with tag := some (byte t) } :: rest } := by
            unfold setTag; rw [hs]; rfl
          dsimp only
          rw [hset]
          split
          · rename_i hcons
            refine push_inv c maxlen { s with jstk := (s.pc + l) % 256 :: s.jstk, stk := { top with tag := some (byte t) } :: rest }
              { top with tag := some (byte t) } rest f g t rfl h0 rfl hcons hb h1 _ (Inv maxlen) ?_
            intro s' hs'
            exact hs'
          · exact ⟨_, rest, f, g, rfl, h0, hb, h1⟩
        · trivial

theorem returnFin_inv (maxlen len : Nat) (s : St σ) (h : Inv maxlen s) : Ok2 (Inv maxlen) (returnFin s len) := by
  unfold returnFin
  split
  · exact Or.inl (by decide)
  · exact h

theorem ctlOp_inv (e : Encoder σ) (hc : Contract e) (maxlen op l : Nat) (s : St σ) (h : Inv maxlen s) :
    Ok2 (Inv maxlen) (ctlOp e maxlen op l s) := by
  unfold ctlOp
  split
  · split
    · exact h
    · exact Or.inl (by decide)
  · split
    · split
      · exact Or.inl (by decide)
      · rename_i hh
        exact Or.inr ⟨rfl, h, by omega⟩
    · split
      · exact h
      · split
        · exact callAct_leaf e hc maxlen s 1 _ h _ fun s' hs' => writeOut_inv maxlen l s' hs'
        · split
          · unfold returnOp
            split
            · split
              · trivial
              · exact returnFin_inv maxlen _ s h
            · exact returnFin_inv maxlen _ s h
          · exact Or.inl (by decide)

/-- The check excludes actions on constructed matches. -/
theorem anext_leaf {d : Decoder} {c : Cfg} {a : A} {x : List A × List A} (h : anext d c a = some x) {op l t : Nat}
    (hm : d.machine[a.pc]? = some op) (ho : opLen op = some l) (hlen : ¬ a.pc + l > d.machine.length) (hop : op ∈ leafOps)
    (ht : d.machine[a.pc + 1]? = some t) (hcons : consBit t = true) : isAct op = false := by
  unfold anext at h
  rw [hm] at h
  dsimp only at h
  rw [ho] at h
  dsimp only at h
  rw [if_neg hlen, if_pos hop, ht] at h
  cases hact : isAct op
  · rfl
  · cases hlv : a.lv with
    | nil => rw [hlv] at h; simp at h
    | cons y ys =>
      rw [hlv] at h
      simp [hact, hcons] at h

theorem step_inv (e : Encoder σ) (c : Cfg) (hc : Contract e) (maxlen : Nat) (s : St σ) (x : List A × List A)
    (ha : anext e.d c (abs s) = some x) (h : Inv maxlen s) : Ok2 (Inv maxlen) (step e c maxlen s) := by
  unfold step
  match hm : e.d.machine[s.pc]? with
  | none => exact Or.inl (by decide)
  | some op =>
    dsimp only
    match ho : opLen op with
    | none => trivial
    | some l =>
      dsimp only
      split
      · exact Or.inl (by decide)
      · rename_i hlen
        split
        · rename_i hop
          exact leafOp_inv e c hc maxlen op l s h fun t ht hcons =>
            anext_leaf (a := abs s) ha hm ho hlen hop ht hcons
        · split
          · exact jumpOp_inv e c maxlen op l s h
          · split
            · exact endOp_inv e hc maxlen op l s h
            · exact ctlOp_inv e hc maxlen op l s h

theorem run_inv (e : Encoder σ) (c : Cfg) (hc : Contract e) (h : encCheck e.d c = true) (maxlen : Nat) :
    ∀ (n : Nat) (s : St σ), abs s ∈ states e.d c → Inv maxlen s → Ok2 (Inv maxlen) (run e c maxlen n s)
  | 0, s, _, hi => hi
  | n + 1, s, hs, hi => by
    have h' := h
    unfold encCheck at h'
    rw [Bool.and_eq_true] at h'
    obtain ⟨rest, L, lp, h1, h2, h3, h4⟩ := closed_suffix h'.2 hs
    have hstep := step_ok e c hc maxlen s L lp h2
    have hinv := step_inv e c hc maxlen s _ h2 hi
    unfold run
    match hst : step e c maxlen s with
    | .next s' =>
      rw [hst] at hstep hinv
      refine run_inv e c hc h maxlen n s' ?_ hinv
      rcases hstep with ⟨hm, _⟩ | ⟨hm, _⟩
      · exact h1.subset (List.mem_cons_of_mem _ (h3 _ hm))
      · exact h4 _ hm
    | .halt r s' => rw [hst] at hinv; exact hinv
    | .fault => trivial

theorem start_inv (maxlen : Nat) (ctx : σ) : Inv maxlen ({ ctx := ctx } : St σ) :=
  ⟨⟨[], false, none⟩, [], [], [], rfl, rfl, ⟨rfl, by simp, rfl, by simp, by simp, trivial, by simp⟩, rfl⟩

end LC.Asn1.Gen
