import Verif.AsconAead.Spec
import Verif.AsconHash.Lemmas
import Verif.Sponge.Lemmas
namespace LC.AsconAead
open LC.Sponge (Byte xorAt extract xorAt_length xorAt_nil xorAt_append)
open Spec (place add absorb masks aadMasks blocks nblk)

theorem place_length (ss off : Nat) (d : List Byte) : (place ss off d).length = ss := by simp [place]

theorem add_length (s m : List Byte) (h : s.length = m.length) : (add s m).length = s.length := by
  simp [add, h]

theorem xorAt_place (s : List Byte) (off : Nat) (d : List Byte) :
    xorAt s off d = add s (place s.length off d) := by
  apply List.ext_getElem
  · simp [xorAt, add, place]
  · intro i h1 h2
    simp [xorAt, add, place]

theorem add_assoc (a b c : List Byte) : add (add a b) c = add a (add b c) := by
  apply List.ext_getElem
  · simp [add, Nat.min_assoc]
  · intro i h1 h2
    simp [add, UInt8.xor_assoc]

theorem add_comm (a b : List Byte) : add a b = add b a := by
  apply List.ext_getElem
  · simp [add]; omega
  · intro i h1 h2
    simp only [add, List.getElem_zipWith]
    exact UInt8.xor_comm ..

theorem xorAt_comm (s : List Byte) (i j : Nat) (a b : List Byte) :
    xorAt (xorAt s i a) j b = xorAt (xorAt s j b) i a := by
  rw [xorAt_place (xorAt s i a), xorAt_place (xorAt s j b), xorAt_length, xorAt_length, xorAt_place s i a,
    xorAt_place s j b, add_assoc, add_assoc, add_comm (place _ i a)]

/-! ### Byte by byte -/

variable {cf : Cfg}

/-- Byte-wise encryption: permute when a further byte arrives at a full block. -/
def bytes (cf : Cfg) : List Byte → Nat → List Byte → List Byte × Nat × List Byte
  | s, off, [] => (s, off, [])
  | s, off, b :: x =>
    let s' := if off = cf.rate then cf.pB s else s
    let o := if off = cf.rate then 0 else off
    let s'' := xorAt s' o [b]
    let r := bytes cf s'' (o + 1) x
    (r.1, r.2.1, s''.getD o 0 :: r.2.2)

/-- Byte-wise decryption. -/
def unbytes (cf : Cfg) : List Byte → Nat → List Byte → List Byte × Nat × List Byte
  | s, off, [] => (s, off, [])
  | s, off, b :: x =>
    let s' := if off = cf.rate then cf.pB s else s
    let o := if off = cf.rate then 0 else off
    let p := s'.getD o 0 ^^^ b
    let r := unbytes cf (xorAt s' o [p]) (o + 1) x
    (r.1, r.2.1, p :: r.2.2)

theorem bytes_append (cf : Cfg) : ∀ (x y s : List Byte) (off : Nat),
    bytes cf s off (x ++ y) =
      ((bytes cf (bytes cf s off x).1 (bytes cf s off x).2.1 y).1,
       (bytes cf (bytes cf s off x).1 (bytes cf s off x).2.1 y).2.1,
       (bytes cf s off x).2.2 ++ (bytes cf (bytes cf s off x).1 (bytes cf s off x).2.1 y).2.2)
  | [], y, s, off => by simp [bytes]
  | b :: x, y, s, off => by
    simp only [List.cons_append, bytes, bytes_append cf x y]

theorem unbytes_append (cf : Cfg) : ∀ (x y s : List Byte) (off : Nat),
    unbytes cf s off (x ++ y) =
      ((unbytes cf (unbytes cf s off x).1 (unbytes cf s off x).2.1 y).1,
       (unbytes cf (unbytes cf s off x).1 (unbytes cf s off x).2.1 y).2.1,
       (unbytes cf s off x).2.2 ++ (unbytes cf (unbytes cf s off x).1 (unbytes cf s off x).2.1 y).2.2)
  | [], y, s, off => by simp [unbytes]
  | b :: x, y, s, off => by
    simp only [List.cons_append, unbytes, unbytes_append cf x y]

theorem getD_xorAt_sing (s : List Byte) (o : Nat) (b : Byte) (h : o < s.length) :
    (xorAt s o [b]).getD o 0 = s.getD o 0 ^^^ b := by
  simp [xorAt, List.getD_eq_getElem?_getD, h]

/-- Sizes used throughout: a positive rate below the state size, permutations on states. -/
structure Cfg.Ok (cf : Cfg) : Prop where
  pos : 0 < cf.rate
  lt : cf.rate < cf.ss
  pA : ∀ s, s.length = cf.ss → (cf.pA s).length = cf.ss
  pB : ∀ s, s.length = cf.ss → (cf.pB s).length = cf.ss

theorem bytes_inv (hc : cf.Ok) : ∀ (x s : List Byte) (off : Nat), s.length = cf.ss → off ≤ cf.rate →
    (bytes cf s off x).1.length = cf.ss ∧ (bytes cf s off x).2.1 ≤ cf.rate ∧
      (bytes cf s off x).2.2.length = x.length
  | [], s, off, h, ho => ⟨h, ho, rfl⟩
  | b :: x, s, off, h, ho => by
    have := hc.pos
    simp only [bytes, List.length_cons]
    by_cases e : off = cf.rate
    · simp only [e, if_pos]
      have := bytes_inv hc x (xorAt (cf.pB s) 0 [b]) (0 + 1) (by rw [xorAt_length]; exact hc.pB s h) (by omega)
      omega
    · simp only [if_neg e]
      have := bytes_inv hc x (xorAt s off [b]) (off + 1) (by rw [xorAt_length]; exact h) (by omega)
      omega

/-- Decryption undoes encryption and passes through the same states. -/
theorem unbytes_bytes (hc : cf.Ok) : ∀ (x s : List Byte) (off : Nat), s.length = cf.ss → off ≤ cf.rate →
    unbytes cf s off (bytes cf s off x).2.2 = ((bytes cf s off x).1, (bytes cf s off x).2.1, x)
  | [], s, off, h, ho => rfl
  | b :: x, s, off, h, ho => by
    have hlt := hc.lt
    have hpos := hc.pos
    have key : ∀ (t : List Byte) (o : Nat), t.length = cf.ss → o < cf.rate →
        t.getD o 0 ^^^ (xorAt t o [b]).getD o 0 = b := by
      intro t o ht ho'
      rw [getD_xorAt_sing t o b (by omega), ← UInt8.xor_assoc, UInt8.xor_self, UInt8.zero_xor]
    simp only [bytes, unbytes]
    by_cases e : off = cf.rate
    · simp only [e, if_pos]
      rw [key _ 0 (hc.pB s h) hpos,
        unbytes_bytes hc x (xorAt (cf.pB s) 0 [b]) (0 + 1) (by rw [xorAt_length]; exact hc.pB s h) (by omega)]
    · simp only [if_neg e]
      rw [key _ off h (by omega),
        unbytes_bytes hc x (xorAt s off [b]) (off + 1) (by rw [xorAt_length]; exact h) (by omega)]

theorem extract_cons (s : List Byte) (off n : Nat) (h : off < s.length) :
    extract s off (n + 1) = s.getD off 0 :: extract s (off + 1) n := by
  unfold extract
  rw [List.drop_eq_getElem_cons h, List.take_succ_cons, List.getD_eq_getElem?_getD, List.getElem?_eq_getElem h]
  rfl

theorem getD_xorAt_behind (s : List Byte) (o k : Nat) (d : List Byte) (h : o < k) :
    (xorAt s k d).getD o 0 = s.getD o 0 := by
  simp only [xorAt, List.getD_eq_getElem?_getD, List.getElem?_mapIdx]
  cases s[o]? with
  | none => rfl
  | some v => simp [if_neg (by omega : ¬ k ≤ o)]

theorem bytes_run (hc : cf.Ok) : ∀ (x s : List Byte) (off : Nat), s.length = cf.ss → off + x.length ≤ cf.rate →
    bytes cf s off x = (xorAt s off x, off + x.length, extract (xorAt s off x) off x.length)
  | [], s, off, h, ho => by simp [bytes, xorAt_nil, extract]
  | b :: x, s, off, h, ho => by
    have hlt := hc.lt
    simp only [List.length_cons] at ho
    have hs : xorAt s off (b :: x) = xorAt (xorAt s off [b]) (off + 1) x := xorAt_append s off [b] x
    simp only [bytes, if_neg (by omega : ¬ off = cf.rate), List.length_cons]
    rw [bytes_run hc x _ (off + 1) (by rw [xorAt_length]; exact h) (by omega),
      extract_cons _ _ _ (by rw [xorAt_length, h]; omega), hs, getD_xorAt_behind _ off (off + 1) x (by omega),
      show off + 1 + x.length = off + (x.length + 1) by omega]

theorem bytes_full (cf : Cfg) (s : List Byte) (x : List Byte) (hx : x ≠ []) (hp : 0 < cf.rate) :
    bytes cf s cf.rate x = bytes cf (cf.pB s) 0 x := by
  cases x with
  | nil => exact absurd rfl hx
  | cons b x => simp only [bytes, if_pos]; rw [if_neg (by omega), if_neg (by omega)]

theorem encLoop_bytes (hc : cf.Ok) : ∀ (fuel : Nat) (s : List Byte) (off : Nat) (x : List Byte),
    s.length = cf.ss → off ≤ cf.rate → x.length + (if off = cf.rate then 1 else 0) ≤ fuel →
    encLoop cf fuel s off x = bytes cf s off x
  | 0, s, off, x, h, ho, hf => by
    have : x = [] := List.eq_nil_of_length_eq_zero (by omega)
    subst this; rfl
  | fuel + 1, s, off, x, h, ho, hf => by
    have hlt := hc.lt
    have hpos := hc.pos
    unfold encLoop
    by_cases hx : x.length = 0
    · have : x = [] := List.eq_nil_of_length_eq_zero hx
      subst this; rfl
    · rw [if_neg hx]
      dsimp only
      have ht : (x.take (min x.length (cf.rate - off))).length = min x.length (cf.rate - off) := by
        rw [List.length_take]; omega
      have hrun := bytes_run hc (x.take (min x.length (cf.rate - off))) s off h (by rw [ht]; omega)
      rw [ht] at hrun
      by_cases hm : x.length - min x.length (cf.rate - off) ≠ 0
      · rw [if_pos hm]
        have ho' : off + min x.length (cf.rate - off) = cf.rate := by omega
        rw [ho'] at hrun
        have e : bytes cf s off x = bytes cf s off (x.take (min x.length (cf.rate - off)) ++
            x.drop (min x.length (cf.rate - off))) := by rw [List.take_append_drop]
        have hne : x.drop (min x.length (cf.rate - off)) ≠ [] := by
          intro h'; have := congrArg List.length h'; rw [List.length_drop] at this; simp at this; omega
        rw [e, bytes_append, hrun]
        dsimp only
        rw [bytes_full cf _ _ hne hpos, encLoop_bytes hc fuel _ 0 _
          (hc.pB _ (by rw [xorAt_length]; exact h)) (by omega)
          (by rw [List.length_drop, if_neg (by omega)]; split at hf <;> omega)]
      · rw [if_neg hm]
        have hall : min x.length (cf.rate - off) = x.length := by omega
        rw [hall] at hrun ⊢
        rw [List.take_length] at hrun ⊢
        rw [hrun]

/-! ### Decryption loop -/

theorem newstate_eq (s : List Byte) (off : Nat) (c : List Byte) (h : off + c.length ≤ s.length) :
    newstate s off c = xorAt s off (Sym.xorb (extract s off c.length) c) := by
  apply List.ext_getElem
  · simp [newstate, xorAt]
  · intro i h1 h2
    simp only [newstate, List.length_mapIdx] at h1
    simp only [newstate, xorAt, List.getElem_mapIdx]
    by_cases ho : off ≤ i
    · rw [if_pos ho, if_pos ho]
      by_cases hi : i - off < c.length
      · have e1 : c.getD (i - off) s[i] = c[i - off] := by
          rw [List.getD_eq_getElem?_getD, List.getElem?_eq_getElem hi]; rfl
        have hl : i - off < (Sym.xorb (extract s off c.length) c).length := by
          simp [Sym.xorb, extract]; omega
        have e2 : (Sym.xorb (extract s off c.length) c).getD (i - off) 0 = s[i] ^^^ c[i - off] := by
          rw [List.getD_eq_getElem?_getD, List.getElem?_eq_getElem hl, Option.getD_some]
          simp only [Sym.xorb, extract, List.getElem_zipWith, List.getElem_take, List.getElem_drop]
          have : off + (i - off) = i := by omega
          simp only [this]
        rw [e1, e2, ← UInt8.xor_assoc, UInt8.xor_self, UInt8.zero_xor]
      · have e1 : c.getD (i - off) s[i] = s[i] := by
          rw [List.getD_eq_getElem?_getD, List.getElem?_eq_none (by omega)]; rfl
        have e2 : (Sym.xorb (extract s off c.length) c).getD (i - off) 0 = 0 := by
          rw [List.getD_eq_getElem?_getD, List.getElem?_eq_none (by simp [Sym.xorb, extract]; omega)]; rfl
        rw [e1, e2, UInt8.xor_zero]
    · rw [if_neg ho, if_neg ho, UInt8.xor_zero]

theorem extract_behind (s : List Byte) (o k n : Nat) (b : Byte) (h : o < k) :
    extract (xorAt s o [b]) k n = extract s k n := by
  apply List.ext_getElem
  · simp [extract, xorAt]
  · intro i h1 h2
    simp only [extract, List.getElem_take, List.getElem_drop, xorAt, List.getElem_mapIdx]
    rw [if_pos (by omega)]
    have : [b].getD (k + i - o) 0 = 0 := by
      rw [List.getD_eq_getElem?_getD, List.getElem?_eq_none (by simp; omega)]; rfl
    rw [this, UInt8.xor_zero]

theorem unbytes_run (hc : cf.Ok) : ∀ (x s : List Byte) (off : Nat), s.length = cf.ss → off + x.length ≤ cf.rate →
    unbytes cf s off x = (xorAt s off (Sym.xorb (extract s off x.length) x), off + x.length,
      Sym.xorb (extract s off x.length) x)
  | [], s, off, h, ho => by simp [unbytes, xorAt_nil, extract, Sym.xorb]
  | b :: x, s, off, h, ho => by
    have hlt := hc.lt
    simp only [List.length_cons] at ho
    simp only [unbytes, if_neg (by omega : ¬ off = cf.rate), List.length_cons]
    have e : Sym.xorb (extract s off (x.length + 1)) (b :: x) =
        (s.getD off 0 ^^^ b) :: Sym.xorb (extract s (off + 1) x.length) x := by
      rw [extract_cons s off _ (by omega)]; rfl
    rw [unbytes_run hc x _ (off + 1) (by rw [xorAt_length]; exact h) (by omega), e,
      extract_behind s off (off + 1) _ _ (by omega)]
    have := xorAt_append s off [s.getD off 0 ^^^ b] (Sym.xorb (extract s (off + 1) x.length) x)
    simp only [List.singleton_append, List.length_singleton] at this
    rw [this, show off + 1 + x.length = off + (x.length + 1) by omega]

theorem unbytes_full (cf : Cfg) (s : List Byte) (x : List Byte) (hx : x ≠ []) (hp : 0 < cf.rate) :
    unbytes cf s cf.rate x = unbytes cf (cf.pB s) 0 x := by
  cases x with
  | nil => exact absurd rfl hx
  | cons b x => simp only [unbytes, if_pos]; rw [if_neg (by omega), if_neg (by omega)]

theorem decLoop_bytes (hc : cf.Ok) : ∀ (fuel : Nat) (s : List Byte) (off : Nat) (x : List Byte),
    s.length = cf.ss → off ≤ cf.rate → x.length + (if off = cf.rate then 1 else 0) ≤ fuel →
    decLoop cf fuel s off x = unbytes cf s off x
  | 0, s, off, x, h, ho, hf => by
    have : x = [] := List.eq_nil_of_length_eq_zero (by omega)
    subst this; rfl
  | fuel + 1, s, off, x, h, ho, hf => by
    have hlt := hc.lt
    have hpos := hc.pos
    unfold decLoop
    by_cases hx : x.length = 0
    · have : x = [] := List.eq_nil_of_length_eq_zero hx
      subst this; rfl
    · rw [if_neg hx]
      dsimp only
      have ht : (x.take (min x.length (cf.rate - off))).length = min x.length (cf.rate - off) := by
        rw [List.length_take]; omega
      have hrun := unbytes_run hc (x.take (min x.length (cf.rate - off))) s off h (by rw [ht]; omega)
      rw [ht] at hrun
      by_cases hm : x.length - min x.length (cf.rate - off) ≠ 0
      · rw [if_pos hm]
        have ho' : off + min x.length (cf.rate - off) = cf.rate := by omega
        rw [ho'] at hrun
        have e : unbytes cf s off x = unbytes cf s off (x.take (min x.length (cf.rate - off)) ++
            x.drop (min x.length (cf.rate - off))) := by rw [List.take_append_drop]
        have hne : x.drop (min x.length (cf.rate - off)) ≠ [] := by
          intro h'; have := congrArg List.length h'; rw [List.length_drop] at this; simp at this; omega
        rw [e, unbytes_append, hrun]
        dsimp only
        rw [newstate_eq s off _ (by rw [ht]; omega), ht, unbytes_full cf _ _ hne hpos,
          decLoop_bytes hc fuel _ 0 _ (hc.pB _ (by rw [xorAt_length]; exact h)) (by omega)
          (by rw [List.length_drop, if_neg (by omega)]; split at hf <;> omega)]
      · rw [if_neg hm]
        have hall : min x.length (cf.rate - off) = x.length := by omega
        rw [hall] at hrun ⊢
        rw [List.take_length] at hrun ⊢
        rw [hrun]

/-! ### Calls -/

theorem encUpdate_eq (hc : cf.Ok) (c : Ctx) (hs : c.state.length = cf.ss) (ho : c.off ≤ cf.rate) (x : List Byte) :
    encUpdate cf c x = ({ c with state := (bytes cf c.state c.off x).1, off := (bytes cf c.state c.off x).2.1 },
      (bytes cf c.state c.off x).2.2) := by
  unfold encUpdate
  rw [encLoop_bytes hc _ _ _ _ hs ho (by split <;> omega)]

theorem decUpdate_eq (hc : cf.Ok) (c : Ctx) (hs : c.state.length = cf.ss) (ho : c.off ≤ cf.rate) (x : List Byte) :
    decUpdate cf c x = ({ c with state := (unbytes cf c.state c.off x).1, off := (unbytes cf c.state c.off x).2.1 },
      (unbytes cf c.state c.off x).2.2) := by
  unfold decUpdate
  rw [decLoop_bytes hc _ _ _ _ hs ho (by split <;> omega)]

theorem encCalls_eq (hc : cf.Ok) : ∀ (xs : List (List Byte)) (c : Ctx), c.state.length = cf.ss → c.off ≤ cf.rate →
    encCalls cf c xs = encUpdate cf c xs.flatten
  | [], c, hs, ho => by rw [encUpdate_eq hc c hs ho]; rfl
  | x :: xs, c, hs, ho => by
    have hi := bytes_inv hc x c.state c.off hs ho
    rw [encUpdate_eq hc c hs ho, List.flatten_cons, bytes_append]
    simp only [encCalls]
    rw [encUpdate_eq hc c hs ho x]
    dsimp only
    rw [encCalls_eq hc xs _ hi.1 hi.2.1, encUpdate_eq hc _ hi.1 hi.2.1]

theorem unbytes_inv (hc : cf.Ok) : ∀ (x s : List Byte) (off : Nat), s.length = cf.ss → off ≤ cf.rate →
    (unbytes cf s off x).1.length = cf.ss ∧ (unbytes cf s off x).2.1 ≤ cf.rate
  | [], s, off, h, ho => ⟨h, ho⟩
  | b :: x, s, off, h, ho => by
    have := hc.pos
    simp only [unbytes]
    by_cases e : off = cf.rate
    · simp only [e, if_pos]
      exact unbytes_inv hc x _ (0 + 1) (by rw [xorAt_length]; exact hc.pB s h) (by omega)
    · simp only [if_neg e]
      exact unbytes_inv hc x _ (off + 1) (by rw [xorAt_length]; exact h) (by omega)

theorem decCalls_eq (hc : cf.Ok) : ∀ (xs : List (List Byte)) (c : Ctx), c.state.length = cf.ss → c.off ≤ cf.rate →
    decCalls cf c xs = decUpdate cf c xs.flatten
  | [], c, hs, ho => by rw [decUpdate_eq hc c hs ho]; rfl
  | x :: xs, c, hs, ho => by
    have hi := unbytes_inv hc x c.state c.off hs ho
    rw [decUpdate_eq hc c hs ho, List.flatten_cons, unbytes_append]
    simp only [decCalls]
    rw [decUpdate_eq hc c hs ho x]
    dsimp only
    rw [decCalls_eq hc xs _ hi.1 hi.2, decUpdate_eq hc _ hi.1 hi.2]

/-! ### Associated data -/

theorem absorb_length (hc : cf.Ok) (s m : List Byte) (hs : s.length = cf.ss) (hm : m.length = cf.ss) :
    (absorb cf s m).length = cf.ss := hc.pB _ (by rw [add_length _ _ (by omega)]; exact hs)

theorem foldl_absorb_length (hc : cf.Ok) : ∀ (ms : List (List Byte)) (s : List Byte), s.length = cf.ss →
    (∀ m ∈ ms, m.length = cf.ss) → (ms.foldl (absorb cf) s).length = cf.ss
  | [], _, hs, _ => hs
  | m :: ms, s, hs, hm => foldl_absorb_length hc ms _ (absorb_length hc s m hs (hm m (by simp)))
      (fun m' h => hm m' (by simp [h]))

theorem masks_length (n : Nat) (x : List Byte) : ∀ m ∈ masks cf n x, m.length = cf.ss := by
  intro m hm
  obtain ⟨b, _, rfl⟩ := List.mem_map.1 hm
  exact place_length ..

theorem aadLoop_eq (hc : cf.Ok) : ∀ (fuel : Nat) (s a : List Byte), s.length = cf.ss → a.length ≤ fuel →
    cf.pB (padByte cf (xorAt (aadLoop cf fuel s a).1 0 (aadLoop cf fuel s a).2) (aadLoop cf fuel s a).2.length) =
      (aadMasks cf a).foldl (absorb cf) s
  | fuel, s, a, hs, hf => by
    have hpos := hc.pos
    have hlt := hc.lt
    by_cases hr : cf.rate ≤ a.length
    · cases fuel with
      | zero => omega
      | succ fuel =>
        have ih := aadLoop_eq hc fuel (cf.pB (xorAt s 0 (a.take cf.rate))) (a.drop cf.rate)
          (hc.pB _ (by rw [xorAt_length]; exact hs)) (by rw [List.length_drop]; omega)
        simp only [aadLoop, if_pos hr]
        rw [ih]
        unfold aadMasks masks
        have hd : a.length / cf.rate + 1 = (a.drop cf.rate).length / cf.rate + 1 + 1 := by
          have := Nat.add_div_right (a.length - cf.rate) hpos
          rw [Nat.sub_add_cancel hr] at this
          rw [List.length_drop, this]
        rw [hd]
        simp only [blocks, List.map_cons, List.foldl_cons]
        rw [List.take_append_of_le_length hr, List.drop_append_of_le_length hr]
        rw [xorAt_place, hs]
        rfl
    · have hl : aadLoop cf fuel s a = (s, a) := by
        cases fuel with
        | zero => rfl
        | succ fuel => simp only [aadLoop, if_neg hr]
      rw [hl]
      unfold aadMasks masks
      rw [Nat.div_eq_of_lt (by omega)]
      simp only [blocks, List.map_cons, List.map_nil, List.foldl_cons, List.foldl_nil, padByte,
        if_neg (by omega : ¬ a.length = cf.rate)]
      rw [List.take_of_length_le (by simp; omega)]
      have := xorAt_append s 0 a [0x01]
      rw [Nat.zero_add] at this
      rw [← this, absorb, xorAt_place, hs]

theorem aad_eq (hc : cf.Ok) (c : Ctx) (hs : c.state.length = cf.ss) (a : List Byte) :
    aad cf c a = if a = [] then c else
      { c with state := add ((aadMasks cf a).foldl (absorb cf) c.state) (place cf.ss (cf.ss - 1) [0x80]) } := by
  unfold aad
  by_cases h : a = []
  · subst h; rfl
  · rw [if_neg h, if_neg (by intro e; exact h (List.eq_nil_of_length_eq_zero e))]
    dsimp only
    rw [aadLoop_eq hc _ _ _ hs (Nat.le_refl _), xorAt_place,
      foldl_absorb_length hc (aadMasks cf a) _ hs (masks_length _ _)]

theorem aad_inv (hc : cf.Ok) (c : Ctx) (hs : c.state.length = cf.ss) (a : List Byte) :
    (aad cf c a).state.length = cf.ss ∧ (aad cf c a).off = c.off ∧ (aad cf c a).key = c.key ∧
      (aad cf c a).taglen = c.taglen := by
  rw [aad_eq hc c hs]
  split
  · exact ⟨hs, rfl, rfl, rfl⟩
  · refine ⟨?_, rfl, rfl, rfl⟩
    have := foldl_absorb_length hc (aadMasks cf a) _ hs (masks_length _ _)
    rw [add_length _ _ (by rw [place_length]; exact this), this]

/-! ### Blocks -/

theorem nblk_small (hc : cf.Ok) (p : List Byte) (h : p.length ≤ cf.rate) : nblk cf.rate p = 1 := by
  have := hc.pos
  unfold nblk
  split
  · rfl
  · rename_i hne
    have : 0 < p.length := List.length_pos_iff.2 hne
    have e : p.length + cf.rate - 1 = cf.rate + (p.length - 1) := by omega
    rw [e, Nat.add_div_left _ hc.pos, Nat.div_eq_of_lt (by omega)]

theorem nblk_large (hc : cf.Ok) (p : List Byte) (h : cf.rate < p.length) :
    nblk cf.rate p = nblk cf.rate (p.drop cf.rate) + 1 := by
  have := hc.pos
  have hne : p ≠ [] := by intro e; subst e; simp at h
  have hne2 : p.drop cf.rate ≠ [] := by
    intro e; have := congrArg List.length e; rw [List.length_drop] at this; simp at this; omega
  unfold nblk
  rw [if_neg hne, if_neg hne2, List.length_drop]
  have e : p.length + cf.rate - 1 = (p.length - cf.rate + cf.rate - 1) + cf.rate := by omega
  rw [e, Nat.add_div_right _ hc.pos]

/-- The state after the unconditional permutation of the final call, and the pad position. -/
theorem bytes_blocks (hc : cf.Ok) : ∀ (n : Nat) (s p : List Byte), p.length ≤ n → s.length = cf.ss →
    cf.pB (bytes cf s 0 p).1 = (masks cf (nblk cf.rate p) p).foldl (absorb cf) s ∧
      (if (bytes cf s 0 p).2.1 = cf.rate then 0 else (bytes cf s 0 p).2.1) = p.length % cf.rate
  | n, s, p, hn, hs => by
    have hpos := hc.pos
    by_cases h : p.length ≤ cf.rate
    · rw [nblk_small hc p h, bytes_run hc p s 0 hs (by omega)]
      simp only [masks, blocks, List.map_cons, List.map_nil, List.foldl_cons, List.foldl_nil, Nat.zero_add]
      rw [List.take_of_length_le h, absorb, xorAt_place, hs]
      refine ⟨rfl, ?_⟩
      by_cases e : p.length = cf.rate
      · rw [if_pos e, e, Nat.mod_self]
      · rw [if_neg e, Nat.mod_eq_of_lt (by omega)]
    · cases n with
      | zero => omega
      | succ n =>
        have ht : (p.take cf.rate).length = cf.rate := by rw [List.length_take]; omega
        have hne : p.drop cf.rate ≠ [] := by
          intro e; have := congrArg List.length e; rw [List.length_drop] at this; simp at this; omega
        have hrun := bytes_run hc (p.take cf.rate) s 0 hs (by omega)
        rw [ht, Nat.zero_add] at hrun
        have e : bytes cf s 0 p = bytes cf s 0 (p.take cf.rate ++ p.drop cf.rate) := by
          rw [List.take_append_drop]
        rw [e, bytes_append, hrun]
        dsimp only
        rw [bytes_full cf _ _ hne hpos]
        obtain ⟨i1, i2⟩ := bytes_blocks hc n (cf.pB (xorAt s 0 (p.take cf.rate))) (p.drop cf.rate)
          (by rw [List.length_drop]; omega) (hc.pB _ (by rw [xorAt_length]; exact hs))
        rw [i1, i2, nblk_large hc p (by omega)]
        simp only [masks, blocks, List.map_cons, List.foldl_cons]
        rw [xorAt_place, hs]
        refine ⟨rfl, ?_⟩
        rw [List.length_drop]
        exact (Nat.mod_eq_sub_mod (by omega)).symm

end LC.AsconAead
