import Verif.AsconAead.Lemmas
import Verif.Sponge.Props
/-
C22, and C19-C21 for the Ascon AEAD.
-/
namespace LC.AsconAead
open LC.Sponge (xorAt extract xorAt_length xorAt_nil xorAt_append)
open Spec (place add absorb masks aadMasks blocks nblk trace)

variable {cf : Cfg}

/-! ### C22: streaming -/

/-- C22: for every chunking of the plaintext, ciphertext and tag are those of the one-shot call. -/
theorem enc_streaming (hc : cf.Ok) (c : Ctx) (hs : c.state.length = cf.ss) (ho : c.off ≤ cf.rate)
    (a : List Byte) (xs : List (List Byte)) (old : List Byte) :
    encSession cf c a xs old = encOneshot cf c a xs.flatten old := by
  have h := aad_inv hc c hs a
  unfold encSession encOneshot
  rw [encCalls_eq hc xs _ h.1 (by rw [h.2.1]; exact ho)]

/-- C22: the same for decryption. -/
theorem dec_streaming (hc : cf.Ok) (c : Ctx) (hs : c.state.length = cf.ss) (ho : c.off ≤ cf.rate)
    (a : List Byte) (xs : List (List Byte)) (tag : List Byte) :
    decSession cf c a xs tag = decOneshot cf c a xs.flatten tag := by
  have h := aad_inv hc c hs a
  unfold decSession decOneshot
  rw [decCalls_eq hc xs _ h.1 (by rw [h.2.1]; exact ho)]

/-! ### C19: round trip -/

theorem finalization_length (hc : cf.Ok) (s key : List Byte) (hs : s.length = cf.ss) (n : Nat) (hn : n ≤ cf.ss) :
    (finalization cf s key n).2.length = n := by
  have : (cf.pA (xorAt s cf.rate key)).length = cf.ss := hc.pA _ (by rw [xorAt_length]; exact hs)
  simp only [finalization, extract, List.length_take, List.length_drop, xorAt_length, this]
  omega

/-- C19: an honest ciphertext and tag, decrypted in any chunking, give the plaintext and 0. -/
theorem roundtrip (hc : cf.Ok) (c : Ctx) (hs : c.state.length = cf.ss) (ho : c.off ≤ cf.rate)
    (ht : c.taglen ≤ cf.ss) (a : List Byte) (xs ys : List (List Byte)) (old : List Byte)
    (hl : old.length = c.taglen) (hy : ys.flatten = (encSession cf c a xs old).1) :
    decSession cf c a ys (encSession cf c a xs old).2 = (xs.flatten, 0) := by
  obtain ⟨h1, h2, h3, h4⟩ := aad_inv hc c hs a
  rw [dec_streaming hc c hs ho, hy, enc_streaming hc c hs ho]
  have ho' : (aad cf c a).off ≤ cf.rate := by omega
  have hi := bytes_inv hc xs.flatten _ _ h1 ho'
  have hb := unbytes_bytes hc xs.flatten _ _ h1 ho'
  simp only [encOneshot, decOneshot, encUpdate_eq hc _ h1 ho', decUpdate_eq hc _ h1 ho', hb, encFinal, decFinal]
  have hfl := finalization_length hc
    (padByte cf (cf.pB (bytes cf (aad cf c a).state (aad cf c a).off xs.flatten).1)
      (bytes cf (aad cf c a).state (aad cf c a).off xs.flatten).2.1) (aad cf c a).key
    (by unfold padByte; rw [xorAt_length]; exact hc.pB _ hi.1) c.taglen ht
  rw [h4, hl]
  simp only [ne_eq, not_true_eq_false, if_false, hfl, if_true]

/-! ### C20: acceptance -/

/-- C20: decryption returns 0 exactly if the tag is the one that encryption of the released
plaintext with this AAD produces; a tag of another length gives -EINVAL, any other tag -EBADMSG. -/
theorem accept_iff (hc : cf.Ok) (c : Ctx) (hs : c.state.length = cf.ss) (ho : c.off ≤ cf.rate)
    (a : List Byte) (ys : List (List Byte)) (tag : List Byte) :
    (decSession cf c a ys tag).2 =
      if tag.length ≠ c.taglen then -22
      else if tag = (encSession cf c a [(decSession cf c a ys tag).1] (List.replicate c.taglen 0)).2 then 0
      else -74 := by
  obtain ⟨h1, h2, h3, h4⟩ := aad_inv hc c hs a
  have ho' : (aad cf c a).off ≤ cf.rate := by omega
  rw [dec_streaming hc c hs ho, enc_streaming hc c hs ho, List.flatten_singleton]
  by_cases hl : tag.length ≠ c.taglen
  · rw [if_pos hl]
    simp only [decOneshot, decUpdate_eq hc _ h1 ho', decFinal, h4, if_pos hl]
  · rw [if_neg hl]
    have key : ∀ (x s : List Byte) (off : Nat), s.length = cf.ss → off ≤ cf.rate →
        bytes cf s off (unbytes cf s off x).2.2 = ((unbytes cf s off x).1, (unbytes cf s off x).2.1, x) := by
      intro x
      have hlt := hc.lt
      have hpos := hc.pos
      induction x with
      | nil => intro s off _ _; rfl
      | cons b x ih =>
        intro s off hs ho
        have hk : ∀ (t : List Byte) (o : Nat), t.length = cf.ss → o < cf.rate →
            (xorAt t o [t.getD o 0 ^^^ b]).getD o 0 = b := by
          intro t o ht ho'
          rw [getD_xorAt_sing t o _ (by omega), ← UInt8.xor_assoc, UInt8.xor_self, UInt8.zero_xor]
        simp only [bytes, unbytes]
        by_cases e : off = cf.rate
        · simp only [e, if_pos]
          rw [ih _ _ (by rw [xorAt_length]; exact hc.pB s hs) (by omega), hk _ 0 (hc.pB s hs) hpos]
        · simp only [if_neg e]
          rw [ih _ _ (by rw [xorAt_length]; exact hs) (by omega), hk _ off hs (by omega)]
    simp only [encOneshot, decOneshot, encUpdate_eq hc _ h1 ho', decUpdate_eq hc _ h1 ho', encFinal, decFinal,
      key _ _ _ h1 ho', h4, if_neg hl, List.length_replicate]
    simp only [ne_eq, not_true_eq_false, if_false, show tag.length = c.taglen by omega]
    simp only [eq_comm]

/-- The plaintext released for a ciphertext is the one whose encryption is that ciphertext. -/
theorem dec_enc (hc : cf.Ok) (c : Ctx) (hs : c.state.length = cf.ss) (ho : c.off ≤ cf.rate)
    (a p : List Byte) (tag old : List Byte) :
    (decOneshot cf c a (encOneshot cf c a p old).1 tag).1 = p := by
  obtain ⟨h1, h2, h3, h4⟩ := aad_inv hc c hs a
  have ho' : (aad cf c a).off ≤ cf.rate := by omega
  simp only [encOneshot, decOneshot, encUpdate_eq hc _ h1 ho', decUpdate_eq hc _ h1 ho',
    unbytes_bytes hc p _ _ h1 ho']

/-! ### What the tag depends on -/

theorem trace_length (a p : List Byte) : ∀ m ∈ trace cf a p, m.length = cf.ss := by
  intro m hm
  have hmk := masks_length (cf := cf) (nblk cf.rate p) p
  unfold trace at hm
  split at hm
  · exact hmk m hm
  · rcases List.mem_append.1 hm with h | h
    · exact masks_length _ _ m h
    · cases he : masks cf (nblk cf.rate p) p with
      | nil => rw [he] at h; simp at h
      | cons x xs =>
        rw [he] at h hmk
        rcases List.mem_cons.1 h with h | h
        · rw [h, add_length _ _ (by rw [hmk x (by simp), place_length]), hmk x (by simp)]
        · exact hmk m (by simp [h])

/-- The permutation call that follows the last plaintext byte, with domain separation pulled into
the trace. -/
theorem trace_eq (hc : cf.Ok) (c : Ctx) (hs : c.state.length = cf.ss) (hoff : c.off = 0) (a p : List Byte) :
    cf.pB (bytes cf (aad cf c a).state (aad cf c a).off p).1 = (trace cf a p).foldl (absorb cf) c.state ∧
      (if (bytes cf (aad cf c a).state (aad cf c a).off p).2.1 = cf.rate then 0
        else (bytes cf (aad cf c a).state (aad cf c a).off p).2.1) = p.length % cf.rate := by
  obtain ⟨h1, h2, h3, h4⟩ := aad_inv hc c hs a
  obtain ⟨e1, e2⟩ := bytes_blocks hc p.length (aad cf c a).state p (Nat.le_refl _) h1
  rw [h2, hoff]
  refine ⟨?_, e2⟩
  rw [e1]
  unfold trace
  rw [aad_eq hc c hs]
  by_cases ha : a = []
  · rw [if_pos ha, if_pos ha]
  · rw [if_neg ha, if_neg ha, List.foldl_append]
    dsimp only
    have hn : masks cf (nblk cf.rate p) p ≠ [] := by
      by_cases h : p.length ≤ cf.rate
      · rw [nblk_small hc p h]; simp [masks, blocks]
      · rw [nblk_large hc p (by omega)]; simp [masks, blocks]
    cases he : masks cf (nblk cf.rate p) p with
    | nil => exact absurd he hn
    | cons x xs =>
      simp only [List.foldl_cons]
      congr 1
      unfold absorb
      rw [add_assoc, add_comm (place _ _ _)]

/-- C22: the tag is a function of the key, the absorbed trace and the length modulo the rate. -/
theorem tag_trace (hc : cf.Ok) (c : Ctx) (hs : c.state.length = cf.ss) (hoff : c.off = 0)
    (a p old : List Byte) (hl : old.length = c.taglen) :
    (encOneshot cf c a p old).2 =
      (finalization cf (add ((trace cf a p).foldl (absorb cf) c.state)
        (place cf.ss (p.length % cf.rate) [0x01])) c.key c.taglen).2 := by
  obtain ⟨h1, h2, h3, h4⟩ := aad_inv hc c hs a
  have ho' : (aad cf c a).off ≤ cf.rate := by omega
  obtain ⟨e1, e2⟩ := trace_eq hc c hs hoff a p
  simp only [encOneshot, encUpdate_eq hc _ h1 ho', encFinal, padByte, e1, e2, h3, h4, hl]
  rw [if_neg (by simp), xorAt_place, foldl_absorb_length hc _ _ hs (trace_length a p)]

/-! ### C21, C22: what the trace determines -/

theorem getD_place (ss off : Nat) (d : List Byte) (i : Nat) (h : i < ss) :
    (place ss off d).getD i 0 = if off ≤ i then d.getD (i - off) 0 else 0 := by
  rw [List.getD_eq_getElem?_getD, List.getElem?_eq_getElem (by rw [place_length]; exact h), Option.getD_some]
  simp [place]

theorem getD_add (s m : List Byte) (i : Nat) (h : s.length = m.length) :
    (add s m).getD i 0 = s.getD i 0 ^^^ m.getD i 0 := by
  by_cases hi : i < s.length
  · have h2 : i < (add s m).length := by rw [add_length _ _ h]; exact hi
    simp only [List.getD_eq_getElem?_getD]
    rw [List.getElem?_eq_getElem h2, List.getElem?_eq_getElem hi, List.getElem?_eq_getElem (by omega)]
    simp [add]
  · simp only [List.getD_eq_getElem?_getD]
    rw [List.getElem?_eq_none (by rw [add_length _ _ h]; omega), List.getElem?_eq_none (by omega),
      List.getElem?_eq_none (by omega)]
    rfl

/-- The domain separation bit of a mask. -/
def dom (cf : Cfg) (m : List Byte) : Bool := m.getD (cf.ss - 1) 0 = 0x80

theorem masks_dom (hc : cf.Ok) : ∀ (n : Nat) (x : List Byte), ∀ m ∈ masks cf n x, dom cf m = false
  | 0, _, m, h => by simp [masks, blocks] at h
  | n + 1, x, m, h => by
    have hlt := hc.lt
    have hpos := hc.pos
    simp only [masks, blocks, List.map_cons, List.mem_cons] at h
    rcases h with h | h
    · subst h
      unfold dom
      rw [getD_place _ _ _ _ (by omega), if_pos (by omega), List.getD_eq_getElem?_getD,
        List.getElem?_eq_none (by rw [List.length_take]; omega)]
      decide
    · exact masks_dom hc n _ m h

theorem split_unique {α : Type} (P : α → Bool) : ∀ (xs ys : List α) (x y : α) (xs' ys' : List α),
    (∀ z ∈ xs, P z = false) → (∀ z ∈ ys, P z = false) → P x = true → P y = true →
    xs ++ x :: xs' = ys ++ y :: ys' → xs = ys ∧ x = y ∧ xs' = ys'
  | [], [], x, y, xs', ys', _, _, _, _, h => by simpa using h
  | [], b :: ys, x, y, xs', ys', _, hy, hx, _, h => by
    simp only [List.nil_append, List.cons_append, List.cons.injEq] at h
    rw [h.1, hy b (by simp)] at hx
    cases hx
  | a :: xs, [], x, y, xs', ys', hx, _, _, hy, h => by
    simp only [List.nil_append, List.cons_append, List.cons.injEq] at h
    rw [← h.1, hx a (by simp)] at hy
    cases hy
  | a :: xs, b :: ys, x, y, xs', ys', h1, h2, hx, hy, h => by
    simp only [List.cons_append, List.cons.injEq] at h
    obtain ⟨i1, i2, i3⟩ := split_unique P xs ys x y xs' ys' (fun z hz => h1 z (by simp [hz]))
      (fun z hz => h2 z (by simp [hz])) hx hy h.2
    exact ⟨by rw [h.1, i1], i2, i3⟩

/-- Masks determine the bytes of the string. -/
theorem masks_bytes (hc : cf.Ok) : ∀ (n m : Nat) (x y : List Byte), masks cf n x = masks cf m y →
    n = m ∧ ∀ i, i < cf.rate * n → x.getD i 0 = y.getD i 0
  | 0, 0, _, _, _ => ⟨rfl, by intro i hi; omega⟩
  | 0, m + 1, x, y, h => by simp [masks, blocks] at h
  | n + 1, 0, x, y, h => by simp [masks, blocks] at h
  | n + 1, m + 1, x, y, h => by
    have hlt := hc.lt
    simp only [masks, blocks, List.map_cons, List.cons.injEq] at h
    obtain ⟨e, i2⟩ := masks_bytes hc n m _ _ h.2
    refine ⟨by omega, ?_⟩
    intro i hi
    rw [Nat.mul_succ] at hi
    by_cases hr : i < cf.rate
    · have : (place cf.ss 0 (x.take cf.rate)).getD i 0 = (place cf.ss 0 (y.take cf.rate)).getD i 0 := by rw [h.1]
      rw [getD_place _ _ _ _ (by omega), getD_place _ _ _ _ (by omega), if_pos (by omega), if_pos (by omega)] at this
      simpa [List.getD_eq_getElem?_getD, List.getElem?_take, hr] using this
    · have := i2 (i - cf.rate) (by omega)
      simp only [List.getD_eq_getElem?_getD, List.getElem?_drop] at this
      rw [show cf.rate + (i - cf.rate) = i by omega] at this
      simpa [List.getD_eq_getElem?_getD] using this

theorem aadMasks_inj (hc : cf.Ok) (a b : List Byte) (h : aadMasks cf a = aadMasks cf b) : a = b := by
  have hpos := hc.pos
  obtain ⟨e, hb⟩ := masks_bytes hc _ _ _ _ h
  have ha := Nat.lt_mul_div_succ a.length hpos
  have hb' := Nat.lt_mul_div_succ b.length hpos
  rw [← e] at hb'
  have g : ∀ (x : List Byte), (x ++ [0x01]).getD x.length 0 = (0x01 : Byte) := by
    intro x; simp [List.getD_eq_getElem?_getD]
  have g0 : ∀ (x : List Byte) i, x.length < i → (x ++ [0x01]).getD i 0 = (0 : Byte) := by
    intro x i hi
    rw [List.getD_eq_getElem?_getD, List.getElem?_eq_none (by simp; omega)]; rfl
  have hlen : a.length = b.length := by
    rcases Nat.lt_trichotomy a.length b.length with hlt | heq | hgt
    · have := hb b.length hb'
      rw [g b, g0 a _ hlt] at this
      exact absurd this (by decide)
    · exact heq
    · have := hb a.length ha
      rw [g a, g0 b _ hgt] at this
      exact absurd this (by decide)
  apply List.ext_getElem hlen
  intro i h1 h2
  have := hb i (by omega)
  simp only [List.getD_eq_getElem?_getD] at this
  rw [List.getElem?_append_left h1, List.getElem?_append_left h2, List.getElem?_eq_getElem h1,
    List.getElem?_eq_getElem h2] at this
  exact this

theorem nblk_le (hc : cf.Ok) (p : List Byte) : p.length ≤ cf.rate * nblk cf.rate p := by
  have hpos := hc.pos
  unfold nblk
  split
  · rename_i h; subst h; simp
  · have h1 := Nat.div_add_mod (p.length + cf.rate - 1) cf.rate
    have h2 := Nat.mod_lt (p.length + cf.rate - 1) hpos
    omega

theorem nblk_ge (hc : cf.Ok) (p : List Byte) (h : p ≠ []) : cf.rate * nblk cf.rate p < p.length + cf.rate := by
  have hpos := hc.pos
  unfold nblk
  rw [if_neg h]
  have h1 := Nat.div_add_mod (p.length + cf.rate - 1) cf.rate
  have : 0 < p.length := List.length_pos_iff.2 h
  omega

theorem length_of_blocks {r x y n : Nat} (hr : 0 < r) (hm : x % r = y % r) (hx : x ≤ r * n)
    (hy : y ≤ r * n) (hx' : r * n < x + r) (hy' : r * n < y + r) : x = y := by
  have h1 := Nat.div_add_mod x r
  have h2 := Nat.div_add_mod y r
  have h3 := Nat.mod_lt x hr
  have hd : x / r = y / r := by
    rcases Nat.lt_trichotomy (x / r) (y / r) with h | h | h
    · have := Nat.mul_le_mul_left r (Nat.succ_le_of_lt h)
      rw [Nat.mul_succ] at this
      omega
    · exact h
    · have := Nat.mul_le_mul_left r (Nat.succ_le_of_lt h)
      rw [Nat.mul_succ] at this
      omega
  rw [hd, hm] at h1
  omega

theorem ptMasks_inj (hc : cf.Ok) (p q : List Byte) (hm : p.length % cf.rate = q.length % cf.rate)
    (h : masks cf (nblk cf.rate p) p = masks cf (nblk cf.rate q) q) :
    p = q ∨ (p = [] ∧ q = List.replicate cf.rate 0) ∨ (p = List.replicate cf.rate 0 ∧ q = []) := by
  have hpos := hc.pos
  obtain ⟨e, hb⟩ := masks_bytes hc _ _ _ _ h
  have hp := nblk_le hc p
  have hq := nblk_le hc q
  have empty : ∀ p q : List Byte, p = [] → q ≠ [] → p.length % cf.rate = q.length % cf.rate →
      nblk cf.rate p = nblk cf.rate q → (∀ i, i < cf.rate * nblk cf.rate p → p.getD i 0 = q.getD i 0) →
      q = List.replicate cf.rate 0 := by
    intro p q hp0 hq0 hm e hb
    subst hp0
    have hq' := nblk_ge hc q hq0
    have hq := nblk_le hc q
    have h1 : nblk cf.rate [] = 1 := rfl
    have hl : 0 < q.length := List.length_pos_iff.2 hq0
    have e' : nblk cf.rate q = 1 := by rw [← e]; exact h1
    rw [h1] at hb
    rw [e', Nat.mul_one] at hq
    have hlen : q.length = cf.rate := by
      by_cases hlt : q.length < cf.rate
      · rw [Nat.mod_eq_of_lt hlt] at hm; simp at hm; omega
      · omega
    apply List.ext_getElem
    · simp [hlen]
    · intro i g1 g2
      have := hb i (by omega)
      simp only [List.getD_eq_getElem?_getD] at this
      rw [List.getElem?_eq_getElem g1] at this
      simp at this
      simp [← this]
  by_cases hp0 : p = []
  · by_cases hq0 : q = []
    · left; rw [hp0, hq0]
    · right; left
      exact ⟨hp0, empty p q hp0 hq0 hm e hb⟩
  · by_cases hq0 : q = []
    · right; right
      exact ⟨empty q p hq0 hp0 hm.symm e.symm (fun i hi => (hb i (by rw [e]; exact hi)).symm), hq0⟩
    · left
      have hp' := nblk_ge hc p hp0
      have hq' := nblk_ge hc q hq0
      rw [← e] at hq hq'
      have hlen := length_of_blocks hpos hm hp hq hp' hq'
      apply List.ext_getElem hlen
      intro i h1 h2
      have := hb i (by omega)
      simp only [List.getD_eq_getElem?_getD] at this
      rw [List.getElem?_eq_getElem h1, List.getElem?_eq_getElem h2] at this
      exact this

theorem add_right_cancel {a b m : List Byte} (ha : a.length = m.length) (hb : b.length = m.length)
    (h : add a m = add b m) : a = b := by
  have : add (add a m) m = add (add b m) m := by rw [h]
  have key : ∀ x : List Byte, x.length = m.length → add (add x m) m = x := by
    intro x hx
    apply List.ext_getElem
    · simp [add, hx]
    · intro i h1 h2
      simp [add, UInt8.xor_assoc]
  rwa [key a ha, key b hb] at this

/-- C21, C22, what holds: the strings fed into the sponge, with the position of the final pad bit,
determine the associated data and determine the plaintext, except that the empty plaintext and one
block of zero bytes are confused.  Bytes cannot be moved between associated data and plaintext. -/
theorem trace_injective_partial (hc : cf.Ok) (a p a' p' : List Byte)
    (hm : p.length % cf.rate = p'.length % cf.rate) (h : trace cf a p = trace cf a' p') :
    a = a' ∧ (p = p' ∨ (p = [] ∧ p' = List.replicate cf.rate 0) ∨ (p = List.replicate cf.rate 0 ∧ p' = [])) := by
  have hlt := hc.lt
  have hd : ∀ x : List Byte, x.length = cf.ss → dom cf x = false → x.getD (cf.ss - 1) 0 = 0 →
      dom cf (add x (place cf.ss (cf.ss - 1) [0x80])) = true := by
    intro x hx _ h0
    unfold dom
    rw [getD_add _ _ _ (by rw [hx, place_length]), h0, getD_place _ _ _ _ (by omega), if_pos (by omega), Nat.sub_self]
    decide
  have hz : ∀ (n : Nat) (x : List Byte), ∀ m ∈ masks cf n x, m.getD (cf.ss - 1) 0 = 0 := by
    intro n
    induction n with
    | zero => intro x m hm; simp [masks, blocks] at hm
    | succ n ih =>
      intro x m hm
      simp only [masks, blocks, List.map_cons, List.mem_cons] at hm
      rcases hm with hm | hm
      · subst hm
        rw [getD_place _ _ _ _ (by omega), if_pos (by omega), List.getD_eq_getElem?_getD,
          List.getElem?_eq_none (by rw [List.length_take]; omega)]
        rfl
      · exact ih _ m hm
  have hne : ∀ q : List Byte, masks cf (nblk cf.rate q) q ≠ [] := by
    intro q
    by_cases h : q.length ≤ cf.rate
    · rw [nblk_small hc q h]; simp [masks, blocks]
    · rw [nblk_large hc q (by omega)]; simp [masks, blocks]
  have hdom : ∀ (b q : List Byte), b ≠ [] → ∃ x xs, masks cf (nblk cf.rate q) q = x :: xs ∧
      trace cf b q = aadMasks cf b ++ add x (place cf.ss (cf.ss - 1) [0x80]) :: xs ∧
      dom cf (add x (place cf.ss (cf.ss - 1) [0x80])) = true ∧ x.length = cf.ss := by
    intro b q hb
    cases he : masks cf (nblk cf.rate q) q with
    | nil => exact absurd he (hne q)
    | cons x xs =>
      have hx : x ∈ masks cf (nblk cf.rate q) q := by rw [he]; simp
      refine ⟨x, xs, rfl, ?_, hd x (masks_length _ _ x hx) (masks_dom hc _ _ x hx) (hz _ _ x hx),
        masks_length _ _ x hx⟩
      unfold trace
      rw [if_neg hb, he]
  by_cases ha : a = []
  · by_cases ha' : a' = []
    · refine ⟨by rw [ha, ha'], ?_⟩
      unfold trace at h
      rw [if_pos ha, if_pos ha'] at h
      exact ptMasks_inj hc p p' hm h
    · obtain ⟨x, xs, _, e2, e3, _⟩ := hdom a' p' ha'
      exfalso
      rw [e2] at h
      unfold trace at h
      rw [if_pos ha] at h
      have := masks_dom hc (nblk cf.rate p) p (add x (place cf.ss (cf.ss - 1) [0x80])) (by rw [h]; simp)
      rw [e3] at this
      cases this
  · obtain ⟨x, xs, e1, e2, e3, e4⟩ := hdom a p ha
    by_cases ha' : a' = []
    · exfalso
      rw [e2] at h
      unfold trace at h
      rw [if_pos ha'] at h
      have := masks_dom hc (nblk cf.rate p') p' (add x (place cf.ss (cf.ss - 1) [0x80])) (by rw [← h]; simp)
      rw [e3] at this
      cases this
    · obtain ⟨y, ys, f1, f2, f3, f4⟩ := hdom a' p' ha'
      rw [e2, f2] at h
      obtain ⟨i1, i2, i3⟩ := split_unique (dom cf) _ _ _ _ _ _ (masks_dom hc _ _) (masks_dom hc _ _) e3 f3 h
      have ex := add_right_cancel (by rw [e4, place_length]) (by rw [f4, place_length]) i2
      exact ⟨aadMasks_inj hc a a' i1, ptMasks_inj hc p p' hm (by rw [e1, f1, ex, i3])⟩

/-- C22 is violated: the tag of the empty plaintext is the tag of one block of zero bytes, for every
key, nonce and associated data. -/
theorem empty_zero_block_same_tag (hc : cf.Ok) (c : Ctx) (hs : c.state.length = cf.ss) (hoff : c.off = 0)
    (a old : List Byte) (hl : old.length = c.taglen) :
    (encOneshot cf c a (List.replicate cf.rate 0) old).2 = (encOneshot cf c a [] old).2 := by
  have hpos := hc.pos
  rw [tag_trace hc c hs hoff _ _ _ hl, tag_trace hc c hs hoff _ _ _ hl]
  have hp : place cf.ss 0 (List.replicate cf.rate 0) = place cf.ss 0 [] := by
    apply List.ext_getElem
    · simp [place]
    · intro i h1 h2
      simp only [place, List.getElem_map, List.getElem_range, Nat.zero_le, if_true, Nat.sub_zero,
        List.getD_eq_getElem?_getD, List.getElem?_replicate]
      split <;> rfl
  have hm : masks cf (nblk cf.rate (List.replicate cf.rate 0)) (List.replicate cf.rate 0) =
      masks cf (nblk cf.rate []) [] := by
    rw [nblk_small hc _ (by simp), nblk_small hc [] (by simp)]
    simp only [masks, blocks, List.map_cons, List.map_nil, List.take_nil]
    rw [List.take_of_length_le (by simp), hp]
  have ht : trace cf a (List.replicate cf.rate 0) = trace cf a [] := by
    unfold trace
    rw [hm]
  rw [ht]
  simp

/-- ... so a party that sees the encryption of a zero block can truncate it to an empty message that
is accepted. -/
theorem truncation_forgery (hc : cf.Ok) (c : Ctx) (hs : c.state.length = cf.ss) (hoff : c.off = 0)
    (ht : c.taglen ≤ cf.ss) (a old : List Byte) (hl : old.length = c.taglen) :
    decOneshot cf c a [] (encOneshot cf c a (List.replicate cf.rate 0) old).2 = ([], 0) := by
  rw [empty_zero_block_same_tag hc c hs hoff a old hl]
  have h := roundtrip hc c hs (by omega) ht a [] [] old hl (by
    rw [enc_streaming hc c hs (by omega)]
    have := aad_inv hc c hs a
    simp [encOneshot, encUpdate_eq hc _ this.1 (by omega : (aad cf c a).off ≤ cf.rate), bytes])
  rw [dec_streaming hc c hs (by omega), enc_streaming hc c hs (by omega)] at h
  exact h

/-! ### SP 800-232 -/

theorem processPt_eq (hc : cf.Ok) : ∀ (n : Nat) (s p : List Byte), s.length = cf.ss → p.length = cf.rate * n →
    0 < n → Spec.processPt cf n s p =
      (add ((masks cf n p).foldl (absorb cf) s) (place cf.ss 0 [0x01]), (bytes cf s 0 p).2.2)
  | 0, _, _, _, _, h => by omega
  | n + 1, s, p, hs, hl, _ => by
    have hpos := hc.pos
    have hlt := hc.lt
    rw [Nat.mul_succ] at hl
    have ht : (p.take cf.rate).length = cf.rate := by rw [List.length_take]; omega
    have hrun := bytes_run hc (p.take cf.rate) s 0 hs (by omega)
    rw [ht, Nat.zero_add] at hrun
    have e : bytes cf s 0 p = bytes cf s 0 (p.take cf.rate ++ p.drop cf.rate) := by rw [List.take_append_drop]
    have hx : extract (xorAt s 0 (p.take cf.rate)) 0 cf.rate = (add s (place cf.ss 0 (p.take cf.rate))).take cf.rate := by
      rw [xorAt_place, hs]; rfl
    simp only [Spec.processPt, masks, blocks, List.map_cons, List.foldl_cons]
    rw [e, bytes_append, hrun]
    dsimp only
    rw [hx]
    by_cases hn : n = 0
    · subst hn
      have hd : p.drop cf.rate = [] := List.eq_nil_of_length_eq_zero (by rw [List.length_drop]; omega)
      rw [hd]
      simp [Spec.processPt, bytes, blocks, absorb]
    · have hne : p.drop cf.rate ≠ [] := by
        intro h'; have := congrArg List.length h'; rw [List.length_drop] at this; simp at this
        have : 0 < cf.rate * n := Nat.mul_pos hpos (by omega)
        omega
      have ih := processPt_eq hc n (cf.pB (add s (place cf.ss 0 (p.take cf.rate)))) (p.drop cf.rate)
        (hc.pB _ (by rw [add_length _ _ (by rw [place_length]; exact hs)]; exact hs))
        (by rw [List.length_drop]; omega) (by omega)
      rw [ih, bytes_full cf _ _ hne hpos, xorAt_place, hs]
      rfl

/-- C22, conformance: for nonempty associated data and a plaintext of whole blocks, ciphertext and
tag are those of SP 800-232.  Missing: the other cases, where the code deviates (see below). -/
theorem sp800_232_partial (hc : cf.Ok) (c : Ctx) (hs : c.state.length = cf.ss) (hoff : c.off = 0)
    (ht : c.taglen ≤ cf.ss) (a p old : List Byte) (hl : old.length = c.taglen)
    (ha : a ≠ []) (hp : p ≠ []) (hm : p.length % cf.rate = 0) :
    encOneshot cf c a p old = Spec.encrypt cf c.state c.key a p c.taglen := by
  have hpos := hc.pos
  obtain ⟨h1, h2, h3, h4⟩ := aad_inv hc c hs a
  have ho' : (aad cf c a).off ≤ cf.rate := by omega
  have hpl : 0 < p.length := List.length_pos_iff.2 hp
  have hdm := Nat.div_add_mod p.length cf.rate
  have hn : 0 < p.length / cf.rate := by
    rcases Nat.eq_zero_or_pos (p.length / cf.rate) with h | h
    · rw [h] at hdm; omega
    · exact h
  have hnb : nblk cf.rate p = p.length / cf.rate := by
    unfold nblk
    rw [if_neg hp]
    have : p.length + cf.rate - 1 = cf.rate * (p.length / cf.rate) + (cf.rate - 1) := by omega
    rw [this, Nat.mul_add_div hpos, Nat.div_eq_of_lt (Nat.sub_lt hpos Nat.one_pos), Nat.add_zero]
  have hst : (aad cf c a).state = Spec.processAad cf c.state a := by
    rw [aad_eq hc c hs, if_neg ha, Spec.processAad, if_neg ha]
  have hb := bytes_blocks hc p.length (aad cf c a).state p (Nat.le_refl _) h1
  have hpt := processPt_eq hc (p.length / cf.rate) (aad cf c a).state p h1 (by omega) hn
  have hfl := foldl_absorb_length hc (masks cf (p.length / cf.rate) p) _ h1 (masks_length _ _)
  unfold Spec.encrypt
  dsimp only
  rw [← hst, hpt]
  simp only [encOneshot, encUpdate_eq hc _ h1 ho', encFinal, h2, hoff, h4, hl, h3]
  rw [if_neg (by simp)]
  congr 1
  rw [padByte, hb.1, hb.2, hnb, hm, xorAt_place, hfl]
  have hl2 : (add ((masks cf (p.length / cf.rate) p).foldl (absorb cf) (aad cf c a).state)
      (place cf.ss 0 [0x01])).length = cf.ss := by
    rw [add_length _ _ (by rw [hfl, place_length]), hfl]
  simp only [finalization, Spec.tag]
  rw [xorAt_place _ cf.rate, hl2]
  have hl3 : (cf.pA (add (add ((masks cf (p.length / cf.rate) p).foldl (absorb cf) (aad cf c a).state)
      (place cf.ss 0 [0x01])) (place cf.ss cf.rate c.key))).length = cf.ss :=
    hc.pA _ (by rw [add_length _ _ (by rw [hl2, place_length]), hl2])
  rw [xorAt_place _ (cf.ss - c.taglen), hl3, extract, List.take_of_length_le]
  rw [List.length_drop, add_length _ _ (by rw [hl3, place_length]), hl3]
  omega

/-! ### The concrete algorithms -/

theorem ascon128_ok : ascon128.Ok where
  pos := by decide
  lt := by decide
  pA s _ := AsconHash.ofWords_length _
  pB s _ := AsconHash.ofWords_length _

theorem asconKeccak_ok {perm : List Byte → List Byte} (hp : ∀ s, s.length = 200 → (perm s).length = 200)
    (r : Nat) (h : r = 72 ∨ r = 136) : (asconKeccak perm r).Ok where
  pos := by change 0 < r; omega
  lt := by change r < 200; omega
  pA := hp
  pB := hp

theorem asconKeccak_keccak_ok (r : Nat) (h : r = 72 ∨ r = 136) :
    (asconKeccak Sponge.Keccak.keccakpBytes r).Ok :=
  asconKeccak_ok (fun s _ => Sponge.keccakpBytes_length s) r h

theorem setkey_inv (hc : cf.Ok) (taglen : Nat) (key nonce : List Byte) (c : Ctx)
    (h : setkey cf taglen key nonce = some c) :
    c.state.length = cf.ss ∧ c.off = 0 ∧ c.key = key ∧ c.taglen = taglen ∧ 16 ≤ taglen ∧ taglen ≤ key.length ∧
      16 ≤ nonce.length ∧ nonce.length ≤ key.length := by
  unfold setkey at h
  split at h
  · cases h
  · rename_i hn
    cases hw : ivWord cf.rate key.length taglen with
    | none => rw [hw] at h; cases h
    | some w =>
      rw [hw] at h
      cases h
      have ht : 16 ≤ taglen ∧ taglen ≤ key.length := by
        unfold ivWord at hw
        split at hw
        · cases hw
        · omega
      refine ⟨?_, rfl, rfl, rfl, ht.1, ht.2, by omega, by omega⟩
      simp only [xorAt_length]
      exact hc.pA _ (by simp [xorAt_length, newstate])

theorem newstate_front (ss : Nat) (d : List Byte) (h : d.length ≤ ss) :
    newstate (List.replicate ss 0) 0 d = d ++ List.replicate (ss - d.length) 0 := by
  apply List.ext_getElem
  · simp [newstate]; omega
  · intro i h1 h2
    simp only [newstate, List.length_mapIdx, List.length_replicate] at h1
    simp only [newstate, List.getElem_mapIdx, Nat.zero_le, if_true, Nat.sub_zero, List.getElem_append,
      List.getElem_replicate, List.getD_eq_getElem?_getD]
    split
    · rename_i hl; rw [List.getElem?_eq_getElem hl]; rfl
    · rw [List.getElem?_eq_none (by omega)]; rfl

theorem xorAt_zero_tail (x d : List Byte) (n : Nat) (h : d.length ≤ n) :
    xorAt (x ++ List.replicate n 0) x.length d = (x ++ d) ++ List.replicate (n - d.length) 0 := by
  apply List.ext_getElem
  · simp [xorAt]; omega
  · intro i h1 h2
    simp only [xorAt, List.getElem_mapIdx, List.getElem_append, List.getElem_replicate, List.length_append,
      List.getD_eq_getElem?_getD]
    by_cases hx : i < x.length
    · rw [dif_pos hx, if_neg (by omega), dif_pos (by omega), dif_pos hx, UInt8.xor_zero]
    · rw [dif_neg hx, if_pos (by omega)]
      by_cases hd : i < x.length + d.length
      · rw [dif_pos hd, dif_neg hx, List.getElem?_eq_getElem (by omega)]
        exact UInt8.zero_xor
      · rw [dif_neg hd, List.getElem?_eq_none (by omega)]; rfl

/-- C22: key setup is the initialisation of SP 800-232. -/
theorem setkey_spec (hc : cf.Ok) (taglen : Nat) (key nonce : List Byte) (c : Ctx)
    (hsz : 8 + key.length + nonce.length ≤ cf.ss)
    (h : setkey cf taglen key nonce = some c) :
    ∃ w, ivWord cf.rate key.length taglen = some w ∧ c.state = Spec.init cf w key nonce := by
  unfold setkey at h
  split at h
  · cases h
  · cases hw : ivWord cf.rate key.length taglen with
    | none => rw [hw] at h; cases h
    | some w =>
      rw [hw] at h
      cases h
      refine ⟨w, rfl, ?_⟩
      have h8 : (AsconHash.leBytes w).length = 8 := by simp [AsconHash.leBytes]
      dsimp only
      have e1 := newstate_front cf.ss (AsconHash.leBytes w) (by omega)
      have e2 := xorAt_zero_tail (AsconHash.leBytes w) key (cf.ss - 8) (by omega)
      have e3 := xorAt_zero_tail (AsconHash.leBytes w ++ key) nonce (cf.ss - 8 - key.length) (by omega)
      rw [h8] at e1 e2
      rw [List.length_append, h8] at e3
      rw [e1, e2, e3]
      have hl : (AsconHash.leBytes w ++ key ++ nonce).length = 8 + key.length + nonce.length := by
        rw [List.length_append, List.length_append, h8]
      unfold Spec.init
      dsimp only
      rw [hl, show cf.ss - (8 + key.length + nonce.length) = cf.ss - 8 - key.length - nonce.length by omega]
      rw [xorAt_place, hc.pA]
      rw [List.length_append, hl, List.length_replicate]
      omega

/-- C19, C20, C22 for Ascon-AEAD128 with any 16 byte key and nonce. -/
theorem ascon128_setkey (key nonce : List Byte) (hk : key.length = 16) (hn : nonce.length = 16) :
    ∃ c, setkey ascon128 16 key nonce = some c ∧
      c.state = Spec.init ascon128 0x00001000808c0001#64 key nonce ∧
      (∀ a xs ys old, old.length = 16 → ys.flatten = (encSession ascon128 c a xs old).1 →
        decSession ascon128 c a ys (encSession ascon128 c a xs old).2 = (xs.flatten, 0)) := by
  have hiv : ivWord ascon128.rate key.length 16 = some 0x00001000808c0001#64 := by rw [hk]; decide
  have hs : ∃ c, setkey ascon128 16 key nonce = some c := by
    unfold setkey
    rw [if_neg (by omega), hiv]
    exact ⟨_, rfl⟩
  obtain ⟨c, hc⟩ := hs
  obtain ⟨i1, i2, i3, i4, _⟩ := setkey_inv ascon128_ok 16 key nonce c hc
  obtain ⟨w, hw, hst⟩ := setkey_spec ascon128_ok 16 key nonce c
    (by rw [hk, hn]; exact Nat.le_refl 40) hc
  rw [hiv] at hw
  cases hw
  refine ⟨c, hc, hst, ?_⟩
  intro a xs ys old hl hy
  exact roundtrip ascon128_ok c i1 (by omega) (by rw [i4]; decide) a xs ys old (by rw [i4]; exact hl) hy

/-- The Ascon permutations used are those of SP 800-232. -/
theorem ascon128_perms (l : List Byte) :
    ascon128.pA l = AsconHash.ofWords (AsconHash.Spec.perm 12 (AsconHash.toWords l)) ∧
      ascon128.pB l = AsconHash.ofWords (AsconHash.Spec.perm 8 (AsconHash.toWords l)) := by
  constructor
  · change AsconHash.ofWords (AsconHash.perm12 _) = _
    rw [AsconHash.perm12_eq]
  · change AsconHash.ofWords (AsconHash.perm8 _) = _
    rw [AsconHash.perm8_eq]

/-- The key 00 01 ... 0f used in the witnesses, also as nonce. -/
def kat : List Byte := (List.range 16).map UInt8.ofNat

def katCtx : Ctx := (setkey ascon128 16 kat kat).getD { state := [], key := [], off := 0, taglen := 0 }

/-- The known answer test of the library (`ascon_lightweight.c:38-63`), evaluated on the model. -/
theorem model_kat : encOneshot ascon128 katCtx ((List.range 32).map UInt8.ofNat) ((List.range 32).map UInt8.ofNat)
      (List.replicate 16 0) =
    ([0x4C, 0x08, 0x6D, 0x27, 0xA3, 0xB5, 0x1A, 0x23, 0x33, 0xCF, 0xC7, 0xF2, 0x21, 0x72, 0xA9, 0xBC, 0xAD, 0x88,
      0xB8, 0xD4, 0xD7, 0x7E, 0x50, 0x62, 0x2D, 0x78, 0x83, 0x45, 0xFA, 0x7B, 0xEE, 0x44],
     [0x68, 0x91, 0x5D, 0x3F, 0x94, 0x22, 0x28, 0x9F, 0x23, 0x49, 0xD6, 0xA3, 0xB4, 0x16, 0x03, 0x97]) := by
  decide +kernel

/-- C22 is violated, non-conformance 1: an incomplete last block. -/
theorem sp800_232_partial_block_deviates :
    encOneshot ascon128 katCtx [0] [0] (List.replicate 16 0) ≠
      Spec.encrypt ascon128 katCtx.state katCtx.key [0] [0] 16 := by decide +kernel

/-- C22 is violated, non-conformance 2: empty plaintext. -/
theorem sp800_232_empty_plaintext_deviates :
    encOneshot ascon128 katCtx [0] [] (List.replicate 16 0) ≠
      Spec.encrypt ascon128 katCtx.state katCtx.key [0] [] 16 := by decide +kernel

/-- C22 is violated, non-conformance 3: empty associated data. -/
theorem sp800_232_empty_aad_deviates :
    encOneshot ascon128 katCtx [] (List.replicate 16 0) (List.replicate 16 0) ≠
      Spec.encrypt ascon128 katCtx.state katCtx.key [] (List.replicate 16 0) 16 := by decide +kernel

/-- Non-vacuity: the specification reproduces the known answer, and the hypotheses of the theorems
above hold for the context of the known answer test. -/
example : katCtx.state.length = 40 ∧ katCtx.off = 0 ∧ katCtx.taglen = 16 ∧
    Spec.init ascon128 0x00001000808c0001#64 kat kat = katCtx.state := by decide +kernel

example : (Spec.encrypt ascon128 katCtx.state katCtx.key ((List.range 32).map UInt8.ofNat)
    ((List.range 32).map UInt8.ofNat) 16).2 =
    [0x68, 0x91, 0x5D, 0x3F, 0x94, 0x22, 0x28, 0x9F, 0x23, 0x49, 0xD6, 0xA3, 0xB4, 0x16, 0x03, 0x97] := by
  decide +kernel

example : ∃ c, setkey (asconKeccak Sponge.Keccak.keccakpBytes 136) 20 (List.replicate 32 1) (List.replicate 24 2)
    = some c := ⟨_, rfl⟩

end LC.AsconAead
