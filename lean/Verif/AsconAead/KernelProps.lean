import Verif.AsconAead.Props
import Verif.AsconAead.KernelModel
/-
C132: the Ascon AEAD of the Linux kernel interface.
-/
namespace LC.AsconAead.Kernel
open LC.Sponge (Byte xorAt extract xorAt_length xorAt_nil xorAt_append)

variable {cf : Cfg}

/-! ### Associated data -/

/-- Byte-wise absorption. -/
def ab (cf : Cfg) (p : List Byte × Nat) (b : Byte) : List Byte × Nat :=
  if p.2 + 1 = cf.rate then (cf.pB (xorAt p.1 p.2 [b]), 0) else (xorAt p.1 p.2 [b], p.2 + 1)

theorem ab_run (cf : Cfg) : ∀ (x s : List Byte) (off : Nat), off < cf.rate → off + x.length ≤ cf.rate →
    x.foldl (ab cf) (s, off) =
      if off + x.length = cf.rate then (cf.pB (xorAt s off x), 0) else (xorAt s off x, off + x.length)
  | [], s, off, h, _ => by
    rw [if_neg (by simp; omega), xorAt_nil]; rfl
  | b :: x, s, off, h, hl => by
    have e : xorAt s off (b :: x) = xorAt (xorAt s off [b]) (off + 1) x := xorAt_append s off [b] x
    simp only [List.length_cons] at hl
    rw [List.foldl_cons]
    by_cases hx : off + 1 = cf.rate
    · have : x = [] := List.eq_nil_of_length_eq_zero (by omega)
      subst this
      simp [ab, hx]
    · have : ab cf (s, off) b = (xorAt s off [b], off + 1) := by simp [ab, hx]
      rw [this, ab_run cf x _ (off + 1) (by omega) (by omega), e]
      simp only [List.length_cons, show off + 1 + x.length = off + (x.length + 1) by omega]

theorem advance_flatten (k : Nat) (seg : List Byte) (rest : List (List Byte)) :
    (advance k seg rest).flatten = seg.drop k ++ rest.flatten := by
  unfold advance
  by_cases h : k = seg.length
  · subst h; simp
  · simp [h]

theorem take_advance (k n : Nat) (seg : List Byte) (rest : List (List Byte)) (hk : k ≤ seg.length) (hn : k ≤ n) :
    ((seg :: rest).flatten).take n = seg.take k ++ ((advance k seg rest).flatten).take (n - k) := by
  rw [advance_flatten, List.flatten_cons]
  conv => lhs; rw [← List.take_append_drop k seg, List.append_assoc]
  rw [List.take_append, List.length_take, Nat.min_eq_left hk, List.take_of_length_le (by simp; omega)]

theorem advance_length (k : Nat) (seg : List Byte) (rest : List (List Byte)) :
    (advance k seg rest).length ≤ rest.length + 1 ∧ (k = seg.length → (advance k seg rest).length = rest.length) := by
  unfold advance
  by_cases h : k = seg.length <;> simp [h]

theorem len_advance (k : Nat) (seg : List Byte) (rest : List (List Byte)) (hk : k ≤ seg.length) :
    (advance k seg rest).flatten.length + k = (seg :: rest).flatten.length := by
  rw [advance_flatten]; simp; omega

theorem aadWalk_eq (hc : cf.Ok) : ∀ (fuel : Nat) (s : List Byte) (off : Nat) (segs : List (List Byte)) (n : Nat),
    off < cf.rate → n + segs.length ≤ fuel → n ≤ segs.flatten.length →
    aadWalk cf fuel s off segs n = some ((segs.flatten.take n).foldl (ab cf) (s, off))
  | 0, s, off, segs, n, _, hf, _ => by
    have : n = 0 := by omega
    subst this
    simp [aadWalk]
  | fuel + 1, s, off, segs, n, ho, hf, hn => by
    have hpos := hc.pos
    unfold aadWalk
    by_cases h0 : n = 0
    · subst h0; simp
    · rw [if_neg h0]
      cases segs with
      | nil => simp at hn; omega
      | cons seg rest =>
        obtain ⟨k, hk⟩ : ∃ k, k = min (cf.rate - off) (min n seg.length) := ⟨_, rfl⟩
        have hk1 : k ≤ seg.length := by omega
        have hk2 : k ≤ n := by omega
        have hl := advance_length k seg rest
        have hlen := len_advance k seg rest hk1
        simp only [List.length_cons] at hf
        have hfu : n - k + (advance k seg rest).length ≤ fuel := by
          by_cases hz : k = 0
          · have : k = seg.length := by omega
            have := hl.2 this
            omega
          · omega
        dsimp only
        rw [← hk, take_advance k n seg rest hk1 hk2, List.foldl_append,
          ab_run cf _ _ _ ho (by rw [List.length_take]; omega), List.length_take, Nat.min_eq_left hk1]
        by_cases hr : off + k = cf.rate
        · rw [if_pos hr, if_pos hr, aadWalk_eq hc fuel _ _ _ _ hpos hfu (by omega)]
        · rw [if_neg hr, if_neg hr, aadWalk_eq hc fuel _ _ _ _ (by omega) hfu (by omega)]

theorem aadLoop_ab (hc : cf.Ok) : ∀ (fuel : Nat) (s a : List Byte), a.length ≤ fuel →
    a.foldl (ab cf) (s, 0) =
      (xorAt (aadLoop cf fuel s a).1 0 (aadLoop cf fuel s a).2, (aadLoop cf fuel s a).2.length)
  | fuel, s, a, hf => by
    have hpos := hc.pos
    by_cases hr : cf.rate ≤ a.length
    · cases fuel with
      | zero => omega
      | succ fuel =>
        simp only [aadLoop, if_pos hr]
        rw [← aadLoop_ab hc fuel _ _ (by rw [List.length_drop]; omega)]
        conv => lhs; rw [← List.take_append_drop cf.rate a]
        rw [List.foldl_append, ab_run cf _ _ _ hpos (by simp; omega), if_pos (by simp; omega)]
    · have hl : aadLoop cf fuel s a = (s, a) := by
        cases fuel with
        | zero => rfl
        | succ fuel => simp only [aadLoop, if_neg hr]
      rw [hl, ab_run cf _ _ _ hpos (by omega), if_neg (by omega)]
      simp

/-- The associated data taken from a scatterlist has the effect of `lc_ascon_aad` on the bytes. -/
theorem aadK_eq (hc : cf.Ok) (c : Ctx) (r : Req) (h : r.assoclen ≤ r.src.flatten.length) :
    aadK cf c r = some (aad cf c (r.src.flatten.take r.assoclen)) := by
  have hlen : (r.src.flatten.take r.assoclen).length = r.assoclen := by rw [List.length_take]; omega
  unfold aadK aad
  rw [hlen]
  by_cases h0 : r.assoclen = 0
  · rw [if_pos h0, if_pos h0]
  · rw [if_neg h0, if_neg h0, aadWalk_eq hc _ _ _ _ _ hc.pos (Nat.le_refl _) h,
      aadLoop_ab hc r.assoclen _ _ (Nat.le_of_eq hlen)]
    rfl

/-! ### Data -/

theorem ffwd_flatten : ∀ (l : List (List Byte)) (n : Nat), (ffwd l n).flatten = l.flatten.drop n
  | [], n => by simp [ffwd]
  | seg :: rest, n => by
    unfold ffwd
    by_cases h : n < seg.length
    · rw [if_pos h, List.flatten_cons, List.flatten_cons, List.drop_append_of_le_length (by omega)]
    · rw [if_neg h, ffwd_flatten rest, List.flatten_cons, List.drop_append,
        List.drop_of_length_le (l := seg) (by omega), List.nil_append]

theorem ffwd_length : ∀ (l : List (List Byte)) (n : Nat), (ffwd l n).length ≤ l.length
  | [], n => by simp [ffwd]
  | seg :: rest, n => by
    unfold ffwd
    by_cases h : n < seg.length
    · rw [if_pos h]; simp
    · rw [if_neg h]
      have := ffwd_length rest (n - seg.length)
      simp; omega

/-- A sequence of calls. -/
def calls (proc : Ctx → List Byte → Ctx × List Byte) (c : Ctx) : List (List Byte) → Ctx × List Byte
  | [] => (c, [])
  | x :: xs => ((calls proc (proc c x).1 xs).1, (proc c x).2 ++ (calls proc (proc c x).1 xs).2)

theorem calls_enc : ∀ (xs : List (List Byte)) (c : Ctx), calls (encUpdate cf) c xs = encCalls cf c xs
  | [], _ => rfl
  | x :: xs, c => by simp only [calls, encCalls, calls_enc xs]

theorem calls_dec : ∀ (xs : List (List Byte)) (c : Ctx), calls (decUpdate cf) c xs = decCalls cf c xs
  | [], _ => rfl
  | x :: xs, c => by simp only [calls, decCalls, calls_dec xs]

theorem walk_eq (proc : Ctx → List Byte → Ctx × List Byte) : ∀ (fuel : Nat) (c : Ctx)
    (src dst : List (List Byte)) (n : Nat), n + src.length + dst.length ≤ fuel → n ≤ src.flatten.length →
    n ≤ dst.flatten.length →
    ∃ xs : List (List Byte), xs.flatten = src.flatten.take n ∧ walk proc fuel c src dst n = some (calls proc c xs)
  | 0, c, src, dst, n, hf, _, _ => by
    have : n = 0 := by omega
    subst this
    exact ⟨[], by simp, by simp [walk, calls]⟩
  | fuel + 1, c, src, dst, n, hf, hs, hd => by
    unfold walk
    by_cases h0 : n = 0
    · subst h0; exact ⟨[], by simp, by simp [calls]⟩
    · rw [if_neg h0]
      cases src with
      | nil => simp at hs; omega
      | cons seg rest =>
        cases dst with
        | nil => simp at hd; omega
        | cons dseg drest =>
          obtain ⟨k, hk⟩ : ∃ k, k = min n (min seg.length dseg.length) := ⟨_, rfl⟩
          have hk1 : k ≤ seg.length := by omega
          have hk2 : k ≤ dseg.length := by omega
          have hk3 : k ≤ n := by omega
          have l1 := advance_length k seg rest
          have l2 := advance_length k dseg drest
          have e1 := len_advance k seg rest hk1
          have e2 := len_advance k dseg drest hk2
          simp only [List.length_cons] at hf
          have hfu : n - k + (advance k seg rest).length + (advance k dseg drest).length ≤ fuel := by
            by_cases hz : k = 0
            · by_cases hq : k = seg.length
              · have := l1.2 hq; omega
              · have := l2.2 (by omega); omega
            · omega
          obtain ⟨xs, hx, hw⟩ := walk_eq proc fuel (proc c (seg.take k)).1 (advance k seg rest)
            (advance k dseg drest) (n - k) hfu (by omega) (by omega)
          refine ⟨seg.take k :: xs, ?_, ?_⟩
          · rw [take_advance k n seg rest hk1 hk3, List.flatten_cons, hx]
          · dsimp only
            rw [← hk, hw]
            rfl

theorem updateK_eq (proc : Ctx → List Byte → Ctx × List Byte) (c : Ctx) (r : Req)
    (hs : r.assoclen + r.cryptlen ≤ r.src.flatten.length) (hd : r.assoclen + r.cryptlen ≤ r.dst.flatten.length) :
    ∃ xs : List (List Byte), xs.flatten = (r.src.flatten.drop r.assoclen).take r.cryptlen ∧
      updateK proc c r = some (calls proc c xs) := by
  unfold updateK
  by_cases h0 : r.cryptlen = 0
  · exact ⟨[], by simp [h0], by simp [h0, calls]⟩
  · rw [if_neg h0]
    have l1 := ffwd_length r.src r.assoclen
    have l2 := ffwd_length r.dst r.assoclen
    obtain ⟨xs, hx, hw⟩ := walk_eq proc (r.cryptlen + r.src.length + r.dst.length) c (ffwd r.src r.assoclen)
      (ffwd r.dst r.assoclen) r.cryptlen (by omega) (by rw [ffwd_flatten, List.length_drop]; omega)
      (by rw [ffwd_flatten, List.length_drop]; omega)
    exact ⟨xs, by rw [hx, ffwd_flatten], hw⟩

/-! ### C132 -/

theorem bytes_len (cf : Cfg) : ∀ (x s : List Byte) (off : Nat), (bytes cf s off x).2.2.length = x.length
  | [], _, _ => rfl
  | b :: x, s, off => by simp [bytes, bytes_len cf x]

theorem unbytes_len (cf : Cfg) : ∀ (x s : List Byte) (off : Nat), (unbytes cf s off x).2.2.length = x.length
  | [], _, _ => rfl
  | b :: x, s, off => by simp [unbytes, unbytes_len cf x]

theorem put_len (m : List Byte) (off : Nat) (x : List Byte) (h : off + x.length ≤ m.length) :
    put m off x = some (m.take off ++ x ++ m.drop (off + x.length)) := if_pos h

theorem encOneshot_length (hc : cf.Ok) (c : Ctx) (hs : c.state.length = cf.ss) (ho : c.off ≤ cf.rate)
    (a p old : List Byte) : (encOneshot cf c a p old).1.length = p.length := by
  obtain ⟨h1, h2, h3, h4⟩ := aad_inv hc c hs a
  simp only [encOneshot, encUpdate_eq hc _ h1 (by omega)]
  exact bytes_len cf p _ _

theorem decOneshot_length (hc : cf.Ok) (c : Ctx) (hs : c.state.length = cf.ss) (ho : c.off ≤ cf.rate)
    (a p tag : List Byte) : (decOneshot cf c a p tag).1.length = p.length := by
  obtain ⟨h1, h2, h3, h4⟩ := aad_inv hc c hs a
  simp only [decOneshot, decUpdate_eq hc _ h1 (by omega)]
  exact unbytes_len cf p _ _

/-- What the application does with a handle before requests. -/
inductive Op where
  | key (k : List Byte)
  | auth (n : Nat)

def step (m : Nat) (t : Tfm) : Op → Tfm
  | .key k => (setkeyK t k).1
  | .auth n => (setauthsize m t n).1

/-- C132: after any sequence of calls setting key and tag length, the tag length of the context is
the one of the kernel, between 16 and the maximum. -/
theorem c132_handle (m : Nat) (hm : 16 ≤ m) (ops : List Op) :
    (ops.foldl (step m) (init m)).taglen = (ops.foldl (step m) (init m)).authsize ∧
    16 ≤ (ops.foldl (step m) (init m)).authsize ∧ (ops.foldl (step m) (init m)).authsize ≤ m ∧
    (ops.foldl (step m) (init m)).key.length < 64 := by
  have key : ∀ (ops : List Op) (t : Tfm), (t.taglen = t.authsize ∧ 16 ≤ t.authsize ∧ t.authsize ≤ m ∧ t.key.length < 64) →
      (ops.foldl (step m) t).taglen = (ops.foldl (step m) t).authsize ∧ 16 ≤ (ops.foldl (step m) t).authsize ∧
      (ops.foldl (step m) t).authsize ≤ m ∧ (ops.foldl (step m) t).key.length < 64 := by
    intro ops
    induction ops with
    | nil => intro t h; exact h
    | cons o ops ih =>
      intro t h
      rw [List.foldl_cons]
      apply ih
      cases o with
      | key k =>
        simp only [step, setkeyK]
        by_cases hk : k.length < 64
        · rw [if_pos hk]; exact ⟨h.1, h.2.1, h.2.2.1, hk⟩
        · rw [if_neg hk]; exact h
      | auth n =>
        simp only [step, setauthsize]
        by_cases h1 : (n = 0 ∧ m ≠ 0) ∨ m < n
        · rw [if_pos h1]; exact h
        · rw [if_neg h1]
          by_cases h2 : n < 16
          · rw [if_pos h2]; exact h
          · rw [if_neg h2]; exact ⟨rfl, (by omega : 16 ≤ n), (by omega : n ≤ m), h.2.2.2⟩
  exact key ops (init m) ⟨rfl, hm, Nat.le_refl _, by simp [init]⟩

theorem split3 {l a p x : List Byte} (h : l = a ++ p ++ x) :
    l.take a.length = a ∧ (l.drop a.length).take p.length = p := by
  subst h
  constructor
  · rw [List.append_assoc, List.take_left']; rfl
  · rw [List.append_assoc, List.drop_left' rfl, List.take_left' rfl]

/-- C132: encryption of a request writes ciphertext and tag of the one-shot call behind the space of
the associated data, however source and destination are cut into segments; all other bytes of the
destination stay. -/
theorem c132_enc (hc : cf.Ok) (t : Tfm) (r : Req) (c : Ctx) (hk : setkey cf t.taglen t.key r.iv = some c)
    (ht : t.taglen = t.authsize) (hss : t.taglen ≤ cf.ss) (a p x d0 d1 d2 d3 : List Byte)
    (hsrc : r.src.flatten = a ++ p ++ x) (ha : a.length = r.assoclen) (hp : p.length = r.cryptlen)
    (hdst : r.dst.flatten = d0 ++ d1 ++ d2 ++ d3) (h0 : d0.length = r.assoclen) (h1 : d1.length = r.cryptlen)
    (h2 : d2.length = t.authsize) :
    enc cf t r = some (0, d0 ++ (encOneshot cf c a p (List.replicate t.authsize 0)).1 ++
      (encOneshot cf c a p (List.replicate t.authsize 0)).2 ++ d3) := by
  obtain ⟨i1, i2, i3, i4, _⟩ := setkey_inv hc _ _ _ _ hk
  obtain ⟨s1, s2⟩ := split3 hsrc
  have hla : r.assoclen + r.cryptlen ≤ r.src.flatten.length := by rw [hsrc]; simp; omega
  have hld : r.assoclen + r.cryptlen ≤ r.dst.flatten.length := by rw [hdst]; simp; omega
  obtain ⟨xs, hx, hu⟩ := updateK_eq (encUpdate cf) (aad cf c a) r hla hld
  rw [← ha, ← hp, s2] at hx
  have hst := enc_streaming hc c i1 (by omega) a xs (List.replicate t.authsize 0)
  have hl1 := encOneshot_length hc c i1 (by omega) a p (List.replicate t.authsize 0)
  rw [hx] at hst
  have hst1 : (encCalls cf (aad cf c a) xs).2 = (encOneshot cf c a p (List.replicate t.authsize 0)).1 := by
    rw [← hst]; rfl
  have hst2 : (encFinal cf (encCalls cf (aad cf c a) xs).1 (List.replicate t.authsize 0)).2 =
      (encOneshot cf c a p (List.replicate t.authsize 0)).2 := by
    rw [← hst]; rfl
  obtain ⟨j1, j2, j3, j4⟩ := aad_inv hc c i1 a
  have htl : (encCalls cf (aad cf c a) xs).1.taglen = t.authsize := by
    rw [encCalls_eq hc xs _ j1 (by omega), encUpdate_eq hc _ j1 (by omega)]
    exact j4.trans (i4.trans ht)
  have hl2 : (encOneshot cf c a p (List.replicate t.authsize 0)).2.length = t.authsize := by
    rw [← hst2]
    unfold encFinal
    rw [htl, if_neg (by simp)]
    dsimp only
    rw [List.length_replicate]
    refine finalization_length hc _ _ ?_ _ (by omega)
    unfold padByte
    rw [xorAt_length]
    refine hc.pB _ ?_
    rw [encCalls_eq hc xs _ j1 (by omega), encUpdate_eq hc _ j1 (by omega)]
    exact (bytes_inv hc _ _ _ j1 (by omega)).1
  unfold enc
  rw [hk]
  dsimp only
  rw [aadK_eq hc c r (by omega), ← ha, s1]
  simp only [Option.bind_some]
  rw [hu, calls_enc]
  simp only [Option.bind_some]
  rw [hst1, hst2, htl]
  generalize hct : encOneshot cf c a p (List.replicate t.authsize 0) = ct at hl1 hl2
  have e1 : put r.dst.flatten a.length ct.1 = some (d0 ++ ct.1 ++ (d2 ++ d3)) := by
    rw [put_len _ _ _ (by omega), hdst, ha, ← h0]
    congr 2
    · rw [List.append_assoc, List.append_assoc, List.take_left' rfl]
    · rw [List.append_assoc (d0 ++ d1), List.drop_left' (by simp; omega)]
  rw [e1]
  simp only [Option.bind_some, ne_eq, not_true_eq_false, if_false]
  rw [put_len _ _ _ (by simp; omega)]
  have e2 : (d0 ++ ct.1 ++ (d2 ++ d3)).take (a.length + r.cryptlen) = d0 ++ ct.1 :=
    List.take_left' (by simp; omega)
  have e3 : (d0 ++ ct.1 ++ (d2 ++ d3)).drop (a.length + r.cryptlen + ct.2.length) = d3 := by
    rw [← List.append_assoc]
    exact List.drop_left' (by simp; omega)
  rw [e2, e3]
  rfl

/-- C132, decryption with `cryptlen` the length of the ciphertext without the tag: the destination
gets the plaintext of the one-shot call and its code is returned, however source and destination are
cut into segments.  Missing: the requests of the kernel API, where `cryptlen` contains the tag, see
`c132_negation`. -/
theorem c132_dec_partial (hc : cf.Ok) (t : Tfm) (r : Req) (c : Ctx) (hk : setkey cf t.taglen t.key r.iv = some c)
    (a ct tag x d0 d1 d2 : List Byte)
    (hsrc : r.src.flatten = a ++ ct ++ tag ++ x) (ha : a.length = r.assoclen) (hp : ct.length = r.cryptlen)
    (htag : tag.length = t.authsize)
    (hdst : r.dst.flatten = d0 ++ d1 ++ d2) (h0 : d0.length = r.assoclen) (h1 : d1.length = r.cryptlen) :
    dec cf t r = some ((decOneshot cf c a ct tag).2, d0 ++ (decOneshot cf c a ct tag).1 ++ d2) := by
  obtain ⟨i1, i2, i3, i4, _⟩ := setkey_inv hc _ _ _ _ hk
  obtain ⟨s1, s2⟩ := split3 (x := tag ++ x) (hsrc.trans (List.append_assoc ..))
  have hla : r.assoclen + r.cryptlen + t.authsize ≤ r.src.flatten.length := by rw [hsrc]; simp; omega
  have hld : r.assoclen + r.cryptlen ≤ r.dst.flatten.length := by rw [hdst]; simp; omega
  obtain ⟨xs, hx, hu⟩ := updateK_eq (decUpdate cf) (aad cf c a) r (by omega) hld
  rw [← ha, ← hp, s2] at hx
  have hst := dec_streaming hc c i1 (by omega) a xs tag
  have hl1 := decOneshot_length hc c i1 (by omega) a ct tag
  rw [hx] at hst
  have hst1 : (decCalls cf (aad cf c a) xs).2 = (decOneshot cf c a ct tag).1 := by rw [← hst]; rfl
  have hst2 : (decFinal cf (decCalls cf (aad cf c a) xs).1 tag).2 = (decOneshot cf c a ct tag).2 := by
    rw [← hst]; rfl
  have hg : get r.src.flatten (r.assoclen + r.cryptlen) t.authsize = some tag := by
    unfold get
    rw [if_pos (by omega), hsrc, List.append_assoc, List.drop_left' (by simp; omega), List.take_left' htag]
  unfold dec
  rw [hk]
  dsimp only
  rw [aadK_eq hc c r (by omega), ← ha, s1]
  simp only [Option.bind_some]
  rw [hu, calls_dec]
  simp only [Option.bind_some]
  rw [hst1, ha, hg, put_len _ _ _ (by omega), hdst]
  simp only [Option.bind_some, Option.map_some]
  rw [hst2, ← h0]
  have e1 : (d0 ++ d1 ++ d2).take d0.length = d0 := by rw [List.append_assoc]; exact List.take_left' rfl
  have e2 : (d0 ++ d1 ++ d2).drop (d0.length + (decOneshot cf c a ct tag).1.length) = d2 :=
    List.drop_left' (by simp; omega)
  rw [e1, e2]

/-- C132, round trip with `cryptlen` the length of the ciphertext in both directions, for all ways to
cut the four memories into segments.  Missing: see `c132_dec_partial`. -/
theorem c132_roundtrip_partial (hc : cf.Ok) (t : Tfm) (r q : Req) (c : Ctx)
    (hk : setkey cf t.taglen t.key r.iv = some c)
    (ht : t.taglen = t.authsize) (hss : t.taglen ≤ cf.ss) (a p x d0 d1 d2 d3 : List Byte)
    (hsrc : r.src.flatten = a ++ p ++ x) (ha : a.length = r.assoclen) (hp : p.length = r.cryptlen)
    (hdst : r.dst.flatten = d0 ++ d1 ++ d2 ++ d3) (h0 : d0.length = r.assoclen) (h1 : d1.length = r.cryptlen)
    (h2 : d2.length = t.authsize) (e0 e1 e2 : List Byte) (m : List Byte) (henc : enc cf t r = some (0, m))
    (hiv : q.iv = r.iv) (hqa : q.assoclen = r.assoclen) (hqc : q.cryptlen = r.cryptlen)
    (hq : q.src.flatten = a ++ m.drop r.assoclen) (hqd : q.dst.flatten = e0 ++ e1 ++ e2)
    (g0 : e0.length = q.assoclen) (g1 : e1.length = q.cryptlen) :
    dec cf t q = some (0, e0 ++ p ++ e2) := by
  obtain ⟨i1, i2, i3, i4, _⟩ := setkey_inv hc _ _ _ _ hk
  have h := c132_enc hc t r c hk ht hss a p x d0 d1 d2 d3 hsrc ha hp hdst h0 h1 h2
  rw [h] at henc
  injection henc with henc
  injection henc with _ hm
  have hl1 := encOneshot_length hc c i1 (by omega) a p (List.replicate t.authsize 0)
  have hrt := roundtrip hc c i1 (by omega) (by omega) a [p] [(encOneshot cf c a p (List.replicate t.authsize 0)).1]
    (List.replicate t.authsize 0) (by rw [List.length_replicate]; omega)
    (by rw [enc_streaming hc c i1 (by omega)]; simp)
  rw [enc_streaming hc c i1 (by omega), dec_streaming hc c i1 (by omega)] at hrt
  simp only [List.flatten_cons, List.flatten_nil, List.append_nil] at hrt
  have htl : (encOneshot cf c a p (List.replicate t.authsize 0)).2.length = t.authsize := by
    have := accept_iff hc c i1 (by omega) a [(encOneshot cf c a p (List.replicate t.authsize 0)).1]
      (encOneshot cf c a p (List.replicate t.authsize 0)).2
    rw [dec_streaming hc c i1 (by omega)] at this
    simp only [List.flatten_cons, List.flatten_nil, List.append_nil] at this
    rw [hrt] at this
    by_cases hn : (encOneshot cf c a p (List.replicate t.authsize 0)).2.length = c.taglen
    · omega
    · rw [if_pos hn] at this
      exact absurd (show (0 : Int) = -22 from this) (by decide)
  have hmd : m.drop r.assoclen = (encOneshot cf c a p (List.replicate t.authsize 0)).1 ++
      ((encOneshot cf c a p (List.replicate t.authsize 0)).2 ++ d3) := by
    rw [← hm, List.append_assoc, List.append_assoc, List.drop_left' h0]
  have hd := c132_dec_partial hc t q c (by rw [hiv]; exact hk) a
    (encOneshot cf c a p (List.replicate t.authsize 0)).1 (encOneshot cf c a p (List.replicate t.authsize 0)).2 d3
    e0 e1 e2 (by rw [hq, hmd]; simp only [List.append_assoc]) (by omega) (by omega) htl hqd g0 g1
  rw [hd, hrt]

/-- C132 is violated: in the kernel API a decryption request has ciphertext and tag in `cryptlen`.
Every such request whose source ends with the tag makes the code access memory behind the
scatterlists, whatever key, data and segments are. -/
theorem c132_negation (t : Tfm) (r : Req) (c : Ctx) (hk : setkey cf t.taglen t.key r.iv = some c)
    (ha : 0 < t.authsize) (hlen : t.authsize ≤ r.cryptlen)
    (hsrc : r.src.flatten.length = r.assoclen + r.cryptlen) :
    cryptoAeadDecrypt cf t r = none := by
  unfold cryptoAeadDecrypt dec
  rw [if_neg (by omega), hk]
  have : get r.src.flatten (r.assoclen + r.cryptlen) t.authsize = none := if_neg (by omega)
  simp only [this, Option.map_none, Option.bind_eq_none_iff]
  intros; trivial

/-- C132 is violated: with the other convention, which the code implements, the kernel refuses all
ciphertexts shorter than the tag. -/
theorem c132_negation_short (t : Tfm) (r : Req) (h : r.cryptlen < t.authsize) :
    cryptoAeadDecrypt cf t r = some (-22, r.dst.flatten) := if_pos h

/-- C132 is violated: Ascon-Keccak 512 cannot be used at all.  Its keys of 64 bytes are refused by
`lc_ascon_load_key`, and with any other key every request is. -/
theorem c132_negation_keccak512 (perm : List Byte → List Byte) (m : Nat) (hm : 16 ≤ m) (ops : List Op) (r : Req) :
    enc (asconKeccak perm 72) (ops.foldl (step m) (init m)) r = some (-22, r.dst.flatten) ∧
    dec (asconKeccak perm 72) (ops.foldl (step m) (init m)) r = some (-22, r.dst.flatten) := by
  obtain ⟨_, _, _, h⟩ := c132_handle m hm ops
  generalize ops.foldl (step m) (init m) = t at h
  have hs : setkey (asconKeccak perm 72) t.taglen t.key r.iv = none := by
    unfold setkey
    by_cases h1 : r.iv.length < 16 ∨ t.key.length < r.iv.length
    · rw [if_pos h1]
    · rw [if_neg h1]
      have : ivWord (asconKeccak perm 72).rate t.key.length t.taglen = none := by
        change ivWord 72 _ _ = none
        unfold ivWord
        by_cases h2 : t.taglen < 16 ∨ t.key.length < t.taglen
        · rw [if_pos h2]
        · rw [if_neg h2, if_pos (by decide), if_pos (by omega)]
      rw [this]; rfl
  constructor
  · unfold enc; rw [hs]
  · unfold dec; rw [hs]

/-- C132: keys of 16 bytes work with Ascon-AEAD128, for every IV of 16 bytes. -/
theorem c132_usable (key iv : List Byte) (hk : key.length = 16) (hi : iv.length = 16) :
    ∃ c, setkey ascon128 ([Op.key key].foldl (step 16) (init 16)).taglen
      ([Op.key key].foldl (step 16) (init 16)).key iv = some c := by
  obtain ⟨c, hc, _⟩ := ascon128_setkey key iv hk hi
  refine ⟨c, ?_⟩
  simp only [List.foldl_cons, List.foldl_nil, step, setkeyK, init]
  rw [if_pos (by omega)]
  exact hc

/-! ### Cases -/

def t0 : Tfm := [Op.key kat, Op.auth 16].foldl (step 16) (init 16)

/-- Source and destination cut as in the test of the library. -/
def r0 : Req where
  src := [[1], [2, 3, 4], [5, 6], [7], [8, 9, 10]]
  dst := [List.replicate 6 0, [0], [0, 0, 0], List.replicate 17 0]
  assoclen := 6
  cryptlen := 4
  iv := kat

example : t0.taglen = 16 ∧ (setkey ascon128 t0.taglen t0.key r0.iv).isSome ∧
    r0.src.flatten = [1, 2, 3, 4, 5, 6] ++ [7, 8, 9, 10] ++ [] ∧
    r0.dst.flatten = List.replicate 6 0 ++ List.replicate 4 0 ++ List.replicate 16 0 ++ [0] := by decide +kernel

/-- The honest request of the kernel API for the message of `r0`. -/
def q0 (m : List Byte) : Req where
  src := [[1, 2, 3, 4], 5 :: 6 :: (m.drop 6).take 20]
  dst := [List.replicate 10 0]
  assoclen := 6
  cryptlen := 20
  iv := kat

example : ((enc ascon128 t0 r0).map fun m =>
      (m.1, cryptoAeadDecrypt ascon128 t0 (q0 m.2), dec ascon128 t0 { q0 m.2 with cryptlen := 4 })) =
    some (0, none, some (0, List.replicate 6 0 ++ [7, 8, 9, 10])) := by decide +kernel

end LC.AsconAead.Kernel
