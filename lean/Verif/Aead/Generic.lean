import Verif.Aead.Model
/-
Encrypt-then-MAC, for any cipher and MAC of the shape used in `/repo/aead/src`, and key stream
ciphers for any generator.
-/
namespace LC.Aead

variable {A : Alg}

/-- Input bytes of a sequence of calls. -/
def inputs (cs : List (List Byte × List Byte)) : List Byte := (cs.map Prod.fst).flatten

/-- The output buffers of a sequence of encryption calls on the cipher. -/
def encOuts (A : Alg) (c : A.C) : List (List Byte × List Byte) → List (List Byte)
  | [] => []
  | (x, o) :: cs => (A.enc c x o).2 :: encOuts A (A.enc c x o).1 cs

def decOuts (A : Alg) (c : A.C) : List (List Byte × List Byte) → List (List Byte)
  | [] => []
  | (x, o) :: cs => (A.dec c x o).2 :: decOuts A (A.dec c x o).1 cs

/-- The MAC started from `m0` writes `mac msg n` into a tag buffer of `n` bytes, for every way of
feeding `msg`. -/
def MacOk (A : Alg) (m0 : A.M) (mac : List Byte → Nat → List Byte) (bound : Nat) : Prop :=
  ∀ (chunks : List (List Byte)) (old : List Byte), chunks.flatten.length < bound →
    (A.tag (chunks.foldl A.upd m0) old).2 = put (mac chunks.flatten old.length) old

/-- The cipher started from `c0` computes `E` and `D` for call sequences satisfying `Good`. -/
structure CipherOk (A : Alg) (c0 : A.C) (E D : List Byte → List Byte)
    (Good : List (List Byte × List Byte) → Prop) : Prop where
  enc : ∀ cs, Good cs → (encOuts A c0 cs).flatten = E (inputs cs)
  dec : ∀ cs, Good cs → (decOuts A c0 cs).flatten = D (inputs cs)
  inv : ∀ cs, Good cs → D (E (inputs cs)) = inputs cs

theorem foldl_addAad : ∀ (aads : List (List Byte)) (s : Ctx A),
    aads.foldl addAad s = { s with m := aads.foldl A.upd s.m }
  | [], _ => rfl
  | a :: as, s => by rw [List.foldl_cons, foldl_addAad as]; rfl

theorem encryptCalls_eq : ∀ (cs : List (List Byte × List Byte)) (s : Ctx A),
    (encryptCalls s cs).2 = (encOuts A s.c cs).flatten ∧
      (encryptCalls s cs).1.m = (encOuts A s.c cs).foldl A.upd s.m
  | [], s => ⟨rfl, rfl⟩
  | (x, o) :: cs, s => by
    obtain ⟨h1, h2⟩ := encryptCalls_eq cs (encrypt s x o).1
    simp only [encryptCalls, encOuts, h1, h2, List.flatten_cons, List.foldl_cons]
    exact ⟨rfl, rfl⟩

theorem decryptCalls_eq : ∀ (cs : List (List Byte × List Byte)) (s : Ctx A),
    (decryptCalls s cs).2 = (decOuts A s.c cs).flatten ∧
      (decryptCalls s cs).1.m = (cs.map Prod.fst).foldl A.upd s.m
  | [], s => ⟨rfl, rfl⟩
  | (x, o) :: cs, s => by
    obtain ⟨h1, h2⟩ := decryptCalls_eq cs (decrypt s x o).1
    simp only [decryptCalls, decOuts, h1, h2, List.flatten_cons, List.foldl_cons, List.map_cons]
    exact ⟨rfl, rfl⟩

/-- Encryption sessions. -/
theorem encSession_eq {mac : List Byte → Nat → List Byte} {bound : Nat} {E D : List Byte → List Byte}
    {Good : List (List Byte × List Byte) → Prop} {s : Ctx A} (hm : MacOk A s.m mac bound)
    (hc : CipherOk A s.c E D Good) (aads : List (List Byte)) (cs : List (List Byte × List Byte))
    (old : List Byte) (hg : Good cs) (hb : aads.flatten.length + (E (inputs cs)).length < bound) :
    (encSession s aads cs old).2 =
      (E (inputs cs), put (mac (aads.flatten ++ E (inputs cs)) old.length) old) := by
  obtain ⟨h1, h2⟩ := encryptCalls_eq cs (aads.foldl addAad s)
  have hc' : (aads.foldl addAad s).c = s.c := by rw [foldl_addAad]
  have hm' : (aads.foldl addAad s).m = aads.foldl A.upd s.m := by rw [foldl_addAad]
  rw [hc', hm'] at h2
  rw [hc', hc.enc cs hg] at h1
  have h3 := hm (aads ++ encOuts A s.c cs) old (by
    rw [List.flatten_append, List.length_append, hc.enc cs hg]; exact hb)
  rw [List.foldl_append, ← h2, List.flatten_append, hc.enc cs hg] at h3
  simp only [encSession, encryptTag]
  rw [h1, h3]

/-- Decryption sessions: the plaintext, and exactly which tags are accepted. -/
theorem decSession_eq {mac : List Byte → Nat → List Byte} {bound : Nat} {s : Ctx A}
    (hm : MacOk A s.m mac bound) (aads : List (List Byte)) (cs : List (List Byte × List Byte))
    (junk tag : List Byte) (n : Nat) (hn : A.clamp tag.length = some n)
    (hj : n ≤ junk.length) (hb : aads.flatten.length + (inputs cs).length < bound) :
    (decSession s aads cs junk tag).2 =
      ((decOuts A s.c cs).flatten,
       if put (mac (aads.flatten ++ inputs cs) n) (junk.take n) = tag.take n then 0 else -74) := by
  obtain ⟨h1, h2⟩ := decryptCalls_eq cs (aads.foldl addAad s)
  have hc' : (aads.foldl addAad s).c = s.c := by rw [foldl_addAad]
  have hm' : (aads.foldl addAad s).m = aads.foldl A.upd s.m := by rw [foldl_addAad]
  rw [hm'] at h2
  rw [hc'] at h1
  have h3 := hm (aads ++ cs.map Prod.fst) (junk.take n) (by
    rw [List.flatten_append, List.length_append]; exact hb)
  rw [List.foldl_append, ← h2, List.flatten_append, List.length_take, Nat.min_eq_left hj] at h3
  simp only [decSession, authenticate, hn, compareTag]
  rw [h1, h3]
  rfl

/-- The one-shot functions are sessions with one call of each kind. -/
theorem encOneshot_session (s : Ctx A) (pt ptOld aad tagOld : List Byte) :
    encOneshot s pt ptOld aad tagOld = encSession s [aad] [(pt, ptOld)] tagOld := by
  simp [encOneshot, encSession, encryptCalls]

theorem decOneshot_session (s : Ctx A) (ct ctOld aad junk tag : List Byte) :
    decOneshot s ct ctOld aad junk tag = decSession s [aad] [(ct, ctOld)] junk tag := by
  simp [decOneshot, decSession, decryptCalls]

/-! ### Key streams -/

section keystream
variable {G : Type} {B : Nat} {next : G → Option (G × List Byte)}

/-- The generator produces `n` further blocks of `B` bytes, the stream being `ks`. -/
def Emits (B : Nat) (next : G → Option (G × List Byte)) : Nat → G → (Nat → Byte) → Prop
  | 0, _, _ => True
  | n + 1, g, ks => ∃ g', next g = some (g', (List.range B).map ks) ∧
      Emits B next n g' (fun i => ks (B + i))

/-- Input xored with a stream. -/
def xorStream (ks : Nat → Byte) (x : List Byte) : List Byte := x.mapIdx fun i b => b ^^^ ks i

/-- The rest of the current block and `n` further blocks are the stream `ks`. -/
def KsRep (B : Nat) (next : G → Option (G × List Byte)) (c : KsCtx G) (ks : Nat → Byte) (n : Nat) : Prop :=
  c.ptr ≤ B ∧ c.ks.drop c.ptr = (List.range (B - c.ptr)).map ks ∧
    Emits B next n c.gen (fun i => ks (B - c.ptr + i))

theorem xorStream_length (ks : Nat → Byte) (x : List Byte) : (xorStream ks x).length = x.length := by
  simp [xorStream]

theorem xorStream_append (ks : Nat → Byte) (x y : List Byte) :
    xorStream ks (x ++ y) = xorStream ks x ++ xorStream (fun i => ks (x.length + i)) y := by
  apply List.ext_getElem
  · simp [xorStream]
  · intro i h1 h2
    simp only [xorStream, List.getElem_mapIdx, List.getElem_append, List.length_mapIdx]
    split
    · rfl
    · rw [show x.length + (i - x.length) = i by omega]

theorem xorStream_xorStream (ks : Nat → Byte) (x : List Byte) :
    xorStream ks (xorStream ks x) = x := by
  apply List.ext_getElem
  · simp [xorStream]
  · intro i h1 h2
    simp [xorStream, UInt8.xor_assoc]

theorem xorb_range (x : List Byte) (ks : Nat → Byte) (m : Nat) (h : x.length ≤ m) :
    Sym.xorb x ((List.range m).map ks) = xorStream ks x := by
  apply List.ext_getElem
  · simp [xorStream, Sym.xorb]; omega
  · intro i h1 h2
    simp [xorStream, Sym.xorb]

/-- A state at the end of its block is advanced by the generator. -/
def refill (B : Nat) (next : G → Option (G × List Byte)) (c : KsCtx G) : Option (KsCtx G) :=
  if B ≤ c.ptr then (next c.gen).map fun p => { gen := p.1, ks := p.2, ptr := 0 } else some c

theorem refill_rep {c : KsCtx G} {ks : Nat → Byte} {n : Nat} (h : KsRep B next c ks n)
    (hB : 0 < B) (ha : 0 < B - c.ptr + n * B) :
    ∃ c' n', refill B next c = some c' ∧ KsRep B next c' ks n' ∧ c'.ptr < B ∧
      B - c'.ptr + n' * B = B - c.ptr + n * B := by
  obtain ⟨h1, h2, h3⟩ := h
  by_cases hp : B ≤ c.ptr
  · have hpe : c.ptr = B := by omega
    rw [hpe] at ha h3
    cases n with
    | zero => simp at ha
    | succ n =>
      obtain ⟨g', e1, e2⟩ := h3
      refine ⟨{ gen := g', ks := (List.range B).map (fun i => ks (B - B + i)), ptr := 0 }, n, ?_, ?_, hB, ?_⟩
      · simp [refill, hp, e1]
      · refine ⟨Nat.zero_le _, ?_, ?_⟩
        · simp
        · simpa using e2
      · rw [hpe]; simp [Nat.succ_mul]; omega
  · exact ⟨c, n, by simp [refill, hp], ⟨h1, h2, h3⟩, by omega, rfl⟩

theorem KsRep.advance {c : KsCtx G} {ks : Nat → Byte} {n : Nat} (h : KsRep B next c ks n) (t : Nat)
    (ht : t ≤ B - c.ptr) : KsRep B next { c with ptr := c.ptr + t } (fun i => ks (t + i)) n := by
  obtain ⟨h1, h2, h3⟩ := h
  refine ⟨by simp; omega, ?_, ?_⟩
  · simp only
    rw [← List.drop_drop, h2]
    apply List.ext_getElem
    · simp; omega
    · intro i h4 h5; simp
  · simp only
    have : (fun i => ks (B - c.ptr + i)) = fun i => ks (t + (B - (c.ptr + t) + i)) := by
      funext i; congr 1; omega
    rw [← this]; exact h3

theorem cryptLoop_eq (hB : 0 < B) : ∀ (fuel : Nat) (c : KsCtx G) (ks : Nat → Byte) (n : Nat)
    (inp old : List Byte), KsRep B next c ks n → inp.length ≤ fuel → old.length = inp.length →
    inp.length ≤ B - c.ptr + n * B →
    (cryptLoop B next fuel c inp old).2 = xorStream ks inp ∧
      ∃ n', KsRep B next (cryptLoop B next fuel c inp old).1 (fun i => ks (inp.length + i)) n' ∧
        B - (cryptLoop B next fuel c inp old).1.ptr + n' * B + inp.length = B - c.ptr + n * B
  | 0, c, ks, n, inp, old, h, hf, ho, _ => by
    have : inp = [] := List.eq_nil_of_length_eq_zero (by omega)
    subst this
    have : old = [] := List.eq_nil_of_length_eq_zero ho
    subst this
    refine ⟨rfl, n, ?_, rfl⟩
    simpa [cryptLoop] using h
  | fuel + 1, c, ks, n, inp, old, h, hf, ho, ha => by
    by_cases h0 : inp.length = 0
    · have : inp = [] := List.eq_nil_of_length_eq_zero (by omega)
      subst this
      have : old = [] := List.eq_nil_of_length_eq_zero ho
      subst this
      refine ⟨by simp [cryptLoop, xorStream], n, ?_, by simp [cryptLoop]⟩
      simpa [cryptLoop] using h
    · obtain ⟨c', n', e1, h', hp, he⟩ := refill_rep h hB (by omega)
      unfold refill at e1
      simp only [cryptLoop, if_neg h0, e1]
      have ht : min (min inp.length B) (B - c'.ptr) = min inp.length (B - c'.ptr) := by omega
      rw [ht]
      generalize htd : min inp.length (B - c'.ptr) = t
      have hadv := h'.advance t (by omega)
      obtain ⟨i1, n'', i2, i3⟩ := cryptLoop_eq hB fuel { c' with ptr := c'.ptr + t } _ n' (inp.drop t) (old.drop t)
        hadv (by rw [List.length_drop]; omega) (by simp [ho])
        (by rw [List.length_drop]; simp only; omega)
      refine ⟨?_, n'', ?_, ?_⟩
      · rw [i1, h'.2.1, xorb_range _ _ _ (by rw [List.length_take]; omega)]
        conv => rhs; rw [← List.take_append_drop t inp, xorStream_append]
        rw [List.length_take, Nat.min_eq_left (by omega)]
      · have : (fun i => ks (inp.length + i)) = fun i => ks (t + ((inp.drop t).length + i)) := by
          funext i; rw [List.length_drop]; congr 1; omega
        rw [this]; exact i2
      · rw [List.length_drop] at i3
        simp only at i3
        omega

theorem crypt_eq (hB : 0 < B) (c : KsCtx G) (ks : Nat → Byte) (n : Nat)
    (inp old : List Byte) (h : KsRep B next c ks n) (ho : old.length = inp.length)
    (ha : inp.length ≤ B - c.ptr + n * B) :
    (crypt B next c inp old).2 = xorStream ks inp ∧
      ∃ n', KsRep B next (crypt B next c inp old).1 (fun i => ks (inp.length + i)) n' ∧
        B - (crypt B next c inp old).1.ptr + n' * B + inp.length = B - c.ptr + n * B :=
  cryptLoop_eq hB _ c ks n inp old h (Nat.le_refl _) ho ha

/-- Output buffers are as long as the inputs and at most `lim` bytes are processed in total. -/
def KsGood (lim : Nat) (cs : List (List Byte × List Byte)) : Prop :=
  (∀ c ∈ cs, c.2.length = c.1.length) ∧ (inputs cs).length ≤ lim

theorem cryptCalls_eq (hB : 0 < B) {A : Alg} (f : A.C → KsCtx G)
    (op : A.C → List Byte → List Byte → A.C × List Byte) (outs : A.C → List (List Byte × List Byte) → List (List Byte))
    (hnil : ∀ c, outs c [] = []) (hcons : ∀ c x o cs, outs c ((x, o) :: cs) = (op c x o).2 :: outs (op c x o).1 cs)
    (hop : ∀ c x o, (op c x o).2 = (crypt B next (f c) x o).2 ∧ f (op c x o).1 = (crypt B next (f c) x o).1) :
    ∀ (cs : List (List Byte × List Byte)) (c : A.C) (ks : Nat → Byte) (n : Nat),
      KsRep B next (f c) ks n → KsGood (B - (f c).ptr + n * B) cs →
      (outs c cs).flatten = xorStream ks (inputs cs)
  | [], c, ks, n, _, _ => by rw [hnil]; simp [inputs, xorStream]
  | (x, o) :: cs, c, ks, n, h, hg => by
    obtain ⟨g1, g2⟩ := hg
    simp only [inputs, List.map_cons, List.flatten_cons, List.length_append] at g2
    obtain ⟨e1, n', e2, e3⟩ := crypt_eq hB (f c) ks n x o h (g1 (x, o) (by simp)) (by omega)
    rw [hcons, List.flatten_cons, (hop c x o).1, e1]
    rw [← (hop c x o).2] at e2 e3
    rw [cryptCalls_eq hB f op outs hnil hcons hop cs _ _ n' e2
      ⟨fun d hd => g1 d (by simp [hd]), by simp only [inputs]; omega⟩]
    simp only [inputs, List.map_cons, List.flatten_cons, xorStream_append]

end keystream

end LC.Aead
