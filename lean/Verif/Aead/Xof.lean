import Verif.Aead.Generic
import Verif.Aead.Spec
/-
The cSHAKE and KMAC based AEADs: the code computes `Spec.cshakeEnc`/`cshakeTag` and
`Spec.kmacEnc`/`kmacTag`.
-/
namespace LC.Aead
open LC.Sponge (finals squeeze setDigestsize updates)

theorem squeezeLoop_digestsize (perm : List Byte → List Byte) : ∀ fuel c d out,
    (Sponge.squeezeLoop perm fuel c d out).1.digestsize = c.digestsize
  | 0, _, _, _ => rfl
  | fuel + 1, c, d, out => by
    unfold Sponge.squeezeLoop
    split
    · rfl
    · dsimp only
      rw [squeezeLoop_digestsize perm fuel]

theorem padState_digestsize (perm : List Byte → List Byte) (c : Sponge.Ctx) :
    (Sponge.padState perm c).digestsize = c.digestsize := by
  unfold Sponge.padState; split <;> rfl

theorem squeeze_digestsize (perm : List Byte → List Byte) (c : Sponge.Ctx) :
    (squeeze perm c).1.digestsize = c.digestsize := by
  unfold Sponge.squeeze
  dsimp only
  rw [squeezeLoop_digestsize, padState_digestsize]

theorem setDigestsize_self (c : Sponge.Ctx) (d : Nat) (h : c.digestsize = d) : setDigestsize c d = c := by
  subst h; rfl

/-- The first `d` of `(n+1) * d` bytes. -/
theorem split_first {d n : Nat} {ks : Nat → Byte} {x : List Byte} {r : List (List Byte)}
    (hx : x.length = d) (h : x ++ r.flatten = (List.range ((n + 1) * d)).map ks) :
    x = (List.range d).map ks ∧ r.flatten = (List.range (n * d)).map fun i => ks (d + i) := by
  have e : (List.range ((n + 1) * d)).map ks =
      (List.range d).map ks ++ (List.range (n * d)).map fun i => ks (d + i) := by
    rw [Nat.succ_mul, Nat.add_comm (n * d) d, List.range_add]
    simp [Function.comp_def]
  rw [e] at h
  exact List.append_inj h (by simp [hx])

theorem emits_finals (perm : List Byte → List Byte) (d : Nat) : ∀ (n : Nat) (c : Sponge.Ctx) (ks : Nat → Byte),
    c.digestsize = d → (finals perm c (List.replicate n d)).2.flatten = (List.range (n * d)).map ks →
    (finals perm c (List.replicate n d)).2.map List.length = List.replicate n d →
    Emits d (fun g => some (squeeze perm g)) n c ks
  | 0, _, _, _, _, _ => trivial
  | n + 1, c, ks, hd, h1, h2 => by
    simp only [List.replicate_succ, finals, List.flatten_cons, List.map_cons, setDigestsize_self c d hd,
      List.cons.injEq] at h1 h2
    obtain ⟨e1, e2⟩ := split_first h2.1 h1
    refine ⟨(squeeze perm c).1, ?_, ?_⟩
    · rw [← e1]
    · exact emits_finals perm d n _ _ (by rw [squeeze_digestsize, hd]) e2 h2.2

theorem sum_replicate_nat (n d : Nat) : (List.replicate n d).sum = n * d := by
  induction n with
  | zero => simp
  | succ n ih => rw [List.replicate_succ, List.sum_cons, ih, Nat.succ_mul]; omega

/-- Input xored with a stream, against a prefix of the stream computed by a specification. -/
theorem xorStream_bxor (f : Nat → Byte) (k : Nat) (x : List Byte) :
    xorStream (fun i => f (k + i)) x = Sym.Spec.bxor x (((List.range (k + x.length)).map f).drop k) := by
  apply List.ext_getElem
  · simp [xorStream, Sym.Spec.bxor]
  · intro i h1 h2
    simp only [xorStream, List.length_mapIdx] at h1
    simp [xorStream, Sym.Spec.bxor, h1]

variable {perm : List Byte → List Byte}

/-! ### cSHAKE -/

theorem ccName_eq : ccName = Spec.ascii "cSHAKE-AEAD crypt" := by decide
theorem ccAuthName_eq : ccAuthName = Spec.ascii "cSHAKE-AEAD auth" := by decide

/-- Output byte `i` of `cSHAKE(IV, "cSHAKE-AEAD crypt", K)`. -/
def ccByte (perm : List Byte → List Byte) (r : Nat) (key iv : List Byte) (i : Nat) : Byte :=
  Sponge.Spec.outByte perm r 0x04
    (Kmac.Spec.bytepad (Kmac.Spec.encodeString ccName ++ Kmac.Spec.encodeString key) r ++ iv) i

theorem cshake_ccByte (r : Nat) (key iv : List Byte) (L : Nat) :
    Kmac.Spec.cshake perm r iv L ccName key = (List.range L).map (ccByte perm r key iv) := by
  unfold Kmac.Spec.cshake
  rw [if_neg (by simp [ccName])]
  rfl

section cshake
variable (hp : ∀ s, s.length = 200 → (perm s).length = 200) (r : Nat) (hr : 0 < r) (hr2 : r ≤ 200)
  (key iv : List Byte) (hk : key.length < 2 ^ 61) (hv : iv.length < 2 ^ 63)
include hp hr hr2 hk hv

theorem cc_finals (n : Nat) :
    (finals perm (Sponge.absorb perm (Kmac.cshakeInit perm r ccName key) iv) (List.replicate n 136)).2.flatten =
        (List.range (n * 136)).map (ccByte perm r key iv) ∧
      (finals perm (Sponge.absorb perm (Kmac.cshakeInit perm r ccName key) iv) (List.replicate n 136)).2.map
        List.length = List.replicate n 136 := by
  have h := Kmac.cshake_streaming perm hp r hr hr2 ccName key [iv] (by decide) hk (by simpa using hv)
    (List.replicate n 136)
  rw [sum_replicate_nat, List.flatten_singleton, cshake_ccByte] at h
  exact h

theorem cc_first : (Kmac.cshakeFinal perm (Sponge.absorb perm (Kmac.cshakeInit perm r ccName key) iv) 136).2 =
    (List.range 136).map (ccByte perm r key iv) := by
  have h := (cc_finals hp r hr hr2 key iv hk hv 1).1
  simpa [finals, Kmac.cshakeFinal] using h

/-- The key stream part of the context after `lc_cc_setkey`. -/
theorem cc_rep (n : Nat) : KsRep 136 (fun g => some (squeeze perm g)) (ccSetkey perm r key iv).c
    (fun i => ccByte perm r key iv (32 + i)) n := by
  obtain ⟨h1, h2⟩ := cc_finals hp r hr hr2 key iv hk hv (n + 1)
  have hf := cc_first hp r hr hr2 key iv hk hv
  refine ⟨by simp [ccSetkey], ?_, ?_⟩
  · simp only [ccSetkey]
    rw [hf]
    apply List.ext_getElem
    · simp
    · intro i a b; simp
  · simp only [List.replicate_succ, finals, List.flatten_cons, List.map_cons, List.cons.injEq] at h1 h2
    obtain ⟨e1, e2⟩ := split_first h2.1 h1
    simp only [ccSetkey]
    have := emits_finals perm 136 n _ _ (by rw [squeeze_digestsize]; rfl) e2 h2.2
    simpa [Kmac.cshakeFinal, ← Nat.add_assoc] using this

theorem cc_cipher (lim : Nat) : CipherOk (cshakeAlg perm) (ccSetkey perm r key iv).c
    (Spec.cshakeEnc perm r key iv) (Spec.cshakeEnc perm r key iv) (KsGood lim) := by
  have hx : ∀ x, xorStream (fun i => ccByte perm r key iv (32 + i)) x = Spec.cshakeEnc perm r key iv x := by
    intro x
    rw [xorStream_bxor, Spec.cshakeEnc, ← ccName_eq, cshake_ccByte]
  have hl : ∀ n : Nat, n ≤ 136 - (ccSetkey perm r key iv).c.ptr + n * 136 := by intro n; omega
  constructor
  · intro cs hg
    rw [cryptCalls_eq (by decide) (A := cshakeAlg perm) id (cshakeAlg perm).enc (encOuts (cshakeAlg perm))
      (fun _ => rfl) (fun _ _ _ _ => rfl) (fun _ _ _ => ⟨rfl, rfl⟩) cs _ _ lim
      (cc_rep hp r hr hr2 key iv hk hv lim) ⟨hg.1, Nat.le_trans hg.2 (hl lim)⟩, hx]
  · intro cs hg
    rw [cryptCalls_eq (by decide) (A := cshakeAlg perm) id (cshakeAlg perm).dec (decOuts (cshakeAlg perm))
      (fun _ => rfl) (fun _ _ _ _ => rfl) (fun _ _ _ => ⟨rfl, rfl⟩) cs _ _ lim
      (cc_rep hp r hr hr2 key iv hk hv lim) ⟨hg.1, Nat.le_trans hg.2 (hl lim)⟩, hx]
  · intro cs _
    rw [← hx, ← hx, xorStream_xorStream]

theorem cc_authkey : (ccSetkey perm r key iv).m = csInit perm r ccAuthName (Spec.cshakeKey perm r key iv) := by
  simp only [ccSetkey]
  rw [cc_first hp r hr hr2 key iv hk hv, Spec.cshakeKey, ← ccName_eq, cshake_ccByte, ← List.map_take]
  congr 1

theorem cs_foldl (m : CsCtx) : ∀ chunks : List (List Byte),
    (chunks.foldl (cshakeAlg perm).upd m) = { m with hash := updates perm m.hash chunks } := by
  intro chunks
  induction chunks generalizing m with
  | nil => rfl
  | cons x xs ih => rw [List.foldl_cons, ih]; rfl

theorem cc_mac : MacOk (cshakeAlg perm) (ccSetkey perm r key iv).m (Spec.cshakeTag perm r key iv) (2 ^ 63) := by
  intro chunks old hb
  rw [cc_authkey hp r hr hr2 key iv hk hv, cs_foldl hp r hr hr2 key iv hk hv]
  have hkl : (Spec.cshakeKey perm r key iv).length = 32 := by
    rw [Spec.cshakeKey, ← ccName_eq, cshake_ccByte]; simp
  have h := (Kmac.cshake_streaming perm hp r hr hr2 ccAuthName (Spec.cshakeKey perm r key iv) chunks
    (by decide) (by omega) hb [old.length]).1
  have h' : (ccTag perm { csInit perm r ccAuthName (Spec.cshakeKey perm r key iv) with
      hash := updates perm (csInit perm r ccAuthName (Spec.cshakeKey perm r key iv)).hash chunks } old).2 =
      Spec.cshakeTag perm r key iv chunks.flatten old.length := by
    rw [Spec.cshakeTag, ← ccAuthName_eq]
    simpa [ccTag, finals, csInit, Kmac.cshakeFinal] using h
  have hlen : (Spec.cshakeTag perm r key iv chunks.flatten old.length).length = old.length := by
    unfold Spec.cshakeTag Kmac.Spec.cshake Sponge.Spec.sponge
    split <;> simp
  rw [put, hlen, List.drop_length, List.append_nil]
  exact h'

/-- After a session the MAC context is the one set up by `lc_cc_setkey` again. -/
theorem cc_session_reinit (s : Ctx (cshakeAlg perm)) (hs : s.m = (ccSetkey perm r key iv).m) (aads cs old) :
    (encSession s aads cs old).1.m = (ccSetkey perm r key iv).m := by
  have h2 := (encryptCalls_eq cs (aads.foldl addAad s)).2
  simp only [encSession, encryptTag]
  rw [h2, foldl_addAad, hs]
  rw [cs_foldl hp r hr hr2 key iv hk hv, cs_foldl hp r hr hr2 key iv hk hv]
  simp only [cshakeAlg, ccTag, ccSetkey, csInit]

end cshake

/-! ### KMAC -/

/-- The generator of `kmac_crypt.c`. -/
def kcNext (perm : List Byte → List Byte) (g : Kmac.Ctx) : Option (Kmac.Ctx × List Byte) :=
  (Kmac.finalXof perm g 136).2.map fun b => ((Kmac.finalXof perm g 136).1, b)

def kcByte (perm : List Byte → List Byte) (r : Nat) (key iv : List Byte) (i : Nat) : Byte :=
  Sponge.Spec.outByte perm r 0x04
    (Kmac.Spec.bytepad (Kmac.Spec.encodeString Kmac.Spec.name ++ Kmac.Spec.encodeString iv) r ++
      (Kmac.Spec.bytepad (Kmac.Spec.encodeString key) r ++ [] ++ Kmac.Spec.rightEncode 0)) i

theorem kmacXof_kcByte (r : Nat) (key iv : List Byte) (L : Nat) :
    Kmac.Spec.kmacXof perm r key [] L iv = (List.range L).map (kcByte perm r key iv) := by
  unfold Kmac.Spec.kmacXof Kmac.Spec.cshake
  rw [if_neg (by simp [Kmac.Spec.name])]
  rfl

theorem emits_kmac (perm : List Byte → List Byte) : ∀ (n : Nat) (c : Kmac.Ctx) (ks : Nat → Byte)
    (outs : List (List Byte)), (Kmac.finalXofs perm c (List.replicate n 136)).2 = outs.map some →
    outs.map List.length = List.replicate n 136 → outs.flatten = (List.range (n * 136)).map ks →
    Emits 136 (kcNext perm) n c ks
  | 0, _, _, _, _, _, _ => trivial
  | n + 1, c, ks, outs, h0, h2, h1 => by
    cases outs with
    | nil => simp at h2
    | cons x xs =>
      simp only [List.replicate_succ, Kmac.finalXofs, List.flatten_cons, List.map_cons,
        List.cons.injEq] at h0 h1 h2
      obtain ⟨e1, e2⟩ := split_first h2.1 h1
      refine ⟨(Kmac.finalXof perm c 136).1, ?_, ?_⟩
      · rw [← e1, kcNext, h0.1]; rfl
      · exact emits_kmac perm n _ _ xs h0.2 h2.2 e2

section kmac
variable (hp : ∀ s, s.length = 200 → (perm s).length = 200) (r : Nat) (hr : 0 < r) (hr2 : r ≤ 200)
  (key iv : List Byte) (hk : key.length < 2 ^ 61) (hv : iv.length < 2 ^ 61)
include hp hr hr2 hk hv

theorem kc_outs (n : Nat) : ∃ outs : List (List Byte),
    (Kmac.finalXofs perm (Kmac.init perm r false key iv) (List.replicate n 136)).2 = outs.map some ∧
      outs.map List.length = List.replicate n 136 ∧
      outs.flatten = (List.range (n * 136)).map (kcByte perm r key iv) := by
  have h := Kmac.kmac_xof_streaming perm hp r hr hr2 false key iv [] (List.replicate n 136) hk hv
    (by simp) (by intro d hd; rw [List.eq_of_mem_replicate hd]; decide)
  rw [sum_replicate_nat, List.flatten_nil, kmacXof_kcByte] at h
  exact h

theorem kc_first : (Kmac.finalXof perm (Kmac.init perm r false key iv) 136).2 =
    some ((List.range 136).map (kcByte perm r key iv)) := by
  obtain ⟨outs, h0, h1, h2⟩ := kc_outs hp r hr hr2 key iv hk hv 1
  cases outs with
  | nil => simp at h1
  | cons x xs =>
    cases xs with
    | cons _ _ => simp at h1
    | nil =>
      simp only [List.replicate_succ, List.replicate_zero, Kmac.finalXofs, List.map_cons, List.map_nil,
        List.cons.injEq, List.flatten_cons, List.flatten_nil, List.append_nil] at h0 h2
      rw [h0.1, h2]

theorem kc_rep (n : Nat) : KsRep 136 (kcNext perm) (kcSetkey perm r key iv).c
    (fun i => kcByte perm r key iv (32 + i)) n := by
  obtain ⟨outs, h0, h1, h2⟩ := kc_outs hp r hr hr2 key iv hk hv (n + 1)
  have hf := kc_first hp r hr hr2 key iv hk hv
  refine ⟨by simp [kcSetkey], ?_, ?_⟩
  · simp only [kcSetkey]
    rw [hf]
    apply List.ext_getElem
    · simp
    · intro i a b; simp
  · cases outs with
    | nil => simp at h1
    | cons x xs =>
      simp only [List.replicate_succ, Kmac.finalXofs, List.flatten_cons, List.map_cons,
        List.cons.injEq] at h0 h1 h2
      obtain ⟨e1, e2⟩ := split_first h1.1 h2
      have := emits_kmac perm n _ _ xs h0.2 h1.2 e2
      simpa [kcSetkey, ← Nat.add_assoc] using this

theorem kc_cipher (lim : Nat) : CipherOk (kmacAlg perm) (kcSetkey perm r key iv).c
    (Spec.kmacEnc perm r key iv) (Spec.kmacEnc perm r key iv) (KsGood lim) := by
  have hx : ∀ x, xorStream (fun i => kcByte perm r key iv (32 + i)) x = Spec.kmacEnc perm r key iv x := by
    intro x
    rw [xorStream_bxor, Spec.kmacEnc, kmacXof_kcByte]
  have hl : ∀ n : Nat, n ≤ 136 - (kcSetkey perm r key iv).c.ptr + n * 136 := by intro n; omega
  constructor
  · intro cs hg
    rw [cryptCalls_eq (by decide) (A := kmacAlg perm) id (kmacAlg perm).enc (encOuts (kmacAlg perm))
      (fun _ => rfl) (fun _ _ _ _ => rfl) (fun _ _ _ => ⟨rfl, rfl⟩) cs _ _ lim
      (kc_rep hp r hr hr2 key iv hk hv lim) ⟨hg.1, Nat.le_trans hg.2 (hl lim)⟩, hx]
  · intro cs hg
    rw [cryptCalls_eq (by decide) (A := kmacAlg perm) id (kmacAlg perm).dec (decOuts (kmacAlg perm))
      (fun _ => rfl) (fun _ _ _ _ => rfl) (fun _ _ _ => ⟨rfl, rfl⟩) cs _ _ lim
      (kc_rep hp r hr hr2 key iv hk hv lim) ⟨hg.1, Nat.le_trans hg.2 (hl lim)⟩, hx]
  · intro cs _
    rw [← hx, ← hx, xorStream_xorStream]

theorem kc_authkey : (kcSetkey perm r key iv).m = Kmac.init perm r true (Spec.kmacKey perm r key iv) [] := by
  simp only [kcSetkey]
  rw [kc_first hp r hr hr2 key iv hk hv, Spec.kmacKey, kmacXof_kcByte, Option.getD_some, ← List.map_take]
  congr 1

omit hr hk hv in
/-- `lc_kmac_final_xof` as tag function: the KMACXOF for at least four bytes, nothing below. -/
theorem kmacTag_eq (hr' : 0 < r) (sup : Bool) (ak : List Byte) (hak : ak.length < 2 ^ 61) (chunks : List (List Byte))
    (old : List Byte) (hb : chunks.flatten.length < 2 ^ 63) :
    (kmacTag perm (chunks.foldl (Kmac.update perm) (Kmac.init perm r sup ak [])) old).2 =
      put (if 4 ≤ old.length then Kmac.Spec.kmacXof perm r ak chunks.flatten old.length [] else []) old := by
  unfold kmacTag
  dsimp only
  by_cases h4 : 4 ≤ old.length
  · obtain ⟨outs, h0, h1, h2⟩ := Kmac.kmac_xof_streaming perm hp r hr' hr2 sup ak [] chunks [old.length] hak
      (by decide) hb (by simpa using h4)
    cases outs with
    | nil => simp at h1
    | cons x xs =>
      cases xs with
      | cons _ _ => simp at h1
      | nil =>
        simp only [Kmac.finalXofs, List.map_cons, List.map_nil, List.cons.injEq, List.flatten_cons,
          List.flatten_nil, List.append_nil, List.sum_cons, List.sum_nil, Nat.add_zero] at h0 h2
        rw [h0.1, h2, if_pos h4, Option.getD_some]
  · rw [if_neg h4, (Kmac.kmac_short_refused perm _ _ (by omega)).2]
    rfl

theorem kc_mac : MacOk (kmacAlg perm) (kcSetkey perm r key iv).m
    (fun msg n => if 4 ≤ n then Spec.kmacTag perm r key iv msg n else []) (2 ^ 63) := by
  intro chunks old hb
  have hkl : (Spec.kmacKey perm r key iv).length = 32 := by
    rw [Spec.kmacKey, kmacXof_kcByte]; simp
  rw [kc_authkey hp r hr hr2 key iv hk hv]
  exact kmacTag_eq hp r hr2 hr true _ (by omega) chunks old hb

/-- After a session the MAC context is the one set up by `lc_kc_setkey` again. -/
theorem kc_session_reinit (s : Ctx (kmacAlg perm)) (hs : s.m = (kcSetkey perm r key iv).m) (aads cs old) :
    (encSession s aads cs old).1.m = (kcSetkey perm r key iv).m := by
  have h2 := (encryptCalls_eq cs (aads.foldl addAad s)).2
  simp only [encSession, encryptTag]
  rw [h2, foldl_addAad, hs]
  have hu : ∀ (xs : List (List Byte)) (m : Kmac.Ctx), xs.foldl (kmacAlg perm).upd m =
      (xs.map Kmac.Op.update).foldl (Kmac.Op.run perm) m := by
    intro xs
    induction xs with
    | nil => intro m; rfl
    | cons x xs ih => intro m; rw [List.foldl_cons, ih]; rfl
  rw [hu, hu, ← List.foldl_append]
  generalize hops : (aads.map Kmac.Op.update ++ (encOuts (kmacAlg perm) s.c cs).map Kmac.Op.update) = ops
  rw [kc_authkey hp r hr hr2 key iv hk hv]
  have := Kmac.kmac_reinit perm r (Spec.kmacKey perm r key iv) [] (ops ++ [.finalXof old.length])
  rw [List.foldl_append] at this
  exact this

end kmac

end LC.Aead
