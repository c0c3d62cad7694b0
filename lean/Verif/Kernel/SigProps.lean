import Verif.Kernel.SigModel
/-
C136: signatures with the interface of the kernel module.
-/
namespace LC.Kernel.Sig

/-! ### Specification -/

/-- The algorithms registered: ML-DSA-87, -65, -44 and SLH-DSA-SHAKE 256s, 256f, 192s, 192f, 128s,
128f. -/
inductive Alg where
  | mldsa87 | mldsa65 | mldsa44 | s256s | s256f | s192s | s192f | s128s | s128f
deriving DecidableEq, Repr

/-- What the module registers for an algorithm. -/
def Alg.fam : Alg → Fam
  | .mldsa87 => mldsa 1 | .mldsa65 => mldsa 2 | .mldsa44 => mldsa 3
  | .s256s => slhdsa 1 | .s256f => slhdsa 2 | .s192s => slhdsa 3
  | .s192f => slhdsa 4 | .s128s => slhdsa 5 | .s128f => slhdsa 6

/-- Numbers of FIPS 204, table 2, and FIPS 205, table 2: type number of the library, bytes of
public key, secret key and signature. -/
def Alg.sizes : Alg → Nat × Nat × Nat × Nat
  | .mldsa87 => (1, 2592, 4896, 4627) | .mldsa65 => (2, 1952, 4032, 3309)
  | .mldsa44 => (3, 1312, 2560, 2420)
  | .s256s => (1, 64, 128, 29792) | .s256f => (2, 64, 128, 49856)
  | .s192s => (3, 48, 96, 16224) | .s192f => (4, 48, 96, 35664)
  | .s128s => (5, 32, 64, 7856) | .s128f => (6, 32, 64, 17088)

/-- The key a handle holds: none, a secret key, a public key. -/
inductive Held where
  | none | priv (k : List Byte) | pub (k : List Byte)
deriving DecidableEq, Repr

/-- Signature over a message in one piece. -/
def signMsg {S : Type} (a : Scheme S) (t : Nat) (sk msg rnd : List Byte) : List Byte :=
  a.sfinal t sk (a.upd (a.sinit t sk) msg) rnd

/-- Verification of a message in one piece. -/
def verifyMsg {S : Type} (a : Scheme S) (t : Nat) (pk msg sig : List Byte) : Int :=
  a.vfinal t pk (a.upd (a.vinit t pk) msg) sig

/-- The meaning of a call: only a key of the right length is taken, a refused key leaves no key; the
signature is made with the secret key set last over the first `src_len` bytes of the source; the source of a
verification is signature and message. -/
def Spec {S : Type} (a : Scheme S) (g : Alg) (h : Held) : Op → Held → Int × List Byte → Prop
  | .setPub k, h', o =>
    if k.length = g.sizes.2.1 then h' = .pub k ∧ o = (0, []) else h' = .none ∧ o.1 < 0 ∧ o.2 = []
  | .setPriv k, h', o =>
    if k.length = g.sizes.2.2.1 then h' = .priv k ∧ o = (0, []) else h' = .none ∧ o.1 < 0 ∧ o.2 = []
  | .sign r rnd, h', o => h' = h ∧
    match h with
    | .priv sk => if r.dstLen = g.sizes.2.2.2
        then o = (0, signMsg a g.sizes.1 sk (r.src.flatten.take r.srcLen) rnd) else o = (-22, [])
    | _ => o = (-22, [])
  | .verify r, h', o => h' = h ∧
    match h with
    | .pub pk => ∀ sig msg, sig.length = g.sizes.2.2.2 → r.src.flatten.take r.srcLen = sig ++ msg →
        o = (verifyMsg a g.sizes.1 pk msg sig, [])
    | _ => o = (-22, [])
  | .maxSize, h', o => h' = h ∧ o = (if h = .none then 0 else (g.sizes.2.2.2 : Int), [])

/-- A sequence of calls meets the specification. -/
def Meets {S : Type} (a : Scheme S) (g : Alg) : Held → List Op → List (Int × List Byte) → Prop
  | _, [], [] => True
  | h, p :: ps, o :: os => ∃ h', Spec a g h p h' o ∧ Meets a g h' ps os
  | _, _, _ => False

/-- The message can be given in pieces. -/
def Streaming {S : Type} (a : Scheme S) : Prop :=
  (∀ s x y, a.upd (a.upd s x) y = a.upd s (x ++ y)) ∧
  (∀ t k, a.upd (a.sinit t k) [] = a.sinit t k) ∧ (∀ t k, a.upd (a.vinit t k) [] = a.vinit t k)

/-! ### Lemmas -/

theorem feed_acc {S : Type} (a : Scheme S) (hs : Streaming a) (segs : List (List Byte)) :
    ∀ (s : S) (m : List Byte) (n : Nat),
      feed a.upd (a.upd s m) segs n = a.upd s (m ++ segs.flatten.take n) := by
  induction segs with
  | nil => intro s m n; simp [feed]
  | cons seg rest ih =>
    intro s m n
    unfold feed
    by_cases h : n = 0
    · simp [h]
    · rw [if_neg h, hs.1, ih, List.flatten_cons, List.take_append, List.append_assoc]
      congr 2
      by_cases hl : seg.length ≤ n
      · rw [Nat.min_eq_left hl, List.take_of_length_le (Nat.le_refl _), List.take_of_length_le hl]
      · have : n ≤ seg.length := by omega
        rw [Nat.min_eq_right this, Nat.sub_self, Nat.sub_eq_zero_of_le this]

theorem feed_sign {S : Type} (a : Scheme S) (hs : Streaming a) (t : Nat) (k : List Byte)
    (segs : List (List Byte)) (n : Nat) :
    feed a.upd (a.sinit t k) segs n = a.upd (a.sinit t k) (segs.flatten.take n) := by
  have := feed_acc a hs segs (a.sinit t k) [] n
  rwa [hs.2.1, List.nil_append] at this

theorem feed_verify {S : Type} (a : Scheme S) (hs : Streaming a) (t : Nat) (k : List Byte)
    (segs : List (List Byte)) (n : Nat) :
    feed a.upd (a.vinit t k) segs n = a.upd (a.vinit t k) (segs.flatten.take n) := by
  have := feed_acc a hs segs (a.vinit t k) [] n
  rwa [hs.2.2, List.nil_append] at this

theorem ffwd_flatten (segs : List (List Byte)) : ∀ n, (ffwd segs n).flatten = segs.flatten.drop n := by
  induction segs with
  | nil => intro n; simp [ffwd]
  | cons seg rest ih =>
    intro n
    unfold ffwd
    split
    · next h => rw [List.flatten_cons, List.flatten_cons, List.drop_append_of_le_length (by omega)]
    · next h =>
      rw [ih, List.flatten_cons, List.drop_append, List.drop_of_length_le (l := seg) (by omega),
        List.nil_append]

/-- Handle and key held. -/
def Rel (g : Alg) (c : Ctx) : Held → Prop
  | .none => c.kt = 0
  | .priv k => c = { kt := 1, ty := g.sizes.1, key := k }
  | .pub k => c = { kt := 2, ty := g.sizes.1, key := k }

theorem sigLen_eq (g : Alg) : g.fam.sigLen g.sizes.1 = g.sizes.2.2.2 := by
  cases g <;> rfl

theorem setPub_ok (g : Alg) (c : Ctx) (k : List Byte) (h : k.length = g.sizes.2.1) :
    setPub g.fam c k = ({ kt := 2, ty := g.sizes.1, key := k }, 0) := by
  unfold setPub
  rw [h]
  cases g <;> rfl

theorem setPriv_ok (g : Alg) (c : Ctx) (k : List Byte) (h : k.length = g.sizes.2.2.1) :
    setPriv g.fam c k = ({ kt := 1, ty := g.sizes.1, key := k }, 0) := by
  unfold setPriv
  rw [h]
  cases g <;> rfl

theorem mldsaPkTy_cases (n : Nat) : mldsaPkTy n = none ∨ (n = 2592 ∧ mldsaPkTy n = some 1) ∨
    (n = 1952 ∧ mldsaPkTy n = some 2) ∨ (n = 1312 ∧ mldsaPkTy n = some 3) := by
  unfold mldsaPkTy
  (repeat' split) <;> simp_all

theorem mldsaSkTy_cases (n : Nat) : mldsaSkTy n = none ∨ (n = 4896 ∧ mldsaSkTy n = some 1) ∨
    (n = 4032 ∧ mldsaSkTy n = some 2) ∨ (n = 2560 ∧ mldsaSkTy n = some 3) := by
  unfold mldsaSkTy
  (repeat' split) <;> simp_all

theorem slhPkTy_cases (n : Nat) : slhPkTy n = none ∨ (n = 64 ∧ slhPkTy n = some 1) ∨
    (n = 48 ∧ slhPkTy n = some 3) ∨ (n = 32 ∧ slhPkTy n = some 5) := by
  unfold slhPkTy
  (repeat' split) <;> simp_all

theorem slhSkTy_cases (n : Nat) : slhSkTy n = none ∨ (n = 128 ∧ slhSkTy n = some 1) ∨
    (n = 96 ∧ slhSkTy n = some 3) ∨ (n = 64 ∧ slhSkTy n = some 5) := by
  unfold slhSkTy
  (repeat' split) <;> simp_all

theorem neg22 : (-22 : Int) < 0 := by decide

theorem neg95 : (-95 : Int) < 0 := by decide

theorem setPub_bad (g : Alg) (c : Ctx) (k : List Byte) (h : k.length ≠ g.sizes.2.1) :
    (setPub g.fam c k).1.kt = 0 ∧ (setPub g.fam c k).2 < 0 := by
  unfold setPub
  have h1 := mldsaPkTy_cases k.length
  have h2 := slhPkTy_cases k.length
  cases g <;> simp only [Alg.sizes] at h <;>
    simp only [show (Alg.fam .mldsa87).pkTy = mldsaPkTy from rfl,
      show (Alg.fam .mldsa65).pkTy = mldsaPkTy from rfl, show (Alg.fam .mldsa44).pkTy = mldsaPkTy from rfl,
      show (Alg.fam .s256s).pkTy = slhPkTy from rfl, show (Alg.fam .s256f).pkTy = slhPkTy from rfl,
      show (Alg.fam .s192s).pkTy = slhPkTy from rfl, show (Alg.fam .s192f).pkTy = slhPkTy from rfl,
      show (Alg.fam .s128s).pkTy = slhPkTy from rfl, show (Alg.fam .s128f).pkTy = slhPkTy from rfl] <;>
    first
    | (rcases h1 with e | ⟨hn, e⟩ | ⟨hn, e⟩ | ⟨hn, e⟩ <;>
        (first | (exact absurd hn h) | (rw [e]; exact ⟨rfl, neg22⟩) | (rw [e]; exact ⟨rfl, neg95⟩)))
    | (rcases h2 with e | ⟨hn, e⟩ | ⟨hn, e⟩ | ⟨hn, e⟩ <;>
        (first | (exact absurd hn h) | (rw [e]; exact ⟨rfl, neg22⟩) | (rw [e]; exact ⟨rfl, neg95⟩)))

theorem setPriv_bad (g : Alg) (c : Ctx) (k : List Byte) (h : k.length ≠ g.sizes.2.2.1) :
    (setPriv g.fam c k).1.kt = 0 ∧ (setPriv g.fam c k).2 < 0 := by
  unfold setPriv
  have h1 := mldsaSkTy_cases k.length
  have h2 := slhSkTy_cases k.length
  cases g <;> simp only [Alg.sizes] at h <;>
    simp only [show (Alg.fam .mldsa87).skTy = mldsaSkTy from rfl,
      show (Alg.fam .mldsa65).skTy = mldsaSkTy from rfl, show (Alg.fam .mldsa44).skTy = mldsaSkTy from rfl,
      show (Alg.fam .s256s).skTy = slhSkTy from rfl, show (Alg.fam .s256f).skTy = slhSkTy from rfl,
      show (Alg.fam .s192s).skTy = slhSkTy from rfl, show (Alg.fam .s192f).skTy = slhSkTy from rfl,
      show (Alg.fam .s128s).skTy = slhSkTy from rfl, show (Alg.fam .s128f).skTy = slhSkTy from rfl] <;>
    first
    | (rcases h1 with e | ⟨hn, e⟩ | ⟨hn, e⟩ | ⟨hn, e⟩ <;>
        (first | (exact absurd hn h) | (rw [e]; exact ⟨rfl, neg22⟩) | (rw [e]; exact ⟨rfl, neg95⟩)))
    | (rcases h2 with e | ⟨hn, e⟩ | ⟨hn, e⟩ | ⟨hn, e⟩ <;>
        (first | (exact absurd hn h) | (rw [e]; exact ⟨rfl, neg22⟩) | (rw [e]; exact ⟨rfl, neg95⟩)))

theorem rel_step {S : Type} (a : Scheme S) (hs : Streaming a) (g : Alg) (c : Ctx) (h : Held) (o : Op)
    (hr : Rel g c h) :
    ∃ h', Spec a g h o h' (step a g.fam c o).2 ∧ Rel g (step a g.fam c o).1 h' := by
  cases o with
  | setPub k =>
    by_cases hk : k.length = g.sizes.2.1
    · refine ⟨.pub k, ?_, ?_⟩
      · simp [Spec, step, hk, setPub_ok g c k hk]
      · simp [Rel, step, setPub_ok g c k hk]
    · refine ⟨.none, ?_, ?_⟩
      · simp [Spec, step, hk, (setPub_bad g c k hk).2]
      · simp [Rel, step, (setPub_bad g c k hk).1]
  | setPriv k =>
    by_cases hk : k.length = g.sizes.2.2.1
    · refine ⟨.priv k, ?_, ?_⟩
      · simp [Spec, step, hk, setPriv_ok g c k hk]
      · simp [Rel, step, setPriv_ok g c k hk]
    · refine ⟨.none, ?_, ?_⟩
      · simp [Spec, step, hk, (setPriv_bad g c k hk).2]
      · simp [Rel, step, (setPriv_bad g c k hk).1]
  | sign r rnd =>
    refine ⟨h, ⟨rfl, ?_⟩, hr⟩
    cases h with
    | none => simp [step, sign, show c.kt = 0 from hr]
    | pub k => simp [step, sign, show c = _ from hr]
    | priv k =>
      have hc : c = { kt := 1, ty := g.sizes.1, key := k } := hr
      subst hc
      simp only [step, sign]
      by_cases hd : r.dstLen = g.sizes.2.2.2
      · simp [hd, sigLen_eq, feed_sign a hs, signMsg]
      · simp [hd, sigLen_eq]
  | verify r =>
    refine ⟨h, ⟨rfl, ?_⟩, hr⟩
    cases h with
    | none => simp [step, verify, show c.kt = 0 from hr]
    | priv k => simp [step, verify, show c = _ from hr]
    | pub k =>
      have hc : c = { kt := 2, ty := g.sizes.1, key := k } := hr
      subst hc
      intro sig msg hl hm
      have hlen : sig.length + msg.length ≤ r.srcLen := by
        have := congrArg List.length hm
        simp only [List.length_take, List.length_append] at this
        omega
      have h1 : r.src.flatten.take sig.length = sig := by
        have := congrArg (List.take sig.length) hm
        rw [List.take_take, Nat.min_eq_left (by omega), List.take_left] at this
        exact this
      have h2 : (r.src.flatten.drop sig.length).take (r.srcLen - sig.length) = msg := by
        have := congrArg (List.drop sig.length) hm
        rw [List.drop_take, List.drop_left] at this
        exact this
      simp only [step, verify, sigLen_eq, ← hl]
      rw [if_neg (by simp), if_neg (by omega), feed_verify a hs, ffwd_flatten, h1, h2]
      rfl
  | maxSize =>
    refine ⟨h, ⟨rfl, ?_⟩, hr⟩
    cases h with
    | none => simp [step, maxSize, show c.kt = 0 from hr]
    | priv k => simp [step, maxSize, show c = _ from hr, sigLen_eq]
    | pub k => simp [step, maxSize, show c = _ from hr, sigLen_eq]

theorem meets_run {S : Type} (a : Scheme S) (hs : Streaming a) (g : Alg) (ops : List Op) :
    ∀ (c : Ctx) (h : Held), Rel g c h → Meets a g h ops (run a g.fam c ops) := by
  induction ops with
  | nil => intro c h _; trivial
  | cons o os ih =>
    intro c h hr
    obtain ⟨h', h1, h2⟩ := rel_step a hs g c h o hr
    exact ⟨h', h1, ih _ _ h2⟩

/-! ### Properties -/

/-- **C136 (part: any sequence of calls).** For each of the nine algorithms and every sequence of
calls on a fresh handle, each call returns what the specification says: keys are taken exactly if they
have the length of FIPS 204/205 and are used with the type of the algorithm, a refused key leaves
none, signature and verification do not depend on the way the data are split into segments, and a key
of the other kind is never used.  Missing: sources shorter than `src_len` in a verification, and the
convention of the kernel API for the lengths of a verification, see `c136_negation_lengths`. -/
theorem c136_calls_partial {S : Type} (a : Scheme S) (hs : Streaming a) (g : Alg) (ops : List Op) :
    Meets a g .none ops (run a g.fam {} ops) :=
  meets_run a hs g ops {} .none rfl

/-- **C136 (part: signatures are accepted).** A signature made on a handle with the secret key is
accepted on a handle with the public key, however message and signature are split into segments,
whatever was called on the handles before. -/
theorem c136_roundtrip {S : Type} (a : Scheme S) (hs : Streaming a) (g : Alg) (c1 c2 : Ctx)
    (sk pk msg rnd : List Byte) (hsk : sk.length = g.sizes.2.2.1) (hpk : pk.length = g.sizes.2.1)
    (hcor : verifyMsg a g.sizes.1 pk msg (signMsg a g.sizes.1 sk msg rnd) = 0)
    (hlen : (signMsg a g.sizes.1 sk msg rnd).length = g.sizes.2.2.2)
    (src : List (List Byte)) (hsrc : src.flatten = msg) :
    ∃ sig, sign a g.fam (setPriv g.fam c1 sk).1 ⟨src, msg.length, g.sizes.2.2.2⟩ rnd = (0, sig) ∧
      ∀ (src2 : List (List Byte)) (n : Nat), src2.flatten = sig ++ msg →
        verify a g.fam (setPub g.fam c2 pk).1 ⟨src2, sig.length + msg.length, n⟩ = 0 := by
  refine ⟨signMsg a g.sizes.1 sk msg rnd, ?_, ?_⟩
  · rw [setPriv_ok g c1 sk hsk]
    simp [sign, sigLen_eq, feed_sign a hs, signMsg, hsrc]
  · intro src2 n h2
    rw [setPub_ok g c2 pk hpk]
    unfold verify
    simp only [sigLen_eq, ← hlen]
    rw [if_neg (by simp), if_neg (by omega), feed_verify a hs, ffwd_flatten, h2, List.take_left,
      List.drop_left, Nat.add_sub_cancel_left, List.take_of_length_le (Nat.le_refl _)]
    exact hcor

/-- A streaming scheme for the examples: the state is the message, a signature is the first byte
of the message repeated (0 without message). -/
def toy (n : Nat) : Scheme (List Byte) where
  sinit _ _ := []
  vinit _ _ := []
  upd s x := s ++ x
  sfinal _ _ s _ := List.replicate n (s.headD 0)
  vfinal _ _ s sig := if sig = List.replicate n (s.headD 0) then 0 else -74

theorem toy_streaming (n : Nat) : Streaming (toy n) :=
  ⟨fun s x y => by simp [toy], fun _ _ => rfl, fun _ _ => rfl⟩

theorem toy_correct (n t : Nat) (sk pk msg rnd : List Byte) :
    verifyMsg (toy n) t pk msg (signMsg (toy n) t sk msg rnd) = 0 ∧
      (signMsg (toy n) t sk msg rnd).length = n :=
  ⟨by simp [verifyMsg, signMsg, toy], by simp [signMsg, toy]⟩

/-- Non-vacuity of `c136_calls_partial`, `c136_roundtrip`: ML-DSA-44 with a message in three
segments. -/
example : ∃ sk pk : List Byte, Streaming (toy 2420) ∧ sk.length = Alg.mldsa44.sizes.2.2.1 ∧
    pk.length = Alg.mldsa44.sizes.2.1 ∧
    verifyMsg (toy 2420) 3 pk [7, 8] (signMsg (toy 2420) 3 sk [7, 8] []) = 0 ∧
    (signMsg (toy 2420) 3 sk [7, 8] []).length = Alg.mldsa44.sizes.2.2.2 ∧
    ([[7], [], [8]] : List (List Byte)).flatten = [7, 8] :=
  ⟨List.replicate 2560 1, List.replicate 1312 2, toy_streaming _, List.length_replicate,
    List.length_replicate, (toy_correct ..).1, (toy_correct 2420 3 _ [] _ _).2, rfl⟩

/-- **C136 (negation: lengths of a verification).** The kernel API gives the length of the signature
in `src_len` and the length of the message in `dst_len`.  With these lengths the message is not looked at: a
signature of the empty message is accepted for every message, and the result for any message is the one for the
empty message. -/
theorem c136_negation_lengths {S : Type} (a : Scheme S) (hs : Streaming a) (g : Alg) (c : Ctx)
    (pk sig msg : List Byte) (hpk : pk.length = g.sizes.2.1) (hsig : sig.length = g.sizes.2.2.2) :
    verify a g.fam (setPub g.fam c pk).1 ⟨[sig, msg], sig.length, msg.length⟩
      = verifyMsg a g.sizes.1 pk [] sig := by
  rw [setPub_ok g c pk hpk]
  unfold verify
  simp only [sigLen_eq, ← hsig]
  rw [if_neg (by simp), if_neg (by omega), feed_verify a hs, Nat.sub_self, List.take_zero]
  simp [verifyMsg]

theorem toy_empty (n t : Nat) (hn : n ≠ 0) (pk : List Byte) :
    verifyMsg (toy n) t pk [] (List.replicate n 0) = 0 ∧
      verifyMsg (toy n) t pk [7, 8] (List.replicate n 0) ≠ 0 := by
  constructor
  · simp [verifyMsg, toy]
  · simp [verifyMsg, toy, List.replicate_inj, hn]

/-- There is a signature which is not valid for the message `[7, 8]` and is accepted for it with
the lengths of the kernel API. -/
example : ∃ pk sig : List Byte, verifyMsg (toy 2420) 3 pk [7, 8] sig ≠ 0 ∧
    verify (toy 2420) Alg.mldsa44.fam (setPub Alg.mldsa44.fam {} pk).1 ⟨[sig, [7, 8]], sig.length, 2⟩ = 0 :=
  ⟨List.replicate 1312 2, List.replicate 2420 0, (toy_empty 2420 3 (by omega) _).2,
    (c136_negation_lengths (toy 2420) (toy_streaming _) .mldsa44 {} _ _ [7, 8] List.length_replicate
      List.length_replicate).trans (toy_empty 2420 3 (by omega) _).1⟩

end LC.Kernel.Sig
