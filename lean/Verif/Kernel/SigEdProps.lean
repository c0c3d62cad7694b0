import Verif.Kernel.SigEdModel
import Verif.Kernel.SigProps
/-
C138: ML-DSA/Ed25519 hybrid signatures with the interface of the kernel module.
-/
namespace LC.Kernel.SigEd
open LC.Kernel.Sig

/-! ### Specification -/

/-- The algorithms registered. -/
inductive Alg where
  | h87 | h65 | h44
deriving DecidableEq, Repr

/-- What the module registers for an algorithm. -/
def Alg.fam : Alg → Fam
  | .h87 => SigEd.fam 1 | .h65 => SigEd.fam 2 | .h44 => SigEd.fam 3

/-- Numbers of FIPS 204, table 2, plus those of Ed25519 (32, 64, 64): type number of the library, bytes
of public key, secret key and signature. -/
def Alg.sizes : Alg → Nat × Nat × Nat × Nat
  | .h87 => (1, 2592 + 32, 4896 + 64, 4627 + 64)
  | .h65 => (2, 1952 + 32, 4032 + 64, 3309 + 64)
  | .h44 => (3, 1312 + 32, 2560 + 64, 2420 + 64)

/-- The meaning of a call, with `keep`: whether a refused key leaves the old one. -/
def Spec {S : Type} (a : Scheme S) (g : Alg) (keep : Nat → Nat → Bool) (h : Held) :
    Op → Held → Int × List Byte → Prop
  | .setPub k, h', o =>
    if k.length = g.sizes.2.1 then h' = .pub k ∧ o = (0, [])
    else (h' = if keep k.length 32 then h else .none) ∧ o.1 < 0 ∧ o.2 = []
  | .setPriv k, h', o =>
    if k.length = g.sizes.2.2.1 then h' = .priv k ∧ o = (0, [])
    else (h' = if keep k.length 64 then h else .none) ∧ o.1 < 0 ∧ o.2 = []
  | .sign r rnd, h', o => h' = h ∧
    match h with
    | .priv sk => if r.dstLen = g.sizes.2.2.2
        then o = (0, signMsg a g.sizes.1 sk (r.src.flatten.take r.srcLen) rnd) else o = (-22, [])
    | _ => o = (-22, [])
  | .verify r, h', o => h' = h ∧
    match h with
    | .pub pk => ∀ sig msg, sig.length = g.sizes.2.2.2 → r.src.flatten.take r.srcLen = sig ++ msg →
        o = (verifyMsg a g.sizes.1 pk msg sig, [])
    | _ => o = (-22, [])
  | .maxSize, h', o => h' = h ∧ o = (if h = .none then 0 else (g.sizes.2.2.2 : Int), [])

/-- A sequence of calls meets the specification. -/
def Meets {S : Type} (a : Scheme S) (g : Alg) (keep : Nat → Nat → Bool) :
    Held → List Op → List (Int × List Byte) → Prop
  | _, [], [] => True
  | h, p :: ps, o :: os => ∃ h', Spec a g keep h p h' o ∧ Meets a g keep h' ps os
  | _, _, _ => False

/-- No key is left after a refused one. -/
def never : Nat → Nat → Bool := fun _ _ => false

/-- A refused key shorter than the Ed25519 part leaves the old key. -/
def short : Nat → Nat → Bool := fun n m => n < m

/-! ### Lemmas -/

/-- Handle and key held. -/
def Rel (g : Alg) (c : Ctx) : Held → Prop
  | .none => c.kt = 0
  | .priv k => c = { kt := 1, ty := g.sizes.1, key := k }
  | .pub k => c = { kt := 2, ty := g.sizes.1, key := k }

theorem sigLen_eq (g : Alg) : g.fam.sigLen g.sizes.1 = g.sizes.2.2.2 := by
  cases g <;> rfl

theorem setPub_ok (g : Alg) (c : Ctx) (k : List Byte) (h : k.length = g.sizes.2.1) :
    setPubH g.fam c k = ({ kt := 2, ty := g.sizes.1, key := k }, 0) := by
  unfold setPubH
  rw [if_neg (by rw [h]; cases g <;> simp [Alg.sizes])]
  unfold setPub
  rw [h]
  cases g <;> rfl

theorem setPriv_ok (g : Alg) (c : Ctx) (k : List Byte) (h : k.length = g.sizes.2.2.1) :
    setPrivH g.fam c k = ({ kt := 1, ty := g.sizes.1, key := k }, 0) := by
  unfold setPrivH
  rw [if_neg (by rw [h]; cases g <;> simp [Alg.sizes])]
  unfold setPriv
  rw [h]
  cases g <;> rfl

theorem setPub_bad (g : Alg) (c : Ctx) (k : List Byte) (h : k.length ≠ g.sizes.2.1) (h2 : 32 ≤ k.length) :
    (setPub g.fam c k).1.kt = 0 ∧ (setPub g.fam c k).2 < 0 := by
  unfold setPub
  have hp : g.fam.pkTy k.length = mldsaPkTy (k.length - 32) := by cases g <;> rfl
  rw [hp]
  have h1 := mldsaPkTy_cases (k.length - 32)
  cases g <;> simp only [Alg.sizes] at h <;> rcases h1 with e | ⟨hn, e⟩ | ⟨hn, e⟩ | ⟨hn, e⟩ <;>
    (first | (exact absurd hn (by omega)) | (rw [e]; exact ⟨rfl, neg22⟩) | (rw [e]; exact ⟨rfl, neg95⟩))

theorem setPriv_bad (g : Alg) (c : Ctx) (k : List Byte) (h : k.length ≠ g.sizes.2.2.1) (h2 : 64 ≤ k.length) :
    (setPriv g.fam c k).1.kt = 0 ∧ (setPriv g.fam c k).2 < 0 := by
  unfold setPriv
  have hp : g.fam.skTy k.length = mldsaSkTy (k.length - 64) := by cases g <;> rfl
  rw [hp]
  have h1 := mldsaSkTy_cases (k.length - 64)
  cases g <;> simp only [Alg.sizes] at h <;> rcases h1 with e | ⟨hn, e⟩ | ⟨hn, e⟩ | ⟨hn, e⟩ <;>
    (first | (exact absurd hn (by omega)) | (rw [e]; exact ⟨rfl, neg22⟩) | (rw [e]; exact ⟨rfl, neg95⟩))

theorem rel_step {S : Type} (a : Scheme S) (hs : Streaming a) (g : Alg) (c : Ctx) (h : Held) (o : Op)
    (hr : Rel g c h) :
    ∃ h', Spec a g short h o h' (stepH a g.fam c o).2 ∧ Rel g (stepH a g.fam c o).1 h' := by
  cases o with
  | setPub k =>
    by_cases hk : k.length = g.sizes.2.1
    · refine ⟨.pub k, ?_, ?_⟩
      · simp [Spec, stepH, hk, setPub_ok g c k hk]
      · simp [Rel, stepH, setPub_ok g c k hk]
    · by_cases hl : k.length < 32
      · refine ⟨h, ?_, ?_⟩
        · simp [Spec, stepH, hk, setPubH, hl, short]
        · simpa [stepH, setPubH, hl] using hr
      · have hb := setPub_bad g c k hk (by omega)
        refine ⟨.none, ?_, ?_⟩
        · simp [Spec, stepH, hk, setPubH, hl, short, hb.2]
        · simp [Rel, stepH, setPubH, hl, hb.1]
  | setPriv k =>
    by_cases hk : k.length = g.sizes.2.2.1
    · refine ⟨.priv k, ?_, ?_⟩
      · simp [Spec, stepH, hk, setPriv_ok g c k hk]
      · simp [Rel, stepH, setPriv_ok g c k hk]
    · by_cases hl : k.length < 64
      · refine ⟨h, ?_, ?_⟩
        · simp [Spec, stepH, hk, setPrivH, hl, short]
        · simpa [stepH, setPrivH, hl] using hr
      · have hb := setPriv_bad g c k hk (by omega)
        refine ⟨.none, ?_, ?_⟩
        · simp [Spec, stepH, hk, setPrivH, hl, short, hb.2]
        · simp [Rel, stepH, setPrivH, hl, hb.1]
  | sign r rnd =>
    refine ⟨h, ⟨rfl, ?_⟩, hr⟩
    cases h with
    | none => simp [stepH, step, sign, show c.kt = 0 from hr]
    | pub k => simp [stepH, step, sign, show c = _ from hr]
    | priv k =>
      have hc : c = { kt := 1, ty := g.sizes.1, key := k } := hr
      subst hc
      simp only [stepH, step, sign]
      by_cases hd : r.dstLen = g.sizes.2.2.2
      · simp [hd, sigLen_eq, feed_sign a hs, signMsg]
      · simp [hd, sigLen_eq]
  | verify r =>
    refine ⟨h, ⟨rfl, ?_⟩, hr⟩
    cases h with
    | none => simp [stepH, step, verify, show c.kt = 0 from hr]
    | priv k => simp [stepH, step, verify, show c = _ from hr]
    | pub k =>
      have hc : c = { kt := 2, ty := g.sizes.1, key := k } := hr
      subst hc
      intro sig msg hl hm
      have hlen : sig.length + msg.length ≤ r.srcLen := by
        have := congrArg List.length hm
        simp only [List.length_take, List.length_append] at this
        omega
      have h1 : r.src.flatten.take sig.length = sig := by
        have := congrArg (List.take sig.length) hm
        rw [List.take_take, Nat.min_eq_left (by omega), List.take_left] at this
        exact this
      have h2 : (r.src.flatten.drop sig.length).take (r.srcLen - sig.length) = msg := by
        have := congrArg (List.drop sig.length) hm
        rw [List.drop_take, List.drop_left] at this
        exact this
      simp only [stepH, step, verify, sigLen_eq, ← hl]
      rw [if_neg (by simp), if_neg (by omega), feed_verify a hs, ffwd_flatten, h1, h2]
      rfl
  | maxSize =>
    refine ⟨h, ⟨rfl, ?_⟩, hr⟩
    cases h with
    | none => simp [stepH, step, maxSize, show c.kt = 0 from hr]
    | priv k => simp [stepH, step, maxSize, show c = _ from hr, sigLen_eq]
    | pub k => simp [stepH, step, maxSize, show c = _ from hr, sigLen_eq]

/-! ### Properties -/

/-- **C138 (part: any sequence of calls).** For each of the three algorithms and every sequence of
calls on a fresh handle, each call returns what the specification says, with the exception that a
refused key shorter than the Ed25519 part (32 and 64 bytes) does not drop the old key.  Missing: no
key after such a refused key (false, see `c138_negation_short`), sources shorter than
`src_len` in a verification, and the convention of the kernel API for the lengths (as in C136). -/
theorem c138_calls_partial {S : Type} (a : Scheme S) (hs : Streaming a) (g : Alg) (ops : List Op) :
    Meets a g short .none ops (runH a g.fam {} ops) := by
  have key : ∀ (ops : List Op) (c : Ctx) (h : Held), Rel g c h → Meets a g short h ops (runH a g.fam c ops) := by
    intro ops
    induction ops with
    | nil => intro c h _; trivial
    | cons o os ih =>
      intro c h hr
      obtain ⟨h', h1, h2⟩ := rel_step a hs g c h o hr
      exact ⟨h', h1, ih _ _ h2⟩
  exact key ops {} .none rfl

/-- **C138 (part: keys not too short).** If no key given is shorter than the Ed25519 part, a refused key
always leaves none. -/
theorem c138_long_partial {S : Type} (a : Scheme S) (hs : Streaming a) (g : Alg) (ops : List Op)
    (hl : ∀ o ∈ ops, ∀ k, (o = .setPub k → 32 ≤ k.length) ∧ (o = .setPriv k → 64 ≤ k.length)) :
    Meets a g never .none ops (runH a g.fam {} ops) := by
  have key : ∀ (ops : List Op) (h : Held) (os : List (Int × List Byte)),
      (∀ o ∈ ops, ∀ k, (o = .setPub k → 32 ≤ k.length) ∧ (o = .setPriv k → 64 ≤ k.length)) →
      Meets a g short h ops os → Meets a g never h ops os := by
    intro ops
    induction ops with
    | nil => intro h os _ hm; cases os <;> exact hm
    | cons o ops ih =>
      intro h os hl hm
      cases os with
      | nil => exact hm
      | cons x os =>
        obtain ⟨h', h1, h2⟩ := hm
        refine ⟨h', ?_, ih h' os (fun o ho => hl o (List.mem_cons_of_mem _ ho)) h2⟩
        cases o with
        | setPub k =>
          have h3 := (hl _ List.mem_cons_self k).1 rfl
          have h4 : short k.length 32 = false := by simp [short]; omega
          simp only [Spec, h4, never] at h1 ⊢
          exact h1
        | setPriv k =>
          have h3 := (hl _ List.mem_cons_self k).2 rfl
          have h4 : short k.length 64 = false := by simp [short]; omega
          simp only [Spec, h4, never] at h1 ⊢
          exact h1
        | sign r rnd => exact h1
        | verify r => exact h1
        | maxSize => exact h1
  exact key ops .none _ hl (c138_calls_partial a hs g ops)

/-- **C138 (negation: refused short keys).** After a public key shorter than 32 bytes is refused, a
handle with a secret key still signs with it. -/
theorem c138_negation_short {S : Type} (a : Scheme S) (g : Alg) (c : Ctx) (sk k rnd : List Byte)
    (hsk : sk.length = g.sizes.2.2.1) (hk : k.length < 32) (r : Req) (hr : r.dstLen = g.sizes.2.2.2) :
    (setPubH g.fam (setPrivH g.fam c sk).1 k).2 = -22 ∧
    (sign a g.fam (setPubH g.fam (setPrivH g.fam c sk).1 k).1 r rnd).1 = 0 := by
  have h1 : setPubH g.fam (setPrivH g.fam c sk).1 k = ((setPrivH g.fam c sk).1, -22) := if_pos hk
  rw [h1, setPriv_ok g c sk hsk]
  simp [sign, sigLen_eq, hr]

/-- Non-vacuity: a sequence of calls with a short and a long refused key, and the hypotheses of
`c138_long_partial` and `c138_negation_short`. -/
example : Streaming (toy 2484) ∧
    (∀ o ∈ [Op.setPub (List.replicate 40 1), .maxSize], ∀ k : List Byte,
      (o = .setPub k → 32 ≤ k.length) ∧ (o = .setPriv k → 64 ≤ k.length)) ∧
    (List.replicate 2624 (1 : Byte)).length = Alg.h44.sizes.2.2.1 ∧
    (runH (toy 2484) Alg.h44.fam {} [.setPriv (List.replicate 2624 1), .setPub [1], .maxSize,
      .setPub (List.replicate 40 1), .maxSize]).map Prod.fst = [0, -22, 2484, -22, 0] := by
  refine ⟨toy_streaming _, ?_, List.length_replicate, by decide +kernel⟩
  intro o ho k
  simp only [List.mem_cons, List.not_mem_nil, or_false] at ho
  rcases ho with rfl | rfl
  · refine ⟨fun h => ?_, fun h => by cases h⟩
    cases h
    simp
  · exact ⟨(fun h => by cases h), fun h => by cases h⟩

end LC.Kernel.SigEd
