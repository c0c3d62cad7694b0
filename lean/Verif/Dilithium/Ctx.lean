import Verif.Dilithium.Correct
import Verif.Dilithium.Witness
import Verif.DomSep.Props
/-
C59: operations with a `struct lc_dilithium_ctx` that is used several times, and the
init/update/final interface.
-/
namespace LC.Dilithium
open LC.Kyber (Poly Byte)
open LC.DomSep (Req domSep Hash)

/-! ### Model -/

/-- `struct lc_dilithium_ctx`, `lc_dilithium_size.h.in:180-249`.  `ahat` is the size of the buffer for
the expanded matrix, none when the pointer is NULL; `shape` and `mat` are what the buffer was last
filled with (meaningful when `expanded`).  `hashed` is what was given to the message hash since its
last initialisation. -/
structure Ctx where
  internal : Bool
  prehash : Option Hash
  userctx : List Byte
  composite : Bool
  ahat : Option Nat
  expanded : Bool
  shape : Nat × Nat
  mat : Nat → Nat → Poly
  hashed : List Byte

/-- What a call returns: a return code (0 for an accepted signature), a signature, or undefined
behaviour: the matrix buffer is read beyond its end (`overread`) or with another layout than it was
written (`misread`). -/
inductive Out
  | ret (r : Int)
  | sig (s : List Byte)
  | overread
  | misread
deriving DecidableEq

inductive MatRes
  | mat (A : Nat → Nat → Poly)
  | fail (o : Out)

/-- `LC_DILITHIUM_*_AHAT_SIZE`, `lc_dilithium_size.h.in:266-267`. -/
def ahatSize (p : Params) : Nat := 256 * 4 * p.k * p.l

/-- The matrix an operation works with: `dilithium_signature_impl.h:448-548` for signing and 765-852
for verification, which differ only in where `rho` is read from.  A matrix that is present is used
without looking at the key or at the size of the buffer. -/
def ctxMat (p : Params) (e : Env) (fuel : Nat) (c : Ctx) (rho : List Byte) : Option (MatRes × Ctx) :=
  match c.ahat with
  | none => (matrixExpand e fuel p.k p.l rho).map fun A => (.mat A, c)
  | some size =>
    if c.expanded then
      some (if c.shape = (p.k, p.l) then .mat c.mat else .fail (if size < ahatSize p then .overread else .misread), c)
    else if size < ahatSize p then some (.fail (.ret (-75)), c)
    else (matrixExpand e fuel p.k p.l rho).map fun A => (.mat A, { c with expanded := true, shape := (p.k, p.l), mat := A })

/-- `lc_dilithium_sign_internal`, `dilithium_signature_impl.h:531-548`. -/
def signCtxInternal (p : Params) (e : Env) (fuel : Nat) (c : Ctx) (sk rnd : List Byte) : Option (Out × Ctx) :=
  (ctxMat p e fuel c (slice sk 0 32)).bind fun r =>
    match r.1 with
    | .mat A => (signInternal p e fuel A sk (squeeze (e.shake256 c.hashed) 0 64) rnd).map fun s => (.sig s, r.2)
    | .fail o => some (o, r.2)

/-- `lc_dilithium_verify_internal`, `dilithium_signature_impl.h:836-852`. -/
def verifyCtxInternal (p : Params) (e : Env) (fuel : Nat) (c : Ctx) (pk sig : List Byte) : Option (Out × Ctx) :=
  (ctxMat p e fuel c (slice pk 0 32)).bind fun r =>
    match r.1 with
    | .mat A => (verifyInternal p e fuel A pk sig (squeeze (e.shake256 c.hashed) 0 64)).map fun x => (.ret x, r.2)
    | .fail o => some (o, r.2)

/-- The message hash started with `tr` and the domain separation, `dilithium_signature_impl.h:572-580`,
`625-632`, `877-883`, `927-934`: return code and context. -/
def ctxHash (p : Params) (c : Ctx) (tr m : List Byte) : Int × Ctx :=
  let d := domSep p.category ⟨c.internal, c.prehash, c.userctx, c.composite, m⟩
  (d.1, { c with hashed := tr ++ d.2 })

/-- `lc_dilithium_ctx_zero`, `lc_dilithium_size.h.in:370-380`. -/
def ctxZero (c : Ctx) : Ctx := { c with hashed := [], expanded := if c.ahat.isSome then false else c.expanded }

/-- The calls that can be made with a context (pointers that are not NULL). -/
inductive Op
  /-- `lc_dilithium_sign_ctx_impl`, `dilithium_signature_impl.h:550-587` -/
  | sign (p : Params) (sk m rnd : List Byte)
  /-- `lc_dilithium_verify_ctx_impl`, `dilithium_signature_impl.h:854-890` -/
  | verify (p : Params) (pk m sig : List Byte)
  /-- `lc_dilithium_sign_init_impl`, `dilithium_signature_impl.h:602-633` -/
  | signInit (p : Params) (sk : List Byte)
  /-- `lc_dilithium_verify_init_impl`, `dilithium_signature_impl.h:903-935` -/
  | verifyInit (p : Params) (pk : List Byte)
  /-- `lc_dilithium_sign_update_impl` and `lc_dilithium_verify_update_impl`, 635-645, 937-950 -/
  | update (m : List Byte)
  /-- `lc_dilithium_sign_final_impl`, 647-665 -/
  | signFinal (p : Params) (sk rnd : List Byte)
  /-- `lc_dilithium_verify_final_impl`, 952-968 -/
  | verifyFinal (p : Params) (pk sig : List Byte)
  /-- `lc_dilithium_ctx_drop_ahat`, `dilithium_api.c:120-125` -/
  | drop
  /-- `lc_dilithium_ctx_zero` -/
  | zero
  /-- `lc_dilithium_ctx_internal`, `dilithium_api.c:96-101` -/
  | setInternal
  /-- `lc_dilithium_ctx_hash`, `dilithium_api.c:103-108` -/
  | setHash (h : Option Hash)
  /-- `lc_dilithium_ctx_userctx`, `dilithium_api.c:110-118` -/
  | setUserctx (u : List Byte)

/-- One call; none when a step bound of the model is reached. -/
def step (e : Env) (fuel : Nat) (c : Ctx) : Op → Option (Out × Ctx)
  | .sign p sk m rnd =>
    let h := ctxHash p c (slice sk 64 64) m
    if h.1 ≠ 0 then some (.ret h.1, h.2) else signCtxInternal p e fuel h.2 sk rnd
  | .verify p pk m sig =>
    let h := ctxHash p c (squeeze (e.shake256 pk) 0 64) m
    if h.1 ≠ 0 then some (.ret h.1, h.2) else verifyCtxInternal p e fuel h.2 pk sig
  | .signInit p sk => let h := ctxHash p c (slice sk 64 64) []; some (.ret h.1, h.2)
  | .verifyInit p pk => let h := ctxHash p c (squeeze (e.shake256 pk) 0 64) []; some (.ret h.1, h.2)
  | .update m => some (.ret 0, { c with hashed := c.hashed ++ m })
  | .signFinal p sk rnd => (signCtxInternal p e fuel c sk rnd).map fun r => (r.1, ctxZero r.2)
  | .verifyFinal p pk sig => (verifyCtxInternal p e fuel c pk sig).map fun r => (r.1, ctxZero r.2)
  | .drop => some (.ret 0, { c with expanded := false })
  | .zero => some (.ret 0, ctxZero c)
  | .setInternal => some (.ret 0, { c with internal := true })
  | .setHash h => some (.ret 0, { c with prehash := h })
  | .setUserctx u => some (.ret 0, { c with userctx := u })

/-- A sequence of calls: the outcomes and the final context. -/
def run (e : Env) (fuel : Nat) (c : Ctx) : List Op → Option (List Out × Ctx)
  | [] => some ([], c)
  | o :: os => (step e fuel c o).bind fun r => (run e fuel r.2 os).map fun s => (r.1 :: s.1, s.2)

/-! ### Specification -/

/-- The key an operation uses: parameter set and `rho`. -/
def Op.key : Op → Option (Params × List Byte)
  | .sign p sk _ _ => some (p, slice sk 0 32)
  | .verify p pk _ _ => some (p, slice pk 0 32)
  | .signFinal p sk _ => some (p, slice sk 0 32)
  | .verifyFinal p pk _ => some (p, slice pk 0 32)
  | _ => none

/-- Operations after which no expanded key is kept. -/
def Op.forgets : Op → Bool
  | .signFinal .. | .verifyFinal .. | .drop | .zero => true
  | _ => false

/-- The rule of the documentation (`lc_dilithium_size.h.in:334-339`): a context is used with one key
until the expanded key is dropped.  `k` is the key in use. -/
def Rule (k : Option (Params × List Byte)) : List Op → Prop
  | [] => True
  | o :: os =>
    (o.key = none ∨ k = none ∨ o.key = k) ∧
    Rule (if o.forgets then none else if o.key = none then k else o.key) os

/-- C59 as stated: after any sequence of calls, the next call gives what it gives with a context with
the same settings, message so far and buffer, but no expanded key. -/
def C59Claim : Prop :=
  ∀ (e : Env) (fuel : Nat) (c : Ctx) (ops : List Op) (o : Op) (outs : List Out) (c' : Ctx),
    c.expanded = false → run e fuel c ops = some (outs, c') →
    (step e fuel c' o).map Prod.fst = (step e fuel { c' with expanded := false } o).map Prod.fst

/-! ### Proofs -/

/-- What is known about a context with the key `k` in use. -/
def Inv (e : Env) (fuel : Nat) (k : Option (Params × List Byte)) (c : Ctx) : Prop :=
  c.expanded = true → c.ahat.isSome = true →
    ∃ p rho, k = some (p, rho) ∧ c.shape = (p.k, p.l) ∧ matrixExpand e fuel p.k p.l rho = some c.mat ∧
      ∀ s, c.ahat = some s → ¬ s < ahatSize p

theorem ctxMat_fresh {p : Params} {e : Env} {fuel : Nat} {k : Option (Params × List Byte)} {c : Ctx} {rho : List Byte}
    (hi : Inv e fuel k c) (hk : k = none ∨ some (p, rho) = k) :
    (ctxMat p e fuel c rho).map Prod.fst = (ctxMat p e fuel { c with expanded := false } rho).map Prod.fst := by
  unfold ctxMat
  dsimp only
  cases ha : c.ahat with
  | none => simp [Option.map_map, Function.comp_def]
  | some size =>
    dsimp only
    by_cases he : c.expanded = true
    · obtain ⟨p', rho', e1, e2, e3, e4⟩ := hi he (by rw [ha]; rfl)
      rcases hk with hk | hk
      · rw [hk] at e1; cases e1
      · rw [e1] at hk
        cases hk
        rw [if_pos he, if_pos e2, if_neg Bool.false_ne_true, if_neg (e4 size ha), e3]
        rfl
    · rw [if_neg he, if_neg Bool.false_ne_true]
      by_cases hs : size < ahatSize p
      · rw [if_pos hs, if_pos hs]; rfl
      · rw [if_neg hs, if_neg hs, Option.map_map]

theorem ctxMat_inv {p : Params} {e : Env} {fuel : Nat} {k : Option (Params × List Byte)} {c c' : Ctx} {rho : List Byte} {r : MatRes}
    (hi : Inv e fuel k c) (hk : k = none ∨ some (p, rho) = k) (h : ctxMat p e fuel c rho = some (r, c')) :
    Inv e fuel (some (p, rho)) c' ∧ c'.hashed = c.hashed := by
  unfold ctxMat at h
  cases ha : c.ahat with
  | none =>
    rw [ha] at h
    dsimp only at h
    cases hm : matrixExpand e fuel p.k p.l rho with
    | none => rw [hm] at h; cases h
    | some A =>
      rw [hm] at h
      cases h
      exact ⟨fun _ h2 => (by rw [ha] at h2; cases h2), rfl⟩
  | some size =>
    rw [ha] at h
    dsimp only at h
    by_cases he : c.expanded = true
    · rw [if_pos he] at h
      cases h
      refine ⟨?_, rfl⟩
      intro h1 h2
      obtain ⟨p', rho', e1, e2, e3, e4⟩ := hi h1 h2
      rcases hk with hk | hk
      · rw [hk] at e1; cases e1
      · rw [e1] at hk
        exact ⟨p', rho', hk, e2, e3, e4⟩
    · rw [if_neg he] at h
      by_cases hs : size < ahatSize p
      · rw [if_pos hs] at h
        cases h
        exact ⟨fun h1 => absurd h1 he, rfl⟩
      · rw [if_neg hs] at h
        cases hm : matrixExpand e fuel p.k p.l rho with
        | none => rw [hm] at h; cases h
        | some A =>
          rw [hm] at h
          cases h
          refine ⟨fun _ _ => ⟨p, rho, rfl, rfl, hm, fun s hs' => ?_⟩, rfl⟩
          cases hs'
          exact hs

theorem sign_fresh {p : Params} {e : Env} {fuel : Nat} {k : Option (Params × List Byte)} {c : Ctx} {sk rnd : List Byte}
    (hi : Inv e fuel k c) (hk : k = none ∨ some (p, slice sk 0 32) = k) :
    (signCtxInternal p e fuel c sk rnd).map Prod.fst = (signCtxInternal p e fuel { c with expanded := false } sk rnd).map Prod.fst := by
  have h := ctxMat_fresh hi hk
  unfold signCtxInternal
  revert h
  generalize ctxMat p e fuel c (slice sk 0 32) = a
  generalize ctxMat p e fuel { c with expanded := false } (slice sk 0 32) = b
  intro h
  cases a with
  | none => cases b with
    | none => rfl
    | some b => cases h
  | some a => cases b with
    | none => cases h
    | some b =>
      simp only [Option.map_some, Option.some.injEq] at h
      simp only [Option.bind_some, h]
      cases b.1 with
      | mat A => simp [Option.map_map, Function.comp_def]
      | fail o => rfl

theorem verify_fresh {p : Params} {e : Env} {fuel : Nat} {k : Option (Params × List Byte)} {c : Ctx} {pk sig : List Byte}
    (hi : Inv e fuel k c) (hk : k = none ∨ some (p, slice pk 0 32) = k) :
    (verifyCtxInternal p e fuel c pk sig).map Prod.fst = (verifyCtxInternal p e fuel { c with expanded := false } pk sig).map Prod.fst := by
  have h := ctxMat_fresh hi hk
  unfold verifyCtxInternal
  revert h
  generalize ctxMat p e fuel c (slice pk 0 32) = a
  generalize ctxMat p e fuel { c with expanded := false } (slice pk 0 32) = b
  intro h
  cases a with
  | none => cases b with
    | none => rfl
    | some b => cases h
  | some a => cases b with
    | none => cases h
    | some b =>
      simp only [Option.map_some, Option.some.injEq] at h
      simp only [Option.bind_some, h]
      cases b.1 with
      | mat A => simp [Option.map_map, Function.comp_def]
      | fail o => rfl

theorem sign_inv {p : Params} {e : Env} {fuel : Nat} {k : Option (Params × List Byte)} {c c' : Ctx} {sk rnd : List Byte} {o : Out}
    (hi : Inv e fuel k c) (hk : k = none ∨ some (p, slice sk 0 32) = k) (h : signCtxInternal p e fuel c sk rnd = some (o, c')) :
    Inv e fuel (some (p, slice sk 0 32)) c' := by
  unfold signCtxInternal at h
  cases hm : ctxMat p e fuel c (slice sk 0 32) with
  | none => rw [hm] at h; cases h
  | some r =>
    have hv := (ctxMat_inv (r := r.1) (c' := r.2) hi hk hm).1
    rw [hm, Option.bind_some] at h
    cases hr : r.1 with
    | mat A =>
      rw [hr] at h
      dsimp only at h
      cases hs : signInternal p e fuel A sk (squeeze (e.shake256 c.hashed) 0 64) rnd with
      | none => rw [hs] at h; cases h
      | some s => rw [hs] at h; cases h; exact hv
    | fail o' => rw [hr] at h; cases h; exact hv

theorem verify_inv {p : Params} {e : Env} {fuel : Nat} {k : Option (Params × List Byte)} {c c' : Ctx} {pk sig : List Byte} {o : Out}
    (hi : Inv e fuel k c) (hk : k = none ∨ some (p, slice pk 0 32) = k) (h : verifyCtxInternal p e fuel c pk sig = some (o, c')) :
    Inv e fuel (some (p, slice pk 0 32)) c' := by
  unfold verifyCtxInternal at h
  cases hm : ctxMat p e fuel c (slice pk 0 32) with
  | none => rw [hm] at h; cases h
  | some r =>
    have hv := (ctxMat_inv (r := r.1) (c' := r.2) hi hk hm).1
    rw [hm, Option.bind_some] at h
    cases hr : r.1 with
    | mat A =>
      rw [hr] at h
      dsimp only at h
      cases hs : verifyInternal p e fuel A pk sig (squeeze (e.shake256 c.hashed) 0 64) with
      | none => rw [hs] at h; cases h
      | some s => rw [hs] at h; cases h; exact hv
    | fail o' => rw [hr] at h; cases h; exact hv

theorem zero_inv (e : Env) (fuel : Nat) (c : Ctx) : Inv e fuel none (ctxZero c) := by
  intro h1 h2
  unfold ctxZero at h1 h2
  dsimp only at h1 h2
  rw [if_pos h2] at h1
  cases h1

theorem inv_of_eq {e : Env} {fuel : Nat} {k : Option (Params × List Byte)} {c c' : Ctx} (h : Inv e fuel k c)
    (h1 : c'.expanded = c.expanded) (h2 : c'.ahat = c.ahat) (h3 : c'.shape = c.shape) (h4 : c'.mat = c.mat) : Inv e fuel k c' := by
  intro a b
  rw [h1] at a; rw [h2] at b
  obtain ⟨p, rho, e1, e2, e3, e4⟩ := h a b
  exact ⟨p, rho, e1, by rw [h3, e2], by rw [h4, e3], by rw [h2]; exact e4⟩

theorem inv_unused {e : Env} {fuel : Nat} {k : Option (Params × List Byte)} {c : Ctx} {q : Params × List Byte}
    (h : Inv e fuel k c) (hk : k = none ∨ some q = k) : Inv e fuel (some q) c := by
  intro a b
  obtain ⟨p, rho, e1, r⟩ := h a b
  rcases hk with hk | hk
  · rw [hk] at e1; cases e1
  · rw [e1] at hk; cases hk
    exact ⟨p, rho, rfl, r⟩

theorem step_inv {e : Env} {fuel : Nat} {k : Option (Params × List Byte)} {c c' : Ctx} {o : Op} {out : Out}
    (hi : Inv e fuel k c) (hk : o.key = none ∨ k = none ∨ o.key = k) (h : step e fuel c o = some (out, c')) :
    Inv e fuel (if o.forgets then none else if o.key = none then k else o.key) c' := by
  have kk : ∀ q, o.key = some q → k = none ∨ some q = k := by
    intro q hq
    rw [hq] at hk
    rcases hk with hk | hk | hk
    · cases hk
    · exact Or.inl hk
    · exact Or.inr hk
  cases o with
  | sign p sk m rnd =>
    simp only [step] at h
    split at h
    · cases h
      exact inv_of_eq (inv_unused hi (kk _ rfl)) rfl rfl rfl rfl
    · exact sign_inv (c := (ctxHash p c (slice sk 64 64) m).2) (inv_of_eq hi rfl rfl rfl rfl) (kk _ rfl) h
  | verify p pk m sig =>
    simp only [step] at h
    split at h
    · cases h
      exact inv_of_eq (inv_unused hi (kk _ rfl)) rfl rfl rfl rfl
    · exact verify_inv (c := (ctxHash p c (squeeze (e.shake256 pk) 0 64) m).2) (inv_of_eq hi rfl rfl rfl rfl) (kk _ rfl) h
  | signInit p sk => simp only [step] at h; cases h; exact inv_of_eq hi rfl rfl rfl rfl
  | verifyInit p pk => simp only [step] at h; cases h; exact inv_of_eq hi rfl rfl rfl rfl
  | update m => cases h; exact inv_of_eq hi rfl rfl rfl rfl
  | signFinal p sk rnd =>
    simp only [step] at h
    cases hs : signCtxInternal p e fuel c sk rnd with
    | none => rw [hs] at h; cases h
    | some r => rw [hs] at h; cases h; exact zero_inv e fuel r.2
  | verifyFinal p pk sig =>
    simp only [step] at h
    cases hs : verifyCtxInternal p e fuel c pk sig with
    | none => rw [hs] at h; cases h
    | some r => rw [hs] at h; cases h; exact zero_inv e fuel r.2
  | drop => cases h; intro h1; cases h1
  | zero => cases h; exact zero_inv e fuel c
  | setInternal => cases h; exact inv_of_eq hi rfl rfl rfl rfl
  | setHash x => cases h; exact inv_of_eq hi rfl rfl rfl rfl
  | setUserctx u => cases h; exact inv_of_eq hi rfl rfl rfl rfl

theorem step_fresh {e : Env} {fuel : Nat} {k : Option (Params × List Byte)} {c : Ctx} {o : Op}
    (hi : Inv e fuel k c) (hk : o.key = none ∨ k = none ∨ o.key = k) :
    (step e fuel c o).map Prod.fst = (step e fuel { c with expanded := false } o).map Prod.fst := by
  have kk : ∀ q, o.key = some q → k = none ∨ some q = k := by
    intro q hq
    rw [hq] at hk
    rcases hk with hk | hk | hk
    · cases hk
    · exact Or.inl hk
    · exact Or.inr hk
  cases o with
  | sign p sk m rnd =>
    simp only [step]
    have e1 : (ctxHash p { c with expanded := false } (slice sk 64 64) m).1 = (ctxHash p c (slice sk 64 64) m).1 := rfl
    rw [e1]
    split
    · rfl
    · exact sign_fresh (c := (ctxHash p c (slice sk 64 64) m).2) (inv_of_eq hi rfl rfl rfl rfl) (kk _ rfl)
  | verify p pk m sig =>
    simp only [step]
    have e1 : (ctxHash p { c with expanded := false } (squeeze (e.shake256 pk) 0 64) m).1 = (ctxHash p c (squeeze (e.shake256 pk) 0 64) m).1 := rfl
    rw [e1]
    split
    · rfl
    · exact verify_fresh (c := (ctxHash p c (squeeze (e.shake256 pk) 0 64) m).2) (inv_of_eq hi rfl rfl rfl rfl) (kk _ rfl)
  | signFinal p sk rnd =>
    simp only [step, Option.map_map]
    exact sign_fresh hi (kk _ rfl)
  | verifyFinal p pk sig =>
    simp only [step, Option.map_map]
    exact verify_fresh hi (kk _ rfl)
  | _ => rfl

theorem rule_run {e : Env} {fuel : Nat} {o : Op} : ∀ (ops : List Op) (k : Option (Params × List Byte)) (c c' : Ctx) (outs : List Out),
    Inv e fuel k c → Rule k (ops ++ [o]) → run e fuel c ops = some (outs, c') →
    ∃ k', Inv e fuel k' c' ∧ (o.key = none ∨ k' = none ∨ o.key = k')
  | [], k, c, c', outs, hi, hr, h => by
    cases h
    exact ⟨k, hi, hr.1⟩
  | o' :: os, k, c, c', outs, hi, hr, h => by
    unfold run at h
    cases hs : step e fuel c o' with
    | none => rw [hs] at h; cases h
    | some r =>
      rw [hs, Option.bind_some] at h
      cases hq : run e fuel r.2 os with
      | none => rw [hq] at h; cases h
      | some s =>
        rw [hq] at h
        cases h
        exact rule_run os _ r.2 s.2 s.1 (step_inv (out := r.1) hi hr.1 hs) hr.2 hq

/-- C59 under the rule of the documentation: when the context is used with one key until the expanded
key is dropped (or the context is zeroized, which the final calls do), every call gives what it gives
without an expanded key, whatever was called before, for every number of calls.  Missing: contexts
used with several keys, for which the claim is false (`c59_false`). -/
theorem history_independent_partial (e : Env) (fuel : Nat) (c : Ctx) (ops : List Op) (o : Op) (outs : List Out) (c' : Ctx)
    (hx : c.expanded = false) (hr : Rule none (ops ++ [o])) (h : run e fuel c ops = some (outs, c')) :
    (step e fuel c' o).map Prod.fst = (step e fuel { c' with expanded := false } o).map Prod.fst := by
  obtain ⟨k', hi, hk⟩ := rule_run ops none c c' outs (fun h1 => by rw [hx] at h1; cases h1) hr h
  exact step_fresh hi hk

/-- A context without buffer for the matrix never depends on its history. -/
theorem history_independent_no_buffer (e : Env) (fuel : Nat) (c : Ctx) (o : Op) (h : c.ahat = none) :
    (step e fuel c o).map Prod.fst = (step e fuel { c with expanded := false } o).map Prod.fst :=
  step_fresh (k := none) (fun _ h2 => by rw [h] at h2; cases h2) (Or.inr (Or.inl rfl))

/-- One-shot signing without a cached matrix is the stateless operation of C56 on the encoded message. -/
theorem sign_op (p : Params) (e : Env) (fuel : Nat) (c : Ctx) (sk m rnd : List Byte) (hx : c.expanded = false)
    (hs : ∀ s, c.ahat = some s → ¬ s < ahatSize p) (hd : (domSep p.category ⟨c.internal, c.prehash, c.userctx, c.composite, m⟩).1 = 0) :
    (step e fuel c (.sign p sk m rnd)).map Prod.fst =
      (sign p e fuel sk (domSep p.category ⟨c.internal, c.prehash, c.userctx, c.composite, m⟩).2 rnd).map Out.sig := by
  simp only [step]
  rw [if_neg (by simp [ctxHash, hd])]
  unfold signCtxInternal ctxMat sign muOf ctxHash
  dsimp only
  cases ha : c.ahat with
  | none =>
    dsimp only
    cases hm : matrixExpand e fuel p.k p.l (slice sk 0 32) with
    | none => rfl
    | some A => simp [Option.map_map, Function.comp_def]
  | some size =>
    dsimp only
    rw [hx, if_neg (by decide), if_neg (hs size ha)]
    cases hm : matrixExpand e fuel p.k p.l (slice sk 0 32) with
    | none => rfl
    | some A => simp [Option.map_map, Function.comp_def]

theorem verify_op (p : Params) (e : Env) (fuel : Nat) (c : Ctx) (pk m sig : List Byte) (hx : c.expanded = false)
    (hs : ∀ s, c.ahat = some s → ¬ s < ahatSize p) (hd : (domSep p.category ⟨c.internal, c.prehash, c.userctx, c.composite, m⟩).1 = 0) :
    (step e fuel c (.verify p pk m sig)).map Prod.fst =
      (verify p e fuel pk (domSep p.category ⟨c.internal, c.prehash, c.userctx, c.composite, m⟩).2 sig).map Out.ret := by
  simp only [step]
  rw [if_neg (by simp [ctxHash, hd])]
  unfold verifyCtxInternal ctxMat verify muOf ctxHash
  dsimp only
  cases ha : c.ahat with
  | none =>
    dsimp only
    cases hm : matrixExpand e fuel p.k p.l (slice pk 0 32) with
    | none => rfl
    | some A => simp [Option.map_map, Function.comp_def]
  | some size =>
    dsimp only
    rw [hx, if_neg (by decide), if_neg (hs size ha)]
    cases hm : matrixExpand e fuel p.k p.l (slice pk 0 32) with
    | none => rfl
    | some A => simp [Option.map_map, Function.comp_def]

/-- Contexts above 255 bytes and unsupported prehashes are refused by signing and verification, and
the expanded key is untouched. -/
theorem refused (p : Params) (e : Env) (fuel : Nat) (c : Ctx) (sk m rnd : List Byte) (r : Int)
    (hd : (domSep p.category ⟨c.internal, c.prehash, c.userctx, c.composite, m⟩).1 = r) (hr : r ≠ 0) :
    (step e fuel c (.sign p sk m rnd)).map Prod.fst = some (.ret r) ∧ (step e fuel c (.verify p sk m rnd)).map Prod.fst = some (.ret r) := by
  simp only [step]
  have e1 : ∀ tr, (ctxHash p c tr m).1 = r := fun _ => hd
  rw [if_pos (by rw [e1]; exact hr), if_pos (by rw [e1]; exact hr)]
  simp [e1]

/-- init, any number of updates, final: the outcome of the one-shot call on the whole message. -/
theorem sign_stream (p : Params) (e : Env) (fuel : Nat) (c : Ctx) (sk rnd : List Byte) (ms : List (List Byte))
    (hd : (domSep p.category ⟨c.internal, c.prehash, c.userctx, c.composite, []⟩).1 = 0) :
    ((run e fuel c (.signInit p sk :: ms.map Op.update ++ [.signFinal p sk rnd])).map fun r => r.1.getLast?) =
      (step e fuel c (.sign p sk ms.flatten rnd)).map fun r => some r.1 := by
  have hst := LC.DomSep.domSep_stream p.category ⟨c.internal, c.prehash, c.userctx, c.composite, []⟩ ms.flatten hd
  dsimp only at hst
  have e2 : ctxHash p c (slice sk 64 64) ms.flatten =
      (0, { c with hashed := (ctxHash p c (slice sk 64 64) []).2.hashed ++ ms.flatten }) := by
    unfold ctxHash
    dsimp only
    rw [hst, List.append_assoc]
  have hrun : ∀ (ms : List (List Byte)) (c : Ctx), ((run e fuel c (ms.map Op.update ++ [.signFinal p sk rnd])).map fun r => r.1.getLast?) =
      (signCtxInternal p e fuel { c with hashed := c.hashed ++ ms.flatten } sk rnd).map fun r => some r.1 := by
    intro ms
    induction ms with
    | nil =>
      intro c
      simp only [List.map_nil, List.nil_append, List.flatten_nil, List.append_nil, run, step]
      cases signCtxInternal p e fuel c sk rnd <;> rfl
    | cons m ms ih =>
      intro c
      simp only [List.map_cons, List.cons_append, run, step, Option.bind_some]
      have := ih { c with hashed := c.hashed ++ m }
      simp only [List.append_assoc] at this
      simp only [List.flatten_cons]
      rw [← this]
      cases hq : run e fuel { c with hashed := c.hashed ++ m } (List.map Op.update ms ++ [Op.signFinal p sk rnd]) with
      | none => rfl
      | some r =>
        simp only [Option.map_some, Option.some.injEq]
        have hne : r.1 ≠ [] := by
          intro h0
          cases ms with
          | nil =>
            simp only [List.map_nil, List.nil_append, run] at hq
            cases h1 : step e fuel { c with hashed := c.hashed ++ m } (Op.signFinal p sk rnd) with
            | none => rw [h1] at hq; cases hq
            | some x => rw [h1] at hq; cases hq; cases h0
          | cons a as =>
            simp only [List.map_cons, List.cons_append, run] at hq
            cases h1 : step e fuel { c with hashed := c.hashed ++ m } (Op.update a) with
            | none => rw [h1] at hq; cases hq
            | some x =>
              rw [h1, Option.bind_some] at hq
              cases h2 : run e fuel x.2 (List.map Op.update as ++ [Op.signFinal p sk rnd]) with
              | none => rw [h2] at hq; cases hq
              | some y => rw [h2] at hq; cases hq; cases h0
        cases hr : r.1 with
        | nil => exact absurd hr hne
        | cons a b => rfl
  simp only [List.cons_append, run, step, Option.bind_some]
  rw [e2]
  dsimp only
  rw [if_neg (by decide)]
  have h3 := hrun ms (ctxHash p c (slice sk 64 64) []).2
  have h4 : ({ (ctxHash p c (slice sk 64 64) []).2 with hashed := (ctxHash p c (slice sk 64 64) []).2.hashed ++ ms.flatten } : Ctx) =
      { c with hashed := (ctxHash p c (slice sk 64 64) []).2.hashed ++ ms.flatten } := rfl
  rw [h4] at h3
  rw [← h3]
  cases hq : run e fuel (ctxHash p c (slice sk 64 64) []).2 (List.map Op.update ms ++ [Op.signFinal p sk rnd]) with
  | none => rfl
  | some r =>
    rw [hq] at h3
    simp only [Option.map_some, Option.some.injEq]
    cases hr : r.1 with
    | nil =>
      rw [Option.map_some, hr] at h3
      cases hx : signCtxInternal p e fuel { c with hashed := (ctxHash p c (slice sk 64 64) []).2.hashed ++ ms.flatten } sk rnd with
      | none => rw [hx] at h3; cases h3
      | some y => rw [hx] at h3; cases h3
    | cons a b => rfl

/-- Verification with any context with the same settings accepts what signing with a context
produced, both contexts without an expanded key (C59 extends this to used contexts). -/
theorem ctx_verify_accepts (p : Params) (hp : p.Ok) (e : Env) (fuel : Nat) (seed m rnd pk sk s : List Byte) (c c' : Ctx)
    (hk : keypair p e fuel seed = some (pk, sk)) (hx : c.expanded = false) (hx' : c'.expanded = false)
    (hb : ∀ s, c.ahat = some s → ¬ s < ahatSize p) (hb' : ∀ s, c'.ahat = some s → ¬ s < ahatSize p)
    (h1 : c'.internal = c.internal) (h2 : c'.prehash = c.prehash) (h3 : c'.userctx = c.userctx) (h4 : c'.composite = c.composite)
    (hs : (step e fuel c (.sign p sk m rnd)).map Prod.fst = some (.sig s)) :
    (step e fuel c' (.verify p pk m s)).map Prod.fst = some (.ret 0) := by
  by_cases hd : (domSep p.category ⟨c.internal, c.prehash, c.userctx, c.composite, m⟩).1 = 0
  · rw [sign_op p e fuel c sk m rnd hx hb hd] at hs
    cases hq : sign p e fuel sk (domSep p.category ⟨c.internal, c.prehash, c.userctx, c.composite, m⟩).2 rnd with
    | none => rw [hq] at hs; cases hs
    | some s' =>
      rw [hq] at hs
      cases hs
      have := verify_accepts p hp e fuel seed _ rnd pk sk s hk hq
      rw [verify_op p e fuel c' pk m s hx' hb' (by rw [h1, h2, h3, h4]; exact hd), h1, h2, h3, h4, this]
      rfl
  · rw [(refused p e fuel c sk m rnd _ rfl hd).1] at hs
    cases hs

/-- After use with another key, the matrix of the first key is used: signing and verification compute
with the wrong matrix, no error is reported. -/
theorem stale_matrix (p : Params) (e : Env) (fuel : Nat) (c : Ctx) (pk m sig : List Byte) (size : Nat) (hx : c.expanded = true)
    (ha : c.ahat = some size) (hsh : c.shape = (p.k, p.l))
    (hd : (domSep p.category ⟨c.internal, c.prehash, c.userctx, c.composite, m⟩).1 = 0) :
    (step e fuel c (.verify p pk m sig)).map Prod.fst =
      (verifyInternal p e fuel c.mat pk sig (muOf e (squeeze (e.shake256 pk) 0 64)
        (domSep p.category ⟨c.internal, c.prehash, c.userctx, c.composite, m⟩).2)).map Out.ret := by
  simp only [step]
  rw [if_neg (by simp [ctxHash, hd])]
  unfold verifyCtxInternal ctxMat ctxHash muOf
  dsimp only
  rw [ha]
  dsimp only
  rw [if_pos hx, if_pos hsh]
  simp [Option.map_map, Function.comp_def]

/-! ### The claim without the rule -/

/-- A context with a buffer for an ML-DSA-44 matrix. -/
def ctx44 : Ctx := ⟨false, none, [], false, some (ahatSize mldsa44), false, (0, 0), fun _ _ _ => 0, []⟩

theorem run_one {e : Env} {fuel : Nat} {c : Ctx} {o : Op} {r : Out × Ctx} (h : step e fuel c o = some r) : run e fuel c [o] = some ([r.1], r.2) := by
  unfold run
  rw [h]
  rfl

/-- A verification with an ML-DSA-44 key expands the matrix even if the signature is malformed. -/
theorem first_use (pk sig : List Byte) (hz : vecChknorm mldsa44.l (fun j => polyzUnpack mldsa44.gamma1 (slice sig (mldsa44.ctilde + zLen mldsa44.gamma1 * j) (zLen mldsa44.gamma1)))
    (mldsa44.gamma1 - mldsa44.beta) = true) :
    ∃ c', step demo 1000 ctx44 (.verify mldsa44 pk [] sig) = some (.ret (-22), c') ∧ c'.expanded = true ∧ c'.ahat = some (ahatSize mldsa44) ∧ c'.shape = (4, 4) := by
  simp only [step]
  rw [if_neg (by simp [ctxHash]; decide)]
  unfold verifyCtxInternal ctxMat ctxHash ctx44
  dsimp only
  rw [if_neg (by decide), if_neg (by decide)]
  have := demo_expand (slice pk 0 32)
  rw [show mldsa44.k = 4 from rfl, show mldsa44.l = 4 from rfl, this]
  simp only [Option.map_some, Option.bind_some]
  unfold verifyInternal
  dsimp only
  rw [if_pos hz]
  exact ⟨_, rfl, rfl, rfl, rfl⟩

/-- Using an ML-DSA-44 context with an ML-DSA-87 key: without history the call is refused, after a use
with an ML-DSA-44 key the buffer is read beyond its end. -/
theorem c59_overread (pk : List Byte) :
    ∃ c', step demo 1000 ctx44 (.verify mldsa44 pk [] []) = some (.ret (-22), c') ∧
      (step demo 1000 c' (.verify mldsa87 pk [] [])).map Prod.fst = some .overread ∧
      (step demo 1000 { c' with expanded := false } (.verify mldsa87 pk [] [])).map Prod.fst = some (.ret (-75)) := by
  obtain ⟨c', h1, h2, h3, h4⟩ := first_use pk [] (by decide +kernel)
  have hd : ∀ c : Ctx, c.internal = false → c.prehash = none → c.userctx = [] → c.composite = false →
      ∀ tr, (ctxHash mldsa87 c tr []).1 = 0 := by
    intro c e1 e2 e3 e4 tr
    unfold ctxHash
    rw [e1, e2, e3, e4]
    rfl
  have hs : c'.internal = false ∧ c'.prehash = none ∧ c'.userctx = [] ∧ c'.composite = false := by
    simp only [step] at h1
    rw [if_neg (by simp [ctxHash]; decide)] at h1
    unfold verifyCtxInternal at h1
    cases hm : ctxMat mldsa44 demo 1000 (ctxHash mldsa44 ctx44 (squeeze (demo.shake256 pk) 0 64) []).2 (slice pk 0 32) with
    | none => rw [hm] at h1; cases h1
    | some r =>
      have hr : r.2.internal = false ∧ r.2.prehash = none ∧ r.2.userctx = [] ∧ r.2.composite = false := by
        unfold ctxMat ctxHash ctx44 at hm
        dsimp only at hm
        rw [if_neg (by decide), if_neg (by decide)] at hm
        have := demo_expand (slice pk 0 32)
        rw [show mldsa44.k = 4 from rfl, show mldsa44.l = 4 from rfl, this] at hm
        cases hm
        exact ⟨rfl, rfl, rfl, rfl⟩
      rw [hm, Option.bind_some] at h1
      cases hr1 : r.1 with
      | fail o => rw [hr1] at h1; cases h1; exact hr
      | mat A =>
        rw [hr1] at h1
        dsimp only at h1
        revert h1
        generalize verifyInternal mldsa44 demo 1000 A pk [] _ = v
        intro h1
        cases v with
        | none => cases h1
        | some v => cases h1; exact hr
  refine ⟨c', h1, ?_, ?_⟩
  · simp only [step]
    rw [if_neg (by rw [hd c' hs.1 hs.2.1 hs.2.2.1 hs.2.2.2]; decide)]
    unfold verifyCtxInternal ctxMat ctxHash
    dsimp only
    rw [h3]
    dsimp only
    rw [if_pos h2, h4]
    rfl
  · simp only [step]
    rw [if_neg (by rw [hd { c' with expanded := false } hs.1 hs.2.1 hs.2.2.1 hs.2.2.2]; decide)]
    unfold verifyCtxInternal ctxMat ctxHash
    dsimp only
    rw [h3]
    dsimp only
    rw [if_neg Bool.false_ne_true]
    rfl

/-- C59 as stated does not hold. -/
theorem c59_false : ¬ C59Claim := by
  intro hc
  obtain ⟨c', h1, h2, h3⟩ := c59_overread []
  have := hc demo 1000 ctx44 _ (.verify mldsa87 [] [] []) _ _ rfl (run_one h1)
  rw [h2, h3] at this
  exact absurd this (by decide)

/-- non-vacuity of `history_independent_partial`: one key, then after a drop another one -/
example (pk pk' : List Byte) : Rule none ([.verify mldsa44 pk [] [], .drop] ++ [.verify mldsa87 pk' [] []]) :=
  ⟨Or.inr (Or.inl rfl), Or.inl rfl, Or.inr (Or.inl rfl), trivial⟩

/-- non-vacuity of `ctx_verify_accepts` -/
example (seed m rnd : List Byte) (h1 : seed.length = 32) (h2 : rnd.length = 32) :
    ∃ pk sk s, keypair mldsa44 demo 1000 seed = some (pk, sk) ∧ (step demo 1000 ctx44 (.sign mldsa44 sk m rnd)).map Prod.fst = some (.sig s) := by
  obtain ⟨pk, sk, s, k1, k2, -⟩ := demo_signs seed (domSep 1 ⟨false, none, [], false, m⟩).2 rnd h1 h2
  have hd : (domSep 1 ⟨false, none, [], false, m⟩).1 = 0 := rfl
  refine ⟨pk, sk, s, k1, ?_⟩
  rw [sign_op mldsa44 demo 1000 ctx44 sk m rnd rfl (fun s hs => by cases hs; exact Nat.lt_irrefl _) hd]
  have e : (sign mldsa44 demo 1000 sk (domSep mldsa44.category ⟨ctx44.internal, ctx44.prehash, ctx44.userctx, ctx44.composite, m⟩).2 rnd) = some s := k2
  rw [e]
  rfl

end LC.Dilithium
