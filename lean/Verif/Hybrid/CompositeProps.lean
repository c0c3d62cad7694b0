import Verif.Hybrid.Composite
import Verif.Curve.EddsaProps
import Verif.Dilithium.Witness
/-!
# C88 (composite signatures in one call), C89 (hashed composite signatures)
-/
namespace LC.Hybrid.Comp
open LC.Dilithium (Params Env Ctx Op ahatSize)
open LC.DomSep (Hash domSep)

attribute [local irreducible] Curve.Eddsa.sign Curve.Eddsa.verify Curve.Eddsa.keypair Dilithium.sign Dilithium.verify Dilithium.keypair

/-! ### Specification -/

/-- The object identifier of the composite algorithm in the mode: id-MLDSA44-Ed25519, id-MLDSA65-Ed25519, and
id-MLDSA87-Ed448 in the mode 5, as chosen by the library. -/
def Spec.domain (p : Params) : List Byte :=
  DomSep.Spec.compOid (if p.category = 1 then 42 else if p.category = 3 then 50 else 53)

/-- What both parts sign in front of the message: identifier, length of the context, context. -/
def Spec.pre (p : Params) (ctx : List Byte) : List Byte := Spec.domain p ++ [UInt8.ofNat ctx.length] ++ ctx

/-- The message of the hashed variant: the digest of domain, context, hash identifier and the digest of the
message. -/
def Spec.mHash (p : Params) (PH : Hash → List Byte → List Byte) (h : Hash) (ctx m : List Byte) : List Byte :=
  PH h (Spec.pre p ctx ++ DomSep.Spec.hashOid h ++ PH h m)

/-- A context with a buffer that is large enough (or none), no expanded key in it and a message hash set up
for SHAKE256, not in the internal mode. -/
structure Usable (p : Params) (s : CCtx) : Prop where
  expanded : s.c.expanded = false
  buf : ∀ n, s.c.ahat = some n → ¬ n < ahatSize p
  alg : s.alg = .shake256
  internal : s.c.internal = false

/-! ### The domain separation -/

theorem compDomain_ok {p : Params} (hp : p.Ok) : DomSep.compDomain p.category = some (Spec.domain p) := by
  rcases hp with rfl | rfl | rfl <;> decide

theorem composite_ok {p : Params} (hp : p.Ok) {ctx : List Byte} (h : ctx.length ≤ 255) :
    DomSep.composite p.category ctx = (0, Spec.pre p ctx) := by
  unfold DomSep.composite
  rw [if_neg (by omega), compDomain_ok hp]
  rfl

theorem oid_ok {p : Params} (hp : p.Ok) : oid p = Spec.domain p := by
  unfold oid; rw [compDomain_ok hp]; rfl

theorem domSep_comp {p : Params} (hp : p.Ok) {ph : Option Hash} {ctx : List Byte} (h : ctx.length ≤ 255) (ha : DomSep.Spec.Allowed p.category ph)
    (m : List Byte) : domSep p.category ⟨false, ph, ctx, true, m⟩ = (0, DomSep.Spec.mprime ph ctx (Spec.pre p ctx ++ m)) := by
  have h0 : (domSep p.category ⟨false, ph, ctx, true, m⟩).1 = 0 := by
    unfold domSep
    rw [if_neg (fun h => Bool.noConfusion h), if_neg (Nat.not_lt.2 h)]
    unfold DomSep.out
    rw [if_pos rfl, composite_ok hp h]
  obtain ⟨d, e1, e2⟩ := DomSep.comp_bytes p.category ⟨false, ph, ctx, true, m⟩ rfl rfl h ha h0
  rw [compDomain_ok hp] at e1
  cases e1
  exact Prod.ext h0 e2

theorem mldsa_keeps {p : Params} {e : Env} {fuel : Nat} {c c' : Ctx} {rho : List Byte} {r : Dilithium.MatRes}
    (h : Dilithium.ctxMat p e fuel c rho = some (r, c')) : c'.composite = c.composite ∧ c'.userctx = c.userctx ∧ c'.prehash = c.prehash := by
  unfold Dilithium.ctxMat at h
  cases ha : c.ahat with
  | none =>
    rw [ha] at h
    dsimp only at h
    cases hm : Dilithium.matrixExpand e fuel p.k p.l rho with
    | none => rw [hm] at h; cases h
    | some A => rw [hm] at h; cases h; exact ⟨rfl, rfl, rfl⟩
  | some size =>
    rw [ha] at h
    dsimp only at h
    split at h
    · cases h; exact ⟨rfl, rfl, rfl⟩
    · split at h
      · cases h; exact ⟨rfl, rfl, rfl⟩
      · cases hm : Dilithium.matrixExpand e fuel p.k p.l rho with
        | none => rw [hm] at h; cases h
        | some A => rw [hm] at h; cases h; exact ⟨rfl, rfl, rfl⟩

theorem sign_keeps {p : Params} {e : Env} {fuel : Nat} {c : Ctx} {sk m rnd : List Byte} {r : Dilithium.Out × Ctx}
    (h : Dilithium.step e fuel c (.sign p sk m rnd) = some r) : r.2.composite = c.composite ∧ r.2.userctx = c.userctx ∧ r.2.prehash = c.prehash := by
  simp only [Dilithium.step] at h
  split at h
  · cases h; exact ⟨rfl, rfl, rfl⟩
  · unfold Dilithium.signCtxInternal at h
    rw [Option.bind_eq_some_iff] at h
    obtain ⟨q, h1, h2⟩ := h
    have := mldsa_keeps (r := q.1) (c' := q.2) h1
    rw [show r.2 = q.2 from ?_]
    · exact this
    · cases hq : q.1 with
      | mat A =>
        rw [hq] at h2
        dsimp only at h2
        rw [Option.map_eq_some_iff] at h2
        obtain ⟨x, -, rfl⟩ := h2
        rfl
      | fail o => rw [hq] at h2; cases h2; rfl

theorem verify_keeps {p : Params} {e : Env} {fuel : Nat} {c : Ctx} {pk m sig : List Byte} {r : Dilithium.Out × Ctx}
    (h : Dilithium.step e fuel c (.verify p pk m sig) = some r) :
    r.2.composite = c.composite ∧ r.2.userctx = c.userctx ∧ r.2.prehash = c.prehash := by
  simp only [Dilithium.step] at h
  split at h
  · cases h; exact ⟨rfl, rfl, rfl⟩
  · unfold Dilithium.verifyCtxInternal at h
    rw [Option.bind_eq_some_iff] at h
    obtain ⟨q, h1, h2⟩ := h
    have := mldsa_keeps (r := q.1) (c' := q.2) h1
    rw [show r.2 = q.2 from ?_]
    · exact this
    · cases hq : q.1 with
      | mat A =>
        rw [hq] at h2
        dsimp only at h2
        rw [Option.map_eq_some_iff] at h2
        obtain ⟨x, -, rfl⟩ := h2
        rfl
      | fail o => rw [hq] at h2; cases h2; rfl

theorem edDom_ok {p : Params} (hp : p.Ok) {c : Ctx} (hc : c.composite = true) (h : c.userctx.length ≤ 255) :
    edDom p c = (0, Spec.pre p c.userctx) := by
  unfold edDom
  rw [if_pos hc, composite_ok hp h]

/-! ### The return codes -/

theorem or_zero (a b : Int) (ha : a = 0 ∨ a = -22 ∨ a = -74) (hb : b = 0 ∨ b = -22 ∨ b = -74) :
    check a b = 0 ↔ a = 0 ∧ b = 0 := by
  rcases ha with rfl | rfl | rfl <;> rcases hb with rfl | rfl | rfl <;> decide

theorem mldsa_codes {p : Params} {e : Env} {fuel : Nat} {pk m sig : List Byte} {r : Int} (h : Dilithium.verify p e fuel pk m sig = some r) :
    r = 0 ∨ r = -22 ∨ r = -74 := by
  unfold Dilithium.verify at h
  rw [Option.bind_eq_some_iff] at h
  obtain ⟨A, -, h⟩ := h
  unfold Dilithium.verifyInternal at h
  dsimp only at h
  split at h
  · cases h; exact Or.inr (Or.inl rfl)
  · rw [Option.bind_eq_some_iff] at h
    obtain ⟨c, -, h⟩ := h
    split at h
    · cases h; exact Or.inr (Or.inl rfl)
    · split at h
      · cases h; exact Or.inr (Or.inr rfl)
      · cases h; exact Or.inl rfl

theorem codes_of {α β : Type} {c1 c2 : Prop} [Decidable c1] [Decidable c2] {q : Option α} {c3 c4 : α → Prop} [DecidablePred c3]
    [DecidablePred c4] {r : Option β} {g : α → β → Int} {x : Int} (hg : ∀ a b, g a b = 0 ∨ g a b = -22 ∨ g a b = -74)
    (h : (if c1 then some (-22) else if c2 then some (-22) else q.elim (some (-22)) fun A =>
      if c3 A then some (-22) else if c4 A then some (-22) else r.map (g A)) = some x) : x = 0 ∨ x = -22 ∨ x = -74 := by
  split at h
  · cases h; exact Or.inr (Or.inl rfl)
  split at h
  · cases h; exact Or.inr (Or.inl rfl)
  cases q with
  | none => cases h; exact Or.inr (Or.inl rfl)
  | some A =>
    dsimp only [Option.elim_some] at h
    split at h
    · cases h; exact Or.inr (Or.inl rfl)
    split at h
    · cases h; exact Or.inr (Or.inl rfl)
    rw [Option.map_eq_some_iff] at h
    obtain ⟨y, -, rfl⟩ := h
    exact hg A y

theorem ite_codes (c : Prop) [Decidable c] :
    (if c then (0 : Int) else -74) = 0 ∨ (if c then (0 : Int) else -74) = -22 ∨ (if c then (0 : Int) else -74) = -74 := by
  split
  · exact Or.inl rfl
  · exact Or.inr (Or.inr rfl)

theorem ed_codes {H : List Byte → List Byte} {ph : Bool} {comp m pk sig : List Byte} {r : Int}
    (h : Curve.Eddsa.verify H ph comp m pk sig = some r) : r = 0 ∨ r = -22 ∨ r = -74 := by
  unfold Curve.Eddsa.verify at h
  exact codes_of (fun _ _ => ite_codes _) h

theorem sign_step {p : Params} (hp : p.Ok) (e : Env) (fuel : Nat) (c : Ctx) (sk m rnd : List Byte) (hx : c.expanded = false)
    (hb : ∀ n, c.ahat = some n → ¬ n < ahatSize p) (hi : c.internal = false) (hcm : c.composite = true) (hc : c.userctx.length ≤ 255)
    (ha : DomSep.Spec.Allowed p.category c.prehash) :
    (Dilithium.step e fuel c (.sign p sk m rnd)).map Prod.fst =
      (Dilithium.sign p e fuel sk (DomSep.Spec.mprime c.prehash c.userctx (Spec.pre p c.userctx ++ m)) rnd).map .sig := by
  have hd := domSep_comp hp hc ha m
  have h1 := Dilithium.sign_op p e fuel c sk m rnd hx hb (by rw [hi, hcm, hd])
  rw [h1, hi, hcm, hd]

theorem verify_step {p : Params} (hp : p.Ok) (e : Env) (fuel : Nat) (c : Ctx) (pk m sig : List Byte) (hx : c.expanded = false)
    (hb : ∀ n, c.ahat = some n → ¬ n < ahatSize p) (hi : c.internal = false) (hcm : c.composite = true) (hc : c.userctx.length ≤ 255)
    (ha : DomSep.Spec.Allowed p.category c.prehash) :
    (Dilithium.step e fuel c (.verify p pk m sig)).map Prod.fst =
      (Dilithium.verify p e fuel pk (DomSep.Spec.mprime c.prehash c.userctx (Spec.pre p c.userctx ++ m)) sig).map .ret := by
  have hd := domSep_comp hp hc ha m
  have h1 := Dilithium.verify_op p e fuel c pk m sig hx hb (by rw [hi, hcm, hd])
  rw [h1, hi, hcm, hd]

/-! ### C88 -/

/-- **C88 (signing)**: a composite signature is exactly the ML-DSA signature of FIPS 204 over
`domain || len(ctx) || ctx || M` under the context and the Ed25519 signature over the same bytes. -/
theorem sign_value (p : Params) (hp : p.Ok) (e : Env) (fuel : Nat) (H : List Byte → List Byte) (s : CCtx) (hs : Usable p s) (sk : Pair)
    (m rndD : List Byte) (rndE : Option (List Byte)) (hc : s.c.userctx.length ≤ 255) (ha : DomSep.Spec.Allowed p.category s.c.prehash) :
    (signCtx p e fuel H s sk m rndD rndE).map Prod.fst =
      (Dilithium.sign p e fuel sk.d (DomSep.Spec.mprime s.c.prehash s.c.userctx (Spec.pre p s.c.userctx ++ m)) rndD).bind fun sd =>
        (Curve.Eddsa.sign H false rndE (Spec.pre p s.c.userctx) m sk.e).map fun se => .sig ⟨sd, se⟩ := by
  have h1 := sign_step hp e fuel { s.c with composite := true } sk.d m rndD hs.expanded hs.buf hs.internal rfl hc ha
  unfold signCtx
  rw [if_neg (by rw [hs.alg]; exact fun h => h rfl)]
  cases hst : Dilithium.step e fuel { s.c with composite := true } (.sign p sk.d m rndD) with
  | none =>
    rw [hst] at h1
    dsimp only at h1
    cases hq : Dilithium.sign p e fuel sk.d (DomSep.Spec.mprime s.c.prehash s.c.userctx (Spec.pre p s.c.userctx ++ m)) rndD with
    | none => rfl
    | some x => rw [hq] at h1; cases h1
  | some r =>
    rw [hst] at h1
    dsimp only at h1
    cases hq : Dilithium.sign p e fuel sk.d (DomSep.Spec.mprime s.c.prehash s.c.userctx (Spec.pre p s.c.userctx ++ m)) rndD with
    | none => rw [hq] at h1; cases h1
    | some x =>
      rw [hq] at h1
      obtain ⟨k1, k2, -⟩ := sign_keeps hst
      obtain ⟨r1, r2⟩ := r
      injection h1 with h1
      dsimp only at h1
      subst h1
      dsimp only at k1 k2 ⊢
      rw [Option.bind_some, Option.bind_some]
      unfold edSign
      rw [edDom_ok hp k1 (by rw [k2]; exact hc), k2, if_neg (fun h => h rfl)]
      cases Curve.Eddsa.sign H false rndE (Spec.pre p s.c.userctx) m sk.e <;> rfl

theorem verify_value (p : Params) (hp : p.Ok) (e : Env) (fuel : Nat) (H : List Byte → List Byte) (s : CCtx) (hs : Usable p s) (pk : Pair)
    (m : List Byte) (sig : Pair) (hc : s.c.userctx.length ≤ 255) (ha : DomSep.Spec.Allowed p.category s.c.prehash) :
    (verifyCtx p e fuel H s pk m sig).map Prod.fst =
      (Dilithium.verify p e fuel pk.d (DomSep.Spec.mprime s.c.prehash s.c.userctx (Spec.pre p s.c.userctx ++ m)) sig.d).bind fun rd =>
        (Curve.Eddsa.verify H false (Spec.pre p s.c.userctx) m pk.e sig.e).map fun re => .ret (check rd re) := by
  have h1 := verify_step hp e fuel { s.c with composite := true } pk.d m sig.d hs.expanded hs.buf hs.internal rfl hc ha
  unfold verifyCtx
  rw [if_neg (by rw [hs.alg]; exact fun h => h rfl)]
  cases hst : Dilithium.step e fuel { s.c with composite := true } (.verify p pk.d m sig.d) with
  | none =>
    rw [hst] at h1
    dsimp only at h1
    cases hq : Dilithium.verify p e fuel pk.d (DomSep.Spec.mprime s.c.prehash s.c.userctx (Spec.pre p s.c.userctx ++ m)) sig.d with
    | none => rfl
    | some x => rw [hq] at h1; cases h1
  | some r =>
    rw [hst] at h1
    dsimp only at h1
    cases hq : Dilithium.verify p e fuel pk.d (DomSep.Spec.mprime s.c.prehash s.c.userctx (Spec.pre p s.c.userctx ++ m)) sig.d with
    | none => rw [hq] at h1; cases h1
    | some x =>
      rw [hq] at h1
      obtain ⟨k1, k2, -⟩ := verify_keeps hst
      obtain ⟨r1, r2⟩ := r
      injection h1 with h1
      dsimp only at h1
      subst h1
      dsimp only at k1 k2 ⊢
      rw [Option.bind_some, Option.bind_some]
      unfold edVerify
      rw [edDom_ok hp k1 (by rw [k2]; exact hc), k2, if_neg (fun h => h rfl)]
      cases Curve.Eddsa.verify H false (Spec.pre p s.c.userctx) m pk.e sig.e <;> rfl

/-- **C88 (verification)**: a composite signature is accepted exactly if *both* parts are accepted, each over
domain, context and message. -/
theorem verify_iff (p : Params) (hp : p.Ok) (e : Env) (fuel : Nat) (H : List Byte → List Byte) (s : CCtx) (hs : Usable p s) (pk : Pair)
    (m : List Byte) (sig : Pair) (hc : s.c.userctx.length ≤ 255) (ha : DomSep.Spec.Allowed p.category s.c.prehash) :
    (verifyCtx p e fuel H s pk m sig).map Prod.fst = some (.ret 0) ↔
      Dilithium.verify p e fuel pk.d (DomSep.Spec.mprime s.c.prehash s.c.userctx (Spec.pre p s.c.userctx ++ m)) sig.d = some 0 ∧
      Curve.Eddsa.verify H false (Spec.pre p s.c.userctx) m pk.e sig.e = some 0 := by
  rw [verify_value p hp e fuel H s hs pk m sig hc ha]
  cases h1 : Dilithium.verify p e fuel pk.d (DomSep.Spec.mprime s.c.prehash s.c.userctx (Spec.pre p s.c.userctx ++ m)) sig.d with
  | none => exact ⟨fun h => by (cases h), fun h => by (cases h.1)⟩
  | some rd =>
    rw [Option.bind_some]
    cases h2 : Curve.Eddsa.verify H false (Spec.pre p s.c.userctx) m pk.e sig.e with
    | none => exact ⟨fun h => by (cases h), fun h => by (cases h.2)⟩
    | some re =>
      have hz := or_zero rd re (mldsa_codes h1) (ed_codes h2)
      rw [Option.map_some, Option.some.injEq, Option.some.injEq, Option.some.injEq, Out.ret.injEq]
      exact hz

/-- **C88 (round trip)**: what is signed verifies with every context with the same settings, unless the
Ed25519 nonce is a multiple of the group order; then the result is `-EINVAL`. -/
theorem sign_verify (p : Params) (hp : p.Ok) (e : Env) (fuel : Nat) (H : List Byte → List Byte) (hH : ∀ m, (H m).length = 64)
    (s s' : CCtx) (hs : Usable p s) (hs' : Usable p s') (hsame : s'.c.userctx = s.c.userctx ∧ s'.c.prehash = s.c.prehash)
    (seedD seedE m rndD : List Byte) (rndE : Option (List Byte)) (pk sk : Pair) (hE : seedE.length = 32)
    (hk : keypair p e fuel H seedD seedE = some (pk, sk)) (sig : Pair)
    (hc : s.c.userctx.length ≤ 255) (ha : DomSep.Spec.Allowed p.category s.c.prehash)
    (hsig : (signCtx p e fuel H s sk m rndD rndE).map Prod.fst = some (.sig sig)) :
    (verifyCtx p e fuel H s' pk m sig).map Prod.fst =
      some (.ret (if Curve.leNum (H (Curve.Eddsa.nonceInput false rndE (H seedE) (Spec.pre p s.c.userctx) m)) % Curve.L = 0 then -22 else 0)) := by
  unfold keypair at hk
  rw [Option.map_eq_some_iff] at hk
  obtain ⟨k, hk, h2⟩ := hk
  injection h2 with h3 h4
  subst h3; subst h4
  rw [sign_value p hp e fuel H s hs _ m rndD rndE hc ha, Option.bind_eq_some_iff] at hsig
  obtain ⟨sd, e1, e2⟩ := hsig
  rw [Option.map_eq_some_iff] at e2
  obtain ⟨se, e2, e3⟩ := e2
  injection e3 with e3
  subst e3
  obtain ⟨se', f1, -, f2⟩ := Curve.Eddsa.sign_verify H hH false rndE (Spec.pre p s.c.userctx) m seedE hE
  dsimp only at e1 e2
  rw [f1] at e2
  injection e2 with e2
  subst e2
  have g := Dilithium.verify_accepts p hp e fuel seedD _ rndD k.1 k.2 sd hk e1
  rw [verify_value p hp e fuel H s' hs' _ m _ (by rw [hsame.1]; exact hc) (by rw [hsame.2]; exact ha), hsame.1, hsame.2]
  dsimp only
  rw [g, f2, Option.bind_some]
  split <;> rfl

/-- **C88 (too long context)**: with a context of more than 255 bytes both calls return `-EINVAL`, without a
signature. -/
theorem long_context (p : Params) (e : Env) (fuel : Nat) (H : List Byte → List Byte) (s : CCtx) (hs : Usable p s) (m : List Byte)
    (hc : 255 < s.c.userctx.length) :
    (∀ sk rndD rndE, (signCtx p e fuel H s sk m rndD rndE).map Prod.fst = some (.ret (-22))) ∧
    (∀ pk sig, (verifyCtx p e fuel H s pk m sig).map Prod.fst = some (.ret (-22))) := by
  have hd : ∀ m, domSep p.category ⟨s.c.internal, s.c.prehash, s.c.userctx, true, m⟩ = (-22, []) := by
    intro m
    unfold domSep
    rw [if_neg (by rw [hs.internal]; exact fun h => Bool.noConfusion h), if_pos hc]
    rfl
  have hcm : DomSep.composite p.category s.c.userctx = (-22, []) := by
    unfold DomSep.composite; rw [if_pos hc]; rfl
  have hr : ∀ sk rnd, _ := fun sk rnd => Dilithium.refused p e fuel { s.c with composite := true } sk m rnd (-22) (by rw [hd]) (by decide)
  constructor
  · intro sk rndD rndE
    have h1 := (hr sk.d rndD).1
    rw [Option.map_eq_some_iff] at h1
    obtain ⟨⟨r1, r2⟩, h1, h2⟩ := h1
    dsimp only at h2
    subst h2
    unfold signCtx
    rw [if_neg (by rw [hs.alg]; exact fun h => h rfl), h1]
    rfl
  · intro pk sig
    have h1 := (hr pk.d sig.d).2
    rw [Option.map_eq_some_iff] at h1
    obtain ⟨⟨r1, r2⟩, h1, h2⟩ := h1
    dsimp only at h2
    subst h2
    obtain ⟨k1, k2, -⟩ := verify_keeps h1
    dsimp only at k1 k2
    unfold verifyCtx
    rw [if_neg (by rw [hs.alg]; exact fun h => h rfl), h1, Option.bind_some]
    dsimp only
    have hed : edDom p r2 = (-22, []) := by
      unfold edDom; rw [if_pos k1, k2, hcm]
    unfold edVerify
    rw [hed, if_pos (by decide)]
    rfl

/-! ### C89 -/

/-- The hash that is used: the selected one, SHAKE256 otherwise. -/
def Spec.chosen (s : CCtx) : Hash := s.c.prehash.getD .shake256

/-- What the ML-DSA part of the hashed variant signs: the digest under the algorithm identifier as context.
`f` tells whether the context object was used with the interface of C88 before. -/
def Spec.transcript (p : Params) (f : Bool) (mh : List Byte) : List Byte :=
  DomSep.Spec.mprime none (Spec.domain p) (if f then Spec.pre p (Spec.domain p) ++ mh else mh)

theorem domain_len {p : Params} (hp : p.Ok) : (Spec.domain p).length = 13 := by
  rcases hp with rfl | rfl | rfl <;> rfl

theorem update_fold (ms : List (List Byte)) (s : CCtx) : ms.foldl update s = { s with c := { s.c with hashed := s.c.hashed ++ ms.flatten } } := by
  induction ms generalizing s with
  | nil => simp
  | cons m ms ih => rw [List.foldl_cons, ih]; simp [update]

def Supported (h : Hash) : Prop := h = .shake256 ∨ h = .sha3_512 ∨ h = .sha512

instance (h : Hash) : Decidable (Supported h) := inferInstanceAs (Decidable (_ ∨ _))

theorem supported_allowed {p : Params} (hp : p.Ok) {h : Hash} (hh : Supported h) : (DomSep.phOids p.category (some h)).1 = 0 := by
  rcases hp with rfl | rfl | rfl <;> rcases hh with rfl | rfl | rfl <;> decide

theorem init_ok (s : CCtx) (ha : s.alg = .shake256) (hh : Supported (Spec.chosen s)) :
    init s = (0, ⟨{ s.c with prehash := some (Spec.chosen s), hashed := [] }, Spec.chosen s⟩) := by
  unfold init
  unfold Spec.chosen at hh ⊢
  obtain ⟨c, alg⟩ := s
  dsimp only at ha hh ⊢
  subst ha
  cases hq : c.prehash with
  | none => rfl
  | some h =>
    rw [hq] at hh
    dsimp only [Option.getD_some] at hh ⊢
    rw [if_neg (by rcases hh with rfl | rfl | rfl <;> decide), ← hq]

theorem init_bad (s : CCtx) (hh : ¬ Supported (Spec.chosen s)) : (init s).1 = -95 := by
  unfold init
  unfold Spec.chosen at hh
  cases hq : s.c.prehash with
  | none => rw [hq] at hh; exact absurd (Or.inl rfl) hh
  | some h =>
    rw [hq] at hh
    dsimp only [Option.getD_some] at hh ⊢
    rw [if_pos ⟨fun x => hh (Or.inl x), fun x => hh (Or.inr (Or.inl x)), fun x => hh (Or.inr (Or.inr x))⟩]
    rfl

/-- The domain separation of the hashed variant after the updates. -/
theorem hashDom_ok {p : Params} (hp : p.Ok) (PH : Hash → List Byte → List Byte) (s : CCtx) (ha : s.alg = .shake256) (hh : Supported (Spec.chosen s))
    (hc : s.c.userctx.length ≤ 255) (ms : List (List Byte)) :
    hashDom p PH (ms.foldl update (init s).2) =
      (0, ⟨{ s.c with prehash := none, userctx := Spec.domain p,
                      hashed := Spec.pre p s.c.userctx ++ DomSep.Spec.hashOid (Spec.chosen s) ++ PH (Spec.chosen s) ms.flatten },
        Spec.chosen s⟩) := by
  rw [init_ok s ha hh, update_fold]
  unfold hashDom
  dsimp only
  have h0 := supported_allowed hp hh
  rw [if_neg (by omega), if_neg (fun h => h h0), DomSep.phOids_bytes _ _ h0, oid_ok hp]
  rfl

theorem transcript_ok {p : Params} (hp : p.Ok) (f : Bool) (mh : List Byte) :
    domSep p.category ⟨false, none, Spec.domain p, f, mh⟩ = (0, Spec.transcript p f mh) := by
  have hl : (Spec.domain p).length ≤ 255 := by rw [domain_len hp]; decide
  cases f with
  | true => exact domSep_comp (ph := none) hp hl trivial mh
  | false => exact DomSep.domSep_fips204 p.category ⟨false, none, Spec.domain p, false, mh⟩ rfl rfl hl trivial

theorem sign_step' {p : Params} (hp : p.Ok) (e : Env) (fuel : Nat) (c : Ctx) (sk m rnd : List Byte) (hx : c.expanded = false)
    (hb : ∀ n, c.ahat = some n → ¬ n < ahatSize p) (hi : c.internal = false) (hq : c.prehash = none) (hc : c.userctx = Spec.domain p) :
    (Dilithium.step e fuel c (.sign p sk m rnd)).map Prod.fst = (Dilithium.sign p e fuel sk (Spec.transcript p c.composite m) rnd).map .sig := by
  have hd := transcript_ok hp c.composite m
  have h1 := Dilithium.sign_op p e fuel c sk m rnd hx hb (by rw [hi, hq, hc, hd])
  rw [h1, hi, hq, hc, hd]

theorem verify_step' {p : Params} (hp : p.Ok) (e : Env) (fuel : Nat) (c : Ctx) (pk m sig : List Byte) (hx : c.expanded = false)
    (hb : ∀ n, c.ahat = some n → ¬ n < ahatSize p) (hi : c.internal = false) (hq : c.prehash = none) (hc : c.userctx = Spec.domain p) :
    (Dilithium.step e fuel c (.verify p pk m sig)).map Prod.fst = (Dilithium.verify p e fuel pk (Spec.transcript p c.composite m) sig).map .ret := by
  have hd := transcript_ok hp c.composite m
  have h1 := Dilithium.verify_op p e fuel c pk m sig hx hb (by rw [hi, hq, hc, hd])
  rw [h1, hi, hq, hc, hd]

/-- **C89 (signing)**: the hashed composite signature consists of the ML-DSA signature and the Ed25519
signature over the digest of domain, context, hash identifier and message digest; in which pieces the
message was given does not matter. -/
theorem stream_sign_value (p : Params) (hp : p.Ok) (e : Env) (fuel : Nat) (H : List Byte → List Byte) (PH : Hash → List Byte → List Byte)
    (s : CCtx) (hs : Usable p s) (hh : Supported (Spec.chosen s)) (hc : s.c.userctx.length ≤ 255) (sk : Pair) (ms : List (List Byte))
    (rndD : List Byte) (rndE : Option (List Byte)) :
    (signStream p e fuel H PH s sk ms rndD rndE).map Prod.fst =
      (Dilithium.sign p e fuel sk.d (Spec.transcript p s.c.composite (Spec.mHash p PH (Spec.chosen s) s.c.userctx ms.flatten)) rndD).bind fun sd =>
        (Curve.Eddsa.sign H false rndE [] (Spec.mHash p PH (Spec.chosen s) s.c.userctx ms.flatten) sk.e).map fun se => .sig ⟨sd, se⟩ := by
  unfold signStream
  rw [if_neg (by rw [init_ok s hs.alg hh]; exact fun h => h rfl)]
  unfold signFinal
  rw [hashDom_ok hp PH s hs.alg hh hc ms]
  dsimp only
  rw [if_neg (fun h => h rfl)]
  unfold Spec.mHash
  generalize PH (Spec.chosen s) (Spec.pre p s.c.userctx ++ DomSep.Spec.hashOid (Spec.chosen s) ++ PH (Spec.chosen s) ms.flatten) = mh
  generalize hcc : (⟨s.c.internal, none, Spec.domain p, s.c.composite, s.c.ahat, s.c.expanded, s.c.shape, s.c.mat, []⟩ : Ctx) = cc
  have h1 := sign_step' hp e fuel cc sk.d mh rndD (by rw [← hcc]; exact hs.expanded)
    (by rw [← hcc]; exact hs.buf) (by rw [← hcc]; exact hs.internal) (by rw [← hcc]) (by rw [← hcc])
  rw [show cc.composite = s.c.composite by rw [← hcc]] at h1
  clear hcc
  generalize Dilithium.sign p e fuel sk.d (Spec.transcript p s.c.composite mh) rndD = q at h1 ⊢
  generalize Dilithium.step e fuel cc (.sign p sk.d mh rndD) = st at h1 ⊢
  cases st with
  | none => cases q with
    | none => rfl
    | some x => cases h1
  | some r =>
    cases q with
    | none => cases h1
    | some x =>
      obtain ⟨r1, r2⟩ := r
      injection h1 with h1
      dsimp only at h1
      subst h1
      rw [Option.bind_some, Option.bind_some]
      dsimp only
      generalize Curve.Eddsa.sign H false rndE [] mh sk.e = w
      cases w <;> rfl

theorem stream_verify_value (p : Params) (hp : p.Ok) (e : Env) (fuel : Nat) (H : List Byte → List Byte) (PH : Hash → List Byte → List Byte)
    (s : CCtx) (hs : Usable p s) (hh : Supported (Spec.chosen s)) (hc : s.c.userctx.length ≤ 255) (pk : Pair) (ms : List (List Byte)) (sig : Pair) :
    (verifyStream p e fuel H PH s pk ms sig).map Prod.fst =
      (Dilithium.verify p e fuel pk.d (Spec.transcript p s.c.composite (Spec.mHash p PH (Spec.chosen s) s.c.userctx ms.flatten)) sig.d).bind fun rd =>
        (Curve.Eddsa.verify H false [] (Spec.mHash p PH (Spec.chosen s) s.c.userctx ms.flatten) pk.e sig.e).map fun re => .ret (check rd re) := by
  unfold verifyStream
  rw [if_neg (by rw [init_ok s hs.alg hh]; exact fun h => h rfl)]
  unfold verifyFinal
  rw [hashDom_ok hp PH s hs.alg hh hc ms]
  dsimp only
  rw [if_neg (fun h => h rfl)]
  unfold Spec.mHash
  generalize PH (Spec.chosen s) (Spec.pre p s.c.userctx ++ DomSep.Spec.hashOid (Spec.chosen s) ++ PH (Spec.chosen s) ms.flatten) = mh
  generalize hcc : (⟨s.c.internal, none, Spec.domain p, s.c.composite, s.c.ahat, s.c.expanded, s.c.shape, s.c.mat, []⟩ : Ctx) = cc
  have h1 := verify_step' hp e fuel cc pk.d mh sig.d (by rw [← hcc]; exact hs.expanded)
    (by rw [← hcc]; exact hs.buf) (by rw [← hcc]; exact hs.internal) (by rw [← hcc]) (by rw [← hcc])
  rw [show cc.composite = s.c.composite by rw [← hcc]] at h1
  clear hcc
  generalize Dilithium.verify p e fuel pk.d (Spec.transcript p s.c.composite mh) sig.d = q at h1 ⊢
  generalize Dilithium.step e fuel cc (.verify p pk.d mh sig.d) = st at h1 ⊢
  cases st with
  | none => cases q with
    | none => rfl
    | some x => cases h1
  | some r =>
    cases q with
    | none => cases h1
    | some x =>
      obtain ⟨r1, r2⟩ := r
      injection h1 with h1
      dsimp only at h1
      subst h1
      rw [Option.bind_some, Option.bind_some]
      dsimp only
      generalize Curve.Eddsa.verify H false [] mh pk.e sig.e = w
      cases w <;> rfl

/-- **C89 (verification)**: a hashed composite signature is accepted exactly if both parts are. -/
theorem stream_verify_iff (p : Params) (hp : p.Ok) (e : Env) (fuel : Nat) (H : List Byte → List Byte) (PH : Hash → List Byte → List Byte)
    (s : CCtx) (hs : Usable p s) (hh : Supported (Spec.chosen s)) (hc : s.c.userctx.length ≤ 255) (pk : Pair) (ms : List (List Byte)) (sig : Pair) :
    (verifyStream p e fuel H PH s pk ms sig).map Prod.fst = some (.ret 0) ↔
      Dilithium.verify p e fuel pk.d (Spec.transcript p s.c.composite (Spec.mHash p PH (Spec.chosen s) s.c.userctx ms.flatten)) sig.d = some 0 ∧
      Curve.Eddsa.verify H false [] (Spec.mHash p PH (Spec.chosen s) s.c.userctx ms.flatten) pk.e sig.e = some 0 := by
  rw [stream_verify_value p hp e fuel H PH s hs hh hc pk ms sig]
  generalize Spec.mHash p PH (Spec.chosen s) s.c.userctx ms.flatten = mh
  cases h1 : Dilithium.verify p e fuel pk.d (Spec.transcript p s.c.composite mh) sig.d with
  | none => exact ⟨fun h => by (cases h), fun h => by (cases h.1)⟩
  | some rd =>
    rw [Option.bind_some]
    cases h2 : Curve.Eddsa.verify H false [] mh pk.e sig.e with
    | none => exact ⟨fun h => by (cases h), fun h => by (cases h.2)⟩
    | some re =>
      have hz := or_zero rd re (mldsa_codes h1) (ed_codes h2)
      rw [Option.map_some, Option.some.injEq, Option.some.injEq, Option.some.injEq, Out.ret.injEq]
      exact hz

/-- **C89 (round trip)**: the signature over a message verifies, for every way to cut the message into pieces
on either side, with a context with the same settings (and the same past), unless the Ed25519 nonce is a
multiple of the group order. -/
theorem stream_sign_verify (p : Params) (hp : p.Ok) (e : Env) (fuel : Nat) (H : List Byte → List Byte) (hH : ∀ m, (H m).length = 64)
    (PH : Hash → List Byte → List Byte) (s s' : CCtx) (hs : Usable p s) (hs' : Usable p s')
    (hsame : s'.c.userctx = s.c.userctx ∧ Spec.chosen s' = Spec.chosen s) (hpast : s'.c.composite = s.c.composite)
    (seedD seedE rndD : List Byte) (rndE : Option (List Byte)) (pk sk : Pair) (hE : seedE.length = 32)
    (hk : keypair p e fuel H seedD seedE = some (pk, sk)) (sig : Pair) (ms ms' : List (List Byte)) (hms : ms'.flatten = ms.flatten)
    (hc : s.c.userctx.length ≤ 255) (hh : Supported (Spec.chosen s))
    (hsig : (signStream p e fuel H PH s sk ms rndD rndE).map Prod.fst = some (.sig sig)) :
    (verifyStream p e fuel H PH s' pk ms' sig).map Prod.fst =
      some (.ret (if Curve.leNum (H (Curve.Eddsa.nonceInput false rndE (H seedE) []
        (Spec.mHash p PH (Spec.chosen s) s.c.userctx ms.flatten))) % Curve.L = 0 then -22 else 0)) := by
  unfold keypair at hk
  rw [Option.map_eq_some_iff] at hk
  obtain ⟨k, hk, h2⟩ := hk
  injection h2 with h3 h4
  subst h3; subst h4
  rw [stream_sign_value p hp e fuel H PH s hs hh hc _ ms rndD rndE, Option.bind_eq_some_iff] at hsig
  rw [stream_verify_value p hp e fuel H PH s' hs' (by rw [hsame.2]; exact hh) (by rw [hsame.1]; exact hc) _ ms' sig, hsame.1, hsame.2, hpast, hms]
  generalize Spec.mHash p PH (Spec.chosen s) s.c.userctx ms.flatten = mh at hsig ⊢
  obtain ⟨sd, e1, e2⟩ := hsig
  rw [Option.map_eq_some_iff] at e2
  obtain ⟨se, e2, e3⟩ := e2
  injection e3 with e3
  subst e3
  obtain ⟨se', f1, -, f2⟩ := Curve.Eddsa.sign_verify H hH false rndE [] mh seedE hE
  dsimp only at e1 e2
  rw [f1] at e2
  injection e2 with e2
  subst e2
  have g := Dilithium.verify_accepts p hp e fuel seedD _ rndD k.1 k.2 sd hk e1
  dsimp only
  rw [g, f2, Option.bind_some]
  split <;> rfl

/-- **C89 (refusals)**: a hash other than SHA-512, SHA3-512 and SHAKE256 gives `-EOPNOTSUPP`, a context of more
than 255 bytes gives `-EINVAL`, for both directions. -/
theorem stream_refused (p : Params) (e : Env) (fuel : Nat) (H : List Byte → List Byte) (PH : Hash → List Byte → List Byte)
    (s : CCtx) (ha : s.alg = .shake256) (sk pk sig : Pair) (ms : List (List Byte)) (rndD : List Byte) (rndE : Option (List Byte)) :
    (¬ Supported (Spec.chosen s) → (signStream p e fuel H PH s sk ms rndD rndE).map Prod.fst = some (.ret (-95)) ∧
      (verifyStream p e fuel H PH s pk ms sig).map Prod.fst = some (.ret (-95))) ∧
    (Supported (Spec.chosen s) → 255 < s.c.userctx.length → (signStream p e fuel H PH s sk ms rndD rndE).map Prod.fst = some (.ret (-22)) ∧
      (verifyStream p e fuel H PH s pk ms sig).map Prod.fst = some (.ret (-22))) := by
  constructor
  · intro h
    have hi := init_bad s h
    unfold signStream verifyStream
    rw [if_pos (by rw [hi]; decide), if_pos (by rw [hi]; decide), hi]
    exact ⟨rfl, rfl⟩
  · intro h hl
    have hd : (hashDom p PH (ms.foldl update (init s).2)).1 = -22 := by
      rw [init_ok s ha h, update_fold]
      unfold hashDom
      rw [if_pos hl]
      rfl
    unfold signStream verifyStream
    rw [init_ok s ha h] at hd ⊢
    rw [if_neg (fun h => h rfl), if_neg (fun h => h rfl)]
    unfold signFinal verifyFinal
    dsimp only at hd ⊢
    rw [if_pos (by rw [hd]; decide), if_pos (by rw [hd]; decide), hd]
    exact ⟨rfl, rfl⟩

/-- The past of a context object matters: the ML-DSA part signs other bytes if the object was used with the
interface of C88 before, because the flag that call sets is never taken back. -/
theorem past_changes_transcript (p : Params) (mh : List Byte) : Spec.transcript p true mh ≠ Spec.transcript p false mh := by
  intro h
  have := congrArg List.length h
  simp [Spec.transcript, DomSep.Spec.mprime, Spec.pre] at this
  omega

/-- After a signature the context object has lost the user context and the choice of the hash: the next
message is signed with neither. -/
theorem second_signature (p : Params) (hp : p.Ok) (e : Env) (fuel : Nat) (H : List Byte → List Byte) (PH : Hash → List Byte → List Byte)
    (s s' : CCtx) (hs : Usable p s) (hh : Supported (Spec.chosen s)) (hc : s.c.userctx.length ≤ 255) (sk sig : Pair) (ms : List (List Byte))
    (rndD : List Byte) (rndE : Option (List Byte)) (h : signStream p e fuel H PH s sk ms rndD rndE = some (.sig sig, s')) :
    s'.c.userctx = [] ∧ s'.c.prehash = none ∧ Spec.chosen s' = .shake256 ∧ s'.c.composite = s.c.composite := by
  unfold signStream at h
  rw [if_neg (by rw [init_ok s hs.alg hh]; exact fun h => h rfl)] at h
  unfold signFinal at h
  rw [hashDom_ok hp PH s hs.alg hh hc ms] at h
  dsimp only at h
  rw [if_neg (fun h => h rfl)] at h
  rw [Option.bind_eq_some_iff] at h
  obtain ⟨r, h1, h2⟩ := h
  obtain ⟨k1, -, k3⟩ := sign_keeps h1
  dsimp only at k1 k3
  have hx : s'.c = { r.2 with userctx := [] } := by
    obtain ⟨r1, r2⟩ := r
    dsimp only at h2 ⊢
    clear h1 k1 k3
    revert h2
    cases r1 with
    | sig sd =>
      intro h2
      dsimp only at h2
      rw [Option.map_eq_some_iff] at h2
      obtain ⟨se, -, h3⟩ := h2
      injection h3 with h3 h4
      rw [← h4]
    | ret er => intro h2; injection h2 with h3; injection h3 with h3; exact absurd h3 (fun h => by (cases h))
    | _ => intro h2; injection h2 with h3; injection h3 with h3; exact absurd h3 (fun h => by (cases h))
  unfold Spec.chosen
  rw [hx]
  dsimp only
  rw [k3, k1]
  exact ⟨rfl, rfl, rfl, rfl⟩

/-! ### The hypotheses can be met -/

/-- The context of `LC_DILITHIUM_SET_CTX` (`lc_dilithium_size.h.in:278-286`) with a user context and a hash. -/
def fresh (ph : Option Hash) (ctx : List Byte) : CCtx := ⟨⟨false, ph, ctx, false, none, false, (0, 0), fun _ _ _ => 0, []⟩, .shake256⟩

theorem fresh_usable (p : Params) (ph : Option Hash) (ctx : List Byte) : Usable p (fresh ph ctx) :=
  ⟨rfl, fun _ h => by (cases h), rfl, rfl⟩

/-- A key pair, a signature under a context of three bytes and its verification, for a hash with 64 bytes. -/
example (H : List Byte → List Byte) (hH : ∀ m, (H m).length = 64)
    (hn : ∀ m, Curve.leNum (H m) % Curve.L ≠ 0) :
    ∃ pk sk sig, keypair Dilithium.mldsa44 Dilithium.demo 1000 H (List.replicate 32 7) (List.replicate 32 9) = some (pk, sk) ∧
      (signCtx Dilithium.mldsa44 Dilithium.demo 1000 H (fresh none [1, 2, 3]) sk [4, 5] (List.replicate 32 1) none).map Prod.fst = some (.sig sig) ∧
      (verifyCtx Dilithium.mldsa44 Dilithium.demo 1000 H (fresh none [1, 2, 3]) pk [4, 5] sig).map Prod.fst = some (.ret 0) := by
  have hp : Dilithium.mldsa44.Ok := Or.inl rfl
  obtain ⟨pk, sk, sig, h1, h2, -⟩ := Dilithium.demo_signs (List.replicate 32 7)
    (DomSep.Spec.mprime none [1, 2, 3] (Spec.pre Dilithium.mldsa44 [1, 2, 3] ++ [4, 5])) (List.replicate 32 1) rfl rfl
  obtain ⟨se, f1, -, -⟩ := Curve.Eddsa.sign_verify H hH false none (Spec.pre Dilithium.mldsa44 [1, 2, 3]) [4, 5] (List.replicate 32 9) rfl
  have k : keypair Dilithium.mldsa44 Dilithium.demo 1000 H (List.replicate 32 7) (List.replicate 32 9) = some
      (⟨pk, (Curve.Eddsa.keypair H (List.replicate 32 9)).1⟩, ⟨sk, (Curve.Eddsa.keypair H (List.replicate 32 9)).2⟩) := by
    unfold keypair; rw [h1]; rfl
  have sg : (signCtx Dilithium.mldsa44 Dilithium.demo 1000 H (fresh none [1, 2, 3])
      ⟨sk, (Curve.Eddsa.keypair H (List.replicate 32 9)).2⟩ [4, 5] (List.replicate 32 1) none).map Prod.fst = some (.sig ⟨sig, se⟩) := by
    rw [sign_value _ hp _ _ _ _ (fresh_usable _ none [1, 2, 3]) _ _ _ _ (by decide) trivial]
    unfold fresh
    dsimp only
    rw [h2, f1]
    rfl
  refine ⟨_, _, _, k, sg, ?_⟩
  rw [sign_verify _ hp _ _ H hH (fresh none [1, 2, 3]) (fresh none [1, 2, 3]) (fresh_usable _ _ _) (fresh_usable _ _ _) ⟨rfl, rfl⟩
    _ _ _ _ _ _ _ rfl k _ (by decide) trivial sg, if_neg (hn _)]

/-- The same with SHA-512 and a message in three pieces, verified in one piece. -/
example (H : List Byte → List Byte) (hH : ∀ m, (H m).length = 64) (PH : Hash → List Byte → List Byte)
    (hn : ∀ m, Curve.leNum (H m) % Curve.L ≠ 0) :
    ∃ pk sk sig, keypair Dilithium.mldsa44 Dilithium.demo 1000 H (List.replicate 32 7) (List.replicate 32 9) = some (pk, sk) ∧
      (signStream Dilithium.mldsa44 Dilithium.demo 1000 H PH (fresh (some .sha512) [1, 2, 3]) sk [[4], [], [5, 6]] (List.replicate 32 1) none).map
        Prod.fst = some (.sig sig) ∧
      (verifyStream Dilithium.mldsa44 Dilithium.demo 1000 H PH (fresh (some .sha512) [1, 2, 3]) pk [[4, 5, 6]] sig).map Prod.fst = some (.ret 0) := by
  have hp : Dilithium.mldsa44.Ok := Or.inl rfl
  have hsup : Supported (Spec.chosen (fresh (some .sha512) [1, 2, 3])) := Or.inr (Or.inr rfl)
  obtain ⟨pk, sk, sig, h1, h2, -⟩ := Dilithium.demo_signs (List.replicate 32 7)
    (Spec.transcript Dilithium.mldsa44 false (Spec.mHash Dilithium.mldsa44 PH .sha512 [1, 2, 3] [4, 5, 6])) (List.replicate 32 1) rfl rfl
  obtain ⟨se, f1, -, -⟩ := Curve.Eddsa.sign_verify H hH false none [] (Spec.mHash Dilithium.mldsa44 PH .sha512 [1, 2, 3] [4, 5, 6])
    (List.replicate 32 9) rfl
  have k : keypair Dilithium.mldsa44 Dilithium.demo 1000 H (List.replicate 32 7) (List.replicate 32 9) = some
      (⟨pk, (Curve.Eddsa.keypair H (List.replicate 32 9)).1⟩, ⟨sk, (Curve.Eddsa.keypair H (List.replicate 32 9)).2⟩) := by
    unfold keypair; rw [h1]; rfl
  have sg : (signStream Dilithium.mldsa44 Dilithium.demo 1000 H PH (fresh (some .sha512) [1, 2, 3])
      ⟨sk, (Curve.Eddsa.keypair H (List.replicate 32 9)).2⟩ [[4], [], [5, 6]] (List.replicate 32 1) none).map Prod.fst = some (.sig ⟨sig, se⟩) := by
    rw [stream_sign_value _ hp _ _ _ _ _ (fresh_usable _ _ _) hsup (by decide)]
    unfold fresh Spec.chosen
    dsimp only [Option.getD_some]
    rw [show [[(4 : Byte)], [], [5, 6]].flatten = [4, 5, 6] from rfl, h2, f1]
    rfl
  refine ⟨_, _, _, k, sg, ?_⟩
  rw [stream_sign_verify _ hp _ _ H hH PH (fresh (some .sha512) [1, 2, 3]) (fresh (some .sha512) [1, 2, 3]) (fresh_usable _ _ _)
    (fresh_usable _ _ _) ⟨rfl, rfl⟩ rfl _ _ _ _ _ _ rfl k _ _ [[4, 5, 6]] rfl (by decide) hsup sg, if_neg (hn _)]

/-- There is such a hash. -/
example : ∃ H : List Byte → List Byte, (∀ m, (H m).length = 64) ∧ ∀ m, Curve.leNum (H m) % Curve.L ≠ 0 :=
  ⟨fun _ => 1 :: List.replicate 63 0, fun _ => rfl, fun _ => (by decide : Curve.leNum (1 :: List.replicate 63 0) % Curve.L ≠ 0)⟩

end LC.Hybrid.Comp
