import Verif.DomSep.Model

/-!
C57: the message encoding of FIPS 204 (algorithms 2 and 4) / FIPS 205 (algorithms 22 and 23).
-/
namespace LC.DomSep

namespace Spec

/-- Base 128 encoding of an OID arc, most significant first (X.690 8.19.2). -/
def arc : Nat → Nat → List Byte
  | 0, n => [UInt8.ofNat (n % 128)]
  | k + 1, n => if n < 128 then [UInt8.ofNat n] else (arc' k (n / 128)) ++ [UInt8.ofNat (n % 128)]
where
  arc' : Nat → Nat → List Byte
  | 0, n => [UInt8.ofNat (128 + n % 128)]
  | k + 1, n => if n < 128 then [UInt8.ofNat (128 + n)] else arc' k (n / 128) ++ [UInt8.ofNat (128 + n % 128)]

/-- DER encoding of an object identifier with the first two arcs a.b (short lengths). -/
def der (a b : Nat) (rest : List Nat) : List Byte :=
  let body := arc 4 (40 * a + b) ++ rest.flatMap (arc 4)
  [0x06, UInt8.ofNat body.length] ++ body

/-- The registered number of the hash below 2.16.840.1.101.3.4.2 (NIST computer security objects register). -/
def hashNumber : Hash → Option Nat
  | .sha256 => some 1 | .sha384 => some 2 | .sha512 => some 3
  | .sha3_256 => some 8 | .sha3_384 => some 9 | .sha3_512 => some 10
  | .shake128 => some 11 | .shake256 => some 12 | .other _ => none

/-- DER OID of a hash. -/
def hashOid (h : Hash) : List Byte := der 2 16 [840, 1, 101, 3, 4, 2, (hashNumber h).getD 0]

/-- Length in bits of the digest that is signed (FIPS 204 section 5.4.1 fixes 256 and 512 for the XOFs). -/
def digestBits : Hash → Nat
  | .sha256 | .sha3_256 | .shake128 => 256
  | .sha384 | .sha3_384 => 384
  | .sha512 | .sha3_512 | .shake256 => 512
  | .other _ => 0

/-- Classical strength of a category. -/
def lambda : Nat → Option Nat
  | 1 => some 128 | 3 => some 192 | 5 => some 256 | _ => none

/-- A prehash may be used when its digest has at least 2 lambda bits (FIPS 204 section 5.4). -/
def Allowed (cat : Nat) : Option Hash → Prop
  | none => True
  | some h => ∃ l, lambda cat = some l ∧ 2 * l ≤ digestBits h

/-- M' of FIPS 204: algorithm 2 line 10 (pure) and algorithm 4 line 23 (prehash; `m` is then the digest). -/
def mprime (ph : Option Hash) (ctx m : List Byte) : List Byte :=
  match ph with
  | none => 0 :: UInt8.ofNat ctx.length :: (ctx ++ m)
  | some h => 1 :: UInt8.ofNat ctx.length :: (ctx ++ hashOid h ++ m)

/-- Domain of the composite signature (draft-ietf-lamps-pq-composite-sigs-03): 2.16.840.1.114027.80.8.1.n. -/
def compOid (n : Nat) : List Byte := der 2 16 [840, 1, 114027, 80, 8, 1, n]

end Spec

/-- The OID constants are the DER encodings of the registered identifiers. -/
theorem oidDer_spec (h : Hash) (n : Nat) (hn : Spec.hashNumber h = some n) : oidDer (UInt8.ofNat n) = Spec.hashOid h := by
  cases h <;> simp [Spec.hashNumber] at hn <;> subst hn <;> decide

theorem compOid_spec : compOid 0x2a = Spec.compOid 42 ∧ compOid 0x32 = Spec.compOid 50 ∧ compOid 0x35 = Spec.compOid 53 := by
  decide

/-- signature_ph_oids accepts exactly the hashes whose digest is long enough for the category. -/
theorem phOids_accepts (cat : Nat) (ph : Option Hash) : (phOids cat ph).1 = 0 ↔ Spec.Allowed cat ph := by
  cases ph with
  | none => simp [phOids, Spec.Allowed]
  | some h =>
    by_cases h1 : cat = 1
    · subst h1; cases h <;> simp [phOids, phCat1, phCat3, phCat5, Spec.Allowed, Spec.lambda, Spec.digestBits, EOPNOTSUPP]
    by_cases h3 : cat = 3
    · subst h3; cases h <;> simp [phOids, phCat3, phCat5, Spec.Allowed, Spec.lambda, Spec.digestBits, EOPNOTSUPP]
    by_cases h5 : cat = 5
    · subst h5; cases h <;> simp [phOids, phCat5, Spec.Allowed, Spec.lambda, Spec.digestBits, EOPNOTSUPP]
    · have hl : Spec.lambda cat = none := by
        unfold Spec.lambda; split <;> simp_all
      simp [phOids, h1, h3, h5, Spec.Allowed, hl, EOPNOTSUPP]

/-- Bytes hashed for an accepted prehash. -/
theorem phOids_bytes (cat : Nat) (h : Hash) (ok : (phOids cat (some h)).1 = 0) : (phOids cat (some h)).2 = Spec.hashOid h := by
  by_cases h1 : cat = 1
  · subst h1; cases h <;> first | decide | simp [phOids, phCat1, phCat3, phCat5, EOPNOTSUPP] at ok
  by_cases h3 : cat = 3
  · subst h3; cases h <;> first | decide | simp [phOids, phCat3, phCat5, EOPNOTSUPP] at ok
  by_cases h5 : cat = 5
  · subst h5; cases h <;> first | decide | simp [phOids, phCat5, EOPNOTSUPP] at ok
  · simp [phOids, h1, h3, h5, EOPNOTSUPP] at ok

theorem head_spec (cat : Nat) (r : Req) (ok : (head cat r).1 = 0) : (head cat r).2 = Spec.mprime r.prehash r.ctx [] := by
  unfold head at ok ⊢
  dsimp only at ok ⊢
  cases hp : r.prehash with
  | none => simp [phOids, Spec.mprime]
  | some h =>
    rw [hp] at ok
    rw [phOids_bytes cat h ok]
    simp [Spec.mprime]

theorem mprime_append (ph : Option Hash) (ctx m : List Byte) : Spec.mprime ph ctx m = Spec.mprime ph ctx [] ++ m := by
  cases ph <;> simp [Spec.mprime]

/-- Exact behaviour of the standard (not composite) operation: the encoding M' of FIPS 204, for every context of at
most 255 bytes and every allowed prehash. -/
theorem domSep_fips204 (cat : Nat) (r : Req) (hi : r.internal = false) (hc : r.composite = false)
    (hl : r.ctx.length ≤ 255) (ha : Spec.Allowed cat r.prehash) :
    domSep cat r = (0, Spec.mprime r.prehash r.ctx r.m) := by
  have ok : (head cat r).1 = 0 := (phOids_accepts cat r.prehash).2 ha
  unfold domSep
  rw [if_neg (by simp [hi]), if_neg (by omega)]
  unfold out
  rw [if_neg (by simp [hc]), head_spec cat r ok, ok, ← mprime_append]

/-- non-vacuity -/
example : domSep 3 ⟨false, some .sha384, [7, 8], false, [1, 2, 3]⟩ =
    (0, [1, 2, 7, 8, 6, 9, 0x60, 0x86, 0x48, 1, 0x65, 3, 4, 2, 2, 1, 2, 3]) :=
  domSep_fips204 3 _ rfl rfl (by decide) ⟨192, rfl, by decide⟩

/-- Contexts above 255 bytes are rejected and nothing is hashed. -/
theorem domSep_long_context (cat : Nat) (r : Req) (hi : r.internal = false) (hl : 255 < r.ctx.length) :
    domSep cat r = (EINVAL, []) := by
  unfold domSep
  rw [if_neg (by simp [hi]), if_pos hl]

example : domSep 1 ⟨false, none, List.replicate 256 0, false, [1]⟩ = (-22, []) :=
  domSep_long_context 1 _ rfl (by rw [List.length_replicate]; decide)

/-- Success of the standard operation. -/
theorem domSep_ok_iff (cat : Nat) (r : Req) (hi : r.internal = false) (hc : r.composite = false) :
    (domSep cat r).1 = 0 ↔ r.ctx.length ≤ 255 ∧ Spec.Allowed cat r.prehash := by
  unfold domSep
  rw [if_neg (by simp [hi])]
  by_cases hl : r.ctx.length > 255
  · rw [if_pos hl]; simp [EINVAL]; omega
  · rw [if_neg hl]
    unfold out
    rw [if_neg (by simp [hc])]
    show (phOids cat r.prehash).1 = 0 ↔ _
    rw [phOids_accepts]
    constructor
    · exact fun h => ⟨by omega, h⟩
    · exact fun h => h.2

/-- The init/update/final interface: hashing an empty message first and the message afterwards gives the same bytes
(sign_init passes m = NULL, 0). -/
theorem domSep_stream (cat : Nat) (r : Req) (m : List Byte) (hok : (domSep cat { r with m := [] }).1 = 0) :
    domSep cat { r with m := m } = (0, (domSep cat { r with m := [] }).2 ++ m) := by
  revert hok
  unfold domSep
  dsimp only
  have key : ∀ s, (out cat { r with m := [] } s).1 = 0 →
      out cat { r with m := m } s = (0, (out cat { r with m := [] } s).2 ++ m) := by
    intro s
    unfold out
    dsimp only
    cases r.composite
    · simp only [Bool.false_eq_true, if_false, List.append_nil]
      intro h; rw [h]
    · simp only [if_true, List.append_nil]
      intro h; rw [h]
  by_cases hi : r.internal = true
  · rw [if_pos hi, if_pos hi]; exact key _
  · rw [if_neg hi, if_neg hi]
    by_cases hl : r.ctx.length > 255
    · rw [if_pos hl]; intro h; exact absurd h (by decide)
    · rw [if_neg hl, if_neg hl]; exact key _

/-! Injectivity. -/

theorem ofNat_inj {a b : Nat} (ha : a ≤ 255) (hb : b ≤ 255) (h : UInt8.ofNat a = UInt8.ofNat b) : a = b := by
  have := congrArg UInt8.toNat h
  simp at this
  omega

theorem hashOid_length (h : Hash) : (Spec.hashOid h).length = 11 := by
  cases h <;> first | decide | exact (by decide : (Spec.der 2 16 [840, 1, 101, 3, 4, 2, 0]).length = 11)

theorem hashOid_inj (cat : Nat) (h h' : Hash) (a : Spec.Allowed cat (some h)) (a' : Spec.Allowed cat (some h'))
    (e : Spec.hashOid h = Spec.hashOid h') : h = h' := by
  have z : ∀ n, ¬ Spec.Allowed cat (some (.other n)) := by
    rintro n ⟨l, hl, hle⟩
    unfold Spec.lambda at hl
    simp [Spec.digestBits] at hle
    split at hl <;> simp at hl <;> omega
  cases h <;> cases h' <;> first | rfl | (exact absurd a (z _)) | (exact absurd a' (z _)) | (revert e; decide)

/-- M' is injective in the mode, the context, the prehash and the message. -/
theorem mprime_injective (cat : Nat) (ph ph' : Option Hash) (c c' m m' : List Byte) (hc : c.length ≤ 255)
    (hc' : c'.length ≤ 255) (a : Spec.Allowed cat ph) (a' : Spec.Allowed cat ph')
    (e : Spec.mprime ph c m = Spec.mprime ph' c' m') : ph = ph' ∧ c = c' ∧ m = m' := by
  cases ph with
  | none =>
    cases ph' with
    | none =>
      simp only [Spec.mprime, List.cons.injEq, true_and] at e
      have hl := ofNat_inj hc hc' e.1
      have := List.append_inj e.2 hl
      exact ⟨rfl, this.1, this.2⟩
    | some h => simp [Spec.mprime] at e
  | some h =>
    cases ph' with
    | none => simp [Spec.mprime] at e
    | some h' =>
      simp only [Spec.mprime, List.cons.injEq, true_and, List.append_assoc] at e
      have hl := ofNat_inj hc hc' e.1
      have h1 := List.append_inj e.2 hl
      have h2 := List.append_inj h1.2 (by rw [hashOid_length, hashOid_length])
      exact ⟨by rw [hashOid_inj cat h h' a a' h2.1], h1.1, h2.2⟩

/-- C57 as stated: whenever two requests are accepted and hash the same bytes, mode, context, prehash and message
agree. -/
def Claim : Prop :=
  ∀ cat r r', (domSep cat r).1 = 0 → (domSep cat r').1 = 0 → (domSep cat r).2 = (domSep cat r').2 → r = r'

theorem comp_bytes (cat : Nat) (r : Req) (hi : r.internal = false) (hc : r.composite = true) (hl : r.ctx.length ≤ 255)
    (ha : Spec.Allowed cat r.prehash) (h : (domSep cat r).1 = 0) :
    ∃ d, compDomain cat = some d ∧
      (domSep cat r).2 = Spec.mprime r.prehash r.ctx (d ++ [UInt8.ofNat r.ctx.length] ++ r.ctx ++ r.m) := by
  have ok : (head cat r).1 = 0 := (phOids_accepts cat r.prehash).2 ha
  revert h
  unfold domSep
  rw [if_neg (by simp [hi]), if_neg (by omega)]
  unfold out
  rw [if_pos hc, head_spec cat r ok]
  unfold composite
  rw [if_neg (by omega)]
  cases hd : compDomain cat with
  | none => intro h; exact absurd h (by decide : ¬ EOPNOTSUPP = 0)
  | some d =>
    intro _
    refine ⟨d, rfl, ?_⟩
    rw [mprime_append r.prehash r.ctx (d ++ _ ++ _ ++ _)]
    simp only [List.append_assoc]

/-- C57 without the internal mode, with the composite flag fixed by the operation, and with allowed prehashes (always
the case when an operation that is not composite returns success, `domSep_ok_iff`): the hashed bytes determine
prehash, context and message.  Missing: the three confusions proved below. -/
theorem domSep_injective_partial (cat : Nat) (r r' : Req) (hi : r.internal = false) (hi' : r'.internal = false)
    (hc : r.composite = r'.composite)
    (ha : r.composite = true → Spec.Allowed cat r.prehash ∧ Spec.Allowed cat r'.prehash)
    (h : (domSep cat r).1 = 0) (h' : (domSep cat r').1 = 0) (e : (domSep cat r).2 = (domSep cat r').2) : r = r' := by
  have len : ∀ r : Req, r.internal = false → (domSep cat r).1 = 0 → r.ctx.length ≤ 255 := by
    intro r hi h
    rcases Nat.lt_or_ge 255 r.ctx.length with hl | hl
    · rw [domSep_long_context cat r hi hl] at h; exact absurd h (by decide)
    · exact hl
  have l := len r hi h
  have l' := len r' hi' h'
  have fin : r.prehash = r'.prehash → r.ctx = r'.ctx → r.m = r'.m → r = r' := by
    intro e1 e2 e3
    cases r; cases r'; simp_all
  cases hcc : r.composite with
  | false =>
    have hcc' : r'.composite = false := by rw [← hc, hcc]
    have a := ((domSep_ok_iff cat r hi hcc).1 h).2
    have a' := ((domSep_ok_iff cat r' hi' hcc').1 h').2
    rw [domSep_fips204 cat r hi hcc l a, domSep_fips204 cat r' hi' hcc' l' a'] at e
    have := mprime_injective cat _ _ _ _ _ _ l l' a a' e
    exact fin this.1 this.2.1 this.2.2
  | true =>
    have hcc' : r'.composite = true := by rw [← hc, hcc]
    obtain ⟨a, a'⟩ := ha hcc
    obtain ⟨d, hd, b⟩ := comp_bytes cat r hi hcc l a h
    obtain ⟨d', hd', b'⟩ := comp_bytes cat r' hi' hcc' l' a' h'
    rw [b, b'] at e
    have := mprime_injective cat _ _ _ _ _ _ l l' a a' e
    rw [hd] at hd'
    cases hd'
    obtain ⟨e1, e2, e3⟩ := this
    rw [e2] at e3
    exact fin e1 e2 (List.append_cancel_left e3)

/-- non-vacuity -/
example : (domSep 5 ⟨false, some .sha512, [1], true, [2]⟩).1 = 0 ∧ Spec.Allowed 5 (some .sha512) := ⟨by decide, 256, rfl, by decide⟩

/-- Confusion 1: the internal mode hashes the message alone, so a caller who uses a key in both modes signs the same
bytes for different requests (documented as a mode for experts). -/
theorem internal_mode_collides (cat : Nat) (ctx m : List Byte) (hl : ctx.length ≤ 255) :
    domSep cat ⟨true, none, ctx, false, 0 :: UInt8.ofNat ctx.length :: (ctx ++ m)⟩ = domSep cat ⟨false, none, ctx, false, m⟩ := by
  rw [domSep_fips204 cat ⟨false, none, ctx, false, m⟩ rfl rfl hl trivial]
  rfl

/-- Confusion 2: the ML-DSA half of a composite signature is an ordinary signature on a message that starts with the
domain: nothing in the hashed bytes tells the two apart (the draft passes the domain as context of ML-DSA; the one-shot
code passes the caller's context). -/
theorem composite_is_ordinary (ph : Option Hash) (ctx m : List Byte) (hl : ctx.length ≤ 255) (ha : Spec.Allowed 1 ph) :
    domSep 1 ⟨false, ph, ctx, true, m⟩ =
      domSep 1 ⟨false, ph, ctx, false, Spec.compOid 42 ++ [UInt8.ofNat ctx.length] ++ ctx ++ m⟩ := by
  rw [domSep_fips204 1 ⟨false, ph, ctx, false, _⟩ rfl rfl hl ha]
  have ok : (domSep 1 ⟨false, ph, ctx, true, m⟩).1 = 0 := by
    unfold domSep
    rw [if_neg (by simp), if_neg (by show ¬ ctx.length > 255; omega)]
    unfold out
    rw [if_pos rfl]
    show (composite 1 ctx).1 = 0
    unfold composite
    rw [if_neg (by omega)]
    rfl
  obtain ⟨d, hd, b⟩ := comp_bytes 1 ⟨false, ph, ctx, true, m⟩ rfl rfl hl ha ok
  have hd' : d = Spec.compOid 42 := by
    rw [← compOid_spec.1]
    cases hd; rfl
  subst hd'
  exact Prod.ext ok b

/-- Confusion 3: for a composite operation the error of an unsupported prehash is overwritten, the operation succeeds
and the hash is not named in the hashed bytes: all unsupported hashes are interchangeable. -/
theorem composite_masks_unsupported (h h' : Hash) (ctx m : List Byte) (hl : ctx.length ≤ 255)
    (a : ¬ Spec.Allowed 5 (some h)) (a' : ¬ Spec.Allowed 5 (some h')) :
    (domSep 5 ⟨false, some h, ctx, true, m⟩).1 = 0 ∧
    domSep 5 ⟨false, some h, ctx, true, m⟩ = domSep 5 ⟨false, some h', ctx, true, m⟩ := by
  have b : ∀ h, ¬ Spec.Allowed 5 (some h) → phOids 5 (some h) = (EOPNOTSUPP, []) := by
    intro h a
    rw [← phOids_accepts] at a
    cases h <;> first | rfl | exact absurd rfl a
  have c : ∀ h, ¬ Spec.Allowed 5 (some h) → domSep 5 ⟨false, some h, ctx, true, m⟩ =
      (0, [1, UInt8.ofNat ctx.length] ++ ctx ++ (compOid 0x35 ++ [UInt8.ofNat ctx.length] ++ ctx) ++ m) := by
    intro h a
    unfold domSep
    rw [if_neg (by simp), if_neg (by show ¬ ctx.length > 255; omega)]
    unfold out
    rw [if_pos rfl]
    unfold head composite
    dsimp only
    rw [b h a, if_neg (by omega)]
    simp [compDomain]
  exact ⟨by rw [c h a], by rw [c h a, c h' a']⟩

example : ¬ Spec.Allowed 5 (some .sha256) ∧ ¬ Spec.Allowed 5 (some .sha3_384) := by
  refine ⟨?_, ?_⟩ <;> (rintro ⟨l, hl, h⟩; cases hl; exact absurd h (by decide))

/-- C57 as stated does not hold. -/
theorem claim_false : ¬ Claim := by
  intro hc
  have := hc 5 ⟨false, some .sha256, [], true, [1]⟩ ⟨false, some .sha3_256, [], true, [1]⟩ (by decide) (by decide) (by decide)
  exact absurd this (by decide)

end LC.DomSep
