import Verif.Curve.EddsaLemmas
/-!
# Ed25519: C76, C77, C78
-/
namespace LC.Curve

open Mont

/-! ### C76: multiples of points, encoding and decoding -/

/-- **C76.** `ge25519_scalarmult_base` computes the multiple of the base point in the group of the
curve, for every scalar below `2^255`. -/
theorem ed_scalarmult_base (a : List Byte) (ha : a.length = 32) (hv : leNum a < 2 ^ 255) :
    R3 (scalarmultBase a) (leNum a • Bp) := scalarmultBase_rep a ha (top_small ha hv)

/-- **C76.** `_ge25519_double_scalarmult_vartime` computes `a A + b B`. -/
theorem ed_double_scalarmult {A : P3} {Q : Pt} (h : R3 A Q) (a b : List Byte) (ha : a.length = 32) (hb : b.length = 32)
    (va : leNum a < L) (vb : leNum b < L) : R2 (doubleScalarmult a A b) (leNum a • Q + leNum b • Bp) :=
  doubleScalarmult_rep h a b ha hb (va.le.trans L_le) (vb.le.trans L_le)

/-- **C76.** Encoding and decoding: the encoding of a point decodes to that point, and two points with
the same encoding are the same, whatever their projective coordinates. -/
theorem ed_encode_decode {p q : P3} {Q R : Pt} (hp : R3 p Q) (hq : R3 q R) :
    (frombytes p.tobytes).2 = true ∧ R3 (frombytes p.tobytes).1 Q ∧ isCanonicalY p.tobytes = 1 ∧
      (p.tobytes = q.tobytes ↔ Q = R) := by
  have h1 := tobytes_spec hp
  have h2 := tobytes_spec hq
  obtain ⟨d, c⟩ := enc_dec h1
  obtain ⟨f1, f2⟩ := frombytes_spec p.tobytes (tobytes_length p)
  refine ⟨f1.mpr ⟨Q, d⟩, (f2 Q d).1, ?_, ?_, ?_⟩
  · rw [isCanonicalY_spec _ (tobytes_length p), if_pos c]
  · intro e
    rw [e, h2] at h1
    obtain ⟨a, b⟩ := encNum_inj h1
    exact (pt_eq a b).symm
  · intro e
    apply leNum_inj _ _ ((tobytes_length p).trans (tobytes_length q).symm)
    rw [h1, h2, e]

/-- **C76.** What is decoded and accepted as canonical encodes to the same bytes again, if `x` is not 0. -/
theorem ed_decode_encode (s : List Byte) (hs : s.length = 32) (hc : isCanonicalY s = 1) (hd : (frombytes s).2 = true)
    (hx : smallOrder (frombytes s).1 = 0) : (frombytes s).1.tobytes = s := by
  obtain ⟨f1, f2⟩ := frombytes_spec s hs
  obtain ⟨Q, hq⟩ := f1.mp hd
  obtain ⟨hr, hz⟩ := f2 Q hq
  rw [smallOrder_exact hr hz] at hx
  have h8 : ¬ 8 • Q = 0 := fun h => by rw [if_pos h] at hx; cases hx
  have hx0 : xc Q ≠ 0 := fun h => h8 ((eight_zero Q).mpr (Or.inl h))
  have hP : leNum s % 2 ^ 255 < P := by
    rw [isCanonicalY_spec s hs] at hc
    by_contra h
    rw [if_neg h] at hc; cases hc
  apply leNum_inj _ _ ((tobytes_length _).trans hs.symm)
  rw [tobytes_spec hr]
  unfold encNum
  rw [hq.1, hq.2.resolve_left hx0, ZMod.val_natCast, Nat.mod_eq_of_lt hP]
  omega

namespace Eddsa

/-! ### C78: what the verification accepts -/

theorem top4 (c : Byte) : (c &&& 240) ≠ 0 ↔ 16 ≤ c.toNat := by
  revert c; apply byte_forall; decide +kernel

theorem canon_check (sig : List Byte) (hs : sig.length = 64) :
    ((sig.getD 63 0 &&& 240) ≠ 0 ∧ Sc.isCanonical (sig.drop 32) = false) ↔ ¬ leNum (sig.drop 32) < L := by
  have hl : (sig.drop 32).length = 32 := by rw [List.length_drop, hs]
  have hc := Sc.isCanonical_iff (sig.drop 32) hl
  rw [Bool.eq_false_iff, top4, ne_eq, hc]
  refine ⟨fun h => h.2, fun h => ⟨?_, h⟩⟩
  have h1 := split31 _ hl
  have h2 := take31_lt _ hl
  rw [List.getD_eq_getElem?_getD, List.getElem?_drop, ← List.getD_eq_getElem?_getD] at h1
  by_contra hlt
  have : 256 ^ 31 * (sig.getD 63 0).toNat ≤ 256 ^ 31 * 15 := Nat.mul_le_mul_left _ (by omega)
  have e : (256 : Nat) ^ 31 + 256 ^ 31 * 15 < L := by decide
  have h1' : leNum (sig.drop 32) = leNum ((sig.drop 32).take 31) + 256 ^ 31 * (sig.getD 63 0).toNat := h1
  omega

/-- The hash that binds `R`, the public key and the message, as a number below the group order
(RFC 8032, section 5.1.7, step 2). -/
def challenge (H : List Byte → List Byte) (prehash : Bool) (comp msg pk sig : List Byte) : Nat :=
  leNum (H (dom2 prehash ++ sig.take 32 ++ pk ++ comp ++ msg)) % L

/-- The conditions of RFC 8032 on the three parts, and that the points do not have small order. -/
structure Parts (pk sig : List Byte) (A R : Pt) : Prop where
  key : DecOf pk A
  keyCanonical : leNum pk % 2 ^ 255 < P
  keyOrder : 8 • A ≠ 0
  r : DecOf (sig.take 32) R
  rOrder : 8 • R ≠ 0
  s : leNum (sig.drop 32) < L

/-- The values for which the last check passes by coincidence (it would be a point of order 8, or no
condition at all, with the right coordinate `T`).  `Z` is the projective coordinate of `Q = S B - h A`. -/
def Coincidence (R Q : Pt) (Z : ZMod P) : Prop :=
  1 + dd * xc R * (-xc Q) * yc R * yc Q * Z = 0 ∨ 1 - dd * xc R * (-xc Q) * yc R * yc Q * Z = 0 ∨
  ii * (yc R * yc Q + xc R * (-xc Q)) * (1 + dd * xc R * (-xc Q) * yc R * yc Q * Z) =
    (xc R * yc Q + yc R * (-xc Q)) * (1 - dd * xc R * (-xc Q) * yc R * yc Q * Z) ∨
  ii * (yc R * yc Q + xc R * (-xc Q)) =
    -(4 * Z ^ 2 * (xc R * yc Q + yc R * (-xc Q)) * (1 - dd * xc R * (-xc Q) * yc R * yc Q * Z) ^ 2)

/-- The value of the verification, in all cases. -/
theorem verify_value (H : List Byte → List Byte) (hH : ∀ m, (H m).length = 64) (ph : Bool) (comp msg pk sig : List Byte)
    (hpk : pk.length = 32) (hs : sig.length = 64) :
    (verify H ph comp msg pk sig = some (-22) ∧ ¬ ∃ A R, Parts pk sig A R) ∨
    ∃ A R Z, Parts pk sig A R ∧ Z ≠ 0 ∧
      (∃ a h, frombytesNeg pk = some a ∧ Sc.reduce (H (dom2 ph ++ sig.take 32 ++ pk ++ comp ++ msg)) = some h ∧
        Z = toF (doubleScalarmult h a (sig.drop 32)).Z) ∧
      ((verify H ph comp msg pk sig = some 0 ∧
        (4 • (R - (leNum (sig.drop 32) • Bp - challenge H ph comp msg pk sig • A)) = 0 ∨
          Coincidence R (leNum (sig.drop 32) • Bp - challenge H ph comp msg pk sig • A) Z)) ∨
      (verify H ph comp msg pk sig = some (-74) ∧
        ¬ (4 • (R - (leNum (sig.drop 32) • Bp - challenge H ph comp msg pk sig • A)) = 0 ∨
          Coincidence R (leNum (sig.drop 32) • Bp - challenge H ph comp msg pk sig • A) Z))) := by
  have hsl : (sig.take 32).length = 32 := by rw [List.length_take, hs]; rfl
  have hdl : (sig.drop 32).length = 32 := by rw [List.length_drop, hs]
  unfold verify
  by_cases c1 : leNum (sig.drop 32) < L
  swap
  · rw [if_pos ((canon_check sig hs).mpr c1)]
    exact Or.inl ⟨rfl, fun ⟨A, R, h⟩ => c1 h.s⟩
  rw [if_neg (fun h => (canon_check sig hs).mp h c1), isCanonicalY_spec pk hpk]
  by_cases c2 : leNum pk % 2 ^ 255 < P
  swap
  · rw [if_neg c2, if_pos rfl]
    exact Or.inl ⟨rfl, fun ⟨A, R, h⟩ => c2 h.keyCanonical⟩
  rw [if_pos c2, if_neg one_ne_zero]
  rcases frombytesNeg_spec pk hpk with ⟨e, hn⟩ | ⟨a, A, e, hA, ha, hz⟩
  · rw [e]
    exact Or.inl ⟨rfl, fun ⟨A, R, h⟩ => hn ⟨A, h.key⟩⟩
  have hso : smallOrder a = if 8 • A = 0 then 1 else 0 := by
    rw [smallOrder_exact ha hz]; simp only [neg_nsmul, neg_eq_zero]
  rw [e, Option.elim_some, hso]
  by_cases c3 : 8 • A = 0
  · rw [if_pos c3, if_pos one_ne_zero]
    exact Or.inl ⟨rfl, fun ⟨A', R, h⟩ => h.keyOrder (by rw [h.key.unique hA]; exact c3)⟩
  rw [if_neg c3, if_neg (fun h => h rfl)]
  obtain ⟨f1, f2⟩ := frombytes_spec (sig.take 32) hsl
  by_cases c4 : ∃ R, DecOf (sig.take 32) R
  swap
  · rw [if_pos (Or.inl (by rw [Bool.eq_false_iff]; exact fun h => c4 (f1.mp h)))]
    exact Or.inl ⟨rfl, fun ⟨A, R, h⟩ => c4 ⟨R, h.r⟩⟩
  obtain ⟨R, hR⟩ := c4
  obtain ⟨hr, hrz⟩ := f2 R hR
  have hd2 := f1.mpr ⟨R, hR⟩
  rw [smallOrder_exact hr hrz, hd2]
  by_cases c5 : 8 • R = 0
  · rw [if_pos c5, if_pos (Or.inr one_ne_zero)]
    exact Or.inl ⟨rfl, fun ⟨A, R', h⟩ => h.rOrder (by rw [h.r.unique hR]; exact c5)⟩
  rw [if_neg c5, if_neg (by rintro (h | h); · cases h
                            · exact h rfl)]
  right
  obtain ⟨h, h1, h2, h3⟩ := Sc.reduce_exact _ (hH (dom2 ph ++ sig.take 32 ++ pk ++ comp ++ msg))
  have hL : leNum h < L := by rw [h3]; exact Nat.mod_lt _ (by decide)
  have hp := ed_double_scalarmult ha h (sig.drop 32) h2 hdl hL c1
  have hQ : leNum h • (-A) + leNum (sig.drop 32) • Bp =
      leNum (sig.drop 32) • Bp - challenge H ph comp msg pk sig • A := by
    unfold challenge
    rw [← h3, neg_nsmul]; abel
  rw [hQ] at hp
  obtain ⟨k1, k2⟩ := check_raw hr hrz hp rfl rfl rfl rfl
  refine ⟨A, R, toF (doubleScalarmult h a (sig.drop 32)).Z, ⟨hA, c2, c3, hR, c5, c1⟩, hp.z, ⟨a, h, rfl, h1, rfl⟩, ?_⟩
  have k3 : smallOrder ((frombytes (sig.take 32)).1.sub (doubleScalarmult h a (sig.drop 32)).toP3) = 1 ↔
      (4 • (R - (leNum (sig.drop 32) • Bp - challenge H ph comp msg pk sig • A)) = 0 ∨
          Coincidence R (leNum (sig.drop 32) • Bp - challenge H ph comp msg pk sig • A)
            (toF (doubleScalarmult h a (sig.drop 32)).Z)) := by
    rw [k2, ← check_group, or_assoc]
    rfl
  rw [h1, Option.map_some]
  dsimp only
  rw [← k3]
  by_cases c6 : smallOrder ((frombytes (sig.take 32)).1.sub (doubleScalarmult h a (sig.drop 32)).toP3) = 1
  · rw [if_pos c6]; exact Or.inl ⟨rfl, c6⟩
  · rw [if_neg c6]; exact Or.inr ⟨rfl, c6⟩

/-- **C78.** The verification accepts a signature whose parts are valid and that satisfies the equation
`S B = R + h A` of RFC 8032; also if the two sides differ by a point of order 2 or 4. -/
theorem verify_accepts (H : List Byte → List Byte) (hH : ∀ m, (H m).length = 64) (ph : Bool) (comp msg pk sig : List Byte)
    (hpk : pk.length = 32) (hs : sig.length = 64) {A R : Pt} (hp : Parts pk sig A R)
    (he : 4 • (leNum (sig.drop 32) • Bp) = 4 • R + 4 • (challenge H ph comp msg pk sig • A)) :
    verify H ph comp msg pk sig = some 0 := by
  rcases verify_value H hH ph comp msg pk sig hpk hs with ⟨-, h⟩ | ⟨A', R', Z, hp', -, -, h⟩
  · exact absurd ⟨A, R, hp⟩ h
  · obtain rfl := hp.key.unique hp'.key
    obtain rfl := hp.r.unique hp'.r
    rcases h with ⟨h, -⟩ | ⟨-, h⟩
    · exact h
    · refine absurd (Or.inl ?_) h
      rw [nsmul_sub, nsmul_sub, he]; abel

/-- **C78.** (Partial.)  An accepted signature has valid parts and satisfies the equation of RFC 8032
multiplied by the cofactor, or one of the four equations of `Coincidence` holds, where `Z` is a
projective coordinate of `S B - h A` that the code happens to use.  That the second case cannot occur
is not true: see `verify_coincidence`. -/
theorem verify_sound_partial (H : List Byte → List Byte) (hH : ∀ m, (H m).length = 64) (ph : Bool) (comp msg pk sig : List Byte)
    (hpk : pk.length = 32) (hs : sig.length = 64) (ha : verify H ph comp msg pk sig = some 0) :
    ∃ A R, Parts pk sig A R ∧
      (8 • (leNum (sig.drop 32) • Bp) = 8 • R + 8 • (challenge H ph comp msg pk sig • A) ∨
        ∃ a h, frombytesNeg pk = some a ∧ Sc.reduce (H (dom2 ph ++ sig.take 32 ++ pk ++ comp ++ msg)) = some h ∧
          Coincidence R (leNum (sig.drop 32) • Bp - challenge H ph comp msg pk sig • A)
            (toF (doubleScalarmult h a (sig.drop 32)).Z)) := by
  rcases verify_value H hH ph comp msg pk sig hpk hs with ⟨h, -⟩ | ⟨A, R, Z, hp, -, ⟨a, h, e1, e2, e3⟩, hv⟩
  · rw [h] at ha; cases ha
  · rcases hv with ⟨-, h4 | hc⟩ | ⟨h, -⟩
    · refine ⟨A, R, hp, Or.inl ?_⟩
      have h8 : 8 • (R - (leNum (sig.drop 32) • Bp - challenge H ph comp msg pk sig • A)) = 0 := by
        rw [show 8 = 4 * 2 from rfl, mul_nsmul, h4, nsmul_zero]
      rw [nsmul_sub, nsmul_sub, sub_eq_zero] at h8
      rw [h8]; abel
    · exact ⟨A, R, hp, Or.inr ⟨a, h, e1, e2, e3 ▸ hc⟩⟩
    · rw [h] at ha; cases ha

/-- **C78.** Apart from the coincidences, a signature that differs from the equation by a point of order
8 is refused, although it satisfies the equation of RFC 8032 multiplied by the cofactor. -/
theorem verify_refuses_order8 (H : List Byte → List Byte) (hH : ∀ m, (H m).length = 64) (ph : Bool) (comp msg pk sig : List Byte)
    (hpk : pk.length = 32) (hs : sig.length = 64) {A R : Pt} (hp : Parts pk sig A R)
    (he : 4 • (leNum (sig.drop 32) • Bp) ≠ 4 • R + 4 • (challenge H ph comp msg pk sig • A))
    (hc : ∀ a h, frombytesNeg pk = some a → Sc.reduce (H (dom2 ph ++ sig.take 32 ++ pk ++ comp ++ msg)) = some h →
      ¬ Coincidence R (leNum (sig.drop 32) • Bp - challenge H ph comp msg pk sig • A)
            (toF (doubleScalarmult h a (sig.drop 32)).Z)) : verify H ph comp msg pk sig = some (-74) := by
  rcases verify_value H hH ph comp msg pk sig hpk hs with ⟨-, h⟩ | ⟨A', R', Z, hp', -, ⟨a, h, e1, e2, e3⟩, hv⟩
  · exact absurd ⟨A, R, hp⟩ h
  · obtain rfl := hp.key.unique hp'.key
    obtain rfl := hp.r.unique hp'.r
    rcases hv with ⟨-, h4 | hc'⟩ | ⟨h, -⟩
    · refine absurd ?_ he
      rw [nsmul_sub, nsmul_sub, sub_eq_zero] at h4
      rw [h4]; abel
    · exact absurd (e3 ▸ hc') (hc a h e1 e2)
    · exact h

/-- **C78.** The scalar cannot be altered: two accepted signatures with the same `R` on the same message
are equal, or one of them is accepted by coincidence. -/
theorem verify_s_unique_partial (H : List Byte → List Byte) (hH : ∀ m, (H m).length = 64) (ph : Bool) (comp msg pk : List Byte)
    (r s s' : List Byte) (hpk : pk.length = 32) (hr : r.length = 32) (hs : s.length = 32) (hs' : s'.length = 32)
    (ha : verify H ph comp msg pk (r ++ s) = some 0) (ha' : verify H ph comp msg pk (r ++ s') = some 0) :
    s = s' ∨ ∃ A R a h, Parts pk (r ++ s) A R ∧ frombytesNeg pk = some a ∧
      Sc.reduce (H (dom2 ph ++ r ++ pk ++ comp ++ msg)) = some h ∧
      (Coincidence R (leNum s • Bp - challenge H ph comp msg pk (r ++ s) • A) (toF (doubleScalarmult h a s).Z) ∨
       Coincidence R (leNum s' • Bp - challenge H ph comp msg pk (r ++ s) • A) (toF (doubleScalarmult h a s').Z)) := by
  have t : ∀ x : List Byte, (r ++ x).take 32 = r := fun x => by rw [← hr]; exact List.take_left
  have d : ∀ x : List Byte, (r ++ x).drop 32 = x := fun x => by rw [← hr]; exact List.drop_left
  have hch : challenge H ph comp msg pk (r ++ s') = challenge H ph comp msg pk (r ++ s) := by
    unfold challenge; rw [t, t]
  rcases verify_value H hH ph comp msg pk (r ++ s) hpk (by rw [List.length_append, hr, hs]) with
    ⟨h, -⟩ | ⟨A, R, Z, hp, -, ⟨a, h, e1, e2, e3⟩, hv⟩
  · rw [h] at ha; cases ha
  rcases verify_value H hH ph comp msg pk (r ++ s') hpk (by rw [List.length_append, hr, hs']) with
    ⟨h, -⟩ | ⟨A', R', Z', hp', -, ⟨a', h', e1', e2', e3'⟩, hv'⟩
  · rw [h] at ha'; cases ha'
  obtain rfl := hp.key.unique hp'.key
  have := hp'.r
  rw [t, ← t s] at this
  obtain rfl := hp.r.unique this
  have p1 := hp.s
  have p2 := hp'.s
  rw [t] at e2 e2'
  rw [d] at e3 e3' hv hv' p1 p2
  rw [hch] at hv'
  rw [e1] at e1'; cases e1'
  rw [e2] at e2'; cases e2'
  rcases hv with ⟨-, h4 | hc⟩ | ⟨h, -⟩
  · rcases hv' with ⟨-, h4' | hc'⟩ | ⟨h, -⟩
    · left
      have e : 4 • (leNum s • Bp) = 4 • (leNum s' • Bp) := by
        rw [nsmul_sub, nsmul_sub, sub_eq_zero] at h4 h4'
        have := h4.symm.trans h4'
        exact sub_left_inj.mp this
      apply leNum_inj _ _ (hs.trans hs'.symm)
      rw [smul_smul, smul_smul, nsmul_eq_nsmul_iff_modEq, order_B] at e
      have := Nat.ModEq.cancel_left_of_coprime (by decide +kernel : Nat.gcd L 4 = 1) e
      have hm : leNum s % L = leNum s' % L := this
      rwa [Nat.mod_eq_of_lt p1, Nat.mod_eq_of_lt p2] at hm
    · exact Or.inr ⟨A, R, a, h, hp, e1, e2, Or.inr (e3' ▸ hc')⟩
    · rw [h] at ha'; cases ha'
  · exact Or.inr ⟨A, R, a, h, hp, e1, e2, Or.inl (e3 ▸ hc)⟩
  · rw [h] at ha; cases ha

/-! ### C77: signatures verify -/

/-- **C77.** The bytes that RFC 8032, section 5.1.6, prescribes: with the secret scalar `s` and the nonce
`r` (the RFC's if there is no randomness) the signature is the encoding of `r B` followed by `r + k s`
modulo the group order, `k` the challenge; the public key is the encoding of `s B`.  The scalar
arithmetic does not overflow. -/
theorem sign_value (H : List Byte → List Byte) (hH : ∀ m, (H m).length = 64) (ph : Bool) (rnd : Option (List Byte))
    (comp msg seed : List Byte) (hseed : seed.length = 32) (s r : Nat) (pk : List Byte)
    (hs : s = Spec.decodeScalar ((H seed).take 32))
    (hr : r = leNum (H (dom2 ph ++ (rnd.elim ((H seed).drop 32) fun n => H seed ++ n ++ List.replicate 32 0) ++ comp ++ msg)) % L)
    (hpk : pk = (keypair H seed).1) :
    ∃ sig, sign H ph rnd comp msg (keypair H seed).2 = some sig ∧ sig.length = 64 ∧ pk.length = 32 ∧
      leNum pk = encNum (xc (s • Bp)) (yc (s • Bp)) ∧
      leNum (sig.take 32) = encNum (xc (r • Bp)) (yc (r • Bp)) ∧
      leNum (sig.drop 32) = (challenge H ph comp msg pk sig * s + r) % L := by
  have hpk' : pk = (scalarmultBase (clamp ((H seed).take 32))).tobytes := hpk
  clear hpk
  unfold sign keypair
  dsimp only
  have hsk : (seed ++ (scalarmultBase (clamp ((H seed).take 32))).tobytes).take 32 = seed := List.take_left' hseed
  have hsd : ((seed ++ (scalarmultBase (clamp ((H seed).take 32))).tobytes).drop 32).take 32 =
      (scalarmultBase (clamp ((H seed).take 32))).tobytes := by
    rw [List.drop_left' hseed]
    exact List.take_of_length_le (by rw [tobytes_length])
  rw [hsk, hsd]
  have hz : ((H seed).take 32).length = 32 := by rw [List.length_take, hH]; rfl
  have hA := scalarmultBase_rep (clamp ((H seed).take 32)) (clamp_length _) (clamp31 _ hz)
  have hcs := clamp_spec _ hz
  have hcl := clamp_length ((H seed).take 32)
  rw [← hs] at hcs
  clear hs
  generalize clamp ((H seed).take 32) = az at *
  obtain ⟨nonce, n1, n2, n3⟩ := Sc.reduce_exact _ (hH (nonceInput ph rnd (H seed) comp msg))
  rw [n1, Option.bind_some]
  have nL : leNum nonce < L := by rw [n3]; exact Nat.mod_lt _ (by decide)
  have hR := ed_scalarmult_base nonce n2 (nL.trans (by decide))
  rw [← hpk']
  generalize hRb : (scalarmultBase nonce).tobytes = Rb
  have lpk : pk.length = 32 := by rw [hpk']; exact tobytes_length _
  have lR : Rb.length = 32 := by rw [← hRb]; exact tobytes_length _
  obtain ⟨hram, h1, h2, h3⟩ := Sc.reduce_exact _ (hH (dom2 ph ++ (Rb ++ pk) ++ comp ++ msg))
  rw [h1, Option.bind_some]
  obtain ⟨S, s1, s2, s3⟩ := Sc.muladd_exact hram az nonce h2 hcl n2
  rw [s1, Option.map_some]
  have lsig : (Rb ++ S).length = 64 := by rw [List.length_append, lR, s2]
  refine ⟨_, rfl, lsig, lpk, ?_, ?_, ?_⟩
  · rw [hpk', tobytes_spec hA, hcs]
  · rw [List.take_left' lR, ← hRb, tobytes_spec hR, n3, hr]; rfl
  · rw [List.drop_left' lR, s3, h3, n3, hr, hcs]
    unfold challenge
    rw [List.take_left' lR, ← List.append_assoc (dom2 ph)]
    rfl

/-- **C77.** A signature made with a key pair of the library verifies under its public key, with and
without prehash, with and without randomness, with and without composite domain separation, unless the
nonce is a multiple of the group order; in that case it is refused. -/
theorem sign_verify (H : List Byte → List Byte) (hH : ∀ m, (H m).length = 64) (ph : Bool) (rnd : Option (List Byte))
    (comp msg seed : List Byte) (hseed : seed.length = 32) :
    ∃ sig, sign H ph rnd comp msg (keypair H seed).2 = some sig ∧ sig.length = 64 ∧
      verify H ph comp msg (keypair H seed).1 sig =
        if leNum (H (nonceInput ph rnd (H seed) comp msg)) % L = 0 then some (-22) else some 0 := by
  obtain ⟨sig, h, lsig, lpk, eA, eR, eS⟩ := sign_value H hH ph rnd comp msg seed hseed _ _ _ rfl rfl rfl
  refine ⟨sig, h, lsig, ?_⟩
  have hA8 : 8 • (Spec.decodeScalar ((H seed).take 32) • Bp) ≠ 0 := clamp_smul order_B _
  have e0 : H (nonceInput ph rnd (H seed) comp msg) =
    H (dom2 ph ++ (rnd.elim ((H seed).drop 32) fun n => H seed ++ n ++ List.replicate 32 0) ++ comp ++ msg) := rfl
  rw [e0]
  clear h e0
  generalize hr : leNum (H (dom2 ph ++ (rnd.elim ((H seed).drop 32) fun n => H seed ++ n ++ List.replicate 32 0) ++ comp ++ msg)) % L = r at *
  have nL : r < L := by rw [← hr]; exact Nat.mod_lt _ (by decide)
  generalize (keypair H seed).1 = pk at *
  generalize Spec.decodeScalar ((H seed).take 32) = s at *
  obtain ⟨dA, cA'⟩ := enc_dec eA
  obtain ⟨dR, -⟩ := enc_dec eR
  by_cases h0 : r = 0
  · rw [if_pos h0]
    rcases verify_value H hH ph comp msg pk sig lpk lsig with ⟨h, -⟩ | ⟨A, R, Z, hp, -⟩
    · exact h
    · exfalso
      apply hp.rOrder
      rw [hp.r.unique dR, h0, zero_nsmul, nsmul_zero]
  · rw [if_neg h0]
    have hp : Parts pk sig (s • Bp) (r • Bp) := by
      refine ⟨dA, cA', hA8, dR, ?_, by rw [eS]; exact Nat.mod_lt _ (by decide)⟩
      rw [Ne, eight_smul_B, Nat.mod_eq_of_lt nL]; exact h0
    apply verify_accepts H hH ph comp msg pk _ lpk lsig hp
    have e : leNum (sig.drop 32) • Bp = (challenge H ph comp msg pk sig * s + r) • Bp := by
      apply smul_B_eq
      rw [eS, Nat.mod_mod]
    rw [← nsmul_add, e, add_nsmul, mul_nsmul', add_comm]

end Eddsa
end LC.Curve
