import Verif.Hybrid.Model
import Verif.Kyber.ProtoProps
import Verif.Curve.GeXProps
/-!
# C85 (hybrid KEM), C86 (hybrid key exchange), C87 (hybrid integrated encryption)
-/
namespace LC.Hybrid
open LC.Kyber (Fns Par KmacCalls Out AeadApi keypairFromSeed kemEnc kemDec Decodes libKmac libKmac_eq decaps_correct encUpdates decUpdates)
open Aead (inputs)

attribute [local irreducible] Curve.x25519Base Curve.scalarmult kemEnc kemDec keypairFromSeed

/-! ### Specification -/

/-- `s` is the X25519 function of RFC 7748 of the secret key `n` and the public key `q`. -/
def Spec.Dh (n q s : List Byte) : Prop :=
  s.length = 32 ∧ Curve.leNum s = (Curve.Spec.x25519 (Curve.Spec.decodeScalar n) (Curve.Spec.decodeU q)).val

/-- What both sides have to hold after an encapsulation with `m`, `r` to the public key `pk`: the ML-KEM
secret and the X25519 secret of the ephemeral key. -/
def Spec.Secret (f : Fns) (p : Par) (fuel : Nat) (pk : Two) (m r : List Byte) (ct ss : Two) : Prop :=
  kemEnc f p fuel pk.kem m = .ok ct.kem ss.kem ∧ ss.kem.length = 32 ∧
  Spec.Dh r (9 :: List.replicate 31 0) ct.x ∧ Spec.Dh r pk.x ss.x

/-- The documented derivation (`kyber_x25519_kdf.h:35-37`): KMAC256 with the key
`Kyber-SS || X25519-SS`. -/
def Spec.kem (perm : List Byte → List Byte) (ct ss : Two) (n : Nat) : List Byte :=
  Kmac.Spec.kmac perm 136 (ss.kem ++ ss.x) (ct.kem ++ ct.x) n (Aead.Spec.ascii "Kyber X25519 KEM SS")

/-- `kyber_x25519_kdf.h:61-64`. -/
def Spec.uake (perm : List Byte → List Byte) (ssE ssR : Two) (nonce : List Byte) (n : Nat) : List Byte :=
  Kmac.Spec.kmac perm 136 (ssE.kem ++ ssE.x) (ssR.kem ++ ssR.x ++ nonce) n (Aead.Spec.ascii "Kyber X25519 KEM 3-way SS")

/-- `kyber_x25519_kdf.h:101-105`. -/
def Spec.ake (perm : List Byte → List Byte) (ssE ssI ssR : Two) (nonce : List Byte) (n : Nat) : List Byte :=
  Kmac.Spec.kmac perm 136 (ssE.kem ++ ssE.x) (ssI.kem ++ ssI.x ++ (ssR.kem ++ ssR.x) ++ nonce) n
    (Aead.Spec.ascii "Kyber X25519 KEM 4-way SS")

theorem labelSs_eq : labelSs = Aead.Spec.ascii "Kyber X25519 KEM SS" := by decide
theorem label3_eq : label3 = Aead.Spec.ascii "Kyber X25519 KEM 3-way SS" := by decide
theorem label4_eq : label4 = Aead.Spec.ascii "Kyber X25519 KEM 4-way SS" := by decide

/-! ### C85 -/

theorem dh_of {n q s : List Byte} (hn : n.length = 32) (hq : q.length = 32) (h : Curve.scalarmult n q = some s) : Spec.Dh n q s := by
  rcases Curve.x25519_rfc7748 n q hn hq with h' | ⟨r, h1, h2, h3⟩
  · rw [h] at h'; cases h'
  · rw [h] at h1
    cases h1
    exact ⟨h2, h3⟩

theorem keypair_ok {f : Fns} {p : Par} {fuel : Nat} {seed r : List Byte} {pk sk : Two} (h : keypair f p fuel seed r = .ok (pk, sk)) :
    keypairFromSeed f p fuel seed = .ok pk.kem sk.kem ∧ pk.x = Curve.x25519Base r ∧ sk.x = r := by
  unfold keypair at h
  cases hk : keypairFromSeed f p fuel seed with
  | loop => rw [hk] at h; cases h
  | err e => rw [hk] at h; cases h
  | ok a b => rw [hk] at h; cases h; exact ⟨rfl, rfl, rfl⟩

theorem xSs_some {q n s : List Byte} (h : Curve.scalarmult n q = some s) : xSs q n = .ok s := by
  unfold xSs; rw [h]; rfl

theorem xSs_none {q n : List Byte} (h : Curve.scalarmult n q = none) : xSs q n = .err (-1) := by
  unfold xSs; rw [h]; rfl

theorem enc_of {f : Fns} {p : Par} {fuel : Nat} {pk : Two} {m r ct ss s : List Byte} (h1 : kemEnc f p fuel pk.kem m = .ok ct ss)
    (h2 : xSs pk.x r = .ok s) : enc f p fuel pk m r = .ok (⟨ct, Curve.x25519Base r⟩, ⟨ss, s⟩) := by
  have h3 : xSs pk.x (xKeypair r).2 = .ok s := h2
  unfold enc
  rw [h1]
  generalize xSs pk.x (xKeypair r).2 = q at h3 ⊢
  subst h3
  rfl

theorem dec_of {f : Fns} {p : Par} {fuel : Nat} {ct sk : Two} {ss s : List Byte} (h1 : kemDec f p fuel ct.kem sk.kem = .ok ss)
    (h2 : xSs ct.x sk.x = .ok s) : dec f p fuel ct sk = .ok ⟨ss, s⟩ := by
  unfold dec
  rw [h1]
  generalize xSs ct.x sk.x = q at h2 ⊢
  subst h2
  rfl

/-- **C85 (core)**: for every key pair and all random bytes, encapsulation succeeds with the two
specified secrets and, if the ML-KEM part decodes, decapsulation returns both.  The X25519 part never
fails. -/
theorem enc_dec (f : Fns) (hf : f.Ok) (p : Par) (hp : p.Ok) (fuel : Nat) (seed r m re : List Byte) (pk sk : Two)
    (hr : r.length = 32) (hm : m.length = 32) (hre : re.length = 32) (hkp : keypair f p fuel seed r = .ok (pk, sk)) :
    ∃ ct ss, enc f p fuel pk m re = .ok (ct, ss) ∧ Spec.Secret f p fuel pk m re ct ss ∧
      ct.kem.length = p.ctLen ∧ (Decodes f p fuel seed pk.kem m → kemDec f p fuel ct.kem sk.kem = .ok ss.kem ∧ dec f p fuel ct sk = .ok ss) := by
  obtain ⟨h1, h2, h3⟩ := keypair_ok hkp
  obtain ⟨-, -, ⟨ct, ss, e1, l0, l1, d1⟩, -⟩ := decaps_correct f hf p hp fuel seed m pk.kem sk.kem hm h1
  obtain ⟨s, s1, s2, -⟩ := Curve.x25519_keypairs_agree r re hr hre
  refine ⟨⟨ct, Curve.x25519Base re⟩, ⟨ss, s⟩, ?_, ⟨e1, l1, ?_, ?_⟩, l0, fun hd => ?_⟩
  · exact enc_of e1 (xSs_some (by rw [h2]; exact s1))
  · exact dh_of hre rfl (Curve.x25519_public_key re hre)
  · rw [h2]
    exact dh_of hre (Curve.x25519Base_spec r hr).1 s1
  · exact ⟨d1 hd, dec_of (d1 hd) (xSs_some (by rw [h3]; exact s2))⟩

/-- **C85 (agreement)**: both sides derive the same secret of any length, whatever KMAC computes. -/
theorem kem_agree (f : Fns) (hf : f.Ok) (K : KmacCalls) (p : Par) (hp : p.Ok) (fuel : Nat) (seed r m re : List Byte) (pk sk : Two) (n : Nat)
    (hr : r.length = 32) (hm : m.length = 32) (hre : re.length = 32) (hkp : keypair f p fuel seed r = .ok (pk, sk))
    (hd : Decodes f p fuel seed pk.kem m) :
    ∃ ct ss k, Spec.Secret f p fuel pk m re ct ss ∧ encKdf f K p fuel pk m re n = .ok (ct, k) ∧ decKdf f K p fuel ct sk n = .ok k := by
  obtain ⟨ct, ss, e, s, -, d⟩ := enc_dec f hf p hp fuel seed r m re pk sk hr hm hre hkp
  refine ⟨ct, ss, ssKdf K ct ss n, s, ?_, ?_⟩
  · unfold encKdf; rw [e]
  · unfold decKdf; rw [(d hd).2]

/-- What is claimed by the documentation: the derived secret is the KMAC with the key
`Kyber-SS || X25519-SS`. -/
def KemClaim : Prop :=
  ∀ (f : Fns), f.Ok → ∀ (K : KmacCalls) (p : Par), p.Ok → ∀ (fuel : Nat) (seed r m re : List Byte) (pk sk : Two) (n : Nat),
    r.length = 32 → m.length = 32 → re.length = 32 → keypair f p fuel seed r = .ok (pk, sk) →
    Decodes f p fuel seed pk.kem m → ∀ ct ss, Spec.Secret f p fuel pk m re ct ss →
      encKdf f K p fuel pk m re n = .ok (ct, K (ss.kem ++ ss.x) (Aead.Spec.ascii "Kyber X25519 KEM SS") [ct.kem ++ ct.x] n)

/-- **C85 (derivation, partial)**: the secret is KMAC256 of the ciphertext and the ephemeral X25519 key
with the *ML-KEM secret alone* as key.  Missing: the X25519 secret, see `kem_claim_false`. -/
theorem kem_derivation_partial (f : Fns) (hf : f.Ok) (p : Par) (hp : p.Ok) (fuel : Nat) (seed r m re : List Byte) (pk sk : Two) (n : Nat)
    (hr : r.length = 32) (hm : m.length = 32) (hre : re.length = 32) (hkp : keypair f p fuel seed r = .ok (pk, sk))
    (perm : List Byte → List Byte) (hperm : ∀ s, s.length = 200 → (perm s).length = 200) (h4 : 4 ≤ n) (hn : n < 2 ^ 61) :
    ∃ ct ss, Spec.Secret f p fuel pk m re ct ss ∧
      encKdf f (libKmac perm) p fuel pk m re n = .ok (ct, Spec.kem perm ct ⟨ss.kem, []⟩ n) := by
  obtain ⟨ct, ss, e, s, lc, d⟩ := enc_dec f hf p hp fuel seed r m re pk sk hr hm hre hkp
  refine ⟨ct, ss, s, ?_⟩
  have hlen : p.ctLen < 2 ^ 16 := by rcases hp with rfl | rfl | rfl <;> decide
  have hcx : ct.x.length = 32 := s.2.2.1.1
  unfold encKdf
  rw [e]
  dsimp only
  unfold ssKdf Two.mem
  rw [List.take_append_of_le_length (by rw [s.2.1]), List.take_of_length_le (by rw [s.2.1]),
    libKmac_eq perm hperm _ _ _ n (by rw [s.2.1]; decide) (by decide)
      (by rw [List.flatten_singleton, List.length_append]; omega) h4 hn, List.flatten_singleton, labelSs_eq]
  unfold Spec.kem
  dsimp only
  rw [List.append_nil]

/-- **C85 (finding)**: the X25519 part does not contribute to the derived secret at all.  Whoever has the
ML-KEM secret key decapsulates the same secret with *any* X25519 secret key. -/
theorem x25519_key_ignored (f : Fns) (hf : f.Ok) (K : KmacCalls) (p : Par) (hp : p.Ok) (fuel : Nat) (seed r m re : List Byte) (pk sk : Two)
    (n : Nat) (hr : r.length = 32) (hm : m.length = 32) (hre : re.length = 32) (hkp : keypair f p fuel seed r = .ok (pk, sk))
    (hd : Decodes f p fuel seed pk.kem m) :
    ∃ ct k, encKdf f K p fuel pk m re n = .ok (ct, k) ∧ ∀ x : List Byte, x.length = 32 → decKdf f K p fuel ct ⟨sk.kem, x⟩ n = .ok k := by
  obtain ⟨ct, ss, e, s, -, d⟩ := enc_dec f hf p hp fuel seed r m re pk sk hr hm hre hkp
  have hct : ct.x = Curve.x25519Base re := by
    have h1 := s.2.2.1
    have h2 := dh_of hre rfl (Curve.x25519_public_key re hre)
    exact Curve.leNum_inj _ _ (h1.1.trans h2.1.symm) (h1.2.trans h2.2.symm)
  refine ⟨ct, ssKdf K ct ss n, ?_, fun x hx => ?_⟩
  · unfold encKdf; rw [e]
  · have hk : kemDec f p fuel ct.kem sk.kem = .ok ss.kem := (d hd).1
    obtain ⟨sx, hsx⟩ : ∃ s, xSs ct.x x = .ok s := by
      obtain ⟨s, s1, -, -⟩ := Curve.x25519_keypairs_agree re x hre hx
      exact ⟨s, xSs_some (by rw [hct]; exact s1)⟩
    unfold decKdf
    rw [dec_of (sk := ⟨sk.kem, x⟩) hk hsx]
    dsimp only
    unfold ssKdf Two.mem
    rw [List.take_append_of_le_length (by rw [s.2.1]), List.take_append_of_le_length (by rw [s.2.1])]

/-- The decapsulation refuses an ephemeral X25519 key of small order. -/
theorem dec_refuses_small_order (f : Fns) (K : KmacCalls) (p : Par) (fuel : Nat) (ct sk : Two) (ss : List Byte) (n : Nat) (hl : ct.x.length = 32)
    (hk : kemDec f p fuel ct.kem sk.kem = .ok ss) (hs : Curve.Spec.decodeU ct.x = 0 ∨ Curve.Spec.decodeU ct.x = 1 ∨ Curve.Spec.decodeU ct.x = -1) :
    decKdf f K p fuel ct sk n = .err (-1) := by
  have h : Curve.scalarmult sk.x ct.x = none := (Curve.x25519_refuses _ _ hl).2 (by tauto)
  unfold decKdf dec
  rw [hk]
  generalize hq : xSs ct.x sk.x = q
  rw [xSs_none h] at hq
  subst hq
  rfl

theorem keypair_of {f : Fns} {p : Par} {fuel : Nat} {seed pk sk : List Byte} (r : List Byte) (h : keypairFromSeed f p fuel seed = .ok pk sk) :
    keypair f p fuel seed r = .ok (⟨pk, (xKeypair r).1⟩, ⟨sk, (xKeypair r).2⟩) := by
  unfold keypair
  rw [h]

/-- A key pair and an encapsulation that meet the hypotheses of the theorems above and below. -/
theorem case0 (r : List Byte) : ∃ pk sk, keypair Kyber.f0 Kyber.p512 3 (List.replicate 64 7) r = .ok (pk, sk) ∧
    ∀ m, Decodes Kyber.f0 Kyber.p512 3 (List.replicate 64 7) pk.kem m := by
  obtain ⟨pk, sk, h1, h2⟩ := Kyber.f0_case
  refine ⟨⟨pk, (xKeypair r).1⟩, ⟨sk, (xKeypair r).2⟩, keypair_of r h1, h2⟩

/-- **C85 (finding)**: the documented derivation is not what is computed. -/
theorem kem_claim_false : ¬ KemClaim := by
  intro h
  have l32 : ∀ b : Byte, (List.replicate 32 b).length = 32 := fun _ => List.length_replicate
  obtain ⟨pk, sk, h1, h2⟩ := case0 (List.replicate 32 5)
  have hp : Par.Ok Kyber.p512 := Or.inl rfl
  obtain ⟨ct, ss, e, s, -, -⟩ := enc_dec Kyber.f0 Kyber.f0_ok Kyber.p512 hp 3 _ _ (List.replicate 32 9) (List.replicate 32 6) pk sk
    (l32 _) (l32 _) (l32 _) h1
  have h3 := h Kyber.f0 Kyber.f0_ok (fun key _ _ _ => key) Kyber.p512 hp 3 _ _ _ _ pk sk 32 (l32 _) (l32 _) (l32 _) h1 (h2 _) ct ss s
  unfold encKdf at h3
  rw [e] at h3
  dsimp only at h3
  unfold ssKdf Two.mem at h3
  injection h3 with h3
  have h4 := congrArg (fun q => List.length q.2) h3
  dsimp only at h4
  rw [List.length_take, List.length_append, s.2.1, s.2.2.2.1] at h4
  revert h4
  decide

/-! ### C86 -/

theorem flat2 (a b : List Byte) : [a, b].flatten = a ++ b := by simp
theorem flat3 (a b c : List Byte) : [a, b, c].flatten = a ++ b ++ c := by simp

theorem kexInit_ok {f : Fns} {p : Par} {fuel : Nat} {pkR : Two} {seed r m rm : List Byte} {i : Init}
    (h : kexInit f p fuel pkR seed r m rm = .ok i) :
    keypair f p fuel seed r = .ok (i.pkE, i.skE) ∧ enc f p fuel pkR m rm = .ok (i.ctE, i.tk) := by
  unfold kexInit at h
  cases hk : keypair f p fuel seed r with
  | loop => rw [hk] at h; cases h
  | err e => rw [hk] at h; cases h
  | ok kp =>
    rw [hk] at h
    dsimp only at h
    cases he : enc f p fuel pkR m rm with
    | loop => rw [he] at h; cases h
    | err e => rw [he] at h; cases h
    | ok c => rw [he] at h; cases h; exact ⟨rfl, rfl⟩

theorem kexInit_of {f : Fns} {p : Par} {fuel : Nat} {pkR pk sk ct ss : Two} {seed r m rm : List Byte}
    (h1 : keypair f p fuel seed r = .ok (pk, sk)) (h2 : enc f p fuel pkR m rm = .ok (ct, ss)) :
    kexInit f p fuel pkR seed r m rm = .ok ⟨pk, ct, ss, sk⟩ := by
  unfold kexInit
  rw [h1]
  dsimp only
  rw [h2]

/-- **C86 (unilateral)**: for all keys, random bytes, nonces and lengths, if the ML-KEM parts decode, both
sides end with the same secret, which with the KMAC of the library is the documented derivation from the
ML-KEM *and* the X25519 secrets of both encapsulations. -/
theorem uake_agree (f : Fns) (hf : f.Ok) (K : KmacCalls) (p : Par) (hp : p.Ok) (fuel : Nat)
    (seedR rR seed r m rm mR rmR nonce : List Byte) (pkR skR : Two) (n : Nat) (i : Init)
    (hR : keypair f p fuel seedR rR = .ok (pkR, skR)) (hI : kexInit f p fuel pkR seed r m rm = .ok i)
    (hl1 : rR.length = 32) (hl2 : r.length = 32) (hl3 : m.length = 32) (hl4 : rm.length = 32) (hl5 : mR.length = 32) (hl6 : rmR.length = 32)
    (hd1 : Decodes f p fuel seedR pkR.kem m) (hd2 : Decodes f p fuel seed i.pkE.kem mR) :
    ∃ ctR ssE ss, Spec.Secret f p fuel pkR m rm i.ctE i.tk ∧ Spec.Secret f p fuel i.pkE mR rmR ctR ssE ∧
      uakeResponder f K p fuel nonce n i.pkE i.ctE skR mR rmR = .ok (ctR, ss) ∧
      uakeInitiator f K p fuel nonce n ctR i.tk i.skE = .ok ss ∧
      ∀ perm : List Byte → List Byte, (∀ s, s.length = 200 → (perm s).length = 200) → K = libKmac perm →
        nonce.length < 2 ^ 62 → 4 ≤ n → n < 2 ^ 61 → ss = Spec.uake perm ssE i.tk nonce n := by
  obtain ⟨k1, k2⟩ := kexInit_ok hI
  obtain ⟨ct, tk, e1, s1, -, d1⟩ := enc_dec f hf p hp fuel seedR rR m rm pkR skR hl1 hl3 hl4 hR
  rw [k2] at e1
  cases e1
  obtain ⟨ctR, ssE, e2, s2, -, d2⟩ := enc_dec f hf p hp fuel seed r mR rmR i.pkE i.skE hl2 hl5 hl6 k1
  refine ⟨ctR, ssE, kdf3 K ssE i.tk nonce n, s1, s2, ?_, ?_, ?_⟩
  · unfold uakeResponder
    rw [e2]
    dsimp only
    rw [(d1 hd1).2]
  · unfold uakeInitiator
    rw [(d2 hd2).2]
  · rintro perm hperm rfl hnl h4 hn
    have a1 := s1.2.1
    have a2 : i.tk.x.length = 32 := s1.2.2.2.1
    have a3 := s2.2.1
    have a4 : ssE.x.length = 32 := s2.2.2.2.1
    unfold kdf3 Two.mem
    rw [libKmac_eq perm hperm _ _ _ n (by rw [List.length_append]; omega) (by decide)
      (by rw [flat2, List.length_append, List.length_append]; omega) h4 hn, flat2, label3_eq]
    rfl

/-- **C86 (mutual)**: the same with a second encapsulation to the static key of the initiator. -/
theorem ake_agree (f : Fns) (hf : f.Ok) (K : KmacCalls) (p : Par) (hp : p.Ok) (fuel : Nat)
    (seedR rR seedI rI seed r m rm m1 r1 m2 r2 nonce : List Byte) (pkR skR pkI skI : Two) (n : Nat) (i : Init)
    (hR : keypair f p fuel seedR rR = .ok (pkR, skR)) (hI0 : keypair f p fuel seedI rI = .ok (pkI, skI))
    (hI : kexInit f p fuel pkR seed r m rm = .ok i)
    (hl1 : rR.length = 32) (hl2 : r.length = 32) (hl3 : m.length = 32) (hl4 : rm.length = 32) (hl5 : m1.length = 32) (hl6 : r1.length = 32)
    (hl7 : m2.length = 32) (hl8 : r2.length = 32) (hl9 : rI.length = 32)
    (hd : Decodes f p fuel seedR pkR.kem m) (hd1 : Decodes f p fuel seed i.pkE.kem m1) (hd2 : Decodes f p fuel seedI pkI.kem m2) :
    ∃ ct1 ssE ct2 ssI ss, Spec.Secret f p fuel pkR m rm i.ctE i.tk ∧ Spec.Secret f p fuel i.pkE m1 r1 ct1 ssE ∧
      Spec.Secret f p fuel pkI m2 r2 ct2 ssI ∧
      akeResponder f K p fuel nonce n i.pkE i.ctE skR pkI m1 r1 m2 r2 = .ok (ct1, ct2, ss) ∧
      akeInitiator f K p fuel nonce n ct1 ct2 i.tk i.skE skI = .ok ss ∧
      ∀ perm : List Byte → List Byte, (∀ s, s.length = 200 → (perm s).length = 200) → K = libKmac perm →
        nonce.length < 2 ^ 62 → 4 ≤ n → n < 2 ^ 61 → ss = Spec.ake perm ssE ssI i.tk nonce n := by
  obtain ⟨k1, k2⟩ := kexInit_ok hI
  obtain ⟨ct, tk, e, s, -, d⟩ := enc_dec f hf p hp fuel seedR rR m rm pkR skR hl1 hl3 hl4 hR
  rw [k2] at e
  cases e
  obtain ⟨ct1, ssE, e1, s1, -, d1⟩ := enc_dec f hf p hp fuel seed r m1 r1 i.pkE i.skE hl2 hl5 hl6 k1
  obtain ⟨ct2, ssI, e2, s2, -, d2⟩ := enc_dec f hf p hp fuel seedI rI m2 r2 pkI skI hl9 hl7 hl8 hI0
  refine ⟨ct1, ssE, ct2, ssI, kdf4 K ssE ssI i.tk nonce n, s, s1, s2, ?_, ?_, ?_⟩
  · unfold akeResponder
    rw [e1]
    dsimp only
    rw [e2]
    dsimp only
    rw [(d hd).2]
  · unfold akeInitiator
    rw [(d1 hd1).2]
    dsimp only
    rw [(d2 hd2).2]
  · rintro perm hperm rfl hnl h4 hn
    have a1 := s.2.1
    have a2 : i.tk.x.length = 32 := s.2.2.2.1
    have a3 := s1.2.1
    have a4 : ssE.x.length = 32 := s1.2.2.2.1
    have a5 := s2.2.1
    have a6 : ssI.x.length = 32 := s2.2.2.2.1
    unfold kdf4 Two.mem
    rw [libKmac_eq perm hperm _ _ _ n (by rw [List.length_append]; omega) (by decide)
      (by rw [flat3, List.length_append, List.length_append, List.length_append, List.length_append]; omega) h4 hn, flat3, label4_eq]
    rfl

/-! ### C87 -/

/-- **C87**: for every AEAD with a round trip law, every key pair and all random bytes for which the
ML-KEM part decodes, every plaintext, AAD and tag length: encryption succeeds; one-shot decryption
returns the plaintext and 0; streaming encryption with the same random bytes gives the same ciphertext
and tag in every chunking; streaming decryption in every chunking returns the plaintext and 0. -/
theorem ies_roundtrip (A : AeadApi) (Good : List (List Byte × List Byte) → Prop) (tl : Nat → Prop) (bound : Nat)
    (hA : A.Keyed Good tl bound) (f : Fns) (hf : f.Ok) (K : KmacCalls)
    (hkm : ∀ key ct : List Byte, key.length = 32 → ct.length < 2 ^ 16 → (K key (Aead.Spec.ascii "Kyber X25519 KEM SS") [ct] 48).length = 48)
    (p : Par) (hp : p.Ok) (fuel : Nat) (seed r m re : List Byte) (pk sk : Two)
    (hr : r.length = 32) (hm : m.length = 32) (hre : re.length = 32) (hkp : keypair f p fuel seed r = .ok (pk, sk))
    (hd : Decodes f p fuel seed pk.kem m)
    (s0 : A.S) (pt o aad old : List Byte) (hg : Good [(pt, o)]) (ht : tl old.length) (hb : aad.length + pt.length < bound) :
    ∃ ct sE c t, iesEnc A f K p fuel s0 pk m re pt o aad old = .ok (ct, sE, c, t) ∧
      (∀ s1 o1 junk, Good [(c, o1)] → old.length ≤ junk.length → ∃ s2, iesDec A f K p fuel s1 sk ct c o1 aad junk t = .ok (s2, pt, 0)) ∧
      (∀ s1, ∃ s2, iesEncInit A f K p fuel s1 pk m re aad = .ok (ct, s2) ∧
        ∀ cs, Good cs → inputs cs = pt → (encUpdates A s2 cs).2 = c ∧ (A.encFinal (encUpdates A s2 cs).1 old).2 = t) ∧
      (∀ s1, ∃ s2, iesDecInit A f K p fuel s1 sk ct aad = .ok s2 ∧
        ∀ ds junk, Good ds → inputs ds = c → old.length ≤ junk.length →
          (decUpdates A s2 ds).2 = pt ∧ (A.decFinal (decUpdates A s2 ds).1 junk t).2 = 0) := by
  obtain ⟨ct, ss0, e, s, lc, d⟩ := enc_dec f hf p hp fuel seed r m re pk sk hr hm hre hkp
  have hl : (ssKdf K ct ss0 48).length = 48 := by
    have hlen : p.ctLen < 2 ^ 15 := by rcases hp with rfl | rfl | rfl <;> decide
    have hcx : ct.x.length = 32 := s.2.2.1.1
    unfold ssKdf Two.mem
    rw [labelSs_eq]
    exact hkm _ _ (by rw [List.length_take, List.length_append, s.2.1]; omega) (by rw [List.length_append]; omega)
  have e1 : encKdf f K p fuel pk m re 48 = .ok (ct, ssKdf K ct ss0 48) := by unfold encKdf; rw [e]
  have e2 : decKdf f K p fuel ct sk 48 = .ok (ssKdf K ct ss0 48) := by unfold decKdf; rw [(d hd).2]
  generalize ssKdf K ct ss0 48 = ss at hl e1 e2
  obtain ⟨s', hs, L⟩ := hA (ss.take 32) ((ss.drop 32).take 16) (by rw [List.length_take, hl]; rfl)
    (by rw [List.length_take, List.length_drop, hl]; rfl)
  have hin : inputs [(pt, o)] = pt := by simp [inputs]
  have hb' : aad.length + (inputs [(pt, o)]).length < bound := by rw [hin]; exact hb
  have hc := L.oneEnc aad pt o old
  refine ⟨ct, (A.encrypt s' pt o aad old).1, (A.encrypt s' pt o aad old).2.1, (A.encrypt s' pt o aad old).2.2, ?_, ?_, ?_, ?_⟩
  · unfold iesEnc rekey
    rw [e1]
    dsimp only
    rw [hs]
  · intro s1 o1 junk hg1 hj
    obtain ⟨r1, r2⟩ := L.roundtrip aad [(pt, o)] [((A.encrypt s' pt o aad old).2.1, o1)] old junk hg hg1 ht hj hb' (by
      rw [hc]; simp [inputs])
    have h1 := L.oneDec aad (A.encrypt s' pt o aad old).2.1 o1 junk (A.encrypt s' pt o aad old).2.2
    rw [hin] at r1
    rw [r1] at h1
    have e4 : (A.encrypt s' pt o aad old).2.2 = (A.encFinal (encUpdates A (A.encInit s' aad) [(pt, o)]).1 old).2 := congrArg Prod.snd hc
    rw [← e4] at r2
    rw [r2] at h1
    refine ⟨(A.decrypt s' (A.encrypt s' pt o aad old).2.1 o1 aad junk (A.encrypt s' pt o aad old).2.2).1, ?_⟩
    unfold iesDec rekey
    rw [e2]
    dsimp only
    rw [hs]
    dsimp only
    rw [← h1]
  · intro s1
    refine ⟨A.decInit s' aad, ?_, ?_⟩
    · unfold iesEncInit rekey
      rw [e1]
      dsimp only
      rw [hs]
    · intro cs hgc hcs
      have := L.stream aad cs [(pt, o)] old hgc hg ht (by rw [hcs]; exact hb) (by rw [hcs, hin])
      rw [hc]
      rw [L.init] at this ⊢
      exact this
  · intro s1
    refine ⟨A.decInit s' aad, ?_, ?_⟩
    · unfold iesDecInit rekey
      rw [e2]
      dsimp only
      rw [hs]
    · intro ds junk hgd hds hj
      have := L.roundtrip aad [(pt, o)] ds old junk hg hgd ht hj hb' (by rw [hds, hc])
      rw [hin] at this
      rw [hc]
      exact this

/-- **C87 (finding)**: the X25519 secret key is not needed to decrypt: with any 32 bytes in its place the
same AEAD key and IV are derived, so the decryption does the same. -/
theorem ies_x25519_key_ignored (A : AeadApi) (f : Fns) (hf : f.Ok) (K : KmacCalls) (p : Par) (hp : p.Ok) (fuel : Nat) (seed r m re : List Byte)
    (pk sk : Two) (hr : r.length = 32) (hm : m.length = 32) (hre : re.length = 32) (hkp : keypair f p fuel seed r = .ok (pk, sk))
    (hd : Decodes f p fuel seed pk.kem m) (s0 : A.S) (pt o aad old : List Byte) (ct : Two) (sE : A.S) (c t : List Byte)
    (h : iesEnc A f K p fuel s0 pk m re pt o aad old = .ok (ct, sE, c, t)) (x : List Byte) (hx : x.length = 32) (s1 : A.S) (o1 junk : List Byte) :
    iesDec A f K p fuel s1 ⟨sk.kem, x⟩ ct c o1 aad junk t = iesDec A f K p fuel s1 sk ct c o1 aad junk t := by
  obtain ⟨ct', k, e1, e2⟩ := x25519_key_ignored f hf K p hp fuel seed r m re pk sk 48 hr hm hre hkp hd
  have hct : ct' = ct := by
    unfold iesEnc at h
    rw [e1] at h
    dsimp only at h
    cases hk : rekey A s0 k with
    | loop => rw [hk] at h; cases h
    | err e => rw [hk] at h; cases h
    | ok q => rw [hk] at h; injection h with h; exact congrArg Prod.fst h
  subst hct
  have e3 := e2 sk.x (by rw [(keypair_ok hkp).2.2]; exact hr)
  unfold iesDec
  rw [e2 x hx, show decKdf f K p fuel ct' sk 48 = .ok k from e3]

/-! ### Non-vacuity -/

/-- The KMAC of the library meets the hypothesis of C87. -/
theorem libKmac_len48 (perm : List Byte → List Byte) (hperm : ∀ s, s.length = 200 → (perm s).length = 200) (key ct : List Byte)
    (hk : key.length = 32) (hc : ct.length < 2 ^ 16) : (libKmac perm key (Aead.Spec.ascii "Kyber X25519 KEM SS") [ct] 48).length = 48 := by
  rw [libKmac_eq perm hperm _ _ _ 48 (by omega) (by decide) (by rw [List.flatten_singleton]; omega) (by decide) (by decide)]
  unfold Kmac.Spec.kmac Kmac.Spec.cshake
  rw [if_neg (by simp [Kmac.Spec.name])]
  simp [Sponge.Spec.sponge]

/-- An exchange that meets all hypotheses of C86. -/
example : ∃ pkR skR i, keypair Kyber.f0 Kyber.p512 3 (List.replicate 64 7) (List.replicate 32 5) = .ok (pkR, skR) ∧
    kexInit Kyber.f0 Kyber.p512 3 pkR (List.replicate 64 7) (List.replicate 32 4) (List.replicate 32 9) (List.replicate 32 3) = .ok i ∧
    Decodes Kyber.f0 Kyber.p512 3 (List.replicate 64 7) pkR.kem (List.replicate 32 9) ∧
    Decodes Kyber.f0 Kyber.p512 3 (List.replicate 64 7) i.pkE.kem (List.replicate 32 8) := by
  obtain ⟨pk, sk, h1, h2⟩ := case0 (List.replicate 32 5)
  obtain ⟨pk', sk', h1', h2'⟩ := case0 (List.replicate 32 4)
  obtain ⟨ct, ss, e, -⟩ := enc_dec Kyber.f0 Kyber.f0_ok Kyber.p512 (Or.inl rfl) 3 _ _ (List.replicate 32 9) (List.replicate 32 3) pk sk
    List.length_replicate List.length_replicate List.length_replicate h1
  exact ⟨pk, sk, ⟨pk', ct, ss, sk'⟩, h1, kexInit_of h1' e, h2 _, h2' _⟩

end LC.Hybrid
