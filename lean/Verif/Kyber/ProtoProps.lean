import Verif.Kyber.Proto
import Verif.Kyber.KemProps
import Verif.Aead.Props
import Verif.AsconAead.Props
/-
C48 (key exchange), C49 (integrated encryption scheme) and the pairwise consistency test.
-/
namespace LC.Kyber

/-- The noise of an encapsulation with random bytes `m` to the key generated from `seed` is small enough
to be decoded (see `NoiseSmall`). -/
def Decodes (f : Fns) (p : Par) (fuel : Nat) (seed pk m : List Byte) : Prop :=
  NoiseSmall f p fuel ((f.G (seed.take 32 ++ [UInt8.ofNat p.k])).drop 32) pk m ((f.G (m ++ f.H pk)).drop 32)

/-! ### C48 -/

/-- `lc_kmac_init`, `lc_kmac_update*`, `lc_kmac_final` with the KMAC model (C06); no output is `[]`. -/
def libKmac (perm : List Byte → List Byte) : KmacCalls := fun key label chunks n =>
  ((Kmac.final perm (chunks.foldl (Kmac.update perm) (Kmac.init perm 136 false key label)) n).2).getD []

theorem libKmac_eq (perm : List Byte → List Byte) (hp : ∀ s, s.length = 200 → (perm s).length = 200)
    (key label : List Byte) (chunks : List (List Byte)) (n : Nat) (hk : key.length < 2 ^ 61) (hl : label.length < 2 ^ 61)
    (hx : chunks.flatten.length < 2 ^ 63) (hn : 4 ≤ n) (hn2 : n < 2 ^ 61) :
    libKmac perm key label chunks n = Kmac.Spec.kmac perm 136 key chunks.flatten n label := by
  unfold libKmac
  rw [Kmac.kmac_streaming perm hp 136 (by decide) (by decide) false key label chunks n hk hl hx hn hn2]
  rfl

/-- The key derivation of the unilaterally authenticated exchange: KMAC256 keyed with the ephemeral secret
over the static secret and the nonce. -/
def Spec.uake (perm : List Byte → List Byte) (ssE ssR nonce : List Byte) (n : Nat) : List Byte :=
  Kmac.Spec.kmac perm 136 ssE (ssR ++ nonce) n (Aead.Spec.ascii "Kyber KEM 3-way SS")

/-- The mutually authenticated exchange: both ephemeral encapsulations, then the responder's static key. -/
def Spec.ake (perm : List Byte → List Byte) (ssE ssI ssR nonce : List Byte) (n : Nat) : List Byte :=
  Kmac.Spec.kmac perm 136 ssE (ssI ++ ssR ++ nonce) n (Aead.Spec.ascii "Kyber KEM 4-way SS")

theorem label3_eq : label3 = Aead.Spec.ascii "Kyber KEM 3-way SS" := by decide
theorem label4_eq : label4 = Aead.Spec.ascii "Kyber KEM 4-way SS" := by decide

/-- **C48 (unilateral)**: for every responder key pair, all randomness, every nonce and output length and
whatever KMAC computes: the exchange runs without error and, if the two encapsulations decode, initiator
and responder end with the same secret.  With the KMAC of the library and an output of at least four bytes
it is the specified derivation from the two encapsulated secrets. -/
theorem uake_agree (f : Fns) (hf : f.Ok) (K : KmacCalls) (p : Par) (hp : p.Ok) (fuel : Nat)
    (seedR pkR skR rnd m mR nonce : List Byte) (n : Nat)
    (hR : keypairFromSeed f p fuel seedR = .ok pkR skR) (i : Init) (hI : kexInit f p fuel pkR rnd m = .ok i)
    (hm : m.length = 32) (hmR : mR.length = 32)
    (hd1 : Decodes f p fuel seedR pkR m) (hd2 : Decodes f p fuel rnd i.pkE mR) :
    ∃ ctR ssE ss, kemEnc f p fuel i.pkE mR = .ok ctR ssE ∧
      uakeResponder f K p fuel nonce n i.pkE i.ctE skR mR = .ok (ctR, ss) ∧
      uakeInitiator f K p fuel nonce n ctR i.tk i.skE = .ok ss ∧
      ∀ perm : List Byte → List Byte, (∀ s, s.length = 200 → (perm s).length = 200) → K = libKmac perm →
        nonce.length < 2 ^ 62 → 4 ≤ n → n < 2 ^ 61 → ss = Spec.uake perm ssE i.tk nonce n := by
  unfold kexInit at hI
  cases hk : keypairFromSeed f p fuel rnd with
  | loop => rw [hk] at hI; cases hI
  | err e => rw [hk] at hI; cases hI
  | ok pk sk =>
    rw [hk] at hI
    dsimp only at hI
    obtain ⟨-, -, ⟨ct, ss, e1, -, l1, d1⟩, -⟩ := decaps_correct f hf p hp fuel seedR m pkR skR hm hR
    rw [e1] at hI
    dsimp only at hI
    cases hI
    obtain ⟨-, -, ⟨ctR, ssE, e2, -, l2, d2⟩, -⟩ := decaps_correct f hf p hp fuel rnd mR pk sk hmR hk
    refine ⟨ctR, ssE, K ssE label3 [ss, nonce] n, e2, ?_, ?_, ?_⟩
    · unfold uakeResponder kdf3
      dsimp only
      rw [e2, d1 hd1]
    · unfold uakeInitiator kdf3
      dsimp only
      rw [d2 hd2]
    · rintro perm hperm rfl hnl h4 hn
      have hfl : [ss, nonce].flatten = ss ++ nonce := by rw [List.flatten_cons, List.flatten_singleton]
      rw [libKmac_eq perm hperm _ _ _ n (by omega) (by decide) (by rw [hfl, List.length_append]; omega) h4 hn, hfl, label3_eq]
      rfl

/-- **C48 (mutual)**: the same with a second encapsulation to the initiator's static key. -/
theorem ake_agree (f : Fns) (hf : f.Ok) (K : KmacCalls) (p : Par) (hp : p.Ok) (fuel : Nat)
    (seedR pkR skR seedI pkI skI rnd m m1 m2 nonce : List Byte) (n : Nat)
    (hR : keypairFromSeed f p fuel seedR = .ok pkR skR) (hI0 : keypairFromSeed f p fuel seedI = .ok pkI skI)
    (i : Init) (hI : kexInit f p fuel pkR rnd m = .ok i)
    (hm : m.length = 32) (hm1 : m1.length = 32) (hm2 : m2.length = 32)
    (hd : Decodes f p fuel seedR pkR m) (hd1 : Decodes f p fuel rnd i.pkE m1) (hd2 : Decodes f p fuel seedI pkI m2) :
    ∃ ct1 ssE ct2 ssI ss, kemEnc f p fuel i.pkE m1 = .ok ct1 ssE ∧ kemEnc f p fuel pkI m2 = .ok ct2 ssI ∧
      akeResponder f K p fuel nonce n i.pkE i.ctE skR pkI m1 m2 = .ok (ct1, ct2, ss) ∧
      akeInitiator f K p fuel nonce n ct1 ct2 i.tk i.skE skI = .ok ss ∧
      ∀ perm : List Byte → List Byte, (∀ s, s.length = 200 → (perm s).length = 200) → K = libKmac perm →
        nonce.length < 2 ^ 62 → 4 ≤ n → n < 2 ^ 61 → ss = Spec.ake perm ssE ssI i.tk nonce n := by
  unfold kexInit at hI
  cases hk : keypairFromSeed f p fuel rnd with
  | loop => rw [hk] at hI; cases hI
  | err e => rw [hk] at hI; cases hI
  | ok pk sk =>
    rw [hk] at hI
    dsimp only at hI
    obtain ⟨-, -, ⟨ct, ss, e, -, l, d⟩, -⟩ := decaps_correct f hf p hp fuel seedR m pkR skR hm hR
    rw [e] at hI
    dsimp only at hI
    cases hI
    obtain ⟨-, -, ⟨ct1, ssE, e1, -, l1, d1⟩, -⟩ := decaps_correct f hf p hp fuel rnd m1 pk sk hm1 hk
    obtain ⟨-, -, ⟨ct2, ssI, e2, -, l2, d2⟩, -⟩ := decaps_correct f hf p hp fuel seedI m2 pkI skI hm2 hI0
    refine ⟨ct1, ssE, ct2, ssI, K ssE label4 [ssI, ss, nonce] n, e1, e2, ?_, ?_, ?_⟩
    · unfold akeResponder kdf4
      dsimp only
      rw [e1, e2, d hd]
    · unfold akeInitiator kdf4
      dsimp only
      rw [d1 hd1, d2 hd2]
    · rintro perm hperm rfl hnl h4 hn
      have hfl : [ssI, ss, nonce].flatten = ssI ++ ss ++ nonce := by
        rw [List.flatten_cons, List.flatten_cons, List.flatten_singleton, List.append_assoc]
      rw [libKmac_eq perm hperm _ _ _ n (by omega) (by decide) (by rw [hfl, List.length_append, List.length_append]; omega) h4 hn, hfl, label4_eq]
      rfl

/-! ### Pairwise consistency test -/

/-- The pairwise consistency test accepts every generated key pair for which its own encapsulation decodes. -/
theorem pct_accepts (f : Fns) (hf : f.Ok) (p : Par) (hp : p.Ok) (fuel : Nat) (seed m pk sk : List Byte) (hm : m.length = 32)
    (hkp : keypairFromSeed f p fuel seed = .ok pk sk) (hd : Decodes f p fuel seed pk m) : pct f p fuel pk sk m = .ok () := by
  obtain ⟨-, -, ⟨ct, ss, e, -, -, d⟩, -⟩ := decaps_correct f hf p hp fuel seed m pk sk hm hkp
  unfold pct
  rw [e]
  dsimp only
  rw [d hd]
  dsimp only
  rw [if_pos ((memcmpB_eq true false ss ss).2 rfl)]

/-- The test accepts a public and a secret key exactly if the encapsulated secret is decapsulated. -/
theorem pct_iff (f : Fns) (p : Par) (fuel : Nat) (pk sk m : List Byte) :
    pct f p fuel pk sk m = .ok () ↔ ∃ ct ss, kemEnc f p fuel pk m = .ok ct ss ∧ kemDec f p fuel ct sk = .ok ss := by
  unfold pct
  cases h : kemEnc f p fuel pk m with
  | loop => exact ⟨fun h => by (cases h), fun ⟨_, _, h, _⟩ => by (cases h)⟩
  | err e => exact ⟨fun h => by (cases h), fun ⟨_, _, h, _⟩ => by (cases h)⟩
  | ok ct ss =>
    dsimp only
    cases h2 : kemDec f p fuel ct sk with
    | loop => exact ⟨fun h => by (cases h), fun ⟨_, _, h, h'⟩ => by (cases h; rw [h2] at h'; cases h')⟩
    | err e => exact ⟨fun h => by (cases h), fun ⟨_, _, h, h'⟩ => by (cases h; rw [h2] at h'; cases h')⟩
    | ok ss2 =>
      dsimp only
      constructor
      · intro h3
        by_cases he : memcmpB true false ss ss2 = 0
        · exact ⟨ct, ss, rfl, by rw [h2, (memcmpB_eq true false ss ss2).1 he]⟩
        · rw [if_neg he] at h3; cases h3
      · rintro ⟨_, _, h3, h4⟩
        cases h3
        rw [h2] at h4
        cases h4
        rw [if_pos ((memcmpB_eq true false ss ss).2 rfl)]

/-! ### C49 -/

open Aead (inputs)

/-- What an AEAD has to provide after a successful `setkey` into state `s`: the same initialisation in both
directions, the round trip law for streaming use in any chunking, and one-shot functions that agree with
the streaming ones.  `Good` are the admissible call sequences, `tl` the admissible tag lengths. -/
structure AeadApi.Law (A : AeadApi) (s : A.S) (Good : List (List Byte × List Byte) → Prop) (tl : Nat → Prop) (bound : Nat) : Prop where
  init : ∀ a, A.encInit s a = A.decInit s a
  stream : ∀ aad cs cs' old, Good cs → Good cs' → tl old.length → aad.length + (inputs cs).length < bound → inputs cs = inputs cs' →
    (encUpdates A (A.encInit s aad) cs).2 = (encUpdates A (A.encInit s aad) cs').2 ∧
    (A.encFinal (encUpdates A (A.encInit s aad) cs).1 old).2 = (A.encFinal (encUpdates A (A.encInit s aad) cs').1 old).2
  oneEnc : ∀ aad pt o old, (A.encrypt s pt o aad old).2 =
    ((encUpdates A (A.encInit s aad) [(pt, o)]).2, (A.encFinal (encUpdates A (A.encInit s aad) [(pt, o)]).1 old).2)
  oneDec : ∀ aad ct o junk tag, (A.decrypt s ct o aad junk tag).2 =
    ((decUpdates A (A.decInit s aad) [(ct, o)]).2, (A.decFinal (decUpdates A (A.decInit s aad) [(ct, o)]).1 junk tag).2)
  roundtrip : ∀ aad cs ds old junk, Good cs → Good ds → tl old.length → old.length ≤ junk.length →
    aad.length + (inputs cs).length < bound → inputs ds = (encUpdates A (A.encInit s aad) cs).2 →
    (decUpdates A (A.decInit s aad) ds).2 = inputs cs ∧
    (A.decFinal (decUpdates A (A.decInit s aad) ds).1 junk (A.encFinal (encUpdates A (A.encInit s aad) cs).1 old).2).2 = 0

/-- Key setup of the AEAD accepts the 32 byte key and 16 byte IV of the scheme, independently of what the
context held before. -/
def AeadApi.Keyed (A : AeadApi) (Good : List (List Byte × List Byte) → Prop) (tl : Nat → Prop) (bound : Nat) : Prop :=
  ∀ key iv : List Byte, key.length = 32 → iv.length = 16 → ∃ s', (∀ s, A.setkey s key iv = .ok s') ∧ A.Law s' Good tl bound

/-- **C49**: for every AEAD with a round trip law, every key pair and all randomness for which decapsulation
is correct, and every plaintext, AAD and tag length: encryption succeeds; the one-shot decryption returns
the plaintext and 0; streaming encryption with the same randomness gives the same ciphertext and tag in
every chunking (although its initialisation calls the decryption function); streaming decryption in every
chunking returns the plaintext and 0.  The AEAD contexts may hold anything before. -/
theorem ies_roundtrip (A : AeadApi) (Good : List (List Byte × List Byte) → Prop) (tl : Nat → Prop) (bound : Nat)
    (hA : A.Keyed Good tl bound) (f : Fns) (hf : f.Ok) (hkm : ∀ k c, (f.kmac k c 48).length = 48)
    (p : Par) (hp : p.Ok) (fuel : Nat) (seed m pk sk : List Byte) (hm : m.length = 32)
    (hkp : keypairFromSeed f p fuel seed = .ok pk sk) (hd : Decodes f p fuel seed pk m)
    (s0 : A.S) (pt o aad old : List Byte) (hg : Good [(pt, o)]) (ht : tl old.length) (hb : aad.length + pt.length < bound) :
    ∃ ct sE c t, iesEnc A f p fuel s0 pk m pt o aad old = .ok (ct, sE, c, t) ∧
      (∀ s1 o1 junk, Good [(c, o1)] → old.length ≤ junk.length → ∃ s2, iesDec A f p fuel s1 sk ct c o1 aad junk t = .ok (s2, pt, 0)) ∧
      (∀ s1, ∃ s2, iesEncInit A f p fuel s1 pk m aad = .ok (ct, s2) ∧
        ∀ cs, Good cs → inputs cs = pt → (encUpdates A s2 cs).2 = c ∧ (A.encFinal (encUpdates A s2 cs).1 old).2 = t) ∧
      (∀ s1, ∃ s2, iesDecInit A f p fuel s1 sk ct aad = .ok s2 ∧
        ∀ ds junk, Good ds → inputs ds = c → old.length ≤ junk.length →
          (decUpdates A s2 ds).2 = pt ∧ (A.decFinal (decUpdates A s2 ds).1 junk t).2 = 0) := by
  obtain ⟨ct, ss, e1, e2⟩ := decaps_kdf_correct f hf p hp fuel seed m pk sk hm 48 hkp hd
  have hl : ss.length = 48 := by
    unfold kemEncKdf at e1
    cases h : kemEnc f p fuel pk m with
    | loop => rw [h] at e1; cases e1
    | err e => rw [h] at e1; cases e1
    | ok c s => rw [h] at e1; cases e1; exact hkm _ _
  obtain ⟨s', hs, L⟩ := hA (ss.take 32) ((ss.drop 32).take 16) (by rw [List.length_take, hl]; rfl)
    (by rw [List.length_take, List.length_drop, hl]; rfl)
  have hin : inputs [(pt, o)] = pt := by simp [inputs]
  have hb' : aad.length + (inputs [(pt, o)]).length < bound := by rw [hin]; exact hb
  have hc := L.oneEnc aad pt o old
  refine ⟨ct, (A.encrypt s' pt o aad old).1, (A.encrypt s' pt o aad old).2.1, (A.encrypt s' pt o aad old).2.2, ?_, ?_, ?_, ?_⟩
  · unfold iesEnc
    rw [e1]
    dsimp only
    rw [hs]
  · intro s1 o1 junk hg1 hj
    obtain ⟨r1, r2⟩ := L.roundtrip aad [(pt, o)] [((A.encrypt s' pt o aad old).2.1, o1)] old junk hg hg1 ht hj hb' (by
      rw [hc]; simp [inputs])
    have h1 := L.oneDec aad (A.encrypt s' pt o aad old).2.1 o1 junk (A.encrypt s' pt o aad old).2.2
    rw [hin] at r1
    rw [r1] at h1
    have e4 : (A.encrypt s' pt o aad old).2.2 = (A.encFinal (encUpdates A (A.encInit s' aad) [(pt, o)]).1 old).2 := congrArg Prod.snd hc
    rw [← e4] at r2
    rw [r2] at h1
    refine ⟨(A.decrypt s' (A.encrypt s' pt o aad old).2.1 o1 aad junk (A.encrypt s' pt o aad old).2.2).1, ?_⟩
    unfold iesDec
    rw [e2]
    dsimp only
    rw [hs]
    dsimp only
    rw [← h1]
  · intro s1
    refine ⟨A.decInit s' aad, ?_, ?_⟩
    · unfold iesEncInit
      rw [e1]
      dsimp only
      rw [hs]
    · intro cs hgc hcs
      have := L.stream aad cs [(pt, o)] old hgc hg ht (by rw [hcs]; exact hb) (by rw [hcs, hin])
      rw [hc]
      rw [L.init] at this ⊢
      exact this
  · intro s1
    refine ⟨A.decInit s' aad, ?_, ?_⟩
    · unfold iesDecInit
      rw [e2]
      dsimp only
      rw [hs]
    · intro ds junk hgd hds hj
      have := L.roundtrip aad [(pt, o)] ds old junk hg hgd ht hj hb' (by rw [hds, hc])
      rw [hin] at this
      rw [hc]
      exact this

/-! ### The AEADs of the library -/

theorem encUpdates_cshake (perm : List Byte → List Byte) : ∀ (cs : List (List Byte × List Byte)) (s : Aead.Ctx (Aead.cshakeAlg perm)) (r : Nat),
    encUpdates (cshakeApi perm r) s cs = Aead.encryptCalls s cs
  | [], _, _ => rfl
  | (x, o) :: cs, s, r => by
    unfold encUpdates Aead.encryptCalls
    rw [encUpdates_cshake perm cs]

theorem decUpdates_cshake (perm : List Byte → List Byte) : ∀ (cs : List (List Byte × List Byte)) (s : Aead.Ctx (Aead.cshakeAlg perm)) (r : Nat),
    decUpdates (cshakeApi perm r) s cs = Aead.decryptCalls s cs
  | [], _, _ => rfl
  | (x, o) :: cs, s, r => by
    unfold decUpdates Aead.decryptCalls
    rw [decUpdates_cshake perm cs]

/-- The cSHAKE AEAD has the required law for data up to `lim` bytes and every tag length. -/
theorem cshake_keyed (perm : List Byte → List Byte) (hp : ∀ s, s.length = 200 → (perm s).length = 200) (r : Nat) (hr : 0 < r) (hr2 : r ≤ 200)
    (lim hi : Nat) : (cshakeApi perm r).Keyed (Aead.KsGood lim) (fun n => n ≤ hi) (2 ^ 63) := by
  intro key iv hk hiv
  have C := Aead.cshake_aead hp r hr hr2 key iv (by omega) (by omega) lim hi
  refine ⟨Aead.ccSetkey perm r key iv, fun _ => rfl, ?_⟩
  have he : ∀ (aad : List Byte) cs, encUpdates (cshakeApi perm r) ((cshakeApi perm r).encInit (Aead.ccSetkey perm r key iv) aad) cs =
      Aead.encryptCalls ([aad].foldl Aead.addAad (Aead.ccSetkey perm r key iv)) cs := fun aad cs => encUpdates_cshake perm cs _ r
  have hd : ∀ (aad : List Byte) cs, decUpdates (cshakeApi perm r) ((cshakeApi perm r).decInit (Aead.ccSetkey perm r key iv) aad) cs =
      Aead.decryptCalls ([aad].foldl Aead.addAad (Aead.ccSetkey perm r key iv)) cs := fun aad cs => decUpdates_cshake perm cs _ r
  constructor
  · intro a; rfl
  · intro aad cs cs' old hg hg' ht hb hin
    have h1 := C.enc [aad] cs old hg (by omega) ht (by simpa using hb)
    have h2 := C.enc [aad] cs' old hg' (by omega) ht (by rw [← hin]; simpa using hb)
    rw [he, he]
    rw [hin, ← h2] at h1
    have h3 := congrArg Prod.fst h1
    have h4 := congrArg Prod.snd h1
    exact ⟨h3, h4⟩
  · intro aad pt o old
    rw [he]
    show (Aead.encOneshot _ pt o aad old).2 = _
    rw [Aead.encOneshot_session]
    rfl
  · intro aad ct o junk tag
    rw [hd]
    show (Aead.decOneshot _ ct o aad junk tag).2 = _
    rw [Aead.decOneshot_session]
    rfl
  · intro aad cs ds old junk hg hgd ht hj hb hin
    rw [he] at hin
    have h := C.roundtrip [aad] cs old [aad] ds junk hg hgd (by omega) ht hj (by simpa using hb) rfl hin
    rw [hd, he]
    exact ⟨congrArg Prod.fst h, congrArg Prod.snd h⟩

theorem encUpdates_ascon (cf : AsconAead.Cfg) (taglen : Nat) : ∀ (cs : List (List Byte × List Byte)) (s : AsconAead.Ctx),
    encUpdates (asconApi cf taglen) s cs = AsconAead.encCalls cf s (cs.map Prod.fst)
  | [], _ => rfl
  | (x, o) :: cs, s => by
    unfold encUpdates
    rw [encUpdates_ascon cf taglen cs]
    rfl

theorem decUpdates_ascon (cf : AsconAead.Cfg) (taglen : Nat) : ∀ (cs : List (List Byte × List Byte)) (s : AsconAead.Ctx),
    decUpdates (asconApi cf taglen) s cs = AsconAead.decCalls cf s (cs.map Prod.fst)
  | [], _ => rfl
  | (x, o) :: cs, s => by
    unfold decUpdates
    rw [decUpdates_ascon cf taglen cs]
    rfl

/-- Ascon-Keccak-256 has the required law for all data, with the tag length of its context. -/
theorem asconKeccak_keyed (perm : List Byte → List Byte) (hp : ∀ s, s.length = 200 → (perm s).length = 200) (tag : Nat)
    (ht : 16 ≤ tag ∧ tag ≤ 32) (bound : Nat) :
    (asconApi (AsconAead.asconKeccak perm 136) tag).Keyed (fun _ => True) (fun n => n = tag) bound := by
  intro key iv hk hiv
  have hc := AsconAead.asconKeccak_ok hp 136 (Or.inr rfl)
  have hs : ∃ c, AsconAead.setkey (AsconAead.asconKeccak perm 136) tag key iv = some c := by
    unfold AsconAead.setkey
    rw [if_neg (by omega), hk]
    unfold AsconAead.ivWord
    rw [if_neg (by omega), show (AsconAead.asconKeccak perm 136).rate = 136 from rfl, if_neg (show ¬ (136 : Nat) = 0x240 / 8 by decide),
      if_pos (show (136 : Nat) = 0x440 / 8 from rfl), if_neg (show ¬ (32 ≠ 32) by decide)]
    exact ⟨_, rfl⟩
  obtain ⟨c, hcs⟩ := hs
  obtain ⟨i1, i2, i3, i4, -⟩ := AsconAead.setkey_inv hc tag key iv c hcs
  have ho : c.off ≤ (AsconAead.asconKeccak perm 136).rate := by omega
  have hA : ∀ (aad : List Byte) cs, encUpdates (asconApi (AsconAead.asconKeccak perm 136) tag) (AsconAead.aad (AsconAead.asconKeccak perm 136) c aad) cs
      = AsconAead.encCalls (AsconAead.asconKeccak perm 136) (AsconAead.aad (AsconAead.asconKeccak perm 136) c aad) (cs.map Prod.fst) :=
    fun aad cs => encUpdates_ascon _ _ cs _
  have hD : ∀ (aad : List Byte) cs, decUpdates (asconApi (AsconAead.asconKeccak perm 136) tag) (AsconAead.aad (AsconAead.asconKeccak perm 136) c aad) cs
      = AsconAead.decCalls (AsconAead.asconKeccak perm 136) (AsconAead.aad (AsconAead.asconKeccak perm 136) c aad) (cs.map Prod.fst) :=
    fun aad cs => decUpdates_ascon _ _ cs _
  refine ⟨c, fun s => ?_, ?_⟩
  · show (match AsconAead.setkey (AsconAead.asconKeccak perm 136) tag key iv with | none => Out.err einval | some s => Out.ok s) = _
    rw [hcs]
  have hss : (AsconAead.asconKeccak perm 136).ss = 200 := rfl
  generalize AsconAead.asconKeccak perm 136 = cf at *
  constructor
  · intro a; rfl
  · intro aad cs cs' old _ _ _ _ hin
    have h1 := AsconAead.enc_streaming hc c i1 ho aad (cs.map Prod.fst) old
    have h2 := AsconAead.enc_streaming hc c i1 ho aad (cs'.map Prod.fst) old
    rw [show (cs.map Prod.fst).flatten = (cs'.map Prod.fst).flatten from hin, ← h2] at h1
    dsimp only
    rw [hA, hA]
    exact ⟨congrArg (fun q => q.1) h1, congrArg (fun q => q.2) h1⟩
  · intro aad pt o old
    dsimp only
    rw [hA]
    show _ = AsconAead.encSession cf c aad [pt] old
    rw [AsconAead.enc_streaming hc c i1 ho, List.flatten_singleton]
    rfl
  · intro aad ct o junk tg
    dsimp only
    rw [hD]
    show _ = AsconAead.decSession cf c aad [ct] tg
    rw [AsconAead.dec_streaming hc c i1 ho, List.flatten_singleton]
    rfl
  · intro aad cs ds old junk _ _ hl _ _ hin
    dsimp only at hin ⊢
    rw [hA] at hin
    rw [hA, hD]
    have h := AsconAead.roundtrip hc c i1 ho (by omega) aad (cs.map Prod.fst) (ds.map Prod.fst) old (by rw [i4]; exact hl) hin
    exact ⟨congrArg Prod.fst h, congrArg Prod.snd h⟩

/-- The scheme cannot be used with Ascon-AEAD128 (nor with Ascon-Keccak-512): it always derives a 32 byte
key, which those refuse, so nothing is encrypted. -/
theorem ies_ascon_refused (cf : AsconAead.Cfg) (hcf : cf.rate = 16 ∨ cf.rate = 72) (tag : Nat) (f : Fns)
    (hkm : ∀ k c, (f.kmac k c 48).length = 48) (p : Par) (fuel : Nat) (s0 : AsconAead.Ctx) (pk m pt o aad old ct ss : List Byte)
    (h : kemEnc f p fuel pk m = .ok ct ss) :
    iesEnc (asconApi cf tag) f p fuel s0 pk m pt o aad old = .err einval := by
  have hnone : ∀ key iv : List Byte, key.length = 32 → AsconAead.setkey cf tag key iv = none := by
    intro key iv hk
    unfold AsconAead.setkey
    split
    · rfl
    · unfold AsconAead.ivWord
      rw [hk]
      rcases hcf with e | e <;> rw [e]
      · split <;> rfl
      · split <;> rfl
  unfold iesEnc kemEncKdf
  rw [h]
  dsimp only
  rw [hnone _ _ (by rw [List.length_take, hkm]; rfl)]

/-- Non-vacuity: an exchange that meets all hypotheses of C48. -/
example : ∃ pkR skR i, keypairFromSeed f0 p512 3 (List.replicate 64 7) = .ok pkR skR ∧
    kexInit f0 p512 3 pkR (List.replicate 64 7) (List.replicate 32 9) = .ok i ∧
    Decodes f0 p512 3 (List.replicate 64 7) pkR (List.replicate 32 9) ∧
    Decodes f0 p512 3 (List.replicate 64 7) i.pkE (List.replicate 32 8) := by
  obtain ⟨pk, sk, h1, h2⟩ := f0_case
  obtain ⟨-, -, ⟨ct, ss, e, -⟩, -⟩ := decaps_correct f0 f0_ok p512 (Or.inl rfl) 3 (List.replicate 64 7) (List.replicate 32 9) pk sk
    List.length_replicate h1
  refine ⟨pk, sk, ⟨pk, ct, ss, sk⟩, h1, ?_, h2 _, h2 _⟩
  unfold kexInit
  rw [h1]
  dsimp only
  rw [e]

/-- Non-vacuity: the hypotheses of the AEAD law are met by the AEADs over the real permutation. -/
example : (cshakeApi Sponge.Keccak.keccakpBytes 136).Keyed (Aead.KsGood 1000) (fun n => n ≤ 64) (2 ^ 63) ∧
    (asconApi (AsconAead.asconKeccak Sponge.Keccak.keccakpBytes 136) 32).Keyed (fun _ => True) (fun n => n = 32) (2 ^ 63) :=
  ⟨cshake_keyed _ (fun s _ => Sponge.keccakpBytes_length s) 136 (by decide) (by decide) 1000 64,
    asconKeccak_keyed _ (fun s _ => Sponge.keccakpBytes_length s) 32 (by decide) _⟩

end LC.Kyber
