import Verif.Aead.SymMac
/-
C19, C20, C21 for the encrypt-then-MAC AEADs.
-/
namespace LC.Aead
open Sym (Aligned)
open StreamHash (sha512)

variable {A : Alg}

/-- What a user relies on, for a context `s` set up with a key and an IV: encryption `E`, decryption
`D`, MAC `mac msg n` of `n` bytes, tag lengths between `lo` and `hi`, call sequences `Good`.
* `enc`: however AAD and plaintext are cut into calls, and whatever the output buffers held before,
  the ciphertext is `E pt` and the tag is the MAC of `aad ++ ct`;
* `accept`: decryption returns 0 exactly for the recomputed tag and -EBADMSG for any other;
* `roundtrip`: decrypting an honest ciphertext and tag in any chunking returns the plaintext and 0;
* `plain`: the plaintext released for any ciphertext. -/
structure Conforms (s : Ctx A) (E D : List Byte → List Byte) (mac : List Byte → Nat → List Byte)
    (Good : List (List Byte × List Byte) → Prop) (lo hi bound : Nat) : Prop where
  enc : ∀ aads cs old, Good cs → lo ≤ old.length → old.length ≤ hi →
    aads.flatten.length + (inputs cs).length < bound →
    (encSession s aads cs old).2 = (E (inputs cs), mac (aads.flatten ++ E (inputs cs)) old.length)
  accept : ∀ aads cs junk tag, lo ≤ tag.length → tag.length ≤ hi → tag.length ≤ junk.length →
    aads.flatten.length + (inputs cs).length < bound →
    (decSession s aads cs junk tag).2.2 =
      if tag = mac (aads.flatten ++ inputs cs) tag.length then 0 else -74
  roundtrip : ∀ aads cs old aads' ds junk, Good cs → Good ds → lo ≤ old.length → old.length ≤ hi →
    old.length ≤ junk.length → aads.flatten.length + (inputs cs).length < bound →
    aads'.flatten = aads.flatten → inputs ds = (encSession s aads cs old).2.1 →
    (decSession s aads' ds junk (encSession s aads cs old).2.2).2 = (inputs cs, 0)
  plain : ∀ aads cs junk tag, Good cs → lo ≤ tag.length → tag.length ≤ hi → tag.length ≤ junk.length →
    aads.flatten.length + (inputs cs).length < bound →
    (decSession s aads cs junk tag).2.1 = D (inputs cs)

theorem put_full (w old : List Byte) (h : w.length = old.length) : put w old = w := by
  rw [put, List.drop_eq_nil_of_le (by omega), List.append_nil]

theorem kmacXof_length (perm : List Byte → List Byte) (r : Nat) (k x : List Byte) (n : Nat) (s : List Byte) :
    (Kmac.Spec.kmacXof perm r k x n s).length = n := by
  unfold Kmac.Spec.kmacXof Kmac.Spec.cshake
  rw [if_neg (by simp [Kmac.Spec.name])]
  simp [Sponge.Spec.sponge]

theorem conforms {s : Ctx A} {E D : List Byte → List Byte} {mac mac' : List Byte → Nat → List Byte}
    {Good : List (List Byte × List Byte) → Prop} {lo hi bound : Nat}
    (hm : MacOk A s.m mac bound) (hc : CipherOk A s.c E D Good)
    (hE : ∀ cs, Good cs → (E (inputs cs)).length = (inputs cs).length)
    (hmac : ∀ msg n, lo ≤ n → n ≤ hi → mac msg n = mac' msg n ∧ (mac' msg n).length = n)
    (hcl : ∀ n, lo ≤ n → n ≤ hi → A.clamp n = some n) : Conforms s E D mac' Good lo hi bound := by
  have henc : ∀ aads cs old, Good cs → lo ≤ old.length → old.length ≤ hi →
      aads.flatten.length + (inputs cs).length < bound →
      (encSession s aads cs old).2 = (E (inputs cs), mac' (aads.flatten ++ E (inputs cs)) old.length) := by
    intro aads cs old hg h1 h2 hb
    obtain ⟨e, l⟩ := hmac (aads.flatten ++ E (inputs cs)) old.length h1 h2
    rw [encSession_eq hm hc aads cs old hg (by rw [hE cs hg]; exact hb), e, put_full _ _ l]
  have hdec : ∀ aads cs junk tag, lo ≤ tag.length → tag.length ≤ hi → tag.length ≤ junk.length →
      aads.flatten.length + (inputs cs).length < bound →
      (decSession s aads cs junk tag).2 = ((decOuts A s.c cs).flatten,
        if tag = mac' (aads.flatten ++ inputs cs) tag.length then 0 else -74) := by
    intro aads cs junk tag h1 h2 hj hb
    obtain ⟨e, l⟩ := hmac (aads.flatten ++ inputs cs) tag.length h1 h2
    rw [decSession_eq hm aads cs junk tag tag.length (hcl _ h1 h2) hj hb, e,
      put_full _ _ (by rw [l, List.length_take]; omega), List.take_length]
    simp only [eq_comm]
  refine ⟨henc, ?_, ?_, ?_⟩
  · intro aads cs junk tag h1 h2 hj hb
    rw [hdec aads cs junk tag h1 h2 hj hb]
  · intro aads cs old aads' ds junk hg hg' h1 h2 hj hb ha hi
    rw [henc aads cs old hg h1 h2 hb] at hi ⊢
    dsimp only at hi ⊢
    have l := (hmac (aads.flatten ++ E (inputs cs)) old.length h1 h2).2
    rw [hdec aads' ds junk _ (by omega) (by omega) (by omega) (by rw [ha, hi, hE cs hg]; exact hb)]
    rw [l, ha, hi, if_pos rfl, hc.dec ds hg', hi, hc.inv cs hg]
  · intro aads cs junk tag hg h1 h2 hj hb
    rw [hdec aads cs junk tag h1 h2 hj hb]
    exact hc.dec cs hg

/-! ### C19/C20: the concrete algorithms -/

section keccak
variable {perm : List Byte → List Byte} (hp : ∀ s, s.length = 200 → (perm s).length = 200)
include hp

/-- C19, C20: cSHAKE AEAD (`lc_cshake_aead`), any Keccak-sized permutation and rate, all keys and
IVs, all chunkings, every tag length. -/
theorem cshake_aead (r : Nat) (hr : 0 < r) (hr2 : r ≤ 200) (key iv : List Byte)
    (hk : key.length < 2 ^ 61) (hv : iv.length < 2 ^ 63) (lim hi : Nat) :
    Conforms (ccSetkey perm r key iv) (Spec.cshakeEnc perm r key iv) (Spec.cshakeEnc perm r key iv)
      (Spec.cshakeTag perm r key iv) (KsGood lim) 0 hi (2 ^ 63) := by
  refine conforms (cc_mac hp r hr hr2 key iv hk hv) (cc_cipher hp r hr hr2 key iv hk hv lim) ?_ ?_
    (fun _ _ _ => rfl)
  · intro cs _
    rw [Spec.cshakeEnc, ← ccName_eq, cshake_ccByte]
    simp [Sym.Spec.bxor]
  · intro msg n _ _
    refine ⟨rfl, ?_⟩
    unfold Spec.cshakeTag Kmac.Spec.cshake
    rw [if_neg (by rw [← ccAuthName_eq]; simp [ccAuthName])]
    simp [Sponge.Spec.sponge]

/-- C19, C20: KMAC AEAD (`lc_kmac_aead`), tags of at least four bytes. -/
theorem kmac_aead_partial (r : Nat) (hr : 0 < r) (hr2 : r ≤ 200) (key iv : List Byte)
    (hk : key.length < 2 ^ 61) (hv : iv.length < 2 ^ 61) (lim hi : Nat) :
    Conforms (kcSetkey perm r key iv) (Spec.kmacEnc perm r key iv) (Spec.kmacEnc perm r key iv)
      (Spec.kmacTag perm r key iv) (KsGood lim) 4 hi (2 ^ 63) := by
  refine conforms (kc_mac hp r hr hr2 key iv hk hv) (kc_cipher hp r hr hr2 key iv hk hv lim) ?_ ?_
    (fun _ _ _ => rfl)
  · intro cs _
    rw [Spec.kmacEnc, kmacXof_kcByte]
    simp [Sym.Spec.bxor]
  · intro msg n h _
    rw [if_pos h]
    exact ⟨rfl, kmacXof_length ..⟩

/-- C19, C20: AES-CBC with KMAC (`lc_kh_aead`), block aligned calls, tags of 4 to 128 bytes. -/
theorem symkmac_cbc_partial (r : Nat) (hr : 0 < r) (hr2 : r ≤ 200) (key iv : List Byte)
    (hk : key.length < 2 ^ 61) (hiv : iv.length = 16) :
    ∃ s, khSetkey cbcSym perm r cbcMk key iv = some s ∧
      Conforms s
        (cbcE (Sym.aes (Spec.khKeys perm r key).1 (Or.inr (Or.inr (khKeys_length perm r key).1))) iv)
        (cbcD (Sym.aes (Spec.khKeys perm r key).1 (Or.inr (Or.inr (khKeys_length perm r key).1))) iv)
        (fun msg n => Kmac.Spec.kmacXof perm r (Spec.khKeys perm r key).2 msg n [])
        Aligned 4 128 (2 ^ 63) := by
  have h1 := khKeys_length perm r key
  rw [kh_setkey (Y := cbcSym) perm hp r hr hr2 cbcMk key iv hk, cbcMk, dif_pos h1.1, Sym.cbcSetiv, if_neg (by omega)]
  refine ⟨_, rfl, conforms (kh_mac cbcSym perm hp r hr hr2 _ (by omega)) (kh_cipher perm _ iv hiv) ?_ ?_ ?_⟩
  · intro cs h
    exact cbcE_length _ _ _ hiv (Sym.aligned_total cs h)
  · intro msg n h _
    rw [if_pos h]
    exact ⟨rfl, kmacXof_length ..⟩
  · intro n _ h
    simp only [symKmacAlg]
    rw [Nat.min_eq_left h]

/-- C19, C20: AES-CTR with KMAC; all chunks but the last of whole blocks. -/
theorem symkmac_ctr_partial (r : Nat) (hr : 0 < r) (hr2 : r ≤ 200) (key iv : List Byte)
    (hk : key.length < 2 ^ 61) (hiv : iv.length = 16) :
    ∃ s, khSetkey ctrSym perm r ctrMk key iv = some s ∧
      Conforms s
        (Sym.Spec.ctr (Sym.aes (Spec.khKeys perm r key).1 (Or.inr (Or.inr (khKeys_length perm r key).1))).E
          (Sym.Spec.number iv))
        (Sym.Spec.ctr (Sym.aes (Spec.khKeys perm r key).1 (Or.inr (Or.inr (khKeys_length perm r key).1))).E
          (Sym.Spec.number iv))
        (fun msg n => Kmac.Spec.kmacXof perm r (Spec.khKeys perm r key).2 msg n [])
        CtrGood 4 128 (2 ^ 63) := by
  have h1 := khKeys_length perm r key
  rw [kh_setkey (Y := ctrSym) perm hp r hr hr2 ctrMk key iv hk, ctrMk, dif_pos h1.1, Sym.ctrSetiv, if_neg (by omega)]
  refine ⟨_, rfl, conforms (kh_mac ctrSym perm hp r hr hr2 _ (by omega)) (kh_ctr_cipher perm _ iv hiv) ?_ ?_ ?_⟩
  · intro cs _
    simp [Sym.Spec.ctr]
  · intro msg n h _
    rw [if_pos h]
    exact ⟨rfl, kmacXof_length ..⟩
  · intro n _ h
    simp only [symKmacAlg]
    rw [Nat.min_eq_left h]

end keccak

section hmac
variable {S : StreamHash} {H : List Byte → List Byte} {maxLen : Nat} {Ok : S.Ctx → Prop}

/-- C19, C20: AES-CBC with HMAC (`lc_sh_aead`) for any hash of the library, block aligned calls,
tags of at most the digest size. -/
theorem symhmac_cbc_partial (E : Kdf.Env S H maxLen Ok) (hmax : 32 < maxLen) (h512 : Hmac.Ctx sha512)
    (hok : h512.h.part.length = 128) (h0 : S.Ctx) (hok0 : Ok h0) (key iv : List Byte)
    (hk : key ≠ []) (hkl : key.length < 2 ^ 60) (hiv : iv.length = 16) :
    ∃ s, shSetkey cbcSym S cbcMk h512 h0 key iv = some s ∧
      Conforms s
        (cbcE (Sym.aes (Spec.shKeys Sha2.Spec.sha512 key).1 (Or.inr (Or.inr (shKeys_length key).1))) iv)
        (cbcD (Sym.aes (Spec.shKeys Sha2.Spec.sha512 key).1 (Or.inr (Or.inr (shKeys_length key).1))) iv)
        (fun msg n => (Hmac.Spec.hmac H S.block (Spec.shKeys Sha2.Spec.sha512 key).2 msg).take n)
        Aligned 0 S.dsize (maxLen - S.block) := by
  have h1 := shKeys_length key
  rw [sh_setkey (Y := cbcSym) cbcMk h512 hok h0 key iv hk hkl, cbcMk, dif_pos h1.1, Sym.cbcSetiv, if_neg (by omega)]
  refine ⟨_, rfl, conforms (sh_mac cbcSym E h0 hok0 _ (by omega)) (sh_cipher S _ iv hiv) ?_ ?_ ?_⟩
  · intro cs h
    exact cbcE_length _ _ _ hiv (Sym.aligned_total cs h)
  · intro msg n _ h
    refine ⟨rfl, ?_⟩
    rw [List.length_take, E.mac_len]
    omega
  · intro n _ h
    simp only [symHmacAlg]
    rw [Nat.min_eq_left h]

/-- C19, C20: AES-CTR with HMAC. -/
theorem symhmac_ctr_partial (E : Kdf.Env S H maxLen Ok) (hmax : 32 < maxLen) (h512 : Hmac.Ctx sha512)
    (hok : h512.h.part.length = 128) (h0 : S.Ctx) (hok0 : Ok h0) (key iv : List Byte)
    (hk : key ≠ []) (hkl : key.length < 2 ^ 60) (hiv : iv.length = 16) :
    ∃ s, shSetkey ctrSym S ctrMk h512 h0 key iv = some s ∧
      Conforms s
        (Sym.Spec.ctr (Sym.aes (Spec.shKeys Sha2.Spec.sha512 key).1 (Or.inr (Or.inr (shKeys_length key).1))).E
          (Sym.Spec.number iv))
        (Sym.Spec.ctr (Sym.aes (Spec.shKeys Sha2.Spec.sha512 key).1 (Or.inr (Or.inr (shKeys_length key).1))).E
          (Sym.Spec.number iv))
        (fun msg n => (Hmac.Spec.hmac H S.block (Spec.shKeys Sha2.Spec.sha512 key).2 msg).take n)
        CtrGood 0 S.dsize (maxLen - S.block) := by
  have h1 := shKeys_length key
  rw [sh_setkey (Y := ctrSym) ctrMk h512 hok h0 key iv hk hkl, ctrMk, dif_pos h1.1, Sym.ctrSetiv, if_neg (by omega)]
  refine ⟨_, rfl, conforms (sh_mac ctrSym E h0 hok0 _ (by omega)) (sh_ctr_cipher S _ iv hiv) ?_ ?_ ?_⟩
  · intro cs _
    simp [Sym.Spec.ctr]
  · intro msg n _ h
    refine ⟨rfl, ?_⟩
    rw [List.length_take, E.mac_len]
    omega
  · intro n _ h
    simp only [symHmacAlg]
    rw [Nat.min_eq_left h]

/-- The functions `cbcE`, `cbcD` above are CBC of SP 800-38A and its inverse. -/
theorem cbcE_is_cbc (B : Sym.Cipher) (iv x : List Byte) (hiv : iv.length = 16) (hx : x.length % 16 = 0) :
    Sym.Spec.IsCbc B.E iv (x.length / 16) x (cbcE B iv x) ∧ (cbcE B iv x).length = x.length ∧
      cbcD B iv (cbcE B iv x) = x :=
  ⟨cbcE_spec B iv x hiv, cbcE_length B iv x hiv hx, cbcD_cbcE B iv x hiv hx⟩

end hmac

/-! ### Several messages under one key -/

/-- C19: the cSHAKE MAC state after a complete message is the one after `setkey`, so the tag of a
further message is again the MAC of its own AAD and ciphertext; only the key stream goes on. -/
theorem cshake_next_message {perm : List Byte → List Byte}
    (hp : ∀ s, s.length = 200 → (perm s).length = 200) (r : Nat) (hr : 0 < r) (hr2 : r ≤ 200)
    (key iv : List Byte) (hk : key.length < 2 ^ 61) (hv : iv.length < 2 ^ 63)
    (aads cs old) (aads' : List (List Byte)) (cs' : List (List Byte × List Byte)) (old' : List Byte)
    (hb : aads'.flatten.length +
      ((encSession (encSession (ccSetkey perm r key iv) aads cs old).1 aads' cs' old').2.1).length < 2 ^ 63) :
    (encSession (encSession (ccSetkey perm r key iv) aads cs old).1 aads' cs' old').2.2 =
      Spec.cshakeTag perm r key iv (aads'.flatten ++
        (encSession (encSession (ccSetkey perm r key iv) aads cs old).1 aads' cs' old').2.1) old'.length := by
  have hre := cc_session_reinit hp r hr hr2 key iv hk hv (ccSetkey perm r key iv) rfl aads cs old
  generalize (encSession (ccSetkey perm r key iv) aads cs old).1 = s at *
  obtain ⟨e1, e2⟩ := encryptCalls_eq cs' (aads'.foldl addAad s)
  have hm' : (aads'.foldl addAad s).m = aads'.foldl (cshakeAlg perm).upd (ccSetkey perm r key iv).m := by
    rw [foldl_addAad, hre]
  rw [hm', ← List.foldl_append] at e2
  have hct : (encSession s aads' cs' old').2.1 = (encOuts (cshakeAlg perm) (aads'.foldl addAad s).c cs').flatten := e1
  rw [hct] at hb ⊢
  have ht : (encSession s aads' cs' old').2.2 =
      ((cshakeAlg perm).tag (encryptCalls (aads'.foldl addAad s) cs').1.m old').2 := rfl
  have hm := cc_mac hp r hr hr2 key iv hk hv
    (aads' ++ encOuts (cshakeAlg perm) (aads'.foldl addAad s).c cs') old'
    (by rw [List.flatten_append, List.length_append]; exact hb)
  rw [ht, e2, hm, List.flatten_append]
  apply put_full
  unfold Spec.cshakeTag Kmac.Spec.cshake
  rw [if_neg (by rw [← ccAuthName_eq]; simp [ccAuthName])]
  simp [Sponge.Spec.sponge]

/-! ### C21: the boundary between AAD and ciphertext is not authenticated -/

/-- C21 is violated: for every encrypt-then-MAC AEAD of the library, every key, AAD and ciphertext,
moving bytes from the front of the ciphertext to the end of the AAD leaves the verdict unchanged.
An accepted triple yields accepted triples for other messages. -/
theorem boundary_not_authenticated {mac : List Byte → Nat → List Byte} {bound n : Nat} {s : Ctx A}
    (hm : MacOk A s.m mac bound) (aad ct o o' junk tag : List Byte) (k : Nat)
    (hn : A.clamp tag.length = some n) (hj : n ≤ junk.length) (hb : aad.length + ct.length < bound) :
    (decOneshot s (ct.drop k) o' (aad ++ ct.take k) junk tag).2.2 = (decOneshot s ct o aad junk tag).2.2 := by
  have key : aad ++ ct.take k ++ ct.drop k = aad ++ ct := by rw [List.append_assoc, List.take_append_drop]
  have e : (aad ++ ct.take k).length + (ct.drop k).length = aad.length + ct.length := by
    rw [← List.length_append, key, List.length_append]
  rw [decOneshot_session, decOneshot_session,
    decSession_eq hm _ _ junk tag n hn hj
      (by rw [List.flatten_singleton, show inputs [(ct.drop k, o')] = ct.drop k by simp [inputs], e]; exact hb),
    decSession_eq hm _ _ junk tag n hn hj (by simpa [inputs] using hb)]
  simp only [List.flatten_singleton, inputs, List.map_cons, List.map_nil, key]

/-- C21, instance: a forgery for the cSHAKE AEAD without knowledge of the key.  From one honest
encryption, another AAD and ciphertext with the same tag that decryption accepts. -/
theorem cshake_forgery {perm : List Byte → List Byte}
    (hp : ∀ s, s.length = 200 → (perm s).length = 200) (r : Nat) (hr : 0 < r) (hr2 : r ≤ 200)
    (key iv : List Byte) (hk : key.length < 2 ^ 61) (hv : iv.length < 2 ^ 63) (pt aad o o' junk old : List Byte)
    (ho : o.length = pt.length) (hj : old.length ≤ junk.length) (hb : aad.length + pt.length < 2 ^ 63) (k : Nat) :
    let c := (encOneshot (ccSetkey perm r key iv) pt o aad old).2
    (decOneshot (ccSetkey perm r key iv) (c.1.drop k) o' (aad ++ c.1.take k) junk c.2).2.2 = 0 := by
  dsimp only
  have C := cshake_aead hp r hr hr2 key iv hk hv pt.length old.length
  have hg : KsGood pt.length [(pt, o)] := ⟨by simpa using ho, by simp [inputs]⟩
  have he := C.enc [aad] [(pt, o)] old hg (by omega) (by omega) (by simpa [inputs] using hb)
  have hlen : (Spec.cshakeEnc perm r key iv pt).length = pt.length := by
    rw [Spec.cshakeEnc, ← ccName_eq, cshake_ccByte]; simp [Sym.Spec.bxor]
  have hin : inputs [(pt, o)] = pt := by simp [inputs]
  have hr' := C.roundtrip [aad] [(pt, o)] old [aad] [((Spec.cshakeEnc perm r key iv pt), o)] junk hg
    ⟨by simp [hlen, ho], by simp [inputs, hlen]⟩ (by omega) (by omega) hj (by simpa [inputs] using hb) rfl
    (by rw [he, hin]; simp [inputs])
  rw [encOneshot_session]
  have htl : ((encSession (ccSetkey perm r key iv) [aad] [(pt, o)] old).2.2).length = old.length := by
    rw [he]
    unfold Spec.cshakeTag Kmac.Spec.cshake
    rw [if_neg (by rw [← ccAuthName_eq]; simp [ccAuthName])]
    simp [Sponge.Spec.sponge]
  rw [boundary_not_authenticated (cc_mac hp r hr hr2 key iv hk hv) aad _ o o' junk _ k rfl (by rw [htl]; exact hj)
    (by rw [he, hin]; simpa [hlen] using hb), decOneshot_session]
  have e1 : (encSession (ccSetkey perm r key iv) [aad] [(pt, o)] old).2.1 = Spec.cshakeEnc perm r key iv pt := by
    rw [he, hin]
  rw [e1, hr']

/-- C21, what holds: the MAC input determines AAD and ciphertext once the AAD length is known, so
callers with a fixed AAD length are not affected. -/
theorem fixed_aad_length_partial {aad aad' ct ct' : List Byte} (h : aad.length = aad'.length) :
    aad ++ ct = aad' ++ ct' ↔ aad = aad' ∧ ct = ct' :=
  ⟨fun e => List.append_inj e h, fun e => by rw [e.1, e.2]⟩

/-! ### C20: tag lengths -/

/-- C20 is violated for an empty tag: it is always accepted, by every AEAD. -/
theorem empty_tag_accepted {mac : List Byte → Nat → List Byte} {bound : Nat} {s : Ctx A}
    (hm : MacOk A s.m mac bound) (hmac : ∀ m, mac m 0 = []) (hcl : A.clamp 0 = some 0)
    (aads : List (List Byte)) (cs : List (List Byte × List Byte)) (junk : List Byte)
    (hb : aads.flatten.length + (inputs cs).length < bound) :
    (decSession s aads cs junk []).2.2 = 0 := by
  rw [decSession_eq hm aads cs junk [] 0 hcl (by omega) hb, hmac]
  simp [put]

/-- C20 is violated by the KMAC AEADs for tags of one to three bytes: nothing is computed, the
given tag is compared with the uninitialised buffer, whatever key, AAD and ciphertext are. -/
theorem kmac_short_tag {perm : List Byte → List Byte}
    (hp : ∀ s, s.length = 200 → (perm s).length = 200) (r : Nat) (hr : 0 < r) (hr2 : r ≤ 200)
    (key iv : List Byte) (hk : key.length < 2 ^ 61) (hv : iv.length < 2 ^ 61)
    (aads : List (List Byte)) (cs : List (List Byte × List Byte)) (junk tag : List Byte)
    (ht : tag.length < 4) (hj : tag.length ≤ junk.length)
    (hb : aads.flatten.length + (inputs cs).length < 2 ^ 63) :
    (decSession (kcSetkey perm r key iv) aads cs junk tag).2.2 =
      if junk.take tag.length = tag then 0 else -74 := by
  rw [decSession_eq (kc_mac hp r hr hr2 key iv hk hv) aads cs junk tag tag.length rfl hj hb,
    if_neg (by omega : ¬ 4 ≤ tag.length)]
  simp [put]

/-- ... and encryption leaves the tag buffer as it was. -/
theorem kmac_short_tag_enc {perm : List Byte → List Byte}
    (hp : ∀ s, s.length = 200 → (perm s).length = 200) (r : Nat) (hr : 0 < r) (hr2 : r ≤ 200)
    (key iv : List Byte) (hk : key.length < 2 ^ 61) (hv : iv.length < 2 ^ 61)
    (aads : List (List Byte)) (cs : List (List Byte × List Byte)) (old : List Byte)
    (ht : old.length < 4) (lim : Nat) (hg : KsGood lim cs)
    (hb : aads.flatten.length + (inputs cs).length < 2 ^ 63) :
    (encSession (kcSetkey perm r key iv) aads cs old).2.2 = old := by
  have hl : (Spec.kmacEnc perm r key iv (inputs cs)).length = (inputs cs).length := by
    rw [Spec.kmacEnc, kmacXof_kcByte]; simp [Sym.Spec.bxor]
  rw [encSession_eq (kc_mac hp r hr hr2 key iv hk hv) (kc_cipher hp r hr hr2 key iv hk hv lim) aads cs old hg
    (by rw [hl]; exact hb), if_neg (by omega : ¬ 4 ≤ old.length)]
  simp [put]

/-- C20 is violated by AES with HMAC for tags longer than the digest: only the first `dsize` bytes
of the tag are looked at. -/
theorem symhmac_long_tag {S : StreamHash} {H : List Byte → List Byte} {maxLen : Nat} {Ok : S.Ctx → Prop}
    (Y : SymAlg) (E : Kdf.Env S H maxLen Ok) (s : Ctx (symHmacAlg Y S)) (h0 : S.Ctx) (hok : Ok h0)
    (ak : List Byte) (hk : ak.length < maxLen) (hs : s.m = Hmac.init h0 ak)
    (aads : List (List Byte)) (cs : List (List Byte × List Byte)) (junk suffix : List Byte)
    (hj : S.dsize ≤ junk.length) (hb : aads.flatten.length + (inputs cs).length < maxLen - S.block) :
    (decSession s aads cs junk (Hmac.Spec.hmac H S.block ak (aads.flatten ++ inputs cs) ++ suffix)).2.2 = 0 := by
  have hl := E.mac_len ak (aads.flatten ++ inputs cs)
  rw [decSession_eq (mac := fun msg n => (Hmac.Spec.hmac H S.block ak msg).take n) (bound := maxLen - S.block)
    (by rw [hs]; exact sh_mac Y E h0 hok ak hk) aads cs junk _ S.dsize
    (by simp only [symHmacAlg]; rw [Nat.min_eq_right (by rw [List.length_append, hl]; omega)]) hj hb]
  rw [put_full _ _ (by rw [List.length_take, List.length_take, hl]; omega), List.take_append_of_le_length (by omega),
    if_pos rfl]

/-- C19 is violated by the AES-CBC AEADs for plaintexts that are not whole blocks: the trailing
bytes of the plaintext do not reach the ciphertext, the encryption reports no error. -/
theorem symhmac_tail_lost (S : StreamHash) (s : Ctx (symHmacAlg cbcSym S)) (x o : List Byte)
    (hx : x.length < 16) (ho : o.length = x.length) :
    (encrypt s x o).2 = List.replicate x.length 0 := by
  have h1 : Sym.roundedLen16 x.length = 0 := by rw [Sym.roundedLen16_small (by omega)]; omega
  have h2 : (Sym.cbcEncrypt s.c.1.E s.c.2 x o).2 = o := by
    simp [Sym.cbcEncrypt, h1, Sym.cbcEncLoop]
  simp only [encrypt]
  rw [h2, zeroTail, ho, Nat.mod_eq_of_lt hx]
  simp

/-- Two different plaintexts with the same ciphertext and tag, hence no decryption returns both. -/
theorem symhmac_not_injective (S : StreamHash) (s : Ctx (symHmacAlg cbcSym S)) (aad old : List Byte) :
    (encOneshot s [1] [0] aad old).2 = (encOneshot s [2] [0] aad old).2 := by
  have h1 := symhmac_tail_lost S (addAad s aad) [1] [0] (by decide) rfl
  have h2 := symhmac_tail_lost S (addAad s aad) [2] [0] (by decide) rfl
  have e : (encrypt (addAad s aad) [1] [0]).2 = (encrypt (addAad s aad) [2] [0]).2 := h1.trans h2.symm
  have em : (encrypt (addAad s aad) [1] [0]).1.m = (encrypt (addAad s aad) [2] [0]).1.m := by
    change (symHmacAlg cbcSym S).upd _ (encrypt (addAad s aad) [1] [0]).2 =
      (symHmacAlg cbcSym S).upd _ (encrypt (addAad s aad) [2] [0]).2
    rw [e]
  simp only [encOneshot, encryptTag]
  rw [e, em]

/-! ### Non-vacuity -/

/-- cSHAKE256 (rate 136) with the real Keccak permutation. -/
example : Conforms (ccSetkey Sponge.Keccak.keccakpBytes 136 [1, 2, 3] [4, 5])
    (Spec.cshakeEnc Sponge.Keccak.keccakpBytes 136 [1, 2, 3] [4, 5])
    (Spec.cshakeEnc Sponge.Keccak.keccakpBytes 136 [1, 2, 3] [4, 5])
    (Spec.cshakeTag Sponge.Keccak.keccakpBytes 136 [1, 2, 3] [4, 5]) (KsGood 10) 0 64 (2 ^ 63) :=
  cshake_aead (fun s _ => Sponge.keccakpBytes_length s) 136 (by decide) (by decide) _ _ (by decide) (by decide) 10 64

example : KsGood 10 [([1, 2, 3], [0, 0, 0]), ([], []), ([4], [9])] := ⟨by decide, by decide⟩

example : Aligned [(List.replicate 32 1, List.replicate 32 0), (List.replicate 16 2, List.replicate 16 0)] := by
  intro c hc
  simp at hc
  rcases hc with rfl | rfl <;> decide

example : CtrGood [(List.replicate 32 1, []), ([1, 2, 3], [])] :=
  ⟨[(List.replicate 32 1, [])], ([1, 2, 3], []), rfl, by decide⟩

/-- Zeroed memory of a SHA-512 context. -/
def zero512 : sha512.Ctx := ({ H := [], msgLen := 0, part := List.replicate 128 0 } : Sha2.Ctx (List (BitVec 64)))

theorem zero512_ok : zero512.part.length = 128 := List.length_replicate

/-- HMAC-SHA-512 with AES-CBC on zeroed memory. -/
example : ∃ s, shSetkey cbcSym sha512 cbcMk { h := zero512, kOpad := [], kIpad := [] } zero512 [1, 2, 3]
    (List.replicate 16 7) = some s := by
  obtain ⟨s, h, _⟩ := symhmac_cbc_partial Kdf.env_sha512 (by decide)
    { h := zero512, kOpad := [], kIpad := [] } zero512_ok zero512 zero512_ok [1, 2, 3] (List.replicate 16 7)
    (by decide) (by decide) (by decide)
  exact ⟨s, h⟩

end LC.Aead
