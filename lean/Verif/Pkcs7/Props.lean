import Verif.Pkcs7.Model
import Verif.X509.Props
/-
Property theorems: C35 (chain to a trust anchor), C36 (trust store admission), C37 (termination of
the chain walk), C38 (the signature covers the content).
-/
namespace LC.Pkcs7
open LC.X509

/-! ### Specification -/

/-- The key of certificate `p` verifies the signature on certificate `x`: the signature algorithm
accepts `x`'s signature for `x`'s signed data, and `x` is within its validity period if the
platform has a clock. -/
def Spec.Accepts (w : World) (p x : Nat) : Prop :=
  (∃ s m, (w.cert x).sig.s = some s ∧ (w.cert x).sig.message = some m ∧
    w.cr.prim (w.cert p).pub.algo (w.cert p).pub.key m s ≥ 0) ∧
  (∀ t, w.clock = .time t → t ≠ 0 → timeValid (w.cert x) t = 1)

/-- `x` chains to an anchor: directly, or over a certificate of the message that may sign
certificates. -/
inductive Spec.Chain (w : World) (certs anchors : List Nat) : Nat → Prop
  | anchored (x t : Nat) (ht : t ∈ anchors) (h : Spec.Accepts w t x) : Spec.Chain w certs anchors x
  | link (x p : Nat) (hp : p ∈ certs) (hku : matchKeyUsage (w.cert p) KU_KEYCERTSIGN = true)
      (h : Spec.Accepts w p x) (hc : Spec.Chain w certs anchors p) : Spec.Chain w certs anchors x

/-- The signed info's signature covers the content (RFC 5652 5.4, 5.6): it verifies under the key of
`x` either for the digest of the content, or for the digest of the authenticated attributes
(re-tagged as SET OF), among which the message digest attribute is the digest of the content. -/
def Spec.Covers (w : World) (content : Bytes) (si : SInfo) (x : Nat) : Prop :=
  ∃ h s, si.sig.hash = some h ∧ si.sig.s = some s ∧
    ((si.authattrs = none ∧
        w.cr.prim (w.cert x).pub.algo (w.cert x).pub.key (w.hash h content) s ≥ 0) ∨
     (∃ aa, si.authattrs = some aa ∧ si.msgdigest = some (w.hash h content) ∧
        w.cr.prim (w.cert x).pub.algo (w.cert x).pub.key (w.hash h (0x31 :: aa)) s ≥ 0))

/-! ### Lemmas -/

theorem certVerify_sound (w : World) (p x : Nat)
    (h : certVerify w.cr w.clock (w.cert p).pub (w.cert x) ≥ 0) : Spec.Accepts w p x := by
  have key : ∀ t : Int, certVerifyTimed w.cr t (w.cert p).pub (w.cert x) ≥ 0 →
      verifySignature w.cr (w.cert p).pub (w.cert x).sig ≥ 0 ∧ (t ≠ 0 → timeValid (w.cert x) t = 1) := by
    intro t ht
    unfold certVerifyTimed at ht
    split at ht
    · dsimp only at ht
      split at ht
      · omega
      · split at ht
        · exact absurd ht (by decide)
        · refine ⟨ht, fun _ => ?_⟩
          rcases timeValid_range (w.cert x) t with ⟨a, _⟩ | a | a
          · have h1 : ¬ timeValid (w.cert x) t < 0 := by assumption
            rw [a] at h1
            exact absurd (by decide : -EINVAL < 0) h1
          · contradiction
          · exact a
    · exact ⟨ht, fun e => absurd e (by assumption)⟩
  unfold certVerify at h
  split at h
  · obtain ⟨h1, _⟩ := key 0 h
    obtain ⟨s, m, a, b, _, c, _⟩ := verifySignature_sound _ _ _ h1
    exact ⟨⟨s, m, a, b, c⟩, fun t ht => by simp_all⟩
  · omega
  · rename_i t hc
    obtain ⟨h1, h2⟩ := key t h
    obtain ⟨s, m, a, b, _, c, _⟩ := verifySignature_sound _ _ _ h1
    refine ⟨⟨s, m, a, b, c⟩, fun t' ht' => ?_⟩
    rw [hc] at ht'
    cases ht'
    exact h2

theorem findAsymmetricKey_mem (w : World) (l : List Nat) (a b : Kid) (t : Nat)
    (h : findAsymmetricKey w (some l) a b = .ok t) : t ∈ l := by
  unfold findAsymmetricKey findByAuth0 findByAuth1 at h
  dsimp only at h
  split at h
  · split at h
    · cases h
    · rename_i hf
      split at h
      · cases h
      · cases h
        exact List.mem_of_find?_eq_some hf
  · split at h
    · split at h
      · cases h
      · rename_i hf
        cases h
        exact List.mem_of_find?_eq_some hf
    · cases h

theorem verifyWith_zero (w : World) (x : Nat) (e : Except Int Nat) (he : ∀ i, e = .error i → i ≠ 0)
    (h : verifyWith w x e = .done 0) : ∃ t, e = .ok t ∧ Spec.Accepts w t x := by
  cases e with
  | error i =>
    unfold verifyWith at h
    cases h
    exact absurd rfl (he 0 rfl)
  | ok t =>
    unfold verifyWith at h
    dsimp only at h
    split at h
    · rename_i hr
      injection h with h
      omega
    · exact ⟨t, rfl, certVerify_sound w t x (by omega)⟩

theorem verifyWith_not_next (w : World) (x p : Nat) (e : Except Int Nat) : verifyWith w x e ≠ .next p := by
  cases e with
  | error i => unfold verifyWith; simp
  | ok t => unfold verifyWith; dsimp only; split <;> simp

theorem findAsymmetricKey_error (w : World) (st : Option (List Nat)) (a b : Kid) (i : Int)
    (h : findAsymmetricKey w st a b = .error i) : i ≠ 0 := by
  unfold findAsymmetricKey findByAuth0 findByAuth1 at h
  repeat' split at h
  all_goals (first | (cases h; decide) | cases h)

/-- What one iteration does when it returns success or continues. -/
theorem chainStep_done (w : World) (chain : List Nat) (store : Option (List Nat)) (x : Nat) (seen : List Nat)
    (h : chainStep w chain store x seen = .done 0) :
    isRootCa (w.cert x) = true ∨
    (∃ l t, store = some l ∧ t ∈ l ∧ Spec.Accepts w t x) ∨
    (store = none ∧ ∃ p ∈ chain, isRootCa (w.cert p) = true ∧ p ∉ seen ∧
      matchKeyUsage (w.cert p) KU_KEYCERTSIGN = true ∧
      ((w.cert x).sig.auth0.len ≠ 0 ∧ idSame (w.cert p).id (w.cert x).sig.auth0 = true ∨
       (w.cert x).sig.auth1.len ≠ 0 ∧ idSame (w.cert p).skid (w.cert x).sig.auth1 = true)) := by
  unfold chainStep at h
  dsimp only at h
  split at h
  · cases h
  · split at h
    · left; assumption
    · right
      have hstore : fromStore w store x = .done 0 →
          ∃ l t, store = some l ∧ t ∈ l ∧ Spec.Accepts w t x := by
        intro h
        unfold fromStore at h
        split at h
        · cases h
        · rename_i t hf
          obtain ⟨t', e, ha⟩ := verifyWith_zero w x _ (by simp) h
          cases e
          cases hs : store with
          | none => rw [hs] at hf; cases hf
          | some l =>
            rw [hs] at hf
            exact ⟨l, t, rfl, findAsymmetricKey_mem _ _ _ _ _ hf, ha⟩
      have hfound : ∀ p, p ∈ chain →
          ((w.cert x).sig.auth0.len ≠ 0 ∧ idSame (w.cert p).id (w.cert x).sig.auth0 = true ∨
            (w.cert x).sig.auth1.len ≠ 0 ∧ idSame (w.cert p).skid (w.cert x).sig.auth1 = true) →
          foundIssuer w store x p seen = .done 0 →
          (∃ l t, store = some l ∧ t ∈ l ∧ Spec.Accepts w t x) ∨
          (store = none ∧ ∃ p ∈ chain, isRootCa (w.cert p) = true ∧ p ∉ seen ∧
            matchKeyUsage (w.cert p) KU_KEYCERTSIGN = true ∧
            ((w.cert x).sig.auth0.len ≠ 0 ∧ idSame (w.cert p).id (w.cert x).sig.auth0 = true ∨
            (w.cert x).sig.auth1.len ≠ 0 ∧ idSame (w.cert p).skid (w.cert x).sig.auth1 = true)) := by
        intro p hp hid h
        unfold foundIssuer at h
        split at h
        · cases h
        · rename_i hseen
          split at h
          · cases h
          · rename_i hku
            have hku' : matchKeyUsage (w.cert p) KU_KEYCERTSIGN = true := by simpa using hku
            split at h
            · rename_i hroot
              cases hs : store with
              | none => exact Or.inr ⟨rfl, p, hp, hroot, hseen, hku', hid⟩
              | some l =>
                rw [hs] at h
                dsimp only at h
                obtain ⟨t, e, ha⟩ := verifyWith_zero w x _
                  (fun i hi => findAsymmetricKey_error _ _ _ _ _ hi) h
                exact Or.inl ⟨l, t, rfl, findAsymmetricKey_mem _ _ _ _ _ e, ha⟩
            · dsimp only at h
              split at h
              · rename_i hr
                injection h with h
                omega
              · cases h
      unfold searchChain at h
      dsimp only at h
      split at h
      · rename_i h0
        split at h
        · exact Or.inl (hstore h)
        · rename_i p hf
          split at h
          · cases h
          · refine hfound p (List.mem_of_find?_eq_some hf) (Or.inl ⟨h0, ?_⟩) h
            simpa using List.find?_some hf
      · split at h
        · rename_i h1
          split at h
          · exact Or.inl (hstore h)
          · rename_i p hf
            refine hfound p (List.mem_of_find?_eq_some hf) (Or.inr ⟨h1, ?_⟩) h
            have := List.find?_some hf
            simp at this
            exact this.2
        · exact Or.inl (hstore h)

theorem chainStep_next (w : World) (chain : List Nat) (store : Option (List Nat)) (x p : Nat)
    (seen : List Nat) (h : chainStep w chain store x seen = .next p) :
    p ∈ chain ∧ p ∉ seen ∧ matchKeyUsage (w.cert p) KU_KEYCERTSIGN = true ∧ Spec.Accepts w p x ∧
      isRootCa (w.cert p) = false ∧ (w.cert x).blacklisted = false := by
  have hstore : fromStore w store x ≠ .next p := by
    unfold fromStore
    split
    · simp
    · exact verifyWith_not_next _ _ _ _
  have hfound : ∀ q, q ∈ chain → foundIssuer w store x q seen = .next p →
      p ∈ chain ∧ p ∉ seen ∧ matchKeyUsage (w.cert p) KU_KEYCERTSIGN = true ∧ Spec.Accepts w p x ∧
        isRootCa (w.cert p) = false := by
    intro q hq h
    unfold foundIssuer at h
    split at h
    · cases h
    · rename_i hseen
      split at h
      · cases h
      · rename_i hku
        split at h
        · split at h
          · cases h
          · exact absurd h (verifyWith_not_next _ _ _ _)
        · rename_i hroot
          dsimp only at h
          split at h
          · cases h
          · cases h
            exact ⟨hq, hseen, by simpa using hku, certVerify_sound w _ x (by omega), by simpa using hroot⟩
  unfold chainStep at h
  dsimp only at h
  split at h
  · cases h
  · rename_i hbl
    split at h
    · split at h <;> cases h
    · have : p ∈ chain ∧ p ∉ seen ∧ matchKeyUsage (w.cert p) KU_KEYCERTSIGN = true ∧ Spec.Accepts w p x ∧
          isRootCa (w.cert p) = false := by
        unfold searchChain at h
        dsimp only at h
        split at h
        · split at h
          · exact absurd h hstore
          · rename_i q hf
            split at h
            · cases h
            · exact hfound q (List.mem_of_find?_eq_some hf) h
        · split at h
          · split at h
            · exact absurd h hstore
            · rename_i q hf
              exact hfound q (List.mem_of_find?_eq_some hf) h
          · exact absurd h hstore
      obtain ⟨a, b, c, d, e⟩ := this
      exact ⟨a, b, c, d, e, by simpa using hbl⟩

/-! ### C37 -/

/-- Certificates not yet visited. -/
def unseen (chain seen : List Nat) : Nat := (chain.filter (fun p => decide (p ∉ seen))).length

theorem unseen_lt (chain seen : List Nat) (p : Nat) (hp : p ∈ chain) (hs : p ∉ seen) :
    unseen chain (p :: seen) < unseen chain seen := by
  unfold unseen
  rw [← List.countP_eq_length_filter, ← List.countP_eq_length_filter]
  induction chain with
  | nil => simp at hp
  | cons q chain ih =>
    rw [List.countP_cons, List.countP_cons]
    have hmono : List.countP (fun r => decide (r ∉ p :: seen)) chain ≤
        List.countP (fun r => decide (r ∉ seen)) chain := by
      apply List.countP_mono_left
      intro r _ hr
      simp at hr ⊢
      exact hr.2
    by_cases hq : q = p
    · subst hq
      simp [hs]
      simp at hmono
      omega
    · have hp' : p ∈ chain := by
        rcases List.mem_cons.mp hp with e | e
        · exact absurd e.symm hq
        · exact e
      have ih' := ih hp'
      have : decide (q ∉ p :: seen) = decide (q ∉ seen) := by simp [hq]
      rw [this]
      omega

theorem chainLoop_terminates (w : World) (chain : List Nat) (store : Option (List Nat)) :
    ∀ fuel x seen, unseen chain (x :: seen) < fuel → ∃ r, chainLoop w chain store fuel x seen = some r
  | 0, _, _, h => by omega
  | fuel + 1, x, seen, h => by
    unfold chainLoop
    cases hstep : chainStep w chain store x (x :: seen) with
    | done r => exact ⟨r, rfl⟩
    | next p =>
      obtain ⟨hp, hs, _⟩ := chainStep_next w chain store x p _ hstep
      have := unseen_lt chain (x :: seen) p hp hs
      exact chainLoop_terminates w chain store fuel p (x :: seen) (by omega)

/-- C37: for every set of certificates with arbitrary (also cyclic) issuer relations, the walk
ends after at most one visit per certificate of the list, plus the first one. -/
theorem chain_walk_terminates (w : World) (chain : List Nat) (store : Option (List Nat)) (x : Nat) :
    ∃ r, chainLoop w chain store (chain.length + 1) x [] = some r :=
  chainLoop_terminates w chain store _ x [] (by
    have : unseen chain [x] ≤ chain.length := List.length_filter_le _ _
    omega)

/-- More iterations never change the result, so that the bound of the model is the result of the
unbounded loop. -/
theorem chainLoop_stable (w : World) (chain : List Nat) (store : Option (List Nat)) (r : Int) :
    ∀ fuel x seen k, chainLoop w chain store fuel x seen = some r →
      chainLoop w chain store (fuel + k) x seen = some r
  | 0, _, _, _, h => by simp [chainLoop] at h
  | fuel + 1, x, seen, k, h => by
    rw [show fuel + 1 + k = fuel + k + 1 from by omega]
    unfold chainLoop at h ⊢
    cases hstep : chainStep w chain store x (x :: seen) with
    | done r' => rw [hstep] at h; exact h
    | next p =>
      rw [hstep] at h
      exact chainLoop_stable w chain store r fuel p _ k h

/-! ### C35 -/

theorem chainLoop_chain (w : World) (chain anchors : List Nat) :
    ∀ fuel x seen, chainLoop w chain (some anchors) fuel x seen = some 0 →
      isRootCa (w.cert x) = false → Spec.Chain w chain anchors x
  | 0, _, _, h, _ => by simp [chainLoop] at h
  | fuel + 1, x, seen, h, hroot => by
    unfold chainLoop at h
    cases hstep : chainStep w chain (some anchors) x (x :: seen) with
    | done r =>
      rw [hstep] at h
      cases h
      rcases chainStep_done w chain _ x _ hstep with h1 | ⟨l, t, e, ht, ha⟩ | ⟨e, _⟩
      · rw [hroot] at h1; cases h1
      · cases e
        exact .anchored x t ht ha
      · cases e
    | next p =>
      rw [hstep] at h
      obtain ⟨hp, hs, hku, ha, hr, _⟩ := chainStep_next w chain _ x p _ hstep
      exact .link x p hp hku ha (chainLoop_chain w chain anchors fuel p _ h hr)

theorem verifySigChain_zero (w : World) (chain : List Nat) (store : Option (List Nat)) (x : Nat)
    (h : verifySigChain w chain store x = 0) :
    chainLoop w chain store (chain.length + 1) x [] = some 0 := by
  obtain ⟨r, hr⟩ := chain_walk_terminates w chain store x
  unfold verifySigChain at h
  rw [hr] at h ⊢
  simp only [Option.getD_some] at h
  rw [h]

/-- Success of one signed info, in full. -/
theorem verifySigner_sound (w : World) (m : Msg) (anchors : List Nat) (rules : Option Rules) (si : SInfo)
    (h : verifySigner w m (some anchors) rules si = 0) :
    ∃ x ∈ m.certs, (idSame (w.cert x).id si.sig.auth0 = true ∨ idSame (w.cert x).skid si.sig.auth0 = true) ∧
      verifySignature w.cr (w.cert x).pub si.sig ≥ 0 ∧ rulesBad rules (w.cert x) = false ∧
      signingTimeBad si (w.cert x) = false ∧
      (isRootCa (w.cert x) = true ∨ Spec.Chain w m.certs anchors x) := by
  unfold verifySigner at h
  split at h
  · exact absurd h (by decide)
  · rename_i x hf
    split at h
    · exact absurd h (by decide)
    · rename_i h1
      split at h
      · exact absurd h (by decide)
      · rename_i h2
        dsimp only at h
        split at h
        · omega
        · refine ⟨x, List.mem_of_find?_eq_some hf, ?_, by omega, by simpa using h2, by simpa using h1, ?_⟩
          · have := List.find?_some hf
            simpa using this
          · cases hr : isRootCa (w.cert x) with
            | true => exact Or.inl rfl
            | false => exact Or.inr (chainLoop_chain w _ _ _ _ _ (verifySigChain_zero _ _ _ _ h) hr)

/-! ### C38 -/

theorem digestAttrs_ok (w : World) (h : Nat) (si : SInfo) (d : Bytes)
    (hok : (digestAttrs w h si d).1 ≥ 0) :
    (si.authattrs = none ∧ (digestAttrs w h si d).2 = { si with sig := { si.sig with digest := d } }) ∨
    (∃ aa, si.authattrs = some aa ∧ si.msgdigest = some d ∧
      (digestAttrs w h si d).2 = { si with sig := { si.sig with digest := w.hash h (setTag :: aa) } }) := by
  cases ha : si.authattrs with
  | none => left; simp [digestAttrs, ha]
  | some aa =>
    right
    cases hm : si.msgdigest with
    | none => simp [digestAttrs, ha, hm, EKEYREJECTED] at hok
    | some md =>
      simp only [digestAttrs, ha, hm] at hok ⊢
      split at hok
      · simp [EBADMSG] at hok
      · rename_i h1
        split at hok
        · simp [EKEYREJECTED] at hok
        · rename_i h2
          rw [if_neg h1, if_neg h2]
          have : md = d := by simpa using h2
          subst this
          exact ⟨aa, rfl, rfl, rfl⟩

/-- C38 for one signed info whose digest has not been calculated before: success of the digest step
and of the signature check means that the signature covers the content. -/
theorem covers_of_fresh (w : World) (content : Bytes) (si : SInfo) (x : Nat)
    (hne : ∀ h m, w.hash h m ≠ []) (hfresh : si.sig.digest = [])
    (hd : (digest w content si).1 ≥ 0)
    (hv : verifySignature w.cr (w.cert x).pub (digest w content si).2.sig ≥ 0) :
    Spec.Covers w content si x := by
  unfold digest at hd hv
  rw [if_neg (by simp [hfresh])] at hd hv
  cases hh : si.sig.hash with
  | none => rw [hh] at hd; simp [ENOPKG] at hd
  | some h =>
    rw [hh] at hd hv
    dsimp only at hd hv
    obtain ⟨s, m, a, b, _, c, _⟩ := verifySignature_sound _ _ _ hv
    rcases digestAttrs_ok w h si _ hd with ⟨h1, h2⟩ | ⟨aa, h1, h2, h3⟩
    · rw [h2] at a b
      simp only [Sig.message] at b
      rw [if_pos (hne _ _)] at b
      cases b
      exact ⟨h, s, hh, a, Or.inl ⟨h1, c⟩⟩
    · rw [h3] at a b
      simp only [Sig.message] at b
      rw [if_pos (hne _ _)] at b
      cases b
      exact ⟨h, s, hh, a, Or.inr ⟨aa, h1, h2, c⟩⟩

theorem verifyLoop_zero (w : World) (m : Msg) (content : Bytes) (store : Option (List Nat))
    (rules : Option Rules) : ∀ cached sis, (verifyLoop w m content store rules cached sis).1 = 0 →
      cached = 0 ∨ ∃ si ∈ sis, (verifyOne w m content store rules si).1 = 0
  | cached, [], h => Or.inl h
  | cached, si :: rest, h => by
    unfold verifyLoop at h
    dsimp only at h
    split at h
    · rcases verifyLoop_zero w m content store rules _ rest h with e | ⟨s, hs, e⟩
      · exact Or.inl e
      · exact Or.inr ⟨s, List.mem_cons_of_mem _ hs, e⟩
    · split at h
      · rcases verifyLoop_zero w m content store rules _ rest h with e | ⟨s, hs, e⟩
        · split at e
          · exact absurd e (by decide)
          · exact Or.inl e
        · exact Or.inr ⟨s, List.mem_cons_of_mem _ hs, e⟩
      · split at h
        · rename_i h0
          exact Or.inr ⟨si, List.mem_cons_self, h0⟩
        · rename_i h0
          exact absurd h h0

/-- C35 and C38, as far as they hold: if a freshly parsed message verifies against a trust store,
then some signer's signature covers the content, meets the verification rules, and the signer
certificate chains to a trust anchor, unless the signer certificate is itself a self-signed
CA certificate.  Missing for the full claim C35: the last alternative, which is a real acceptance
without any trust anchor, see `verify_accepts_untrusted_root`. -/
theorem verify_sound_partial (w : World) (m : Msg) (content : Bytes) (anchors : List Nat)
    (rules : Option Rules) (hne : ∀ h m, w.hash h m ≠ []) (hdata : m.data = some content)
    (hfresh : ∀ si ∈ m.sinfos, si.sig.digest = [])
    (h : (verify w m (some anchors) rules).1 = 0) :
    ∃ si ∈ m.sinfos, ∃ x ∈ m.certs,
      (idSame (w.cert x).id si.sig.auth0 = true ∨ idSame (w.cert x).skid si.sig.auth0 = true) ∧
      Spec.Covers w content si x ∧ rulesBad rules (w.cert x) = false ∧
      signingTimeBad si (w.cert x) = false ∧
      (Spec.Chain w m.certs anchors x ∨ isRootCa (w.cert x) = true) := by
  unfold verify at h
  split at h
  · simp [EKEYREJECTED] at h
  · rw [hdata] at h
    dsimp only at h
    rcases verifyLoop_zero _ _ _ _ _ _ _ h with e | ⟨si, hsi, e⟩
    · exact absurd e (by decide)
    · unfold verifyOne at e
      dsimp only at e
      split at e
      · omega
      · rename_i hd
        obtain ⟨x, hx, hid, hv, hr, ht, hc⟩ := verifySigner_sound w m anchors rules _ e
        have hsig : (digest w content si).2.sig.auth0 = si.sig.auth0 ∧
            (digest w content si).2.signingTime = si.signingTime := by
          unfold digest
          split
          · exact ⟨rfl, rfl⟩
          · split
            · exact ⟨rfl, rfl⟩
            · unfold digestAttrs
              dsimp only
              repeat' split
              all_goals exact ⟨rfl, rfl⟩
        rw [hsig.1] at hid
        have ht' : signingTimeBad si (w.cert x) = false := by
          unfold signingTimeBad at ht ⊢
          rw [hsig.2] at ht
          exact ht
        refine ⟨si, hsi, x, hx, hid, covers_of_fresh w content si x hne (hfresh si hsi) (by omega) hv, hr,
          ht', hc.symm⟩

/-- C38: the content binding holds for every trust store argument, also NULL. -/
theorem verify_covers (w : World) (m : Msg) (content : Bytes) (store : Option (List Nat))
    (rules : Option Rules) (hne : ∀ h m, w.hash h m ≠ []) (hdata : m.data = some content)
    (hfresh : ∀ si ∈ m.sinfos, si.sig.digest = []) (h : (verify w m store rules).1 = 0) :
    ∃ si ∈ m.sinfos, ∃ x ∈ m.certs, Spec.Covers w content si x := by
  unfold verify at h
  split at h
  · simp [EKEYREJECTED] at h
  · rw [hdata] at h
    dsimp only at h
    rcases verifyLoop_zero _ _ _ _ _ _ _ h with e | ⟨si, hsi, e⟩
    · exact absurd e (by decide)
    · unfold verifyOne at e
      dsimp only at e
      split at e
      · omega
      · unfold verifySigner at e
        split at e
        · simp [ENOKEY] at e
        · rename_i x hf
          split at e
          · simp [EKEYREJECTED] at e
          · split at e
            · simp [EKEYREJECTED] at e
            · dsimp only at e
              split at e
              · omega
              · exact ⟨si, hsi, x, List.mem_of_find?_eq_some hf,
                  covers_of_fresh w content si x hne (hfresh si hsi) (by omega) (by omega)⟩

/-! ### C36 -/

/-- The path by which a certificate is admitted to the store: every link but the last one is
verified; the last one is only named. -/
inductive Spec.NamedPath (w : World) (store : List Nat) : Nat → Prop
  | root (x p : Nat) (hp : p ∈ store) (hroot : isRootCa (w.cert p) = true)
      (hid : (w.cert x).sig.auth0.len ≠ 0 ∧ idSame (w.cert p).id (w.cert x).sig.auth0 = true ∨
        (w.cert x).sig.auth1.len ≠ 0 ∧ idSame (w.cert p).skid (w.cert x).sig.auth1 = true) :
      Spec.NamedPath w store x
  | link (x p : Nat) (hp : p ∈ store) (hku : matchKeyUsage (w.cert p) KU_KEYCERTSIGN = true)
      (h : Spec.Accepts w p x) (hroot : isRootCa (w.cert p) = false) (hc : Spec.NamedPath w store p) :
      Spec.NamedPath w store x

theorem chainLoop_named (w : World) (chain : List Nat) :
    ∀ fuel x seen, chainLoop w chain none fuel x seen = some 0 →
      isRootCa (w.cert x) = false → Spec.NamedPath w chain x
  | 0, _, _, h, _ => by simp [chainLoop] at h
  | fuel + 1, x, seen, h, hroot => by
    unfold chainLoop at h
    cases hstep : chainStep w chain none x (x :: seen) with
    | done r =>
      rw [hstep] at h
      cases h
      rcases chainStep_done w chain _ x _ hstep with h1 | ⟨l, t, e, _⟩ | ⟨_, p, hp, hr, _, _, hid⟩
      · rw [hroot] at h1; cases h1
      · cases e
      · exact .root x p hp hr hid
    | next p =>
      rw [hstep] at h
      obtain ⟨hp, hs, hku, ha, hr, _⟩ := chainStep_next w chain _ x p _ hstep
      exact .link x p hp hku ha hr (chainLoop_named w chain fuel p _ h hr)

/-- C36, as far as it holds: an admitted certificate is a root CA, or a CA with a path to a root in
the store on which every link is verified except the one to the root.  Missing for the full
claim: that last link, see `trustStore_admits_forged`. -/
theorem trustStore_add_partial (w : World) (store : List Nat) (x : Nat)
    (h : trustStoreCheck w store x = 0) :
    isRootCa (w.cert x) = true ∨ (isCa (w.cert x) = true ∧ Spec.NamedPath w store x) := by
  unfold trustStoreCheck at h
  cases hr : isRootCa (w.cert x) with
  | true => exact Or.inl rfl
  | false =>
    rw [hr] at h
    simp only [Bool.false_eq_true, if_false] at h
    cases hca : isCa (w.cert x) with
    | false => rw [hca] at h; simp [EKEYREJECTED] at h
    | true =>
      rw [hca] at h
      simp only [Bool.not_true, Bool.false_eq_true, if_false] at h
      exact Or.inr ⟨rfl, chainLoop_named w _ _ _ _ (verifySigChain_zero _ _ _ _ h) hr⟩

/-! ### Witnesses -/

/-- Identifier with the single byte `b`. -/
def kid1 (b : UInt8) : Kid := ⟨1, [b] ++ List.replicate 191 0⟩

/-- A CA certificate with key `[k]` that claims issuer `iss`. -/
def caCert (k iss : UInt8) (selfSigned : Bool) (s : UInt8) : Cert where
  pub := { key := [k], algo := 2, keyUsage := 0x2006, caPathlen := 0x90 }
  sig := { s := some [s], algo := 2, raw := some [k], auth0 := kid1 iss }
  id := kid1 k
  skid := kid1 k
  rawSubject := some [k]
  rawIssuer := some [iss]
  rawSkid := [k]
  selfSigned := selfSigned

/-- Cryptography in which key `[1]` (the attacker) has signed messages with signature `[1]`, key
`[2]` (the genuine root) has signed only itself with signature `[2]`, and nothing else verifies. -/
def toyCrypto : Crypto where
  supported := fun _ => true
  checkHash := fun _ _ => 0
  prim := fun _ key m s =>
    if key = [1] ∧ s = [1] then 0 else if key = [2] ∧ s = [2] ∧ m = [2] then 0 else -74

/-- Certificates: 1 the attacker's self-signed CA, 2 the genuine root, 3 a CA certificate with the
attacker's key that claims to be issued by the genuine root but carries a meaningless signature. -/
def toyWorld : World where
  cert := fun n => if n = 1 then caCert 1 1 true 1 else if n = 2 then caCert 2 2 true 2
    else { caCert 1 2 false 9 with id := kid1 3, skid := kid1 3, rawSkid := [3] }
  cr := toyCrypto
  hash := fun _ m => 0xaa :: m
  clock := .unsupported

/-- In the toy world no key of the genuine root accepts any certificate other than the root. -/
theorem toy_root_accepts (x : Nat) (hx : x ≠ 2) : ¬ Spec.Accepts toyWorld 2 x := by
  rintro ⟨⟨s, m, h1, h2, h3⟩, _⟩
  have hs : s ≠ [2] ∨ m ≠ [2] := by
    unfold toyWorld at h1 h2
    by_cases h : x = 1
    · subst h
      simp [caCert] at h1
      left; rw [← h1]; decide
    · simp [h, hx, caCert] at h1
      left; rw [← h1]; decide
  unfold toyWorld toyCrypto at h3
  simp [caCert] at h3
  rcases hs with hs | hs <;> simp [hs] at h3

/-- The message of the attacker: signed by certificate 1, with no authenticated attributes. -/
def toyMsg : Msg :=
  ⟨[1], true, some [0x42], [⟨{ s := some [1], algo := 2, hash := some 0, auth0 := kid1 1 }, none, none, none⟩]⟩

/-- C35 is false: a message that carries the attacker's own self-signed CA certificate as signer
verifies successfully against a trust store that holds only the genuine root, although the signer
does not chain to any anchor of the trust store. -/
theorem verify_accepts_untrusted_root :
    (verify toyWorld toyMsg (some [2]) none).1 = 0 ∧ ¬ Spec.Chain toyWorld toyMsg.certs [2] 1 := by
  refine ⟨by decide +kernel, ?_⟩
  intro h
  generalize hx : (1 : Nat) = x at h
  have hx1 : x = 1 := hx.symm
  clear hx
  induction h with
  | anchored x t ht h =>
    simp at ht
    subst ht hx1
    exact toy_root_accepts 1 (by decide) h
  | link x p hp hku h hc ih =>
    simp [toyMsg] at hp
    exact ih hp

/-- C36 is false: certificate 3, whose signature nobody made, is admitted to the trust store that
holds only the genuine root. -/
theorem trustStore_admits_forged :
    trustStoreCheck toyWorld [2] 3 = 0 ∧ isRootCa (toyWorld.cert 3) = false ∧
      ¬ Spec.Accepts toyWorld 2 3 :=
  ⟨by decide +kernel, by decide +kernel, toy_root_accepts 3 (by decide)⟩

/-- A message whose signed info was signed over the content without authenticated attributes (by key
1) and to which somebody added attributes with a wrong message digest. -/
def replayMsg : Msg :=
  ⟨[1], true, some [0x42],
    [⟨{ s := some [1], algo := 2, hash := some 0, auth0 := kid1 1 }, some [0x30], some [0x00, 0x00], none⟩]⟩

/-- Cryptography in which exactly the digest of the content `42` has been signed by key 1. -/
def replayWorld : World :=
  { toyWorld with
    cr := { toyCrypto with prim := fun _ key m s =>
      if key = [1] ∧ s = [1] ∧ m = [0xaa, 0x42] then 0 else -74 } }

/-- C38 is false for repeated verification: the first call refuses the message (the message digest
attribute does not match), but leaves the digest of the content behind, and the second call on
the same message object accepts it, although the signature does not cover the attributes. -/
theorem verify_again_accepts :
    (verify replayWorld replayMsg none none).1 = -EKEYREJECTED ∧
    (verify replayWorld (verify replayWorld replayMsg none none).2 none none).1 = 0 ∧
    ¬ ∃ si ∈ replayMsg.sinfos, ∃ x ∈ replayMsg.certs, Spec.Covers replayWorld [0x42] si x := by
  refine ⟨by decide +kernel, by decide +kernel, ?_⟩
  rintro ⟨si, hsi, x, _, h, s, hh, _, h2⟩
  simp [replayMsg] at hsi
  subst hsi
  rcases h2 with ⟨h2, _⟩ | ⟨aa, h2, h3, _⟩
  · simp at h2
  · simp [replayWorld, toyWorld] at h3

/-- Non-vacuity of the positive theorems: a message signed by an intermediate that the genuine root
has signed verifies, and its hypotheses hold. -/
def goodWorld : World :=
  { toyWorld with
    cert := fun n => if n = 1 then { caCert 1 2 false 2 with sig := { s := some [2], algo := 2, raw := some [2], auth0 := kid1 2 } }
      else caCert 2 2 true 2 }

example : (verify goodWorld toyMsg (some [2]) none).1 = 0 ∧ isRootCa (goodWorld.cert 1) = false ∧
    (∀ si ∈ toyMsg.sinfos, si.sig.digest = []) := by
  refine ⟨by decide +kernel, by decide +kernel, by decide +kernel⟩
example : trustStoreCheck goodWorld [2] 1 = 0 := by decide +kernel
example : chainLoop toyWorld [1, 2, 3] (some [2]) 4 3 [] = some (-74) := by decide +kernel

end LC.Pkcs7
