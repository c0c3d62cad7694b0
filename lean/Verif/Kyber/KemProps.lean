import Verif.Kyber.Correct
/-
C45, C46, C47: ML-KEM.  The hash functions are arbitrary functions with the right output lengths.
-/
namespace LC.Kyber

/-- Output lengths of the hash functions. -/
structure Fns.Ok (f : Fns) : Prop where
  G : ∀ x, (f.G x).length = 64
  H : ∀ x, (f.H x).length = 32
  rkprf : ∀ k c n, (f.rkprf k c n).length = n

/-! ### Parts of a decapsulation key (FIPS 203, algorithm 18, lines 1-4) -/

def Spec.dkPke (p : Par) (dk : List Byte) : List Byte := dk.take (384 * p.k)
def Spec.ek (p : Par) (dk : List Byte) : List Byte := (dk.drop (384 * p.k)).take (384 * p.k + 32)
def Spec.h (p : Par) (dk : List Byte) : List Byte := (dk.drop (768 * p.k + 32)).take 32
def Spec.z (p : Par) (dk : List Byte) : List Byte := (dk.drop (768 * p.k + 64)).take 32

/-! ### Lemmas -/

theorem cmov_one : ∀ (r x : List Byte), r.length = x.length → cmov r x 1 = x
  | [], [], _ => rfl
  | [], _ :: _, h => by cases h
  | _ :: _, [], h => by cases h
  | a :: r, b :: x, h => by
    have ih := cmov_one r x (by simpa using h)
    unfold cmov at ih ⊢
    rw [List.zipWith_cons_cons, ih]
    congr 1
    rw [show (0 : Byte) - 1 = 255 by decide]
    apply UInt8.toBitVec_inj.1
    simp only [UInt8.toBitVec_xor, UInt8.toBitVec_and]
    rw [show (255 : UInt8).toBitVec = BitVec.allOnes 8 by decide, BitVec.allOnes_and, ← BitVec.xor_assoc, BitVec.xor_self, BitVec.zero_xor]

theorem cmov_zero : ∀ (r x : List Byte), r.length = x.length → cmov r x 0 = r
  | [], [], _ => rfl
  | [], _ :: _, h => by cases h
  | _ :: _, [], h => by cases h
  | a :: r, b :: x, h => by
    have ih := cmov_zero r x (by simpa using h)
    unfold cmov at ih ⊢
    rw [List.zipWith_cons_cons, ih]
    congr 1
    rw [show (0 : Byte) - 0 = 0 by decide]
    simp

/-- Encryption under a key of the right length returns no error. -/
theorem indcpaEnc_no_err (f : Fns) (p : Par) (fuel : Nat) (msg pk coins : List Byte) (h : pk.length = p.pkLen) (e : Int) :
    indcpaEnc f p fuel msg pk coins ≠ .err e := by
  unfold indcpaEnc
  rw [if_pos (modulus_check_vacuous p pk h)]
  cases genMatrix f fuel p.k ((pk.drop (384 * p.k)).take 32) true <;> exact fun h => by cases h

theorem ivSk_iff (f : Fns) (p : Par) (sk : List Byte) : ivSk f p sk = true ↔ Spec.h p sk = f.H (Spec.ek p sk) := by
  unfold ivSk
  rw [beq_iff_eq, memcmpB_eq]
  unfold Spec.h Spec.ek Par.skLen Par.pkLen
  rw [show 384 * p.k + (384 * p.k + 32) + 64 - 64 = 768 * p.k + 32 by omega]

/-! ### C46 -/

/-- **C46 (hash check)**: a decapsulation key whose stored hash does not match its public key is refused. -/
theorem dec_refuses_inconsistent_key (f : Fns) (p : Par) (fuel : Nat) (ct sk : List Byte) (h : Spec.h p sk ≠ f.H (Spec.ek p sk)) :
    kemDec f p fuel ct sk = .err einval := by
  unfold kemDec
  rw [if_neg (fun h' => h ((ivSk_iff f p sk).1 h'))]

/-- **C46 (implicit rejection)**: for every consistent decapsulation key and every ciphertext, let `m'` be
the decrypted message, `(K', r') = G(m' || h)` and `c'` the re-encryption.  Decapsulation returns `K'` if
`c' = ct`, and `J(z || ct)` otherwise; no other output is possible, and no error. -/
theorem implicit_rejection (f : Fns) (hf : f.Ok) (p : Par) (fuel : Nat) (ct sk c' : List Byte)
    (h : Spec.h p sk = f.H (Spec.ek p sk))
    (hc : indcpaEnc f p fuel (indcpaDec p ct (Spec.dkPke p sk)) (Spec.ek p sk)
      ((f.G (indcpaDec p ct (Spec.dkPke p sk) ++ Spec.h p sk)).drop 32) = .ok c') :
    kemDec f p fuel ct sk = .ok (if ct = c' then (f.G (indcpaDec p ct (Spec.dkPke p sk) ++ Spec.h p sk)).take 32
      else f.rkprf (Spec.z p sk) ct 32) := by
  unfold kemDec
  rw [if_pos ((ivSk_iff f p sk).2 h)]
  have eh : (sk.drop (p.skLen - 64)).take 32 = Spec.h p sk := by
    unfold Spec.h Par.skLen Par.pkLen
    rw [show 384 * p.k + (384 * p.k + 32) + 64 - 64 = 768 * p.k + 32 by omega]
  have ez : (sk.drop (p.skLen - 32)).take 32 = Spec.z p sk := by
    unfold Spec.z Par.skLen Par.pkLen
    rw [show 384 * p.k + (384 * p.k + 32) + 64 - 32 = 768 * p.k + 64 by omega]
  have ek : (sk.drop (384 * p.k)).take p.pkLen = Spec.ek p sk := rfl
  have ed : sk.take (384 * p.k) = Spec.dkPke p sk := rfl
  rw [eh, ez, ek, ed]
  dsimp only
  rw [hc]
  dsimp only
  have hl : (f.rkprf (Spec.z p sk) ct 32).length = ((f.G (indcpaDec p ct (Spec.dkPke p sk) ++ Spec.h p sk)).take 32).length := by
    rw [hf.rkprf, List.length_take, hf.G]; rfl
  by_cases e : ct = c'
  · rw [if_pos e, (memcmpB_eq true false ct c').2 e]
    exact congrArg Res.ok (cmov_one _ _ hl)
  · have h1 := memcmpB_le true false ct c'
    have h2 : memcmpB true false ct c' ≠ 0 := fun h => e ((memcmpB_eq true false ct c').1 h)
    rw [if_neg e, show memcmpB true false ct c' = 1 by omega]
    exact congrArg Res.ok (cmov_zero _ _ hl)

/-- **C46 (no error)**: for a key of the right length, the only error is the inconsistent hash. -/
theorem dec_error_iff (f : Fns) (p : Par) (fuel : Nat) (ct sk : List Byte) (hl : sk.length = p.skLen) (e : Int) :
    kemDec f p fuel ct sk = .err e ↔ (e = einval ∧ Spec.h p sk ≠ f.H (Spec.ek p sk)) := by
  constructor
  · intro h
    by_cases hh : Spec.h p sk = f.H (Spec.ek p sk)
    · exfalso
      unfold kemDec at h
      rw [if_pos ((ivSk_iff f p sk).2 hh)] at h
      dsimp only at h
      split at h
      · cases h
      · rename_i he
        refine indcpaEnc_no_err f p fuel _ _ _ ?_ _ he
        rw [List.length_take, List.length_drop, hl]
        unfold Par.skLen
        omega
      · cases h
    · rw [dec_refuses_inconsistent_key f p fuel ct sk hh] at h
      cases h
      exact ⟨rfl, hh⟩
  · rintro ⟨rfl, h⟩
    exact dec_refuses_inconsistent_key f p fuel ct sk h

/-! ### C45 -/

/-- The parts of a generated key. -/
theorem key_parts {p : Par} {dkp ek h z : List Byte} (h1 : dkp.length = 384 * p.k) (h2 : ek.length = p.pkLen) (h3 : h.length = 32) (h4 : z.length = 32) :
    (dkp ++ ek ++ h ++ z).length = p.skLen ∧
    Spec.dkPke p (dkp ++ ek ++ h ++ z) = dkp ∧ Spec.ek p (dkp ++ ek ++ h ++ z) = ek ∧ Spec.h p (dkp ++ ek ++ h ++ z) = h ∧
      Spec.z p (dkp ++ ek ++ h ++ z) = z := by
  have h2' : ek.length = 384 * p.k + 32 := h2
  refine ⟨by simp only [List.length_append, h1, h2, h3, h4]; unfold Par.skLen; omega, ?_, ?_, ?_, ?_⟩
  · unfold Spec.dkPke
    rw [List.append_assoc, List.append_assoc, List.take_left' h1]
  · unfold Spec.ek
    rw [List.append_assoc, List.append_assoc, List.drop_left' h1, List.take_left' h2']
  · unfold Spec.h
    rw [List.append_assoc (dkp ++ ek), List.drop_left' (by rw [List.length_append, h1, h2']; omega), List.take_left' h3]
  · unfold Spec.z
    rw [List.drop_left' (by rw [List.length_append, List.length_append, h1, h2', h3]; omega), List.take_of_length_le (by omega)]

/-- What a successful key generation consists of. -/
theorem keypair_ok {f : Fns} {p : Par} {fuel : Nat} {seed pk sk : List Byte} (h : keypairFromSeed f p fuel seed = .ok pk sk) :
    seed.length = 64 ∧ ∃ dkp, indcpaKeypair f p fuel (seed.take 32) = some (pk, dkp) ∧ sk = dkp ++ pk ++ f.H pk ++ (seed.drop 32).take 32 := by
  unfold keypairFromSeed at h
  split at h
  · cases h
  · rename_i hl
    refine ⟨Decidable.not_not.1 hl, ?_⟩
    cases hk : indcpaKeypair f p fuel (seed.take 32) with
    | none => rw [hk] at h; cases h
    | some kp =>
      rw [hk] at h
      cases h
      exact ⟨kp.2, rfl, rfl⟩

/-- **C45**: for every seed and every 32 random bytes, encapsulation under the generated key succeeds; if
the noise of that encapsulation is small, decapsulation returns the same shared secret.  Decapsulation of
any other string returns 32 bytes, never an error. -/
theorem decaps_correct (f : Fns) (hf : f.Ok) (p : Par) (hp : p.Ok) (fuel : Nat) (seed m pk sk : List Byte) (hm : m.length = 32)
    (hkp : keypairFromSeed f p fuel seed = .ok pk sk) :
    pk.length = p.pkLen ∧ sk.length = p.skLen ∧
    (∃ ct ss, kemEnc f p fuel pk m = .ok ct ss ∧ ct.length = p.ctLen ∧ ss.length = 32 ∧
      (NoiseSmall f p fuel ((f.G (seed.take 32 ++ [UInt8.ofNat p.k])).drop 32) pk m ((f.G (m ++ f.H pk)).drop 32) →
        kemDec f p fuel ct sk = .ok ss)) ∧
    ∀ ct', ∃ ss', kemDec f p fuel ct' sk = .ok ss' ∧ ss'.length = 32 := by
  obtain ⟨hl, dkp, hi, rfl⟩ := keypair_ok hkp
  obtain ⟨c1, c2, ct, c3, c4, c5⟩ := indcpa_correct f p hp fuel (seed.take 32) m ((f.G (m ++ f.H pk)).drop 32) pk dkp hm (hf.G _) hi
  obtain ⟨k0, k1, k2, k3, k4⟩ := key_parts (p := p) c2 c1 (hf.H pk) (show ((seed.drop 32).take 32).length = 32 by
    rw [List.length_take, List.length_drop, hl]; rfl)
  have hcons : Spec.h p (dkp ++ pk ++ f.H pk ++ (seed.drop 32).take 32) = f.H (Spec.ek p (dkp ++ pk ++ f.H pk ++ (seed.drop 32).take 32)) := by
    rw [k2, k3]
  refine ⟨c1, k0, ⟨ct, (f.G (m ++ f.H pk)).take 32, ?_, c4, by rw [List.length_take, hf.G]; rfl, ?_⟩, ?_⟩
  · unfold kemEnc
    dsimp only
    rw [c3]
  · intro hn
    have hd := c5 hn
    have := implicit_rejection f hf p fuel ct _ ct hcons (by rw [k1, k2, k3, hd]; exact c3)
    rw [this, if_pos rfl, k1, k3, hd]
  · intro ct'
    have hm' : (indcpaDec p ct' dkp).length = 32 := by
      rw [indcpaDec_eq]
      unfold polyTomsg
      rw [List.length_map, List.length_range]
    obtain ⟨-, -, c', e1, -, -⟩ := indcpa_correct f p hp fuel (seed.take 32) (indcpaDec p ct' dkp)
      ((f.G (indcpaDec p ct' dkp ++ f.H pk)).drop 32) pk dkp hm' (hf.G _) hi
    refine ⟨_, implicit_rejection f hf p fuel ct' _ c' hcons (by rw [k1, k2, k3]; exact e1), ?_⟩
    split
    · rw [List.length_take, hf.G]; rfl
    · exact hf.rkprf _ _ _

/-- **C45 with the KDF** (`lc_kyber_enc_kdf`, `lc_kyber_dec_kdf`): both sides derive the same key of any
requested length. -/
theorem decaps_kdf_correct (f : Fns) (hf : f.Ok) (p : Par) (hp : p.Ok) (fuel : Nat) (seed m pk sk : List Byte) (hm : m.length = 32) (n : Nat)
    (hkp : keypairFromSeed f p fuel seed = .ok pk sk)
    (hn : NoiseSmall f p fuel ((f.G (seed.take 32 ++ [UInt8.ofNat p.k])).drop 32) pk m ((f.G (m ++ f.H pk)).drop 32)) :
    ∃ ct ss, kemEncKdf f p fuel pk m n = .ok ct ss ∧ kemDecKdf f p fuel ct sk n = .ok ss := by
  obtain ⟨-, -, ⟨ct, ss, h1, -, -, h2⟩, -⟩ := decaps_correct f hf p hp fuel seed m pk sk hm hkp
  refine ⟨ct, f.kmac ss ct n, ?_, ?_⟩
  · unfold kemEncKdf; rw [h1]
  · unfold kemDecKdf; rw [h2 hn]

/-- A seed of another length is refused. -/
theorem keypair_seed_length (f : Fns) (p : Par) (fuel : Nat) (seed : List Byte) (h : seed.length ≠ 64) :
    keypairFromSeed f p fuel seed = .err einval := by
  unfold keypairFromSeed; rw [if_pos h]

/-! ### C47 -/

/-- The modulus check of FIPS 203, section 7.2: all coefficients of the encapsulation key are below `q`. -/
def Spec.modulusOk (p : Par) (ek : List Byte) : Prop :=
  ∀ i < p.k, ∀ x < 256, Spec.byteDecode 12 ((ek.drop (384 * i)).take 384) x < 3329

/-- **C47 is false for the code**: encapsulation refuses no key of the right length, although there are
keys of every size that violate the modulus check. -/
theorem modulus_check_claim_false (p : Par) (hp : p.Ok) :
    (∃ ek : List Byte, ek.length = p.pkLen ∧ ¬ Spec.modulusOk p ek) ∧
    ∀ (f : Fns) (fuel : Nat) (ek m : List Byte), ek.length = p.pkLen → ∀ e, kemEnc f p fuel ek m ≠ .err e := by
  refine ⟨⟨List.replicate p.pkLen 0xff, List.length_replicate, fun h => ?_⟩, ?_⟩
  · rcases hp with rfl | rfl | rfl <;>
    · have h0 := h 0 (by decide) 0 (by decide)
      revert h0
      decide +kernel
  · intro f fuel ek m hl e h
    unfold kemEnc at h
    dsimp only at h
    split at h
    · cases h
    · rename_i he
      exact indcpaEnc_no_err f p fuel _ _ _ hl _ he
    · cases h

/-- **C47 (the half that holds)**: every key that passes the modulus check is accepted.  Missing: keys that
do not pass it are accepted as well. -/
theorem modulus_check_partial (f : Fns) (p : Par) (fuel : Nat) (ek m : List Byte) (hl : ek.length = p.pkLen) (_h : Spec.modulusOk p ek) (e : Int) :
    kemEnc f p fuel ek m ≠ .err e := by
  intro h
  unfold kemEnc at h
  dsimp only at h
  split at h
  · cases h
  · rename_i he
    exact indcpaEnc_no_err f p fuel _ _ _ hl _ he
  · cases h

/-! ### The hypotheses can be met -/

/-- Hash functions with constant output. -/
def f0 : Fns where
  H := fun _ => List.replicate 32 0
  G := fun _ => List.replicate 64 0
  prf := fun _ _ n => List.replicate n 0
  rkprf := fun _ _ n => List.replicate n 1
  xof := fun _ i => UInt8.ofNat i
  kmac := fun _ _ n => List.replicate n 2

theorem f0_ok : f0.Ok := ⟨fun _ => List.length_replicate, fun _ => List.length_replicate, fun _ _ _ => List.length_replicate⟩

theorem at8_replicate (n i : Nat) : at8 (List.replicate n 0) i = 0 := by
  unfold at8
  rw [List.getD_eq_getElem?_getD, List.getElem?_replicate]
  split <;> rfl

theorem loadLe_replicate (n off : Nat) : ∀ k, loadLe (List.replicate n 0) off k = 0
  | 0 => rfl
  | k + 1 => by unfold loadLe; rw [loadLe_replicate n off k, at8_replicate, Nat.zero_shiftLeft]; rfl

theorem getnoise_f0 (eta : Nat) (seed : List Byte) (nonce x : Nat) : getnoise f0 eta seed nonce x = 0 := by
  unfold getnoise
  show (if eta = 3 then cbd3 (List.replicate 192 0) else cbd2 (List.replicate 128 0)) x = 0
  split
  · unfold cbd3; dsimp only; rw [loadLe_replicate]; simp [i16]
  · unfold cbd2; dsimp only; rw [loadLe_replicate]; simp [i16]

theorem sum_zero {g : Nat → Int} (h : ∀ i, g i = 0) : ∀ k, ((List.range k).map g).sum = 0
  | 0 => rfl
  | k + 1 => by rw [List.range_succ, List.map_append, List.sum_append, sum_zero h k]; simp [h]

theorem negacyclic_zero (a b : Poly) (h : ∀ i, a i = 0) (x : Nat) : Spec.negacyclic a b x = 0 := by
  unfold Spec.negacyclic
  exact sum_zero (fun i => by rw [h i]; split <;> simp) _

theorem err_small (d : Nat) (hd : d = 4 ∨ d = 5) (x : Int) : ∃ n : Int, -831 ≤ n ∧ n ≤ 831 ∧ (n - Spec.err d x) % 3329 = 0 := by
  have h := compress_error d (by rcases hd with rfl | rfl <;> decide) (Spec.residue x) (residue_lt x)
  have hx : (Spec.residue x : Int) = x % 3329 := by unfold Spec.residue; omega
  have hy := decompress_le d (compress_lt d (Spec.residue x))
  have hlt := residue_lt x
  unfold Spec.err
  generalize Spec.decompress d (Spec.compress d (Spec.residue x)) = y at *
  generalize Spec.residue x = r at *
  unfold Spec.dist at h
  have hb : (2 * 3329 + 2 ^ (d + 1)) / (2 * 2 ^ (d + 1)) ≤ 104 := by rcases hd with rfl | rfl <;> decide
  dsimp only at h
  refine ⟨if ((y + 3329 - r) % 3329 : Nat) ≤ 1664 then (((y + 3329 - r) % 3329 : Nat) : Int) else (((y + 3329 - r) % 3329 : Nat) : Int) - 3329, ?_⟩
  split <;> omega

/-- A key pair and an encapsulation with small noise: the hypotheses of C45 are met. -/
theorem f0_case : ∃ pk sk, keypairFromSeed f0 p512 3 (List.replicate 64 7) = .ok pk sk ∧
    ∀ m, NoiseSmall f0 p512 3 ((f0.G ((List.replicate 64 7).take 32 ++ [UInt8.ofNat p512.k])).drop 32) pk m ((f0.G (m ++ f0.H pk)).drop 32) := by
  have h : (genMatrix f0 3 2 ((f0.G ((List.replicate 64 7).take 32 ++ [UInt8.ofNat 2])).take 32) false).isSome = true := by decide +kernel
  obtain ⟨A, hA⟩ := Option.isSome_iff_exists.1 h
  have hk : ∃ kp, indcpaKeypair f0 p512 3 ((List.replicate 64 7).take 32) = some kp := by
    unfold indcpaKeypair
    dsimp only
    rw [hA]
    exact ⟨_, rfl⟩
  obtain ⟨kp, hk⟩ := hk
  refine ⟨kp.1, kp.2 ++ kp.1 ++ f0.H kp.1 ++ ((List.replicate 64 7).drop 32).take 32, ?_, ?_⟩
  · unfold keypairFromSeed
    rw [if_neg (by rw [List.length_replicate]; decide), hk]
  · intro m
    have hz : ∀ x, Spec.noise p512.k (fun i => getnoise f0 p512.eta1 ((f0.G ((List.replicate 64 7).take 32 ++ [UInt8.ofNat p512.k])).drop 32) i)
      (fun i => getnoise f0 p512.eta1 ((f0.G ((List.replicate 64 7).take 32 ++ [UInt8.ofNat p512.k])).drop 32) (p512.k + i))
      (fun i => getnoise f0 p512.eta1 ((f0.G (m ++ f0.H kp.1)).drop 32) i) (fun i => getnoise f0 2 ((f0.G (m ++ f0.H kp.1)).drop 32) (p512.k + i))
      (fun i y => Spec.err p512.du (uOf f0 p512 3 kp.1 ((f0.G (m ++ f0.H kp.1)).drop 32) i y))
      (getnoise f0 2 ((f0.G (m ++ f0.H kp.1)).drop 32) (2 * p512.k))
      (fun y => Spec.err p512.dv (vOf f0 p512 3 kp.1 m ((f0.G (m ++ f0.H kp.1)).drop 32) y)) x =
        Spec.err p512.dv (vOf f0 p512 3 kp.1 m ((f0.G (m ++ f0.H kp.1)).drop 32) x) := by
      intro x
      unfold Spec.noise
      rw [sum_zero (fun j => negacyclic_zero _ _ (fun i => getnoise_f0 _ _ _ _) _), sum_zero (fun j => negacyclic_zero _ _ (fun i => getnoise_f0 _ _ _ _) _),
        getnoise_f0]
      dsimp only
      omega
    have he := fun x => err_small p512.dv (Or.inl rfl) (vOf f0 p512 3 kp.1 m ((f0.G (m ++ f0.H kp.1)).drop 32) x)
    refine ⟨fun x => (he x).choose, fun x _ => ?_⟩
    rw [hz x]
    exact (he x).choose_spec

end LC.Kyber
