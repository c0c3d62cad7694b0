import Verif.Dilithium.Correct
import Verif.Dilithium.Witness
/-!
# C74: which attempt becomes the signature; masks are not reused
-/
namespace LC.Dilithium
open LC.Kyber (Poly Byte)

/-- The attempts in order: the first one that is not rejected, given the answers of all of them
(`none`: the challenge sampler did not end within the bound; `some none`: rejected). -/
def Spec.FirstAccepted (attempt : Nat → Option (Option (List Byte))) (bound : Nat) (sig : List Byte) : Prop :=
  ∃ j < bound, attempt j = some (some sig) ∧ ∀ i < j, attempt i = some none

theorem signLoop_iff {p : Params} {e : Env} {fuel : Nat} {mat : Nat → Nat → Poly} {s1 s2 t0 : Nat → Poly} {mu rp sig : List Byte} (n a : Nat) :
    signLoop p e fuel mat s1 s2 t0 mu rp n (a % 65536) = some sig ↔
      Spec.FirstAccepted (fun j => signAttempt p e fuel mat s1 s2 t0 mu rp ((a + j) % 65536)) n sig := by
  induction n generalizing a with
  | zero => exact ⟨fun h => (by cases h), fun ⟨j, h, _⟩ => absurd h (Nat.not_lt_zero j)⟩
  | succ n ih =>
    unfold signLoop
    cases ha : signAttempt p e fuel mat s1 s2 t0 mu rp (a % 65536) with
    | none =>
      refine ⟨fun h => (by cases h), fun ⟨j, _, h1, h2⟩ => ?_⟩
      cases j with
      | zero => dsimp only at h1; rw [Nat.add_zero, ha] at h1; cases h1
      | succ j => have := h2 0 (Nat.succ_pos j); dsimp only at this; rw [Nat.add_zero, ha] at this; cases this
    | some r =>
      rw [Option.bind_some]
      cases r with
      | some s =>
        dsimp only
        constructor
        · intro h
          cases h
          exact ⟨0, Nat.succ_pos n, ha, fun i h => absurd h (Nat.not_lt_zero i)⟩
        · rintro ⟨j, _, h1, h2⟩
          cases j with
          | zero => dsimp only at h1; rw [Nat.add_zero, ha] at h1; cases h1; rfl
          | succ j => have := h2 0 (Nat.succ_pos j); dsimp only at this; rw [Nat.add_zero, ha] at this; cases this
      | none =>
        dsimp only
        have e1 : (a % 65536 + 1) % 65536 = (a + 1) % 65536 := by omega
        rw [e1, ih (a + 1)]
        constructor
        · rintro ⟨j, hj, h1, h2⟩
          refine ⟨j + 1, Nat.succ_lt_succ hj, ?_, ?_⟩
          · dsimp only at h1 ⊢; rw [show a + (j + 1) = a + 1 + j by omega]; exact h1
          · intro i hi
            cases i with
            | zero => exact ha
            | succ i =>
              have := h2 i (by omega)
              dsimp only at this ⊢
              rw [show a + (i + 1) = a + 1 + i by omega]; exact this
        · rintro ⟨j, hj, h1, h2⟩
          cases j with
          | zero => dsimp only at h1; rw [Nat.add_zero, ha] at h1; cases h1
          | succ j =>
            refine ⟨j, by omega, ?_, ?_⟩
            · dsimp only at h1 ⊢; rw [show a + 1 + j = a + (j + 1) by omega]; exact h1
            · intro i hi
              have := h2 (i + 1) (by omega)
              dsimp only at this ⊢
              rw [show a + 1 + i = a + (i + 1) by omega]; exact this

/-- **C74.** The signature is the result of the first attempt that is not rejected; attempt number `j`
uses the counter `j` (modulo `2^16`). -/
theorem sign_first_accepted (p : Params) (e : Env) (fuel : Nat) (mat : Nat → Nat → Poly) (sk mu rnd sig : List Byte) :
    signInternal p e fuel mat sk mu rnd = some sig ↔
      Spec.FirstAccepted (fun j => signAttempt p e fuel mat (skS1 p sk) (skS2 p sk) (skT0 p sk) mu
        (squeeze (e.shake256 (slice sk 32 32 ++ rnd ++ mu)) 0 64) (j % 65536)) fuel sig := by
  unfold signInternal
  dsimp only
  have := signLoop_iff (p := p) (e := e) (fuel := fuel) (mat := mat) (s1 := skS1 p sk) (s2 := skS2 p sk) (t0 := skT0 p sk) (mu := mu)
    (rp := squeeze (e.shake256 (slice sk 32 32 ++ rnd ++ mu)) 0 64) (sig := sig) fuel 0
  rw [Nat.zero_mod] at this
  rw [this]
  simp only [Nat.zero_add]

/-- The seeds of the masking polynomials of attempt `a`: ExpandMask of FIPS 204 with the counter
`kappa = l a`: SHAKE256 of `rho'` and the 16 bit number `kappa + r`. -/
def Spec.maskSeed (l : Nat) (rp : List Byte) (a r : Nat) : List Byte :=
  rp ++ [UInt8.ofNat ((l * a + r) % 256), UInt8.ofNat ((l * a + r) / 256)]

/-- **C74.** The masks of attempt `a` are expanded from these seeds. -/
theorem mask_is_expandMask (p : Params) (e : Env) (rp : List Byte) (a r : Nat) (h : p.l * a + r < 65536) :
    signY p e rp a r = polyzUnpack p.gamma1 (squeeze (e.shake256 (Spec.maskSeed p.l rp a r)) 0 680) := by
  unfold signY uniformGamma1 Spec.maskSeed
  rw [Nat.mod_eq_of_lt h]
  generalize p.l * a + r = x at *
  have : le16 x = [UInt8.ofNat (x % 256), UInt8.ofNat (x / 256)] := by
    unfold le16 LC.Kyber.b8
    congr 1
    exact UInt8.toNat_inj.mp (by rw [UInt8.toNat_ofNat', UInt8.toNat_ofNat']; omega)
  rw [this]

/-- **C74.** Different attempts, and different components of one attempt, never share a seed while
`l (a + 1)` stays below `2^16`, which is at least 9362 attempts. -/
theorem mask_seeds_distinct (l : Nat) (rp : List Byte) (a b r t : Nat) (hr : r < l) (ht : t < l) (ha : l * (a + 1) ≤ 65536)
    (hb : l * (b + 1) ≤ 65536) (h : Spec.maskSeed l rp a r = Spec.maskSeed l rp b t) : a = b ∧ r = t := by
  unfold Spec.maskSeed at h
  have h := List.append_cancel_left h
  have ha' : l * a + r < 65536 := by rw [Nat.mul_add, Nat.mul_one] at ha; omega
  have hb' : l * b + t < 65536 := by rw [Nat.mul_add, Nat.mul_one] at hb; omega
  have e : l * a + r = l * b + t := by
    generalize l * a + r = x at *
    generalize l * b + t = y at *
    injection h with h1 h2
    injection h2 with h2 _
    have h1 := congrArg UInt8.toNat h1
    have h2 := congrArg UInt8.toNat h2
    rw [UInt8.toNat_ofNat', UInt8.toNat_ofNat'] at h1 h2
    omega
  have hab : a = b := by
    have h1 : (l * a + r) / l = a := by rw [Nat.mul_add_div (by omega), Nat.div_eq_of_lt hr, Nat.add_zero]
    have h2 : (l * b + t) / l = b := by rw [Nat.mul_add_div (by omega), Nat.div_eq_of_lt ht, Nat.add_zero]
    rw [← h1, ← h2, e]
  refine ⟨hab, ?_⟩
  rw [hab] at e
  omega

/-- Room for 9362 attempts at least in each parameter set. -/
example : mldsa44.l * (16383 + 1) ≤ 65536 ∧ mldsa65.l * (13106 + 1) ≤ 65536 ∧ mldsa87.l * (9361 + 1) ≤ 65536 := by decide

end LC.Dilithium
