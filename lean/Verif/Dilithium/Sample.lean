import Verif.Dilithium.Model
import Verif.Dilithium.Hint
import Verif.Kyber.Sample
/-
C58: samplers of ML-DSA.  The XOF (SHAKE128 or SHAKE256 of the seed and nonce) is its output stream
`s : Nat → Byte`; a call of `lc_hash_final` delivers the next bytes of it.
-/
namespace LC.Dilithium
open LC.Kyber (Poly Byte upd at8 b8 loadLe)

/-! ### Model -/

/-- Loop of `rej_uniform`, `dilithium_service_helpers.h:46-54`: the values written from `a[ctr]` on. -/
def rejUniformLoop (len : Nat) (buf : List Byte) : Nat → Nat → Nat → List Int
  | 0, _, _ => []
  | fuel + 1, ctr, pos =>
    if ctr < len ∧ pos + 3 ≤ buf.length then
      let t := (at8 buf pos ||| at8 buf (pos + 1) <<< 8 ||| at8 buf (pos + 2) <<< 16) &&& 0x7FFFFF
      if t < 8380417 then (t : Int) :: rejUniformLoop len buf fuel (ctr + 1) (pos + 3)
      else rejUniformLoop len buf fuel ctr (pos + 3)
    else []

/-- `rej_uniform`, `dilithium_service_helpers.h:39-57`: the written values. -/
def rejUniform (len : Nat) (buf : List Byte) : List Int := rejUniformLoop len buf (buf.length + 1) 0 0

/-- Bytes `pos .. pos + n - 1` of the stream. -/
def squeeze (s : Nat → Byte) (pos n : Nat) : List Byte := (List.range n).map fun i => s (pos + i)

/-- Refill loop of `poly_uniform`, `dilithium_poly.c:95-104`.  A refill squeezes 168 bytes to
`buf + off`, of which `buflen = 32 + off` are then used. -/
def uniformLoop (s : Nat → Byte) : Nat → Nat → List Byte → List Int → Option (List Int)
  | 0, _, _, acc => if acc.length < 256 then none else some acc
  | fuel + 1, pos, buf, acc =>
    if acc.length < 256 then
      let off := buf.length % 3
      let buf' := (buf.drop (buf.length - off) ++ squeeze s pos 168).take (32 + off)
      uniformLoop s fuel (pos + 168) buf' (acc ++ rejUniform (256 - acc.length) buf')
    else some acc

/-- `poly_uniform`, `dilithium_poly.c:77-107` (`POLY_UNIFORM_NBLOCKS` is 5); `none` if `fuel` refills
do not suffice. -/
def polyUniform (s : Nat → Byte) (fuel : Nat) : Option (List Int) :=
  uniformLoop s fuel 840 (squeeze s 0 840) (rejUniform 256 (squeeze s 0 840))

/-- Limit of an accepted half byte, `dilithium_service_helpers.h:83,87,92,94`. -/
def etaLimit (eta : Nat) : Nat := if eta = 2 then 15 else 9

/-- Coefficient of an accepted half byte, `dilithium_service_helpers.h:84-85,92`. -/
def etaCoeff (eta : Nat) (t : Nat) : Int :=
  if eta = 2 then 2 - ((t : Int) - (((205 * t) >>> 10) * 5 : Nat)) else 4 - (t : Int)

/-- Loop of `rej_eta`, `dilithium_service_helpers.h:78-99`. -/
def rejEtaLoop (eta len : Nat) (buf : List Byte) : Nat → Nat → Nat → List Int
  | 0, _, _ => []
  | fuel + 1, ctr, pos =>
    if ctr < len ∧ pos < buf.length then
      let t0 := at8 buf pos &&& 0x0F
      let t1 := at8 buf pos >>> 4
      let w0 : List Int := if t0 < etaLimit eta then [etaCoeff eta t0] else []
      let ctr := ctr + w0.length
      let w1 : List Int := if t1 < etaLimit eta ∧ ctr < len then [etaCoeff eta t1] else []
      let ctr := ctr + w1.length
      w0 ++ w1 ++ rejEtaLoop eta len buf fuel ctr (pos + 1)
    else []

/-- `rej_eta`, `dilithium_service_helpers.h:71-102`. -/
def rejEta (eta len : Nat) (buf : List Byte) : List Int := rejEtaLoop eta len buf (buf.length + 1) 0 0

/-- `POLY_UNIFORM_ETA_BYTES`, `dilithium_poly.h:160-169`. -/
def etaBytes (eta : Nat) : Nat := if eta = 2 then 136 else 272

/-- Refill loop of `poly_uniform_eta`, `dilithium_poly.c:134-139`: a refill squeezes
`POLY_UNIFORM_ETA_BYTES` bytes (the digest size still set), of which `LC_SHAKE_256_SIZE_BLOCK` = 136
are used. -/
def etaLoop (eta : Nat) (s : Nat → Byte) : Nat → Nat → List Int → Option (List Int)
  | 0, _, acc => if acc.length < 256 then none else some acc
  | fuel + 1, pos, acc =>
    if acc.length < 256 then
      etaLoop eta s fuel (pos + etaBytes eta) (acc ++ rejEta eta (256 - acc.length) ((squeeze s pos (etaBytes eta)).take 136))
    else some acc

/-- `poly_uniform_eta`, `dilithium_poly.c:119-142`. -/
def polyUniformEta (eta : Nat) (s : Nat → Byte) (fuel : Nat) : Option (List Int) :=
  etaLoop eta s fuel (etaBytes eta) (rejEta eta 256 (squeeze s 0 (etaBytes eta)))

/-- The `do … while (b > i)` loop of `poly_challenge`, `dilithium_poly.c:198-205`: the buffer holds the
stream from `base` on, `pos` is the next position in it; result `b` and the new state. -/
def challengeByte (s : Nat → Byte) (i : Nat) : Nat → Nat → Nat → Option (Nat × Nat × Nat)
  | 0, _, _ => none
  | fuel + 1, base, pos =>
    let base' := if pos ≥ 136 then base + 136 else base
    let pos' := if pos ≥ 136 then 0 else pos
    let b := (s (base' + pos')).toNat
    if b > i then challengeByte s i fuel base' (pos' + 1) else some (b, base', pos' + 1)

/-- Main loop of `poly_challenge`, `dilithium_poly.c:197-210`. -/
def challengeLoop (s : Nat → Byte) (fuel : Nat) : Nat → Nat → Nat → Nat → Nat → Poly → Option Poly
  | 0, _, _, _, _, c => some c
  | cnt + 1, i, base, pos, signs, c =>
    (challengeByte s i fuel base pos).bind fun r =>
      let c := upd c i (c r.1)
      let c := upd c r.1 (1 - 2 * (signs &&& 1 : Nat))
      challengeLoop s fuel cnt (i + 1) r.2.1 r.2.2 (signs >>> 1) c

/-- `poly_challenge`, `dilithium_poly.c:177-214`. -/
def polyChallenge (tau : Nat) (s : Nat → Byte) (fuel : Nat) : Option Poly :=
  challengeLoop s fuel tau (256 - tau) 0 8 (loadLe (squeeze s 0 136) 0 8) (fun _ => 0)

/-! ### Specification -/

/-- `CoeffFromHalfByte`, FIPS 204 algorithm 15. -/
def Spec.coeffFromHalfByte (eta b : Nat) : Option Int :=
  if eta = 2 ∧ b < 15 then some (2 - (b : Int) % 5) else if eta = 4 ∧ b < 9 then some (4 - (b : Int)) else none

/-- The accepted half bytes of a byte string, algorithm 31 lines 6-8. -/
def Spec.acceptedEta (eta : Nat) (l : List Byte) : List Int :=
  (l.flatMap fun z => [z.toNat % 16, z.toNat / 16]).filterMap (Spec.coeffFromHalfByte eta)

/-- `RejBoundedPoly`, algorithm 31: the first 256 accepted half bytes of the stream. -/
def Spec.RejBoundedPoly (eta : Nat) (s : Nat → Byte) (out : List Int) : Prop :=
  out.length = 256 ∧ ∃ n, out = (Spec.acceptedEta eta (LC.Kyber.Spec.prefix s n)).take 256

/-- `CoeffFromThreeBytes`, algorithm 14. -/
def Spec.coeffFromThreeBytes (b0 b1 b2 : Nat) : Option Int :=
  if b0 + 256 * b1 + 65536 * (b2 % 128) < 8380417 then some ((b0 + 256 * b1 + 65536 * (b2 % 128) : Nat) : Int) else none

/-- The accepted triples of bytes, algorithm 30 lines 5-6. -/
def Spec.acceptedQ : List Byte → List Int
  | c0 :: c1 :: c2 :: l => (Spec.coeffFromThreeBytes c0.toNat c1.toNat c2.toNat).toList ++ Spec.acceptedQ l
  | _ => []

/-- `RejNTTPoly`, algorithm 30. -/
def Spec.RejNTTPoly (s : Nat → Byte) (out : List Int) : Prop :=
  out.length = 256 ∧ ∃ n, out = (Spec.acceptedQ (LC.Kyber.Spec.prefix s n)).take 256

/-- The first byte not above `i` from position `ptr` of the stream: algorithm 29 lines 7-10. -/
def Spec.IsNext (s : Nat → Byte) (i ptr p : Nat) : Prop :=
  ptr ≤ p ∧ (s p).toNat ≤ i ∧ ∀ p', ptr ≤ p' → p' < p → i < (s p').toNat

/-- `SampleInBall`, algorithm 29, lines 6-13, as a relation: from index `i` with `n` indices to go. -/
inductive Spec.Ball (s : Nat → Byte) (tau : Nat) : Nat → Nat → Nat → Poly → Poly → Prop
  | done {i ptr c} : Spec.Ball s tau 0 i ptr c c
  | step {n i ptr p c c'} (h : Spec.IsNext s i ptr p)
      (hc : Spec.Ball s tau n (i + 1) (p + 1)
        (fun x => if x = (s p).toNat then (if LC.Kyber.Spec.bit (LC.Kyber.Spec.prefix s 8) (i + tau - 256) then -1 else 1)
          else if x = i then c (s p).toNat else c x) c') : Spec.Ball s tau (n + 1) i ptr c c'

/-- `SampleInBall`, algorithm 29. -/
def Spec.SampleInBall (tau : Nat) (s : Nat → Byte) (c : Poly) : Prop := Spec.Ball s tau tau (256 - tau) 8 (fun _ => 0) c

/-! ### `rej_uniform` -/

theorem at8_drop (buf : List Byte) (p : Nat) (hp : p < buf.length) : buf.drop p = buf.getD p 0 :: buf.drop (p + 1) := by
  rw [List.drop_eq_getElem_cons hp, List.getD_eq_getElem?_getD, List.getElem?_eq_getElem hp, Option.getD_some]

theorem candidate23 (a b c : Nat) (ha : a < 256) (hb : b < 256) :
    (a ||| b <<< 8 ||| c <<< 16) &&& 0x7FFFFF = a + 256 * b + 65536 * (c % 128) := by
  have e : ∀ y, y &&& 0x7FFFFF = y % 8388608 := fun y => Nat.and_two_pow_sub_one_eq_mod y 23
  rw [e]
  have h1 : a ||| b <<< 8 = a + 256 * b := by
    rw [Nat.or_comm, Nat.shiftLeft_eq, Nat.mul_comm, ← Nat.two_pow_add_eq_or_of_lt (show a < 2 ^ 8 from ha)]; omega
  have h2 : (a + 256 * b) ||| c <<< 16 = a + 256 * b + 65536 * c := by
    rw [Nat.or_comm, Nat.shiftLeft_eq, Nat.mul_comm, ← Nat.two_pow_add_eq_or_of_lt (show a + 256 * b < 2 ^ 16 by omega)]; omega
  rw [h1, h2]
  omega

theorem rejUniformLoop_spec (len : Nat) (buf : List Byte) : ∀ fuel ctr pos, buf.length < fuel + pos → ctr ≤ len →
    rejUniformLoop len buf fuel ctr pos = (Spec.acceptedQ (buf.drop pos)).take (len - ctr) := by
  intro fuel
  induction fuel with
  | zero =>
    intro ctr pos h _
    rw [List.drop_eq_nil_of_le (by omega), show Spec.acceptedQ [] = [] from rfl, List.take_nil]
    rfl
  | succ fuel ih =>
    intro ctr pos h hc
    unfold rejUniformLoop
    by_cases hcond : ctr < len ∧ pos + 3 ≤ buf.length
    · rw [if_pos hcond]
      dsimp only
      obtain ⟨h1, h2⟩ := hcond
      rw [candidate23 _ _ _ (LC.Kyber.at8_lt _ _) (LC.Kyber.at8_lt _ _), at8_drop buf pos (by omega), at8_drop buf (pos + 1) (by omega),
        at8_drop buf (pos + 1 + 1) (by omega), Spec.acceptedQ]
      unfold Spec.coeffFromThreeBytes
      have e : ∀ j, (buf.getD j 0).toNat = at8 buf j := fun _ => rfl
      rw [e, e, e]
      obtain ⟨n, hn⟩ : ∃ n, len - ctr = n + 1 := ⟨len - ctr - 1, by omega⟩
      by_cases g : at8 buf pos + 256 * at8 buf (pos + 1) + 65536 * (at8 buf (pos + 2) % 128) < 8380417
      · rw [if_pos g, if_pos g, ih _ _ (by omega) (by omega), hn, show len - (ctr + 1) = n by omega]
        rfl
      · rw [if_neg g, if_neg g, ih _ _ (by omega) (by omega)]
        rfl
    · rw [if_neg hcond]
      by_cases hl : ctr < len
      · have hshort : (buf.drop pos).length < 3 := by rw [List.length_drop]; omega
        have : Spec.acceptedQ (buf.drop pos) = [] := by
          match h : buf.drop pos with
          | [] => rfl
          | [_] => rfl
          | [_, _] => rfl
          | _ :: _ :: _ :: _ => rw [h] at hshort; simp at hshort; omega
        rw [this]; simp
      · rw [show len - ctr = 0 by omega]; rfl

/-- `rej_uniform` delivers the accepted triples of the buffer in order, at most `len`. -/
theorem rejUniform_spec (len : Nat) (buf : List Byte) : rejUniform len buf = (Spec.acceptedQ buf).take len := by
  have h := rejUniformLoop_spec len buf (buf.length + 1) 0 0 (by omega) (Nat.zero_le _)
  rwa [List.drop_zero, Nat.sub_zero] at h

theorem acceptedQ_range : ∀ (l : List Byte), ∀ v ∈ Spec.acceptedQ l, 0 ≤ v ∧ v < 8380417
  | c0 :: c1 :: c2 :: l, v, h => by
    rw [Spec.acceptedQ, List.mem_append] at h
    rcases h with h | h
    · unfold Spec.coeffFromThreeBytes at h
      split at h
      · simp only [Option.toList_some, List.mem_singleton] at h; omega
      · simp at h
    · exact acceptedQ_range l v h
  | [], v, h => by simp [Spec.acceptedQ] at h
  | [_], v, h => by simp [Spec.acceptedQ] at h
  | [_, _], v, h => by simp [Spec.acceptedQ] at h

theorem uniformLoop_range (s : Nat → Byte) : ∀ fuel pos buf acc out, (acc.length ≤ 256 ∧ ∀ v ∈ acc, 0 ≤ v ∧ v < 8380417) →
    uniformLoop s fuel pos buf acc = some out → out.length = 256 ∧ ∀ v ∈ out, 0 ≤ v ∧ v < 8380417 := by
  intro fuel
  induction fuel with
  | zero =>
    intro pos buf acc out hacc h
    unfold uniformLoop at h
    split at h
    · cases h
    · cases h; exact ⟨by omega, hacc.2⟩
  | succ fuel ih =>
    intro pos buf acc out hacc h
    unfold uniformLoop at h
    split at h
    · refine ih _ _ _ out ⟨?_, ?_⟩ h
      · rw [List.length_append, rejUniform_spec, List.length_take]; omega
      · intro v hv
        rw [List.mem_append, rejUniform_spec] at hv
        rcases hv with hv | hv
        · exact hacc.2 v hv
        · exact acceptedQ_range _ v (List.mem_of_mem_take hv)
    · cases h; exact ⟨by omega, hacc.2⟩

/-- **C58 (`poly_uniform`, range)**: for every stream 256 coefficients in `[0, q)`. -/
theorem polyUniform_range (s : Nat → Byte) (fuel : Nat) (out : List Int) (h : polyUniform s fuel = some out) :
    out.length = 256 ∧ ∀ v ∈ out, 0 ≤ v ∧ v < 8380417 := by
  refine uniformLoop_range s fuel _ _ _ out ⟨?_, ?_⟩ h
  · rw [rejUniform_spec, List.length_take]; omega
  · intro v hv
    rw [rejUniform_spec] at hv
    exact acceptedQ_range _ v (List.mem_of_mem_take hv)

theorem squeeze_zero (s : Nat → Byte) (n : Nat) : squeeze s 0 n = LC.Kyber.Spec.prefix s n := by
  unfold squeeze LC.Kyber.Spec.prefix
  apply List.map_congr_left
  intro i _
  rw [Nat.zero_add]

/-- **C58 (`poly_uniform`), partial**: `RejNTTPoly` whenever the first 840 bytes of the stream contain
256 accepted triples.  Missing: streams that need a refill, see `polyUniform_refill_deviates`. -/
theorem polyUniform_is_fips204_partial (s : Nat → Byte) (fuel : Nat) (h : 256 ≤ (Spec.acceptedQ (LC.Kyber.Spec.prefix s 840)).length) :
    ∃ out, polyUniform s fuel = some out ∧ Spec.RejNTTPoly s out := by
  have hl : ((Spec.acceptedQ (LC.Kyber.Spec.prefix s 840)).take 256).length = 256 := by rw [List.length_take]; omega
  refine ⟨(Spec.acceptedQ (LC.Kyber.Spec.prefix s 840)).take 256, ?_, hl, 840, rfl⟩
  unfold polyUniform
  rw [squeeze_zero, rejUniform_spec]
  cases fuel with
  | zero => unfold uniformLoop; rw [if_neg (by omega)]
  | succ fuel => unfold uniformLoop; rw [if_neg (by omega)]

theorem acceptedQ_append : ∀ (n : Nat) (a b : List Byte), a.length = 3 * n → Spec.acceptedQ (a ++ b) = Spec.acceptedQ a ++ Spec.acceptedQ b
  | 0, a, b, h => by
    have : a = [] := List.length_eq_zero_iff.1 h
    subst this; rfl
  | n + 1, a, b, h => by
    match a, h with
    | c0 :: c1 :: c2 :: l, h =>
      simp only [List.length_cons] at h
      rw [List.cons_append, List.cons_append, List.cons_append, Spec.acceptedQ, Spec.acceptedQ, acceptedQ_append n l b (by omega),
        List.append_assoc]

theorem acceptedQ_prefix_mono (s : Nat → Byte) (n m : Nat) (h : n ≤ m) :
    ∃ t, Spec.acceptedQ (LC.Kyber.Spec.prefix s m) = Spec.acceptedQ (LC.Kyber.Spec.prefix s n) ++ t := by
  have key : ∀ n, Spec.acceptedQ (LC.Kyber.Spec.prefix s n) = Spec.acceptedQ (LC.Kyber.Spec.prefix s (3 * (n / 3))) := by
    intro n
    have e : LC.Kyber.Spec.prefix s n = LC.Kyber.Spec.prefix s (3 * (n / 3)) ++ (List.range (n % 3)).map fun i => s (3 * (n / 3) + i) := by
      rw [← LC.Kyber.prefix_add, Nat.div_add_mod]
    have e2 : Spec.acceptedQ ((List.range (n % 3)).map fun i => s (3 * (n / 3) + i)) = [] := by
      have : n % 3 = 0 ∨ n % 3 = 1 ∨ n % 3 = 2 := by omega
      rcases this with h | h | h <;> rw [h] <;> rfl
    rw [e, acceptedQ_append (n / 3) _ _ (by unfold LC.Kyber.Spec.prefix; rw [List.length_map, List.length_range]), e2, List.append_nil]
  rw [key n, key m]
  refine ⟨Spec.acceptedQ ((List.range (3 * (m / 3) - 3 * (n / 3))).map fun i => s (3 * (n / 3) + i)), ?_⟩
  · rw [← acceptedQ_append (n / 3) _ _ (by unfold LC.Kyber.Spec.prefix; rw [List.length_map, List.length_range]), ← LC.Kyber.prefix_add]
    congr 2
    omega

/-- `RejNTTPoly` has one result for a stream. -/
theorem Spec.RejNTTPoly.unique {s : Nat → Byte} {a b : List Int} (ha : Spec.RejNTTPoly s a) (hb : Spec.RejNTTPoly s b) : a = b := by
  obtain ⟨la, n, ea⟩ := ha
  obtain ⟨lb, m, eb⟩ := hb
  have main : ∀ (n m : Nat) (a b : List Int), n ≤ m → a.length = 256 → a = (Spec.acceptedQ (LC.Kyber.Spec.prefix s n)).take 256 →
      b = (Spec.acceptedQ (LC.Kyber.Spec.prefix s m)).take 256 → a = b := by
    intro n m a b hnm la ea eb
    obtain ⟨t, ht⟩ := acceptedQ_prefix_mono s n m hnm
    rw [eb, ht, ea]
    rw [ea, List.length_take] at la
    rw [List.take_append_of_le_length (by omega)]
  rcases Nat.le_total n m with h | h
  · exact main n m a b h la ea eb
  · exact (main m n b a h lb eb ea).symm

/-- **C58 (`poly_uniform`), negation**: there is a stream on which the code's result is not that of
`RejNTTPoly`: of a refill only 32 of 168 bytes are looked at. -/
theorem polyUniform_refill_deviates : ∃ s fuel out, polyUniform s fuel = some out ∧ ¬ Spec.RejNTTPoly s out := by
  let s : Nat → Byte := fun i => if i < 840 then 0xff else if i < 872 then 0xff else if i < 873 then 0xff else if i < 1008 then 1 else 0
  have h1 : (polyUniform s 25).map (fun o => (o.getD 0 7, o.length)) = some (65535, 256) := by decide +kernel
  cases h : polyUniform s 25 with
  | none => rw [h] at h1; cases h1
  | some out =>
    refine ⟨s, 25, out, h, fun hr => ?_⟩
    rw [h, Option.map_some] at h1
    have h2 : Spec.RejNTTPoly s ((Spec.acceptedQ (LC.Kyber.Spec.prefix s 1800)).take 256) := ⟨by decide +kernel, 1800, rfl⟩
    have h3 : ((Spec.acceptedQ (LC.Kyber.Spec.prefix s 1800)).take 256).getD 0 7 = 65793 := by decide +kernel
    rw [Spec.RejNTTPoly.unique hr h2, h3] at h1
    have := congrArg Prod.fst (Option.some.inj h1)
    exact absurd this (by decide)

/-! ### `rej_eta` -/

theorem half_byte (eta : Nat) (he : eta = 2 ∨ eta = 4) (t : Nat) (ht : t < 16) :
    (if t < etaLimit eta then [etaCoeff eta t] else []) = (Spec.coeffFromHalfByte eta t).toList := by
  rcases he with rfl | rfl
  · revert t; decide
  · revert t; decide

theorem rejEtaLoop_spec (eta : Nat) (he : eta = 2 ∨ eta = 4) (len : Nat) (buf : List Byte) : ∀ fuel ctr pos, buf.length < fuel + pos → ctr ≤ len →
    rejEtaLoop eta len buf fuel ctr pos = (Spec.acceptedEta eta (buf.drop pos)).take (len - ctr) := by
  intro fuel
  induction fuel with
  | zero =>
    intro ctr pos h _
    rw [List.drop_eq_nil_of_le (by omega), show Spec.acceptedEta eta [] = [] from rfl, List.take_nil]
    rfl
  | succ fuel ih =>
    intro ctr pos h hc
    unfold rejEtaLoop
    by_cases hcond : ctr < len ∧ pos < buf.length
    · rw [if_pos hcond]
      dsimp only
      obtain ⟨h1, h2⟩ := hcond
      have hb := LC.Kyber.at8_lt buf pos
      have e4 : at8 buf pos &&& 0x0F = at8 buf pos % 16 := Nat.and_two_pow_sub_one_eq_mod _ 4
      have e5 : at8 buf pos >>> 4 = at8 buf pos / 16 := Nat.shiftRight_eq_div_pow _ 4
      have hacc : Spec.acceptedEta eta (buf.drop pos) = (Spec.coeffFromHalfByte eta (at8 buf pos % 16)).toList ++
          ((Spec.coeffFromHalfByte eta (at8 buf pos / 16)).toList ++ Spec.acceptedEta eta (buf.drop (pos + 1))) := by
        rw [at8_drop buf pos h2]
        unfold Spec.acceptedEta
        rw [List.flatMap_cons, List.filterMap_append, show (buf.getD pos 0).toNat = at8 buf pos from rfl, List.filterMap_cons,
          List.filterMap_cons, List.filterMap_nil]
        cases Spec.coeffFromHalfByte eta (at8 buf pos % 16) <;> cases Spec.coeffFromHalfByte eta (at8 buf pos / 16) <;> rfl
      rw [e4, e5, half_byte eta he _ (by omega), hacc]
      have hw1 := half_byte eta he (at8 buf pos / 16) (by omega)
      generalize (Spec.coeffFromHalfByte eta (at8 buf pos % 16)) = a at *
      generalize (Spec.coeffFromHalfByte eta (at8 buf pos / 16)) = b at *
      obtain ⟨n, hn⟩ : ∃ n, len - ctr = n + 1 := ⟨len - ctr - 1, by omega⟩
      have hsplit : (if at8 buf pos / 16 < etaLimit eta ∧ ctr + a.toList.length < len then [etaCoeff eta (at8 buf pos / 16)] else []) =
          if ctr + a.toList.length < len then b.toList else [] := by
        by_cases hx : ctr + a.toList.length < len
        · rw [if_pos hx, ← hw1]
          by_cases hy : at8 buf pos / 16 < etaLimit eta
          · rw [if_pos ⟨hy, hx⟩, if_pos hy]
          · rw [if_neg (fun e => hy e.1), if_neg hy]
        · rw [if_neg hx, if_neg (fun e => hx e.2)]
      rw [hsplit]
      cases a with
      | none =>
        have h1' : ctr + (none : Option Int).toList.length < len := h1
        rw [if_pos h1']
        simp only [Option.toList_none, List.length_nil, Nat.add_zero, List.nil_append]
        cases b with
        | none => simp only [Option.toList_none, List.length_nil, Nat.add_zero, List.nil_append]; rw [ih _ _ (by omega) hc]
        | some v =>
          simp only [Option.toList_some, List.length_cons, List.length_nil]
          rw [ih _ _ (by omega) (by omega), hn, List.singleton_append, List.singleton_append, List.take_succ_cons, show len - (ctr + (0 + 1)) = n by omega]
      | some u =>
        by_cases hx : ctr + (some u).toList.length < len
        · rw [if_pos hx]
          simp only [Option.toList_some, List.length_cons, List.length_nil] at hx ⊢
          obtain ⟨n', rfl⟩ : ∃ n', n = n' + 1 := ⟨n - 1, by omega⟩
          cases b with
          | none =>
            simp only [Option.toList_none, List.length_nil, Nat.add_zero, List.nil_append, List.append_nil]
            rw [ih _ _ (by omega) (by omega), hn, List.singleton_append, List.singleton_append, List.take_succ_cons,
              show len - (ctr + (0 + 1)) = n' + 1 by omega]
          | some v =>
            simp only [Option.toList_some, List.length_cons, List.length_nil]
            rw [ih _ _ (by omega) (by omega), hn, List.singleton_append, List.singleton_append, List.singleton_append, List.take_succ_cons,
              List.take_succ_cons, show len - (ctr + (0 + 1) + (0 + 1)) = n' by omega]
            rfl
        · rw [if_neg hx]
          simp only [Option.toList_some, List.length_cons, List.length_nil, Nat.add_zero, List.append_nil] at hx ⊢
          rw [ih _ _ (by omega) (by omega), hn, show n = 0 by omega, show len - (ctr + (0 + 1)) = 0 by omega]
          rfl
    · rw [if_neg hcond]
      by_cases hl : ctr < len
      · rw [List.drop_eq_nil_of_le (by omega), show Spec.acceptedEta eta [] = [] from rfl, List.take_nil]
      · rw [show len - ctr = 0 by omega]; rfl

/-- `rej_eta` delivers the accepted half bytes of the buffer in order, at most `len`. -/
theorem rejEta_spec (eta : Nat) (he : eta = 2 ∨ eta = 4) (len : Nat) (buf : List Byte) : rejEta eta len buf = (Spec.acceptedEta eta buf).take len := by
  have h := rejEtaLoop_spec eta he len buf (buf.length + 1) 0 0 (by omega) (Nat.zero_le _)
  rwa [List.drop_zero, Nat.sub_zero] at h

theorem acceptedEta_append (eta : Nat) (a b : List Byte) : Spec.acceptedEta eta (a ++ b) = Spec.acceptedEta eta a ++ Spec.acceptedEta eta b := by
  unfold Spec.acceptedEta; rw [List.flatMap_append, List.filterMap_append]

theorem acceptedEta_range (eta : Nat) (he : eta = 2 ∨ eta = 4) (l : List Byte) : ∀ v ∈ Spec.acceptedEta eta l, -(eta : Int) ≤ v ∧ v ≤ eta := by
  intro v hv
  unfold Spec.acceptedEta at hv
  rw [List.mem_filterMap] at hv
  obtain ⟨t, -, ht⟩ := hv
  unfold Spec.coeffFromHalfByte at ht
  rcases he with rfl | rfl
  · split at ht
    · cases ht; omega
    · rw [if_neg (by omega)] at ht; cases ht
  · rw [if_neg (by omega)] at ht
    split at ht
    · cases ht; omega
    · cases ht

theorem etaLoop_range (eta : Nat) (he : eta = 2 ∨ eta = 4) (s : Nat → Byte) : ∀ fuel pos acc out,
    (acc.length ≤ 256 ∧ ∀ v ∈ acc, -(eta : Int) ≤ v ∧ v ≤ eta) →
    etaLoop eta s fuel pos acc = some out → out.length = 256 ∧ ∀ v ∈ out, -(eta : Int) ≤ v ∧ v ≤ eta := by
  intro fuel
  induction fuel with
  | zero =>
    intro pos acc out hacc h
    unfold etaLoop at h
    split at h
    · cases h
    · cases h; exact ⟨by omega, hacc.2⟩
  | succ fuel ih =>
    intro pos acc out hacc h
    unfold etaLoop at h
    split at h
    · refine ih _ _ out ⟨?_, ?_⟩ h
      · rw [List.length_append, rejEta_spec eta he, List.length_take]; omega
      · intro v hv
        rw [List.mem_append, rejEta_spec eta he] at hv
        rcases hv with hv | hv
        · exact hacc.2 v hv
        · exact acceptedEta_range eta he _ v (List.mem_of_mem_take hv)
    · cases h; exact ⟨by omega, hacc.2⟩

/-- **C58 (`poly_uniform_eta`, range)**: for every stream 256 coefficients in `[-eta, eta]`. -/
theorem polyUniformEta_range (eta : Nat) (he : eta = 2 ∨ eta = 4) (s : Nat → Byte) (fuel : Nat) (out : List Int)
    (h : polyUniformEta eta s fuel = some out) : out.length = 256 ∧ ∀ v ∈ out, -(eta : Int) ≤ v ∧ v ≤ eta := by
  refine etaLoop_range eta he s fuel _ _ out ⟨?_, ?_⟩ h
  · rw [rejEta_spec eta he, List.length_take]; omega
  · intro v hv
    rw [rejEta_spec eta he] at hv
    exact acceptedEta_range eta he _ v (List.mem_of_mem_take hv)

theorem etaLoop_two (s : Nat → Byte) : ∀ fuel pos acc out,
    acc = (Spec.acceptedEta 2 (LC.Kyber.Spec.prefix s pos)).take 256 →
    etaLoop 2 s fuel pos acc = some out → Spec.RejBoundedPoly 2 s out := by
  intro fuel
  induction fuel with
  | zero =>
    intro pos acc out hacc h
    unfold etaLoop at h
    split at h
    · cases h
    · cases h
      have : acc.length ≤ 256 := by rw [hacc, List.length_take]; omega
      exact ⟨by omega, pos, hacc⟩
  | succ fuel ih =>
    intro pos acc out hacc h
    unfold etaLoop at h
    split at h
    · rename_i hl
      refine ih _ _ out ?_ h
      have e : (squeeze s pos (etaBytes 2)).take 136 = squeeze s pos 136 := by
        rw [show etaBytes 2 = 136 from rfl, List.take_of_length_le]
        unfold squeeze; simp
      rw [e, rejEta_spec 2 (Or.inl rfl), show etaBytes 2 = 136 from rfl, LC.Kyber.prefix_add, acceptedEta_append, List.take_append]
      have hlen : acc.length = (Spec.acceptedEta 2 (LC.Kyber.Spec.prefix s pos)).length := by
        rw [hacc, List.length_take] at hl ⊢
        omega
      rw [hlen, ← hacc]
      rfl
    · cases h
      have : acc.length ≤ 256 := by rw [hacc, List.length_take]; omega
      exact ⟨by omega, pos, hacc⟩

/-- **C58 (`poly_uniform_eta`, eta = 2)**: `RejBoundedPoly` of FIPS 204 for every stream, however many
refills are needed (ML-DSA-44 and ML-DSA-87). -/
theorem polyUniformEta2_is_fips204 (s : Nat → Byte) (fuel : Nat) (out : List Int) (h : polyUniformEta 2 s fuel = some out) :
    Spec.RejBoundedPoly 2 s out := by
  refine etaLoop_two s fuel _ _ out ?_ h
  rw [rejEta_spec 2 (Or.inl rfl), squeeze_zero]

/-- **C58 (`poly_uniform_eta`, eta = 4), partial**: `RejBoundedPoly` whenever the first 272 bytes of the
stream contain 256 accepted half bytes.  Missing: streams that need a refill, see
`polyUniformEta4_refill_deviates`. -/
theorem polyUniformEta4_is_fips204_partial (s : Nat → Byte) (fuel : Nat)
    (h : 256 ≤ (Spec.acceptedEta 4 (LC.Kyber.Spec.prefix s 272)).length) :
    ∃ out, polyUniformEta 4 s fuel = some out ∧ Spec.RejBoundedPoly 4 s out := by
  have hl : ((Spec.acceptedEta 4 (LC.Kyber.Spec.prefix s 272)).take 256).length = 256 := by rw [List.length_take]; omega
  refine ⟨(Spec.acceptedEta 4 (LC.Kyber.Spec.prefix s 272)).take 256, ?_, hl, 272, rfl⟩
  unfold polyUniformEta
  rw [show etaBytes 4 = 272 from rfl, squeeze_zero, rejEta_spec 4 (Or.inr rfl)]
  cases fuel with
  | zero => unfold etaLoop; rw [if_neg (by omega)]
  | succ fuel => unfold etaLoop; rw [if_neg (by omega)]

/-- `RejBoundedPoly` has one result for a stream. -/
theorem Spec.RejBoundedPoly.unique {eta : Nat} {s : Nat → Byte} {a b : List Int} (ha : Spec.RejBoundedPoly eta s a)
    (hb : Spec.RejBoundedPoly eta s b) : a = b := by
  obtain ⟨la, n, ea⟩ := ha
  obtain ⟨lb, m, eb⟩ := hb
  have main : ∀ (n m : Nat) (a b : List Int), n ≤ m → a.length = 256 → a = (Spec.acceptedEta eta (LC.Kyber.Spec.prefix s n)).take 256 →
      b = (Spec.acceptedEta eta (LC.Kyber.Spec.prefix s m)).take 256 → a = b := by
    intro n m a b hnm la ea eb
    obtain ⟨d, rfl⟩ := Nat.exists_eq_add_of_le hnm
    rw [eb, LC.Kyber.prefix_add, acceptedEta_append, ea]
    rw [ea, List.length_take] at la
    rw [List.take_append_of_le_length (by omega)]
  rcases Nat.le_total n m with h | h
  · exact main n m a b h la ea eb
  · exact (main m n b a h lb eb ea).symm

/-- **C58 (`poly_uniform_eta`, eta = 4), negation**: there is a stream on which the code's result is not
that of `RejBoundedPoly`: a refill squeezes 272 bytes and looks at the first 136 (ML-DSA-65). -/
theorem polyUniformEta4_refill_deviates : ∃ s fuel out, polyUniformEta 4 s fuel = some out ∧ ¬ Spec.RejBoundedPoly 4 s out := by
  let s : Nat → Byte := fun i => if i < 408 then 0xff else if i < 544 then 0x11 else 0
  have h1 : (polyUniformEta 4 s 3).map (fun o => o.getD 0 7) = some 4 := by decide +kernel
  cases h : polyUniformEta 4 s 3 with
  | none => rw [h] at h1; cases h1
  | some out =>
    refine ⟨s, 3, out, h, fun hr => ?_⟩
    rw [h, Option.map_some] at h1
    have h2 : Spec.RejBoundedPoly 4 s ((Spec.acceptedEta 4 (LC.Kyber.Spec.prefix s 700)).take 256) := ⟨by decide +kernel, 700, rfl⟩
    have h3 : ((Spec.acceptedEta 4 (LC.Kyber.Spec.prefix s 700)).take 256).getD 0 7 = 3 := by decide +kernel
    rw [Spec.RejBoundedPoly.unique hr h2, h3] at h1
    exact absurd h1 (by decide)

/-- A stream that needs a refill and is handled as specified for eta = 2, and one that meets the
hypothesis of the partial theorem for eta = 4. -/
example : (polyUniformEta 2 (fun i => if i < 30 then 0xff else UInt8.ofNat (i % 200)) 2).isSome = true ∧
    256 ≤ (Spec.acceptedEta 4 (LC.Kyber.Spec.prefix (fun i => UInt8.ofNat (i % 16)) 272)).length ∧
    256 ≤ (Spec.acceptedQ (LC.Kyber.Spec.prefix (fun i => UInt8.ofNat (i % 251)) 840)).length := by
  refine ⟨by decide +kernel, by decide +kernel, by decide +kernel⟩

/-! ### `poly_challenge` -/

theorem challengeByte_next (s : Nat → Byte) (i : Nat) : ∀ fuel base pos r, pos ≤ 136 →
    challengeByte s i fuel base pos = some r →
    ∃ p, Spec.IsNext s i (base + pos) p ∧ r.1 = (s p).toNat ∧ r.2.1 + r.2.2 = p + 1 ∧ r.2.2 ≤ 136 := by
  intro fuel
  induction fuel with
  | zero => intro base pos r _ h; cases h
  | succ fuel ih =>
    intro base pos r hp h
    unfold challengeByte at h
    dsimp only at h
    have hq : (if pos ≥ 136 then base + 136 else base) + (if pos ≥ 136 then 0 else pos) = base + pos := by
      by_cases hc : pos ≥ 136
      · rw [if_pos hc, if_pos hc]; omega
      · rw [if_neg hc, if_neg hc]
    have hp' : (if pos ≥ 136 then 0 else pos) < 136 := by
      by_cases hc : pos ≥ 136
      · rw [if_pos hc]; omega
      · rw [if_neg hc]; omega
    rw [hq] at h
    split at h
    · rename_i hb
      obtain ⟨p, ⟨h1, h2, h3⟩, h4, h5, h6⟩ := ih _ _ r (by omega) h
      rw [← Nat.add_assoc, hq] at h1 h3
      refine ⟨p, ⟨by omega, h2, fun p' e1 e2 => ?_⟩, h4, h5, h6⟩
      by_cases e : p' = base + pos
      · rw [e]; exact hb
      · exact h3 p' (by omega) e2
    · rename_i hb
      cases h
      refine ⟨base + pos, ⟨Nat.le_refl _, by omega, fun p' e1 e2 => by omega⟩, rfl, ?_, ?_⟩
      · dsimp only; rw [← Nat.add_assoc, hq]
      · dsimp only; omega

theorem signs_bit (s : Nat → Byte) (j : Nat) (hj : j < 64) :
    (1 : Int) - 2 * ((loadLe (squeeze s 0 136) 0 8 >>> j &&& 1 : Nat) : Int) =
      if LC.Kyber.Spec.bit (LC.Kyber.Spec.prefix s 8) j then -1 else 1 := by
  have h1 := LC.Kyber.bitN_bit (squeeze s 0 136) 0 8 j (by omega)
  unfold LC.Kyber.bitN at h1
  rw [Nat.mul_zero, Nat.zero_add] at h1
  have h2 : LC.Kyber.Spec.bit (squeeze s 0 136) j = LC.Kyber.Spec.bit (LC.Kyber.Spec.prefix s 8) j := by
    unfold LC.Kyber.Spec.bit LC.Kyber.Spec.prefix squeeze
    rw [List.getD_eq_getElem?_getD, List.getD_eq_getElem?_getD, List.getElem?_map, List.getElem?_map, List.getElem?_range (by omega),
      List.getElem?_range (by omega), Option.map_some, Option.map_some, Nat.zero_add]
  rw [Nat.and_one_is_mod, Nat.shiftRight_eq_div_pow, h1, h2]
  split <;> rfl

theorem challengeLoop_ball (s : Nat → Byte) (fuel tau : Nat) (ht : tau ≤ 64) : ∀ cnt i base pos c c', pos ≤ 136 → i + cnt = 256 → cnt ≤ tau →
    challengeLoop s fuel cnt i base pos (loadLe (squeeze s 0 136) 0 8 >>> (tau - cnt)) c = some c' →
    Spec.Ball s tau cnt i (base + pos) c c' := by
  intro cnt
  induction cnt with
  | zero => intro i base pos c c' _ _ _ h; cases h; exact Spec.Ball.done
  | succ cnt ih =>
    intro i base pos c c' hp hi hc h
    unfold challengeLoop at h
    cases hr : challengeByte s i fuel base pos with
    | none => rw [hr] at h; cases h
    | some r =>
      rw [hr, Option.bind_some] at h
      dsimp only at h
      obtain ⟨p, h1, h2, h3, h4⟩ := challengeByte_next s i fuel base pos r hp hr
      rw [← Nat.shiftRight_add, show tau - (cnt + 1) + 1 = tau - cnt by omega, signs_bit s _ (by omega)] at h
      have := ih (i + 1) _ _ _ c' h4 (by omega) (by omega) h
      rw [h3] at this
      refine Spec.Ball.step h1 ?_
      rw [show i + tau - 256 = tau - (cnt + 1) by omega]
      have e : upd (upd c i (c r.1)) r.1 (if LC.Kyber.Spec.bit (LC.Kyber.Spec.prefix s 8) (tau - (cnt + 1)) then (-1 : Int) else 1) =
          fun x => if x = (s p).toNat then (if LC.Kyber.Spec.bit (LC.Kyber.Spec.prefix s 8) (tau - (cnt + 1)) then (-1 : Int) else 1)
            else if x = i then c (s p).toNat else c x := by
        funext x
        unfold upd
        rw [h2]
      rwa [e] at this

/-- **C58 (`poly_challenge`)**: `SampleInBall` of FIPS 204 for every stream, however many refills are
needed. -/
theorem polyChallenge_is_fips204 (tau : Nat) (ht : tau ≤ 64) (s : Nat → Byte) (fuel : Nat) (c : Poly) (h : polyChallenge tau s fuel = some c) :
    Spec.SampleInBall tau s c := by
  unfold polyChallenge at h
  refine challengeLoop_ball s fuel tau ht tau (256 - tau) 0 8 _ c (by omega) (by omega) (Nat.le_refl _) ?_
  rw [Nat.sub_self, Nat.shiftRight_zero]
  exact h

/-- Number of coefficients below `n` that are not zero. -/
def nz (c : Poly) : Nat → Nat
  | 0 => 0
  | n + 1 => nz c n + if c n ≠ 0 then 1 else 0

theorem ones_length (c : Poly) : (Spec.ones c).length = nz c 256 := by
  have : ∀ n, ((List.range n).filter (fun x => c x ≠ 0)).length = nz c n := by
    intro n
    induction n with
    | zero => rfl
    | succ n ih =>
      rw [List.range_succ, List.filter_append, List.length_append, ih]
      rw [nz]
      congr 1
      by_cases h : c n = 0 <;> simp [h]
  exact this 256

theorem nz_congr {a b : Poly} : ∀ n, (∀ x < n, a x = b x) → nz a n = nz b n
  | 0, _ => rfl
  | n + 1, h => by unfold nz; rw [nz_congr n (fun x hx => h x (by omega)), h n (by omega)]

theorem nz_upd (c : Poly) (b : Nat) (v : Int) (hv : v ≠ 0) : ∀ n, b < n → nz (upd c b v) n + (if c b ≠ 0 then 1 else 0) = nz c n + 1
  | 0, h => by omega
  | n + 1, h => by
    by_cases e : b = n
    · subst e
      rw [nz, nz, nz_congr b (a := upd c b v) (b := c) (fun x hx => by unfold upd; rw [if_neg (by omega)])]
      have : upd c b v b = v := by unfold upd; rw [if_pos rfl]
      rw [this, if_pos hv]
      omega
    · rw [nz, nz]
      have := nz_upd c b v hv n (by omega)
      have e2 : upd c b v n = c n := by unfold upd; rw [if_neg (by omega)]
      rw [e2]
      omega

theorem challengeLoop_weight (s : Nat → Byte) (fuel : Nat) : ∀ cnt i base pos signs c c', i + cnt = 256 →
    (∀ x, c x = 0 ∨ c x = 1 ∨ c x = -1) → (∀ x, i ≤ x → c x = 0) → challengeLoop s fuel cnt i base pos signs c = some c' →
    nz c' 256 = nz c i + cnt ∧ (∀ x, c' x = 0 ∨ c' x = 1 ∨ c' x = -1) ∧ ∀ x, 256 ≤ x → c' x = 0 := by
  intro cnt
  induction cnt with
  | zero =>
    intro i base pos signs c c' hi h1 h2 h; cases h
    have e : i = 256 := by omega
    subst e; exact ⟨(Nat.add_zero _).symm, h1, h2⟩
  | succ cnt ih =>
    intro i base pos signs c c' hi h1 h2 h
    unfold challengeLoop at h
    cases hr : challengeByte s i fuel base pos with
    | none => rw [hr] at h; cases h
    | some r =>
      rw [hr, Option.bind_some] at h
      dsimp only at h
      have hb : r.1 ≤ i := by
        have : ∀ fuel base pos, challengeByte s i fuel base pos = some r → r.1 ≤ i := by
          intro fuel
          induction fuel with
          | zero => intro base pos h; cases h
          | succ fuel ihf =>
            intro base pos h
            unfold challengeByte at h
            dsimp only at h
            generalize (if pos ≥ 136 then base + 136 else base) = b1 at h
            generalize (if pos ≥ 136 then 0 else pos) = p1 at h
            split at h
            · exact ihf _ _ h
            · cases h; dsimp only; omega
        exact this fuel base pos hr
      generalize hv : (1 : Int) - 2 * ((signs &&& 1 : Nat) : Int) = v at h
      have hv2 : v = 1 ∨ v = -1 := by
        rw [Nat.and_one_is_mod] at hv
        omega
      have k1 : ∀ x, upd (upd c i (c r.1)) r.1 v x = 0 ∨ upd (upd c i (c r.1)) r.1 v x = 1 ∨ upd (upd c i (c r.1)) r.1 v x = -1 := by
        intro x
        unfold upd
        by_cases e : x = r.1
        · rw [if_pos e]; omega
        · rw [if_neg e]
          by_cases e' : x = i
          · rw [if_pos e']; exact h1 _
          · rw [if_neg e']; exact h1 _
      have k2 : ∀ x, i + 1 ≤ x → upd (upd c i (c r.1)) r.1 v x = 0 := by
        intro x hx
        unfold upd
        rw [if_neg (show ¬ x = r.1 by omega), if_neg (show ¬ x = i by omega)]
        exact h2 x (by omega)
      obtain ⟨g1, g2, g3⟩ := ih (i + 1) _ _ _ _ c' (by omega) k1 k2 h
      refine ⟨?_, g2, g3⟩
      rw [g1]
      have hu := nz_upd (upd c i (c r.1)) r.1 v (by omega) (i + 1) (by omega)
      have hi1 : nz (upd c i (c r.1)) (i + 1) = nz c i + if c r.1 ≠ 0 then 1 else 0 := by
        rw [nz, nz_congr i (a := upd c i (c r.1)) (b := c) (fun x hx => by unfold upd; rw [if_neg (by omega)])]
        have : upd c i (c r.1) i = c r.1 := by unfold upd; rw [if_pos rfl]
        rw [this]
      have hb2 : upd c i (c r.1) r.1 = c r.1 := by
        unfold upd
        by_cases e : r.1 = i
        · rw [if_pos e]
        · rw [if_neg e]
      rw [hb2, hi1] at hu
      omega

/-- **C58 (challenge weight)**: for every stream the challenge has exactly `tau` coefficients that are
not zero, each of them 1 or -1. -/
theorem polyChallenge_weight (tau : Nat) (ht : tau ≤ 256) (s : Nat → Byte) (fuel : Nat) (c : Poly) (h : polyChallenge tau s fuel = some c) :
    (Spec.ones c).length = tau ∧ (∀ x, c x = 0 ∨ c x = 1 ∨ c x = -1) ∧ ∀ x, 256 ≤ x → c x = 0 := by
  obtain ⟨h1, h2, h3⟩ := challengeLoop_weight s fuel tau (256 - tau) 0 8 _ _ c (by omega) (fun _ => Or.inl rfl) (fun _ _ => rfl) h
  refine ⟨?_, h2, h3⟩
  rw [ones_length, h1]
  have : ∀ n, nz (fun _ => 0) n = 0 := by
    intro n
    induction n with
    | zero => rfl
    | succ n ih => rw [nz, ih]; rfl
  rw [this]
  omega

/-- A stream on which `poly_challenge` refills its buffer and delivers a challenge. -/
example : ((polyChallenge 39 (fun i => if i < 130 then 0xff else UInt8.ofNat (i * 7 % 200)) 200).map fun c => (Spec.ones c).length) = some 39 := by
  decide +kernel

end LC.Dilithium
