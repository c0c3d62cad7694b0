import Verif.Kyber.SchemeLemmas
import Verif.Memcmp.Props
/-
C45, IND-CPA part: decryption returns the message whenever the noise is small.  C47: the modulus check.
-/
namespace LC.Kyber
open LC.Ntt Polynomial

/-! ### Specification -/

/-- What rounding to `d` bits adds to a coefficient. -/
def Spec.err (d : Nat) (x : Int) : Int := (Spec.decompress d (Spec.compress d (Spec.residue x)) : Int) - x

/-- The noise of K-PKE in `Z[X]/(X^256+1)`: `e^T r + e2 + cv - s^T (e1 + cu)`, coefficient `x`; `cu` and
`cv` are the rounding errors of the ciphertext. -/
def Spec.noise (k : Nat) (s e r e1 cu : Nat → Poly) (e2 cv : Poly) (x : Nat) : Int :=
  ((List.range k).map fun j => Spec.negacyclic (e j) (r j) x).sum + e2 x + cv x -
    ((List.range k).map fun i => Spec.negacyclic (s i) (fun y => e1 i y + cu i y) x).sum

/-! ### Serialisation of vectors -/

theorem tobytes_length (a : Poly) : (polyTobytes a).length = 384 := by
  unfold polyTobytes
  rw [flatMap_length (m := 3) (fun _ => rfl)]

theorem compressU_length (d : Nat) (hd : d = 10 ∨ d = 11) (a : Poly) : (polyCompressU d a).length = 32 * d := by
  rcases hd with rfl | rfl
  · unfold polyCompressU polyCompress10
    rw [if_neg (by decide), flatMap_length (m := 5) (fun _ => rfl)]
  · unfold polyCompressU polyCompress11
    rw [if_pos rfl, flatMap_length (m := 11) (fun _ => rfl)]

theorem compressV_length (d : Nat) (hd : d = 4 ∨ d = 5) (a : Poly) : (polyCompressV d a).length = 32 * d := by
  rcases hd with rfl | rfl
  · unfold polyCompressV polyCompress4
    rw [if_neg (by decide), flatMap_length (m := 4) (fun _ => rfl)]
  · unfold polyCompressV polyCompress5
    rw [if_pos rfl, flatMap_length (m := 5) (fun _ => rfl)]

theorem Par.Ok.facts {p : Par} (h : p.Ok) : 2 ≤ p.k ∧ p.k ≤ 4 ∧ (p.du = 10 ∨ p.du = 11) ∧ (p.dv = 4 ∨ p.dv = 5) := by
  rcases h with rfl | rfl | rfl <;> decide

theorem vecFrombytes_vecTobytes {k i : Nat} (hi : i < k) (v : Nat → Poly) (rest : List Byte) :
    vecFrombytes (vecTobytes k v ++ rest) i = polyFrombytes (polyTobytes (v i)) := by
  unfold vecFrombytes vecTobytes
  rw [flatMap_slice (fun i => tobytes_length (v i)) k i rest hi]

theorem frombytes_bnd (b : List Byte) : Bnd 4095 (polyFrombytes b) := by
  intro i _
  rw [frombytes_is_byteDecode]
  have := byteDecode_lt 12 b i
  simp only [Nat.reducePow] at this; omega

theorem frombytes_cast {a : Poly} (ha : Bnd 1664 a) : ∀ x < 256, cast (polyFrombytes (polyTobytes a)) x = cast a x := by
  intro x hx
  unfold cast
  rw [tobytes_frombytes a (fun x hx => by have := ha x hx; omega) x hx]
  exact zq_eq (by omega)

theorem slices (n : Nat) (b : List Byte) : ∀ k, (List.range k).flatMap (fun i => (b.drop (n * i)).take n) = b.take (n * k)
  | 0 => by simp
  | k + 1 => by
    rw [List.range_succ, List.flatMap_append, slices n b k, Nat.mul_succ, List.take_add]
    simp

theorem memcmpB_eq (lp64 avx2 : Bool) (a b : List Byte) : memcmpB lp64 avx2 a b = 0 ↔ a = b := by
  unfold memcmpB
  refine Memcmp.memcmp_lists lp64 avx2 _ a b 0 a.length ?_ ?_
  · intro i h
    rw [Nat.zero_add, List.getD_eq_getElem?_getD, List.getElem?_append_left h, List.getElem?_eq_getElem h]; rfl
  · intro i h
    rw [List.getD_eq_getElem?_getD, List.getElem?_append_right (by omega), Nat.add_sub_cancel_left, List.getElem?_eq_getElem h]; rfl

theorem memcmpB_le (lp64 avx2 : Bool) (a b : List Byte) : memcmpB lp64 avx2 a b ≤ 1 := Memcmp.memcmp_range ..

/-- **C47, what the code does**: `kyber_kem_iv_pk_modulus` accepts every string of the right length. -/
theorem modulus_check_vacuous (p : Par) (pk : List Byte) (h : pk.length = p.pkLen) : ivPkModulus p pk = true := by
  unfold ivPkModulus
  dsimp only
  rw [beq_iff_eq, memcmpB_eq]
  unfold vecTobytes vecFrombytes
  unfold Par.pkLen at h
  have e : (List.range p.k).flatMap (fun i => polyTobytes (polyFrombytes ((pk.drop (384 * i)).take 384))) =
      (List.range p.k).flatMap (fun i => (pk.drop (384 * i)).take 384) := by
    refine List.flatMap_congr fun i hi => ?_
    have hi := List.mem_range.1 hi
    refine frombytes_tobytes _ ?_
    rw [List.length_take, List.length_drop]
    have : 384 * (i + 1) ≤ 384 * p.k := Nat.mul_le_mul_left _ hi
    omega
  rw [e, slices, List.take_of_length_le (l := pk.drop (384 * p.k)) (by rw [List.length_drop]; omega), List.take_append_drop]

/-! ### Compression of vectors -/

theorem unpackU_pack {p : Par} (hp : p.Ok) (b : Nat → Poly) (v : Poly) (hb : ∀ i < p.k, Bnd 1664 (b i)) {i x : Nat} (hi : i < p.k) (hx : x < 256) :
    unpackU p (packCiphertext p b v) i x = Spec.decompress p.du (Spec.compress p.du (Spec.residue (b i x))) := by
  obtain ⟨-, -, hd, -⟩ := hp.facts
  unfold unpackU packCiphertext
  rw [flatMap_slice (fun i => compressU_length p.du hd (b i)) p.k i _ hi]
  have hb' : ∀ x < 256, -3329 ≤ b i x ∧ b i x < 3329 := fun x hx => by have := hb i hi x hx; omega
  unfold polyDecompressU polyCompressU
  rcases hd with hd | hd <;> rw [hd]
  · rw [if_neg (by decide), if_neg (by decide), decompress10_is_fips, compress10_is_fips _ hb',
      byteDecode_encode 10 (by decide) (fun x => Spec.compress 10 (Spec.residue (b i x))) x hx (compress_lt 10 _)]
  · rw [if_pos rfl, if_pos rfl, decompress11_is_fips, compress11_is_fips _ hb',
      byteDecode_encode 11 (by decide) (fun x => Spec.compress 11 (Spec.residue (b i x))) x hx (compress_lt 11 _)]

theorem unpackV_pack {p : Par} (hp : p.Ok) (b : Nat → Poly) (v : Poly) (hv : Bnd 1664 v) {x : Nat} (hx : x < 256) :
    unpackV p (packCiphertext p b v) x = Spec.decompress p.dv (Spec.compress p.dv (Spec.residue (v x))) := by
  obtain ⟨-, -, hdu, hd⟩ := hp.facts
  unfold unpackV packCiphertext
  rw [flatMap_rest (fun i => compressU_length p.du hdu (b i))]
  have hv' : ∀ x < 256, -3329 ≤ v x ∧ v x < 3329 := fun x hx => by have := hv x hx; omega
  unfold polyDecompressV polyCompressV
  rcases hd with hd | hd <;> rw [hd]
  · rw [if_neg (by decide), if_neg (by decide), decompress4_is_fips, compress4_is_fips _ hv',
      byteDecode_encode 4 (by decide) (fun x => Spec.compress 4 (Spec.residue (v x))) x hx (compress_lt 4 _)]
  · rw [if_pos rfl, if_pos rfl, decompress5_is_fips, compress5_is_fips _ hv',
      byteDecode_encode 5 (by decide) (fun x => Spec.compress 5 (Spec.residue (v x))) x hx (compress_lt 5 _)]

theorem decompress_le (d : Nat) {y : Nat} (h : y < 2 ^ d) : Spec.decompress d y ≤ 3329 := by
  unfold Spec.decompress
  have hp := Nat.two_pow_pos d
  have : (2 * 3329 * y + 2 ^ d) / (2 * 2 ^ d) < 3330 := by
    rw [Nat.div_lt_iff_lt_mul (by omega)]
    generalize 2 ^ d = z at *
    omega
  omega

/-- The polynomials decompressed from any ciphertext are in `[0, q]`. -/
theorem unpackU_bnd {p : Par} (hp : p.Ok) (c : List Byte) (i : Nat) : Bnd 3329 (unpackU p c i) := by
  intro x _
  obtain ⟨-, -, hd, -⟩ := hp.facts
  unfold unpackU polyDecompressU
  rcases hd with hd | hd <;> rw [hd]
  · rw [if_neg (by decide), decompress10_is_fips]
    have := decompress_le 10 (byteDecode_lt 10 ((c.drop (32 * 10 * i)).take (32 * 10)) x)
    omega
  · rw [if_pos rfl, decompress11_is_fips]
    have := decompress_le 11 (byteDecode_lt 11 ((c.drop (32 * 11 * i)).take (32 * 11)) x)
    omega

theorem unpackV_bnd {p : Par} (hp : p.Ok) (c : List Byte) : Bnd 3329 (unpackV p c) := by
  intro x _
  obtain ⟨-, -, -, hd⟩ := hp.facts
  unfold unpackV polyDecompressV
  rcases hd with hd | hd <;> rw [hd]
  · rw [if_neg (by decide), decompress4_is_fips]
    have := decompress_le 4 (byteDecode_lt 4 (c.drop (32 * p.du * p.k)) x)
    omega
  · rw [if_pos rfl, decompress5_is_fips]
    have := decompress_le 5 (byteDecode_lt 5 (c.drop (32 * p.du * p.k)) x)
    omega

/-! ### The algebra -/

theorem lattice_identity {R : Type} [CommRing R] {k : Nat} {D : R} {PA : Nat → Nat → R} {S E r E1 CU tb T : Nat → R} {E2 M CV tv : R}
    (hT : ∀ j < k, T j = (∑ i ∈ Finset.range k, PA j i * S i) + E j)
    (hv : D ∣ (∑ j ∈ Finset.range k, T j * r j) + E2 + M - tv)
    (hb : ∀ i < k, D ∣ (∑ j ∈ Finset.range k, PA j i * r j) + E1 i - tb i) :
    D ∣ (M + ((∑ j ∈ Finset.range k, E j * r j) + E2 + CV - ∑ i ∈ Finset.range k, S i * (E1 i + CU i))) -
      (tv + CV - ∑ i ∈ Finset.range k, S i * (tb i + CU i)) := by
  have h1 : D ∣ ∑ i ∈ Finset.range k, S i * ((∑ j ∈ Finset.range k, PA j i * r j) + E1 i - tb i) :=
    Finset.dvd_sum fun i hi => (hb i (Finset.mem_range.1 hi)).mul_left _
  have h2 := dvd_sub hv h1
  have eT : ∑ j ∈ Finset.range k, T j * r j =
      (∑ j ∈ Finset.range k, ∑ i ∈ Finset.range k, PA j i * S i * r j) + ∑ j ∈ Finset.range k, E j * r j := by
    rw [← Finset.sum_add_distrib]
    refine Finset.sum_congr rfl fun j hj => ?_
    rw [hT j (Finset.mem_range.1 hj), add_mul, Finset.sum_mul]
  have e1 : ∑ i ∈ Finset.range k, S i * ((∑ j ∈ Finset.range k, PA j i * r j) + E1 i - tb i) =
      (∑ j ∈ Finset.range k, ∑ i ∈ Finset.range k, PA j i * S i * r j) + (∑ i ∈ Finset.range k, S i * (E1 i + CU i)) -
        ∑ i ∈ Finset.range k, S i * (tb i + CU i) := by
    rw [Finset.sum_comm, ← Finset.sum_add_distrib, ← Finset.sum_sub_distrib]
    refine Finset.sum_congr rfl fun i _ => ?_
    rw [show ∑ j ∈ Finset.range k, PA j i * S i * r j = S i * ∑ j ∈ Finset.range k, PA j i * r j by
      rw [Finset.mul_sum]; exact Finset.sum_congr rfl fun j _ => by ring]
    ring
  rw [eT, e1] at h2
  convert h2 using 1
  ring

theorem lattice_rep {n k : Nat} {c : Zq} {PA : Nat → Nat → Zq[X]} {S E r E1 CU T : Nat → Zq[X]} {E2 M CV : Zq[X]} {v w : Nat → Zq} {b : Nat → Nat → Zq}
    (hT : ∀ j < k, T j = (∑ i ∈ Finset.range k, PA j i * S i) + E j)
    (hv : Rep n c v ((∑ j ∈ Finset.range k, T j * r j) + E2 + M))
    (hb : ∀ i < k, Rep n c (b i) ((∑ j ∈ Finset.range k, PA j i * r j) + E1 i))
    (hw : Rep n c w (toPoly n v + CV - ∑ i ∈ Finset.range k, S i * (toPoly n (b i) + CU i))) :
    Rep n c w (M + ((∑ j ∈ Finset.range k, E j * r j) + E2 + CV - ∑ i ∈ Finset.range k, S i * (E1 i + CU i))) := by
  refine hw.of_dvd ?_
  unfold Rep at hv hb
  exact lattice_identity hT hv hb

/-- Multiplication by `65536 * 169 = 1`. -/
theorem undo_mont (P : Zq[X]) : C (65536 : Zq) * (C 169 * P) = P := by
  rw [← mul_assoc, ← C_mul, show (65536 : Zq) * 169 = 1 by decide, C_1, one_mul]

theorem undo_mont' (P : Zq[X]) : C (169 : Zq) * P = C 169 * P := rfl

/-- Adding a polynomial after the inverse transform, and reducing. -/
theorem add_reduce {A B : Int} (hAB : A + B ≤ 32767) {a b : Poly} (ha : Bnd A a) (hb : Bnd B b) :
    Bnd 1664 (polyReduce (polyAdd a b)) ∧ ∀ i < 256, cast (polyReduce (polyAdd a b)) i = cast a i + cast b i := by
  obtain ⟨h1, h2⟩ := polyAdd_spec hAB ha hb
  obtain ⟨h3, h4⟩ := polyReduce_spec (h1.mono hAB)
  exact ⟨h3, fun i hi => by rw [h4 i hi, h2 i hi]⟩

theorem ntt_self {r : Poly} (hr : Bnd 9471 r) : Bnd 1664 (polyNtt r) ∧ Split 2 128 cz (cast (polyNtt r)) (toPoly 256 (cast r)) :=
  polyNtt_split hr

/-! ### Key generation -/

/-- The vector `t` of the public key. -/
def kgT (k : Nat) (s e : Nat → Poly) (A : Nat → Nat → Poly) (i : Nat) : Poly :=
  polyReduce (polyAdd (keygenMul k k 0 (load2 (fun i => polyNtt (s i)) A (fun _ _ => 0)) (aR i)) (polyNtt (e i)))

theorem kgT_spec {k : Nat} (hk : 1 ≤ k) (hk4 : k ≤ 4) {s e : Nat → Poly} (hs : ∀ i, Bnd 3 (s i)) (he : ∀ i, Bnd 3 (e i))
    {A : Nat → Nat → Poly} (hA : ∀ i j, i < k → j < k → Bnd 4095 (A i j)) {PA : Nat → Nat → Zq[X]}
    (hPA : ∀ i j, Split 2 128 cz (cast (A i j)) (PA i j)) {i : Nat} (hi : i < k) :
    Bnd 1664 (kgT k s e A i) ∧
      Split 2 128 cz (cast (kgT k s e A i)) ((∑ j ∈ Finset.range k, PA i j * toPoly 256 (cast (s j))) + toPoly 256 (cast (e i))) := by
  unfold kgT
  rw [keygen_products hk4 _ _ _ i hi]
  obtain ⟨a1, a2⟩ := acc_reduce_spec hk hk4 (A := A i) (B := fun j => polyNtt (s j)) (P := PA i) (Q := fun j => toPoly 256 (cast (s j)))
    (fun j hj => ⟨hA i j hi hj, hPA i j⟩) (fun j _ => ntt_self ((hs j).mono (by decide)))
  obtain ⟨b1, b2⟩ := polyTomont_spec a1
  obtain ⟨c1, c2⟩ := ntt_self ((he i).mono (by decide))
  obtain ⟨d1, d2⟩ := add_reduce (by decide) b1 c1
  refine ⟨d1, ?_⟩
  have h3 := (a2.smul (65536 : Zq)).add c2
  rw [undo_mont] at h3
  exact h3.congr fun x hx => by rw [d2 x (by omega), b2 x (by omega)]

/-! ### Encryption -/

theorem encB_spec {f : Fns} {p : Par} (hp : p.Ok) {pk coins : List Byte} {A : Nat → Nat → Poly}
    (hA : ∀ i j, i < p.k → j < p.k → Bnd 4095 (A i j)) {PA : Nat → Nat → Zq[X]}
    (hPA : ∀ i < p.k, ∀ j < p.k, Split 2 128 cz (cast (A i j)) (PA i j)) {i : Nat} (hi : i < p.k) :
    Bnd 1664 (encB f p coins (encMem f p pk coins A) i) ∧
    Rep 256 (-1) (cast (encB f p coins (encMem f p pk coins A) i))
      ((∑ j ∈ Finset.range p.k, PA i j * toPoly 256 (cast (getnoise f p.eta1 coins j))) + toPoly 256 (cast (getnoise f 2 coins (p.k + i)))) := by
  obtain ⟨hk, hk4, -, -⟩ := hp.facts
  unfold encB encMem
  rw [(enc_products (by omega) hk4 _ _ _).1 i hi]
  obtain ⟨a1, a2⟩ := acc_reduce_spec (k := p.k) (by omega) hk4 (A := A i) (B := fun j => polyNtt (getnoise f p.eta1 coins j)) (P := PA i)
    (Q := fun j => toPoly 256 (cast (getnoise f p.eta1 coins j)))
    (fun j hj => ⟨hA i j hi hj, hPA i hi j hj⟩) (fun j _ => ntt_self ((getnoise_bnd _ _ _ _).mono (by decide)))
  obtain ⟨b1, b2⟩ := kyberInvntt_rep (a1.mono (by decide)) a2
  rw [undo_mont] at b2
  obtain ⟨d1, d2⟩ := add_reduce (by decide) b1 (getnoise_bnd f 2 coins (p.k + i))
  refine ⟨d1, ?_⟩
  exact (b2.add (Rep.self 256 (-1) (cast (getnoise f 2 coins (p.k + i))))).congr fun x hx => (d2 x hx).symm

theorem frommsg_bnd (m : List Byte) : Bnd 1665 (polyFrommsg m) := by
  intro x _
  unfold polyFrommsg
  split <;> omega

theorem encV_spec {f : Fns} {p : Par} (hp : p.Ok) {pk msg coins : List Byte} {A : Nat → Nat → Poly} {T : Nat → Zq[X]}
    (hT : ∀ i < p.k, Bnd 4095 (vecFrombytes pk i) ∧ Split 2 128 cz (cast (vecFrombytes pk i)) (T i)) :
    Bnd 1664 (encV f p msg coins (encMem f p pk coins A)) ∧
    Rep 256 (-1) (cast (encV f p msg coins (encMem f p pk coins A)))
      ((∑ j ∈ Finset.range p.k, T j * toPoly 256 (cast (getnoise f p.eta1 coins j))) + toPoly 256 (cast (getnoise f 2 coins (2 * p.k))) +
        toPoly 256 (cast (polyFrommsg msg))) := by
  obtain ⟨hk, hk4, -, -⟩ := hp.facts
  unfold encV encMem
  rw [(enc_products (by omega) hk4 _ _ _).2]
  obtain ⟨a1, a2⟩ := acc_reduce_spec (k := p.k) (by omega) hk4 (A := vecFrombytes pk) (B := fun j => polyNtt (getnoise f p.eta1 coins j)) (P := T)
    (Q := fun j => toPoly 256 (cast (getnoise f p.eta1 coins j)))
    hT (fun j _ => ntt_self ((getnoise_bnd _ _ _ _).mono (by decide)))
  obtain ⟨b1, b2⟩ := kyberInvntt_rep (a1.mono (by decide)) a2
  rw [undo_mont] at b2
  obtain ⟨c1, c2⟩ := polyAdd_spec (by decide) b1 (getnoise_bnd f 2 coins (2 * p.k))
  obtain ⟨d1, d2⟩ := add_reduce (by decide) c1 (frommsg_bnd msg)
  refine ⟨d1, ?_⟩
  exact ((b2.add (Rep.self 256 (-1) (cast (getnoise f 2 coins (2 * p.k))))).add (Rep.self 256 (-1) (cast (polyFrommsg msg)))).congr
    fun x hx => by unfold polyInvntt; rw [d2 x hx, c2 x hx]

/-! ### Decryption -/

/-- The polynomial `w` that `indcpa_dec` rounds to the message. -/
def decW (p : Par) (c sk : List Byte) : Poly :=
  polyReduce (polySub (unpackV p c) (polyInvntt (basemulAcc p.k (aR 0) (aM 0 0) aS (aM 0)
    (load2 (vecFrombytes sk) (fun _ i => polyNtt (unpackU p c i)) (fun _ _ => 0)) (aR 0))))

theorem indcpaDec_eq (p : Par) (c sk : List Byte) : indcpaDec p c sk = polyTomsg (decW p c sk) := rfl

theorem decW_spec {p : Par} (hp : p.Ok) (c sk : List Byte) {S : Nat → Zq[X]} (hS : ∀ i < p.k, Split 2 128 cz (cast (vecFrombytes sk i)) (S i)) :
    Bnd 1664 (decW p c sk) ∧
    Rep 256 (-1) (cast (decW p c sk)) (toPoly 256 (cast (unpackV p c)) - ∑ i ∈ Finset.range p.k, S i * toPoly 256 (cast (unpackU p c i))) := by
  obtain ⟨hk, hk4, -, -⟩ := hp.facts
  unfold decW
  rw [dec_product (by omega) hk4]
  obtain ⟨a1, a2⟩ := acc_reduce_spec (k := p.k) (by omega) hk4 (A := vecFrombytes sk) (B := fun j => polyNtt (unpackU p c j)) (P := S)
    (Q := fun j => toPoly 256 (cast (unpackU p c j)))
    (fun j hj => ⟨frombytes_bnd _, hS j hj⟩) (fun j _ => ntt_self ((unpackU_bnd hp c j).mono (by decide)))
  obtain ⟨b1, b2⟩ := kyberInvntt_rep (a1.mono (by decide)) a2
  rw [undo_mont] at b2
  obtain ⟨c1, c2⟩ := polySub_spec (by decide) (unpackV_bnd hp c) b1
  obtain ⟨d1, d2⟩ := polyReduce_spec (c1.mono (by decide))
  refine ⟨d1, ?_⟩
  exact ((Rep.self 256 (-1) (cast (unpackV p c))).sub b2).congr fun x hx => by unfold polyInvntt; rw [d2 x hx, c2 x hx]

/-! ### Noise -/

theorem negacyclic_rep (a b : Poly) : Rep 256 (-1) (cast (Spec.negacyclic a b)) (toPoly 256 (cast a) * toPoly 256 (cast b)) := by
  refine ((Rep.self 256 (-1 : Zq) (cast b)).conv (cast a)).congr fun k _ => ?_
  unfold cast Spec.negacyclic
  rw [cast_sum]
  refine Finset.sum_congr rfl fun i _ => ?_
  by_cases h : i ≤ k
  · rw [if_pos h, if_pos h, Int.cast_mul]
  · rw [if_neg h, if_neg h, Int.cast_neg, Int.cast_mul]; ring

theorem toPoly_cast_add (a b : Poly) : toPoly 256 (cast (fun y => a y + b y)) = toPoly 256 (cast a) + toPoly 256 (cast b) := by
  rw [← toPoly_add]
  refine toPoly_congr fun i _ => ?_
  unfold cast
  rw [Int.cast_add]

theorem noise_rep (k : Nat) (s e r e1 cu : Nat → Poly) (e2 cv : Poly) :
    Rep 256 (-1) (cast (Spec.noise k s e r e1 cu e2 cv))
      ((∑ j ∈ Finset.range k, toPoly 256 (cast (e j)) * toPoly 256 (cast (r j))) + toPoly 256 (cast e2) + toPoly 256 (cast cv) -
        ∑ i ∈ Finset.range k, toPoly 256 (cast (s i)) * (toPoly 256 (cast (e1 i)) + toPoly 256 (cast (cu i)))) := by
  have h1 := Rep.sum (n := 256) (c := (-1 : Zq)) (f := fun j => cast (Spec.negacyclic (e j) (r j))) k fun j _ => negacyclic_rep (e j) (r j)
  have h2 := Rep.sum (n := 256) (c := (-1 : Zq)) (f := fun i => cast (Spec.negacyclic (s i) (fun y => e1 i y + cu i y))) k
    fun j _ => negacyclic_rep (s j) (fun y => e1 j y + cu j y)
  simp only [toPoly_cast_add] at h2
  refine (((h1.add (Rep.self 256 (-1) (cast e2))).add (Rep.self 256 (-1) (cast cv))).sub h2).congr fun x _ => ?_
  unfold cast Spec.noise
  rw [Int.cast_sub, Int.cast_add, Int.cast_add, cast_sum, cast_sum]

/-! ### The theorem -/

/-- The vector `u` of an encryption before compression (FIPS 203, algorithm 14, line 19). -/
def uOf (f : Fns) (p : Par) (fuel : Nat) (pk coins : List Byte) (i : Nat) : Poly :=
  match genMatrix f fuel p.k ((pk.drop (384 * p.k)).take 32) true with
  | none => fun _ => 0
  | some A => encB f p coins (encMem f p pk coins A) i

/-- The polynomial `v` before compression (line 21). -/
def vOf (f : Fns) (p : Par) (fuel : Nat) (pk msg coins : List Byte) : Poly :=
  match genMatrix f fuel p.k ((pk.drop (384 * p.k)).take 32) true with
  | none => fun _ => 0
  | some A => encV f p msg coins (encMem f p pk coins A)

/-- Every coefficient of the noise of an encryption of `msg` with `coins` is congruent to a number of
absolute value at most 831 (the largest bound below `q/4` for which rounding is always right, see
`compress1_noise_tight`). -/
def NoiseSmall (f : Fns) (p : Par) (fuel : Nat) (sigma pk msg coins : List Byte) : Prop :=
  ∃ n : Nat → Int, ∀ x < 256, -831 ≤ n x ∧ n x ≤ 831 ∧
    (n x - Spec.noise p.k (fun i => getnoise f p.eta1 sigma i) (fun i => getnoise f p.eta1 sigma (p.k + i))
      (fun i => getnoise f p.eta1 coins i) (fun i => getnoise f 2 coins (p.k + i)) (fun i y => Spec.err p.du (uOf f p fuel pk coins i y))
      (getnoise f 2 coins (2 * p.k)) (fun y => Spec.err p.dv (vOf f p fuel pk msg coins y)) x) % 3329 = 0

/-- **C45, IND-CPA part**: for every key pair, message and coins, encryption succeeds; and if the noise is
small, decryption returns the message.  For all three parameter sets and every choice of hash functions. -/
theorem indcpa_correct (f : Fns) (p : Par) (hp : p.Ok) (fuel : Nat) (d msg coins pk sk : List Byte) (hm : msg.length = 32)
    (hlen : (f.G (d ++ [UInt8.ofNat p.k])).length = 64)
    (hkp : indcpaKeypair f p fuel d = some (pk, sk)) :
    pk.length = p.pkLen ∧ sk.length = 384 * p.k ∧
    ∃ ct, indcpaEnc f p fuel msg pk coins = .ok ct ∧ ct.length = p.ctLen ∧
      (NoiseSmall f p fuel ((f.G (d ++ [UInt8.ofNat p.k])).drop 32) pk msg coins → indcpaDec p ct sk = msg) := by
  obtain ⟨hk, hk4, hdu, hdv⟩ := hp.facts
  unfold indcpaKeypair at hkp
  dsimp only at hkp
  rw [Option.map_eq_some_iff] at hkp
  obtain ⟨A, hA, hkp⟩ := hkp
  generalize hG : f.G (d ++ [UInt8.ofNat p.k]) = buf at *
  obtain ⟨A', hA', htr⟩ := genMatrix_transpose hA
  have hpk : pk = vecTobytes p.k (kgT p.k (kgS f p (buf.drop 32)) (kgE f p (buf.drop 32)) A) ++ buf.take 32 := by
    injection hkp with h1 h2
    exact h1.symm
  have hsk : sk = vecTobytes p.k (fun i => polyNtt (kgS f p (buf.drop 32) i)) := by
    injection hkp with h1 h2
    exact h2.symm
  clear hkp
  have hpkl : pk.length = p.pkLen := by
    rw [hpk, List.length_append, List.length_take, hlen]
    unfold vecTobytes Par.pkLen
    rw [flatMap_length (fun i => tobytes_length _)]; rfl
  have hskl : sk.length = 384 * p.k := by
    rw [hsk]
    unfold vecTobytes
    rw [flatMap_length (fun i => tobytes_length _)]
  have hseed : (pk.drop (384 * p.k)).take 32 = buf.take 32 := by
    rw [hpk]
    unfold vecTobytes
    rw [flatMap_rest (fun i => tobytes_length _), List.take_take, Nat.min_self]
  refine ⟨hpkl, hskl, packCiphertext p (encB f p coins (encMem f p pk coins A')) (encV f p msg coins (encMem f p pk coins A')), ?_, ?_, ?_⟩
  · unfold indcpaEnc
    rw [if_pos (modulus_check_vacuous p pk hpkl), hseed, hA']
  · unfold packCiphertext Par.ctLen
    rw [List.length_append, flatMap_length (fun i => compressU_length _ hdu _), compressV_length _ hdv]
  intro hn
  -- polynomials
  choose PA hPA using fun i j => split_exists (cast (A i j))
  have hAb := fun i j hi hj => genMatrix_bnd hA i j hi hj
  have hs : ∀ i, Bnd 3 (kgS f p (buf.drop 32) i) := fun i => getnoise_bnd _ _ _ _
  have he : ∀ i, Bnd 3 (kgE f p (buf.drop 32) i) := fun i => getnoise_bnd _ _ _ _
  have hT := fun i (hi : i < p.k) => kgT_spec (by omega) hk4 hs he hAb hPA hi
  have hpkv : ∀ i < p.k, Bnd 4095 (vecFrombytes pk i) ∧ Split 2 128 cz (cast (vecFrombytes pk i))
      ((∑ j ∈ Finset.range p.k, PA i j * toPoly 256 (cast (kgS f p (buf.drop 32) j))) + toPoly 256 (cast (kgE f p (buf.drop 32) i))) := by
    intro i hi
    rw [hpk, vecFrombytes_vecTobytes hi]
    exact ⟨frombytes_bnd _, (hT i hi).2.congr fun x hx => (frombytes_cast (hT i hi).1 x (by omega)).symm⟩
  have hskv : ∀ i < p.k, Split 2 128 cz (cast (vecFrombytes sk i)) (toPoly 256 (cast (kgS f p (buf.drop 32) i))) := by
    intro i hi
    have := vecFrombytes_vecTobytes hi (fun i => polyNtt (kgS f p (buf.drop 32) i)) []
    rw [List.append_nil] at this
    rw [hsk, this]
    obtain ⟨c1, c2⟩ := ntt_self ((hs i).mono (by decide))
    exact c2.congr fun x hx => (frombytes_cast c1 x (by omega)).symm
  have hB := fun i (hi : i < p.k) => encB_spec (f := f) hp (pk := pk) (coins := coins) (A := A')
    (PA := fun i j => PA j i) (fun i j hi hj => by rw [htr i hi j hj]; exact hAb j i hj hi)
    (fun i hi j hj => by rw [htr i hi j hj]; exact hPA j i) hi
  have hV := encV_spec (f := f) hp (pk := pk) (msg := msg) (coins := coins) (A := A') hpkv
  have huE : ∀ i, uOf f p fuel pk coins i = encB f p coins (encMem f p pk coins A') i := fun i => by
    unfold uOf; rw [hseed, hA']
  have hvE : vOf f p fuel pk msg coins = encV f p msg coins (encMem f p pk coins A') := by
    unfold vOf; rw [hseed, hA']
  obtain ⟨n, hn⟩ := hn
  simp only [huE, hvE] at hn
  generalize hbb : encB f p coins (encMem f p pk coins A') = b at *
  generalize hvv : encV f p msg coins (encMem f p pk coins A') = v at *
  generalize hct : packCiphertext p b v = ct at *
  have hbnd : ∀ i < p.k, Bnd 1664 (b i) := fun i hi => (hB i hi).1
  have hU : ∀ i < p.k, ∀ x < 256, unpackU p ct i x = b i x + Spec.err p.du (b i x) := fun i hi x hx => by
    rw [← hct, unpackU_pack hp b v hbnd hi hx]; unfold Spec.err; omega
  have hV' : ∀ x < 256, unpackV p ct x = v x + Spec.err p.dv (v x) := fun x hx => by
    rw [← hct, unpackV_pack hp b v hV.1 hx]; unfold Spec.err; omega
  obtain ⟨w1, w2⟩ := decW_spec hp ct sk hskv
  have hnr := noise_rep p.k (fun i => getnoise f p.eta1 (buf.drop 32) i) (fun i => getnoise f p.eta1 (buf.drop 32) (p.k + i))
      (fun i => getnoise f p.eta1 coins i) (fun i => getnoise f 2 coins (p.k + i)) (fun i y => Spec.err p.du (b i y))
      (getnoise f 2 coins (2 * p.k)) (fun y => Spec.err p.dv (v y))
  have hpolyU : ∀ i ∈ Finset.range p.k, toPoly 256 (cast (kgS f p (buf.drop 32) i)) * toPoly 256 (cast (unpackU p ct i)) =
      toPoly 256 (cast (kgS f p (buf.drop 32) i)) * (toPoly 256 (cast (b i)) + toPoly 256 (cast (fun y => Spec.err p.du (b i y)))) := by
    intro i hi
    have e : toPoly 256 (cast (unpackU p ct i)) = toPoly 256 (cast (fun y => b i y + Spec.err p.du (b i y))) :=
      toPoly_congr fun x hx => by unfold cast; rw [hU i (Finset.mem_range.1 hi) x hx]
    rw [e, toPoly_cast_add]
  have hpolyV : toPoly 256 (cast (unpackV p ct)) = toPoly 256 (cast v) + toPoly 256 (cast (fun y => Spec.err p.dv (v y))) := by
    rw [← toPoly_cast_add]
    refine toPoly_congr fun x hx => ?_
    unfold cast
    rw [hV' x hx]
  rw [Finset.sum_congr rfl hpolyU, hpolyV] at w2
  have hV2 := hV.2
  have hB2 := fun i hi => (hB i hi).2
  have hw := lattice_rep (n := 256) (c := -1) (k := p.k) (v := cast v) (w := cast (decW p ct sk)) (b := fun i => cast (b i)) (PA := PA) (S := fun i => toPoly 256 (cast (kgS f p (buf.drop 32) i)))
    (E := fun i => toPoly 256 (cast (kgE f p (buf.drop 32) i))) (r := fun j => toPoly 256 (cast (getnoise f p.eta1 coins j)))
    (E1 := fun i => toPoly 256 (cast (getnoise f 2 coins (p.k + i)))) (CU := fun i => toPoly 256 (cast (fun y => Spec.err p.du (b i y))))
    (T := fun i => (∑ j ∈ Finset.range p.k, PA i j * toPoly 256 (cast (kgS f p (buf.drop 32) j))) + toPoly 256 (cast (kgE f p (buf.drop 32) i)))
    (E2 := toPoly 256 (cast (getnoise f 2 coins (2 * p.k)))) (M := toPoly 256 (cast (polyFrommsg msg)))
    (CV := toPoly 256 (cast (fun y => Spec.err p.dv (v y)))) (fun j _ => rfl) hV2 hB2 w2
  have hfin := Rep.unique (by decide) hw ((Rep.self 256 (-1) (cast (polyFrommsg msg))).add hnr)
  rw [indcpaDec_eq, tomsg_is_fips _ (fun x hx => by have := w1 x hx; omega)]
  refine Eq.trans (byteEncode_congr 1 (by decide) (fun x hx => ?_)) (byteEncode_decode 1 (by decide) msg hm)
  obtain ⟨n1, n2, n3⟩ := hn x hx
  refine compress1_noise _ (byteDecode_lt 1 msg x) (n x) _ n1 n2 ?_
  have h1 := hfin x hx
  unfold cast at h1
  rw [← Int.cast_add] at h1
  have h2 : (decW p ct sk x - (polyFrommsg msg x + _)) % 3329 = 0 :=
    Int.emod_eq_zero_of_dvd ((ZMod.intCast_zmod_eq_zero_iff_dvd _ 3329).1 (by rw [Int.cast_sub, h1, sub_self]))
  have h3 : polyFrommsg msg x = 1665 * (Spec.byteDecode 1 msg x : Nat) := by
    rw [frommsg_is_fips]
    have := byteDecode_lt 1 msg x
    have e : ∀ y < 2, (Spec.decompress 1 y : Int) = 1665 * (y : Nat) := by decide
    exact e _ this
  rw [h3] at h2
  omega

end LC.Kyber
