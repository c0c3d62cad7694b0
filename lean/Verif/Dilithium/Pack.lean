import Verif.Dilithium.PackLemmas
import Verif.Dilithium.Reduce
/-
C54: bit packing of ML-DSA polynomials is `SimpleBitPack`, `BitPack`, `SimpleBitUnpack`, `BitUnpack`
of FIPS 204 (algorithms 16 to 19).
-/
namespace LC.Dilithium
open LC.Kyber (Poly Byte upd mapLoop at8 b8 sumDigits chunk_encode chunk_decode chunkVal chunkVal_at at8_lt sr or_add byteEncode_congr
  byteDecode_encode byteEncode_decode byteDecode_lt byteEncode_length)
open LC.Kyber.Spec (byteEncode byteDecode)

/-- `SimpleBitPack` with `d` bits per coefficient, algorithm 16. -/
def Spec.simpleBitPack (d : Nat) (w : Nat → Int) : List Byte := byteEncode d (fun x => (w x).toNat)

/-- `BitPack` with `d` bits per coefficient, algorithm 17: the encoded integers are `b - w_i`. -/
def Spec.bitPack (d : Nat) (b : Int) (w : Nat → Int) : List Byte := byteEncode d (fun x => (b - w x).toNat)

/-- `SimpleBitUnpack`, algorithm 18. -/
def Spec.simpleBitUnpack (d : Nat) (v : List Byte) (x : Nat) : Int := byteDecode d v x

/-- `BitUnpack`, algorithm 19. -/
def Spec.bitUnpack (d : Nat) (b : Int) (v : List Byte) (x : Nat) : Int := b - byteDecode d v x

theorem Spec.bitUnpack_pack (d : Nat) (hd : 0 < d) (b : Int) (w : Nat → Int) (x : Nat) (hx : x < 256) (h1 : b - 2 ^ d < w x) (h2 : w x ≤ b) :
    Spec.bitUnpack d b (Spec.bitPack d b w) x = w x := by
  unfold Spec.bitUnpack Spec.bitPack
  have hc : (b - w x).toNat < 2 ^ d := by
    have : ((2 ^ d : Nat) : Int) = 2 ^ d := by simp
    omega
  rw [byteDecode_encode d hd (fun x => (b - w x).toNat) x hx hc]
  omega

theorem Spec.bitPack_unpack (d : Nat) (hd : 0 < d) (b : Int) (v : List Byte) (hv : v.length = 32 * d) :
    Spec.bitPack d b (Spec.bitUnpack d b v) = v := by
  unfold Spec.bitUnpack Spec.bitPack
  rw [byteEncode_congr d hd (c' := byteDecode d v) (fun x _ => by dsimp only; omega), byteEncode_decode d hd v hv]

theorem Spec.bitUnpack_range (d : Nat) (b : Int) (v : List Byte) (x : Nat) : b - 2 ^ d < Spec.bitUnpack d b v x ∧ Spec.bitUnpack d b v x ≤ b := by
  unfold Spec.bitUnpack
  have := byteDecode_lt d v x
  have e : ((2 ^ d : Nat) : Int) = 2 ^ d := by simp
  omega


/-- **C54 (`polyeta_pack`, eta = 2)**. -/
theorem etaPack2 (a : Poly) (ha : ∀ x < 256, -6 < a x ∧ a x ≤ 2) :
    polyetaPack 2 a = Spec.bitPack 3 2 a := by
  unfold Spec.bitPack
  rw [byteEncode_congr 3 (by decide) (c' := fun x => (((2 : Int) - a x) % 256).toNat) (fun x hx => by have := ha x hx; skip; omega)]
  have hlt : ∀ x < 256, (((2 : Int) - a x) % 256).toNat < 8 := fun x hx => by have := ha x hx; skip; omega
  unfold polyetaPack
  rw [if_pos rfl]
  refine chunk_encode (d := 3) (n := 8) (m := 3) (by decide) (by decide) (by decide) (by decide) _ _ (fun _ => rfl) ?_ ?_
  · intro i hi k hk; exact hlt _ (by omega)
  · intro i hi
    exact bytes_e3 _ _ _ _ _ _ _ _ (hlt (8 * i + 0) (by omega)) (hlt (8 * i + 1) (by omega)) (hlt (8 * i + 2) (by omega)) (hlt (8 * i + 3) (by omega)) (hlt (8 * i + 4) (by omega)) (hlt (8 * i + 5) (by omega)) (hlt (8 * i + 6) (by omega)) (hlt (8 * i + 7) (by omega))

/-- **C54 (`polyeta_pack`, eta = 4)**. -/
theorem etaPack4 (a : Poly) (ha : ∀ x < 256, -12 < a x ∧ a x ≤ 4) :
    polyetaPack 4 a = Spec.bitPack 4 4 a := by
  unfold Spec.bitPack
  rw [byteEncode_congr 4 (by decide) (c' := fun x => (((4 : Int) - a x) % 256).toNat) (fun x hx => by have := ha x hx; skip; omega)]
  have hlt : ∀ x < 256, (((4 : Int) - a x) % 256).toNat < 16 := fun x hx => by have := ha x hx; skip; omega
  unfold polyetaPack
  rw [if_neg (by decide)]
  refine chunk_encode (d := 4) (n := 2) (m := 1) (by decide) (by decide) (by decide) (by decide) _ _ (fun _ => rfl) ?_ ?_
  · intro i hi k hk; exact hlt _ (by omega)
  · intro i hi
    exact bytes_e4 _ _ (hlt (2 * i + 0) (by omega)) (hlt (2 * i + 1) (by omega))

/-- **C54 (`polyt1_pack`)**. -/
theorem t1Pack (a : Poly) (ha : ∀ x < 256, 0 ≤ a x ∧ a x < 1024) :
    polyt1Pack a = Spec.simpleBitPack 10 a := by
  unfold Spec.simpleBitPack
  rw [byteEncode_congr 10 (by decide) (c' := fun x => u32 (a x)) (fun x hx => by have := ha x hx; unfold u32; omega)]
  have hlt : ∀ x < 256, u32 (a x) < 1024 := fun x hx => by have := ha x hx; unfold u32; omega
  unfold polyt1Pack
  refine chunk_encode (d := 10) (n := 4) (m := 5) (by decide) (by decide) (by decide) (by decide) _ _ (fun _ => rfl) ?_ ?_
  · intro i hi k hk; exact hlt _ (by omega)
  · intro i hi
    exact bytes_t1 _ _ _ _ (hlt (4 * i + 0) (by omega)) (hlt (4 * i + 1) (by omega)) (hlt (4 * i + 2) (by omega)) (hlt (4 * i + 3) (by omega))

/-- **C54 (`polyt0_pack`)**. -/
theorem t0Pack (a : Poly) (ha : ∀ x < 256, -4096 < a x ∧ a x ≤ 4096) :
    polyt0Pack a = Spec.bitPack 13 4096 a := by
  unfold Spec.bitPack
  rw [byteEncode_congr 13 (by decide) (c' := fun x => u32 (4096 - a x)) (fun x hx => by have := ha x hx; unfold u32; omega)]
  have hlt : ∀ x < 256, u32 (4096 - a x) < 8192 := fun x hx => by have := ha x hx; unfold u32; omega
  unfold polyt0Pack
  refine chunk_encode (d := 13) (n := 8) (m := 13) (by decide) (by decide) (by decide) (by decide) _ _ (fun _ => rfl) ?_ ?_
  · intro i hi k hk; exact hlt _ (by omega)
  · intro i hi
    exact bytes_t0 _ _ _ _ _ _ _ _ (hlt (8 * i + 0) (by omega)) (hlt (8 * i + 1) (by omega)) (hlt (8 * i + 2) (by omega)) (hlt (8 * i + 3) (by omega)) (hlt (8 * i + 4) (by omega)) (hlt (8 * i + 5) (by omega)) (hlt (8 * i + 6) (by omega)) (hlt (8 * i + 7) (by omega))

/-- **C54 (`polyz_pack`, gamma1 = 2^17)**. -/
theorem zPack17 (a : Poly) (ha : ∀ x < 256, -131072 < a x ∧ a x ≤ 131072) :
    polyzPack 131072 a = Spec.bitPack 18 131072 a := by
  unfold Spec.bitPack
  rw [byteEncode_congr 18 (by decide) (c' := fun x => u32 (131072 - a x)) (fun x hx => by have := ha x hx; unfold u32; omega)]
  have hlt : ∀ x < 256, u32 (131072 - a x) < 262144 := fun x hx => by have := ha x hx; unfold u32; omega
  unfold polyzPack
  rw [if_pos rfl]
  refine chunk_encode (d := 18) (n := 4) (m := 9) (by decide) (by decide) (by decide) (by decide) _ _ (fun _ => rfl) ?_ ?_
  · intro i hi k hk; exact hlt _ (by omega)
  · intro i hi
    exact bytes_z18 _ _ _ _ (hlt (4 * i + 0) (by omega)) (hlt (4 * i + 1) (by omega)) (hlt (4 * i + 2) (by omega)) (hlt (4 * i + 3) (by omega))

/-- **C54 (`polyz_pack`, gamma1 = 2^19)**. -/
theorem zPack19 (a : Poly) (ha : ∀ x < 256, -524288 < a x ∧ a x ≤ 524288) :
    polyzPack 524288 a = Spec.bitPack 20 524288 a := by
  unfold Spec.bitPack
  rw [byteEncode_congr 20 (by decide) (c' := fun x => u32 (524288 - a x)) (fun x hx => by have := ha x hx; unfold u32; omega)]
  have hlt : ∀ x < 256, u32 (524288 - a x) < 1048576 := fun x hx => by have := ha x hx; unfold u32; omega
  unfold polyzPack
  rw [if_neg (by decide)]
  refine chunk_encode (d := 20) (n := 2) (m := 5) (by decide) (by decide) (by decide) (by decide) _ _ (fun _ => rfl) ?_ ?_
  · intro i hi k hk; exact hlt _ (by omega)
  · intro i hi
    exact bytes_z20 _ _ (hlt (2 * i + 0) (by omega)) (hlt (2 * i + 1) (by omega))

/-- **C54 (`polyw1_pack`, gamma2 = (q-1)/88)**. -/
theorem w1Pack88 (a : Poly) (ha : ∀ x < 256, 0 ≤ a x ∧ a x < 64) :
    polyw1Pack 95232 a = Spec.simpleBitPack 6 a := by
  unfold Spec.simpleBitPack
  rw [byteEncode_congr 6 (by decide) (c' := fun x => u32 (a x)) (fun x hx => by have := ha x hx; unfold u32; omega)]
  have hlt : ∀ x < 256, u32 (a x) < 64 := fun x hx => by have := ha x hx; unfold u32; omega
  unfold polyw1Pack
  rw [if_pos rfl]
  refine chunk_encode (d := 6) (n := 4) (m := 3) (by decide) (by decide) (by decide) (by decide) _ _ (fun _ => rfl) ?_ ?_
  · intro i hi k hk; exact hlt _ (by omega)
  · intro i hi
    exact bytes_w6 _ _ _ _ (hlt (4 * i + 0) (by omega)) (hlt (4 * i + 1) (by omega)) (hlt (4 * i + 2) (by omega)) (hlt (4 * i + 3) (by omega))

/-- **C54 (`polyw1_pack`, gamma2 = (q-1)/32)**. -/
theorem w1Pack32 (a : Poly) (ha : ∀ x < 256, 0 ≤ a x ∧ a x < 16) :
    polyw1Pack 261888 a = Spec.simpleBitPack 4 a := by
  unfold Spec.simpleBitPack
  rw [byteEncode_congr 4 (by decide) (c' := fun x => u32 (a x)) (fun x hx => by have := ha x hx; unfold u32; omega)]
  have hlt : ∀ x < 256, u32 (a x) < 16 := fun x hx => by have := ha x hx; unfold u32; omega
  unfold polyw1Pack
  rw [if_neg (by decide)]
  refine chunk_encode (d := 4) (n := 2) (m := 1) (by decide) (by decide) (by decide) (by decide) _ _ (fun _ => rfl) ?_ ?_
  · intro i hi k hk; exact hlt _ (by omega)
  · intro i hi
    exact bytes_e4 _ _ (hlt (2 * i + 0) (by omega)) (hlt (2 * i + 1) (by omega))

/-- **C54 (`polyeta_unpack`, eta = 2)**, for every byte string. -/
theorem etaUnpack2 (b : List Byte) (x : Nat) : polyetaUnpack 2 b x = Spec.bitUnpack 3 2 b x := by
  unfold Spec.bitUnpack
  rw [← chunk_e3 b x]
  unfold polyetaUnpack
  rw [if_pos rfl]
  unfold chunkVal
  dsimp only
  rw [← vals_e3_eq _ _ _ (at8_lt _ _) (at8_lt _ _) (at8_lt _ _)]

/-- **C54 (`polyeta_unpack`, eta = 4)**, for every byte string. -/
theorem etaUnpack4 (b : List Byte) (x : Nat) : polyetaUnpack 4 b x = Spec.bitUnpack 4 4 b x := by
  unfold Spec.bitUnpack
  rw [← chunk_e4 b x]
  unfold polyetaUnpack
  rw [if_neg (by decide)]
  unfold chunkVal
  dsimp only
  rw [← vals_e4_eq _ (at8_lt _ _)]
  rw [Nat.one_mul, Nat.add_zero]

/-- **C54 (`polyt1_unpack`)**, for every byte string. -/
theorem t1Unpack (b : List Byte) (x : Nat) : polyt1Unpack b x = Spec.simpleBitUnpack 10 b x := by
  unfold Spec.simpleBitUnpack
  rw [← chunk_t1 b x]
  unfold polyt1Unpack
  unfold chunkVal
  dsimp only
  rw [← vals_t1_eq _ _ _ _ _ (at8_lt _ _) (at8_lt _ _) (at8_lt _ _) (at8_lt _ _) (at8_lt _ _)]

/-- **C54 (`polyt0_unpack`)**, for every byte string. -/
theorem t0Unpack (b : List Byte) (x : Nat) : polyt0Unpack b x = Spec.bitUnpack 13 4096 b x := by
  unfold Spec.bitUnpack
  rw [← chunk_t0 b x]
  unfold polyt0Unpack
  unfold chunkVal
  dsimp only
  rw [← vals_t0_eq _ _ _ _ _ _ _ _ _ _ _ _ _ (at8_lt _ _) (at8_lt _ _) (at8_lt _ _) (at8_lt _ _) (at8_lt _ _) (at8_lt _ _) (at8_lt _ _) (at8_lt _ _) (at8_lt _ _) (at8_lt _ _) (at8_lt _ _) (at8_lt _ _) (at8_lt _ _)]

/-- **C54 (`polyz_unpack`, gamma1 = 2^17)**, for every byte string. -/
theorem zUnpack17 (b : List Byte) (x : Nat) : polyzUnpack 131072 b x = Spec.bitUnpack 18 131072 b x := by
  unfold Spec.bitUnpack
  rw [← chunk_z18 b x]
  unfold polyzUnpack
  rw [if_pos rfl]
  unfold chunkVal
  dsimp only
  rw [← vals_z18_eq _ _ _ _ _ _ _ _ _ (at8_lt _ _) (at8_lt _ _) (at8_lt _ _) (at8_lt _ _) (at8_lt _ _) (at8_lt _ _) (at8_lt _ _) (at8_lt _ _) (at8_lt _ _)]

/-- **C54 (`polyz_unpack`, gamma1 = 2^19)**, for every byte string. -/
theorem zUnpack19 (b : List Byte) (x : Nat) : polyzUnpack 524288 b x = Spec.bitUnpack 20 524288 b x := by
  unfold Spec.bitUnpack
  rw [← chunk_z20 b x]
  unfold polyzUnpack
  rw [if_neg (by decide)]
  unfold chunkVal
  dsimp only
  rw [← vals_z20_eq _ _ _ _ _ (at8_lt _ _) (at8_lt _ _) (at8_lt _ _) (at8_lt _ _) (at8_lt _ _)]

/-! ### Round trips -/

/-- The length of a packed secret polynomial. -/
def etaLen (eta : Nat) : Nat := if eta = 2 then 96 else 128
/-- The length of a packed `z` polynomial. -/
def zLen (gamma1 : Nat) : Nat := if gamma1 = 131072 then 576 else 640

/-- **C54 (eta)**: unpacking what was packed returns the polynomial. -/
theorem eta_roundtrip (eta : Nat) (he : eta = 2 ∨ eta = 4) (a : Poly) (ha : ∀ x < 256, -(eta : Int) ≤ a x ∧ a x ≤ eta) (x : Nat) (hx : x < 256) :
    polyetaUnpack eta (polyetaPack eta a) x = a x := by
  have h := ha x hx
  rcases he with rfl | rfl
  · rw [etaUnpack2, etaPack2 a (fun x hx => by have := ha x hx; omega)]
    exact Spec.bitUnpack_pack 3 (by decide) 2 a x hx (by omega) (by omega)
  · rw [etaUnpack4, etaPack4 a (fun x hx => by have := ha x hx; omega)]
    exact Spec.bitUnpack_pack 4 (by decide) 4 a x hx (by omega) (by omega)

/-- **C54 (t1)**. -/
theorem t1_roundtrip (a : Poly) (ha : ∀ x < 256, 0 ≤ a x ∧ a x < 1024) (x : Nat) (hx : x < 256) : polyt1Unpack (polyt1Pack a) x = a x := by
  have h := ha x hx
  rw [t1Unpack, t1Pack a ha]
  unfold Spec.simpleBitUnpack Spec.simpleBitPack
  rw [byteDecode_encode 10 (by decide) (fun x => (a x).toNat) x hx (by show (a x).toNat < 1024; omega)]
  omega

/-- **C54 (t1, bytes)**: the 320 byte strings and the polynomials with coefficients in `[0, 1024)`
correspond one to one. -/
theorem t1_bytes (b : List Byte) (hb : b.length = 320) : polyt1Pack (polyt1Unpack b) = b ∧ ∀ x, 0 ≤ polyt1Unpack b x ∧ polyt1Unpack b x < 1024 := by
  have h : ∀ x, 0 ≤ polyt1Unpack b x ∧ polyt1Unpack b x < 1024 := by
    intro x
    rw [t1Unpack]
    unfold Spec.simpleBitUnpack
    have : byteDecode 10 b x < 1024 := byteDecode_lt 10 b x
    omega
  refine ⟨?_, h⟩
  rw [t1Pack _ (fun x _ => h x)]
  unfold Spec.simpleBitPack
  rw [byteEncode_congr 10 (by decide) (c' := byteDecode 10 b) (fun x _ => by
    rw [t1Unpack]; unfold Spec.simpleBitUnpack; omega), byteEncode_decode 10 (by decide) b hb]

/-- **C54 (t0)**. -/
theorem t0_roundtrip (a : Poly) (ha : ∀ x < 256, -4096 < a x ∧ a x ≤ 4096) (x : Nat) (hx : x < 256) : polyt0Unpack (polyt0Pack a) x = a x := by
  have h := ha x hx
  rw [t0Unpack, t0Pack a ha]
  exact Spec.bitUnpack_pack 13 (by decide) 4096 a x hx (by omega) (by omega)

/-- **C54 (t0, bytes)**. -/
theorem t0_bytes (b : List Byte) (hb : b.length = 416) : polyt0Pack (polyt0Unpack b) = b ∧ ∀ x, -4096 < polyt0Unpack b x ∧ polyt0Unpack b x ≤ 4096 := by
  have h : ∀ x, -4096 < polyt0Unpack b x ∧ polyt0Unpack b x ≤ 4096 := by
    intro x; rw [t0Unpack]; have := Spec.bitUnpack_range 13 4096 b x; omega
  refine ⟨?_, h⟩
  rw [t0Pack _ (fun x _ => h x), show polyt0Unpack b = Spec.bitUnpack 13 4096 b from funext fun x => t0Unpack b x]
  exact Spec.bitPack_unpack 13 (by decide) 4096 b hb

/-- **C54 (z)**. -/
theorem z_roundtrip (g : Nat) (hg : g = 131072 ∨ g = 524288) (a : Poly) (ha : ∀ x < 256, -(g : Int) < a x ∧ a x ≤ g) (x : Nat) (hx : x < 256) :
    polyzUnpack g (polyzPack g a) x = a x := by
  have h := ha x hx
  rcases hg with rfl | rfl
  · rw [zUnpack17, zPack17 a (fun x hx => by have := ha x hx; omega)]
    exact Spec.bitUnpack_pack 18 (by decide) 131072 a x hx (by omega) (by omega)
  · rw [zUnpack19, zPack19 a (fun x hx => by have := ha x hx; omega)]
    exact Spec.bitUnpack_pack 20 (by decide) 524288 a x hx (by omega) (by omega)

/-- **C54 (z, bytes)**: every string of the right length is the packing of exactly the polynomial it
unpacks to, whose coefficients are in `(-gamma1, gamma1]`. -/
theorem z_bytes (g : Nat) (hg : g = 131072 ∨ g = 524288) (b : List Byte) (hb : b.length = zLen g) :
    polyzPack g (polyzUnpack g b) = b ∧ ∀ x, -(g : Int) < polyzUnpack g b x ∧ polyzUnpack g b x ≤ g := by
  rcases hg with rfl | rfl
  · have h : ∀ x, -((131072 : Nat) : Int) < polyzUnpack 131072 b x ∧ polyzUnpack 131072 b x ≤ (131072 : Nat) := by
      intro x; rw [zUnpack17]; have := Spec.bitUnpack_range 18 131072 b x; omega
    refine ⟨?_, h⟩
    rw [zPack17 _ (fun x _ => h x), show polyzUnpack 131072 b = Spec.bitUnpack 18 131072 b from funext fun x => zUnpack17 b x]
    exact Spec.bitPack_unpack 18 (by decide) 131072 b hb
  · have h : ∀ x, -((524288 : Nat) : Int) < polyzUnpack 524288 b x ∧ polyzUnpack 524288 b x ≤ (524288 : Nat) := by
      intro x; rw [zUnpack19]; have := Spec.bitUnpack_range 20 524288 b x; omega
    refine ⟨?_, h⟩
    rw [zPack19 _ (fun x _ => h x), show polyzUnpack 524288 b = Spec.bitUnpack 20 524288 b from funext fun x => zUnpack19 b x]
    exact Spec.bitPack_unpack 20 (by decide) 524288 b hb

/-- **C54 (w1)**: packed high bits determine the high bits. -/
theorem w1_injective (g : Nat) (hg : g = 95232 ∨ g = 261888) (a b : Poly) (ha : ∀ x < 256, 0 ≤ a x ∧ a x * (2 * g) < 8380416)
    (hb : ∀ x < 256, 0 ≤ b x ∧ b x * (2 * g) < 8380416) (h : polyw1Pack g a = polyw1Pack g b) (x : Nat) (hx : x < 256) : a x = b x := by
  have h1 := ha x hx
  have h2 := hb x hx
  rcases hg with rfl | rfl
  · rw [w1Pack88 a (fun x hx => by have := ha x hx; omega), w1Pack88 b (fun x hx => by have := hb x hx; omega)] at h
    unfold Spec.simpleBitPack at h
    have e1 := byteDecode_encode 6 (by decide) (fun x => (a x).toNat) x hx (by show (a x).toNat < 64; omega)
    have e2 := byteDecode_encode 6 (by decide) (fun x => (b x).toNat) x hx (by show (b x).toNat < 64; omega)
    rw [h, e2] at e1
    omega
  · rw [w1Pack32 a (fun x hx => by have := ha x hx; omega), w1Pack32 b (fun x hx => by have := hb x hx; omega)] at h
    unfold Spec.simpleBitPack at h
    have e1 := byteDecode_encode 4 (by decide) (fun x => (a x).toNat) x hx (by show (a x).toNat < 16; omega)
    have e2 := byteDecode_encode 4 (by decide) (fun x => (b x).toNat) x hx (by show (b x).toNat < 16; omega)
    rw [h, e2] at e1
    omega

/-- Lengths. -/
theorem etaPack_length (eta : Nat) (a : Poly) : (polyetaPack eta a).length = etaLen eta := by
  unfold polyetaPack etaLen; split
  · exact LC.Kyber.flatMap_length (m := 3) (fun _ => rfl) 32
  · exact LC.Kyber.flatMap_length (m := 1) (fun _ => rfl) 128
theorem t1Pack_length (a : Poly) : (polyt1Pack a).length = 320 := LC.Kyber.flatMap_length (m := 5) (fun _ => rfl) 64
theorem t0Pack_length (a : Poly) : (polyt0Pack a).length = 416 := LC.Kyber.flatMap_length (m := 13) (fun _ => rfl) 32
theorem zPack_length (g : Nat) (a : Poly) : (polyzPack g a).length = zLen g := by
  unfold polyzPack zLen; split
  · exact LC.Kyber.flatMap_length (m := 9) (fun _ => rfl) 64
  · exact LC.Kyber.flatMap_length (m := 5) (fun _ => rfl) 128

/-- The hypotheses are met by polynomials that use the whole range, and the packings are not trivial. -/
example : (∀ x < 256, -4096 < (fun x : Nat => if x = 3 then 4096 else -4095 + 32 * (x : Int)) x ∧
      (fun x : Nat => if x = 3 then 4096 else -4095 + 32 * (x : Int)) x ≤ 4096) ∧
    (polyt0Pack (fun x : Nat => if x = 3 then 4096 else -4095 + 32 * (x : Int))).take 4 = [0xff, 0xff, 0xfb, 0xff] ∧
    (polyzPack 131072 (fun x : Nat => (x : Int) - 100)).take 4 = [0x64, 0x00, 0x8e, 0x01] ∧
    polyetaUnpack 2 [0xff, 0x00] 0 = -5 := by
  refine ⟨fun x hx => by dsimp only; split <;> omega, by decide +kernel, by decide +kernel, by decide +kernel⟩

end LC.Dilithium
