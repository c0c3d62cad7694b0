import Verif.Sponge.Keccak
/- The C code of the permutation equals the FIPS 202 step mappings. -/
namespace LC.Sponge.Keccak
open Fips

theorem rol_eq (x : W) (n : Nat) (h0 : 0 < n) (h : n < 64) : rol x n = x.rotateLeft n := by
  have e1 : n &&& 63 = n := by
    have := Nat.and_two_pow_sub_one_eq_mod n 6
    simp at this; rw [this]; omega
  have e2 : (64 - n) &&& 63 = 64 - n := by
    have := Nat.and_two_pow_sub_one_eq_mod (64 - n) 6
    simp at this; rw [this]; omega
  rw [rol, e1, e2, BitVec.rotateLeft_def, Nat.mod_eq_of_lt h]

theorem off_0_0 : offset 0 0 = 0 := by decide +kernel
theorem off_1_0 : offset 1 0 = 1 := by decide +kernel
theorem off_2_0 : offset 2 0 = 62 := by decide +kernel
theorem off_3_0 : offset 3 0 = 28 := by decide +kernel
theorem off_4_0 : offset 4 0 = 27 := by decide +kernel
theorem off_0_1 : offset 0 1 = 36 := by decide +kernel
theorem off_1_1 : offset 1 1 = 44 := by decide +kernel
theorem off_2_1 : offset 2 1 = 6 := by decide +kernel
theorem off_3_1 : offset 3 1 = 55 := by decide +kernel
theorem off_4_1 : offset 4 1 = 20 := by decide +kernel
theorem off_0_2 : offset 0 2 = 3 := by decide +kernel
theorem off_1_2 : offset 1 2 = 10 := by decide +kernel
theorem off_2_2 : offset 2 2 = 43 := by decide +kernel
theorem off_3_2 : offset 3 2 = 25 := by decide +kernel
theorem off_4_2 : offset 4 2 = 39 := by decide +kernel
theorem off_0_3 : offset 0 3 = 41 := by decide +kernel
theorem off_1_3 : offset 1 3 = 45 := by decide +kernel
theorem off_2_3 : offset 2 3 = 15 := by decide +kernel
theorem off_3_3 : offset 3 3 = 21 := by decide +kernel
theorem off_4_3 : offset 4 3 = 8 := by decide +kernel
theorem off_0_4 : offset 0 4 = 18 := by decide +kernel
theorem off_1_4 : offset 1 4 = 2 := by decide +kernel
theorem off_2_4 : offset 2 4 = 61 := by decide +kernel
theorem off_3_4 : offset 3 4 = 56 := by decide +kernel
theorem off_4_4 : offset 4 4 = 14 := by decide +kernel

theorem range25 : List.range 25 = [0, 1, 2, 3, 4, 5, 6, 7, 8, 9, 10, 11, 12, 13, 14, 15, 16, 17, 18, 19, 20, 21, 22, 23, 24] := rfl

theorem len25 (s : List W) (h : s.length = 25) : ∃ a0 a1 a2 a3 a4 a5 a6 a7 a8 a9 a10 a11 a12 a13 a14 a15 a16 a17 a18 a19 a20 a21 a22 a23 a24, s = [a0, a1, a2, a3, a4, a5, a6, a7, a8, a9, a10, a11, a12, a13, a14, a15, a16, a17, a18, a19, a20, a21, a22, a23, a24] := by
  match s, h with
  | [a0, a1, a2, a3, a4, a5, a6, a7, a8, a9, a10, a11, a12, a13, a14, a15, a16, a17, a18, a19, a20, a21, a22, a23, a24], _ => exact ⟨a0, a1, a2, a3, a4, a5, a6, a7, a8, a9, a10, a11, a12, a13, a14, a15, a16, a17, a18, a19, a20, a21, a22, a23, a24, rfl⟩

theorem rotateLeft_zero' (x : W) : x.rotateLeft 0 = x := by
  rw [BitVec.rotateLeft_def]; simp [BitVec.ushiftRight_eq_zero]

set_option maxRecDepth 4000 in
theorem thetaRhoPi_eq (a0 a1 a2 a3 a4 a5 a6 a7 a8 a9 a10 a11 a12 a13 a14 a15 a16 a17 a18 a19 a20 a21 a22 a23 a24 : W) :
    thetaRhoPi [a0, a1, a2, a3, a4, a5, a6, a7, a8, a9, a10, a11, a12, a13, a14, a15, a16, a17, a18, a19, a20, a21, a22, a23, a24] = pi (rho (theta [a0, a1, a2, a3, a4, a5, a6, a7, a8, a9, a10, a11, a12, a13, a14, a15, a16, a17, a18, a19, a20, a21, a22, a23, a24])) := by
  simp [thetaRhoPi, g, A, rhoRol, rol_eq, pi, rho, theta, mk, range25, lane, rotateLeft_zero', off_0_0, off_1_0, off_2_0, off_3_0, off_4_0, off_0_1, off_1_1, off_2_1, off_3_1, off_4_1, off_0_2, off_1_2, off_2_2, off_3_2, off_4_2, off_0_3, off_1_3, off_2_3, off_3_3, off_4_3, off_0_4, off_1_4, off_2_4, off_3_4, off_4_4]

set_option maxRecDepth 4000 in
theorem chiIota_eq (a0 a1 a2 a3 a4 a5 a6 a7 a8 a9 a10 a11 a12 a13 a14 a15 a16 a17 a18 a19 a20 a21 a22 a23 a24 : W) (i : Nat) :
    chiIota [a0, a1, a2, a3, a4, a5, a6, a7, a8, a9, a10, a11, a12, a13, a14, a15, a16, a17, a18, a19, a20, a21, a22, a23, a24] (RC i) = iota i (chi [a0, a1, a2, a3, a4, a5, a6, a7, a8, a9, a10, a11, a12, a13, a14, a15, a16, a17, a18, a19, a20, a21, a22, a23, a24]) := by
  simp [chiIota, g, A, iota, chi, mk, range25, lane]

theorem iotaVals_eq : iotaVals = (List.range 24).map RC := by decide +kernel

theorem mk_length (f : Nat → Nat → W) : (mk f).length = 25 := by simp [mk]

/-- One iteration of the C loop is one FIPS 202 round. -/
theorem round_eq (s : List W) (h : s.length = 25) (i : Nat) :
    chiIota (thetaRhoPi s) (RC i) = round i s := by
  obtain ⟨a0, a1, a2, a3, a4, a5, a6, a7, a8, a9, a10, a11, a12, a13, a14, a15, a16, a17, a18, a19, a20, a21, a22, a23, a24, rfl⟩ := len25 s h
  rw [thetaRhoPi_eq]
  have h2 : (pi (rho (theta [a0, a1, a2, a3, a4, a5, a6, a7, a8, a9, a10, a11, a12, a13, a14, a15, a16, a17, a18, a19, a20, a21, a22, a23, a24]))).length = 25 := mk_length _
  unfold round
  generalize pi (rho (theta [a0, a1, a2, a3, a4, a5, a6, a7, a8, a9, a10, a11, a12, a13, a14, a15, a16, a17, a18, a19, a20, a21, a22, a23, a24])) = t at h2
  obtain ⟨b0, b1, b2, b3, b4, b5, b6, b7, b8, b9, b10, b11, b12, b13, b14, b15, b16, b17, b18, b19, b20, b21, b22, b23, b24, rfl⟩ := len25 t h2
  exact chiIota_eq _ _ _ _ _ _ _ _ _ _ _ _ _ _ _ _ _ _ _ _ _ _ _ _ _ i

theorem foldl_round (l : List Nat) : ∀ s : List W, s.length = 25 →
    (l.map RC).foldl (fun s rc => chiIota (thetaRhoPi s) rc) s = l.foldl (fun s i => round i s) s := by
  induction l with
  | nil => intro s _; rfl
  | cons i l ih =>
    intro s h
    simp only [List.map_cons, List.foldl_cons]
    rw [round_eq s h i]
    exact ih _ (by unfold round iota; exact mk_length _)

end LC.Sponge.Keccak
