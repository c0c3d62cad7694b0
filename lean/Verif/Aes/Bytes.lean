import Verif.Aes.Model
import Verif.Aes.Spec
/- Facts about single bytes and columns. -/
namespace LC.Aes

/-! ### Bytes -/

theorem forall_byte {P : Byte → Prop} (h : ∀ x : Fin 256, P (UInt8.ofNat x.val)) (w : Byte) : P w := by
  have := h ⟨w.toNat, w.toNat_lt⟩
  simpa using this

theorem rsbox_sbox (x : Byte) : getSBoxInvert (getSBoxValue x) = x := by
  revert x; exact forall_byte (by decide +kernel)

theorem sbox_rsbox (x : Byte) : getSBoxValue (getSBoxInvert x) = x := by
  revert x; exact forall_byte (by decide +kernel)

/-- The function used in the specification of the S-box is the inverse. -/
theorem ginv_correct : ∀ a : Fin 256, a.val ≠ 0 → Spec.gmul a.val (Spec.ginv a.val) = 1 := by
  decide +kernel

theorem sbox_spec (x : Byte) : getSBoxValue x = Spec.sbox x := by
  revert x; exact forall_byte (by decide +kernel)

theorem xtime_xor (a b : Byte) : xtime (a ^^^ b) = xtime a ^^^ xtime b := by
  have h : ∀ x : Byte, xtime x = (x <<< 1) ^^^ (if x.toBitVec.msb then 0x1b else 0) := by
    exact forall_byte (by decide +kernel)
  rw [h, h, h]
  have hs : (a ^^^ b) <<< 1 = (a <<< 1) ^^^ (b <<< 1) := by
    apply UInt8.toBitVec_inj.mp
    simp [UInt8.toBitVec_shiftLeft, BitVec.shiftLeft_xor_distrib]
  rw [hs]
  have hm : (a ^^^ b).toBitVec.msb = (a.toBitVec.msb ^^ b.toBitVec.msb) := by
    rw [UInt8.toBitVec_xor, BitVec.msb_xor]
  rw [hm]
  cases a.toBitVec.msb <;> cases b.toBitVec.msb
  · simp
  · simp only [Bool.false_xor, if_true, Bool.false_eq_true, if_false, UInt8.xor_zero]; ac_rfl
  · simp only [Bool.xor_false, if_true, Bool.false_eq_true, if_false, UInt8.xor_zero]; ac_rfl
  · simp only [Bool.xor_self, if_true, Bool.false_eq_true, if_false, UInt8.xor_zero]
    rw [show ((a <<< 1) ^^^ (0x1b : Byte) ^^^ ((b <<< 1) ^^^ (0x1b : Byte)) : Byte) = ((a <<< 1) ^^^ (b <<< 1)) ^^^ ((0x1b : Byte) ^^^ 0x1b) by ac_rfl]
    simp

/-- `Multiply(x, y)` for the constants used, as sums of `xtime` powers. -/
theorem multiply_9 (x : Byte) : multiply x 0x09 = x ^^^ xtime (xtime (xtime x)) := by
  revert x; exact forall_byte (by decide +kernel)
theorem multiply_11 (x : Byte) : multiply x 0x0b = x ^^^ xtime x ^^^ xtime (xtime (xtime x)) := by
  revert x; exact forall_byte (by decide +kernel)
theorem multiply_13 (x : Byte) :
    multiply x 0x0d = x ^^^ xtime (xtime x) ^^^ xtime (xtime (xtime x)) := by
  revert x; exact forall_byte (by decide +kernel)
theorem multiply_14 (x : Byte) :
    multiply x 0x0e = xtime x ^^^ xtime (xtime x) ^^^ xtime (xtime (xtime x)) := by
  revert x; exact forall_byte (by decide +kernel)

theorem multiply_xor (y : Byte) (hy : y = 9 ∨ y = 11 ∨ y = 13 ∨ y = 14) (a b : Byte) :
    multiply (a ^^^ b) y = multiply a y ^^^ multiply b y := by
  rcases hy with rfl | rfl | rfl | rfl
  · simp only [multiply_9, xtime_xor]; ac_rfl
  · simp only [multiply_11, xtime_xor]; ac_rfl
  · simp only [multiply_13, xtime_xor]; ac_rfl
  · simp only [multiply_14, xtime_xor]; ac_rfl

/-- The usual form of MixColumns. -/
theorem mixColumn_eq (a b c d : Byte) : mixColumn a b c d =
    [xtime a ^^^ (xtime b ^^^ b) ^^^ c ^^^ d, a ^^^ xtime b ^^^ (xtime c ^^^ c) ^^^ d,
      a ^^^ b ^^^ xtime c ^^^ (xtime d ^^^ d), (xtime a ^^^ a) ^^^ b ^^^ c ^^^ xtime d] := by
  have key : ∀ x y : Byte, x ^^^ (x ^^^ y) = y := by
    intro x y; rw [← UInt8.xor_assoc, UInt8.xor_self, UInt8.zero_xor]
  simp only [mixColumn, xtime_xor]
  congr 1
  · rw [show (a ^^^ (xtime a ^^^ xtime b ^^^ (a ^^^ b ^^^ c ^^^ d)) : Byte) =
      a ^^^ (a ^^^ (xtime a ^^^ (xtime b ^^^ b) ^^^ c ^^^ d)) by ac_rfl, key]
  congr 1
  · rw [show (b ^^^ (xtime b ^^^ xtime c ^^^ (a ^^^ b ^^^ c ^^^ d)) : Byte) =
      b ^^^ (b ^^^ (a ^^^ xtime b ^^^ (xtime c ^^^ c) ^^^ d)) by ac_rfl, key]
  congr 1
  · rw [show (c ^^^ (xtime c ^^^ xtime d ^^^ (a ^^^ b ^^^ c ^^^ d)) : Byte) =
      c ^^^ (c ^^^ (a ^^^ b ^^^ xtime c ^^^ (xtime d ^^^ d))) by ac_rfl, key]
  congr 1
  · rw [show (d ^^^ (xtime d ^^^ xtime a ^^^ (a ^^^ b ^^^ c ^^^ d)) : Byte) =
      d ^^^ (d ^^^ ((xtime a ^^^ a) ^^^ b ^^^ c ^^^ xtime d)) by ac_rfl, key]

/-- A linear combination of four bytes that is the identity on the first and zero on the
others. -/
theorem collect {f0 f1 f2 f3 : Byte → Byte} {a b c d : Byte} (r : Byte)
    (h : r = f0 a ^^^ f1 b ^^^ f2 c ^^^ f3 d) (h0 : ∀ x, f0 x = x) (h1 : ∀ x, f1 x = 0)
    (h2 : ∀ x, f2 x = 0) (h3 : ∀ x, f3 x = 0) : r = a := by
  rw [h, h0, h1, h2, h3]; simp

local macro "byte_fact" : tactic => `(tactic| exact forall_byte (by decide +kernel))

theorem invMixColumn_mixColumn (a b c d : Byte) :
    invMixColumn (xtime a ^^^ (xtime b ^^^ b) ^^^ c ^^^ d) (a ^^^ xtime b ^^^ (xtime c ^^^ c) ^^^ d)
      (a ^^^ b ^^^ xtime c ^^^ (xtime d ^^^ d)) ((xtime a ^^^ a) ^^^ b ^^^ c ^^^ xtime d) =
    [a, b, c, d] := by
  simp only [invMixColumn, multiply_xor 9 (by simp), multiply_xor 11 (by simp),
    multiply_xor 13 (by simp), multiply_xor 14 (by simp)]
  congr 1
  · exact collect (a := a) (b := b) (c := c) (d := d)
      (f0 := fun x => multiply (xtime x) 14 ^^^ multiply x 11 ^^^ multiply x 13 ^^^ multiply (xtime x) 9 ^^^ multiply x 9)
      (f1 := fun x => multiply (xtime x) 14 ^^^ multiply x 14 ^^^ multiply (xtime x) 11 ^^^ multiply x 13 ^^^ multiply x 9)
      (f2 := fun x => multiply x 14 ^^^ multiply (xtime x) 11 ^^^ multiply x 11 ^^^ multiply (xtime x) 13 ^^^ multiply x 9)
      (f3 := fun x => multiply x 14 ^^^ multiply x 11 ^^^ multiply (xtime x) 13 ^^^ multiply x 13 ^^^ multiply (xtime x) 9)
      _ (by ac_rfl) (by byte_fact) (by byte_fact) (by byte_fact) (by byte_fact)
  congr 1
  · exact collect (a := b) (b := c) (c := d) (d := a)
      (f0 := fun x => multiply (xtime x) 9 ^^^ multiply x 9 ^^^ multiply (xtime x) 14 ^^^ multiply x 11 ^^^ multiply x 13)
      (f1 := fun x => multiply x 9 ^^^ multiply (xtime x) 14 ^^^ multiply x 14 ^^^ multiply (xtime x) 11 ^^^ multiply x 13)
      (f2 := fun x => multiply x 9 ^^^ multiply x 14 ^^^ multiply (xtime x) 11 ^^^ multiply x 11 ^^^ multiply (xtime x) 13)
      (f3 := fun x => multiply (xtime x) 9 ^^^ multiply x 14 ^^^ multiply x 11 ^^^ multiply (xtime x) 13 ^^^ multiply x 13)
      _ (by ac_rfl) (by byte_fact) (by byte_fact) (by byte_fact) (by byte_fact)
  congr 1
  · exact collect (a := c) (b := d) (c := a) (d := b)
      (f0 := fun x => multiply x 13 ^^^ multiply (xtime x) 9 ^^^ multiply x 9 ^^^ multiply (xtime x) 14 ^^^ multiply x 11)
      (f1 := fun x => multiply x 13 ^^^ multiply x 9 ^^^ multiply (xtime x) 14 ^^^ multiply x 14 ^^^ multiply (xtime x) 11)
      (f2 := fun x => multiply (xtime x) 13 ^^^ multiply x 9 ^^^ multiply x 14 ^^^ multiply (xtime x) 11 ^^^ multiply x 11)
      (f3 := fun x => multiply (xtime x) 13 ^^^ multiply x 13 ^^^ multiply (xtime x) 9 ^^^ multiply x 14 ^^^ multiply x 11)
      _ (by ac_rfl) (by byte_fact) (by byte_fact) (by byte_fact) (by byte_fact)
  congr 1
  · exact collect (a := d) (b := a) (c := b) (d := c)
      (f0 := fun x => multiply x 11 ^^^ multiply x 13 ^^^ multiply (xtime x) 9 ^^^ multiply x 9 ^^^ multiply (xtime x) 14)
      (f1 := fun x => multiply (xtime x) 11 ^^^ multiply x 13 ^^^ multiply x 9 ^^^ multiply (xtime x) 14 ^^^ multiply x 14)
      (f2 := fun x => multiply (xtime x) 11 ^^^ multiply x 11 ^^^ multiply (xtime x) 13 ^^^ multiply x 9 ^^^ multiply x 14)
      (f3 := fun x => multiply x 11 ^^^ multiply (xtime x) 13 ^^^ multiply x 13 ^^^ multiply (xtime x) 9 ^^^ multiply x 14)
      _ (by ac_rfl) (by byte_fact) (by byte_fact) (by byte_fact) (by byte_fact)

theorem mixColumn_invMixColumn (a b c d : Byte) :
    mixColumn (multiply a 0x0e ^^^ multiply b 0x0b ^^^ multiply c 0x0d ^^^ multiply d 0x09)
      (multiply a 0x09 ^^^ multiply b 0x0e ^^^ multiply c 0x0b ^^^ multiply d 0x0d)
      (multiply a 0x0d ^^^ multiply b 0x09 ^^^ multiply c 0x0e ^^^ multiply d 0x0b)
      (multiply a 0x0b ^^^ multiply b 0x0d ^^^ multiply c 0x09 ^^^ multiply d 0x0e) =
    [a, b, c, d] := by
  rw [mixColumn_eq]
  simp only [xtime_xor]
  congr 1
  · exact collect (a := a) (b := b) (c := c) (d := d)
      (f0 := fun x => xtime (multiply x 14) ^^^ xtime (multiply x 9) ^^^ multiply x 9 ^^^ multiply x 13 ^^^ multiply x 11)
      (f1 := fun x => xtime (multiply x 11) ^^^ xtime (multiply x 14) ^^^ multiply x 14 ^^^ multiply x 9 ^^^ multiply x 13)
      (f2 := fun x => xtime (multiply x 13) ^^^ xtime (multiply x 11) ^^^ multiply x 11 ^^^ multiply x 14 ^^^ multiply x 9)
      (f3 := fun x => xtime (multiply x 9) ^^^ xtime (multiply x 13) ^^^ multiply x 13 ^^^ multiply x 11 ^^^ multiply x 14)
      _ (by ac_rfl) (by byte_fact) (by byte_fact) (by byte_fact) (by byte_fact)
  congr 1
  · exact collect (a := b) (b := c) (c := d) (d := a)
      (f0 := fun x => multiply x 11 ^^^ xtime (multiply x 14) ^^^ xtime (multiply x 9) ^^^ multiply x 9 ^^^ multiply x 13)
      (f1 := fun x => multiply x 13 ^^^ xtime (multiply x 11) ^^^ xtime (multiply x 14) ^^^ multiply x 14 ^^^ multiply x 9)
      (f2 := fun x => multiply x 9 ^^^ xtime (multiply x 13) ^^^ xtime (multiply x 11) ^^^ multiply x 11 ^^^ multiply x 14)
      (f3 := fun x => multiply x 14 ^^^ xtime (multiply x 9) ^^^ xtime (multiply x 13) ^^^ multiply x 13 ^^^ multiply x 11)
      _ (by ac_rfl) (by byte_fact) (by byte_fact) (by byte_fact) (by byte_fact)
  congr 1
  · exact collect (a := c) (b := d) (c := a) (d := b)
      (f0 := fun x => multiply x 13 ^^^ multiply x 11 ^^^ xtime (multiply x 14) ^^^ xtime (multiply x 9) ^^^ multiply x 9)
      (f1 := fun x => multiply x 9 ^^^ multiply x 13 ^^^ xtime (multiply x 11) ^^^ xtime (multiply x 14) ^^^ multiply x 14)
      (f2 := fun x => multiply x 14 ^^^ multiply x 9 ^^^ xtime (multiply x 13) ^^^ xtime (multiply x 11) ^^^ multiply x 11)
      (f3 := fun x => multiply x 11 ^^^ multiply x 14 ^^^ xtime (multiply x 9) ^^^ xtime (multiply x 13) ^^^ multiply x 13)
      _ (by ac_rfl) (by byte_fact) (by byte_fact) (by byte_fact) (by byte_fact)
  congr 1
  · exact collect (a := d) (b := a) (c := b) (d := c)
      (f0 := fun x => xtime (multiply x 9) ^^^ multiply x 9 ^^^ multiply x 13 ^^^ multiply x 11 ^^^ xtime (multiply x 14))
      (f1 := fun x => xtime (multiply x 14) ^^^ multiply x 14 ^^^ multiply x 9 ^^^ multiply x 13 ^^^ xtime (multiply x 11))
      (f2 := fun x => xtime (multiply x 11) ^^^ multiply x 11 ^^^ multiply x 14 ^^^ multiply x 9 ^^^ xtime (multiply x 13))
      (f3 := fun x => xtime (multiply x 13) ^^^ multiply x 13 ^^^ multiply x 11 ^^^ multiply x 14 ^^^ xtime (multiply x 9))
      _ (by ac_rfl) (by byte_fact) (by byte_fact) (by byte_fact) (by byte_fact)

end LC.Aes
