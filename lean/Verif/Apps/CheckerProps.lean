import Verif.Apps.CheckerModel
import Verif.Hex.Props
/-
C145: comparison of key identifiers in the certificate checker.
-/
namespace LC.Apps.Checker

/-- **C145 (part: texts of even length).** For texts with an even number of characters which fit into the buffer, the
value in the certificate is accepted exactly if it is what the text stands for, whatever was in the memory before;
neither stores nor reads leave the buffer, and all bytes read were stored.  Missing: other texts, see the
negations. -/
theorem c145_even_partial (size : Nat) (junk text raw : List Byte) (h2 : text.length % 2 = 0)
    (hl : text.length ≤ 2 * size) :
    ((compare size junk text raw).ret = 0 ↔ Hex.hex2bin text size = raw) ∧
    ((compare size junk text raw).ret = 0 ∨ (compare size junk text raw).ret = -22) ∧
    (compare size junk text raw).stored ≤ size ∧
    (compare size junk text raw).read ≤ (compare size junk text raw).stored := by
  have hs := Hex.hex2bin_stores text size
  have hs' : (Hex.hex2bin text size).length = text.length / 2 := by omega
  unfold compare
  simp only
  by_cases hr : text.length / 2 ≠ raw.length
  · rw [if_pos hr]
    refine ⟨⟨(fun h => by cases h), (fun h => ?_)⟩, Or.inr rfl, by simp only; omega, Nat.zero_le _⟩
    rw [h] at hs'
    exact absurd hs'.symm hr
  · rw [if_neg hr]
    have hr' : raw.length = (Hex.hex2bin text size).length := by omega
    have ht : (Hex.hex2bin text size ++ junk.drop (Hex.hex2bin text size).length).take raw.length =
        Hex.hex2bin text size := by rw [hr', List.take_left]
    simp only [ht]
    refine ⟨?_, ?_, by omega, by omega⟩
    · by_cases he : Hex.hex2bin text size = raw
      · simp [he]
      · simp [he]
    · by_cases he : Hex.hex2bin text size = raw
      · left; simp [he]
      · right; simp [he]

/-- **C145 (part: own output).** The hexadecimal form of the value in the certificate is accepted, in upper and
in lower case, for values which fit into the buffer. -/
theorem c145_accepts (size : Nat) (junk raw : List Byte) (u : Bool) (hl : raw.length ≤ size) :
    (compare size junk (Hex.bin2hex raw (2 * raw.length) u) raw).ret = 0 := by
  have hlen := Hex.hex_length u raw (2 * raw.length)
  have h := c145_even_partial size junk (Hex.bin2hex raw (2 * raw.length) u) raw (by omega) (by omega)
  exact h.1.2 (Hex.hex_roundtrip u raw (2 * raw.length) size (Nat.le_refl _) hl)

/-- **C145 (negation: odd length).** A text with an odd number of characters is accepted for a value
which lacks its end: `abc` for the key identifier `0a`. -/
theorem c145_negation_odd (junk : List Byte) :
    (compare 32 junk [97, 98, 99] [0x0a]).ret = 0 ∧ Hex.hex2bin [97, 98, 99] 32 = [0x0a, 0xbc] := by
  have h : Hex.hex2bin [97, 98, 99] 32 = [0x0a, 0xbc] := by decide +kernel
  refine ⟨?_, h⟩
  unfold compare
  rw [h]
  simp

/-- **C145 (negation: store outside).** Each text with an odd number of more than `2 * size` characters writes a
byte behind the buffer. -/
theorem c145_negation_store (size : Nat) (junk text raw : List Byte) (h : text.length % 2 = 1)
    (hl : 2 * size < text.length) : (compare size junk text raw).stored = size + 1 := by
  have := Hex.hex2bin_overflows text size h (by omega)
  unfold compare
  simp only
  by_cases hr : text.length / 2 ≠ raw.length
  · rw [if_pos hr]; exact this
  · rw [if_neg hr]; exact this

/-- **C145 (negation: read outside).** With a value in the certificate which is longer than the buffer and a text of
the same length, the comparison reads behind the buffer, and its result depends on what is there. -/
theorem c145_negation_read (size : Nat) (junk text raw : List Byte) (hr : text.length / 2 = raw.length)
    (hl : size < raw.length) : size < (compare size junk text raw).read := by
  unfold compare
  simp only
  rw [if_neg (by omega)]
  exact hl

/-- The result depends on the memory: two contents of the memory behind a buffer of one byte. -/
example : (compare 1 [0, 5] [48, 49, 48, 53] [1, 5]).ret = 0 ∧ (compare 1 [0, 6] [48, 49, 48, 53] [1, 5]).ret = -22 := by
  decide +kernel

/-- Non-vacuity: the text `0aff` for the value `0a ff`, and a wrong one; a text of 33 characters. -/
example : (compare 32 [] [48, 97, 102, 102] [0x0a, 0xff]).ret = 0 ∧ (compare 32 [] [48, 97, 102, 101] [0x0a, 0xff]).ret = -22 ∧
    (List.replicate 33 (48 : Byte)).length % 2 = 1 ∧ 2 * 16 < (List.replicate 33 (48 : Byte)).length := by decide +kernel

end LC.Apps.Checker
