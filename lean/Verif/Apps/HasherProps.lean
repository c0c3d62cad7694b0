import Verif.Apps.HasherModel
import Verif.Hex.Props
/-
C143: digests printed by the hash programs.
-/
namespace LC.Apps.Hasher

open StreamHash

/-- The loop reads the rest of the file in segments, all of it once and in order. -/
theorem loop_segments (S : StreamHash) (file : List Byte) : ∀ (fuel : Nat) (c : S.Ctx) (offset mapped : Nat),
    offset ≤ file.length → file.length - offset < fuel → 0 < mapped →
    ∃ segs : List (List Byte), loop S file fuel c offset mapped = segs.foldl S.update c ∧
      segs.flatten = file.drop offset ∧ ∀ x ∈ segs, x.length ≤ mapped := by
  intro fuel
  induction fuel with
  | zero => intro c offset mapped _ h; omega
  | succ fuel ih =>
    intro c offset mapped ho hf hm
    unfold loop
    by_cases hlt : file.length - offset < mapped
    · simp only [if_pos hlt]
      have he : offset + (file.length - offset) = file.length := by omega
      rw [if_pos he]
      refine ⟨[(file.drop offset).take (file.length - offset)], rfl, ?_, ?_⟩
      · rw [List.flatten_cons, List.flatten_nil, List.append_nil]
        exact List.take_of_length_le (by rw [List.length_drop]; omega)
      · intro x hx
        rw [List.mem_singleton.1 hx, List.length_take]
        omega
    · simp only [if_neg hlt]
      by_cases he : offset + mapped = file.length
      · rw [if_pos he]
        refine ⟨[(file.drop offset).take mapped], rfl, ?_, ?_⟩
        · rw [List.flatten_cons, List.flatten_nil, List.append_nil]
          exact List.take_of_length_le (by rw [List.length_drop]; omega)
        · intro x hx
          rw [List.mem_singleton.1 hx, List.length_take]
          omega
      · rw [if_neg he]
        obtain ⟨segs, h1, h2, h3⟩ := ih (S.update c ((file.drop offset).take mapped)) (offset + mapped) mapped
          (by omega) (by omega) hm
        refine ⟨(file.drop offset).take mapped :: segs, by rw [h1]; rfl, ?_, ?_⟩
        · rw [List.flatten_cons, h2, ← List.drop_drop, List.take_append_drop]
        · intro x hx
          rcases List.mem_cons.1 hx with hx | hx
          · rw [hx, List.length_take]; omega
          · exact h3 x hx

/-- **C143 (part: one file).** For each hash function and each file, of any size the hash function takes, the
digest printed for the first file is the digest of its contents; there are as many digests as files, and calls
without files are refused.  Missing: further files, see `c143_negation_second`. -/
theorem c143_first_partial (S : StreamHash) (H : List Byte → List Byte) (maxLen : Nat) (Ok : S.Ctx → Prop)
    (hI : Implements S H maxLen Ok) (hb : 0 < S.block) (c : S.Ctx) (hc : Ok c) (file : List Byte)
    (hf : file.length < maxLen) (rest : List (List Byte)) :
    (hasherFiles S c (file :: rest)).1 = 0 ∧
    (hasherFiles S c (file :: rest)).2.head? = some (H file) ∧
    (hasherFiles S c (file :: rest)).2.length = rest.length + 1 ∧
    hasherFiles S c [] = (-22, []) := by
  refine ⟨rfl, ?_, ?_, rfl⟩
  · obtain ⟨segs, h1, h2, _⟩ := loop_segments S file (file.length + 1) (S.init c) 0 (S.block * 2 ^ 17)
      (by omega) (by omega) (Nat.mul_pos hb (by decide))
    rw [List.drop_zero] at h2
    simp only [hasherFiles, List.isEmpty_cons, Bool.false_eq_true, if_false, fileLoop, List.head?_cons,
      hashFile, Option.some.injEq]
    rw [h1, ← h2]
    exact hI.digest c hc segs (by rw [h2]; exact hf)
  · have hl : ∀ (fs : List (List Byte)) (c : S.Ctx), (fileLoop S c fs).length = fs.length := by
      intro fs
      induction fs with
      | nil => intro c; rfl
      | cons f fs ih => intro c; simp [fileLoop, ih]
    exact hl _ _

/-- **C143 (part: bounded memory).** A file is read in segments of at most `blocksize << 17` bytes, each byte
once and in order. -/
theorem c143_segments (S : StreamHash) (hb : 0 < S.block) (c : S.Ctx) (file : List Byte) :
    ∃ segs : List (List Byte), hashFile S c file = S.final (segs.foldl S.update c) ∧ segs.flatten = file ∧
      ∀ x ∈ segs, x.length ≤ S.block * 2 ^ 17 := by
  obtain ⟨segs, h1, h2, h3⟩ := loop_segments S file (file.length + 1) c 0 (S.block * 2 ^ 17)
    (by omega) (by omega) (Nat.mul_pos hb (by decide))
  rw [List.drop_zero] at h2
  exact ⟨segs, by rw [hashFile, h1], h2, h3⟩

/-- **C143 (negation: second file).** `sha256sum` for two empty files prints a wrong digest for the second
one: the hash is not initialised before it. -/
theorem c143_negation_second (c : StreamHash.sha256.Ctx) (hc : c.part = List.replicate 64 0) :
    ∃ d1 d2, hasherFiles sha256 c [[], []] = (0, [d1, d2]) ∧ d1 = Sha2.Spec.sha256 [] ∧
      d2 ≠ Sha2.Spec.sha256 [] := by
  have h : sha256.init c = Sha2.initCtx Sha2.iv256 (List.replicate 64 0) := by
    rw [← hc]; rfl
  have h1 := (c143_first_partial sha256 _ _ _ sha256_implements (by decide) c (by rw [hc]; rfl) []
    (by decide) [[]]).2.1
  obtain ⟨d1, d2, h2, h3⟩ : ∃ d1 d2, hasherFiles sha256 c [[], []] = (0, [d1, d2]) ∧ d1 ≠ d2 := by
    refine ⟨_, _, by unfold hasherFiles; rw [h]; rfl, ?_⟩
    decide +kernel
  rw [h2] at h1
  simp only [List.head?_cons, Option.some.injEq] at h1
  exact ⟨d1, d2, h2, h1, (fun h4 => h3 (by rw [h1, h4]))⟩

/-- **C143 (part: comparison).** A digest of a check file is accepted exactly if it has two characters for
each byte and stands for the digest computed; the digest in the form in which it is printed is accepted. -/
theorem c143_check (md text : List Byte) (hm : md.length ≤ 64) :
    ((check md text).1 = 0 ↔ text.length = 2 * md.length ∧ Hex.hex2bin text 64 = md) ∧
    (check md (Hex.bin2hex md (2 * md.length) false)).1 = 0 := by
  have key : ∀ text : List Byte,
      ((check md text).1 = 0 ↔ text.length = 2 * md.length ∧ Hex.hex2bin text 64 = md) := by
    intro text
    have hs := Hex.hex2bin_stores text 64
    have ht : text.length = 2 * md.length →
        ((Hex.hex2bin text 64 ++ List.replicate 64 0).take 64).take md.length = Hex.hex2bin text 64 := by
      intro hl
      have hlen : (Hex.hex2bin text 64).length = md.length := by omega
      rw [List.take_take, Nat.min_eq_left hm, List.take_append_of_le_length (by omega), ← hlen, List.take_length]
    unfold check
    simp only
    by_cases hl : text.length = 2 * md.length
    · rw [ht hl]
      by_cases he : Hex.hex2bin text 64 = md
      · rw [if_neg (fun h => h.elim (fun h => h (by omega)) (fun h => h he))]
        exact ⟨(fun _ => ⟨hl, he⟩), (fun _ => rfl)⟩
      · rw [if_pos (Or.inr he)]
        exact ⟨(fun h => by cases h), (fun h => absurd h.2 he)⟩
    · rw [if_pos (Or.inl (by omega))]
      exact ⟨(fun h => by cases h), (fun h => absurd h.1 hl)⟩
  refine ⟨key text, (key _).2 ⟨?_, ?_⟩⟩
  · have := Hex.hex_length false md (2 * md.length)
    omega
  · exact Hex.hex_roundtrip false md (2 * md.length) 64 (Nat.le_refl _) hm

/-- **C143 (part: memory).** The comparison stays within its buffer of 64 bytes for texts with an even
number of characters and for texts of less than 129.  Missing: other texts, see `c143_negation_overflow`. -/
theorem c143_bounds_partial (md text : List Byte) (h : text.length % 2 = 0 ∨ text.length < 129) :
    (check md text).2 ≤ 64 :=
  Hex.hex2bin_in_bounds_partial text 64 (by omega)

/-- **C143 (negation: overflow).** A text with an odd number of at least 129 characters writes a byte behind the
buffer. -/
theorem c143_negation_overflow (md text : List Byte) (h : text.length % 2 = 1) (hl : 129 ≤ text.length) :
    (check md text).2 = 65 :=
  Hex.hex2bin_overflows text 64 h (by omega)

/-- Non-vacuity: a file for SHA-256, a digest of two bytes, and a text which is too long. -/
example : 0 < sha256.block ∧ [(1 : Byte), 2].length < 2 ^ 61 ∧
    (check [0xab, 0x01] [97, 98, 48, 49]).1 = 0 ∧ (check [0xab, 0x01] [97, 98, 48, 50]).1 = -74 ∧
    (List.replicate 129 (48 : Byte)).length % 2 = 1 := by decide +kernel

end LC.Apps.Hasher
