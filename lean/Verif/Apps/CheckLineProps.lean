import Mathlib.Data.List.TakeWhile
import Verif.Apps.CheckLineModel
import Verif.Apps.HasherProps
/-
C144: lines of a check file.
-/
namespace LC.Apps.Hasher

/-! ### Specification -/

/-- Space or tabulator. -/
def Blank (c : Byte) : Prop := c = 32 ∨ c = 9

/-- The line contains an equals sign between two blanks. -/
def HasSep (l : List Byte) : Prop := ∃ a x y b, l = a ++ x :: 61 :: y :: b ∧ Blank x ∧ Blank y

/-! ### Lemmas -/

theorem isBlank_iff (c : Byte) : isBlank c = true ↔ Blank c := by simp [isBlank, Blank]

theorem findSep_some : ∀ (l : List Byte) (i k : Nat), findSep l i = some k →
    ∃ a x y b, l = a ++ x :: 61 :: y :: b ∧ Blank x ∧ Blank y ∧ k = i + a.length
  | [], _, _, h => by simp [findSep] at h
  | [_], _, _, h => by simp [findSep] at h
  | [_, _], _, _, h => by simp [findSep] at h
  | x :: b :: y :: t, i, k, h => by
    unfold findSep at h
    by_cases hc : (isBlank x && b == 61 && isBlank y) = true
    · rw [if_pos hc] at h
      simp only [Bool.and_eq_true, beq_iff_eq] at hc
      refine ⟨[], x, y, t, ?_, (isBlank_iff x).1 hc.1.1, (isBlank_iff y).1 hc.2, ?_⟩
      · rw [hc.1.2]; rfl
      · simpa using h.symm
    · rw [if_neg hc] at h
      obtain ⟨a, x', y', t', h1, h2, h3, h4⟩ := findSep_some (b :: y :: t) (i + 1) k h
      exact ⟨x :: a, x', y', t', by rw [h1]; rfl, h2, h3, by simp only [List.length_cons]; omega⟩

theorem strip_line (a : Byte) (t : List Byte) (z : Byte) (hz : isPrint z = true) :
    strip (a :: t ++ [z] ++ [10]) = a :: t ++ [z] := by
  have h10 : isPrint 10 = false := by decide
  simp [strip, List.dropWhile, hz, h10]

/-! ### Properties -/

/-- **C144 (part: usual lines).** A line with a digest (without blanks), two blanks or a blank and an asterisk, and a
file name compares this file with this digest, if the line has no equals sign between blanks and the last
character of the name can be printed.  Missing: names with an equals sign between blanks, see
`c144_negation_equals`, and BSD-style lines, see `c144_negation_bsd`. -/
theorem c144_usual_partial (hex name : List Byte) (x s z : Byte) (hne : hex ≠ [])
    (hh : ∀ c ∈ hex, ¬ Blank c) (hx : Blank x) (hs : Blank s ∨ s = 42) (hz : 32 ≤ z ∧ z ≤ 126)
    (hsep : ¬ HasSep (hex ++ x :: s :: name ++ [z])) :
    parse (hex ++ x :: s :: name ++ [z] ++ [10]) = .item hex (name ++ [z]) := by
  obtain ⟨a, t, rfl⟩ := List.exists_cons_of_ne_nil hne
  have hp : isPrint z = true := by simp [isPrint, hz.1, hz.2]
  have hst : strip (a :: t ++ x :: s :: name ++ [z] ++ [10]) = a :: t ++ x :: s :: name ++ [z] := by
    have := strip_line a (t ++ x :: s :: name) z hp
    simpa using this
  unfold parse
  rw [hst]
  have hf : findSep ((a :: t ++ x :: s :: name ++ [z]).drop 1) 1 = none := by
    cases hq : findSep ((a :: t ++ x :: s :: name ++ [z]).drop 1) 1 with
    | none => rfl
    | some k =>
      obtain ⟨a', x', y', b', h1, h2, h3, _⟩ := findSep_some _ _ _ hq
      refine absurd ⟨a :: a', x', y', b', ?_, h2, h3⟩ hsep
      have h1' : t ++ x :: s :: name ++ [z] = a' ++ x' :: 61 :: y' :: b' := by simpa using h1
      simpa using h1'
  simp only [hf]
  have hnb : ∀ c ∈ a :: t, (!isBlank c) = true := by
    intro c hc
    have := hh c hc
    cases hb : isBlank c with
    | false => rfl
    | true => exact absurd ((isBlank_iff c).1 hb) this
  have hxb : (!isBlank x) = false := by rw [(isBlank_iff x).2 hx]; rfl
  have e : a :: t ++ x :: s :: name ++ [z] = (a :: t) ++ (x :: s :: (name ++ [z])) := by simp
  have htw : (a :: t ++ x :: s :: name ++ [z]).takeWhile (fun c => !isBlank c) = a :: t := by
    rw [e, List.takeWhile_append_of_pos hnb, List.takeWhile_cons_of_neg (by rw [hxb]; decide), List.append_nil]
  have hdw : (a :: t ++ x :: s :: name ++ [z]).dropWhile (fun c => !isBlank c) = x :: s :: (name ++ [z]) := by
    rw [e, List.dropWhile_append_of_pos hnb, List.dropWhile_cons_of_neg (by rw [hxb]; decide)]
  rw [htw, hdw, if_neg (by simp)]
  have hsb : (isBlank s || s == 42) = true := by
    rcases hs with h | h
    · rw [(isBlank_iff s).2 h]; rfl
    · subst h; decide
  simp only [hsb, if_true]

/-- **C144 (part: what is compared).** Each file compared comes from a line in one of the two styles: the text is
the beginning of the line up to the first blank, or what follows an equals sign between blanks and a NUL. -/
theorem c144_text (line text name : List Byte) (h : parse line = .item text name) :
    (text ≠ [] ∧ (∀ c ∈ text, ¬ Blank c) ∧ ∃ x s, Blank x ∧ (Blank s ∨ s = 42) ∧ strip line = text ++ x :: s :: name) ∨
    (∃ a x y b, strip line = a ++ x :: 61 :: y :: b ∧ Blank x ∧ Blank y ∧ text = b ++ [0]) := by
  unfold parse at h
  simp only at h
  cases hq : findSep ((strip line).drop 1) 1 with
  | some i =>
    right
    rw [hq] at h
    obtain ⟨a, x, y, b, h1, h2, h3, h4⟩ := findSep_some _ _ _ hq
    cases hn : findName (strip line) 0 with
    | none => simp [hn] at h
    | some n =>
      simp only [hn, Line.item.injEq] at h
      have hsl : ∃ f, strip line = f :: (strip line).drop 1 := by
        cases hl : strip line with
        | nil => rw [hl] at h1; simp at h1
        | cons f r => exact ⟨f, rfl⟩
      obtain ⟨f, hf⟩ := hsl
      have hall : strip line = (f :: a) ++ x :: 61 :: y :: b := by rw [hf, h1]; rfl
      refine ⟨f :: a, x, y, b, hall, h2, h3, ?_⟩
      rw [← h.1, hall, h4]
      have : 1 + a.length + 3 = (f :: a).length + 3 := by simp only [List.length_cons]; omega
      rw [this, List.drop_append]
      simp
  | none =>
    left
    rw [hq] at h
    simp only at h
    by_cases ht : (strip line).takeWhile (fun c => !isBlank c) = []
    · rw [if_pos ht] at h; cases h
    · rw [if_neg ht] at h
      have hsplit := List.takeWhile_append_dropWhile (p := fun c => !isBlank c) (l := strip line)
      have hhead : ∀ x r, (strip line).dropWhile (fun c => !isBlank c) = x :: r → Blank x := by
        intro x r hx
        have := List.head?_dropWhile_not (fun c => !isBlank c) (strip line)
        rw [hx] at this
        simp only [List.head?_cons] at this
        exact (isBlank_iff x).1 (by simpa using this)
      cases hd : (strip line).dropWhile (fun c => !isBlank c) with
      | nil => rw [hd] at h; cases h
      | cons x r =>
        rw [hd] at h
        cases r with
        | nil => cases h
        | cons s r =>
          simp only at h
          by_cases hs : (isBlank s || s == 42) = true
          · rw [if_pos hs] at h
            simp only [Line.item.injEq] at h
            obtain ⟨h1, h2⟩ := h
            refine ⟨by rw [← h1]; exact ht, ?_, x, s, hhead x _ hd, ?_, ?_⟩
            · intro c hc hb
              rw [← h1] at hc
              have := List.mem_takeWhile_imp hc
              rw [(isBlank_iff c).2 hb] at this
              cases this
            · simpa [isBlank_iff] using hs
            · rw [hd, h1, h2] at hsplit
              exact hsplit.symm
          · rw [if_neg hs] at h; cases h

theorem findSep_first : ∀ (p r : List Byte) (i : Nat), (61 : Byte) ∉ p →
    findSep (p ++ 32 :: 61 :: 32 :: r) i = some (i + p.length)
  | [], r, i, _ => by simp [findSep, isBlank]
  | [x], r, i, h => by simp [findSep, isBlank]
  | x :: q :: p, r, i, h => by
    have hq : (q == 61) = false := by
      cases hb : q == 61 with
      | false => rfl
      | true => exact absurd (by simp [eq_of_beq hb]) h
    have ih := findSep_first (q :: p) r (i + 1) (fun hm => h (List.mem_cons_of_mem _ hm))
    obtain ⟨c, t, hct⟩ : ∃ c t, p ++ 32 :: 61 :: 32 :: r = c :: t := by
      cases p with
      | nil => exact ⟨_, _, rfl⟩
      | cons c t => exact ⟨_, _, rfl⟩
    simp only [List.cons_append, hct] at ih ⊢
    unfold findSep
    rw [if_neg (by simp [hq]), ih]
    simp only [List.length_cons, Option.some.injEq]
    omega

/-- **C144 (negation: BSD style).** In a BSD-style line (`SHA256 (name) = digest`) no digest of the right
length is accepted, not even the correct one; with digests of 64 bytes, each such line writes behind the buffer. -/
theorem c144_negation_bsd (md hex text name : List Byte) (a z : Byte) (pre : List Byte) (hp : (61 : Byte) ∉ pre)
    (hz : 32 ≤ z ∧ z ≤ 126) (hl : (hex ++ [z]).length = 2 * md.length)
    (h : parse (a :: pre ++ 32 :: 61 :: 32 :: (hex ++ [z]) ++ [10]) = .item text name) :
    (check md text).1 = -74 ∧ (md.length = 64 → (check md text).2 = 65) := by
  have hpz : isPrint z = true := by simp [isPrint, hz.1, hz.2]
  have hst : strip (a :: pre ++ 32 :: 61 :: 32 :: (hex ++ [z]) ++ [10]) =
      a :: pre ++ 32 :: 61 :: 32 :: (hex ++ [z]) := by
    have := strip_line a (pre ++ 32 :: 61 :: 32 :: hex) z hpz
    simpa using this
  have hf : findSep ((a :: pre ++ 32 :: 61 :: 32 :: (hex ++ [z])).drop 1) 1 = some (1 + pre.length) :=
    findSep_first pre (hex ++ [z]) 1 hp
  have ht : text.length = 2 * md.length + 1 := by
    unfold parse at h
    rw [hst] at h
    simp only [hf] at h
    cases hn : findName (a :: pre ++ 32 :: 61 :: 32 :: (hex ++ [z])) 0 with
    | none =>
      simp only [hn] at h
      cases h
    | some n =>
      simp only [hn, Line.item.injEq] at h
      rw [← h.1]
      simp only [List.length_append, List.length_drop, List.length_cons, List.length_nil] at hl ⊢
      omega
  constructor
  · unfold check
    simp only
    rw [if_pos (Or.inl (by omega))]
  · intro hm
    exact c143_negation_overflow md text (by omega) (by omega)

theorem findName_first : ∀ (k r : List Byte) (i : Nat), (∀ c ∈ k, ¬ Blank c) →
    findName (k ++ 32 :: 40 :: r) i = some (i + k.length + 2)
  | [], r, i, _ => by simp [findName, isBlank]
  | x :: k, r, i, h => by
    have hx : isBlank x = false := by
      cases hb : isBlank x with
      | false => rfl
      | true => exact absurd ((isBlank_iff x).1 hb) (h x (by simp))
    have ih := findName_first k r (i + 1) (fun c hc => h c (List.mem_cons_of_mem _ hc))
    obtain ⟨c, t, hct⟩ : ∃ c t, k ++ 32 :: 40 :: r = c :: t := by
      cases k with
      | nil => exact ⟨_, _, rfl⟩
      | cons c t => exact ⟨_, _, rfl⟩
    rw [hct] at ih
    rw [List.cons_append, hct]
    unfold findName
    rw [if_neg (by simp [hx]), ih]
    simp only [List.length_cons, Option.some.injEq]
    omega

/-- **C144 (part: name in BSD style).** The line `KIND (name) = digest` names the file between the parentheses,
for kinds without blanks and without equals signs and names without equals signs. -/
theorem c144_bsd_name_partial (a z : Byte) (kind name hex : List Byte) (hk : ∀ c ∈ a :: kind, ¬ Blank c)
    (hk2 : (61 : Byte) ∉ kind) (hn : (61 : Byte) ∉ name) (hn0 : (0 : Byte) ∉ name) (hz : 32 ≤ z ∧ z ≤ 126) :
    parse (a :: (kind ++ 32 :: 40 :: name ++ [41]) ++ 32 :: 61 :: 32 :: (hex ++ [z]) ++ [10]) =
      .item (hex ++ [z] ++ [0]) name := by
  have hpz : isPrint z = true := by simp [isPrint, hz.1, hz.2]
  have hst : strip (a :: (kind ++ 32 :: 40 :: name ++ [41]) ++ 32 :: 61 :: 32 :: (hex ++ [z]) ++ [10]) =
      a :: (kind ++ 32 :: 40 :: name ++ [41]) ++ 32 :: 61 :: 32 :: (hex ++ [z]) := by
    have := strip_line a (kind ++ 32 :: 40 :: name ++ [41] ++ 32 :: 61 :: 32 :: hex) z hpz
    simpa using this
  have hf : findSep ((a :: (kind ++ 32 :: 40 :: name ++ [41]) ++ 32 :: 61 :: 32 :: (hex ++ [z])).drop 1) 1 =
      some (1 + (kind ++ 32 :: 40 :: name ++ [41]).length) :=
    findSep_first _ (hex ++ [z]) 1 (by simp [hk2, hn])
  have hfn : findName (a :: (kind ++ 32 :: 40 :: name ++ [41]) ++ 32 :: 61 :: 32 :: (hex ++ [z])) 0 =
      some ((a :: kind).length + 2) := by
    have := findName_first (a :: kind) (name ++ [41] ++ 32 :: 61 :: 32 :: (hex ++ [z])) 0 hk
    simpa using this
  have e : a :: (kind ++ 32 :: 40 :: name ++ [41]) ++ 32 :: 61 :: 32 :: (hex ++ [z]) =
      ((a :: kind) ++ [32, 40] ++ name) ++ 41 :: 32 :: 61 :: 32 :: (hex ++ [z]) := by simp
  have e2 : a :: (kind ++ 32 :: 40 :: name ++ [41]) ++ 32 :: 61 :: 32 :: (hex ++ [z]) =
      ((a :: kind) ++ [32, 40] ++ name ++ [41, 32, 61, 32]) ++ (hex ++ [z]) := by simp
  have hi : 1 + (kind ++ 32 :: 40 :: name ++ [41]).length - 1 = ((a :: kind) ++ [32, 40] ++ name).length := by
    simp only [List.length_append, List.length_cons, List.length_nil]; omega
  have hi3 : 1 + (kind ++ 32 :: 40 :: name ++ [41]).length + 3 =
      ((a :: kind) ++ [32, 40] ++ name ++ [41, 32, 61, 32]).length := by
    simp only [List.length_append, List.length_cons, List.length_nil]; omega
  unfold parse
  rw [hst]
  simp only [hf]
  rw [hfn]
  simp only
  rw [hi, hi3]
  congr 1
  · rw [e2, List.drop_left]
  · rw [e]
    have hg : (((a :: kind) ++ [32, 40] ++ name) ++ 41 :: 32 :: 61 :: 32 :: (hex ++ [z])).getD
        ((a :: kind) ++ [32, 40] ++ name).length 0 = 41 := by
      rw [List.getD_eq_getElem?_getD, List.getElem?_append_right (Nat.le_refl _), Nat.sub_self]; rfl
    rw [if_pos hg, List.set_append_right _ _ (Nat.le_refl _), Nat.sub_self, List.set_cons_zero]
    have hd : (a :: kind).length + 2 = ((a :: kind) ++ [32, 40]).length := by simp
    rw [hd, List.append_assoc, List.drop_left]
    unfold cstr
    rw [List.takeWhile_append_of_pos, List.takeWhile_cons_of_neg (by decide), List.append_nil]
    intro c hc
    simp only [bne_iff_ne, ne_eq]
    intro h0
    exact hn0 (h0 ▸ hc)

/-- **C144 (negation: names in other alphabets).** Bytes above 126 at the end of a name are dropped, so another
file is compared: the line for a name of two bytes, f and one which cannot be printed, compares the file f. -/
theorem c144_negation_unprintable (b : Byte) (hb : 126 < b) :
    parse [97, 98, 32, 32, 102, b, 10] = .item [97, 98] [102] := by
  have h1 : isPrint b = false := by
    unfold isPrint
    have : ¬ b ≤ 126 := by
      rw [UInt8.le_iff_toNat_le]
      rw [UInt8.lt_iff_toNat_lt] at hb
      omega
    simp [this]
  have h2 : strip [97, 98, 32, 32, 102, b, 10] = [97, 98, 32, 32, 102] := by
    have h10 : isPrint 10 = false := by decide
    have h102 : isPrint 102 = true := by decide
    simp [strip, List.dropWhile, h1, h10, h102]
  unfold parse
  rw [h2]
  decide +kernel

/-- **C144 (negation: equals sign in the name).** The line `ab  a = b` for the file `a = b` is ignored without an
error. -/
theorem c144_negation_equals : parse ([97, 98] ++ 32 :: 32 :: [97, 32, 61, 32] ++ [98] ++ [10]) = .ignored := by
  decide +kernel

/-- Non-vacuity: `ab  f`, and `S (f) = ab`. -/
example : parse [97, 98, 32, 32, 102, 10] = .item [97, 98] [102] ∧
    parse [83, 32, 40, 102, 41, 32, 61, 32, 97, 98, 10] = .item [97, 98, 0] [102] ∧
    (check [0xab] [97, 98]).1 = 0 ∧ (check [0xab] [97, 98, 0]).1 = -74 := by decide +kernel

example : ¬ HasSep [97, 98, 32, 32, 102] := by
  rintro ⟨a, x, y, b, h, _, _⟩
  have : (61 : Byte) ∈ [97, 98, 32, 32, 102] := by rw [h]; simp
  revert this
  decide

/-- Non-vacuity of the negation for lines as printed by `sha256sum --tag`. -/
example : (61 : Byte) ∉ [32, 40, 102, 41] ∧ ([97] ++ [98] : List Byte).length = 2 * [(0xab : Byte)].length := by decide

end LC.Apps.Hasher
