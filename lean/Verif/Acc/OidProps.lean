import Verif.Acc.OidModel

/-!
# Properties of printing object identifiers
-/

namespace LC.Acc

/-! ### Specification: X.690, 8.19 -/

/-- The leading bytes of a number in base 128, all with the top bit. -/
def base128Hi (n : Nat) : List UInt8 :=
  if h : n = 0 then [] else base128Hi (n / 128) ++ [UInt8.ofNat (n % 128 + 128)]
termination_by n
decreasing_by omega

/-- A number in base 128, as short as possible, the last byte without the top bit. -/
def base128 (n : Nat) : List UInt8 := base128Hi (n / 128) ++ [UInt8.ofNat (n % 128)]

/-- The contents of an encoded object identifier: the first two arcs share one number. -/
def encodeOid (a b : Nat) (cs : List Nat) : List UInt8 := base128 (40 * a + b) ++ cs.flatMap base128

/-- The usual text: numbers separated by dots. -/
def dotted (arcs : List Nat) : List Char := List.intercalate ['.'] (arcs.map (Nat.toDigits 10))

/-! ### Lemmas -/

theorem byte_lo {n : Nat} (h : n < 128) : (UInt8.ofNat n).toNat = n := by
  rw [UInt8.toNat_ofNat']; omega

theorem byte_hi {n : Nat} (h : n < 128) : (UInt8.ofNat (n + 128)).toNat = n + 128 := by
  rw [UInt8.toNat_ofNat']; omega

/-- Reading the leading bytes of a number. -/
theorem moreOid_hi (n : Nat) : ∀ (acc : Nat) (r : List UInt8), n < 2 ^ 57 → acc = 0 →
    moreOid (base128Hi n ++ r) acc = moreOid r n := by
  induction n using Nat.strongRecOn with
  | ind n ih =>
    intro acc r hn ha
    subst ha
    rw [base128Hi]
    split
    · rename_i h0; subst h0; rfl
    · rename_i h0
      rw [List.append_assoc, ih (n / 128) (by omega) 0 _ (by omega) rfl]
      have hb := byte_hi (n := n % 128) (by omega)
      simp only [List.singleton_append, moreOid, hb]
      rw [if_pos (show 128 ≤ n % 128 + 128 by omega)]
      congr 1
      omega

/-- Reading one number, in the way the loop does. -/
theorem number_ok (c : Nat) (hc : c < 2 ^ 64) (r : List UInt8) : ∃ n t, base128 c ++ r = n :: t ∧ t.length + 1 = (base128 c ++ r).length ∧
    (if n.toNat < 128 then some (n.toNat, t) else moreOid t (n.toNat % 128)) = some (c, r) := by
  by_cases h : c < 128
  · have h0 : c / 128 = 0 := by omega
    refine ⟨UInt8.ofNat (c % 128), r, ?_, ?_, ?_⟩
    · simp [base128, h0, base128Hi]
    · simp [base128, h0, base128Hi]
    · rw [byte_lo (by omega), if_pos (show c % 128 < 128 by omega), Nat.mod_eq_of_lt h]
  · -- the first byte has the top bit
    have key : ∀ m, 0 < m → ∃ k t, k < 128 ∧ base128Hi m = UInt8.ofNat (k + 128) :: t ∧
        ∀ r, moreOid (base128Hi m ++ r) 0 = moreOid (t ++ r) k := by
      intro m
      induction m using Nat.strongRecOn with
      | ind m ih =>
        intro hm
        by_cases hs : m < 128
        · refine ⟨m, [], hs, ?_, ?_⟩
          · rw [base128Hi, dif_neg (by omega), base128Hi, dif_pos (by omega), Nat.mod_eq_of_lt hs]; rfl
          · intro r
            rw [base128Hi, dif_neg (by omega), base128Hi, dif_pos (by omega), Nat.mod_eq_of_lt hs]
            simp only [List.nil_append, List.singleton_append, moreOid, byte_hi hs]
            rw [if_pos (show 128 ≤ m + 128 by omega)]
            congr 1
            omega
        · obtain ⟨k, t, hk, h1, h2⟩ := ih (m / 128) (by omega) (by omega)
          refine ⟨k, t ++ [UInt8.ofNat (m % 128 + 128)], hk, ?_, ?_⟩
          · rw [base128Hi, dif_neg (by omega), h1]; rfl
          · intro r
            rw [base128Hi, dif_neg (by omega), List.append_assoc, h2, List.append_assoc]
    obtain ⟨k, t, hk, h1, h2⟩ := key (c / 128) (by omega)
    refine ⟨UInt8.ofNat (k + 128), t ++ ([UInt8.ofNat (c % 128)] ++ r), ?_, ?_, ?_⟩
    · simp [base128, h1]
    · simp [base128, h1]
    · rw [byte_hi hk, if_neg (show ¬ k + 128 < 128 by omega)]
      have : (k + 128) % 128 = k := by omega
      rw [this, ← h2, moreOid_hi (c / 128) 0 _ (by omega) rfl]
      simp only [List.singleton_append, moreOid, byte_lo (n := c % 128) (by omega)]
      rw [if_neg (show ¬ 128 ≤ c % 128 by omega)]
      congr 2
      omega

/-- The text of further arcs. -/
def tailText (cs : List Nat) : List Char := cs.flatMap (fun c => '.' :: Nat.toDigits 10 c)

theorem dotted_cons (a : Nat) (cs : List Nat) : dotted (a :: cs) = Nat.toDigits 10 a ++ tailText cs := by
  induction cs generalizing a with
  | nil => simp [dotted, tailText, List.intercalate]
  | cons c cs ih =>
    have : dotted (a :: c :: cs) = Nat.toDigits 10 a ++ '.' :: dotted (c :: cs) := by
      simp [dotted, List.intercalate, List.intersperse]
    rw [this, ih]
    simp [tailText]

theorem printAt_fit (pre rest : List Char) (z : Char) (size : Nat) (t : List Char) (ht : t.length < size) :
    printAt (pre ++ z :: rest) pre.length size t = (pre ++ t) ++ Char.ofNat 0 :: rest.drop t.length := by
  have : ¬ size = 0 := by omega
  simp only [printAt, snprintf, if_neg this, List.take_left', List.drop_left', List.take_of_length_le (show t.length ≤ size - 1 by omega)]
  simp

theorem oidLoop_fit : ∀ (cs : List Nat) (f : Nat) (pre rest : List Char) (size : Nat) (ret : Int),
    (∀ c ∈ cs, c < 2 ^ 64) → (cs.flatMap base128).length ≤ f → (tailText cs).length < size →
    oidLoop f (cs.flatMap base128) (pre ++ Char.ofNat 0 :: rest) pre.length size ret =
      (ret + (tailText cs).length, (pre ++ tailText cs) ++ Char.ofNat 0 :: rest.drop (tailText cs).length) := by
  intro cs
  induction cs with
  | nil => intro f pre rest size ret _ _ _; cases f <;> simp [oidLoop, tailText]
  | cons c cs ih =>
    intro f pre rest size ret hc hf hs
    obtain ⟨n, t, h1, h2, h3⟩ := number_ok c (hc c (by simp)) (cs.flatMap base128)
    rw [List.flatMap_cons] at hf ⊢
    rw [h1] at hf ⊢
    obtain ⟨f, rfl⟩ : ∃ k, f = k + 1 := ⟨f - 1, by simp at hf; omega⟩
    have htt : tailText (c :: cs) = ('.' :: Nat.toDigits 10 c) ++ tailText cs := by simp [tailText]
    rw [htt, List.length_append] at hs
    rw [oidLoop, h3]
    dsimp only
    rw [if_neg (by omega), printAt_fit _ _ _ _ _ (by omega)]
    have hlen : pre.length + ('.' :: Nat.toDigits 10 c).length = (pre ++ '.' :: Nat.toDigits 10 c).length := by simp
    have hb : 1 ≤ (base128 c).length := by simp [base128]
    rw [hlen, ih f _ _ _ _ (fun x hx => hc x (List.mem_cons_of_mem _ hx)) (by
      have := congrArg List.length h1
      simp only [List.length_append, List.length_cons] at this hf
      omega) (by omega)]
    rw [htt, List.length_append, List.drop_drop]
    refine Prod.ext ?_ ?_
    · show _ + _ + _ = _; push_cast; omega
    · simp [List.append_assoc]

theorem oidLoop_small : ∀ (cs : List Nat) (f : Nat) (buf : List Char) (pos size : Nat) (ret : Int),
    (∀ c ∈ cs, c < 2 ^ 64) → (cs.flatMap base128).length ≤ f → size ≤ (tailText cs).length → 0 < size →
    (oidLoop f (cs.flatMap base128) buf pos size ret).1 = -ENOBUFS := by
  intro cs
  induction cs with
  | nil => intro f buf pos size ret _ _ h1 h2; simp [tailText] at h1; omega
  | cons c cs ih =>
    intro f buf pos size ret hc hf hs h0
    obtain ⟨n, t, h1, h2, h3⟩ := number_ok c (hc c (by simp)) (cs.flatMap base128)
    rw [List.flatMap_cons] at hf ⊢
    rw [h1] at hf ⊢
    obtain ⟨f, rfl⟩ : ∃ k, f = k + 1 := ⟨f - 1, by simp at hf; omega⟩
    have htt : tailText (c :: cs) = ('.' :: Nat.toDigits 10 c) ++ tailText cs := by simp [tailText]
    rw [htt, List.length_append] at hs
    rw [oidLoop, h3]
    dsimp only
    have hb : 1 ≤ (base128 c).length := by simp [base128]
    split
    · rfl
    · exact ih f _ _ _ _ (fun x hx => hc x (List.mem_cons_of_mem _ hx)) (by
        have := congrArg List.length h1
        simp only [List.length_append, List.length_cons] at this hf
        omega) (by omega) (by omega)

/-! ### C126 -/

/-- C126 (what holds): for the encoding of an object identifier with second arc below 40 and all further arcs below 2^64, in a
buffer that is larger than the text, the text in dotted form and a NUL are written, the rest of the buffer is kept, and the
length of the text is returned. -/
theorem c126_text_partial (a b : Nat) (cs : List Nat) (ha : a ≤ 2) (hb : b < 40) (hc : ∀ c ∈ cs, c < 2 ^ 64)
    (buf : List Char) (size : Nat) (hs : (dotted (a :: b :: cs)).length < size) (hi : size ≤ 2 ^ 31 - 1) (hbuf : size ≤ buf.length) :
    sprintOid (encodeOid a b cs) buf size =
      (((dotted (a :: b :: cs)).length : Int),
        dotted (a :: b :: cs) ++ Char.ofNat 0 :: buf.drop ((dotted (a :: b :: cs)).length + 1)) := by
  have h0 : (40 * a + b) / 128 = 0 := by omega
  have he : encodeOid a b cs = UInt8.ofNat ((40 * a + b) % 128) :: cs.flatMap base128 := by
    simp [encodeOid, base128, h0, base128Hi]
  have hv : (UInt8.ofNat ((40 * a + b) % 128)).toNat = 40 * a + b := by rw [byte_lo (by omega)]; omega
  have hd : dotted (a :: b :: cs) = (Nat.toDigits 10 a ++ '.' :: Nat.toDigits 10 b) ++ tailText cs := by
    rw [dotted_cons]; simp [tailText]
  rw [hd, List.length_append] at hs ⊢
  rw [he]
  simp only [sprintOid, hv, show (40 * a + b) / 40 = a by omega, show (40 * a + b) % 40 = b by omega]
  generalize Nat.toDigits 10 a ++ '.' :: Nat.toDigits 10 b = t at hs ⊢
  rw [if_neg (by omega), if_neg (by omega)]
  cases buf with
  | nil => simp at hbuf; omega
  | cons z rest =>
    have hp : printAt (z :: rest) 0 size t = t ++ Char.ofNat 0 :: rest.drop t.length := by
      simpa using printAt_fit [] rest z size t (by omega)
    rw [hp, oidLoop_fit cs _ t _ _ _ hc (by simp) (by omega)]
    refine Prod.ext ?_ ?_
    · show _ + _ = _; push_cast; rfl
    · simp [List.append_assoc, List.drop_drop]

example : encodeOid 1 2 [840, 113549] = [0x2a, 0x86, 0x48, 0x86, 0xf7, 0x0d] ∧
    dotted [1, 2, 840, 113549] = "1.2.840.113549".toList := by
  constructor
  · simp [encodeOid, base128, base128Hi]
  · decide +kernel

/-- C126 (small buffers): if the text does not fit, `-ENOBUFS` is returned. -/
theorem c126_small_partial (a b : Nat) (cs : List Nat) (ha : a ≤ 2) (hb : b < 40) (hc : ∀ c ∈ cs, c < 2 ^ 64)
    (buf : List Char) (size : Nat) (hs : size ≤ (dotted (a :: b :: cs)).length) (hi : size ≤ 2 ^ 31 - 1) :
    (sprintOid (encodeOid a b cs) buf size).1 = -ENOBUFS := by
  have h0 : (40 * a + b) / 128 = 0 := by omega
  have he : encodeOid a b cs = UInt8.ofNat ((40 * a + b) % 128) :: cs.flatMap base128 := by
    simp [encodeOid, base128, h0, base128Hi]
  have hv : (UInt8.ofNat ((40 * a + b) % 128)).toNat = 40 * a + b := by rw [byte_lo (by omega)]; omega
  have hd : dotted (a :: b :: cs) = (Nat.toDigits 10 a ++ '.' :: Nat.toDigits 10 b) ++ tailText cs := by
    rw [dotted_cons]; simp [tailText]
  rw [hd, List.length_append] at hs
  rw [he]
  simp only [sprintOid, hv, show (40 * a + b) / 40 = a by omega, show (40 * a + b) % 40 = b by omega]
  generalize Nat.toDigits 10 a ++ '.' :: Nat.toDigits 10 b = t at hs ⊢
  rw [if_neg (by omega)]
  split
  · rfl
  · exact oidLoop_small cs _ _ _ _ _ hc (by simp) (by omega) (by omega)

theorem printAt_mem (buf : List Char) (pos size total : Nat) (t : List Char) (h : pos + size = total) (hb : total ≤ buf.length) :
    (printAt buf pos size t).length = buf.length ∧ (printAt buf pos size t).drop total = buf.drop total := by
  unfold printAt snprintf
  split
  · simp
  · dsimp only
    have hl : (t.take (size - 1) ++ [Char.ofNat 0]).length ≤ size := by simp; omega
    generalize t.take (size - 1) ++ [Char.ofNat 0] = w at hl
    constructor
    · simp; omega
    · rw [List.drop_append, List.drop_append, List.drop_of_length_le (by simp; omega), List.drop_of_length_le (by simp; omega),
        List.nil_append, List.nil_append, List.drop_drop, List.drop_drop]
      congr 1
      simp
      omega

theorem oidLoop_mem : ∀ (f : Nat) (d : List UInt8) (buf : List Char) (pos size total : Nat) (ret : Int), pos + size = total →
    total ≤ buf.length → (oidLoop f d buf pos size ret).2.length = buf.length ∧
      (oidLoop f d buf pos size ret).2.drop total = buf.drop total := by
  intro f
  induction f with
  | zero => intro d buf pos size total ret h hb; cases d <;> exact ⟨rfl, rfl⟩
  | succ f ih =>
    intro d buf pos size total ret h hb
    cases d with
    | nil => exact ⟨rfl, rfl⟩
    | cons n r =>
      rw [oidLoop]
      split
      · exact printAt_mem buf pos size total _ h hb
      · rename_i num r' _
        dsimp only
        obtain ⟨h1, h2⟩ := printAt_mem buf pos size total ('.' :: Nat.toDigits 10 num) h hb
        split
        · exact ⟨h1, h2⟩
        · obtain ⟨g1, g2⟩ := ih r' (printAt buf pos size ('.' :: Nat.toDigits 10 num)) (pos + ('.' :: Nat.toDigits 10 num).length)
            (size - ('.' :: Nat.toDigits 10 num).length) total (ret + ('.' :: Nat.toDigits 10 num).length) (by omega) (by omega)
          exact ⟨by rw [g1, h1], by rw [g2, h2]⟩

/-- C126 (memory): for all bytes whatsoever, nothing is written behind the buffer. -/
theorem c126_memory (data : List UInt8) (buf : List Char) (size : Nat) (hb : size ≤ buf.length) :
    (sprintOid data buf size).2.length = buf.length ∧ (sprintOid data buf size).2.drop size = buf.drop size := by
  unfold sprintOid
  split
  · exact printAt_mem buf 0 size size _ (by omega) hb
  · split
    · exact printAt_mem buf 0 size size _ (by omega) hb
    · rename_i n r _
      dsimp only
      generalize Nat.toDigits 10 (n.toNat / 40) ++ '.' :: Nat.toDigits 10 (n.toNat % 40) = t
      obtain ⟨h1, h2⟩ := printAt_mem buf 0 size size t (by omega) hb
      split
      · exact ⟨h1, h2⟩
      · obtain ⟨g1, g2⟩ := oidLoop_mem r.length r (printAt buf 0 size t) t.length (size - t.length) size t.length (by omega) (by omega)
        exact ⟨by rw [g1, h1], by rw [g2, h2]⟩

theorem moreOid_open : ∀ (r : List UInt8) (acc : Nat), (∀ x ∈ r.getLast?, 128 ≤ x.toNat) →
    moreOid r acc = none ∨ ∃ v r', moreOid r acc = some (v, r') ∧ r' ≠ [] ∧ r'.getLast? = r.getLast? ∧ r'.length < r.length := by
  intro r
  induction r with
  | nil => intro acc _; exact .inl rfl
  | cons n r ih =>
    intro acc h
    rw [moreOid]
    cases r with
    | nil =>
      have := h n (by simp)
      rw [if_pos this]
      exact .inl rfl
    | cons m r =>
      split
      · rcases ih (acc * 128 % 2 ^ 64 + n.toNat % 128) (by rw [List.getLast?_cons_cons] at h; exact h) with h1 | ⟨v, r', h1, h2, h3, h4⟩
        · exact .inl h1
        · exact .inr ⟨v, r', h1, h2, by rw [h3, List.getLast?_cons_cons], by simp at h4 ⊢; omega⟩
      · exact .inr ⟨_, _, rfl, by simp, by rw [List.getLast?_cons_cons], by simp⟩

theorem oidLoop_open : ∀ (f : Nat) (r : List UInt8) (buf : List Char) (pos size : Nat) (ret : Int), r ≠ [] → r.length ≤ f →
    (∀ x ∈ r.getLast?, 128 ≤ x.toNat) → (oidLoop f r buf pos size ret).1 < 0 := by
  intro f
  induction f with
  | zero => intro r _ _ _ _ h0 h1; cases r <;> simp at h0 h1
  | succ f ih =>
    intro r buf pos size ret h0 hf h
    cases r with
    | nil => exact absurd rfl h0
    | cons n r =>
      have key : (if n.toNat < 128 then some (n.toNat, r) else moreOid r (n.toNat % 128)) = none ∨
          ∃ v r', (if n.toNat < 128 then some (n.toNat, r) else moreOid r (n.toNat % 128)) = some (v, r') ∧ r' ≠ [] ∧
            r'.length ≤ f ∧ (∀ x ∈ r'.getLast?, 128 ≤ x.toNat) := by
        cases r with
        | nil =>
          have := h n (by simp)
          rw [if_neg (by omega)]
          exact .inl rfl
        | cons m r =>
          rw [List.getLast?_cons_cons] at h
          split
          · exact .inr ⟨_, _, rfl, by simp, by simp at hf ⊢; omega, h⟩
          · rcases moreOid_open (m :: r) (n.toNat % 128) h with h1 | ⟨v, r', h1, h2, h3, h4⟩
            · exact .inl h1
            · exact .inr ⟨v, r', h1, h2, by simp at hf h4; omega, by rw [h3]; exact h⟩
      rw [oidLoop]
      rcases key with hk | ⟨v, r', hk, h1, h2, h3⟩
      · rw [hk]
        exact (by decide : -EBADMSG < 0)
      · rw [hk]
        dsimp only
        split
        · exact (by decide : -ENOBUFS < 0)
        · exact ih r' _ _ _ _ h1 h2 h3

/-- C126 (incomplete data): the empty identifier and any bytes whose last number has no end are reported. -/
theorem c126_bad (buf : List Char) (size : Nat) : (sprintOid [] buf size).1 = -EBADMSG ∧
    ∀ n r, r ≠ [] → (∀ x ∈ r.getLast?, 128 ≤ x.toNat) → (sprintOid (n :: r) buf size).1 < 0 := by
  refine ⟨rfl, fun n r h0 h => ?_⟩
  unfold sprintOid
  dsimp only
  split
  · exact (by decide : -EBADMSG < 0)
  · split
    · exact (by decide : -ENOBUFS < 0)
    · exact oidLoop_open _ _ _ _ _ _ h0 (Nat.le_refl _) h

example : ([0x86, 0x48, 0x86, 0xf7] : List UInt8) ≠ [] ∧ ∀ x ∈ ([0x86, 0x48, 0x86, 0xf7] : List UInt8).getLast?, 128 ≤ x.toNat := by
  refine ⟨by simp, ?_⟩
  intro x hx
  simp at hx
  subst hx
  decide

/-- C126 (negation, second arc): 2.40 is printed as 3.0, and 2.999, the example of X.660, as an identifier with four arcs. -/
theorem c126_negation_first : (sprintOid (encodeOid 2 40 []) (List.replicate 20 'x') 20).2.take 4 = "3.0".toList ++ [Char.ofNat 0] ∧
    (sprintOid (encodeOid 2 999 []) (List.replicate 20 'x') 20).2.take 7 = "3.16.55".toList := by
  have h1 : encodeOid 2 40 [] = [120] := by simp [encodeOid, base128, base128Hi]
  have h2 : encodeOid 2 999 [] = [136, 55] := by simp [encodeOid, base128, base128Hi]
  rw [h1, h2]
  decide +kernel

/-- C126 (negation, large arcs): arcs are printed modulo 2^64, so that different identifiers have the same text. -/
theorem c126_negation_large : encodeOid 1 2 [2 ^ 64 + 5] ≠ encodeOid 1 2 [5] ∧
    (sprintOid (encodeOid 1 2 [2 ^ 64 + 5]) (List.replicate 40 'x') 40) = (sprintOid (encodeOid 1 2 [5]) (List.replicate 40 'x') 40) := by
  have h1 : encodeOid 1 2 [2 ^ 64 + 5] = [42, 130, 128, 128, 128, 128, 128, 128, 128, 128, 5] := by
    simp [encodeOid, base128, base128Hi]
  have h2 : encodeOid 1 2 [5] = [42, 5] := by simp [encodeOid, base128, base128Hi]
  rw [h1, h2]
  decide +kernel

end LC.Acc
