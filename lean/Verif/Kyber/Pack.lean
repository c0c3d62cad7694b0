import Verif.Kyber.Reduce
/-
C43, C44: serialisation and compression of ML-KEM polynomials are `ByteEncode_d`, `ByteDecode_d`,
`Compress_d`, `Decompress_d` of FIPS 203 (algorithms 3 to 6, equations (4.7) and (4.8)).
-/
namespace LC.Kyber

/-! ### Specification -/

/-- Bit `k` of a byte string (`BytesToBits`, algorithm 4). -/
def Spec.bit (b : List Byte) (k : Nat) : Bool := (b.getD (k / 8) 0).toNat.testBit (k % 8)

/-- The number with the bits `f 0, f 1, .., f (n-1)`, least significant first. -/
def Spec.ofBits (f : Nat → Bool) : Nat → Nat
  | 0 => 0
  | n + 1 => Spec.ofBits f n + (if f n then 2 ^ n else 0)

/-- `ByteEncode_d`, algorithm 5: bit `i d + j` of the string is bit `j` of the integer `c i`. -/
def Spec.byteEncode (d : Nat) (c : Nat → Nat) : List Byte :=
  (List.range (32 * d)).map fun j =>
    UInt8.ofNat (Spec.ofBits (fun i => (c ((8 * j + i) / d)).testBit ((8 * j + i) % d)) 8)

/-- `ByteDecode_d`, algorithm 6, without the final reduction of `d = 12`. -/
def Spec.byteDecode (d : Nat) (b : List Byte) (x : Nat) : Nat := Spec.ofBits (fun j => Spec.bit b (d * x + j)) d

/-- `Compress_d`, (4.7): `2^d / q * x` rounded to the nearest integer (ties up), modulo `2^d`. -/
def Spec.compress (d x : Nat) : Nat := (2 * 2 ^ d * x + 3329) / (2 * 3329) % 2 ^ d

/-- `Decompress_d`, (4.8): `q / 2^d * y` rounded to the nearest integer (ties up). -/
def Spec.decompress (d y : Nat) : Nat := (2 * 3329 * y + 2 ^ d) / (2 * 2 ^ d)

/-! ### Bits and digits -/

theorem ofBits_lt (f : Nat → Bool) : ∀ n, Spec.ofBits f n < 2 ^ n
  | 0 => Nat.one_pos
  | n + 1 => by
    have := ofBits_lt f n
    unfold Spec.ofBits
    rw [Nat.pow_succ]
    split <;> omega

theorem ofBits_testBit (f : Nat → Bool) : ∀ n k, k < n → (Spec.ofBits f n).testBit k = f k
  | 0, _, h => by omega
  | n + 1, k, h => by
    have hlt := ofBits_lt f n
    unfold Spec.ofBits
    have e : Spec.ofBits f n + (if f n then 2 ^ n else 0) = 2 ^ n * (if f n then 1 else 0) + Spec.ofBits f n := by
      split <;> omega
    rw [e, Nat.testBit_two_pow_mul_add _ hlt]
    by_cases hk : k < n
    · rw [if_pos hk, ofBits_testBit f n k hk]
    · have : k = n := by omega
      subst this
      rw [if_neg hk, Nat.sub_self]
      cases f k <;> rfl

theorem ofBits_eq {f : Nat → Bool} {n x : Nat} (hx : x < 2 ^ n) (h : ∀ k < n, x.testBit k = f k) : Spec.ofBits f n = x := by
  apply Nat.eq_of_testBit_eq
  intro k
  by_cases hk : k < n
  · rw [ofBits_testBit f n k hk, h k hk]
  · have hp : 2 ^ n ≤ 2 ^ k := Nat.pow_le_pow_right (by decide) (by omega)
    rw [Nat.testBit_lt_two_pow (Nat.lt_of_lt_of_le (ofBits_lt f n) hp), Nat.testBit_lt_two_pow (Nat.lt_of_lt_of_le hx hp)]

/-- The number with the digits `e 0, e 1, ..` of width `w`. -/
def sumDigits (w : Nat) (e : Nat → Nat) : Nat → Nat
  | 0 => 0
  | m + 1 => e 0 + 2 ^ w * sumDigits w (fun j => e (j + 1)) m

theorem digits_testBit (w : Nat) (hw : 0 < w) : ∀ m (e : Nat → Nat), (∀ j < m, e j < 2 ^ w) → ∀ k < w * m,
    (sumDigits w e m).testBit k = (e (k / w)).testBit (k % w) := by
  intro m
  induction m with
  | zero => intro e _ k hk; rw [Nat.mul_zero] at hk; omega
  | succ m ih =>
    intro e he k hk
    unfold sumDigits
    rw [Nat.add_comm, Nat.testBit_two_pow_mul_add _ (he 0 (by omega))]
    by_cases h : k < w
    · rw [if_pos h, Nat.div_eq_of_lt h, Nat.mod_eq_of_lt h]
    · rw [if_neg h, ih _ (fun j hj => he (j + 1) (by omega)) _ (by rw [Nat.mul_add] at hk; omega)]
      have h1 : k / w = (k - w) / w + 1 := by
        rw [Nat.div_eq k w, if_pos ⟨hw, by omega⟩]
      have h2 : k % w = (k - w) % w := Nat.mod_eq_sub_mod (by omega)
      rw [h1, h2]

theorem at8_lt (b : List Byte) (i : Nat) : at8 b i < 256 := (b.getD i 0).toNat_lt

theorem flatMap_length {g : Nat → List Byte} {m : Nat} (hl : ∀ i, (g i).length = m) : ∀ n, ((List.range n).flatMap g).length = m * n
  | 0 => by simp
  | n + 1 => by
    rw [List.range_succ, List.flatMap_append, List.length_append, flatMap_length hl n]
    simp [hl, Nat.mul_add]

theorem flatMap_getD {g : Nat → List Byte} {m : Nat} (hl : ∀ i, (g i).length = m) : ∀ n i k, i < n → k < m →
    ((List.range n).flatMap g).getD (m * i + k) 0 = (g i).getD k 0
  | 0, i, _, h, _ => by omega
  | n + 1, i, k, hi, hk => by
    rw [List.range_succ, List.flatMap_append, List.getD_eq_getElem?_getD]
    have hlen := flatMap_length hl n
    by_cases h : i < n
    · have : m * (i + 1) ≤ m * n := Nat.mul_le_mul_left _ h
      rw [Nat.mul_add] at this
      rw [List.getElem?_append_left (by omega), ← List.getD_eq_getElem?_getD, flatMap_getD hl n i k h hk]
    · have : i = n := by omega
      subst this
      rw [List.getElem?_append_right (by omega), hlen, List.flatMap_cons, List.flatMap_nil, List.append_nil,
        Nat.add_sub_cancel_left, ← List.getD_eq_getElem?_getD]

theorem div_add' {d a k : Nat} (hd : 0 < d) : (d * a + k) / d = a + k / d ∧ (d * a + k) % d = k % d :=
  ⟨Nat.mul_add_div hd a k, Nat.mul_add_mod d a k⟩

/-- Packing chunk by chunk is `ByteEncode`: `cnt` chunks of `n` values in `m` bytes. -/
theorem chunk_encode {d n m cnt : Nat} (hd : 0 < d) (hm : 0 < m) (hnm : 8 * m = d * n) (hcnt : m * cnt = 32 * d) (c : Nat → Nat)
    (g : Nat → List Byte) (hl : ∀ i, (g i).length = m) (hc : ∀ i < cnt, ∀ k < n, c (n * i + k) < 2 ^ d)
    (hs : ∀ i < cnt, sumDigits 8 (fun k => at8 (g i) k) m = sumDigits d (fun k => c (n * i + k)) n) :
    (List.range cnt).flatMap g = Spec.byteEncode d c := by
  unfold Spec.byteEncode
  apply List.ext_getElem
  · rw [flatMap_length hl, List.length_map, List.length_range, hcnt]
  intro j h1 h2
  rw [flatMap_length hl] at h1
  rw [List.getElem_map, List.getElem_range]
  have hi : j / m < cnt := (Nat.div_lt_iff_lt_mul hm).2 (by rw [Nat.mul_comm]; exact h1)
  have hk : j % m < m := Nat.mod_lt _ hm
  have hj : m * (j / m) + j % m = j := Nat.div_add_mod j m
  have e : ((List.range cnt).flatMap g)[j] = (g (j / m)).getD (j % m) 0 := by
    rw [← flatMap_getD hl cnt (j / m) (j % m) hi hk, hj, List.getD_eq_getElem?_getD, List.getElem?_eq_getElem, Option.getD_some]
  rw [e]
  have hb : Spec.ofBits (fun i => (c ((8 * j + i) / d)).testBit ((8 * j + i) % d)) 8 = at8 (g (j / m)) (j % m) := by
    apply ofBits_eq (at8_lt _ _)
    intro i hi8
    have hlocal : 8 * (j % m) + i < 8 * m := by omega
    have t1 := digits_testBit 8 (by decide) m (fun k => at8 (g (j / m)) k) (fun k _ => at8_lt _ _) (8 * (j % m) + i) hlocal
    have t2 := digits_testBit d hd n (fun k => c (n * (j / m) + k)) (fun k hk => hc _ hi k hk) (8 * (j % m) + i) (by omega)
    rw [hs _ hi, t2] at t1
    rw [show (8 * (j % m) + i) / 8 = j % m by omega, show (8 * (j % m) + i) % 8 = i by omega] at t1
    rw [← t1]
    have hglob : 8 * j + i = d * (n * (j / m)) + (8 * (j % m) + i) := by
      rw [← Nat.mul_assoc, ← hnm, Nat.mul_assoc]; omega
    rw [hglob, (div_add' hd).1, (div_add' hd).2]
  rw [hb]
  unfold at8
  rw [UInt8.ofNat_toNat]

/-- Unpacking chunk by chunk is `ByteDecode`. -/
theorem chunk_decode {d n m : Nat} (hd : 0 < d) (hn : 0 < n) (hnm : 8 * m = d * n) (b : List Byte) (v : Nat → Nat) (i : Nat)
    (hv : ∀ k < n, v (n * i + k) < 2 ^ d)
    (hs : sumDigits d (fun k => v (n * i + k)) n = sumDigits 8 (fun k => at8 b (m * i + k)) m) (k : Nat) (hk : k < n) :
    v (n * i + k) = Spec.byteDecode d b (n * i + k) := by
  unfold Spec.byteDecode
  symm
  apply ofBits_eq (hv k hk)
  intro j hj
  have hlocal : d * k + j < d * n := by
    have : d * (k + 1) ≤ d * n := Nat.mul_le_mul_left _ hk
    rw [Nat.mul_add] at this
    omega
  have t1 := digits_testBit d hd n (fun k => v (n * i + k)) hv (d * k + j) hlocal
  have t2 := digits_testBit 8 (by decide) m (fun k => at8 b (m * i + k)) (fun k _ => at8_lt _ _) (d * k + j) (by omega)
  rw [hs, t2, (div_add' hd).1, (div_add' hd).2, Nat.div_eq_of_lt hj, Nat.mod_eq_of_lt hj, Nat.add_zero] at t1
  rw [← t1]
  unfold Spec.bit
  have hglob : d * (n * i + k) + j = 8 * (m * i) + (d * k + j) := by
    rw [Nat.mul_add, ← Nat.mul_assoc, ← hnm, Nat.mul_assoc]; omega
  rw [hglob, (div_add' (d := 8) (by decide)).1, (div_add' (d := 8) (by decide)).2]
  rfl

/-! ### Round trips of the specification -/

theorem byteEncode_length (d : Nat) (c : Nat → Nat) : (Spec.byteEncode d c).length = 32 * d := by
  unfold Spec.byteEncode; rw [List.length_map, List.length_range]

theorem byteEncode_bit (d : Nat) (hd : 0 < d) (c : Nat → Nat) (k : Nat) (hk : k < 256 * d) :
    Spec.bit (Spec.byteEncode d c) k = (c (k / d)).testBit (k % d) := by
  unfold Spec.bit Spec.byteEncode
  have h : k / 8 < 32 * d := by omega
  rw [List.getD_eq_getElem?_getD, List.getElem?_map, List.getElem?_range h]
  simp only [Option.map_some, Option.getD_some]
  have hlt := ofBits_lt (fun i => (c ((8 * (k / 8) + i) / d)).testBit ((8 * (k / 8) + i) % d)) 8
  rw [UInt8.toNat_ofNat', Nat.mod_eq_of_lt hlt, ofBits_testBit _ 8 _ (Nat.mod_lt _ (by decide)), Nat.div_add_mod]

/-- `ByteDecode` undoes `ByteEncode`. -/
theorem byteDecode_encode (d : Nat) (hd : 0 < d) (c : Nat → Nat) (x : Nat) (hx : x < 256) (hc : c x < 2 ^ d) :
    Spec.byteDecode d (Spec.byteEncode d c) x = c x := by
  unfold Spec.byteDecode
  apply ofBits_eq hc
  intro j hj
  have : d * (x + 1) ≤ d * 256 := Nat.mul_le_mul_left _ hx
  rw [Nat.mul_add] at this
  rw [byteEncode_bit d hd c _ (by omega), (div_add' hd).1, (div_add' hd).2, Nat.div_eq_of_lt hj, Nat.mod_eq_of_lt hj, Nat.add_zero]

theorem byteDecode_lt (d : Nat) (b : List Byte) (x : Nat) : Spec.byteDecode d b x < 2 ^ d := ofBits_lt _ _

/-- `ByteEncode` undoes `ByteDecode`. -/
theorem byteEncode_decode (d : Nat) (hd : 0 < d) (b : List Byte) (hb : b.length = 32 * d) :
    Spec.byteEncode d (Spec.byteDecode d b) = b := by
  have hl := byteEncode_length d (Spec.byteDecode d b)
  unfold Spec.byteEncode at *
  apply List.ext_getElem
  · rw [hl, hb]
  intro j h1 h2
  rw [List.getElem_map, List.getElem_range]
  have : Spec.ofBits (fun i => (Spec.byteDecode d b ((8 * j + i) / d)).testBit ((8 * j + i) % d)) 8 = b[j].toNat := by
    apply ofBits_eq b[j].toNat_lt
    intro i hi
    unfold Spec.byteDecode
    rw [ofBits_testBit _ _ _ (Nat.mod_lt _ hd), Nat.div_add_mod]
    unfold Spec.bit
    rw [show (8 * j + i) / 8 = j by omega, show (8 * j + i) % 8 = i by omega, List.getD_eq_getElem?_getD,
      List.getElem?_eq_getElem h2, Option.getD_some]
  rw [this, UInt8.ofNat_toNat]

theorem byteEncode_congr (d : Nat) (hd : 0 < d) {c c' : Nat → Nat} (h : ∀ x < 256, c x = c' x) :
    Spec.byteEncode d c = Spec.byteEncode d c' := by
  unfold Spec.byteEncode
  apply List.map_congr_left
  intro j hj
  rw [List.mem_range] at hj
  congr 1
  have hlt := ofBits_lt (fun i => (c' ((8 * j + i) / d)).testBit ((8 * j + i) % d)) 8
  apply ofBits_eq hlt
  intro k hk
  rw [ofBits_testBit _ 8 k hk, h _ ((Nat.div_lt_iff_lt_mul hd).2 (by omega))]

/-! ### The code -/

theorem or_add {a b k : Nat} (h : a < 2 ^ k) : a ||| b <<< k = a + b * 2 ^ k := by
  rw [Nat.or_comm, ← Nat.shiftLeft_add_eq_or_of_lt h, Nat.shiftLeft_eq, Nat.add_comm]

theorem or_add4 {a b : Nat} (h : a < 16) : a ||| b <<< 4 = a + b * 16 := or_add h
theorem or_add8 {a b : Nat} (h : a < 256) : a ||| b <<< 8 = a + b * 256 := or_add h

theorem addQ_eq {x : Int} (h1 : -3329 ≤ x) (h2 : x < 3329) : addQ x = (x % 3329).toNat := by
  unfold addQ u16; split <;> omega

theorem addQ_lt {x : Int} (h1 : -3329 ≤ x) (h2 : x < 3329) : addQ x < 3329 := by
  rw [addQ_eq h1 h2]; omega

/-- **C43 (`poly_tobytes`)**: it is `ByteEncode_12` of the residues in `[0, q)`, for coefficients in
`[-q, q)`. -/
theorem tobytes_is_byteEncode (a : Poly) (ha : ∀ x < 256, -3329 ≤ a x ∧ a x < 3329) :
    polyTobytes a = Spec.byteEncode 12 (fun x => (a x % 3329).toNat) := by
  rw [byteEncode_congr 12 (by decide) (c' := fun x => addQ (a x)) (fun x hx => (addQ_eq (ha x hx).1 (ha x hx).2).symm)]
  unfold polyTobytes
  refine chunk_encode (n := 2) (m := 3) (by decide) (by decide) (by decide) (by decide) _ _ (fun _ => rfl) ?_ ?_
  · intro i hi k hk
    have := addQ_lt (ha (2 * i + k) (by omega)).1 (ha (2 * i + k) (by omega)).2
    omega
  · intro i hi
    have h0 := addQ_lt (ha (2 * i) (by omega)).1 (ha (2 * i) (by omega)).2
    have h1 := addQ_lt (ha (2 * i + 1) (by omega)).1 (ha (2 * i + 1) (by omega)).2
    simp only [sumDigits, at8, List.getD_cons_zero, List.getD_cons_succ, Nat.add_zero, Nat.zero_add, UInt8.toNat_ofNat']
    generalize addQ (a (2 * i)) = t0 at h0 ⊢
    generalize addQ (a (2 * i + 1)) = t1 at h1 ⊢
    rw [Nat.shiftRight_zero, Nat.shiftRight_eq_div_pow, Nat.shiftRight_eq_div_pow, or_add4 (by omega)]
    omega

/-- The value of `poly_frombytes` as a natural number. -/
def fromNat (b : List Byte) (x : Nat) : Nat :=
  if x % 2 = 0 then (at8 b (3 * (x / 2)) + at8 b (3 * (x / 2) + 1) * 256) % 4096
  else at8 b (3 * (x / 2) + 1) / 16 + at8 b (3 * (x / 2) + 2) * 16

theorem frombytes_nat (b : List Byte) (x : Nat) : polyFrombytes b x = (fromNat b x : Int) := by
  unfold polyFrombytes fromNat
  dsimp only
  have h0 := at8_lt b (3 * (x / 2))
  have h1 := at8_lt b (3 * (x / 2) + 1)
  have h2 := at8_lt b (3 * (x / 2) + 2)
  have e : ∀ y, y &&& 0xfff = y % 4096 := fun y => Nat.and_two_pow_sub_one_eq_mod y 12
  split
  · rw [e, Nat.shiftRight_zero, or_add8 h0]
  · rw [e, Nat.shiftRight_eq_div_pow, or_add4 (by omega), Nat.mod_eq_of_lt (by omega)]

/-- **C43 (`poly_frombytes`)**: it is the bit extraction of `ByteDecode_12` (without the reduction
modulo `q`), for every byte string. -/
theorem frombytes_is_byteDecode (b : List Byte) (x : Nat) : polyFrombytes b x = (Spec.byteDecode 12 b x : Int) := by
  rw [frombytes_nat]
  congr 1
  have hx : x = 2 * (x / 2) + x % 2 := by omega
  rw [hx]
  refine chunk_decode (n := 2) (m := 3) (by decide) (by decide) (by decide) b (fromNat b) (x / 2) ?_ ?_ (x % 2) (by omega)
  · intro k hk
    unfold fromNat
    have h1 := at8_lt b (3 * ((2 * (x / 2) + k) / 2) + 1)
    have h2 := at8_lt b (3 * ((2 * (x / 2) + k) / 2) + 2)
    split <;> omega
  · have h0 := at8_lt b (3 * (x / 2))
    have h1 := at8_lt b (3 * (x / 2) + 1)
    have h2 := at8_lt b (3 * (x / 2) + 2)
    simp only [sumDigits, fromNat, Nat.add_zero, Nat.zero_add, Nat.reduceAdd]
    rw [if_pos (by omega), if_neg (by omega), show 2 * (x / 2) / 2 = x / 2 by omega,
      show (2 * (x / 2) + 1) / 2 = x / 2 by omega]
    omega

/-- **C43**: deserialising a serialised polynomial returns the residues. -/
theorem tobytes_frombytes (a : Poly) (ha : ∀ x < 256, -3329 ≤ a x ∧ a x < 3329) (x : Nat) (hx : x < 256) :
    polyFrombytes (polyTobytes a) x = a x % 3329 := by
  rw [frombytes_is_byteDecode, tobytes_is_byteEncode a ha, byteDecode_encode 12 (by decide) _ x hx (by
    show (a x % 3329).toNat < 4096
    omega)]
  omega

/-- **C43**: serialising what was deserialised returns the bytes, for every string of 384 bytes
(whether or not the values are below `q`). -/
theorem frombytes_tobytes (b : List Byte) (hb : b.length = 384) : polyTobytes (polyFrombytes b) = b := by
  have hlt : ∀ x, Spec.byteDecode 12 b x < 4096 := fun x => byteDecode_lt 12 b x
  have hq : ∀ x, addQ (polyFrombytes b x) = Spec.byteDecode 12 b x := by
    intro x
    have := hlt x
    rw [frombytes_is_byteDecode]
    unfold addQ u16
    rw [if_neg (by omega)]
    omega
  have h : polyTobytes (polyFrombytes b) = Spec.byteEncode 12 (Spec.byteDecode 12 b) := by
    unfold polyTobytes
    refine chunk_encode (n := 2) (m := 3) (by decide) (by decide) (by decide) (by decide) _ _ (fun _ => rfl) ?_ ?_
    · intro i _ k _; exact hlt _
    · intro i _
      have h0 := hlt (2 * i)
      have h1 := hlt (2 * i + 1)
      simp only [sumDigits, at8, List.getD_cons_zero, List.getD_cons_succ, Nat.add_zero, Nat.zero_add, UInt8.toNat_ofNat', hq]
      generalize Spec.byteDecode 12 b (2 * i) = t0 at h0 ⊢
      generalize Spec.byteDecode 12 b (2 * i + 1) = t1 at h1 ⊢
      rw [Nat.shiftRight_zero, Nat.shiftRight_eq_div_pow, Nat.shiftRight_eq_div_pow, or_add4 (by omega)]
      omega
  rw [h, byteEncode_decode 12 (by decide) b hb]

end LC.Kyber
