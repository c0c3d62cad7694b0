import Verif.Kmac.Spec
/- Helper lemmas for cSHAKE / KMAC. -/
namespace LC.Kmac
open LC.Sponge (Byte absorb squeeze setDigestsize updates)

/-! ### Encodings -/

/-- `n` is the smallest positive number with `x < 256 ^ n`. -/
def IsByteLen (x n : Nat) : Prop := 1 ≤ n ∧ x < 256 ^ n ∧ (n = 1 ∨ 256 ^ (n - 1) ≤ x)

theorem IsByteLen.unique {x n m : Nat} (h1 : IsByteLen x n) (h2 : IsByteLen x m) : n = m := by
  have aux : ∀ a b, IsByteLen x a → IsByteLen x b → ¬ a < b := by
    intro a b ha hb hlt
    obtain ⟨h, hu, _⟩ := ha
    obtain ⟨_, _, hl⟩ := hb
    rcases hl with e | hl
    · omega
    · have : 256 ^ a ≤ 256 ^ (b - 1) := Nat.pow_le_pow_right (by decide) (by omega)
      omega
  have := aux n m h1 h2
  have := aux m n h2 h1
  omega

theorem byteLen_is (x : Nat) : IsByteLen x (Spec.byteLen x) := by
  unfold Spec.byteLen
  split
  · rename_i h; subst h; exact ⟨by decide, by decide, .inl rfl⟩
  · rename_i h
    have h1 := Nat.log2_self_le h
    have h2 := @Nat.lt_log2_self x
    have h3 := Nat.div_add_mod (Nat.log2 x) 8
    have h4 := Nat.mod_lt (Nat.log2 x) (show 8 > 0 by decide)
    refine ⟨by omega, ?_, .inr ?_⟩
    · calc x < 2 ^ (Nat.log2 x + 1) := h2
        _ ≤ 2 ^ (8 * (Nat.log2 x / 8 + 1)) := Nat.pow_le_pow_right (by decide) (by omega)
        _ = 256 ^ (Nat.log2 x / 8 + 1) := by rw [Nat.pow_mul]
    · calc 256 ^ (Nat.log2 x / 8 + 1 - 1) = 2 ^ (8 * (Nat.log2 x / 8)) := by
            rw [Nat.pow_mul, Nat.add_sub_cancel]
        _ ≤ 2 ^ Nat.log2 x := Nat.pow_le_pow_right (by decide) (by omega)
        _ ≤ x := h1

theorem countBytes_is : ∀ (fuel v : Nat), v ≠ 0 → v < 256 ^ fuel → IsByteLen v (countBytes fuel v)
  | 0, v, h0, h => by simp at h; omega
  | fuel + 1, v, h0, h => by
    rw [countBytes, if_neg h0, Nat.shiftRight_eq_div_pow]
    have hp : 256 ^ (fuel + 1) = 256 ^ fuel * 256 := Nat.pow_succ ..
    by_cases hv : v < 256
    · have : v / 2 ^ 8 = 0 := Nat.div_eq_of_lt hv
      rw [this]
      have : countBytes fuel 0 = 0 := by cases fuel <;> simp [countBytes]
      rw [this]
      exact ⟨by decide, by simpa using hv, .inl rfl⟩
    · obtain ⟨k1, k2, k3⟩ := countBytes_is fuel (v / 2 ^ 8) (by omega) (by omega)
      generalize countBytes fuel (v / 2 ^ 8) = n at *
      refine ⟨by omega, ?_, .inr ?_⟩
      · rw [Nat.pow_succ]; omega
      · rw [Nat.add_sub_cancel]
        rcases k3 with e | k3
        · subst e; omega
        · obtain ⟨j, rfl⟩ : ∃ j, n = j + 1 := ⟨n - 1, by omega⟩
          rw [Nat.add_sub_cancel] at k3
          rw [Nat.pow_succ]; omega

theorem numBytes_eq (v : Nat) (h : v < 2 ^ 64) : numBytes v = Spec.byteLen v := by
  unfold numBytes
  by_cases h0 : v = 0
  · subst h0; decide
  · have hc := countBytes_is 8 v h0 (by simpa using h)
    have : countBytes 8 v ≠ 0 := by have := hc.1; omega
    rw [if_neg this]
    exact hc.unique (byteLen_is v)

theorem ofNat_mod (x : Nat) : UInt8.ofNat (x % 256) = UInt8.ofNat x := UInt8.ofNat_mod_size

theorem digits_eq_map : ∀ (n x : Nat),
    Spec.digits n x = (List.range n).map fun i => UInt8.ofNat (x / 256 ^ (n - (i + 1)))
  | 0, _ => rfl
  | n + 1, x => by
    rw [Spec.digits, digits_eq_map n x, List.range_succ_eq_map, List.map_cons, List.map_map,
      ofNat_mod]
    congr 1
    apply List.map_congr_left
    intro i _
    simp

theorem valBytes_eq (n x : Nat) : valBytes n x = Spec.digits n x := by
  rw [digits_eq_map, valBytes]
  apply List.map_congr_left
  intro i _
  rw [Nat.shiftRight_eq_div_pow, Nat.shiftLeft_eq, Nat.mul_comm, Nat.pow_mul]

theorem leftEncode_eq (x : Nat) (h : x < 2 ^ 64) : leftEncode x = Spec.leftEncode x := by
  rw [leftEncode, numBytes_eq x h, valBytes_eq, Spec.leftEncode]

theorem rightEncode_eq (x : Nat) (h : x < 2 ^ 64) : rightEncode x = Spec.rightEncode x := by
  rw [rightEncode, Spec.rightEncode, numBytes_eq x h, digits_eq_map]
  congr 1
  apply List.map_congr_left
  intro i _
  rw [Nat.shiftRight_eq_div_pow, Nat.shiftLeft_eq, Nat.mul_comm, Nat.pow_mul, Nat.sub_sub]

theorem digits_length : ∀ n x, (Spec.digits n x).length = n
  | 0, _ => rfl
  | n + 1, x => by rw [Spec.digits, List.length_cons, digits_length n x]

theorem ofNat_inj (a b : Nat) (ha : a < 256) (hb : b < 256) (h : UInt8.ofNat a = UInt8.ofNat b) :
    a = b := by
  have h2 := congrArg UInt8.toNat h
  simpa [Nat.mod_eq_of_lt ha, Nat.mod_eq_of_lt hb] using h2

theorem digits_inj : ∀ n x y, x < 256 ^ n → y < 256 ^ n → Spec.digits n x = Spec.digits n y → x = y
  | 0, x, y, hx, hy, _ => by simp at hx hy; omega
  | n + 1, x, y, hx, hy, h => by
    have hdrop : ∀ z, Spec.digits n z = Spec.digits n (z % 256 ^ n) := by
      intro z
      rw [digits_eq_map, digits_eq_map]
      apply List.map_congr_left
      intro i hi
      rw [List.mem_range] at hi
      rw [← ofNat_mod, ← ofNat_mod (z % 256 ^ n / _)]
      congr 1
      have e : 256 ^ n = 256 ^ (n - (i + 1)) * 256 ^ (i + 1) := by
        rw [← Nat.pow_add]; congr 1; omega
      rw [e, Nat.mod_mul_right_div_self, Nat.mod_mod_of_dvd]
      exact ⟨256 ^ i, by rw [Nat.pow_succ, Nat.mul_comm]⟩
    simp only [Spec.digits, List.cons.injEq] at h
    obtain ⟨h1, h2⟩ := h
    rw [hdrop x, hdrop y] at h2
    have hpos : 0 < 256 ^ n := Nat.pow_pos (by decide)
    have e1 := digits_inj n _ _ (Nat.mod_lt x hpos) (Nat.mod_lt y hpos) h2
    have e2 := ofNat_inj _ _ (Nat.mod_lt _ (by decide)) (Nat.mod_lt _ (by decide)) h1
    rw [Nat.pow_succ] at hx hy
    rw [Nat.mod_eq_of_lt (Nat.div_lt_of_lt_mul hx), Nat.mod_eq_of_lt (Nat.div_lt_of_lt_mul hy)] at e2
    rw [← Nat.div_add_mod x (256 ^ n), ← Nat.div_add_mod y (256 ^ n), e1, e2]

theorem byteLen_le (x : Nat) (h : x < 2 ^ 64) : 1 ≤ Spec.byteLen x ∧ Spec.byteLen x ≤ 8 := by
  obtain ⟨h1, h2, h3⟩ := byteLen_is x
  refine ⟨h1, ?_⟩
  rcases h3 with e | h3
  · omega
  · have : 256 ^ (Spec.byteLen x - 1) < 256 ^ 8 := by
      have : (2:Nat) ^ 64 = 256 ^ 8 := by decide
      omega
    have := (Nat.pow_lt_pow_iff_right (by decide : 1 < 256)).mp this
    omega

theorem leftEncode_length (x : Nat) : (Spec.leftEncode x).length = Spec.byteLen x + 1 := by
  rw [Spec.leftEncode, List.length_cons, digits_length]

theorem rightEncode_length (x : Nat) : (Spec.rightEncode x).length = Spec.byteLen x + 1 := by
  rw [Spec.rightEncode, List.length_append, digits_length]; rfl

/-- `left_encode` is prefix free and injective. -/
theorem leftEncode_prefix_free (x y : Nat) (hx : x < 2 ^ 64) (hy : y < 2 ^ 64) (a b : List Byte)
    (h : Spec.leftEncode x ++ a = Spec.leftEncode y ++ b) : x = y ∧ a = b := by
  simp only [Spec.leftEncode, List.cons_append, List.cons.injEq] at h
  have hlx := byteLen_le x hx
  have hly := byteLen_le y hy
  have e := ofNat_inj _ _ (by omega) (by omega) h.1
  have h2 := List.append_inj h.2 (by rw [digits_length, digits_length, e])
  refine ⟨?_, h2.2⟩
  apply digits_inj (Spec.byteLen x) x y (byteLen_is x).2.1 (by rw [e]; exact (byteLen_is y).2.1)
  rw [h2.1, e]

/-- `right_encode` is suffix free and injective. -/
theorem rightEncode_suffix_free (x y : Nat) (hx : x < 2 ^ 64) (hy : y < 2 ^ 64) (a b : List Byte)
    (h : a ++ Spec.rightEncode x = b ++ Spec.rightEncode y) : x = y ∧ a = b := by
  simp only [Spec.rightEncode, ← List.append_assoc] at h
  have hlx := byteLen_le x hx
  have hly := byteLen_le y hy
  have h1 := List.append_inj' h rfl
  have e := ofNat_inj _ _ (by omega) (by omega) (List.cons.inj h1.2).1
  have h2 := List.append_inj' h1.1 (by rw [digits_length, digits_length, e])
  refine ⟨?_, h2.1⟩
  apply digits_inj (Spec.byteLen x) x y (byteLen_is x).2.1 (by rw [e]; exact (byteLen_is y).2.1)
  rw [h2.2, e]

/-- Bit length of a byte string fits in a `size_t`. -/
theorem bits_lt (n : Nat) (h : n < 2 ^ 61) : 8 * n < 2 ^ 64 := by omega

theorem encodeString_prefix_free (s t : List Byte) (hs : s.length < 2 ^ 61) (ht : t.length < 2 ^ 61)
    (a b : List Byte) (h : Spec.encodeString s ++ a = Spec.encodeString t ++ b) : s = t ∧ a = b := by
  simp only [Spec.encodeString, List.append_assoc] at h
  obtain ⟨h1, h2⟩ := leftEncode_prefix_free _ _ (bits_lt _ hs) (bits_lt _ ht) _ _ h
  exact List.append_inj h2 (by omega)

theorem leftEncode_rate (r : Nat) (hr : 0 < r) (hr2 : r < 256) :
    Spec.leftEncode r = [0x01, UInt8.ofNat r] := by
  have : Spec.byteLen r = 1 := (byteLen_is r).unique ⟨by decide, by simpa using hr2, .inl rfl⟩
  simp [Spec.leftEncode, this, Spec.digits, Nat.mod_eq_of_lt hr2]

/-- The padding of `bytepad` computed from the running counter. -/
theorem bytepad_eq (r : Nat) (hr : 0 < r) (hr2 : r < 256) (x : List Byte) :
    Spec.bytepad x r = [0x01, UInt8.ofNat r] ++ x ++
      (if (2 + x.length) % r ≠ 0 then List.replicate (r - (2 + x.length) % r) 0 else []) := by
  unfold Spec.bytepad
  dsimp only
  rw [leftEncode_rate r hr hr2]
  have hl : ([0x01, UInt8.ofNat r] ++ x).length = 2 + x.length := by simp; omega
  rw [hl]
  congr 1
  have hlt := Nat.mod_lt (2 + x.length) hr
  split
  · rename_i h
    rw [Nat.mod_eq_of_lt (by omega : r - (2 + x.length) % r < r)]
  · rename_i h
    have h : (2 + x.length) % r = 0 := by omega
    rw [h, Nat.sub_zero, Nat.mod_self]; rfl

theorem bytepad_length_le (r : Nat) (hr : 0 < r) (hr2 : r < 256) (x : List Byte) :
    (Spec.bytepad x r).length ≤ x.length + 2 + r := by
  rw [bytepad_eq r hr hr2]
  have hlt := Nat.mod_lt (2 + x.length) hr
  split <;> simp <;> omega

/-! ### Streaming -/

variable (perm : List Byte → List Byte)

/-- The sponge context has absorbed exactly the bytes `m` since its initialisation. -/
def Rep (r : Nat) (sfx : Byte) (c : Sponge.Ctx) (m : List Byte) : Prop :=
  ∃ chunks, c = updates perm (Sponge.init r 0 sfx) chunks ∧ chunks.flatten = m

theorem rep_init (r : Nat) (sfx : Byte) : Rep perm r sfx (Sponge.init r 0 sfx) [] := ⟨[], rfl, rfl⟩

variable {perm}

theorem Rep.absorb {r : Nat} {sfx : Byte} {c : Sponge.Ctx} {m : List Byte}
    (h : Rep perm r sfx c m) (x : List Byte) : Rep perm r sfx (Sponge.absorb perm c x) (m ++ x) := by
  obtain ⟨chunks, h1, h2⟩ := h
  refine ⟨chunks ++ [x], ?_, ?_⟩
  · rw [h1]; simp [updates, List.foldl_append]
  · rw [List.flatten_append, h2]; simp

theorem Rep.bytepadPad {r : Nat} {sfx : Byte} {c : Sponge.Ctx} {m : List Byte}
    (h : Rep perm r sfx c m) (added : Nat) :
    Rep perm r sfx (bytepadPad perm r c added)
      (m ++ if added % r ≠ 0 then List.replicate (r - added % r) 0 else []) := by
  unfold Kmac.bytepadPad
  split
  · exact h.absorb _
  · simpa using h

/-- The string absorbed by `lc_cshake_init`. -/
theorem cshakeInit_rep (r : Nat) (hr : 0 < r) (hr2 : r < 256) (n s : List Byte)
    (hne : ¬ (n = [] ∧ s = [])) (hn : n.length < 2 ^ 61) (hs : s.length < 2 ^ 61) :
    Rep perm r 0x04 (cshakeInit perm r n s)
      (Spec.bytepad (Spec.encodeString n ++ Spec.encodeString s) r) := by
  unfold cshakeInit
  rw [if_neg (by simpa using hne)]
  have en : shl3 n.length = 8 * n.length := by unfold shl3; omega
  have es : shl3 s.length = 8 * s.length := by unfold shl3; omega
  rw [en, es, leftEncode_eq _ (bits_lt _ hn), leftEncode_eq _ (bits_lt _ hs), bytepad_eq r hr hr2]
  dsimp only
  have h := (((((rep_init perm r 0x04).absorb [0x01, UInt8.ofNat r]).absorb
    (Spec.leftEncode (8 * n.length))).absorb n).absorb (Spec.leftEncode (8 * s.length))).absorb s
  have h2 := h.bytepadPad (2 + (Spec.leftEncode (8 * n.length)).length + n.length +
    (Spec.leftEncode (8 * s.length)).length + s.length)
  have el : 2 + (Spec.encodeString n ++ Spec.encodeString s).length =
      2 + (Spec.leftEncode (8 * n.length)).length + n.length +
        (Spec.leftEncode (8 * s.length)).length + s.length := by
    simp only [Spec.encodeString, List.length_append]; omega
  rw [el]
  have em : [0x01, UInt8.ofNat r] ++ (Spec.encodeString n ++ Spec.encodeString s) =
      [] ++ [0x01, UInt8.ofNat r] ++ Spec.leftEncode (8 * n.length) ++ n ++
        Spec.leftEncode (8 * s.length) ++ s := by
    simp only [Spec.encodeString, List.nil_append, List.append_assoc]
  rw [em]
  exact h2

/-- The string absorbed by `lc_kmac_init`. -/
theorem init_rep (r : Nat) (hr : 0 < r) (hr2 : r < 256) (sup : Bool) (key s : List Byte)
    (hk : key.length < 2 ^ 61) (hs : s.length < 2 ^ 61) :
    Rep perm r 0x04 (init perm r sup key s).hash
      (Spec.bytepad (Spec.encodeString Spec.name ++ Spec.encodeString s) r ++
        Spec.bytepad (Spec.encodeString key) r) := by
  have hc := cshakeInit_rep (perm := perm) r hr hr2 Spec.name s (fun h => by simp [Spec.name] at h)
    (by decide) hs
  have hname : kmacName = Spec.name := by decide
  unfold init
  rw [hname]
  have ek : shl3 key.length = 8 * key.length := by unfold shl3; omega
  rw [ek, leftEncode_eq _ (bits_lt _ hk), bytepad_eq r hr hr2 (Spec.encodeString key)]
  dsimp only
  have h := ((hc.absorb [0x01, UInt8.ofNat r]).absorb (Spec.leftEncode (8 * key.length))).absorb key
  have h2 := h.bytepadPad (2 + (Spec.leftEncode (8 * key.length)).length + key.length)
  have el : 2 + (Spec.encodeString key).length =
      2 + (Spec.leftEncode (8 * key.length)).length + key.length := by
    simp only [Spec.encodeString, List.length_append]; omega
  rw [el]
  simp only [Spec.encodeString, List.append_assoc] at h2 ⊢
  exact h2

theorem updates_hash (xs : List (List Byte)) : ∀ (c : Ctx) {r : Nat} {sfx : Byte} {m : List Byte},
    Rep perm r sfx c.hash m → Rep perm r sfx (xs.foldl (update perm) c).hash (m ++ xs.flatten) := by
  induction xs with
  | nil => intro c r sfx m h; simpa using h
  | cons x xs ih =>
    intro c r sfx m h
    rw [List.foldl_cons, List.flatten_cons, ← List.append_assoc]
    exact ih _ (h.absorb x)

theorem updates_flag (xs : List (List Byte)) : ∀ (c : Ctx),
    (xs.foldl (update perm) c).finalCalled = c.finalCalled := by
  induction xs with
  | nil => intro c; rfl
  | cons x xs ih => intro c; rw [List.foldl_cons, ih]; rfl

theorem finalXofs_true (ds : List Nat) : ∀ (c : Ctx), c.finalCalled = true → (∀ d ∈ ds, 4 ≤ d) →
    (finalXofs perm c ds).2 = (Sponge.finals perm c.hash ds).2.map some := by
  induction ds with
  | nil => intro c _ _; rfl
  | cons d ds ih =>
    intro c hc hd
    have hd4 : 4 ≤ d := hd d (by simp)
    simp only [finalXofs, finalXof, finalXofInternal, hc, hd4, if_true, cshakeFinal,
      Sponge.finals, List.map_cons]
    rw [ih]
    · rfl
    · exact fun e he => hd e (by simp [he])

theorem finalXofs_first (d : Nat) (ds : List Nat) (c : Ctx) (hc : c.finalCalled = false) :
    (finalXofs perm c (d :: ds)).2 =
      if 4 ≤ d then
        (finalXofs perm { c with hash := absorb perm c.hash [0x00, 0x01], finalCalled := true }
          (d :: ds)).2
      else none :: (finalXofs perm c ds).2 := by
  by_cases h : 4 ≤ d
  · simp only [finalXofs, finalXof, h, if_true, finalXofInternal, hc, Bool.false_eq_true, if_false]
  · simp only [finalXofs, finalXof, h, if_false]

end LC.Kmac
