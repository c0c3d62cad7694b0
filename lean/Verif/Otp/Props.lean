import Verif.Otp.Model
import Verif.Hmac.Props
/-
Property theorems: C11 (HOTP / TOTP).
-/
namespace LC.Otp
open StreamHash

/-- RFC 4226: eight byte big endian counter. -/
def Spec.counterBytes (v : Nat) : List Byte :=
  (List.range 8).map fun j => UInt8.ofNat (v / 256 ^ (7 - j) % 256)

/-- RFC 4226 section 5.3: the low nibble of the last byte selects four bytes, read as a
big endian number whose top bit is dropped. -/
def Spec.dt (md : List Byte) : Nat :=
  let o := (md.getLastD 0).toNat % 16
  ((md.drop o).take 4).foldl (fun a b => a * 256 + b.toNat) 0 % 2 ^ 31

/-- RFC 4226 HOTP with the MAC `mac`. -/
def Spec.hotp (mac : List Byte → List Byte) (counter digits : Nat) : Nat :=
  Spec.dt (mac (Spec.counterBytes counter)) % 10 ^ digits

theorem be64_eq (v : Nat) : be64 v = Spec.counterBytes v := by
  have hm : ∀ x : Nat, UInt8.ofNat (x % 256) = UInt8.ofNat x := fun x => UInt8.ofNat_mod_size
  simp only [be64, Spec.counterBytes, Nat.shiftRight_eq_div_pow, hm]
  simp [List.range, List.range.loop]

theorem truncate_eq (md : List Byte) (h : md.length = 32) : truncate md = Spec.dt md := by
  have hlast : md.getLastD 0 = md.getD 31 0 := by
    rw [List.getLastD_eq_getLast?, List.getLast?_eq_getElem?, h, List.getD_eq_getElem?_getD]
  have ho : (md.getD 31 0 &&& 0xf).toNat = (md.getD 31 0).toNat % 16 := by
    rw [UInt8.toNat_and]; exact Nat.and_two_pow_sub_one_eq_mod _ 4
  unfold truncate Spec.dt
  dsimp only
  rw [ho, hlast]
  have hlt : (md.getD 31 0).toNat % 16 < 16 := Nat.mod_lt _ (by decide)
  generalize (md.getD 31 0).toNat % 16 = o at hlt
  have hsplit : (md.drop o).take 4 = [md.getD o 0, md.getD (o + 1) 0, md.getD (o + 2) 0,
      md.getD (o + 3) 0] := by
    apply List.ext_getElem
    · simp [h]; omega
    · intro i h1 h2
      have hi : i < 4 := by simpa using h2
      have hb : md.getD (o + i) 0 = md[o + i]'(by omega) := by
        rw [List.getD_eq_getElem?_getD, List.getElem?_eq_getElem (by omega)]; rfl
      rw [List.getElem_take, List.getElem_drop, ← hb]
      rcases i with _ | _ | _ | _ | i
      · rfl
      · rfl
      · rfl
      · rfl
      · omega
  rw [hsplit]
  simp only [List.foldl_cons, List.foldl_nil]
  generalize md.getD o 0 = a
  generalize md.getD (o + 1) 0 = b
  generalize md.getD (o + 2) 0 = c
  generalize md.getD (o + 3) 0 = d
  have ha : (a &&& 0x7f).toNat = a.toNat % 128 := by
    rw [UInt8.toNat_and]; exact Nat.and_two_pow_sub_one_eq_mod _ 7
  have h1 := a.toNat_lt
  have h2 := b.toNat_lt
  have h3 := c.toNat_lt
  have h4 := d.toNat_lt
  rw [ha]
  rw [Nat.or_assoc, Nat.or_assoc, ← Nat.shiftLeft_add_eq_or_of_lt (by omega : d.toNat < 2 ^ 8)]
  rw [← Nat.shiftLeft_add_eq_or_of_lt (b := c.toNat <<< 8 + d.toNat) (i := 16)
    (by rw [Nat.shiftLeft_eq]; omega)]
  rw [← Nat.shiftLeft_add_eq_or_of_lt (b := b.toNat <<< 16 + (c.toNat <<< 8 + d.toNat)) (i := 24)
    (by simp only [Nat.shiftLeft_eq]; omega)]
  simp only [Nat.shiftLeft_eq]
  omega

theorem modulo_eq (d : Nat) : modulo d = 10 ^ d % 2 ^ 32 := by
  induction d with
  | zero => decide
  | succ d ih => rw [modulo, ih, Nat.mod_mul_mod, ← Nat.pow_succ]

/-- The MAC computed by the model. -/
theorem hotp_mac (h0 : sha256.Ctx) (hok : h0.part.length = 64) (key : List Byte)
    (hk : key.length < 2 ^ 61) (counter : Nat) :
    (Hmac.final (Hmac.update (Hmac.init h0 key) (be64 counter))).2 =
      Hmac.Spec.hmac Sha2.Spec.sha256 64 key (Spec.counterBytes counter) := by
  have h := (Hmac.hmac_sha256 h0 hok key hk [] [be64 counter] (by simp [be64])).1
  simp only [List.foldl_cons, List.foldl_nil, List.flatten_cons, List.flatten_nil,
    List.append_nil] at h
  rw [h, be64_eq]

/-- C11 for up to nine digits: `lc_hotp` is RFC 4226 HOTP (with HMAC-SHA-256).
Missing from the full claim: digit counts from 10 on, where the claim is false
(`hotp_ten_digits_wrong`, `hotp_division_by_zero`). -/
theorem hotp_partial (h0 : sha256.Ctx) (hok : h0.part.length = 64) (key : List Byte)
    (hk : key.length < 2 ^ 61) (counter digits : Nat) (hd : digits ≤ 9) :
    hotp h0 key counter digits =
      some (Spec.hotp (Hmac.Spec.hmac Sha2.Spec.sha256 64 key) counter digits) := by
  have hm : modulo digits = 10 ^ digits := by
    rw [modulo_eq, Nat.mod_eq_of_lt]
    calc 10 ^ digits ≤ 10 ^ 9 := Nat.pow_le_pow_right (by decide) hd
      _ < 2 ^ 32 := by decide
  unfold hotp
  dsimp only
  rw [hotp_mac h0 hok key hk, hm, if_neg (Nat.pos_iff_ne_zero.mp (Nat.pow_pos (by decide))),
    truncate_eq (Hmac.Spec.hmac Sha2.Spec.sha256 64 key (Spec.counterBytes counter))
      (Hmac.hmac_length sha256_implements key (Spec.counterBytes counter))]
  rfl

/-- C11: `lc_totp` is HOTP of the number of elapsed time steps. -/
theorem totp_partial (h0 : sha256.Ctx) (hok : h0.part.length = 64) (now : Nat) (key : List Byte)
    (hk : key.length < 2 ^ 61) (step digits : Nat) (hs : 0 < step) (hd : digits ≤ 9) :
    totp h0 now key step digits =
      some (Spec.hotp (Hmac.Spec.hmac Sha2.Spec.sha256 64 key) (now / step) digits) := by
  unfold totp
  rw [if_neg (by omega)]
  exact hotp_partial h0 hok key hk _ digits hd

/-- Non-vacuity: a concrete 8 digit value (HMAC-SHA-256, key "12345678901234567890",
counter 0). -/
example : hotp { H := [], msgLen := 0, part := List.replicate 64 0 }
    [0x31, 0x32, 0x33, 0x34, 0x35, 0x36, 0x37, 0x38, 0x39, 0x30,
     0x31, 0x32, 0x33, 0x34, 0x35, 0x36, 0x37, 0x38, 0x39, 0x30] 0 8 = some 74875740 := by
  decide +kernel

/-- Every value returned is below `10^digits` (and below `2^31`). -/
theorem hotp_range (h0 : sha256.Ctx) (key : List Byte) (counter digits v : Nat)
    (h : hotp h0 key counter digits = some v) : v < 10 ^ digits := by
  unfold hotp at h
  dsimp only at h
  split at h
  · cases h
  · rename_i h0
    cases h
    calc _ < modulo digits := Nat.mod_lt _ (by omega)
      _ ≤ 10 ^ digits := by rw [modulo_eq]; exact Nat.mod_le _ _

theorem ten_wrong_of (h0 : sha256.Ctx) (hok : h0.part.length = 64) (key : List Byte)
    (hk : key.length < 2 ^ 61) (counter a b : Nat) (h9 : hotp h0 key counter 9 = some a)
    (h10 : hotp h0 key counter 10 = some b) (hne : b % 10 ^ 9 ≠ a) :
    hotp h0 key counter 10 ≠
      some (Spec.hotp (Hmac.Spec.hmac Sha2.Spec.sha256 64 key) counter 10) := by
  rw [hotp_partial h0 hok key hk counter 9 (by decide)] at h9
  rw [h10]
  intro h
  injection h9 with h9
  injection h with h
  unfold Spec.hotp at h h9
  generalize Hmac.Spec.hmac Sha2.Spec.sha256 64 key (Spec.counterBytes counter) = md at h h9
  have : Spec.dt md < 2 ^ 31 := Nat.mod_lt _ (by decide)
  generalize Spec.dt md = v at *
  omega

/-- Witness context and key "12345678901234567890". -/
def wh0 : sha256.Ctx := { H := [], msgLen := 0, part := List.replicate 64 0 }
def wkey : List Byte :=
  [0x31, 0x32, 0x33, 0x34, 0x35, 0x36, 0x37, 0x38, 0x39, 0x30,
   0x31, 0x32, 0x33, 0x34, 0x35, 0x36, 0x37, 0x38, 0x39, 0x30]

theorem wit9 : hotp wh0 wkey 0 9 = some 74875740 := by decide +kernel
theorem wit10 : hotp wh0 wkey 0 10 = some 664810332 := by decide +kernel

/-- The claim fails for ten digits: the modulus `10^10` is reduced modulo `2^32`.  With the
key "12345678901234567890" the value for some counter differs from RFC 4226. -/
theorem hotp_ten_digits_wrong :
    ∃ (h0 : sha256.Ctx) (key : List Byte) (counter : Nat), h0.part.length = 64 ∧
      hotp h0 key counter 10 ≠
        some (Spec.hotp (Hmac.Spec.hmac Sha2.Spec.sha256 64 key) counter 10) := by
  exact ⟨wh0, wkey, 0, by simp [wh0],
    ten_wrong_of wh0 (by simp [wh0]) wkey (by decide) 0 _ _ wit9 wit10 (by decide)⟩

/-- With 32 digits or more the modulus is 0: division by zero, for every key. -/
theorem hotp_division_by_zero (h0 : sha256.Ctx) (key : List Byte) (counter digits : Nat)
    (h : 32 ≤ digits) : hotp h0 key counter digits = none := by
  have : modulo digits = 0 := by
    rw [modulo_eq]
    obtain ⟨e, rfl⟩ := Nat.exists_eq_add_of_le h
    apply Nat.mod_eq_zero_of_dvd
    have : (2:Nat) ^ 32 ∣ 10 ^ 32 := ⟨5 ^ 32, by decide⟩
    rw [Nat.pow_add]
    exact Nat.dvd_trans this (Nat.dvd_mul_right _ _)
  unfold hotp
  dsimp only
  rw [if_pos this]

end LC.Otp
