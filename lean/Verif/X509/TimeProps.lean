import Verif.X509.TimeModel
/-
Property theorems: C33 (X.509 time decoding).
-/
namespace LC.X509

/-! ### Specification: proleptic Gregorian calendar by counting days -/

/-- Gregorian leap year. -/
def Spec.leap (y : Nat) : Bool := y % 4 = 0 ∧ (y % 100 ≠ 0 ∨ y % 400 = 0)

def Spec.daysInMonth (y m : Nat) : Nat :=
  match m with
  | 2 => if Spec.leap y then 29 else 28
  | 4 | 6 | 9 | 11 => 30
  | _ => 31

/-- Days of the years `1970 .. 1970 + n - 1`. -/
def Spec.daysOfYears : Nat → Nat
  | 0 => 0
  | n + 1 => Spec.daysOfYears n + (if Spec.leap (1970 + n) then 366 else 365)

/-- Days of the months `1 .. m` of year `y`. -/
def Spec.daysOfMonths (y : Nat) : Nat → Nat
  | 0 => 0
  | m + 1 => Spec.daysOfMonths y m + Spec.daysInMonth y (m + 1)

/-- Seconds from 1970-01-01 00:00:00 to the given date and time. -/
def Spec.epoch (y m d h mi s : Nat) : Nat :=
  (Spec.daysOfYears (y - 1970) + Spec.daysOfMonths y (m - 1) + (d - 1)) * 86400 +
    h * 3600 + mi * 60 + s

/-- Two decimal digits. -/
def Spec.dd (n : Nat) : List Byte := [48 + UInt8.ofNat (n / 10), 48 + UInt8.ofNat (n % 10)]

/-- `YYMMDDHHMMSSZ` -/
def Spec.utcTime (y m d h mi s : Nat) : List Byte :=
  Spec.dd (y % 100) ++ Spec.dd m ++ Spec.dd d ++ Spec.dd h ++ Spec.dd mi ++ Spec.dd s ++ [90]

/-- `YYYYMMDDHHMMSSZ` -/
def Spec.genTime (y m d h mi s : Nat) : List Byte :=
  Spec.dd (y / 100) ++ Spec.dd (y % 100) ++ Spec.dd m ++ Spec.dd d ++ Spec.dd h ++ Spec.dd mi ++
    Spec.dd s ++ [90]

/-- The calendar date exists; as documented in the code (ISO 8601), hour 24 and second 60 are
allowed. -/
def Spec.Valid (y m d h mi s : Nat) : Prop :=
  1 ≤ m ∧ m ≤ 12 ∧ 1 ≤ d ∧ d ≤ Spec.daysInMonth y m ∧ h ≤ 24 ∧ mi ≤ 59 ∧ s ≤ 60

/-- The string a DER encoder following RFC 5280 4.1.2.5 produces: UTCTime for the years 1950 to
2049, GeneralizedTime otherwise. -/
def Spec.Encodes (tag : Nat) (v : List Byte) (y m d h mi s : Nat) : Prop :=
  (tag = 23 ∧ 1950 ≤ y ∧ y ≤ 2049 ∧ v = Spec.utcTime y m d h mi s) ∨
  (tag = 24 ∧ y ≤ 9999 ∧ ¬(1950 ≤ y ∧ y ≤ 2049) ∧ v = Spec.genTime y m d h mi s)

/-! ### mktime64 -/

theorem leap_iff (y : Nat) : Spec.leap y = true ↔ y % 4 = 0 ∧ (y % 100 ≠ 0 ∨ y % 400 = 0) := by
  simp [Spec.leap]

theorem daysOfYears_closed (n : Nat) :
    Spec.daysOfYears n + 719050 + 112 =
      365 * (1969 + n) + (1969 + n) / 4 - (1969 + n) / 100 + (1969 + n) / 400 := by
  induction n with
  | zero => decide
  | succ n ih =>
    have h := leap_iff (1970 + n)
    rw [Spec.daysOfYears]
    by_cases hl : Spec.leap (1970 + n) = true
    · rw [if_pos hl]
      have := h.mp hl
      omega
    · rw [if_neg hl]
      have h' : ¬ ((1970 + n) % 4 = 0 ∧ ((1970 + n) % 100 ≠ 0 ∨ (1970 + n) % 400 = 0)) :=
        fun e => hl (h.mpr e)
      omega

theorem mktime64_epoch (y m d h mi s : Nat) (hy : 1970 ≤ y) (hm : 1 ≤ m) (hm' : m ≤ 12)
    (hd : 1 ≤ d) : mktime64 y m d h mi s = (Spec.epoch y m d h mi s : Nat) := by
  obtain ⟨n, rfl⟩ : ∃ n, y = 1970 + n := ⟨y - 1970, by omega⟩
  have hc := daysOfYears_closed n
  have hl := leap_iff (1970 + n)
  have hc' : Spec.daysOfYears n + 719162 =
      365 * (1969 + n) + ((1969 + n) / 4 - (1969 + n) / 100 + (1969 + n) / 400) := by omega
  have hstep : (1970 + n) / 4 - (1970 + n) / 100 + (1970 + n) / 400 =
      ((1969 + n) / 4 - (1969 + n) / 100 + (1969 + n) / 400) +
        (if Spec.leap (1970 + n) then 1 else 0) := by
    by_cases hlp : Spec.leap (1970 + n) = true
    · have := hl.mp hlp
      rw [if_pos hlp]; omega
    · have : ¬ ((1970 + n) % 4 = 0 ∧ ((1970 + n) % 100 ≠ 0 ∨ (1970 + n) % 400 = 0)) :=
        fun e => hlp (hl.mpr e)
      rw [if_neg hlp]; omega
  unfold Spec.epoch mktime64
  rw [show 1970 + n - 1970 = n from by omega]
  have hcases : m = 1 ∨ m = 2 ∨ m = 3 ∨ m = 4 ∨ m = 5 ∨ m = 6 ∨ m = 7 ∨ m = 8 ∨ m = 9 ∨ m = 10 ∨
    m = 11 ∨ m = 12 := by omega
  clear hc hl
  have e1 : 1970 + n - 1 = 1969 + n := by omega
  rcases hcases with rfl | rfl | rfl | rfl | rfl | rfl | rfl | rfl | rfl | rfl | rfl | rfl <;>
    simp only [Nat.reduceSub, Spec.daysOfMonths, Spec.daysInMonth, Nat.reduceLeDiff, reduceIte, e1] <;>
    generalize (1970 + n) / 4 - (1970 + n) / 100 + (1970 + n) / 400 = A at * <;>
    generalize (1969 + n) / 4 - (1969 + n) / 100 + (1969 + n) / 400 = B at * <;>
    generalize Spec.daysOfYears n = D at * <;>
    cases hlp : Spec.leap (1970 + n) <;>
    simp only [hlp, reduceIte, Bool.false_eq_true] at hstep ⊢ <;> omega

/-! ### Syntax -/

theorem dec2bin_some (x : Byte) (n : Nat) : dec2bin x = some n ↔ n ≤ 9 ∧ x = 48 + UInt8.ofNat n := by
  have key : ∀ k : Fin 256, ∀ m : Fin 10,
      dec2bin (UInt8.ofNat k.val) = some m.val ↔ UInt8.ofNat k.val = 48 + UInt8.ofNat m.val := by
    decide +kernel
  have hb : ∀ k : Fin 256, ∀ m, dec2bin (UInt8.ofNat k.val) = some m → m ≤ 9 := by
    intro k m h
    unfold dec2bin at h
    dsimp only at h
    split at h
    · simp at h
    · rename_i hx
      simp only [Option.some.injEq] at h
      subst h
      have : ¬ (9 : UInt8) < UInt8.ofNat k.val - 48 := hx
      rw [UInt8.lt_iff_toNat_lt] at this
      simpa using this
  have hx := key ⟨x.toNat, x.toNat_lt⟩
  have hx2 := hb ⟨x.toNat, x.toNat_lt⟩
  simp only [UInt8.ofNat_toNat] at hx hx2
  constructor
  · intro h
    have h9 := hx2 n h
    exact ⟨h9, (hx ⟨n, by omega⟩).mp h⟩
  · rintro ⟨h9, h⟩
    exact (hx ⟨n, by omega⟩).mpr h

theorem dd2bin_some (v rest : List Byte) (n : Nat) :
    dd2bin v = some (n, rest) ↔ n ≤ 99 ∧ v = Spec.dd n ++ rest := by
  constructor
  · intro h
    match v, h with
    | a :: b :: r, h =>
      simp only [dd2bin, Option.bind_eq_bind] at h
      cases ha : dec2bin a with
      | none => simp [ha] at h
      | some x =>
        cases hb : dec2bin b with
        | none => simp [ha, hb] at h
        | some y =>
          simp [ha, hb] at h
          obtain ⟨h1, h2⟩ := h
          obtain ⟨h3, h4⟩ := (dec2bin_some a x).mp ha
          obtain ⟨h5, h6⟩ := (dec2bin_some b y).mp hb
          subst h2 h4 h6
          refine ⟨by omega, ?_⟩
          rw [Spec.dd, show n / 10 = x from by omega, show n % 10 = y from by omega]
          rfl
  · rintro ⟨h, rfl⟩
    have ha := (dec2bin_some (48 + UInt8.ofNat (n / 10)) (n / 10)).mpr ⟨by omega, rfl⟩
    have hb := (dec2bin_some (48 + UInt8.ofNat (n % 10)) (n % 10)).mpr ⟨by omega, rfl⟩
    show dd2bin ((48 + UInt8.ofNat (n / 10)) :: (48 + UInt8.ofNat (n % 10)) :: rest) = _
    rw [dd2bin, ha, hb]
    show some (n / 10 * 10 + n % 10, rest) = _
    rw [show n / 10 * 10 + n % 10 = n from by omega]

theorem monLen_eq (y m : Nat) (h1 : 1 ≤ m) (h2 : m ≤ 12) : monLen y m = Spec.daysInMonth y m := by
  have hl := leap_iff y
  have hcases : m = 1 ∨ m = 2 ∨ m = 3 ∨ m = 4 ∨ m = 5 ∨ m = 6 ∨ m = 7 ∨ m = 8 ∨ m = 9 ∨ m = 10 ∨
    m = 11 ∨ m = 12 := by omega
  rcases hcases with rfl | rfl | rfl | rfl | rfl | rfl | rfl | rfl | rfl | rfl | rfl | rfl
  case inr.inl =>
    unfold monLen Spec.daysInMonth
    rw [if_pos rfl]
    by_cases hlp : Spec.leap y = true
    · have := hl.mp hlp
      rw [if_pos hlp, if_pos this.1]
      split
      · rw [if_pos (by omega)]; rfl
      · rfl
    · have : ¬ (y % 4 = 0 ∧ (y % 100 ≠ 0 ∨ y % 400 = 0)) := fun e => hlp (hl.mpr e)
      rw [if_neg hlp]
      split
      · rw [if_pos (by omega), if_neg (by omega)]; rfl
      · rfl
  all_goals rfl

theorem decodeYear_some (tag : Nat) (v rest : List Byte) (y : Nat) :
    decodeYear tag v = some (y, rest) ↔
      (tag = 23 ∧ 1950 ≤ y ∧ y ≤ 2049 ∧ v = Spec.dd (y % 100) ++ rest ∧ rest.length = 11) ∨
      (tag = 24 ∧ y ≤ 9999 ∧ ¬(1950 ≤ y ∧ y ≤ 2049) ∧
        v = Spec.dd (y / 100) ++ Spec.dd (y % 100) ++ rest ∧ rest.length = 11) := by
  have hdd : ∀ n, (Spec.dd n).length = 2 := fun _ => rfl
  unfold decodeYear UNITIM GENTIM
  by_cases h23 : tag = 23
  · subst h23
    rw [if_pos rfl]
    simp only [true_and, Nat.reduceEqDiff, false_and, or_false]
    by_cases hlen : v.length ≠ 13
    · rw [if_pos hlen]
      simp only [reduceCtorEq, false_iff]
      rintro ⟨_, _, rfl, h⟩
      rw [List.length_append, hdd, h] at hlen
      exact hlen rfl
    · rw [if_neg hlen]
      constructor
      · intro h
        rw [Option.map_eq_some_iff] at h
        obtain ⟨⟨yy, r⟩, h1, h2⟩ := h
        obtain ⟨h3, h4⟩ := (dd2bin_some v r yy).mp h1
        simp only [Prod.mk.injEq] at h2
        obtain ⟨h5, rfl⟩ := h2
        subst h4
        rw [List.length_append, hdd] at hlen
        refine ⟨?_, ?_, ?_, by omega⟩
        · split at h5 <;> omega
        · split at h5 <;> omega
        · rw [show y % 100 = yy from by split at h5 <;> omega]
      · rintro ⟨h1, h2, h3, h4⟩
        rw [(dd2bin_some v rest (y % 100)).mpr ⟨by omega, h3⟩]
        simp only [Option.map_some, Option.some.injEq, Prod.mk.injEq, and_true]
        split <;> omega
  · rw [if_neg h23]
    by_cases h24 : tag = 24
    · subst h24
      rw [if_pos rfl]
      simp only [true_and, Nat.reduceEqDiff, false_and, false_or]
      by_cases hlen : v.length ≠ 15
      · rw [if_pos hlen]
        simp only [reduceCtorEq, false_iff]
        rintro ⟨_, _, rfl, h⟩
        rw [List.length_append, List.length_append, hdd, hdd, h] at hlen
        exact hlen rfl
      · rw [if_neg hlen]
        constructor
        · intro h
          cases h1 : dd2bin v with
          | none => simp [h1] at h
          | some ar =>
            obtain ⟨a, r1⟩ := ar
            cases h2 : dd2bin r1 with
            | none => simp [h1, h2] at h
            | some br =>
              obtain ⟨b, r2⟩ := br
              simp [h1, h2] at h
              obtain ⟨h3, h4, rfl⟩ := h
              obtain ⟨ha, rfl⟩ := (dd2bin_some v r1 a).mp h1
              obtain ⟨hb, rfl⟩ := (dd2bin_some r1 r2 b).mp h2
              rw [List.length_append, List.length_append, hdd, hdd] at hlen
              refine ⟨by omega, by omega, ?_, by omega⟩
              rw [show y / 100 = a from by omega, show y % 100 = b from by omega, List.append_assoc]
        · rintro ⟨h1, h2, rfl, h4⟩
          rw [List.append_assoc,
            (dd2bin_some _ (Spec.dd (y % 100) ++ rest) (y / 100)).mpr ⟨by omega, rfl⟩]
          simp only [Option.bind_eq_bind, Option.bind_some]
          rw [(dd2bin_some _ rest (y % 100)).mpr ⟨by omega, rfl⟩]
          simp only [Option.bind_some]
          rw [show y / 100 * 100 + y % 100 = y from by omega, if_neg (by omega)]
          rfl
    · rw [if_neg h24]
      simp [h23, h24]

/-- C33: a time string is accepted exactly if it is the RFC 5280 encoding of an existing calendar
date not before 1970, and the result is the number of seconds since the epoch. -/
theorem decodeTime_iff (tag : Nat) (v : List Byte) (t : Int) :
    decodeTime tag v = some t ↔
      ∃ y m d h mi s, Spec.Encodes tag v y m d h mi s ∧ Spec.Valid y m d h mi s ∧ 1970 ≤ y ∧
        t = (Spec.epoch y m d h mi s : Nat) := by
  have hdd : ∀ n, (Spec.dd n).length = 2 := fun _ => rfl
  constructor
  · intro hdec
    unfold decodeTime at hdec
    cases h1 : decodeYear tag v with
    | none => simp [h1] at hdec
    | some r1 =>
    obtain ⟨y, v1⟩ := r1
    cases h2 : dd2bin v1 with
    | none => simp [h1, h2] at hdec
    | some r2 =>
    obtain ⟨m, v2⟩ := r2
    cases h3 : dd2bin v2 with
    | none => simp [h1, h2, h3] at hdec
    | some r3 =>
    obtain ⟨d, v3⟩ := r3
    cases h4 : dd2bin v3 with
    | none => simp [h1, h2, h3, h4] at hdec
    | some r4 =>
    obtain ⟨h, v4⟩ := r4
    cases h5 : dd2bin v4 with
    | none => simp [h1, h2, h3, h4, h5] at hdec
    | some r5 =>
    obtain ⟨mi, v5⟩ := r5
    cases h6 : dd2bin v5 with
    | none => simp [h1, h2, h3, h4, h5, h6] at hdec
    | some r6 =>
    obtain ⟨s, v6⟩ := r6
    simp only [h1, h2, h3, h4, h5, h6, Option.bind_eq_bind, Option.bind_some] at hdec
    split at hdec
    · simp at hdec
    rename_i hz
    split at hdec
    · simp at hdec
    rename_i hr
    split at hdec
    · simp at hdec
    rename_i hv
    have ht : mktime64 y m d h mi s = t := by simpa using hdec
    obtain ⟨b2, rfl⟩ := (dd2bin_some _ _ _).mp h2
    obtain ⟨b3, rfl⟩ := (dd2bin_some _ _ _).mp h3
    obtain ⟨b4, rfl⟩ := (dd2bin_some _ _ _).mp h4
    obtain ⟨b5, rfl⟩ := (dd2bin_some _ _ _).mp h5
    obtain ⟨b6, rfl⟩ := (dd2bin_some _ _ _).mp h6
    have hlen6 : ∀ k, (Spec.dd m ++ (Spec.dd d ++ (Spec.dd h ++ (Spec.dd mi ++ (Spec.dd s ++ v6))))).length = k →
        v6.length + 10 = k := by
      intro k hk
      simp only [List.length_append, hdd] at hk
      omega
    have hv6 : v6.length = 1 → v6 = [90] := by
      intro hl
      obtain ⟨z, rfl⟩ := List.length_eq_one_iff.mp hl
      have : z = 90 := by simpa using hz
      rw [this]
    rw [monLen_eq y m (by omega) (by omega)] at hv
    refine ⟨y, m, d, h, mi, s, ?_, ⟨by omega, by omega, by omega, by omega, by omega, by omega, by omega⟩,
      by omega, ?_⟩
    · rcases (decodeYear_some _ _ _ _).mp h1 with ⟨a, b, c, e, f⟩ | ⟨a, b, c, e, f⟩
      · left
        have := hlen6 _ f
        rw [hv6 (by omega)] at e
        exact ⟨a, b, c, by rw [e, Spec.utcTime]; simp only [List.append_assoc]⟩
      · right
        have := hlen6 _ f
        rw [hv6 (by omega)] at e
        exact ⟨a, b, c, by rw [e, Spec.genTime]; simp only [List.append_assoc]⟩
    · rw [← ht]
      exact mktime64_epoch y m d h mi s (by omega) (by omega) (by omega) (by omega)
  · rintro ⟨y, m, d, h, mi, s, henc, ⟨hm1, hm2, hd1, hd2, hh, hmi, hs⟩, hy, rfl⟩
    have hdm : Spec.daysInMonth y m ≤ 31 := by
      unfold Spec.daysInMonth
      split <;> (try split) <;> omega
    have h1 : decodeYear tag v = some (y, Spec.dd m ++ (Spec.dd d ++ (Spec.dd h ++ (Spec.dd mi ++
        (Spec.dd s ++ [90]))))) := by
      rw [decodeYear_some]
      rcases henc with ⟨a, b, c, e⟩ | ⟨a, b, c, e⟩
      · exact Or.inl ⟨a, b, c, by rw [e, Spec.utcTime]; simp only [List.append_assoc], rfl⟩
      · exact Or.inr ⟨a, b, c, by rw [e, Spec.genTime]; simp only [List.append_assoc], rfl⟩
    unfold decodeTime
    simp only [h1, Option.bind_eq_bind, Option.bind_some]
    rw [(dd2bin_some _ _ m).mpr ⟨by omega, rfl⟩]
    simp only [Option.bind_some]
    rw [(dd2bin_some _ _ d).mpr ⟨by omega, rfl⟩]
    simp only [Option.bind_some]
    rw [(dd2bin_some _ _ h).mpr ⟨by omega, rfl⟩]
    simp only [Option.bind_some]
    rw [(dd2bin_some _ _ mi).mpr ⟨by omega, rfl⟩]
    simp only [Option.bind_some]
    rw [(dd2bin_some _ _ s).mpr ⟨by omega, rfl⟩]
    simp only [Option.bind_some]
    rw [if_neg (by simp), if_neg (by omega : ¬ (y < 1970 ∨ m < 1 ∨ m > 12)),
      monLen_eq y m hm1 hm2, if_neg (by omega)]
    rw [mktime64_epoch y m d h mi s hy hm1 hm2 hd1]
    rfl

/-- Hence the result never is negative, and decoding is a function of the date alone. -/
theorem decodeTime_nonneg (tag : Nat) (v : List Byte) (t : Int) (h : decodeTime tag v = some t) :
    0 ≤ t := by
  obtain ⟨_, _, _, _, _, _, _, _, _, rfl⟩ := (decodeTime_iff tag v t).mp h
  omega

/-- RFC 5280 requires the validity period of a certificate to be honoured for dates before 1970
as well (UTCTime years 50 to 69 denote 1950 to 1969); those are refused by the decoder. -/
theorem decodeTime_pre1970_refused (tag : Nat) (v : List Byte) (y m d h mi s : Nat)
    (henc : Spec.Encodes tag v y m d h mi s) (hy : y < 1970) (hm : m ≤ 99) (hd : d ≤ 99)
    (hh : h ≤ 99) (hmi : mi ≤ 99) (hs : s ≤ 99) : decodeTime tag v = none := by
  have h1 : decodeYear tag v = some (y, Spec.dd m ++ (Spec.dd d ++ (Spec.dd h ++ (Spec.dd mi ++
      (Spec.dd s ++ [90]))))) := by
    rw [decodeYear_some]
    rcases henc with ⟨a, b, c, e⟩ | ⟨a, b, c, e⟩
    · exact Or.inl ⟨a, b, c, by rw [e, Spec.utcTime]; simp only [List.append_assoc], rfl⟩
    · exact Or.inr ⟨a, b, c, by rw [e, Spec.genTime]; simp only [List.append_assoc], rfl⟩
  unfold decodeTime
  simp only [h1, Option.bind_eq_bind, Option.bind_some]
  rw [(dd2bin_some _ _ m).mpr ⟨by omega, rfl⟩]
  simp only [Option.bind_some]
  rw [(dd2bin_some _ _ d).mpr ⟨by omega, rfl⟩]
  simp only [Option.bind_some]
  rw [(dd2bin_some _ _ h).mpr ⟨by omega, rfl⟩]
  simp only [Option.bind_some]
  rw [(dd2bin_some _ _ mi).mpr ⟨by omega, rfl⟩]
  simp only [Option.bind_some]
  rw [(dd2bin_some _ _ s).mpr ⟨by omega, rfl⟩]
  simp only [Option.bind_some]
  rw [if_neg (by simp), if_pos (Or.inl hy)]

/-- Non-vacuity: `240229123456Z` is 2024-02-29 12:34:56 and is accepted. -/
example : decodeTime 23 (Spec.utcTime 2024 2 29 12 34 56) = some 1709210096 := by decide +kernel
example : decodeTime 23 (Spec.utcTime 2023 2 29 12 34 56) = none := by decide +kernel
example : Spec.Encodes 23 (Spec.utcTime 2024 2 29 12 34 56) 2024 2 29 12 34 56 :=
  Or.inl ⟨rfl, by decide, by decide, rfl⟩

end LC.X509
