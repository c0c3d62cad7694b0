import Verif.X509.CertParts
import Verif.X509.TimeProps
/-
The times that the generator writes are read back: `gmtime` computes the calendar date of which
`x509_decode_time` computes the seconds.
-/
namespace LC.Crt
open LC.Asn1 LC.Asn1.Enc
open LC.X509 (Spec.leap Spec.daysInMonth Spec.daysOfYears Spec.daysOfMonths Spec.epoch Spec.Valid Spec.Encodes Spec.dd decodeTime)

theorem leap_nat (y : Nat) : leap (y : Int) = Spec.leap y := by
  rw [Bool.eq_iff_iff, LC.X509.leap_iff]
  unfold leap
  simp only [Bool.and_eq_true, beq_iff_eq, Bool.or_eq_true, bne_iff_ne, ne_eq]
  omega

theorem daysOfYears_lin (n : Nat) : Spec.daysOfYears n + 719162 =
      365 * (1969 + n) + (1969 + n) / 4 - (1969 + n) / 100 + (1969 + n) / 400 := by
  have := LC.X509.daysOfYears_closed n
  omega

theorem daysOfYears_cycle (k : Nat) : Spec.daysOfYears (400 * k) = 146097 * k := by
  have := daysOfYears_lin (400 * k)
  omega

theorem daysOfYears_401 (k : Nat) : 146097 * k + 146097 < Spec.daysOfYears (400 * k + 401) := by
  have := daysOfYears_lin (400 * k + 401)
  omega

theorem daysOfYears_mono (a : Nat) : ∀ k, Spec.daysOfYears a ≤ Spec.daysOfYears (a + k)
  | 0 => Nat.le_refl _
  | k + 1 => Nat.le_trans (daysOfYears_mono a k) (Nat.le_add_right _ _)

theorem daysOfYears_le {a b : Nat} (h : a ≤ b) : Spec.daysOfYears a ≤ Spec.daysOfYears b := by
  have := daysOfYears_mono a (b - a)
  rwa [show a + (b - a) = b by omega] at this

theorem yearOf_spec : ∀ (n a d : Nat), Spec.daysOfYears a + d < Spec.daysOfYears (a + n) →
    ∃ b e, yearOf n ((1970 + a : Nat) : Int) d = (((1970 + b : Nat) : Int), e) ∧ Spec.daysOfYears a + d = Spec.daysOfYears b + e ∧
      e < (if Spec.leap (1970 + b) then 366 else 365)
  | 0, a, d, h => by
    rw [Nat.add_zero] at h
    omega
  | n + 1, a, d, h => by
    rw [yearOf, leap_nat]
    by_cases hd : d < (if Spec.leap (1970 + a) = true then 366 else 365)
    · rw [if_pos hd]
      exact ⟨a, d, rfl, rfl, hd⟩
    · rw [if_neg hd]
      have hs : Spec.daysOfYears (a + 1) = Spec.daysOfYears a + (if Spec.leap (1970 + a) then 366 else 365) := rfl
      have he : ((1970 + a : Nat) : Int) + 1 = ((1970 + (a + 1) : Nat) : Int) := by omega
      rw [he]
      obtain ⟨b, e, h1, h2, h3⟩ := yearOf_spec n (a + 1) (d - (if Spec.leap (1970 + a) = true then 366 else 365)) (by
        rw [show a + 1 + n = a + (n + 1) by omega]
        omega)
      exact ⟨b, e, h1, by omega, h3⟩

def MonthOk (y d : Nat) (r : Nat × Nat) : Prop :=
  1 ≤ r.1 ∧ r.1 ≤ 12 ∧ 1 ≤ r.2 ∧ r.2 ≤ Spec.daysInMonth y r.1 ∧ Spec.daysOfMonths y (r.1 - 1) + (r.2 - 1) = d

theorem ite_ind {α : Type} {P : α → Prop} {c : Prop} [Decidable c] {a b : α} (h1 : c → P a) (h2 : ¬ c → P b) : P (if c then a else b) := by
  by_cases h : c
  · rw [if_pos h]; exact h1 h
  · rw [if_neg h]; exact h2 h

theorem monthOf_spec (y d : Nat) (h : d < (if Spec.leap y then 366 else 365)) :
    MonthOk y d (monthOf (Spec.leap y) 1 d [31, 28, 31, 30, 31, 30, 31, 31, 30, 31, 30]) := by
  cases hl : Spec.leap y
  all_goals
    rw [hl] at h
    simp only [if_true, if_false, Bool.false_eq_true] at h
    simp only [monthOf, Bool.and_false, Bool.and_true, Bool.false_eq_true, if_false, Nat.reduceAdd, Nat.reduceEqDiff, decide_false, decide_true, if_true]
    repeat' refine ite_ind (P := MonthOk y d) (fun _ => ?_) (fun _ => ?_)
    all_goals
      refine ⟨by omega, by omega, by omega, ?_, ?_⟩
      · simp only [Spec.daysInMonth, hl, if_true, if_false, Bool.false_eq_true]
        omega
      · simp only [Nat.reduceSub, Spec.daysOfMonths, Spec.daysInMonth, hl, if_true, if_false, Bool.false_eq_true, Nat.reduceAdd]
        omega

/-- `gmtime` gives the date that lies `t` seconds after 1970. -/
theorem gmtime_spec (t : Nat) : ∃ y m d h mi s : Nat, gmtime (t : Int) = ⟨(y : Int), m, d, h, mi, s⟩ ∧ 1970 ≤ y ∧
    Spec.Valid y m d h mi s ∧ Spec.epoch y m d h mi s = t ∧ Spec.daysOfYears (y - 1970) * 86400 ≤ t ∧
    t < Spec.daysOfYears (y - 1970 + 1) * 86400 := by
  have hd : ((t : Int) / 86400) = ((t / 86400 : Nat) : Int) := by omega
  have hs : ((t : Int) % 86400).toNat = t % 86400 := by omega
  have h400 : (1970 + 400 * (((t / 86400 : Nat) : Int) / 146097)) = ((1970 + 400 * (t / 86400 / 146097) : Nat) : Int) := by omega
  have hmod : (((t / 86400 : Nat) : Int) % 146097).toNat = t / 86400 % 146097 := by omega
  obtain ⟨b, e, h1, h2, h3⟩ := yearOf_spec 401 (400 * (t / 86400 / 146097)) (t / 86400 % 146097) (by
    have := daysOfYears_401 (t / 86400 / 146097)
    rw [daysOfYears_cycle]
    omega)
  rw [daysOfYears_cycle] at h2
  have hm := monthOf_spec (1970 + b) e h3
  obtain ⟨⟨m, d⟩, hr⟩ : ∃ r, monthOf (Spec.leap (1970 + b)) 1 e [31, 28, 31, 30, 31, 30, 31, 31, 30, 31, 30] = r := ⟨_, rfl⟩
  rw [hr] at hm
  obtain ⟨m2, m3, m4, m5, m6⟩ := hm
  dsimp only at m2 m3 m4 m5 m6
  refine ⟨1970 + b, m, d, t % 86400 / 3600, t % 86400 / 60 % 60, t % 86400 % 60, ?_, by omega, ⟨m2, m3, m4, m5, by omega, by omega, by omega⟩, ?_, ?_⟩
  · unfold gmtime
    rw [hd, hs]
    dsimp only
    rw [h400, hmod, h1]
    dsimp only
    rw [leap_nat, hr]
  · unfold Spec.epoch
    rw [show 1970 + b - 1970 = b by omega]
    have : Spec.daysOfYears b + Spec.daysOfMonths (1970 + b) (m - 1) + (d - 1) = t / 86400 := by omega
    rw [this]
    omega
  · rw [show 1970 + b - 1970 = b by omega, Spec.daysOfYears]
    omega

/-- What `timeTree` writes, as tag and value. -/
def timeTag (t : Int) : Nat := if t < 2524608000 then 23 else 24
def timeVal (t : Int) : Bytes := if t < 2524608000 then utcBytes t else genBytes t

/-- The last second of the year 9999. -/
def maxTime : Int := 253402300799

theorem utcTime_read (t : Int) (h0 : 0 ≤ t) (h1 : t ≤ maxTime) : decodeTime (timeTag t) (timeVal t) = some t := by
  obtain ⟨n, rfl⟩ : ∃ n : Nat, t = n := ⟨t.toNat, by omega⟩
  unfold maxTime at h1
  obtain ⟨y, m, d, h, mi, s, hg, hy, hv, he, hle, hlt⟩ := gmtime_spec n
  rw [LC.X509.decodeTime_iff]
  refine ⟨y, m, d, h, mi, s, ?_, hv, hy, by rw [he]⟩
  have h80 := daysOfYears_lin 80
  have h8030 := daysOfYears_lin 8030
  have up : ∀ b, b ≤ y - 1970 → Spec.daysOfYears b ≤ Spec.daysOfYears (y - 1970) := fun b h => daysOfYears_le h
  have dn : ∀ b, y - 1970 + 1 ≤ b → Spec.daysOfYears (y - 1970 + 1) ≤ Spec.daysOfYears b := fun b h => daysOfYears_le h
  unfold timeTag timeVal
  by_cases ht : (n : Int) < 2524608000
  · rw [if_pos ht, if_pos ht]
    refine .inl ⟨rfl, by omega, by rcases Nat.lt_or_ge 2049 y with h | h; have := up 80 (by omega); omega; exact h, ?_⟩
    unfold utcBytes
    rw [hg]
    dsimp only
    have : ((y : Int) - 1900).toNat % 100 = y % 100 := by omega
    rw [this]
    rfl
  · rw [if_neg ht, if_neg ht]
    have h9 : y ≤ 9999 := by
      rcases Nat.lt_or_ge 9999 y with h | h
      · have := up 8030 (by omega)
        omega
      · exact h
    refine .inr ⟨rfl, h9, ?_, ?_⟩
    · intro hc
      have := dn 80 (by omega)
      omega
    unfold genBytes
    rw [hg]
    dsimp only
    unfold d4
    rw [Int.toNat_natCast, if_pos (by omega)]
    rfl

theorem time_year (t : Int) (h0 : 0 ≤ t) : ¬ (gmtime t).year < 1900 := by
  obtain ⟨n, rfl⟩ : ∃ n : Nat, t = n := ⟨t.toNat, by omega⟩
  obtain ⟨y, m, d, h, mi, s, hg, hy, hv, he, hle, hlt⟩ := gmtime_spec n
  rw [hg]
  dsimp only
  omega

end LC.Crt
