import Verif.Curve.Scalar
import Verif.Curve.Encode
import Verif.Curve.Orders
import Mathlib.Tactic.Ring
import Mathlib.Tactic.Linarith
import Mathlib.Tactic.LinearCombination
/-!
# Lemmas on the arithmetic modulo the group order

An interval analysis of the statements, proved sound once and evaluated by the kernel, shows that no
`int64_t` overflows; the value of the limbs stays the same modulo the order.
-/
namespace LC.Curve.Sc

/-- The order as an integer. -/
abbrev LI : Int := 7237005577332262213973186563042994240857116359379907606001950938285454250989

/-! ### Values -/

/-- The value of the first `n` limbs. -/
def vl (s : List Int) : Nat → Int
  | 0 => 0
  | n + 1 => vl s n + get s n * 2 ^ (21 * n)

theorem get_set (s : List Int) (i j : Nat) (x : Int) (hj : j < s.length) :
    get (s.set j x) i = if i = j then x else get s i := by
  unfold get
  simp only [List.getD_eq_getElem?_getD, List.getElem?_set]
  by_cases h : j = i
  · subst h; simp [hj]
  · rw [if_neg h, if_neg (fun hc => h hc.symm)]

theorem vl_set_ge (s : List Int) (j n : Nat) (x : Int) (hj : j < s.length) (h : n ≤ j) : vl (s.set j x) n = vl s n := by
  induction n with
  | zero => rfl
  | succ n ih => rw [vl, vl, ih (by omega), get_set _ _ _ _ hj, if_neg (by omega)]

theorem vl_set (s : List Int) (j n : Nat) (x : Int) (hj : j < s.length) (h : j < n) :
    vl (s.set j x) n = vl s n + (x - get s j) * 2 ^ (21 * j) := by
  induction n with
  | zero => omega
  | succ n ih =>
    rw [vl, vl, get_set _ _ _ _ hj]
    by_cases hn : n = j
    · subst hn
      rw [if_pos rfl, vl_set_ge _ _ _ _ hj (by omega)]; ring
    · rw [if_neg hn, ih (by omega)]; ring

/-! ### Intervals -/

abbrev Iv := Int × Int
def geti (a : List Iv) (i : Nat) : Iv := a.getD i (0, 0)

/-- The limbs lie in the intervals. -/
def In (s : List Int) (a : List Iv) : Prop :=
  s.length = 24 ∧ a.length = 24 ∧ ∀ i, (geti a i).1 ≤ get s i ∧ get s i ≤ (geti a i).2

def okI (v : Iv) : Bool := decide (-9223372036854775808 ≤ v.1) && decide (v.2 ≤ 9223372036854775807)

theorem okI_i64 {v : Iv} (h : okI v = true) {x : Int} (h1 : v.1 ≤ x) (h2 : x ≤ v.2) : i64 x = some x := by
  unfold okI at h
  rw [Bool.and_eq_true, decide_eq_true_eq, decide_eq_true_eq] at h
  unfold i64
  rw [if_pos (by omega)]

theorem geti_set (a : List Iv) (i j : Nat) (x : Iv) (hj : j < a.length) :
    geti (a.set j x) i = if i = j then x else geti a i := by
  unfold geti
  simp only [List.getD_eq_getElem?_getD, List.getElem?_set]
  by_cases h : j = i
  · subst h; simp [hj]
  · rw [if_neg h, if_neg (fun hc => h hc.symm)]

theorem In.set {s : List Int} {a : List Iv} (h : In s a) {j : Nat} (hj : j < 24) {x : Int} {v : Iv} (h1 : v.1 ≤ x) (h2 : x ≤ v.2) :
    In (s.set j x) (a.set j v) := by
  refine ⟨by rw [List.length_set, h.1], by rw [List.length_set, h.2.1], fun i => ?_⟩
  rw [get_set _ _ _ _ (by rw [h.1]; exact hj), geti_set _ _ _ _ (by rw [h.2.1]; exact hj)]
  by_cases hi : i = j
  · rw [if_pos hi, if_pos hi]; exact ⟨h1, h2⟩
  · rw [if_neg hi, if_neg hi]; exact h.2.2 i

def mulI (v : Iv) (c : Int) : Iv := if 0 ≤ c then (v.1 * c, v.2 * c) else (v.2 * c, v.1 * c)
def addI (v w : Iv) : Iv := (v.1 + w.1, v.2 + w.2)

theorem mulI_spec {v : Iv} {c x : Int} (h1 : v.1 ≤ x) (h2 : x ≤ v.2) : (mulI v c).1 ≤ x * c ∧ x * c ≤ (mulI v c).2 := by
  unfold mulI
  by_cases hc : 0 ≤ c
  · rw [if_pos hc]; exact ⟨Int.mul_le_mul_of_nonneg_right h1 hc, Int.mul_le_mul_of_nonneg_right h2 hc⟩
  · rw [if_neg hc]
    have hc' : c ≤ 0 := by omega
    exact ⟨Int.mul_le_mul_of_nonpos_right h2 hc', Int.mul_le_mul_of_nonpos_right h1 hc'⟩

def macI (k j : Nat) (c : Int) (a : List Iv) : Option (List Iv) :=
  let p := mulI (geti a k) c
  let r := addI (geti a j) p
  if okI p && okI r && decide (j < 24) then some (a.set j r) else none

def macsI (k : Nat) : Nat → List Int → List Iv → Option (List Iv)
  | _, [], a => some a
  | j, c :: cs, a => match macI k j c a with
    | none => none
    | some a => macsI k (j + 1) cs a

def carryI (i : Nat) (c : Iv) (m : Iv) (a : List Iv) : Option (List Iv) :=
  let n := addI (geti a (i + 1)) c
  if okI n && okI (mulI c 2097152) && okI m && decide (i < 23) then some ((a.set (i + 1) n).set i m) else none

/-- The state of the analysis: how many limbs still count, and the intervals. -/
abbrev Abs := Nat × List Iv

def stepI : Abs → Op → Option Abs
  | (n, a), .fold k =>
    if k + 1 = n ∧ 12 ≤ k then (macsI k (k - 12) foldC a).map fun a => (k, a) else none
  | (n, a), .zero k => if k = n ∧ k < 24 then some (n + 1, a.set k (0, 0)) else none
  | (n, a), .round i =>
    let t := addI (geti a i) (1048576, 1048576)
    if okI t ∧ i + 1 < n then (carryI i (t.1 / 2097152, t.2 / 2097152) (-1048576, 1048575) a).map fun a => (n, a) else none
  | (n, a), .carry i =>
    let t := geti a i
    if i + 1 < n then (carryI i (t.1 / 2097152, t.2 / 2097152) (0, 2097151) a).map fun a => (n, a) else none

def runI : List Op → Abs → Option Abs
  | [], a => some a
  | o :: os, a => match stepI a o with
    | none => none
    | some a => runI os a

theorem mac_sound {s : List Int} {a a' : List Iv} {k j : Nat} {c : Int} (h : In s a) (ha : macI k j c a = some a') :
    j < 24 ∧ mac k j c s = some (s.set j (get s j + get s k * c)) ∧ In (s.set j (get s j + get s k * c)) a' := by
  unfold macI at ha
  dsimp only at ha
  split at ha
  · next hok =>
    rw [Bool.and_eq_true, Bool.and_eq_true, decide_eq_true_eq] at hok
    obtain ⟨⟨hp, hr⟩, hj⟩ := hok
    have hk := h.2.2 k
    have hjv := h.2.2 j
    have hm := mulI_spec (c := c) hk.1 hk.2
    have hs1 : (addI (geti a j) (mulI (geti a k) c)).1 ≤ get s j + get s k * c := Int.add_le_add hjv.1 hm.1
    have hs2 : get s j + get s k * c ≤ (addI (geti a j) (mulI (geti a k) c)).2 := Int.add_le_add hjv.2 hm.2
    refine ⟨hj, ?_, ?_⟩
    · unfold mac
      rw [okI_i64 hp hm.1 hm.2]
      dsimp only
      rw [okI_i64 hr hs1 hs2]
    · obtain rfl := (Option.some.injEq _ _ ▸ ha : _ = _)
      exact h.set hj hs1 hs2
  · exact absurd ha (by simp)

/-- `∑ c(i) 2^(21 (j + i))`. -/
def wsum : Nat → List Int → Int
  | _, [] => 0
  | j, c :: cs => c * 2 ^ (21 * j) + wsum (j + 1) cs

theorem macs_sound {k n : Nat} : ∀ (cs : List Int) (j : Nat) (s : List Int) (a a' : List Iv), In s a → macsI k j cs a = some a' →
    j + cs.length ≤ k → n = k →
    ∃ s', macs k j cs s = some s' ∧ In s' a' ∧ vl s' n = vl s n + get s k * wsum j cs
  | [], j, s, a, a', h, ha, _, _ => by
    refine ⟨s, rfl, ?_, by rw [wsum]; ring⟩
    obtain rfl := (Option.some.injEq _ _ ▸ ha : _ = _); exact h
  | c :: cs, j, s, a, a', h, ha, hl, hn => by
    rw [macsI] at ha
    split at ha
    · exact absurd ha (by simp)
    · next a1 h1 =>
      obtain ⟨hj, e, hin⟩ := mac_sound h h1
      rw [List.length_cons] at hl
      obtain ⟨s', e', hin', hv⟩ := macs_sound cs (j + 1) _ a1 a' hin ha (by omega) hn
      refine ⟨s', ?_, hin', ?_⟩
      · rw [macs, e]; exact e'
      · have hlen : j < s.length := by rw [h.1]; exact hj
        rw [hv, get_set _ _ _ _ hlen, if_neg (by omega), vl_set _ _ _ _ hlen (by omega), wsum]
        ring

theorem carryTo_sound {s : List Int} {a a' : List Iv} {i n : Nat} {c : Int} {cv m : Iv} (h : In s a)
    (ha : carryI i cv m a = some a') (hc1 : cv.1 ≤ c) (hc2 : c ≤ cv.2)
    (hm1 : m.1 ≤ get s i - c * 2097152) (hm2 : get s i - c * 2097152 ≤ m.2) (hn : i + 1 < n) :
    ∃ s', carryTo i c s = some s' ∧ In s' a' ∧ vl s' n = vl s n ∧ get s' i = get s i - c * 2097152 := by
  unfold carryI at ha
  dsimp only at ha
  split at ha
  · next hok =>
    rw [Bool.and_eq_true, Bool.and_eq_true, Bool.and_eq_true, decide_eq_true_eq] at hok
    obtain ⟨⟨⟨h1, h2⟩, h3⟩, hi⟩ := hok
    have hv := h.2.2 (i + 1)
    have g1 : (addI (geti a (i + 1)) cv).1 ≤ get s (i + 1) + c := Int.add_le_add hv.1 hc1
    have g2 : get s (i + 1) + c ≤ (addI (geti a (i + 1)) cv).2 := Int.add_le_add hv.2 hc2
    have hm := mulI_spec (c := 2097152) hc1 hc2
    have l1 : i + 1 < s.length := by rw [h.1]; omega
    have l2 : i < (s.set (i + 1) (get s (i + 1) + c)).length := by rw [List.length_set, h.1]; omega
    refine ⟨(s.set (i + 1) (get s (i + 1) + c)).set i (get s i - c * 2097152), ?_, ?_, ?_, ?_⟩
    · unfold carryTo
      rw [okI_i64 h1 g1 g2]
      dsimp only
      rw [okI_i64 h2 hm.1 hm.2]
      dsimp only
      rw [okI_i64 h3 hm1 hm2]
    · obtain rfl := (Option.some.injEq _ _ ▸ ha : _ = _)
      exact (h.set (by omega) g1 g2).set (by omega) hm1 hm2
    · rw [vl_set _ _ _ _ l2 (by omega), vl_set _ _ _ _ l1 (by omega), get_set _ _ _ _ l1, if_neg (by omega)]
      have : (2 : Int) ^ (21 * (i + 1)) = 2097152 * 2 ^ (21 * i) := by rw [Nat.mul_add, pow_add]; norm_num; ring
      rw [this]; ring
    · rw [get_set _ _ _ _ l2, if_pos rfl]
  · exact absurd ha (by simp)

/-- The difference a statement makes to the value: a multiple of the order. -/
theorem wsum_fold (k : Nat) (hk : 12 ≤ k) : wsum (k - 12) foldC = 2 ^ (21 * k) - LI * 2 ^ (21 * (k - 12)) := by
  obtain ⟨m, rfl⟩ : ∃ m, k = m + 12 := ⟨k - 12, by omega⟩
  rw [Nat.add_sub_cancel]
  simp only [foldC, wsum, Nat.mul_add, pow_add]
  norm_num
  ring

theorem step_sound {s : List Int} {n n' : Nat} {a a' : List Iv} (o : Op) (h : In s a) (ha : stepI (n, a) o = some (n', a')) :
    ∃ s' q, step s o = some s' ∧ In s' a' ∧ vl s' n' = vl s n - q * LI ∧
      (∀ k, o = .fold k → k = n' ∧ q = get s k * 2 ^ (21 * (k - 12))) ∧ ((∀ k, o ≠ .fold k) → q = 0) := by
  match o with
  | .fold k =>
    rw [stepI] at ha
    split at ha
    · next hk =>
      rw [Option.map_eq_some_iff] at ha
      obtain ⟨a1, h1, h2⟩ := ha
      obtain ⟨rfl, rfl⟩ := Prod.mk.inj h2
      obtain ⟨s', e, hin, hv⟩ := macs_sound (n := k) foldC (k - 12) s a a1 h h1 (by simp [foldC]; omega) rfl
      refine ⟨s', get s k * 2 ^ (21 * (k - 12)), e, hin, ?_, ?_, fun hc => absurd rfl (hc k)⟩
      · rw [hv, wsum_fold k hk.2, ← hk.1, vl]; ring
      · intro k' hk'
        obtain rfl := Op.fold.inj hk'
        exact ⟨rfl, rfl⟩
    · exact absurd ha (by simp)
  | .zero k =>
    rw [stepI] at ha
    split at ha
    · next hk =>
      obtain ⟨rfl, rfl⟩ := Prod.mk.inj (Option.some.inj ha)
      refine ⟨s.set k 0, 0, rfl, h.set hk.2 (Int.le_refl _) (Int.le_refl _), ?_, fun k' hk' => Op.noConfusion hk', fun _ => rfl⟩
      have hl : k < s.length := by rw [h.1]; exact hk.2
      rw [vl, ← hk.1, vl_set_ge _ _ _ _ hl (Nat.le_refl _), get_set _ _ _ _ hl, if_pos rfl]; ring
    · exact absurd ha (by simp)
  | .round i =>
    rw [stepI] at ha
    split at ha
    · next hk =>
      rw [Option.map_eq_some_iff] at ha
      obtain ⟨a1, h1, h2⟩ := ha
      obtain ⟨rfl, rfl⟩ := Prod.mk.inj h2
      have hv := h.2.2 i
      have g1 : (addI (geti a i) (1048576, 1048576)).1 ≤ get s i + 1048576 := Int.add_le_add hv.1 (Int.le_refl _)
      have g2 : get s i + 1048576 ≤ (addI (geti a i) (1048576, 1048576)).2 := Int.add_le_add hv.2 (Int.le_refl _)
      obtain ⟨s', e, hin, hv', -⟩ := carryTo_sound (c := (get s i + 1048576) / 2097152) (n := n) h h1
        (by dsimp only; omega) (by dsimp only; omega) (by dsimp only; omega) (by dsimp only; omega) hk.2
      refine ⟨s', 0, ?_, hin, by rw [hv']; ring, fun k' hk' => Op.noConfusion hk', fun _ => rfl⟩
      rw [step, okI_i64 hk.1 g1 g2]
      exact e
    · exact absurd ha (by simp)
  | .carry i =>
    rw [stepI] at ha
    split at ha
    · next hk =>
      rw [Option.map_eq_some_iff] at ha
      obtain ⟨a1, h1, h2⟩ := ha
      obtain ⟨rfl, rfl⟩ := Prod.mk.inj h2
      have hv := h.2.2 i
      obtain ⟨s', e, hin, hv', -⟩ := carryTo_sound (c := get s i / 2097152) (n := n) h h1
        (by dsimp only; omega) (by dsimp only; omega) (by dsimp only; omega) (by dsimp only; omega) hk
      exact ⟨s', 0, e, hin, by rw [hv']; ring, fun k' hk' => Op.noConfusion hk', fun _ => rfl⟩
    · exact absurd ha (by simp)

/-- Programs: no overflow, the intervals, and the value modulo the order. -/
theorem run_sound : ∀ (os : List Op) {s : List Int} {n n' : Nat} {a a' : List Iv}, In s a → runI os (n, a) = some (n', a') →
    ∃ s', run os s = some s' ∧ In s' a' ∧ (∃ q, vl s' n' = vl s n - q * LI) ∧
      ((∀ o ∈ os, ∀ k, o ≠ .fold k) → vl s' n' = vl s n)
  | [], s, n, n', a, a', h, ha => by
    obtain ⟨rfl, rfl⟩ := Prod.mk.inj (Option.some.inj ha)
    exact ⟨s, rfl, h, ⟨0, by ring⟩, fun _ => rfl⟩
  | o :: os, s, n, n', a, a', h, ha => by
    rw [runI] at ha
    split at ha
    · exact absurd ha (by simp)
    · next a1 h1 =>
      obtain ⟨n1, a1⟩ := a1
      obtain ⟨s1, q, e1, hin1, hv1, -, hq⟩ := step_sound o h h1
      obtain ⟨s', e, hin, ⟨q', hv⟩, hx⟩ := run_sound os hin1 ha
      refine ⟨s', ?_, hin, ⟨q + q', by rw [hv, hv1]; ring⟩, fun hf => ?_⟩
      · rw [run, e1]; exact e
      · rw [hx fun o ho => hf o (List.mem_cons_of_mem _ ho), hv1, hq (hf o List.mem_cons_self)]; ring

theorem run_append (a b : List Op) (s : List Int) : run (a ++ b) s = (run a s).bind (run b) := by
  induction a generalizing s with
  | nil => rfl
  | cons o a ih =>
    rw [List.cons_append, run, run]
    cases step s o with
    | none => rfl
    | some s => exact ih s

/-! ### The analysis, evaluated -/

/-- Bounds of the limbs of `sc25519_reduce`. -/
def iv64 : List Iv := List.replicate 23 (0, 2097151) ++ [(0, 536870911)]
/-- Bounds of the limbs of a product. -/
def ivMul : List Iv := List.replicate 22 (0, 13510798915665920) ++ [(0, 1125899906842624), (0, 0)]

/-- The least and greatest value of the first 12 limbs. -/
def spanI (a : List Iv) : Nat → Iv
  | 0 => (0, 0)
  | n + 1 => addI (spanI a n) (mulI (geti a n) (2 ^ (21 * n)))

theorem span_spec {s : List Int} {a : List Iv} (h : In s a) (n : Nat) : (spanI a n).1 ≤ vl s n ∧ vl s n ≤ (spanI a n).2 := by
  induction n with
  | zero => exact ⟨Int.le_refl _, Int.le_refl _⟩
  | succ n ih =>
    have hm := mulI_spec (c := 2 ^ (21 * n)) (h.2.2 n).1 (h.2.2 n).2
    exact ⟨Int.add_le_add ih.1 hm.1, Int.add_le_add ih.2 hm.2⟩

/-- What has to come out of the analysis of the first part. -/
def goodHead (r : Option Abs) : Bool :=
  match r with
  | some (13, a) =>
    let v := spanI a 13
    decide (-7237005577332262213973186563042994240829374041602535252466099000494570602496 ≤ v.1) &&
    decide (v.2 < 7237005577332262213973186563042994240829374041602535252466099000494570602496) &&
    (match runI (tail.take 12) (13, a) with
     | some (13, b) => (match runI [.fold 12] (13, b) with
        | some (12, c) => (match runI (tail.drop 13) (12, c) with
           | some (12, _) => true
           | _ => false)
        | _ => false)
     | _ => false)
  | _ => false

theorem goodHead_reduce : goodHead (runI head (24, iv64)) = true := by decide +kernel

theorem goodHead_mul : goodHead (runI (mulHead ++ head) (24, ivMul)) = true := by decide +kernel

/-! ### The last two carry chains -/

theorem carry_get {s s' : List Int} {i : Nat} (h : step s (.carry i) = some s') (hl : i + 1 < s.length) :
    s'.length = s.length ∧ get s' i = get s i % 2097152 ∧ ∀ j, j < i → get s' j = get s j := by
  rw [step, carryTo] at h
  split at h
  · exact absurd h (by simp)
  · next n _ =>
    split at h
    · exact absurd h (by simp)
    · next p hp =>
      split at h
      · exact absurd h (by simp)
      · next m hm =>
        obtain rfl := Option.some.inj h
        have hp' : p = get s i / 2097152 * 2097152 := by
          unfold i64 at hp; split at hp
          · exact (Option.some.inj hp).symm
          · exact absurd hp (by simp)
        have hm' : m = get s i - p := by
          unfold i64 at hm; split at hm
          · exact (Option.some.inj hm).symm
          · exact absurd hm (by simp)
        have l2 : i < (s.set (i + 1) n).length := by rw [List.length_set]; omega
        refine ⟨by simp, ?_, fun j hj => ?_⟩
        · rw [get_set _ _ _ _ l2, if_pos rfl, hm', hp']; omega
        · rw [get_set _ _ _ _ l2, if_neg (by omega), get_set _ _ _ _ hl, if_neg (by omega)]

/-- After the carries `i, i + 1, …`, these limbs have 21 bits. -/
theorem carries_get : ∀ (m i : Nat) (s s' : List Int), run ((List.range' i m).map Op.carry) s = some s' → i + m < s.length →
    (∀ j, j < i → 0 ≤ get s j ∧ get s j < 2097152) →
    s'.length = s.length ∧ ∀ j, j < i + m → 0 ≤ get s' j ∧ get s' j < 2097152
  | 0, i, s, s', h, _, hs => by
    obtain rfl := Option.some.inj h
    exact ⟨rfl, hs⟩
  | m + 1, i, s, s', h, hl, hs => by
    rw [List.range'_succ, List.map_cons, run] at h
    split at h
    · exact absurd h (by simp)
    · next s1 h1 =>
      obtain ⟨e1, e2, e3⟩ := carry_get h1 (by omega)
      obtain ⟨e4, e5⟩ := carries_get m (i + 1) s1 s' h (by omega) (fun j hj => by
        by_cases hji : j = i
        · subst hji; rw [e2]; omega
        · rw [e3 j (by omega)]; exact hs j (by omega))
      exact ⟨by omega, fun j hj => e5 j (by omega)⟩

theorem vl_bits {s : List Int} : ∀ (n : Nat), (∀ j, j < n → 0 ≤ get s j ∧ get s j < 2097152) → 0 ≤ vl s n ∧ vl s n < 2 ^ (21 * n)
  | 0, _ => by simp [vl]
  | n + 1, h => by
    obtain ⟨h1, h2⟩ := vl_bits n (fun j hj => h j (by omega))
    obtain ⟨h3, h4⟩ := h n (by omega)
    rw [vl, Nat.mul_add, pow_add]
    have hp : (0 : Int) < 2 ^ (21 * n) := by positivity
    constructor
    · have := Int.mul_nonneg h3 (Int.le_of_lt hp); omega
    · have : get s n * 2 ^ (21 * n) ≤ 2097151 * 2 ^ (21 * n) := Int.mul_le_mul_of_nonneg_right (by omega) (Int.le_of_lt hp)
      norm_num
      linarith

theorem run_cons (o : Op) (os : List Op) (s : List Int) : run (o :: os) s = (step s o).bind (run os) := by
  rw [run]; cases step s o <;> rfl

def isFold : Op → Bool
  | .fold _ => true
  | _ => false

theorem noFold {os : List Op} (h : os.all (fun o => !isFold o) = true) : ∀ o ∈ os, ∀ k, o ≠ .fold k := by
  intro o ho k hk
  have := List.all_eq_true.mp h o ho
  rw [hk] at this
  exact absurd this (by simp [isFold])
theorem noFold_take : ∀ o ∈ tail.take 12, ∀ k, o ≠ .fold k := noFold (by decide)
theorem noFold_drop : ∀ o ∈ tail.drop 13, ∀ k, o ≠ .fold k := noFold (by decide)

/-- **The end of both functions.** -/
theorem finish {s : List Int} {r : Option Abs} (hg : goodHead r = true) {n : Nat} {a : List Iv} (hr : r = some (n, a)) (h : In s a) :
    n = 13 ∧ ∃ s', run tail s = some s' ∧ (∀ j, j < 11 → 0 ≤ get s' j ∧ get s' j < 2097152) ∧
      (0 ≤ get s' 11 ∧ get s' 11 ≤ 2097152) ∧ vl s' 12 = vl s 13 % LI := by
  rw [hr] at hg
  unfold goodHead at hg
  split at hg
  swap
  · exact absurd hg (by simp)
  next a' ha' =>
  obtain ⟨rfl, rfl⟩ := Prod.mk.inj (Option.some.inj ha')
  rw [Bool.and_eq_true, Bool.and_eq_true, decide_eq_true_eq, decide_eq_true_eq] at hg
  obtain ⟨⟨g1, g2⟩, hg⟩ := hg
  obtain ⟨v1, v2⟩ := span_spec h 13
  split at hg
  swap
  · exact absurd hg (by simp)
  next b hb =>
  split at hg
  swap
  · exact absurd hg (by simp)
  next c hc =>
  split at hg
  swap
  · exact absurd hg (by simp)
  next d hd =>
  refine ⟨rfl, ?_⟩
  obtain ⟨s1, e1, in1, -, x1⟩ := run_sound _ h hb
  have hx1 := x1 (fun o ho k hk => noFold_take o ho k hk)
  obtain ⟨l1, b1⟩ := carries_get 12 0 s s1 e1 (by rw [h.1]; decide) (fun j hj => absurd hj (by omega))
  rw [runI] at hc
  split at hc
  · exact absurd hc (by simp)
  next ac hac =>
  obtain ⟨n2, a2⟩ := ac
  obtain ⟨rfl, rfl⟩ := Prod.mk.inj (Option.some.inj hc)
  obtain ⟨s2, q, e2, in2, v2', hq, -⟩ := step_sound _ in1 hac
  obtain ⟨s3, e3, in3, -, x3⟩ := run_sound _ in2 hd
  have hx3 := x3 (fun o ho k hk => noFold_drop o ho k hk)
  obtain ⟨l3, b3⟩ := carries_get 11 0 s2 s3 e3 (by rw [in2.1]; decide) (fun j hj => absurd hj (by omega))
  have hq' := (hq 12 rfl).2
  obtain ⟨w1, w2⟩ := vl_bits 12 b1
  have hv13 : vl s1 13 = vl s1 12 + get s1 12 * 2 ^ 252 := rfl
  have hv12 : vl s3 12 = vl s3 11 + get s3 11 * 2 ^ 231 := rfl
  obtain ⟨y1, y2⟩ := vl_bits 11 b3
  have hend : vl s3 12 = vl s 13 - get s1 12 * LI := by rw [hx3, v2', hq', ← hx1]; norm_num
  norm_num at hv13 hv12 w2 y2 
  have hq0 : get s1 12 = 0 ∨ get s1 12 = -1 := by omega
  have hrange : 0 ≤ vl s3 12 ∧ vl s3 12 < LI := by
    dsimp only [LI] at hend ⊢
    rcases hq0 with h0 | h0 <;> rw [h0] at hend hv13 <;> omega
  refine ⟨s3, ?_, fun j hj => b3 j (by omega), by dsimp only [LI] at hrange; omega, ?_⟩
  · have : tail = tail.take 12 ++ (Op.fold 12 :: tail.drop 13) := by decide
    rw [this, run_append, e1, Option.bind_some, run_cons, e2, Option.bind_some, e3]
  · rw [← Int.emod_eq_of_lt hrange.1 hrange.2, hend, Int.sub_mul_emod_self_right]

end LC.Curve.Sc
