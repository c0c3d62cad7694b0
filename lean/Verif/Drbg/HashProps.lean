import Verif.Drbg.HashLemmas
import Verif.Hash.Inst
/-
Property theorems: C23 (Hash DRBG).
-/
namespace LC.Drbg
open StreamHash

/-- SP 800-90A seen through the `lc_rng` interface: the size limits of `lc_drbg.h`, `-EINVAL` for a
refused request (which has no effect and no output), `zero` uninstantiates.  `none` strings are
empty. -/
def Spec.api (H : List Byte → List Byte) (st : Option Spec.State) : Req → Option Spec.State × Reply
  | .seed s p =>
    if (p.getD []).length > 2 ^ 31 ∨ s.getD [] = [] then (st, -22, [])
    else (some (Spec.seedTo H 111 (s.getD []) (p.getD []) st), 0, [])
  | .generate a n o =>
    if o > 2 ^ 16 ∨ n > 2 ^ 31 then (st, -22, [])
    else
      match st with
      | some w =>
        let r := Spec.generate H 111 w ((a.getD []).take n) o
        (some r.1, 0, r.2)
      | none => (st, -22, [])
  | .zero => (none, 0, [])

def Spec.apiRun (H : List Byte → List Byte) (st : Option Spec.State) : List Req → Option Spec.State × List Reply
  | [] => (st, [])
  | r :: rs => ((Spec.apiRun H (Spec.api H st r).1 rs).1, (Spec.api H st r).2 :: (Spec.apiRun H (Spec.api H st r).1 rs).2)

/-- The caller passes true lengths, and strings shorter than `2^59` bytes. -/
def Req.WF : Req → Prop
  | .seed s p => (s.getD []).length < 2 ^ 59 ∧ (p.getD []).length < 2 ^ 59
  | .generate a n _ => ∀ x, a = some x → n = x.length
  | .zero => True

/-- Model and standard are in the same state; the library counts requests from 0, the standard
from 1. -/
def Same {S : StreamHash} (Ok : S.Ctx → Prop) (d : HashState S) : Option Spec.State → Prop
  | none => Ok d.h ∧ d.seeded = false
  | some s => Ok d.h ∧ d.seeded = true ∧ d.V = s.V ∧ d.C = s.C ∧ d.ctr + 1 = s.ctr ∧
      d.V.length = 111 ∧ d.C.length = 111

variable {S : StreamHash} {H : List Byte → List Byte} {maxLen : Nat} {Ok : S.Ctx → Prop}

theorem seed_same (hI : Implements S H maxLen Ok) (hd : S.dsize = 64) (hmax : 2 ^ 61 ≤ maxLen)
    (d : HashState S) (st : Option Spec.State) (hs : Same Ok d st) (s p : Option (List Byte))
    (hw : (Req.seed s p).WF) :
    Same Ok (hashStep d (.seed s p)).1 (Spec.api H st (.seed s p)).1 ∧
      (hashStep d (.seed s p)).2 = (Spec.api H st (.seed s p)).2 := by
  obtain ⟨h1, h2⟩ := hw
  have hH : ∀ m, (H m).length = 64 := fun m => by rw [hI.digest_len, hd]
  have hok : Ok d.h := by cases st <;> exact hs.1
  have e1 : (p.map List.length).getD 0 = (p.getD []).length := by cases p <;> rfl
  have e2 : (s.map List.length).getD 0 = (s.getD []).length := by cases s <;> rfl
  unfold hashStep Spec.api hashSeed
  dsimp only
  have mA : maxAddtl = 2 ^ 31 := rfl
  rw [e1, e2, mA]
  by_cases c1 : (p.getD []).length > 2 ^ 31
  · rw [if_pos c1, if_pos (Or.inl c1)]
    exact ⟨hs, rfl⟩
  · rw [if_neg c1]
    by_cases c2 : (s.getD []).length = 0
    · rw [if_pos c2, if_pos (Or.inr (List.eq_nil_of_length_eq_zero c2))]
      exact ⟨hs, rfl⟩
    · rw [if_neg c2, if_neg (show ¬ ((p.getD []).length > 2 ^ 31 ∨ s.getD [] = []) by
        rintro (h | h)
        · exact c1 h
        · rw [h] at c2; exact c2 rfl)]
      refine ⟨?_, rfl⟩
      generalize hdt : (if (p.getD []).length = 0 then [s.getD []] else [s.getD [], p.getD []]) = data
      have hfl : data.flatten = s.getD [] ++ p.getD [] := by
        rw [← hdt]
        by_cases c3 : (p.getD []).length = 0
        · rw [if_pos c3, List.eq_nil_of_length_eq_zero c3]; simp
        · rw [if_neg c3]; simp
      -- both cases of `drbg_hash_update`
      have key : ∀ (mat : List (List Byte)), 5 + mat.flatten.length < 2 ^ 61 →
          (hashDf d.h stateLen mat).2 = (Spec.fromSeed H 111 mat.flatten).V ∧
          (hashDf (hashDf d.h stateLen mat).1 stateLen [[0], (hashDf d.h stateLen mat).2]).2 =
            (Spec.fromSeed H 111 mat.flatten).C ∧
          Ok (hashDf (hashDf d.h stateLen mat).1 stateLen [[0], (hashDf d.h stateLen mat).2]).1 := by
        intro mat hm
        have k1 := hashDf_eq hI hd hok mat (by omega)
        have hl : ([[0], (hashDf d.h stateLen mat).2] : List (List Byte)).flatten.length = 112 := by
          rw [k1.1]; simp [Spec.hashDf_length hH]
        have k2 := hashDf_eq hI hd k1.2 [[0], (hashDf d.h stateLen mat).2] (by rw [hl]; omega)
        refine ⟨k1.1, ?_, k2.2⟩
        rw [k2.1, k1.1]
        simp [Spec.fromSeed]
      cases st with
      | none =>
        have hsd : d.seeded = false := hs.2
        have k := key data (by rw [hfl, List.length_append]; omega)
        unfold hashUpdate Spec.seedTo Spec.instantiate
        dsimp only
        rw [hsd, if_neg (by decide)]
        rw [hfl] at k
        refine ⟨k.2.2, rfl, k.1, k.2.1, rfl, ?_, ?_⟩
        · dsimp only; rw [k.1]; exact Spec.hashDf_length hH _ _
        · dsimp only; rw [k.2.1]; exact Spec.hashDf_length hH _ _
      | some w =>
        obtain ⟨_, hsd, hV, hC, hctr, hVl, hCl⟩ := hs
        have hfl2 : ([1] :: d.V :: data).flatten = 0x01 :: w.V ++ s.getD [] ++ p.getD [] := by
          rw [List.flatten_cons, List.flatten_cons, hfl, hV]; simp
        have k := key ([1] :: d.V :: data) (by rw [hfl2, ← hV]; simp [hVl]; omega)
        unfold hashUpdate Spec.seedTo Spec.reseed
        dsimp only
        rw [hsd, if_pos rfl]
        rw [hfl2] at k
        refine ⟨k.2.2, rfl, k.1, k.2.1, rfl, ?_, ?_⟩
        · dsimp only; rw [k.1]; exact Spec.hashDf_length hH _ _
        · dsimp only; rw [k.2.1]; exact Spec.hashDf_length hH _ _

theorem gen_same (hI : Implements S H maxLen Ok) (hd : S.dsize = 64) (hmax : 2 ^ 61 ≤ maxLen)
    (d : HashState S) (w : Spec.State) (hs : Same Ok d (some w)) (hc : d.ctr + 1 < 2 ^ 64)
    (a : Option (List Byte)) (n o : Nat) (hw : (Req.generate a n o).WF) :
    Same Ok (hashStep d (.generate a n o)).1 (Spec.api H (some w) (.generate a n o)).1 ∧
      (hashStep d (.generate a n o)).2 = (Spec.api H (some w) (.generate a n o)).2 := by
  have hH : ∀ m, (H m).length = 64 := fun m => by rw [hI.digest_len, hd]
  have hs0 := hs
  obtain ⟨hok, hsd, hV, hC, hctr, hVl, hCl⟩ := hs
  unfold hashStep Spec.api hashGenerate
  dsimp only
  have mA : maxAddtl = 2 ^ 31 := rfl
  have mR : maxRequest = 2 ^ 16 := rfl
  rw [mA, mR]
  by_cases c1 : o > 2 ^ 16
  · rw [if_pos c1, if_pos (Or.inl c1)]
    exact ⟨hs0, rfl⟩
  rw [if_neg c1]
  by_cases c2 : n > 2 ^ 31
  · rw [if_pos c2, if_pos (Or.inr c2)]
    exact ⟨hs0, rfl⟩
  rw [if_neg c2, if_neg (show ¬ (o > 2 ^ 16 ∨ n > 2 ^ 31) by omega)]
  have c2' : n ≤ 2 ^ 31 := by omega
  -- the additional input
  have ha : ∃ x : List Byte, x.length ≤ 2 ^ 31 ∧ (a.getD []).take n = x ∧
      ((if n = 0 then none else a) = some x ∧ x ≠ [] ∨ (if n = 0 then none else a) = none ∧ x = []) := by
    cases a with
    | none => exact ⟨[], by simp, by simp, Or.inr ⟨by simp, rfl⟩⟩
    | some x =>
      have := hw x rfl
      refine ⟨x, by omega, by rw [this]; simp, ?_⟩
      by_cases h0 : n = 0
      · right; rw [if_pos h0]; exact ⟨rfl, List.eq_nil_of_length_eq_zero (by omega)⟩
      · left; rw [if_neg h0]; refine ⟨rfl, ?_⟩
        intro e; rw [e] at this; simp at this; omega
  obtain ⟨x, hxl, hxt, hx⟩ := ha
  rw [hxt]
  -- state after processing it
  generalize hd1 : processAddtl { d with ctr := (d.ctr + 1) % 2 ^ 64 } (if n = 0 then none else a) = d1
  have p1 : Ok d1.h ∧ d1.seeded = true ∧ d1.C = w.C ∧ d1.ctr = w.ctr ∧ d1.V.length = 111 ∧
      d1.V = (if x = [] then w.V else Spec.ofInt 111 (Spec.toInt w.V + Spec.toInt (H (0x02 :: w.V ++ x)))) := by
    have hct : (d.ctr + 1) % 2 ^ 64 = w.ctr := by rw [Nat.mod_eq_of_lt hc, hctr]
    rw [← hd1]
    rcases hx with ⟨hx1, hx2⟩ | ⟨hx1, hx2⟩
    · rw [hx1]
      unfold processAddtl
      dsimp only
      have hl0 : x.length ≠ 0 := fun h => hx2 (List.eq_nil_of_length_eq_zero h)
      rw [if_neg hl0, if_neg hx2]
      have q := drbgHash_eq hI hok [[2], d.V, x] (by simp [hVl]; omega)
      have qe : (drbgHash d.h [[2], d.V, x]).2.take blockLen = H (0x02 :: w.V ++ x) := by
        rw [q, List.take_of_length_le (by rw [hH]; decide), hV]; simp
      refine ⟨drbgHash_ok hI hok _, hsd, hC, hct, ?_, ?_⟩
      · dsimp only; rw [qe, addBuf_length _ _ (by rw [hH, hVl]; decide)]; exact hVl
      · dsimp only; rw [qe, addBuf_eq _ _ (by rw [hH, hVl]; decide), hVl, hV]
    · rw [hx1, if_pos hx2]
      exact ⟨hok, hsd, hC, hct, hVl, hV⟩
  obtain ⟨q1, q2, q3, q4, q5, q6⟩ := p1
  -- hashgen
  have g := genLoop_eq hI hd (by omega) o d1.h d1.V o (Spec.toInt d1.V) [] q1 (Nat.le_refl _)
    (by rw [← q5, ofInt_toInt])
  have k := drbgHash_eq hI g.2 [[3], d1.V] (by simp [q5]; omega)
  have ke : (drbgHash (genLoop o d1.h d1.V o []).1 [[3], d1.V]).2.take blockLen = H (0x03 :: d1.V) := by
    rw [k, List.take_of_length_le (by rw [hH]; decide)]; simp
  unfold hashGenInternal hashgen Spec.generate Spec.hashgen
  dsimp only
  rw [hd1, ke, ← q6]
  have b8 : (bePtr 8 d1.ctr).length = 8 := by rw [bePtr_eq, ofInt_length]
  have l1 : (addBuf d1.V (H (0x03 :: d1.V))).length = 111 := by
    rw [addBuf_length _ _ (by rw [hH, q5]; decide), q5]
  have hCl1 : d1.C.length = 111 := by rw [q3, ← hC, hCl]
  have l2 : (addBuf (addBuf d1.V (H (0x03 :: d1.V))) d1.C).length = 111 := by
    rw [addBuf_length _ _ (by rw [hCl1, l1]; exact Nat.le_refl _), l1]
  have l3 : (addBuf (addBuf (addBuf d1.V (H (0x03 :: d1.V))) d1.C) (bePtr 8 d1.ctr)).length = 111 := by
    rw [addBuf_length _ _ (by rw [b8, l2]; decide), l2]
  refine ⟨⟨drbgHash_ok hI g.2 _, q2, ?_, q3, ?_, l3, hCl1⟩, ?_⟩
  · dsimp only
    rw [addBuf_eq _ _ (by rw [b8, l2]; decide), l2, addBuf_eq _ _ (by rw [hCl1, l1]; exact Nat.le_refl _), l1,
      addBuf_eq _ _ (by rw [hH, q5]; decide), q5, toInt_ofInt, toInt_ofInt, bePtr_eq, toInt_ofInt, q3, q4]
    have e64 : w.ctr % 256 ^ 8 = w.ctr := Nat.mod_eq_of_lt (by rw [← hctr]; exact hc)
    rw [e64]
    rw [ofInt_add_mod, Nat.add_assoc, ofInt_add_mod, ← Nat.add_assoc]
  · dsimp only; rw [q4]
  · refine congrArg (fun y => ((0 : Int), y)) ?_
    rw [g.1, List.nil_append]
    rfl

/-- Every `generate` comes after an accepted `seed` (and no `zero` in between); `b` says whether the
DRBG is seeded at the start. -/
def Guarded : Bool → List Req → Prop
  | _, [] => True
  | b, .seed s p :: rs => Guarded (b || decide (¬ ((p.getD []).length > 2 ^ 31 ∨ s.getD [] = []))) rs
  | b, .generate _ _ _ :: rs => b = true ∧ Guarded b rs
  | _, .zero :: rs => Guarded false rs

theorem hashStep_ctr (d : HashState S) (r : Req) : (hashStep d r).1.ctr ≤ d.ctr + 1 := by
  cases r with
  | zero => exact Nat.zero_le _
  | seed s p =>
    show (hashSeed d s p).1.ctr ≤ _
    unfold hashSeed
    dsimp only
    split
    · exact Nat.le_succ _
    · split
      · exact Nat.le_succ _
      · exact Nat.zero_le _
  | generate a n o =>
    have h2 : ∀ (e : HashState S) x, (processAddtl e x).ctr = e.ctr := by
      intro e x
      unfold processAddtl
      cases x with
      | none => rfl
      | some y => dsimp only; split <;> rfl
    have h3 : ∀ x, (hashGenInternal d o x).1.ctr ≤ d.ctr + 1 := by
      intro x
      show (processAddtl { d with ctr := (d.ctr + 1) % 2 ^ 64 } x).ctr ≤ _
      rw [h2]
      exact Nat.mod_le _ _
    show (hashGenerate d a n o).1.ctr ≤ _
    unfold hashGenerate
    dsimp only
    split
    · exact Nat.le_succ _
    · split
      · exact Nat.le_succ _
      · exact h3 _

theorem hash_run_same (hI : Implements S H maxLen Ok) (hd : S.dsize = 64) (hmax : 2 ^ 61 ≤ maxLen) :
    ∀ (rs : List Req) (d : HashState S) (st : Option Spec.State), Same Ok d st → (∀ r ∈ rs, r.WF) →
      Guarded st.isSome rs → d.ctr + rs.length < 2 ^ 64 →
      (hashRun d rs).2 = (Spec.apiRun H st rs).2 ∧ Same Ok (hashRun d rs).1 (Spec.apiRun H st rs).1 := by
  intro rs
  induction rs with
  | nil => intro d st hs _ _ _; exact ⟨rfl, hs⟩
  | cons r rs ih =>
    intro d st hs hw hg hc
    have hstep : Same Ok (hashStep d r).1 (Spec.api H st r).1 ∧ (hashStep d r).2 = (Spec.api H st r).2 := by
      cases r with
      | seed s p => exact seed_same hI hd hmax d st hs s p (hw _ (List.mem_cons_self ..))
      | zero =>
        refine ⟨⟨?_, rfl⟩, rfl⟩
        cases st <;> exact hs.1
      | generate a n o =>
        cases st with
        | none => exact absurd hg.1 (by decide)
        | some w =>
          exact gen_same hI hd hmax d w hs (by simp only [List.length_cons] at hc; omega) a n o
            (hw _ (List.mem_cons_self ..))
    have hg' : Guarded (Spec.api H st r).1.isSome rs := by
      cases r with
      | zero => exact hg
      | seed s p =>
        unfold Guarded at hg
        by_cases c : (p.getD []).length > 2 ^ 31 ∨ s.getD [] = []
        · have e : (Spec.api H st (.seed s p)).1 = st := by unfold Spec.api; dsimp only; rw [if_pos c]
          rw [e]
          simpa [c] using hg
        · have e : (Spec.api H st (.seed s p)).1.isSome = true := by unfold Spec.api; dsimp only; rw [if_neg c]; rfl
          rw [e]
          have : decide (¬ ((p.getD []).length > 2 ^ 31 ∨ s.getD [] = [])) = true := decide_eq_true c
          rw [this, Bool.or_true] at hg
          exact hg
      | generate a n o =>
        have e : (Spec.api H st (.generate a n o)).1.isSome = st.isSome := by
          unfold Spec.api
          cases st with
          | none => dsimp only; split <;> rfl
          | some w => dsimp only; split <;> rfl
        rw [e]
        exact hg.2
    have := ih (hashStep d r).1 (Spec.api H st r).1 hstep.1 (fun x hx => hw x (List.mem_cons_of_mem _ hx)) hg' (by
      have := hashStep_ctr d r
      simp only [List.length_cons] at hc
      omega)
    refine ⟨?_, this.2⟩
    show (hashStep d r).2 :: _ = (Spec.api H st r).2 :: _
    rw [hstep.2, this.1]

/-- **C23.**  Starting from the state left by `lc_drbg_hash_zero`, for every sequence of requests in
which no `generate` precedes the first accepted `seed`, the replies (return codes and output bytes)
are those of SP 800-90A, and so is the state at the end. -/
theorem hash_drbg_sp800_90a (d : HashState sha512) (hok : d.h.part.length = 128) (rs : List Req)
    (hw : ∀ r ∈ rs, r.WF) (hg : Guarded false rs) (hn : rs.length < 2 ^ 64) :
    (hashRun (hashZero d) rs).2 = (Spec.apiRun Sha2.Spec.sha512 none rs).2 ∧
      ∀ w, (Spec.apiRun Sha2.Spec.sha512 none rs).1 = some w →
        (hashRun (hashZero d) rs).1.V = w.V ∧ (hashRun (hashZero d) rs).1.C = w.C ∧
        (hashRun (hashZero d) rs).1.ctr + 1 = w.ctr := by
  have h := hash_run_same sha512_implements (by rfl) (by decide) rs (hashZero d) none ⟨hok, rfl⟩ hw hg
    (by rw [show (hashZero d).ctr = 0 from rfl]; omega)
  refine ⟨h.1, ?_⟩
  intro w hw'
  have h2 := h.2
  rw [hw'] at h2
  exact ⟨h2.2.2.1, h2.2.2.2.1, h2.2.2.2.2.1⟩

/-- Requests over the limits are refused, without output and without changing the state. -/
theorem hash_drbg_limits (d : HashState S) (a : Option (List Byte)) (n o : Nat)
    (h : 2 ^ 16 < o ∨ 2 ^ 31 < n) : hashStep d (.generate a n o) = (d, -22, []) := by
  unfold hashStep hashGenerate
  have mA : maxAddtl = 2 ^ 31 := rfl
  have mR : maxRequest = 2 ^ 16 := rfl
  dsimp only
  rw [mA, mR]
  by_cases c : o > 2 ^ 16
  · rw [if_pos c]
  · rw [if_neg c, if_pos (by omega)]

/-- No other request is refused: neither the reseed interval (2^48 requests) of SP 800-90A nor a
missing seed is checked. -/
theorem hash_drbg_never_refuses (d : HashState S) (a : Option (List Byte)) (n o : Nat)
    (ho : o ≤ 2 ^ 16) (hn : n ≤ 2 ^ 31) : (hashStep d (.generate a n o)).2.1 = 0 := by
  unfold hashStep hashGenerate
  have mA : maxAddtl = 2 ^ 31 := rfl
  have mR : maxRequest = 2 ^ 16 := rfl
  dsimp only
  rw [mA, mR, if_neg (by omega), if_neg (by omega)]

/-- Without seeding, `generate` succeeds and delivers a constant that everybody can compute: the
hash chain of the all zero state. -/
theorem hash_drbg_unseeded_output (d : HashState sha512) (hok : d.h.part.length = 128) (o : Nat) (ho : o ≤ 2 ^ 16) :
    (hashStep (hashZero d) (.generate none 0 o)).2 =
      (0, Spec.hashgen Sha2.Spec.sha512 111 (List.replicate 111 0) o) := by
  have h := gen_same sha512_implements (by rfl) (by decide) { hashZero d with seeded := true }
    { V := List.replicate 111 0, C := List.replicate 111 0, ctr := 1 }
    ⟨hok, rfl, rfl, rfl, rfl, List.length_replicate, List.length_replicate⟩
    (by show 0 + 1 < 2 ^ 64; decide) none 0 o (by intro x hx; cases hx)
  have e : (hashStep (hashZero d) (.generate none 0 o)).2 =
      (hashStep { hashZero d with seeded := true } (.generate none 0 o)).2 := by
    unfold hashStep hashGenerate hashGenInternal hashgen processAddtl
    dsimp only [if_pos]
    rw [if_pos rfl]
    split
    · rfl
    · split <;> rfl
  rw [e, h.2]
  unfold Spec.api
  dsimp only
  rw [if_neg (by omega)]
  unfold Spec.generate
  dsimp only [Option.getD_none]
  rw [if_pos (show List.take 0 ([] : List Byte) = [] from rfl)]

/-- Non-vacuity: a session with seeding, requests with and without additional input, a refused
request and reseeding satisfies the hypotheses of `hash_drbg_sp800_90a`. -/
def sampleReqs : List Req :=
  [.seed (some [1, 2, 3]) (some [4]), .generate (some [5, 6]) 2 100, .generate none 0 65537,
   .seed (some [7]) none, .generate none 0 64]

example : (∀ r ∈ sampleReqs, r.WF) ∧ Guarded false sampleReqs ∧ sampleReqs.length < 2 ^ 64 := by
  refine ⟨?_, ⟨rfl, rfl, rfl, trivial⟩, by decide⟩
  intro r hr
  simp only [sampleReqs, List.mem_cons, List.not_mem_nil, or_false] at hr
  rcases hr with h | h | h | h | h <;> subst h
  · exact ⟨by decide, by decide⟩
  · intro x hx; cases hx; rfl
  · intro x hx; cases hx
  · exact ⟨by decide, by decide⟩
  · intro x hx; cases hx

end LC.Drbg
