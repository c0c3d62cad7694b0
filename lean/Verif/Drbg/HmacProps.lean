import Verif.Drbg.HmacModel
import Verif.Drbg.HmacSpec
import Verif.Drbg.HashProps
import Verif.Hmac.Props
/-
Property theorems: C24 (HMAC DRBG).
-/
namespace LC.Drbg
open StreamHash

/-- SP 800-90A seen through the `lc_rng` interface: the size limits of `lc_drbg.h`, `-EINVAL` for a
refused request (which has no effect and no output), `zero` uninstantiates. -/
def Spec.Hmac.api (M : List Byte → List Byte → List Byte) (st : Option Spec.Hmac.State) :
    Req → Option Spec.Hmac.State × Reply
  | .seed s p =>
    if (p.getD []).length > 2 ^ 31 ∨ s.getD [] = [] then (st, -22, [])
    else (some (Spec.Hmac.seedTo M 64 (s.getD []) (p.getD []) st), 0, [])
  | .generate a n o =>
    if o > 2 ^ 16 ∨ n > 2 ^ 31 then (st, -22, [])
    else
      match st with
      | some w =>
        let r := Spec.Hmac.generate M 64 w ((a.getD []).take n) o
        (some r.1, 0, r.2)
      | none => (st, -22, [])
  | .zero => (none, 0, [])

def Spec.Hmac.apiRun (M : List Byte → List Byte → List Byte) (st : Option Spec.Hmac.State) :
    List Req → Option Spec.Hmac.State × List Reply
  | [] => (st, [])
  | r :: rs => ((apiRun M (api M st r).1 rs).1, (api M st r).2 :: (apiRun M (api M st r).1 rs).2)

variable {S : StreamHash} {H : List Byte → List Byte} {maxLen : Nat} {Ok : S.Ctx → Prop}

/-- The hash is usable for the DRBG: `S` implements `H`, 64 byte digests, block size below the length limit. -/
structure HmacEnv (S : StreamHash) (H : List Byte → List Byte) (maxLen : Nat) (Ok : S.Ctx → Prop) : Prop where
  impl : Implements S H maxLen Ok
  dsize : S.dsize = 64
  block_ge : 64 ≤ S.block
  block_le : S.block ≤ 2 ^ 20
  max : 2 ^ 61 ≤ maxLen

/-- HMAC with the hash function. -/
abbrev mac (S : StreamHash) (H : List Byte → List Byte) (k m : List Byte) : List Byte :=
  LC.Hmac.Spec.hmac H S.block k m

theorem mac_length (E : HmacEnv S H maxLen Ok) (k m : List Byte) : (mac S H k m).length = 64 := by
  show (LC.Hmac.Spec.hmac H S.block k m).length = 64
  rw [LC.Hmac.hmac_length E.impl, E.dsize]

theorem drbgHmac_spec (E : HmacEnv S H maxLen Ok) {h : S.Ctx} (hok : Ok h) (key : List Byte)
    (hk : key.length = 64) (inp : List (List Byte)) (hl : inp.flatten.length < 2 ^ 60) :
    (drbgHmac h key inp).2 = mac S H key inp.flatten ∧ Ok (drbgHmac h key inp).1 := by
  have hmax := E.max
  have hb := E.block_le
  have hd := E.dsize
  have hkt : key.take hmacStateLen = key := List.take_of_length_le (by rw [hk]; exact Nat.le_refl _)
  unfold drbgHmac
  rw [hkt]
  have r := (LC.Hmac.init_rep E.impl (by rw [hd]; exact E.block_ge) h hok key (by rw [hk]; omega)).updates E.impl inp
  constructor
  · exact LC.Hmac.hmac_streaming E.impl (by rw [hd]; exact E.block_ge) (by omega) h hok key (by omega) inp (by omega)
  · exact (LC.Hmac.final_keyed E.impl r.toKeyed).ok

/-- Model and standard are in the same state. -/
def HSame (Ok : S.Ctx → Prop) (d : HmacState S) (w : Spec.Hmac.State) : Prop :=
  Ok d.h ∧ d.C = w.K ∧ d.V = w.V ∧ d.C.length = 64 ∧ d.V.length = 64

theorem hmacRound_same (E : HmacEnv S H maxLen Ok) {d : HmacState S} {w : Spec.Hmac.State} (hs : HSame Ok d w)
    (pre : Byte) (l : List (List Byte)) (hl : l.flatten.length < 2 ^ 60 - 65) :
    HSame Ok (hmacRound d pre l)
      { K := mac S H w.K (w.V ++ [pre] ++ l.flatten),
        V := mac S H (mac S H w.K (w.V ++ [pre] ++ l.flatten)) w.V } := by
  obtain ⟨hok, hC, hV, lC, lV⟩ := hs
  have a := drbgHmac_spec E hok d.C lC (d.V :: [pre] :: l) (by
    rw [List.flatten_cons, List.flatten_cons, List.length_append, List.length_append, lV]; simp only [List.length_cons, List.length_nil]; omega)
  have e : (d.V :: [pre] :: l).flatten = w.V ++ [pre] ++ l.flatten := by
    rw [List.flatten_cons, List.flatten_cons, hV, List.append_assoc]
  rw [e, hC] at a
  have k1 : (drbgHmac d.h d.C (d.V :: [pre] :: l)).2 = mac S H w.K (w.V ++ [pre] ++ l.flatten) := by
    rw [hC]; exact a.1
  have b := drbgHmac_spec E (show Ok (drbgHmac d.h d.C (d.V :: [pre] :: l)).1 by rw [hC]; exact a.2)
    (drbgHmac d.h d.C (d.V :: [pre] :: l)).2 (by rw [k1]; exact mac_length E _ _) [d.V] (by simp [lV])
  have e2 : ([d.V] : List (List Byte)).flatten = w.V := by simp [hV]
  rw [e2] at b
  unfold hmacRound
  refine ⟨b.2, k1, ?_, ?_, ?_⟩
  · dsimp only; rw [b.1, k1]
  · dsimp only; rw [k1]; exact mac_length E _ _
  · dsimp only; rw [b.1]; exact mac_length E _ _

theorem hmacUpdate_same (E : HmacEnv S H maxLen Ok) {d : HmacState S} {w : Spec.Hmac.State} (hs : HSame Ok d w)
    (hsd : d.seeded = true ∨ w.V = List.replicate 64 1)
    (seed : Option (List (List Byte))) (x : List Byte) (hx : (seed.getD []).flatten = x)
    (hn : seed = none ↔ x = []) (hl : x.length < 2 ^ 60 - 65) :
    HSame Ok (hmacUpdate d seed) (Spec.Hmac.update (mac S H) w x) ∧ (hmacUpdate d seed).seeded = d.seeded := by
  have hd' : (if d.seeded then d else { d with V := List.replicate hmacStateLen 1 }) = d := by
    cases hsd with
    | inl h => rw [if_pos h]
    | inr h =>
      split
      · rfl
      · rw [← h, ← hs.2.2.1]
  unfold hmacUpdate Spec.Hmac.update
  dsimp only
  rw [hd']
  cases seed with
  | none =>
    have h0 := hn.1 rfl
    subst h0
    have r := hmacRound_same E hs 0 [] (by simp)
    simp only [List.flatten_nil] at r
    rw [if_pos rfl]
    exact ⟨r, rfl⟩
  | some l =>
    have h0 : x ≠ [] := fun h => by have := hn.2 h; cases this
    have e : l.flatten = x := hx
    rw [if_neg h0]
    have r := hmacRound_same E hs 0 l (by rw [e]; exact hl)
    have r2 := hmacRound_same E r 1 l (by rw [e]; exact hl)
    dsimp only at r2
    rw [e] at r2
    exact ⟨r2, rfl⟩

theorem chain_length (E : HmacEnv S H maxLen Ok) (K V : List Byte) (hV : V.length = 64) (i : Nat) :
    (Spec.Hmac.chain (mac S H) K V i).length = 64 := by
  cases i with
  | zero => exact hV
  | succ i => exact mac_length E _ _

theorem hmacGenLoop_same (E : HmacEnv S H maxLen Ok) (K V0 : List Byte) (hV0 : V0.length = 64) :
    ∀ (fuel : Nat) (d : HmacState S) (i todo : Nat) (out : List Byte), todo ≤ fuel →
      HSame Ok d { K := K, V := Spec.Hmac.chain (mac S H) K V0 i } →
      HSame Ok (hmacGenLoop fuel d todo out).1
        { K := K, V := Spec.Hmac.chain (mac S H) K V0 (i + (todo + 63) / 64) } ∧
      (hmacGenLoop fuel d todo out).1.seeded = d.seeded ∧
      (hmacGenLoop fuel d todo out).2 =
        out ++ blocks (fun i => Spec.Hmac.chain (mac S H) K V0 (i + 1)) i todo := by
  have hf : ∀ i, (Spec.Hmac.chain (mac S H) K V0 (i + 1)).length = 64 := fun i => mac_length E _ _
  intro fuel
  induction fuel with
  | zero =>
    intro d i todo out h hs
    have : todo = 0 := by omega
    subst this
    refine ⟨hs, rfl, ?_⟩
    rw [blocks_zero, List.append_nil]; rfl
  | succ fuel ih =>
    intro d i todo out h hs
    by_cases h0 : todo = 0
    · subst h0
      rw [hmacGenLoop, if_pos rfl]
      refine ⟨hs, rfl, ?_⟩
      rw [blocks_zero, List.append_nil]
    · rw [hmacGenLoop, if_neg h0]
      dsimp only
      have hm : (if blockLen < todo then blockLen else todo) = min 64 todo := by
        by_cases h : blockLen < todo
        · rw [if_pos h]; have : 64 < todo := h; show 64 = _; omega
        · rw [if_neg h]; have : ¬ 64 < todo := h; omega
      obtain ⟨hok, hC, hV, lC, lV⟩ := hs
      have a := drbgHmac_spec E hok d.C lC [d.V] (by simp [lV])
      have av : (drbgHmac d.h d.C [d.V]).2 = Spec.Hmac.chain (mac S H) K V0 (i + 1) := by
        rw [a.1, hC]
        simp only [List.flatten_cons, List.flatten_nil, List.append_nil]
        rw [hV]
        rfl
      have r := ih { d with h := (drbgHmac d.h d.C [d.V]).1, V := (drbgHmac d.h d.C [d.V]).2 } (i + 1)
        (todo - min 64 todo) (out ++ (drbgHmac d.h d.C [d.V]).2.take (min 64 todo)) (by omega)
        ⟨a.2, hC, av, lC, by dsimp only; rw [av]; exact hf i⟩
      rw [hm]
      have ei : i + 1 + (todo - min 64 todo + 63) / 64 = i + (todo + 63) / 64 := by omega
      rw [ei] at r
      refine ⟨r.1, r.2.1, ?_⟩
      rw [r.2.2, av, blocks_succ (by omega) hf i todo (by omega), List.append_assoc]

/-- State relation including the seeded flag. -/
def HRel (Ok : S.Ctx → Prop) (d : HmacState S) : Option Spec.Hmac.State → Prop
  | none => Ok d.h ∧ d.seeded = false ∧ d.C = List.replicate 64 0
  | some w => HSame Ok d w ∧ d.seeded = true

theorem hmac_seed_same (E : HmacEnv S H maxLen Ok) (d : HmacState S) (st : Option Spec.Hmac.State) (hs : HRel Ok d st)
    (s p : Option (List Byte)) (hw : (Req.seed s p).WF) :
    HRel Ok (hmacStep d (.seed s p)).1 (Spec.Hmac.api (mac S H) st (.seed s p)).1 ∧
      (hmacStep d (.seed s p)).2 = (Spec.Hmac.api (mac S H) st (.seed s p)).2 := by
  obtain ⟨h1, h2⟩ := hw
  have e1 : (p.map List.length).getD 0 = (p.getD []).length := by cases p <;> rfl
  have e2 : (s.map List.length).getD 0 = (s.getD []).length := by cases s <;> rfl
  unfold hmacStep Spec.Hmac.api hmacSeed
  dsimp only
  have mA : maxAddtl = 2 ^ 31 := rfl
  rw [e1, e2, mA]
  by_cases c1 : (p.getD []).length > 2 ^ 31
  · rw [if_pos c1, if_pos (Or.inl c1)]
    exact ⟨hs, rfl⟩
  · rw [if_neg c1]
    by_cases c2 : (s.getD []).length = 0
    · rw [if_pos c2, if_pos (Or.inr (List.eq_nil_of_length_eq_zero c2))]
      exact ⟨hs, rfl⟩
    · have hsne : s.getD [] ≠ [] := by intro h; rw [h] at c2; exact c2 rfl
      rw [if_neg c2, if_neg (show ¬ ((p.getD []).length > 2 ^ 31 ∨ s.getD [] = []) by
        rintro (h | h)
        · exact c1 h
        · exact hsne h)]
      refine ⟨?_, rfl⟩
      generalize hdt : (if (p.getD []).length = 0 then [s.getD []] else [s.getD [], p.getD []]) = data
      have hfl : data.flatten = s.getD [] ++ p.getD [] := by
        rw [← hdt]
        by_cases c3 : (p.getD []).length = 0
        · rw [if_pos c3, List.eq_nil_of_length_eq_zero c3]; simp
        · rw [if_neg c3]; simp
      have hne : s.getD [] ++ p.getD [] ≠ [] := fun h => hsne (List.append_eq_nil_iff.1 h).1
      have hlen : (s.getD [] ++ p.getD []).length < 2 ^ 60 - 65 := by rw [List.length_append]; omega
      have hiff : (some data = none) ↔ s.getD [] ++ p.getD [] = [] :=
        ⟨(fun h => nomatch h), fun h => absurd h hne⟩
      cases st with
      | none =>
        obtain ⟨hok, hsd, hC⟩ := hs
        have hu : hmacUpdate d (some data) =
            hmacUpdate { d with V := List.replicate 64 1 } (some data) := by
          unfold hmacUpdate
          dsimp only
          rw [hsd, if_neg (by decide), if_neg (by decide)]
        have r := hmacUpdate_same E (d := { d with V := List.replicate 64 1 })
          (w := { K := List.replicate 64 0, V := List.replicate 64 1 })
          ⟨hok, hC, rfl, by dsimp only; rw [hC, List.length_replicate], List.length_replicate⟩ (Or.inr rfl) (some data) _ hfl hiff hlen
        rw [hu]
        exact ⟨r.1, rfl⟩
      | some w =>
        have r := hmacUpdate_same E hs.1 (Or.inl hs.2) (some data) _ hfl hiff hlen
        exact ⟨r.1, rfl⟩

theorem hmac_gen_same (E : HmacEnv S H maxLen Ok) (d : HmacState S) (w : Spec.Hmac.State) (hs : HRel Ok d (some w))
    (a : Option (List Byte)) (n o : Nat) (hw : (Req.generate a n o).WF) :
    HRel Ok (hmacStep d (.generate a n o)).1 (Spec.Hmac.api (mac S H) (some w) (.generate a n o)).1 ∧
      (hmacStep d (.generate a n o)).2 = (Spec.Hmac.api (mac S H) (some w) (.generate a n o)).2 := by
  unfold hmacStep Spec.Hmac.api hmacGenerate
  dsimp only
  have mA : maxAddtl = 2 ^ 31 := rfl
  have mR : maxRequest = 2 ^ 16 := rfl
  rw [mA, mR]
  by_cases c1 : o > 2 ^ 16
  · rw [if_pos c1, if_pos (Or.inl c1)]
    exact ⟨hs, rfl⟩
  rw [if_neg c1]
  by_cases c2 : n > 2 ^ 31
  · rw [if_pos c2, if_pos (Or.inr c2)]
    exact ⟨hs, rfl⟩
  rw [if_neg c2, if_neg (show ¬ (o > 2 ^ 16 ∨ n > 2 ^ 31) by omega)]
  have c2' : n ≤ 2 ^ 31 := by omega
  have ha : ∃ x : List Byte, x.length ≤ 2 ^ 31 ∧ (a.getD []).take n = x ∧
      ((if n = 0 then none else a) = some x ∧ x ≠ [] ∨ (if n = 0 then none else a) = none ∧ x = []) := by
    cases a with
    | none => exact ⟨[], by simp, by simp, Or.inr ⟨by simp, rfl⟩⟩
    | some x =>
      have := hw x rfl
      refine ⟨x, by omega, by rw [this]; simp, ?_⟩
      by_cases h0 : n = 0
      · right; rw [if_pos h0]; exact ⟨rfl, List.eq_nil_of_length_eq_zero (by omega)⟩
      · left; rw [if_neg h0]; refine ⟨rfl, ?_⟩
        intro e; rw [e] at this; simp at this; omega
  obtain ⟨x, hxl, hxt, hx⟩ := ha
  rw [hxt]
  generalize (if n = 0 then none else a) = ad at hx
  have hxd : ((ad.map fun x => [x]).getD []).flatten = x := by
    rcases hx with ⟨h, _⟩ | ⟨h, h'⟩
    · rw [h]; simp
    · rw [h, h']; rfl
  have hxn : (ad.map fun x => [x]) = none ↔ x = [] := by
    rcases hx with ⟨h, h'⟩ | ⟨h, h'⟩
    · rw [h]; exact ⟨(fun h => nomatch h), fun h => absurd h h'⟩
    · rw [h]; exact ⟨fun _ => h', fun _ => rfl⟩
  have hcond : (0 < (ad.getD []).length) ↔ x ≠ [] := by
    rcases hx with ⟨h, h'⟩ | ⟨h, h'⟩
    · rw [h]; exact ⟨fun _ => h', fun _ => List.length_pos_iff.2 h'⟩
    · rw [h]; exact ⟨fun h => absurd h (by decide), fun h => absurd h' h⟩
  unfold hmacGenInternal Spec.Hmac.generate
  dsimp only
  generalize hd1 : (if 0 < (ad.getD []).length then hmacUpdate d (ad.map fun x => [x]) else d) = d1
  generalize hw1 : (if x = [] then w else Spec.Hmac.update (mac S H) w x) = w1
  have s1 : HSame Ok d1 w1 ∧ d1.seeded = true := by
    rw [← hd1, ← hw1]
    by_cases c : x = []
    · rw [if_pos c, if_neg (fun h => hcond.1 h c)]; exact hs
    · rw [if_neg c, if_pos (hcond.2 c)]
      have r := hmacUpdate_same E hs.1 (Or.inl hs.2) (ad.map fun x => [x]) x hxd hxn (by omega)
      exact ⟨r.1, r.2.trans hs.2⟩
  have hV1 : w1.V.length = 64 := by rw [← s1.1.2.2.1]; exact s1.1.2.2.2.2
  have g := hmacGenLoop_same E w1.K w1.V hV1 o d1 0 o [] (Nat.le_refl _) s1.1
  rw [Nat.zero_add] at g
  have u := hmacUpdate_same E g.1 (Or.inl (g.2.1.trans s1.2)) (ad.map fun x => [x]) x hxd hxn (by omega)
  refine ⟨⟨?_, ?_⟩, ?_⟩
  · exact u.1
  · exact u.2.trans (g.2.1.trans s1.2)
  · refine congrArg (fun y => ((0 : Int), y)) ?_
    rw [g.2.2, List.nil_append]
    unfold blocks
    congr 2
    funext k
    rw [Nat.zero_add]

theorem hmac_run_same (E : HmacEnv S H maxLen Ok) :
    ∀ (rs : List Req) (d : HmacState S) (st : Option Spec.Hmac.State), HRel Ok d st → (∀ r ∈ rs, r.WF) →
      Guarded st.isSome rs →
      (hmacRun d rs).2 = (Spec.Hmac.apiRun (mac S H) st rs).2 ∧
        HRel Ok (hmacRun d rs).1 (Spec.Hmac.apiRun (mac S H) st rs).1 := by
  intro rs
  induction rs with
  | nil => intro d st hs _ _; exact ⟨rfl, hs⟩
  | cons r rs ih =>
    intro d st hs hw hg
    have hstep : HRel Ok (hmacStep d r).1 (Spec.Hmac.api (mac S H) st r).1 ∧
        (hmacStep d r).2 = (Spec.Hmac.api (mac S H) st r).2 := by
      cases r with
      | seed s p => exact hmac_seed_same E d st hs s p (hw _ (List.mem_cons_self ..))
      | zero =>
        refine ⟨⟨?_, rfl, rfl⟩, rfl⟩
        cases st with
        | none => exact hs.1
        | some w => exact hs.1.1
      | generate a n o =>
        cases st with
        | none => exact absurd hg.1 (by decide)
        | some w => exact hmac_gen_same E d w hs a n o (hw _ (List.mem_cons_self ..))
    have hg' : Guarded (Spec.Hmac.api (mac S H) st r).1.isSome rs := by
      cases r with
      | zero => exact hg
      | seed s p =>
        unfold Guarded at hg
        by_cases c : (p.getD []).length > 2 ^ 31 ∨ s.getD [] = []
        · have e : (Spec.Hmac.api (mac S H) st (.seed s p)).1 = st := by
            unfold Spec.Hmac.api; dsimp only; rw [if_pos c]
          rw [e]
          simpa [c] using hg
        · have e : (Spec.Hmac.api (mac S H) st (.seed s p)).1.isSome = true := by
            unfold Spec.Hmac.api; dsimp only; rw [if_neg c]; rfl
          rw [e]
          have : decide (¬ ((p.getD []).length > 2 ^ 31 ∨ s.getD [] = [])) = true := decide_eq_true c
          rw [this, Bool.or_true] at hg
          exact hg
      | generate a n o =>
        have e : (Spec.Hmac.api (mac S H) st (.generate a n o)).1.isSome = st.isSome := by
          unfold Spec.Hmac.api
          cases st with
          | none => dsimp only; split <;> rfl
          | some w => dsimp only; split <;> rfl
        rw [e]
        exact hg.2
    have := ih (hmacStep d r).1 (Spec.Hmac.api (mac S H) st r).1 hstep.1
      (fun x hx => hw x (List.mem_cons_of_mem _ hx)) hg'
    refine ⟨?_, this.2⟩
    show (hmacStep d r).2 :: _ = (Spec.Hmac.api (mac S H) st r).2 :: _
    rw [hstep.2, this.1]

theorem env_hmac_sha512 : HmacEnv sha512 Sha2.Spec.sha512 (2 ^ 61) (fun c => c.part.length = 128) where
  impl := sha512_implements
  dsize := rfl
  block_ge := by decide
  block_le := by decide
  max := Nat.le_refl _

/-- **C24.**  Starting from the state left by `lc_drbg_hmac_zero`, for every sequence of requests in
which no `generate` precedes the first accepted `seed`, the replies (return codes and output bytes)
are those of SP 800-90A HMAC_DRBG with HMAC-SHA-512, and so are `Key` and `V` at the end. -/
theorem hmac_drbg_sp800_90a (d : HmacState sha512) (hok : d.h.part.length = 128) (rs : List Req)
    (hw : ∀ r ∈ rs, r.WF) (hg : Guarded false rs) :
    (hmacRun (hmacZero d) rs).2 = (Spec.Hmac.apiRun (LC.Hmac.Spec.hmac Sha2.Spec.sha512 128) none rs).2 ∧
      ∀ w, (Spec.Hmac.apiRun (LC.Hmac.Spec.hmac Sha2.Spec.sha512 128) none rs).1 = some w →
        (hmacRun (hmacZero d) rs).1.C = w.K ∧ (hmacRun (hmacZero d) rs).1.V = w.V := by
  have h := hmac_run_same env_hmac_sha512 rs (hmacZero d) none ⟨hok, rfl, rfl⟩ hw hg
  refine ⟨h.1, ?_⟩
  intro w hw'
  have h2 := h.2
  have hw2 : (Spec.Hmac.apiRun (mac sha512 Sha2.Spec.sha512) none rs).1 = some w := hw'
  rw [hw2] at h2
  exact ⟨h2.1.2.1, h2.1.2.2.1⟩

/-- Requests over the limits are refused, without output and without changing the state. -/
theorem hmac_drbg_limits (d : HmacState S) (a : Option (List Byte)) (n o : Nat)
    (h : 2 ^ 16 < o ∨ 2 ^ 31 < n) : hmacStep d (.generate a n o) = (d, -22, []) := by
  unfold hmacStep hmacGenerate
  have mA : maxAddtl = 2 ^ 31 := rfl
  have mR : maxRequest = 2 ^ 16 := rfl
  dsimp only
  rw [mA, mR]
  by_cases c : o > 2 ^ 16
  · rw [if_pos c]
  · rw [if_neg c, if_pos (by omega)]

/-- No other request is refused: neither the reseed interval of SP 800-90A nor a missing seed is
checked. -/
theorem hmac_drbg_never_refuses (d : HmacState S) (a : Option (List Byte)) (n o : Nat)
    (ho : o ≤ 2 ^ 16) (hn : n ≤ 2 ^ 31) : (hmacStep d (.generate a n o)).2.1 = 0 := by
  unfold hmacStep hmacGenerate
  have mA : maxAddtl = 2 ^ 31 := rfl
  have mR : maxRequest = 2 ^ 16 := rfl
  dsimp only
  rw [mA, mR, if_neg (by omega), if_neg (by omega)]

/-- Without seeding, `generate` succeeds and delivers a constant that everybody can compute: the
MAC chain of the all zero state. -/
theorem hmac_drbg_unseeded_output (d : HmacState sha512) (hok : d.h.part.length = 128) (o : Nat) (ho : o ≤ 2 ^ 16) :
    (hmacStep (hmacZero d) (.generate none 0 o)).2 =
      (0, ((List.range o).flatMap fun i =>
        Spec.Hmac.chain (LC.Hmac.Spec.hmac Sha2.Spec.sha512 128) (List.replicate 64 0) (List.replicate 64 0) (i + 1)).take o) := by
  have g := hmacGenLoop_same env_hmac_sha512 (List.replicate 64 0) (List.replicate 64 0) List.length_replicate o
    (hmacZero d) 0 o [] (Nat.le_refl _) ⟨hok, rfl, rfl, List.length_replicate, List.length_replicate⟩
  unfold hmacStep hmacGenerate
  have mA : maxAddtl = 2 ^ 31 := rfl
  have mR : maxRequest = 2 ^ 16 := rfl
  dsimp only
  rw [mA, mR, if_neg (by omega), if_neg (by omega), if_pos rfl]
  unfold hmacGenInternal
  refine congrArg (fun y => ((0 : Int), y)) ?_
  dsimp only
  rw [if_neg (show ¬ 0 < ((none : Option (List Byte)).getD []).length by decide), g.2.2, List.nil_append]
  unfold blocks
  congr 2
  funext k
  rw [Nat.zero_add]
  rfl

example : (∀ r ∈ sampleReqs, r.WF) ∧ Guarded false sampleReqs := by
  refine ⟨?_, ⟨rfl, rfl, rfl, trivial⟩⟩
  intro r hr
  simp only [sampleReqs, List.mem_cons, List.not_mem_nil, or_false] at hr
  rcases hr with h | h | h | h | h <;> subst h
  · exact ⟨by decide, by decide⟩
  · intro x hx; cases hx; rfl
  · intro x hx; cases hx
  · exact ⟨by decide, by decide⟩
  · intro x hx; cases hx

end LC.Drbg
