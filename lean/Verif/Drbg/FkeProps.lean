import Verif.Drbg.FkeModel
import Verif.Drbg.FkeSpec
import Verif.Kmac.Props
/-
Property theorems of the cSHAKE DRNG and the KMAC DRNG: C107 to C112.
-/
namespace LC.Drbg.Fke

/-! ### The calls on a transient context -/

/-- The calls compute the functions of the specification, for the numbers of bytes that are written. -/
structure Computes (A : Alg) (F : Spec.Fns) (ok : Nat → Prop) : Prop where
  gen : ∀ (k : List Byte) (upd : List (List Byte)) (todo : Nat), k.length ≤ 64 → upd.flatten.length < 2 ^ 63 → ok todo →
    A.gen k upd todo = ((F.gen k upd.flatten (64 + todo)).take 64, some ((F.gen k upd.flatten (64 + todo)).drop 64))
  seed : ∀ (k : List Byte) (upd : List (List Byte)), k.length ≤ 64 → upd.flatten.length < 2 ^ 63 → A.seed k upd = F.seed k upd.flatten 64
  lenS : ∀ k x l, (F.seed k x l).length = l
  lenG : ∀ k x l, (F.gen k x l).length = l
  pre : ∀ k x m n, m ≤ n → (F.gen k x n).take m = F.gen k x m

theorem cshake_length (p : List Byte → List Byte) (r : Nat) (x : List Byte) (l : Nat) (n s : List Byte) : (Kmac.Spec.cshake p r x l n s).length = l := by
  unfold Kmac.Spec.cshake Sponge.Spec.sponge
  split <;> rw [List.length_map, List.length_range]

theorem cshake_take (p : List Byte → List Byte) (r : Nat) (x : List Byte) (m l : Nat) (h : m ≤ l) (n s : List Byte) :
    (Kmac.Spec.cshake p r x l n s).take m = Kmac.Spec.cshake p r x m n s := by
  unfold Kmac.Spec.cshake Sponge.Spec.sponge
  split <;> rw [← List.map_take, List.take_range, Nat.min_eq_left h]

theorem two_parts {o : List (List Byte)} {a b : List Byte} {R : List Byte} {n : Nat} (ho : o = [a, b]) (h1 : o.flatten = R) (h2 : o.map List.length = [64, n]) :
    a = R.take 64 ∧ b = R.drop 64 := by
  subst ho
  simp only [List.map_cons, List.map_nil, List.cons.injEq, and_true] at h2
  simp only [List.flatten_cons, List.flatten_nil, List.append_nil] at h1
  rw [← h1, ← h2.1]
  exact ⟨List.take_left.symm, List.drop_left.symm⟩

theorem perm_eq : perm = Sponge.Spec.keccakBytes := Sponge.keccakpBytes_eq_fips

theorem cSeed_ascii : cSeedName = Spec.ascii "cSHAKE-DRNG seed" := by decide
theorem cGen_ascii : cGenName = Spec.ascii "cSHAKE-DRNG generate" := by decide
theorem kSeed_ascii : kSeedName = Spec.ascii "KMAC-DRNG seed" := by decide
theorem kGen_ascii : kGenName = Spec.ascii "KMAC-DRNG generate" := by decide

theorem cshake_computes : Computes cshakeAlg (Spec.cshakeFns Sponge.Spec.keccakBytes) (fun _ => True) where
  gen k upd todo hk hl _ := by
    have h := Kmac.cshake_streaming perm (fun s _ => Sponge.keccakpBytes_length s) 136 (by decide) (by decide) cGenName k upd (by decide) (by omega) hl [64, todo]
    obtain ⟨e1, e2⟩ := two_parts (a := _) (b := _) rfl h.1 h.2
    unfold Spec.cshakeFns
    dsimp only
    rw [← cGen_ascii, ← perm_eq, ← show [64, todo].sum = 64 + todo from by simp]
    exact Prod.ext e1 (congrArg some e2)
  seed k upd hk hl := by
    have h := Kmac.cshake_streaming perm (fun s _ => Sponge.keccakpBytes_length s) 136 (by decide) (by decide) cSeedName k upd (by decide) (by omega) hl [64]
    have e : (cshakeAlg.seed k upd) ++ [] = _ := h.1
    rw [List.append_nil] at e
    rw [e]
    unfold Spec.cshakeFns
    rw [← cSeed_ascii]
    rw [← perm_eq]
    rfl
  lenS k x l := by unfold Spec.cshakeFns; dsimp only; exact cshake_length _ _ _ _ _ _
  lenG k x l := by unfold Spec.cshakeFns; dsimp only; exact cshake_length _ _ _ _ _ _
  pre k x m n h := by unfold Spec.cshakeFns; dsimp only; exact cshake_take _ _ _ _ _ h _ _

theorem kmac_computes : Computes kmacAlg (Spec.kmacFns Sponge.Spec.keccakBytes) (fun n => 4 ≤ n) where
  gen k upd todo hk hl ho := by
    obtain ⟨outs, h1, h2, h3⟩ := Kmac.kmac_xof_streaming perm (fun s _ => Sponge.keccakpBytes_length s) 136 (by decide) (by decide) false k kGenName upd [64, todo]
      (by omega) (by decide) hl (fun d hd => by
        simp only [List.mem_cons, List.not_mem_nil, or_false] at hd
        omega)
    have hsum : [64, todo].sum = 64 + todo := by simp
    rw [hsum] at h3
    match outs, h1, h2, h3 with
    | [a, b], h1, h2, h3 =>
      obtain ⟨e1, e2⟩ := two_parts (a := a) (b := b) rfl h3 h2
      have g : [(Kmac.finalXof perm (upd.foldl (Kmac.update perm) (Kmac.init perm 136 false k kGenName)) 64).2, (kmacAlg.gen k upd todo).2] = [some a, some b] := h1
      simp only [List.cons.injEq, and_true] at g
      have g1 : (kmacAlg.gen k upd todo).1 = a := by
        unfold kmacAlg
        dsimp only
        rw [g.1]
        rfl
      refine Prod.ext ?_ ?_
      · rw [g1, e1]
        unfold Spec.kmacFns
        dsimp only
        rw [← kGen_ascii, ← perm_eq]
      · rw [g.2, e2]
        unfold Spec.kmacFns
        dsimp only
        rw [← kGen_ascii, ← perm_eq]
    | [], h1, h2, _ => simp at h2
    | [_], h1, h2, _ => simp at h2
    | _ :: _ :: _ :: _, h1, h2, _ => simp at h2
  seed k upd hk hl := by
    obtain ⟨outs, h1, h2, h3⟩ := Kmac.kmac_xof_streaming perm (fun s _ => Sponge.keccakpBytes_length s) 136 (by decide) (by decide) false k kSeedName upd [64]
      (by omega) (by decide) hl (fun d hd => by
        simp only [List.mem_cons, List.not_mem_nil, or_false] at hd
        omega)
    match outs, h1, h2, h3 with
    | [a], h1, h2, h3 =>
      have g : [(Kmac.finalXof perm (upd.foldl (Kmac.update perm) (Kmac.init perm 136 false k kSeedName)) 64).2] = [some a] := h1
      simp only [List.cons.injEq, and_true] at g
      have g1 : kmacAlg.seed k upd = a := by
        unfold kmacAlg
        dsimp only
        rw [g]
        rfl
      simp only [List.flatten_cons, List.flatten_nil, List.append_nil] at h3
      rw [g1, h3]
      unfold Spec.kmacFns
      rw [← kSeed_ascii]
      rw [← perm_eq]
      rfl
    | [], h1, h2, _ => simp at h2
    | _ :: _ :: _, h1, h2, _ => simp at h2
  lenS k x l := by unfold Spec.kmacFns Kmac.Spec.kmacXof; dsimp only; exact cshake_length _ _ _ _ _ _
  lenG k x l := by unfold Spec.kmacFns Kmac.Spec.kmacXof; dsimp only; exact cshake_length _ _ _ _ _ _
  pre k x m n h := by unfold Spec.kmacFns Kmac.Spec.kmacXof; dsimp only; exact cshake_take _ _ _ _ _ h _ _

/-! ### One request -/

theorem encode_eq (n : Nat) (a : List Byte) (ha : a.length ≤ 84) : (encode n a).flatten = Spec.encode n a := by
  unfold encode Spec.encode
  rw [if_neg (by omega)]
  dsimp only
  rw [List.take_length]
  rfl

theorem encode_len (n : Nat) (a : List Byte) : (encode n a).flatten.length ≤ 85 := by
  unfold encode
  dsimp only
  simp only [List.flatten_cons, List.flatten_nil, List.length_append, List.length_take, List.length_cons, List.length_nil]
  split <;> omega

section
variable {A : Alg} {F : Spec.Fns} {ok : Nat → Prop}

theorem one_len (hc : Computes A F ok) (k a : List Byte) (n : Nat) : (Spec.one F k a n).1.length = 64 ∧ (Spec.one F k a n).2.length = n := by
  unfold Spec.one
  dsimp only
  rw [List.length_take, List.length_drop, hc.lenG]
  omega

theorem one_short (hc : Computes A F ok) (k a : List Byte) (m n : Nat) (h : m ≤ n) :
    (Spec.one F k a m).1 = (Spec.one F k a n).1 ∧ (Spec.one F k a m).2 = (Spec.one F k a n).2.take m := by
  unfold Spec.one
  dsimp only
  rw [hc.pre k _ 64 (64 + m) (by omega), hc.pre k _ 64 (64 + n) (by omega), ← hc.pre k _ (64 + m) (64 + n) (by omega)]
  refine ⟨rfl, ?_⟩
  rw [List.drop_take, Nat.add_sub_cancel_left]

theorem arb_zero (k a : List Byte) (B : Nat) (hB : 0 < B) : Spec.arbitrary F k a B 0 = (k, []) := by
  unfold Spec.arbitrary
  rw [show (0 + B - 1) / B = 0 from Nat.div_eq_of_lt (by omega)]
  rfl

theorem arb_full (hc : Computes A F ok) (k a : List Byte) (B n : Nat) (hB : 0 < B) (hn : B ≤ n) : Spec.arbitrary F k a B n =
    ((Spec.arbitrary F (Spec.one F k a B).1 a B (n - B)).1, (Spec.one F k a B).2 ++ (Spec.arbitrary F (Spec.one F k a B).1 a B (n - B)).2) := by
  unfold Spec.arbitrary
  have e : (n + B - 1) / B = (n - B + B - 1) / B + 1 := by
    rw [show n + B - 1 = (n - B + B - 1) + B from by omega, Nat.add_div_right _ hB]
  rw [e, Spec.blocks]
  dsimp only
  have hl := (one_len hc k a B).2
  rw [List.take_append, hl, List.take_of_length_le (by omega)]

theorem arb_part (hc : Computes A F ok) (k a : List Byte) (B n : Nat) (h0 : 0 < n) (hn : n < B) : Spec.arbitrary F k a B n = Spec.one F k a n := by
  unfold Spec.arbitrary
  have e : (n + B - 1) / B = 0 + 1 := by
    rw [show n + B - 1 = (n - 1) + B from by omega, Nat.add_div_right _ (by omega), Nat.div_eq_of_lt (by omega)]
  rw [e]
  simp only [Spec.blocks, List.append_nil]
  obtain ⟨h1, h2⟩ := one_short hc k a n B (by omega)
  rw [← h1, ← h2]

/-- All pieces of a request are written. -/
def Fits (ok : Nat → Prop) (n : Nat) : Prop := ok chunk ∧ (n % chunk = 0 ∨ ok (n % chunk))

theorem gen_one (hc : Computes A F ok) (k a : List Byte) (hk : k.length ≤ 64) (ha : a.length ≤ 84) (n : Nat) (ho : ok n) :
    A.gen k (encode 2 a) n = ((Spec.one F k a n).1, some (Spec.one F k a n).2) := by
  have := encode_len 2 a
  rw [hc.gen k _ n hk (by omega) ho, encode_eq 2 a ha]
  rfl

theorem genLoop_eq (hc : Computes A F ok) (a : List Byte) (ha : a.length ≤ 84) : ∀ (fuel : Nat) (s : State) (n : Nat) (out : List (Option Byte)),
    n ≤ fuel → s.key.length = 64 → Fits ok n →
    genLoop A a fuel s n out = ({ s with key := (Spec.arbitrary F s.key a chunk n).1 }, out ++ (Spec.arbitrary F s.key a chunk n).2.map some) ∧
    (Spec.arbitrary F s.key a chunk n).1.length = 64 ∧ (Spec.arbitrary F s.key a chunk n).2.length = n := by
  have hcp : 0 < chunk := by decide
  intro fuel
  induction fuel with
  | zero =>
    intro s n out hn hk hf
    have : n = 0 := by omega
    subst this
    rw [arb_zero _ _ _ hcp]
    refine ⟨?_, hk, rfl⟩
    unfold genLoop
    rw [List.map_nil, List.append_nil]
  | succ fuel ih =>
    intro s n out hn hk hf
    unfold genLoop
    by_cases h0 : n = 0
    · subst h0
      rw [arb_zero _ _ _ hcp, if_pos rfl, List.map_nil, List.append_nil]
      exact ⟨rfl, hk, rfl⟩
    · rw [if_neg h0]
      by_cases hlt : n < chunk
      · rw [if_pos hlt, arb_part hc _ _ _ _ (by omega) hlt]
        have hok : ok n := by
          have := hf.2
          rw [Nat.mod_eq_of_lt hlt] at this
          exact this.resolve_left h0
        have hl := one_len hc s.key a n
        dsimp only
        rw [gen_one hc s.key a (by omega) ha n hok, Nat.sub_self]
        refine ⟨?_, hl⟩
        have := ih { s with key := (Spec.one F s.key a n).1 } 0 (out ++ written n (some (Spec.one F s.key a n).2)) (by omega) hl.1 ⟨hf.1, .inl rfl⟩
        rw [this.1, arb_zero _ _ _ hcp, List.map_nil, List.append_nil]
        rfl
      · rw [if_neg hlt, arb_full hc _ _ _ _ hcp (by omega)]
        have hl := one_len hc s.key a chunk
        dsimp only
        rw [gen_one hc s.key a (by omega) ha chunk hf.1]
        have := ih { s with key := (Spec.one F s.key a chunk).1 } (n - chunk) (out ++ written chunk (some (Spec.one F s.key a chunk).2)) (by omega) hl.1
          ⟨hf.1, by rw [← Nat.mod_eq_sub_mod (by omega)]; exact hf.2⟩
        refine ⟨?_, this.2.1, ?_⟩
        · rw [this.1, List.map_append, List.append_assoc]
          rfl
        · rw [List.length_append, hl.2, this.2.2]
          omega

/-! ### Request sequences -/

/-- The specification behind the `lc_rng` interface: `none` before the first seeding. -/
def Spec.api (F : Spec.Fns) (K0 : List Byte) (B : Nat) (st : Option (List Byte)) : Req → Option (List Byte) × Reply
  | .seed s a =>
    (match st with
     | none => some (Spec.seeding F 0 K0 s a)
     | some k => some (Spec.seeding F 1 k s a), 0, [])
  | .generate a n =>
    match st with
    | none => (none, -1, [])
    | some k => (some (Spec.arbitrary F k a B n).1, 0, (Spec.arbitrary F k a B n).2.map some)
  | .zero => (none, 0, [])

def Spec.apiRun (F : Spec.Fns) (K0 : List Byte) (B : Nat) (st : Option (List Byte)) : List Req → Option (List Byte) × List Reply
  | [] => (st, [])
  | r :: rs => ((Spec.apiRun F K0 B (Spec.api F K0 B st r).1 rs).1, (Spec.api F K0 B st r).2 :: (Spec.apiRun F K0 B (Spec.api F K0 B st r).1 rs).2)

/-- Additional inputs and personalization strings of at most 84 bytes, seeds below 2^62 bytes. -/
def Req.WF : Req → Prop
  | .seed s a => s.length < 2 ^ 62 ∧ a.length ≤ 84
  | .generate a _ => a.length ≤ 84
  | .zero => True

/-- The output lengths are written completely. -/
def Req.Fits (ok : Nat → Prop) : Req → Prop
  | .generate _ n => Fke.Fits ok n
  | _ => True

/-- Every `generate` comes after a `seed` (and no `zero` in between). -/
def Guarded : Bool → List Req → Prop
  | _, [] => True
  | _, .seed _ _ :: rs => Guarded true rs
  | b, .generate _ _ :: rs => b = true ∧ Guarded b rs
  | _, .zero :: rs => Guarded false rs

/-- Model and specification are in the same state. -/
def Same (s : State) : Option (List Byte) → Prop
  | none => s.seeded = false
  | some k => s.seeded = true ∧ s.key = k ∧ k.length = 64

theorem seed_eq (hc : Computes A F ok) (s : State) (st : Option (List Byte)) (hs : Same s st) (sd a : List Byte) (hl : sd.length < 2 ^ 62) (ha : a.length ≤ 84) (B : Nat) :
    Same (seed A s sd a) (Spec.api F [] B st (.seed sd a)).1 := by
  have he : ∀ n, (sd :: encode n a).flatten = sd ++ Spec.encode n a := fun n => by
    rw [List.flatten_cons, encode_eq n a ha]
  have hlen : ∀ n, (sd :: encode n a).flatten.length < 2 ^ 63 := fun n => by
    have := encode_len n a
    rw [List.flatten_cons, List.length_append]
    omega
  cases st with
  | none =>
    have h0 : s.seeded = false := hs
    refine ⟨rfl, ?_, hc.lenS _ _ _⟩
    unfold seed
    rw [h0]
    dsimp only
    rw [if_neg (by decide), if_neg (by decide), hc.seed _ _ (by decide) (hlen 0), he]
    rfl
  | some k =>
    obtain ⟨h0, h1, h2⟩ := hs
    refine ⟨rfl, ?_, hc.lenS _ _ _⟩
    unfold seed
    rw [h0]
    dsimp only
    rw [if_pos rfl, if_pos rfl, hc.seed _ _ (by rw [h1]; omega) (hlen 1), he, h1]
    rfl

theorem run_same (hc : Computes A F ok) : ∀ (rs : List Req) (s : State) (st : Option (List Byte)), Same s st → (∀ r ∈ rs, r.WF ∧ r.Fits ok) →
    Guarded st.isSome rs →
    (run A s rs).2 = (Spec.apiRun F [] chunk st rs).2 ∧ Same (run A s rs).1 (Spec.apiRun F [] chunk st rs).1 := by
  intro rs
  induction rs with
  | nil => intro s st hs _ _; exact ⟨rfl, hs⟩
  | cons r rs ih =>
    intro s st hs hw hg
    have hstep : Same (step A s r).1 (Spec.api F [] chunk st r).1 ∧ (step A s r).2 = (Spec.api F [] chunk st r).2 ∧
        Guarded (Spec.api F [] chunk st r).1.isSome rs := by
      have hr := hw r List.mem_cons_self
      cases r with
      | zero => exact ⟨rfl, rfl, hg⟩
      | seed sd a => exact ⟨seed_eq hc s st hs sd a hr.1.1 hr.1.2 chunk, rfl, by cases st <;> exact hg⟩
      | generate a n =>
        cases st with
        | none => exact absurd hg.1 (by decide)
        | some k =>
          obtain ⟨h0, rfl, h2⟩ := hs
          have g := genLoop_eq hc a hr.1 n s n [] (Nat.le_refl _) h2 hr.2
          have g1 : generate A s a n = _ := g.1
          refine ⟨?_, ?_, hg.2⟩
          · show Same (generate A s a n).1 _
            rw [g1]
            exact ⟨h0, rfl, g.2.1⟩
          · show ((0 : Int), (generate A s a n).2) = _
            rw [g1]
            rfl
    have := ih (step A s r).1 (Spec.api F [] chunk st r).1 hstep.1 (fun x hx => hw x (List.mem_cons_of_mem _ hx)) hstep.2.2
    refine ⟨?_, this.2⟩
    show (step A s r).2 :: _ = (Spec.api F [] chunk st r).2 :: _
    rw [hstep.2.1, this.1]

end

/-! ### C107 -/

/-- C107: the cSHAKE DRNG follows the specification in its source for every sequence of requests (additional inputs of at most 84 bytes, no
output before the first seed): return codes, outputs, and the key that is kept.  The key before the first seeding is the empty string and a block
has 208 bytes. -/
theorem c107_cshake_drng (rs : List Req) (hw : ∀ r ∈ rs, r.WF) (hg : Guarded false rs) :
    (run cshakeAlg zero rs).2 = (Spec.apiRun (Spec.cshakeFns Sponge.Spec.keccakBytes) [] 208 none rs).2 ∧
    ∀ k, (Spec.apiRun (Spec.cshakeFns Sponge.Spec.keccakBytes) [] 208 none rs).1 = some k → (run cshakeAlg zero rs).1.key = k := by
  have h := run_same cshake_computes rs zero none rfl (fun r hr => ⟨hw r hr, by
    cases r
    · trivial
    · exact ⟨trivial, .inr trivial⟩
    · trivial⟩) hg
  refine ⟨h.1, fun k hk => ?_⟩
  have h2 := h.2
  rw [show Spec.apiRun (Spec.cshakeFns Sponge.Spec.keccakBytes) [] chunk none rs = Spec.apiRun (Spec.cshakeFns Sponge.Spec.keccakBytes) [] 208 none rs from rfl, hk] at h2
  exact h2.2.1

/-- The requests of the self tests, `cshake_drng.c:293-342`, `kmac_drng.c:240-289`, with a reseed and another output. -/
def selfReqs : List Req := [.seed [0, 1, 2, 3, 4, 5, 6, 7, 8] [], .generate [] 306, .seed [9] [1, 2], .generate [3] 208]

theorem selfReqs_wf : (∀ r ∈ selfReqs, r.WF) ∧ Guarded false selfReqs := by
  refine ⟨?_, ⟨rfl, rfl, trivial⟩⟩
  intro r hr
  simp only [selfReqs, List.mem_cons, List.not_mem_nil, or_false] at hr
  rcases hr with rfl | rfl | rfl | rfl
  · exact ⟨by decide, by decide⟩
  · exact Nat.zero_le _
  · exact ⟨by decide, by decide⟩
  · exact (by decide : [(3 : Byte)].length ≤ 84)

/-- The hypotheses of C107 hold for them. -/
example : ∃ rs, (∀ r ∈ rs, r.WF) ∧ Guarded false rs ∧ rs.length = 4 := ⟨selfReqs, selfReqs_wf.1, selfReqs_wf.2, rfl⟩

/- The model returns the bytes that the self test expects (an evaluation, not a theorem). -/
#guard ((run cshakeAlg zero selfReqs).2.map (·.2)).getD 1 [] == (
    [0xf8, 0x1c, 0xba, 0x42, 0x6c, 0x6f, 0xd1, 0x04, 0xd2, 0x30, 0x2f, 0x33, 0x16, 0x2e, 0xea, 0xfe, 0xf6, 0xcc, 0x1a, 0x61, 0x31, 0x97,
      0xac, 0x65, 0xc2, 0x30, 0xe7, 0x0b, 0xe7, 0xe1, 0xf1, 0xc0, 0xc8, 0x2c, 0x5a, 0x08, 0xbc, 0xd9, 0x53, 0x12, 0x9f, 0x1b, 0x21, 0x3f,
      0xf9, 0x9f, 0x72, 0xb7, 0x76, 0x56, 0x81, 0xf5, 0x6f, 0x2b, 0xf5, 0x35, 0x6c, 0x9d, 0x0f, 0x0e, 0xd3, 0xd6, 0x7e, 0xdb, 0xf5, 0x03,
      0xbe, 0x33, 0x66, 0x2b, 0xb8, 0x23, 0xc3, 0xd9, 0x6f, 0xe7, 0xf6, 0xf9, 0xf8, 0xb8, 0x31, 0x86, 0x70, 0x0c, 0xe4, 0x4f, 0xcb, 0xb2,
      0x8e, 0xc3, 0x98, 0xbf, 0xd2, 0x59, 0xbf, 0x85, 0xc6, 0x2c, 0x63, 0x5c, 0x29, 0x98, 0xe6, 0x36, 0x25, 0xc7, 0x33, 0x1d, 0xb0, 0xae,
      0x0c, 0x28, 0x83, 0x78, 0x22, 0x95, 0xe9, 0x26, 0x09, 0xf5, 0x33, 0xd5, 0x56, 0x19, 0x84, 0xa5, 0x93, 0x83, 0x0d, 0xfc, 0x3b, 0x90,
      0x16, 0x80, 0x87, 0x6c, 0x3e, 0xc5, 0xd2, 0xca, 0x62, 0x08, 0x9a, 0x9c, 0x0a, 0x90, 0x0f, 0xf3, 0x11, 0x24, 0x75, 0x75, 0x0d, 0x37,
      0xdd, 0x37, 0x77, 0x7b, 0x09, 0x5b, 0x76, 0x6e, 0xc6, 0xc2, 0xd9, 0x83, 0x73, 0x85, 0xfe, 0x5a, 0xef, 0x36, 0xed, 0x50, 0x07, 0x42,
      0x99, 0x51, 0x54, 0x78, 0xa9, 0xc6, 0x7d, 0xec, 0xd7, 0x60, 0xb1, 0xb1, 0xed, 0x7f, 0x4f, 0xf6, 0x9f, 0x12, 0x70, 0xd7, 0xb1, 0x2e,
      0x11, 0x55, 0x0d, 0xd7, 0x04, 0xa1, 0xb1, 0x7a, 0x40, 0x33, 0x71, 0x41, 0xc2, 0x04, 0x4c, 0x79, 0xfb, 0xd8, 0x5a, 0xd9, 0x29, 0x3c,
      0x83, 0xbd, 0xcc, 0xd3, 0x0b, 0xe0, 0x2b, 0x8e, 0xd8, 0x2f, 0x65, 0x65, 0xea, 0xed, 0xf0, 0x01, 0xa2, 0xd2, 0xe4, 0x5c, 0x6b, 0xb2,
      0x3e, 0x54, 0xfe, 0xde, 0xd1, 0x70, 0x0d, 0xeb, 0x3c, 0x7f, 0xf1, 0x56, 0x31, 0xe6, 0xff, 0x5e, 0xfa, 0x0d, 0xd3, 0x55, 0x93, 0x9e,
      0xef, 0xa7, 0x71, 0xda, 0xa9, 0x22, 0xd6, 0xab, 0x02, 0xa4, 0xeb, 0x0a, 0x2e, 0x07, 0x71, 0x8d, 0x38, 0x5e, 0x67, 0xb7, 0x3e, 0xe9,
      0x0b, 0xe9, 0x6e, 0x0a, 0xb5, 0x9c, 0xeb, 0x54, 0x87, 0x28, 0x72, 0xc1, 0x8a, 0xd3, 0xd2, 0x8f, 0x03, 0x27, 0x0a, 0xb9] : List Byte).map some

/-! ### C108 -/

/-- C108: the KMAC DRNG follows the specification in its source for every sequence of requests.  Proved as C107, if no request ends with a block
of one to three bytes; for these it is false, `c109_negation`. -/
theorem c108_kmac_drng_partial (rs : List Req) (hw : ∀ r ∈ rs, r.WF) (ho : ∀ a n, Req.generate a n ∈ rs → n % 208 = 0 ∨ 4 ≤ n % 208) (hg : Guarded false rs) :
    (run kmacAlg zero rs).2 = (Spec.apiRun (Spec.kmacFns Sponge.Spec.keccakBytes) [] 208 none rs).2 ∧
    ∀ k, (Spec.apiRun (Spec.kmacFns Sponge.Spec.keccakBytes) [] 208 none rs).1 = some k → (run kmacAlg zero rs).1.key = k := by
  have h := run_same kmac_computes rs zero none rfl (fun r hr => ⟨hw r hr, by
    cases r with
    | seed s a => trivial
    | generate a n => exact ⟨by decide, ho a n hr⟩
    | zero => trivial⟩) hg
  refine ⟨h.1, fun k hk => ?_⟩
  have h2 := h.2
  rw [show Spec.apiRun (Spec.kmacFns Sponge.Spec.keccakBytes) [] chunk none rs = Spec.apiRun (Spec.kmacFns Sponge.Spec.keccakBytes) [] 208 none rs from rfl, hk] at h2
  exact h2.2.1

/-- The hypotheses of C108 hold for the requests of the self test. -/
example : ∃ rs, (∀ r ∈ rs, r.WF) ∧ (∀ a n, Req.generate a n ∈ rs → n % 208 = 0 ∨ 4 ≤ n % 208) ∧ Guarded false rs ∧ rs.length = 4 := by
  refine ⟨selfReqs, selfReqs_wf.1, ?_, selfReqs_wf.2, rfl⟩
  intro a n hr
  simp only [selfReqs, List.mem_cons, List.not_mem_nil, or_false, reduceCtorEq, false_or, Req.generate.injEq] at hr
  rcases hr with ⟨_, rfl⟩ | ⟨_, rfl⟩ <;> decide

#guard ((run kmacAlg zero selfReqs).2.map (·.2)).getD 1 [] == (
    [0xbc, 0x70, 0xc5, 0xd6, 0xfe, 0xc4, 0x28, 0x23, 0xab, 0x57, 0x92, 0x5e, 0xb7, 0xd5, 0x95, 0xce, 0x2d, 0x98, 0x3a, 0x47, 0x71, 0x2f,
      0x6d, 0x4f, 0x82, 0x29, 0xe8, 0x5c, 0x11, 0x08, 0x48, 0x32, 0xfb, 0xcc, 0x30, 0x6c, 0xa1, 0x76, 0x45, 0x18, 0x7c, 0x05, 0xc3, 0x73,
      0x20, 0x28, 0xf2, 0x88, 0x7e, 0xe8, 0x60, 0x3c, 0xf9, 0xe8, 0x84, 0xa6, 0x11, 0x1d, 0xa3, 0x92, 0xe1, 0x8a, 0x98, 0xc1, 0xfb, 0x31,
      0xf1, 0xfc, 0x0a, 0x36, 0xab, 0x94, 0xa0, 0x39, 0xb6, 0x3a, 0xb3, 0xe4, 0x7d, 0xe3, 0x28, 0xb2, 0xd1, 0x10, 0xb8, 0x08, 0x6d, 0xc7,
      0xdd, 0xea, 0x10, 0x3a, 0xe3, 0x41, 0x2c, 0x83, 0xfb, 0x3f, 0xc1, 0x32, 0xfc, 0xa1, 0xdb, 0xcb, 0x2e, 0xb6, 0x10, 0x9d, 0x17, 0xf3,
      0xfc, 0x30, 0x70, 0x23, 0x67, 0x62, 0x1d, 0xc3, 0x4e, 0x63, 0x8b, 0xc3, 0x26, 0xa2, 0x24, 0x70, 0x90, 0x0e, 0x99, 0x1a, 0x93, 0xe3,
      0x09, 0x1e, 0xa0, 0xe7, 0x4a, 0x6a, 0xb8, 0x79, 0x97, 0x9a, 0xbb, 0x0d, 0xd0, 0xbc, 0xcc, 0x7a, 0x7b, 0xae, 0x98, 0x1f, 0x51, 0x38,
      0x41, 0x9a, 0xf1, 0x2f, 0x88, 0x90, 0x53, 0x99, 0x58, 0xb1, 0xf9, 0x1c, 0xd3, 0x24, 0x11, 0x0e, 0x10, 0xf3, 0xfc, 0x2d, 0x59, 0x83,
      0x59, 0xee, 0x93, 0xea, 0x98, 0xf8, 0xb7, 0x0e, 0x10, 0x42, 0x8b, 0x42, 0x5c, 0xf9, 0x41, 0xdf, 0x3f, 0xe5, 0xf1, 0xe7, 0xb1, 0x70,
      0x9d, 0x4d, 0xbb, 0x4d, 0x69, 0x99, 0x34, 0xae, 0x8d, 0x3b, 0xdc, 0xeb, 0xe9, 0xc4, 0xfc, 0x7a, 0x79, 0x1f, 0x62, 0x4b, 0x6f, 0x96,
      0xb6, 0x0c, 0xb8, 0x76, 0xe3, 0x94, 0x84, 0xeb, 0x7a, 0xe6, 0x3b, 0x71, 0x40, 0xc9, 0xd0, 0xf6, 0xa3, 0x75, 0x4b, 0xb6, 0x4e, 0x92,
      0xd0, 0xa1, 0x29, 0x56, 0x8f, 0x0c, 0x80, 0xf7, 0x8b, 0xba, 0x87, 0x7f, 0x08, 0xfc, 0xa5, 0x0f, 0x4a, 0x0a, 0x84, 0x2b, 0xc5, 0x0d,
      0x2f, 0x47, 0x82, 0x42, 0xb6, 0xf1, 0x18, 0x82, 0xdb, 0x7d, 0x50, 0x29, 0x47, 0x4f, 0x54, 0xc8, 0xbd, 0xa3, 0xd3, 0xcb, 0x2b, 0x30,
      0x0f, 0x8b, 0xc4, 0x46, 0xfd, 0xf6, 0xe7, 0xb0, 0x39, 0xee, 0x9b, 0x14, 0xf8, 0xca, 0x80, 0x35, 0x19, 0xca, 0xe5, 0x3c] : List Byte).map some

/-! ### C109 -/

/-- C109: a successful `lc_rng_generate` fills the whole buffer.  Proved for the cSHAKE DRNG. -/
theorem c109_cshake_filled (s : State) (hk : s.key.length = 64) (a : List Byte) (ha : a.length ≤ 84) (n : Nat) :
    (step cshakeAlg s (.generate a n)).2.1 = 0 ∧ ∃ out : List Byte, out.length = n ∧ (step cshakeAlg s (.generate a n)).2.2 = out.map some := by
  have g := genLoop_eq cshake_computes a ha n s n [] (Nat.le_refl _) hk ⟨trivial, .inr trivial⟩
  refine ⟨rfl, _, g.2.2, ?_⟩
  show (generate cshakeAlg s a n).2 = _
  unfold generate
  rw [g.1]
  rfl

/-- C109 for the KMAC DRNG.  Proved if the last block does not have one to three bytes. -/
theorem c109_kmac_filled_partial (s : State) (hk : s.key.length = 64) (a : List Byte) (ha : a.length ≤ 84) (n : Nat) (hn : n % 208 = 0 ∨ 4 ≤ n % 208) :
    (step kmacAlg s (.generate a n)).2.1 = 0 ∧ ∃ out : List Byte, out.length = n ∧ (step kmacAlg s (.generate a n)).2.2 = out.map some := by
  have g := genLoop_eq kmac_computes a ha n s n [] (Nat.le_refl _) hk ⟨by decide, hn⟩
  refine ⟨rfl, _, g.2.2, ?_⟩
  show (generate kmacAlg s a n).2 = _
  unfold generate
  rw [g.1]
  rfl

/-- The hypotheses of C109 hold for a state with a key and 306 bytes. -/
example : ({ seeded := true, key := List.replicate 64 7 } : State).key.length = 64 ∧ ([1, 2] : List Byte).length ≤ 84 ∧ (306 % 208 = 0 ∨ 4 ≤ 306 % 208) := by
  decide

theorem kmac_none (k : List Byte) (upd : List (List Byte)) (n : Nat) (h : n < 4) : (kmacAlg.gen k upd n).2 = none := by
  unfold kmacAlg Kmac.finalXof
  dsimp only
  rw [if_neg (show ¬ 4 ≤ n by omega)]

theorem kmac_tail (a : List Byte) : ∀ (fuel : Nat) (s : State) (n : Nat) (out : List (Option Byte)), n ≤ fuel → n % chunk < 4 →
    ∃ front, (genLoop kmacAlg a fuel s n out).2 = front ++ List.replicate (n % chunk) none := by
  intro fuel
  induction fuel with
  | zero =>
    intro s n out hn _
    have : n = 0 := by omega
    subst this
    exact ⟨out, by simp [genLoop]⟩
  | succ fuel ih =>
    intro s n out hn hm
    unfold genLoop
    by_cases h0 : n = 0
    · subst h0
      rw [if_pos rfl]
      exact ⟨out, by simp⟩
    · rw [if_neg h0]
      by_cases hlt : n < chunk
      · rw [if_pos hlt]
        rw [Nat.mod_eq_of_lt hlt] at hm ⊢
        dsimp only
        rw [kmac_none _ _ _ hm, Nat.sub_self]
        refine ⟨out, ?_⟩
        cases fuel <;> (unfold genLoop; first | rfl | (rw [if_pos rfl]; rfl))
      · rw [if_neg hlt]
        have e : n % chunk = (n - chunk) % chunk := Nat.mod_eq_sub_mod (by omega)
        rw [e] at hm ⊢
        have hcp : 0 < chunk := by decide
        exact ih _ _ _ (by omega) hm

/-- C109, negation for the KMAC DRNG: whatever the state and the additional input, a request whose last block has one to three bytes is reported as
successful, and these bytes of the buffer are not written (`lc_kmac_final_xof` refuses less than 4 bytes without a return code). -/
theorem c109_negation (s : State) (a : List Byte) (n : Nat) (h0 : n % 208 ≠ 0) (h4 : n % 208 < 4) :
    (step kmacAlg s (.generate a n)).2.1 = 0 ∧ ∃ front, (step kmacAlg s (.generate a n)).2.2 = front ++ List.replicate (n % 208) none ∧ 0 < n % 208 := by
  obtain ⟨front, hf⟩ := kmac_tail a n s n [] (Nat.le_refl _) h4
  exact ⟨rfl, front, hf, by omega⟩

/-- One byte is requested, none is returned. -/
example (s : State) : (step kmacAlg s (.generate [] 1)).2 = (0, [none]) := by
  show ((0 : Int), (generate kmacAlg s [] 1).2) = _
  unfold generate genLoop
  rw [if_neg (by decide), if_pos (by decide)]
  dsimp only
  rw [kmac_none _ _ _ (by decide)]
  rfl

/-! ### C110 -/

theorem arb_prefix {A : Alg} {F : Spec.Fns} {ok : Nat → Prop} (hc : Computes A F ok) (a : List Byte) : ∀ (m : Nat) (k : List Byte) (n : Nat), n ≤ m →
    (Spec.arbitrary F k a chunk n).2 <+: (Spec.arbitrary F k a chunk m).2 := by
  have hcp : 0 < chunk := by decide
  intro m
  induction m using Nat.strongRecOn with
  | _ m ih =>
    intro k n hn
    by_cases h0 : n = 0
    · subst h0
      rw [arb_zero _ _ _ hcp]
      exact List.nil_prefix
    · by_cases hm : m < chunk
      · rw [arb_part hc _ _ _ _ (by omega) (show n < chunk by omega), arb_part hc _ _ _ _ (by omega) hm, (one_short hc k a n m hn).2]
        exact List.take_prefix _ _
      · rw [arb_full hc _ _ _ m hcp (by omega)]
        by_cases hn' : n < chunk
        · rw [arb_part hc _ _ _ _ (by omega) hn', (one_short hc k a n chunk (by omega)).2]
          exact (List.take_prefix _ _).trans (List.prefix_append _ _)
        · rw [arb_full hc _ _ _ n hcp (by omega)]
          exact List.prefix_append_right_inj _ |>.mpr (ih (m - chunk) (by omega) _ _ (by omega))

/-- C110: from the same state and with the same additional input, a shorter output is the beginning of a longer one (cSHAKE DRNG). -/
theorem c110_cshake_prefix (s : State) (hk : s.key.length = 64) (a : List Byte) (ha : a.length ≤ 84) (n m : Nat) (h : n ≤ m) :
    (generate cshakeAlg s a n).2 <+: (generate cshakeAlg s a m).2 := by
  unfold generate
  rw [(genLoop_eq cshake_computes a ha n s n [] (Nat.le_refl _) hk ⟨trivial, .inr trivial⟩).1,
    (genLoop_eq cshake_computes a ha m s m [] (Nat.le_refl _) hk ⟨trivial, .inr trivial⟩).1, List.nil_append, List.nil_append]
  exact List.IsPrefix.map _ (arb_prefix cshake_computes a m s.key n h)

/-- C110 for the KMAC DRNG, for lengths that are written completely (C109). -/
theorem c110_kmac_prefix_partial (s : State) (hk : s.key.length = 64) (a : List Byte) (ha : a.length ≤ 84) (n m : Nat) (h : n ≤ m)
    (hn : n % 208 = 0 ∨ 4 ≤ n % 208) (hm : m % 208 = 0 ∨ 4 ≤ m % 208) :
    (generate kmacAlg s a n).2 <+: (generate kmacAlg s a m).2 := by
  unfold generate
  rw [(genLoop_eq kmac_computes a ha n s n [] (Nat.le_refl _) hk ⟨by decide, hn⟩).1,
    (genLoop_eq kmac_computes a ha m s m [] (Nat.le_refl _) hk ⟨by decide, hm⟩).1, List.nil_append, List.nil_append]
  exact List.IsPrefix.map _ (arb_prefix kmac_computes a m s.key n h)

/-- C110, negation for the KMAC DRNG: one byte is not written, but the first of four is. -/
theorem c110_negation (s : State) (hk : s.key.length = 64) (a : List Byte) (ha : a.length ≤ 84) :
    ¬ (generate kmacAlg s a 1).2 <+: (generate kmacAlg s a 4).2 := by
  intro hp
  obtain ⟨_, out, hl, ho⟩ := c109_kmac_filled_partial s hk a ha 4 (by decide)
  obtain ⟨_, front, hf, _⟩ := c109_negation s a 1 (by decide) (by decide)
  have h1 : (generate kmacAlg s a 1).2 = front ++ [none] := hf
  have h2 : (generate kmacAlg s a 4).2 = out.map some := ho
  have h3 : none ∈ (generate kmacAlg s a 4).2 := hp.subset (by rw [h1]; simp)
  rw [h2] at h3
  simp at h3

/-- The hypotheses of C110 hold across a block boundary. -/
example : ({ seeded := true, key := List.replicate 64 7 } : State).key.length = 64 ∧ ([1, 2] : List Byte).length ≤ 84 ∧ 100 ≤ 500 ∧
    (100 % 208 = 0 ∨ 4 ≤ 100 % 208) ∧ (500 % 208 = 0 ∨ 4 ≤ 500 % 208) := by decide

/-! ### C111 -/

/-- What the function is used for. -/
inductive Use where
  | first (seed pers : List Byte)
  | reseed (key seed pers : List Byte)
  | generate (key alpha : List Byte)
deriving DecidableEq

/-- Lengths: keys of 64 bytes, strings of at most 84. -/
def Use.Ok : Use → Prop
  | .first _ a => a.length ≤ 84
  | .reseed k _ a => k.length = 64 ∧ a.length ≤ 84
  | .generate k a => k.length = 64 ∧ a.length ≤ 84

/-- Section 2.2 to 2.4: whether it is a seeding, the key and the input string. -/
def Use.parts : Use → Bool × List Byte × List Byte
  | .first s a => (true, [], s ++ Spec.encode 0 a)
  | .reseed k s a => (true, k, s ++ Spec.encode 1 a)
  | .generate k a => (false, k, Spec.encode 2 a)

/-- The string that enters the Keccak sponge (SP 800-185, before the padding) in the cSHAKE DRNG. -/
def cAbsorbed (u : Use) : List Byte :=
  Kmac.Spec.bytepad (Kmac.Spec.encodeString (Spec.ascii (if u.parts.1 then "cSHAKE-DRNG seed" else "cSHAKE-DRNG generate")) ++
    Kmac.Spec.encodeString u.parts.2.1) 136 ++ u.parts.2.2

/-- The same for the KMAC DRNG. -/
def kAbsorbed (u : Use) : List Byte :=
  Kmac.Spec.bytepad (Kmac.Spec.encodeString Kmac.Spec.name ++
    Kmac.Spec.encodeString (Spec.ascii (if u.parts.1 then "KMAC-DRNG seed" else "KMAC-DRNG generate"))) 136 ++
    (Kmac.Spec.bytepad (Kmac.Spec.encodeString u.parts.2.1) 136 ++ u.parts.2.2 ++ Kmac.Spec.rightEncode (8 * 0))

/-- The sponge of cSHAKE256. -/
def sponge (x : List Byte) (n : Nat) : List Byte := Sponge.Spec.sponge Sponge.Spec.keccakBytes 136 0x04 x n

theorem enc_inj {s s' a a' : List Byte} {n n' : Nat} (hn : n ≤ 2) (hn' : n' ≤ 2) (ha : a.length ≤ 84) (ha' : a'.length ≤ 84)
    (h : s ++ Spec.encode n a = s' ++ Spec.encode n' a') : n = n' ∧ s = s' ∧ a = a' := by
  unfold Spec.encode at h
  rw [← List.append_assoc, ← List.append_assoc] at h
  have h1 := List.append_inj_right' h rfl
  have h2 := List.append_inj_left' h rfl
  have h3 := Kmac.ofNat_inj (n * 85 + a.length) (n' * 85 + a'.length) (by omega) (by omega) (List.head_eq_of_cons_eq h1)
  have h4 : a.length = a'.length := by omega
  have h5 := List.append_inj' h2 h4
  exact ⟨by omega, h5.1, h5.2⟩

theorem parts_inj (u u' : Use) (h : u.Ok) (h' : u'.Ok) (h1 : u.parts.1 = u'.parts.1) (h2 : u.parts.2.1 = u'.parts.2.1)
    (h3 : u.parts.2.2 = u'.parts.2.2) : u = u' := by
  cases u <;> cases u' <;> simp only [Use.parts, reduceCtorEq] at h1 h2 h3 <;> simp only [Use.Ok] at h h'
  · obtain ⟨_, e1, e2⟩ := enc_inj (by omega) (by omega) h h' h3
    rw [e1, e2]
  · rw [← h2] at h'
    exact absurd h'.1 (by decide)
  · rw [h2] at h
    exact absurd h.1 (by decide)
  · obtain ⟨_, e1, e2⟩ := enc_inj (by omega) (by omega) h.2 h'.2 h3
    rw [h2, e1, e2]
  · obtain ⟨_, _, e2⟩ := enc_inj (s := []) (s' := []) (by omega) (by omega) h.2 h'.2 h3
    rw [h2, e2]

theorem key_small (u : Use) (h : u.Ok) : u.parts.2.1.length < 2 ^ 61 := by
  cases u with
  | first s a => exact (by decide : ([] : List Byte).length < 2 ^ 61)
  | reseed k s a => exact Nat.lt_of_le_of_lt (Nat.le_of_eq h.1) (by decide)
  | generate k a => exact Nat.lt_of_le_of_lt (Nat.le_of_eq h.1) (by decide)

theorem cFns_seed (k x : List Byte) (n : Nat) : (Spec.cshakeFns Sponge.Spec.keccakBytes).seed k x n =
    sponge (Kmac.Spec.bytepad (Kmac.Spec.encodeString (Spec.ascii "cSHAKE-DRNG seed") ++ Kmac.Spec.encodeString k) 136 ++ x) n := by
  unfold Spec.cshakeFns Kmac.Spec.cshake
  dsimp only
  rw [if_neg (fun h => absurd h.1 (by decide))]
  rfl

theorem cFns_gen (k x : List Byte) (n : Nat) : (Spec.cshakeFns Sponge.Spec.keccakBytes).gen k x n =
    sponge (Kmac.Spec.bytepad (Kmac.Spec.encodeString (Spec.ascii "cSHAKE-DRNG generate") ++ Kmac.Spec.encodeString k) 136 ++ x) n := by
  unfold Spec.cshakeFns Kmac.Spec.cshake
  dsimp only
  rw [if_neg (fun h => absurd h.1 (by decide))]
  rfl

theorem kFns_seed (k x : List Byte) (n : Nat) : (Spec.kmacFns Sponge.Spec.keccakBytes).seed k x n =
    sponge (Kmac.Spec.bytepad (Kmac.Spec.encodeString Kmac.Spec.name ++ Kmac.Spec.encodeString (Spec.ascii "KMAC-DRNG seed")) 136 ++
      (Kmac.Spec.bytepad (Kmac.Spec.encodeString k) 136 ++ x ++ Kmac.Spec.rightEncode (8 * 0))) n := by
  unfold Spec.kmacFns Kmac.Spec.kmacXof Kmac.Spec.cshake
  dsimp only
  rw [if_neg (fun h => absurd h.1 (by decide))]
  rfl

theorem kFns_gen (k x : List Byte) (n : Nat) : (Spec.kmacFns Sponge.Spec.keccakBytes).gen k x n =
    sponge (Kmac.Spec.bytepad (Kmac.Spec.encodeString Kmac.Spec.name ++ Kmac.Spec.encodeString (Spec.ascii "KMAC-DRNG generate")) 136 ++
      (Kmac.Spec.bytepad (Kmac.Spec.encodeString k) 136 ++ x ++ Kmac.Spec.rightEncode (8 * 0))) n := by
  unfold Spec.kmacFns Kmac.Spec.kmacXof Kmac.Spec.cshake
  dsimp only
  rw [if_neg (fun h => absurd h.1 (by decide))]
  rfl

theorem seed_parts {A : Alg} {F : Spec.Fns} {ok : Nat → Prop} (hc : Computes A F ok) (b : Bool) (k s a : List Byte) (hk : k.length = 64) (ha : a.length ≤ 84)
    (hs : s.length < 2 ^ 62) : (seed A ⟨b, k⟩ s a).key = F.seed (if b then k else []) (s ++ Spec.encode (if b then 1 else 0) a) 64 := by
  have hfl : (s :: encode (if b then 1 else 0) a).flatten = s ++ Spec.encode (if b then 1 else 0) a := by rw [List.flatten_cons, encode_eq _ _ ha]
  have hl : (s ++ Spec.encode (if b then 1 else 0) a).length < 2 ^ 63 := by
    unfold Spec.encode
    rw [List.length_append, List.length_append, List.length_singleton]
    omega
  show A.seed _ _ = _
  rw [hc.seed _ _ (by cases b; exact Nat.zero_le _; exact Nat.le_of_eq hk) (by rw [hfl]; exact hl), hfl]

theorem gen_parts {A : Alg} {F : Spec.Fns} {ok : Nat → Prop} (hc : Computes A F ok) (k a : List Byte) (n : Nat) (hk : k.length = 64) (ha : a.length ≤ 84)
    (ho : ok n) : A.gen k (encode 2 a) n = ((F.gen k (Spec.encode 2 a) (64 + n)).take 64, some ((F.gen k (Spec.encode 2 a) (64 + n)).drop 64)) := by
  have hl : (Spec.encode 2 a).length < 2 ^ 63 := by
    unfold Spec.encode
    rw [List.length_append, List.length_singleton]
    omega
  rw [hc.gen _ _ _ (Nat.le_of_eq hk) (by rw [encode_eq _ _ ha]; exact hl) ho, encode_eq _ _ ha]

/-- C111: first seeding, reseeding and one round of generating return the output of the cSHAKE256 sponge on the string `cAbsorbed`, and all their
inputs, and which of the three it is, can be read off this string: no two different uses enter the sponge as the same string. -/
theorem c111_cshake_separated :
    (∀ k s a, k.length = 64 → a.length ≤ 84 → s.length < 2 ^ 62 → (seed cshakeAlg ⟨false, k⟩ s a).key = sponge (cAbsorbed (.first s a)) 64) ∧
    (∀ k s a, k.length = 64 → a.length ≤ 84 → s.length < 2 ^ 62 → (seed cshakeAlg ⟨true, k⟩ s a).key = sponge (cAbsorbed (.reseed k s a)) 64) ∧
    (∀ k a n, k.length = 64 → a.length ≤ 84 → ∃ out, cshakeAlg.gen k (encode 2 a) n = ((sponge (cAbsorbed (.generate k a)) (64 + n)).take 64, some out) ∧
      out = (sponge (cAbsorbed (.generate k a)) (64 + n)).drop 64) ∧
    ∀ u u' : Use, u.Ok → u'.Ok → cAbsorbed u = cAbsorbed u' → u = u' := by
  refine ⟨fun k s a hk ha hs => ?_, fun k s a hk ha hs => ?_, fun k a n hk ha => ?_, fun u u' h h' he => ?_⟩
  · rw [seed_parts cshake_computes false k s a hk ha hs, cFns_seed]
    rfl
  · rw [seed_parts cshake_computes true k s a hk ha hs, cFns_seed]
    rfl
  · have e := gen_parts cshake_computes k a n hk ha trivial
    rw [cFns_gen] at e
    exact ⟨_, e, rfl⟩
  · have hn : ∀ b : Bool, (Spec.ascii (if b then "cSHAKE-DRNG seed" else "cSHAKE-DRNG generate")).length < 2 ^ 61 := by intro b; cases b <;> decide
    obtain ⟨e1, e2, e3⟩ := Kmac.cshake_prefix_injective 136 (by decide) (by decide) _ _ _ _ _ _ (hn _) (key_small u h) (hn _) (key_small u' h') he
    refine parts_inj u u' h h' ?_ e2 e3
    revert e1
    cases u.parts.1 <;> cases u'.parts.1 <;> first | (intro _; rfl) | decide

/-- C111 for the KMAC DRNG. -/
theorem c111_kmac_separated :
    (∀ k s a, k.length = 64 → a.length ≤ 84 → s.length < 2 ^ 62 → (seed kmacAlg ⟨false, k⟩ s a).key = sponge (kAbsorbed (.first s a)) 64) ∧
    (∀ k s a, k.length = 64 → a.length ≤ 84 → s.length < 2 ^ 62 → (seed kmacAlg ⟨true, k⟩ s a).key = sponge (kAbsorbed (.reseed k s a)) 64) ∧
    (∀ k a n, k.length = 64 → a.length ≤ 84 → 4 ≤ n → ∃ out, kmacAlg.gen k (encode 2 a) n = ((sponge (kAbsorbed (.generate k a)) (64 + n)).take 64, some out) ∧
      out = (sponge (kAbsorbed (.generate k a)) (64 + n)).drop 64) ∧
    ∀ u u' : Use, u.Ok → u'.Ok → kAbsorbed u = kAbsorbed u' → u = u' := by
  refine ⟨fun k s a hk ha hs => ?_, fun k s a hk ha hs => ?_, fun k a n hk ha hn4 => ?_, fun u u' h h' he => ?_⟩
  · rw [seed_parts kmac_computes false k s a hk ha hs, kFns_seed]
    rfl
  · rw [seed_parts kmac_computes true k s a hk ha hs, kFns_seed]
    rfl
  · have e := gen_parts kmac_computes k a n hk ha hn4
    rw [kFns_gen] at e
    exact ⟨_, e, rfl⟩
  · have hn : ∀ b : Bool, (Spec.ascii (if b then "KMAC-DRNG seed" else "KMAC-DRNG generate")).length < 2 ^ 61 := by intro b; cases b <;> decide
    obtain ⟨e1, e2, e3, _⟩ := Kmac.kmac_input_injective 136 (by decide) (by decide) _ _ _ _ _ _ 0 0 (hn _) (key_small u h) (hn _) (key_small u' h')
      (by decide) (by decide) he
    refine parts_inj u u' h h' ?_ e2 e3
    revert e1
    cases u.parts.1 <;> cases u'.parts.1 <;> first | (intro _; rfl) | decide

/-- The hypotheses of C111 hold for a reseed and a request. -/
example : (Use.reseed (List.replicate 64 1) [2] [3]).Ok ∧ (Use.generate (List.replicate 64 1) [2, 3]).Ok := by
  exact ⟨⟨by decide, by decide⟩, ⟨by decide, by decide⟩⟩

/-- Beyond 84 bytes the strings are cut off: different additional inputs enter as the same string. -/
theorem c111_cut (a b : List Byte) (n : Nat) (ha : a.length = 84) : encode n (a ++ b) = encode n a := by
  unfold encode
  by_cases hb : b = []
  · rw [hb, List.append_nil]
  · have : 0 < b.length := List.length_pos_iff.mpr hb
    rw [if_pos (by rw [List.length_append]; omega), if_neg (by omega), ha]
    dsimp only
    rw [← ha, List.take_left, List.take_length]

/-! ### C112 -/

/-- C112: a generator that was not seeded since its allocation or the last `lc_rng_zero` gives no output.  It is false: the request is reported as
successful, and the output follows section 2.5 with 64 zero bytes as key, so that it depends on public values only. -/
theorem c112_negation (a : List Byte) (ha : a.length ≤ 84) (n : Nat) :
    (step cshakeAlg zero (.generate a n)).2 =
      (0, (Spec.arbitrary (Spec.cshakeFns Sponge.Spec.keccakBytes) (List.replicate 64 0) a 208 n).2.map some) ∧
    (n % 208 = 0 ∨ 4 ≤ n % 208 → (step kmacAlg zero (.generate a n)).2 =
      (0, (Spec.arbitrary (Spec.kmacFns Sponge.Spec.keccakBytes) (List.replicate 64 0) a 208 n).2.map some)) := by
  refine ⟨?_, fun hn => ?_⟩
  · refine Prod.ext rfl ?_
    show (generate cshakeAlg zero a n).2 = _
    unfold generate
    rw [(genLoop_eq cshake_computes a ha n zero n [] (Nat.le_refl _) rfl ⟨trivial, .inr trivial⟩).1]
    rfl
  · refine Prod.ext rfl ?_
    show (generate kmacAlg zero a n).2 = _
    unfold generate
    rw [(genLoop_eq kmac_computes a ha n zero n [] (Nat.le_refl _) rfl ⟨by decide, hn⟩).1]
    rfl

/-- The hypotheses of C112 hold for 32 bytes with an additional input. -/
example : ([1, 2] : List Byte).length ≤ 84 ∧ (32 % 208 = 0 ∨ 4 ≤ 32 % 208) := by decide

end LC.Drbg.Fke
