import Verif.Drbg.XdrbgModel
import Verif.Drbg.XdrbgSpec
import Verif.Sponge.Props
import Verif.AsconHash.Props
/-
Property theorems: C25 (XDRBG).
-/
namespace LC.Drbg.Xdrbg

/-! ### Injectivity of the encoding -/

/-- The purposes for which the XOF is used; the state is the previous `V`. -/
inductive Use where
  | instantiate (seed alpha : List Byte)
  | reseed (v seed alpha : List Byte)
  | generate (v alpha : List Byte)
deriving DecidableEq

/-- The XOF input of each use in the standard. -/
def Spec.input : Use → List Byte
  | .instantiate s a => Spec.encode s a 0
  | .reseed v s a => Spec.encode (v ++ s) a 1
  | .generate v a => Spec.encode v a 2

/-- Additional input of at most 84 bytes and a state of `k` bytes. -/
def Use.Ok (k : Nat) : Use → Prop
  | .instantiate _ a => a.length ≤ 84
  | .reseed v _ a => v.length = k ∧ a.length ≤ 84
  | .generate v a => v.length = k ∧ a.length ≤ 84

theorem encode_inj {s s' a a' : List Byte} {n n' : Nat} (hn : n ≤ 2) (hn' : n' ≤ 2)
    (ha : a.length ≤ 84) (ha' : a'.length ≤ 84) (h : Spec.encode s a n = Spec.encode s' a' n') :
    n = n' ∧ s = s' ∧ a = a' := by
  unfold Spec.encode at h
  have h1 := List.append_inj_right' h rfl
  have h2 := List.append_inj_left' h rfl
  have e : n * 85 + a.length = n' * 85 + a'.length := by
    have h3 : UInt8.ofNat (n * 85 + a.length) = UInt8.ofNat (n' * 85 + a'.length) := by simpa using h1
    have h4 := congrArg UInt8.toNat h3
    simp only [UInt8.toNat_ofNat'] at h4
    omega
  have e1 : n = n' := by omega
  have e2 : a.length = a'.length := by omega
  exact ⟨e1, List.append_inj_left' h2 e2, List.append_inj_right' h2 e2⟩

/-- **C25 (encoding).**  Different uses, states, seeds or additional inputs give different XOF
inputs. -/
theorem xdrbg_input_injective (k : Nat) (u u' : Use) (h : u.Ok k) (h' : u'.Ok k)
    (he : Spec.input u = Spec.input u') : u = u' := by
  cases u <;> cases u' <;> simp only [Spec.input] at he <;> simp only [Use.Ok] at h h'
  · obtain ⟨_, e1, e2⟩ := encode_inj (by omega) (by omega) h h' he
    rw [e1, e2]
  · have := (encode_inj (by omega) (by omega) h h'.2 he).1
    omega
  · have := (encode_inj (by omega) (by omega) h h'.2 he).1
    omega
  · have := (encode_inj (by omega) (by omega) h.2 h' he).1
    omega
  · obtain ⟨_, e1, e2⟩ := encode_inj (by omega) (by omega) h.2 h'.2 he
    have hv : _ := List.append_inj e1 (by omega)
    rw [hv.1, hv.2, e2]
  · have := (encode_inj (by omega) (by omega) h.2 h'.2 he).1
    omega
  · have := (encode_inj (by omega) (by omega) h.2 h' he).1
    omega
  · have := (encode_inj (by omega) (by omega) h.2 h'.2 he).1
    omega
  · obtain ⟨_, e1, e2⟩ := encode_inj (by omega) (by omega) h.2 h'.2 he
    rw [e1, e2]

example : (Use.reseed [1, 2] [3] [4]).Ok 2 ∧ (Use.generate [1, 2] [3]).Ok 2 ∧
    Spec.input (.reseed [1, 2] [3] [4]) = [1, 2, 3, 4, 86] :=
  ⟨⟨rfl, by decide⟩, ⟨rfl, by decide⟩, rfl⟩

/-! ### Conformance for every request sequence -/

/-- The update calls are good for the XOF and compute `F`. -/
def Computes (xof : Xof) (F : List Byte → Nat → List Byte) (Good : List (List Byte) → Prop) : Prop :=
  ∀ chunks ds, Good chunks → chunks.flatten.length < 2 ^ 64 →
    (xof chunks ds).flatten = F chunks.flatten ds.sum ∧ (xof chunks ds).map List.length = ds

theorem computes_one {xof : Xof} {F Good} (h : Computes xof F Good) {chunks : List (List Byte)} (hg : Good chunks)
    (hl : chunks.flatten.length < 2 ^ 64) (k : Nat) :
    (xof chunks [k]).getD 0 [] = F chunks.flatten k ∧ (F chunks.flatten k).length = k := by
  obtain ⟨h1, h2⟩ := h chunks [k] hg hl
  generalize xof chunks [k] = o at h1 h2
  match o with
  | [] => simp at h2
  | [x] =>
    simp only [List.flatten_cons, List.flatten_nil, List.append_nil, List.sum_cons, List.sum_nil, Nat.add_zero] at h1
    simp only [List.map_cons, List.map_nil, List.cons.injEq, and_true] at h2
    exact ⟨h1, by rw [← h1]; exact h2⟩
  | _ :: _ :: _ => simp at h2

theorem computes_two {xof : Xof} {F Good} (h : Computes xof F Good) {chunks : List (List Byte)} (hg : Good chunks)
    (hl : chunks.flatten.length < 2 ^ 64) (k n : Nat) :
    (xof chunks [k, n]).getD 0 [] = (F chunks.flatten (k + n)).take k ∧
    (xof chunks [k, n]).getD 1 [] = (F chunks.flatten (k + n)).drop k ∧
    (F chunks.flatten (k + n)).length = k + n := by
  obtain ⟨h1, h2⟩ := h chunks [k, n] hg hl
  generalize xof chunks [k, n] = o at h1 h2
  match o with
  | [] => simp at h2
  | [x] => simp at h2
  | [x, y] =>
    simp only [List.flatten_cons, List.flatten_nil, List.append_nil, List.sum_cons, List.sum_nil, Nat.add_zero] at h1
    simp only [List.map_cons, List.map_nil, List.cons.injEq, and_true] at h2
    rw [← h1]
    refine ⟨?_, ?_, ?_⟩
    · rw [← h2.1]; simp
    · rw [← h2.1]; simp
    · rw [List.length_append, h2.1, h2.2]
  | _ :: _ :: _ :: _ => simp at h2

/-- The standard behind the `lc_rng` interface.  A request longer than `maxout` is a sequence of
requests. -/
def Spec.api (F : List Byte → Nat → List Byte) (k maxout : Nat) (st : Option (List Byte)) :
    Req → Option (List Byte) × Reply
  | .seed s a =>
    (match st with
     | none => some (Spec.instantiate F k s a)
     | some v => some (Spec.reseed F k v s a), 0, [])
  | .generate a n =>
    match st with
    | none => (none, -1, [])
    | some v => (some (Spec.generates F k a v (Spec.split maxout n)).1, 0,
        (Spec.generates F k a v (Spec.split maxout n)).2)
  | .zero => (none, 0, [])

def Spec.apiRun (F : List Byte → Nat → List Byte) (k maxout : Nat) (st : Option (List Byte)) :
    List Req → Option (List Byte) × List Reply
  | [] => (st, [])
  | r :: rs => ((Spec.apiRun F k maxout (Spec.api F k maxout st r).1 rs).1,
      (Spec.api F k maxout st r).2 :: (Spec.apiRun F k maxout (Spec.api F k maxout st r).1 rs).2)

/-- Additional inputs within the limit of the standard, seeds below 2^63 bytes. -/
def Req.WF : Req → Prop
  | .seed s a => s.length < 2 ^ 63 ∧ a.length ≤ 84
  | .generate a _ => a.length ≤ 84
  | .zero => True

/-- The update calls of a request are good, for every state `v` of `k` bytes. -/
def Req.Good (Good : List (List Byte) → Prop) (k : Nat) : Req → Prop
  | .seed s a => ∀ v : List Byte, v.length = k →
      Good [s, a, [UInt8.ofNat a.length]] ∧ Good [v, s, a, [UInt8.ofNat (85 + a.length)]]
  | .generate a _ => ∀ v : List Byte, v.length = k → Good [v, a, [UInt8.ofNat (170 + a.length)]]
  | .zero => True

/-- Every `generate` comes after a `seed` (and no `zero` in between). -/
def Guarded : Bool → List Req → Prop
  | _, [] => True
  | _, .seed _ _ :: rs => Guarded true rs
  | b, .generate _ _ :: rs => b = true ∧ Guarded b rs
  | _, .zero :: rs => Guarded false rs

theorem encode_eq (n : Nat) (a : List Byte) (ha : a.length ≤ 84) :
    encode n a = [a, [UInt8.ofNat (n * 85 + a.length)]] := by
  unfold encode
  rw [if_neg (by omega)]
  dsimp only
  rw [List.take_length]

theorem generate_len {F : List Byte → Nat → List Byte} {k : Nat}
    (hF : ∀ m n, m.length < 2 ^ 63 + 2 ^ 62 → (F m n).length = n) {v a : List Byte} (hv : v.length = k) (hk : k ≤ 127)
    (ha : a.length ≤ 84) (n : Nat) : (Spec.generate F k v n a).1.length = k := by
  unfold Spec.generate
  dsimp only
  rw [List.length_take, hF _ _ (by unfold Spec.encode; simp only [List.length_append, List.length_cons, List.length_nil]; omega)]
  omega

theorem split_step (c n : Nat) (hc : 0 < c) (hn : 0 < n) :
    Spec.split c n = (if n < c then n else c) :: Spec.split c (n - (if n < c then n else c)) := by
  unfold Spec.split
  by_cases h : n < c
  · rw [if_pos h, Nat.div_eq_of_lt h, Nat.mod_eq_of_lt h, if_neg (by omega), Nat.sub_self, Nat.zero_div, Nat.zero_mod]
    rfl
  · rw [if_neg h]
    have e1 : n / c = (n - c) / c + 1 := by
      rw [Nat.div_eq_sub_div hc (by omega)]
    have e2 : (n - c) % c = n % c := (Nat.mod_eq_sub_mod (by omega)).symm
    rw [e1, e2, List.replicate_succ, List.cons_append]

theorem split_zero (c : Nat) : Spec.split c 0 = [] := by
  unfold Spec.split
  rw [Nat.zero_div, Nat.zero_mod, if_pos rfl]
  rfl

section
variable {xof : Xof} {F : List Byte → Nat → List Byte} {Good : List (List Byte) → Prop}

theorem fke_eq (hc : Computes xof F Good) {k c : Nat} (hk : k ≤ 127) {s : State} (hv : s.v.length = k)
    {a : List Byte} (ha : a.length ≤ 84)
    (hg : ∀ v : List Byte, v.length = k → Good [v, a, [UInt8.ofNat (170 + a.length)]]) (todo : Nat) :
    (fke ⟨xof, k, c⟩ s a todo).getD 0 [] = (Spec.generate F k s.v todo a).1 ∧
    (fke ⟨xof, k, c⟩ s a todo).getD 1 [] = (Spec.generate F k s.v todo a).2 ∧
    (Spec.generate F k s.v todo a).1.length = k := by
  unfold fke
  dsimp only
  have hvt : s.v.take k = s.v := List.take_of_length_le (by omega)
  rw [hvt, encode_eq 2 a ha]
  have hfl : ([s.v, a, [UInt8.ofNat (2 * 85 + a.length)]] : List (List Byte)).flatten = Spec.encode s.v a 2 := by
    simp [Spec.encode]
  have h := computes_two hc (chunks := [s.v, a, [UInt8.ofNat (2 * 85 + a.length)]]) (hg s.v hv) (by
    simp only [List.flatten_cons, List.flatten_nil, List.length_append, List.length_cons, List.length_nil]; omega) k todo
  rw [hfl] at h
  refine ⟨h.1, h.2.1, ?_⟩
  unfold Spec.generate
  dsimp only
  rw [List.length_take, h.2.2]
  omega

theorem genLoop_eq (hc : Computes xof F Good) {k c : Nat} (hk : k ≤ 127) (hcp : 0 < c)
    {a : List Byte} (ha : a.length ≤ 84)
    (hg : ∀ v : List Byte, v.length = k → Good [v, a, [UInt8.ofNat (170 + a.length)]]) :
    ∀ (fuel : Nat) (s : State) (n : Nat) (out : List Byte), n ≤ fuel → s.v.length = k →
      (genLoop ⟨xof, k, c⟩ a fuel s n out).1.v = (Spec.generates F k a s.v (Spec.split c n)).1 ∧
      (genLoop ⟨xof, k, c⟩ a fuel s n out).2 = out ++ (Spec.generates F k a s.v (Spec.split c n)).2 ∧
      (genLoop ⟨xof, k, c⟩ a fuel s n out).1.seeded = s.seeded ∧
      (genLoop ⟨xof, k, c⟩ a fuel s n out).1.v.length = k := by
  intro fuel
  induction fuel with
  | zero =>
    intro s n out hn hv
    have : n = 0 := by omega
    subst this
    rw [split_zero]
    exact ⟨rfl, by simp [genLoop, Spec.generates], rfl, hv⟩
  | succ fuel ih =>
    intro s n out hn hv
    by_cases h0 : n = 0
    · subst h0
      rw [split_zero, genLoop, if_pos rfl]
      exact ⟨rfl, by simp [Spec.generates], rfl, hv⟩
    · rw [genLoop, if_neg h0, split_step c n hcp (by omega)]
      dsimp only
      generalize ht : (if n < c then n else c) = todo
      have htp : 0 < todo ∧ todo ≤ n := by rw [← ht]; split <;> omega
      obtain ⟨f1, f2, f3⟩ := fke_eq (c := c) hc hk hv ha hg todo
      have r := ih { s with v := (fke ⟨xof, k, c⟩ s a todo).getD 0 [] } (n - todo)
        (out ++ (fke ⟨xof, k, c⟩ s a todo).getD 1 []) (by omega) (by dsimp only; rw [f1]; exact f3)
      dsimp only at r
      refine ⟨?_, ?_, r.2.2.1, r.2.2.2⟩
      · rw [r.1, f1]; rfl
      · rw [r.2.1, f1, f2, List.append_assoc]; rfl

/-- Model and standard are in the same state. -/
def Same (k : Nat) (s : State) : Option (List Byte) → Prop
  | none => s.seeded = false ∧ s.v.length = k
  | some v => s.seeded = true ∧ s.v = v ∧ s.v.length = k

theorem run_same (hc : Computes xof F Good) {k c : Nat} (hk : k ≤ 127) (hcp : 0 < c) :
    ∀ (rs : List Req) (s : State) (st : Option (List Byte)), Same k s st → (∀ r ∈ rs, r.WF ∧ r.Good Good k) →
      Guarded st.isSome rs →
      (run ⟨xof, k, c⟩ s rs).2 = (Spec.apiRun F k c st rs).2 ∧
        Same k (run ⟨xof, k, c⟩ s rs).1 (Spec.apiRun F k c st rs).1 := by
  intro rs
  induction rs with
  | nil => intro s st hs _ _; exact ⟨rfl, hs⟩
  | cons r rs ih =>
    intro s st hs hw hg
    have hstep : Same k (step ⟨xof, k, c⟩ s r).1 (Spec.api F k c st r).1 ∧
        (step ⟨xof, k, c⟩ s r).2 = (Spec.api F k c st r).2 ∧ Guarded (Spec.api F k c st r).1.isSome rs := by
      have hr := hw r (List.mem_cons_self ..)
      cases r with
      | zero =>
        exact ⟨⟨rfl, List.length_replicate⟩, rfl, hg⟩
      | seed sd a =>
        obtain ⟨⟨hl1, hl2⟩, hgood⟩ := hr
        have hv : s.v.length = k := by cases st <;> simp only [Same] at hs <;> omega
        have hgood := hgood s.v hv
        cases st with
        | none =>
          have hsd : s.seeded = false := hs.1
          refine ⟨?_, rfl, hg⟩
          show Same k (seed ⟨xof, k, c⟩ s sd a) (some (Spec.instantiate F k sd a))
          unfold seed
          dsimp only
          rw [hsd, if_neg (by decide), encode_eq 0 a hl2]
          have h := computes_one hc (chunks := [sd, a, [UInt8.ofNat (0 * 85 + a.length)]])
            (by rw [Nat.zero_mul, Nat.zero_add]; exact hgood.1) (by
              simp only [List.flatten_cons, List.flatten_nil, List.length_append, List.length_cons, List.length_nil]; omega) k
          have hfl : ([sd, a, [UInt8.ofNat (0 * 85 + a.length)]] : List (List Byte)).flatten = Spec.encode sd a 0 := by
            simp [Spec.encode]
          rw [hfl] at h
          exact ⟨rfl, h.1, by dsimp only; rw [h.1]; exact h.2⟩
        | some v =>
          obtain ⟨hsd, hv2, _⟩ := hs
          refine ⟨?_, rfl, hg⟩
          show Same k (seed ⟨xof, k, c⟩ s sd a) (some (Spec.reseed F k v sd a))
          unfold seed
          dsimp only
          rw [if_pos hsd, encode_eq 1 a hl2, List.take_of_length_le (by omega)]
          have h := computes_one hc (chunks := [s.v, sd, a, [UInt8.ofNat (1 * 85 + a.length)]])
            hgood.2 (by
              simp only [List.flatten_cons, List.flatten_nil, List.length_append, List.length_cons, List.length_nil]; omega) k
          have hfl : ([s.v, sd, a, [UInt8.ofNat (1 * 85 + a.length)]] : List (List Byte)).flatten =
              Spec.encode (v ++ sd) a 1 := by
            simp [Spec.encode, hv2]
          rw [hfl] at h
          exact ⟨rfl, h.1, by dsimp only; rw [h.1]; exact h.2⟩
      | generate a n =>
        cases st with
        | none => exact absurd hg.1 (by decide)
        | some v =>
          obtain ⟨hsd, hv, hvl⟩ := hs
          have g := genLoop_eq hc hk hcp hr.1 hr.2 n s n [] (Nat.le_refl _) hvl
          rw [hv, List.nil_append] at g
          refine ⟨⟨?_, ?_, ?_⟩, ?_, hg.2⟩
          · exact g.2.2.1.trans hsd
          · exact g.1
          · exact g.2.2.2
          · show ((0 : Int), _) = ((0 : Int), _)
            rw [show (generate ⟨xof, k, c⟩ s a n).2 = _ from g.2.1]
    have := ih (step ⟨xof, k, c⟩ s r).1 (Spec.api F k c st r).1 hstep.1
      (fun x hx => hw x (List.mem_cons_of_mem _ hx)) hstep.2.2
    refine ⟨?_, this.2⟩
    show (step ⟨xof, k, c⟩ s r).2 :: _ = (Spec.api F k c st r).2 :: _
    rw [hstep.2.1, this.1]

end

/-- SHAKE-256 of FIPS 202. -/
def Spec.shake256 (m : List Byte) (n : Nat) : List Byte :=
  Sponge.Spec.sponge Sponge.Spec.keccakBytes 136 0x1f m n

theorem shake256_computes : Computes shake256 Spec.shake256 (fun _ => True) := by
  intro chunks ds _ hl
  exact Sponge.keccak_streaming 136 (by decide) (by decide) 0x1f (by decide) 0 chunks hl ds

theorem xof128_computes : Computes AsconHash.xof128 AsconHash.Spec.xof128 (AsconHash.GoodCuts 8 0) := by
  intro chunks ds hg hl
  exact AsconHash.ascon_xof128_partial chunks hl hg ds

/-- **C25 (XDRBG256).**  For every sequence of requests (additional inputs of at most 84 bytes, no
`generate` before the first `seed`), the outputs are those of XDRBG with SHAKE-256, long requests
being cut into requests of 208 bytes, and the state at the end is that of the standard. -/
theorem xdrbg256_conforms (rs : List Req) (hw : ∀ r ∈ rs, r.WF) (hg : Guarded false rs) :
    (run par256 (zero par256) rs).2 = (Spec.apiRun Spec.shake256 64 208 none rs).2 ∧
    ∀ v, (Spec.apiRun Spec.shake256 64 208 none rs).1 = some v → (run par256 (zero par256) rs).1.v = v := by
  have h := run_same shake256_computes (k := 64) (c := 208) (by omega) (by omega) rs (zero par256) none
    ⟨rfl, List.length_replicate⟩ (fun r hr => ⟨hw r hr, by
      cases r with
      | seed s a => exact fun _ _ => ⟨trivial, trivial⟩
      | generate a n => exact fun _ _ => trivial
      | zero => trivial⟩) hg
  refine ⟨h.1, ?_⟩
  intro v hv
  have h2 := h.2
  rw [hv] at h2
  exact h2.2.1

/-- C25 (XDRBG128), what holds: the same for request sequences none of whose update calls completes
a block exactly (see C04 for the defect in the Ascon hash).  Missing: requests with such cuts, for
example every `generate` with 7 bytes of additional input. -/
theorem xdrbg128_conforms_partial (rs : List Req) (hw : ∀ r ∈ rs, r.WF ∧ r.Good (AsconHash.GoodCuts 8 0) 32)
    (hg : Guarded false rs) :
    (run par128 (zero par128) rs).2 = (Spec.apiRun AsconHash.Spec.xof128 32 256 none rs).2 ∧
    ∀ v, (Spec.apiRun AsconHash.Spec.xof128 32 256 none rs).1 = some v → (run par128 (zero par128) rs).1.v = v := by
  have h := run_same xof128_computes (k := 32) (c := 256) (by omega) (by omega) rs (zero par128) none
    ⟨rfl, List.length_replicate⟩ hw hg
  refine ⟨h.1, ?_⟩
  intro v hv
  have h2 := h.2
  rw [hv] at h2
  exact h2.2.1

/-- Seeds that are multiples of the block size and additional inputs whose length is not 7 modulo 8
have no bad cut. -/
theorem good_of_aligned (s a : List Byte) (n : Nat) (hs : s.length % 8 = 0) (ha : a.length % 8 ≠ 7) :
    (Req.seed s a).Good (AsconHash.GoodCuts 8 0) 32 ∧ (Req.generate a n).Good (AsconHash.GoodCuts 8 0) 32 := by
  constructor
  · intro v hv
    refine ⟨⟨?_, ?_, ?_, trivial⟩, ⟨?_, ?_, ?_, ?_, trivial⟩⟩ <;> intro h1 _ h2 <;>
      (try simp only [List.length_cons, List.length_nil, hv] at h1 h2 ⊢) <;> omega
  · intro v hv
    refine ⟨?_, ?_, ?_, trivial⟩ <;> intro h1 _ h2 <;>
      (try simp only [List.length_cons, List.length_nil, hv] at h1 h2 ⊢) <;> omega

/-- A request sequence for both. -/
def sampleReqs : List Req :=
  [.seed [1, 2, 3, 4, 5, 6, 7, 8] [9], .generate [1, 2] 500, .seed [] [], .generate [] 1]

example : (∀ r ∈ sampleReqs, r.WF ∧ r.Good (AsconHash.GoodCuts 8 0) 32) ∧ Guarded false sampleReqs := by
  refine ⟨?_, ⟨rfl, rfl, trivial⟩⟩
  intro r hr
  simp only [sampleReqs, List.mem_cons, List.not_mem_nil, or_false] at hr
  rcases hr with h | h | h | h <;> subst h
  · exact ⟨⟨by decide, by decide⟩, (good_of_aligned _ _ 0 (by decide) (by decide)).1⟩
  · exact ⟨(show _ ≤ 84 by decide), (good_of_aligned [] _ 500 (by decide) (by decide)).2⟩
  · exact ⟨⟨by decide, by decide⟩, (good_of_aligned _ _ 0 (by decide) (by decide)).1⟩
  · exact ⟨(show _ ≤ 84 by decide), (good_of_aligned [] _ 1 (by decide) (by decide)).2⟩

/-! ### Deviations -/

/-- Additional input beyond 84 bytes is silently ignored. -/
theorem xdrbg_alpha_truncated (P : Par) (s : State) (sd a b : List Byte) (n : Nat) (ha : a.length = 84) :
    seed P s sd (a ++ b) = seed P s sd a ∧ generate P s (a ++ b) n = generate P s a n := by
  have he : ∀ n, encode n (a ++ b) = encode n a := by
    intro n
    unfold encode
    dsimp only
    have h1 : (if (a ++ b).length > 84 then 84 else (a ++ b).length) = 84 := by
      rw [List.length_append]; split <;> omega
    rw [h1, if_neg (by omega), ha, List.take_append_of_le_length (by omega)]
  constructor
  · unfold seed; rw [he, he]
  · unfold generate
    have : ∀ fuel s n out, genLoop P (a ++ b) fuel s n out = genLoop P a fuel s n out := by
      intro fuel
      induction fuel with
      | zero => intro s n out; rfl
      | succ fuel ih =>
        intro s n out
        rw [genLoop, genLoop]
        unfold fke
        rw [he, ih]
    exact this _ _ _ _

theorem xof128_oneshot (m : List Byte) (n : Nat) (hl : m.length < 2 ^ 64) :
    AsconHash.Spec.xof128 m n = (AsconHash.xof128 [m] [n]).flatten := by
  have h := (xof128_computes [m] [n] ⟨fun h => absurd (Nat.zero_mod 8) h, trivial⟩ (by simpa using hl)).1
  rw [h]
  simp

/-- The full claim for XDRBG128: different instantiations use different XOF inputs, hence the states
they produce are those of the standard. -/
def Xdrbg128Claim : Prop :=
  ∀ sd a : List Byte, a.length ≤ 84 → sd.length < 2 ^ 63 →
    (seed par128 (zero par128) sd a).v = Spec.instantiate AsconHash.Spec.xof128 32 sd a

/-- It is false: because of the defect in the Ascon hash (C04), these two different (seed,
additional input) pairs give the same generator, although their XOF inputs differ. -/
theorem xdrbg128_seed_collision :
    seed par128 (zero par128) [0, 0, 0] [0, 0, 0, 0] = seed par128 (zero par128) [5, 1, 0, 0] [0, 0, 0, 4] ∧
    Spec.input (.instantiate [0, 0, 0] [0, 0, 0, 0]) ≠ Spec.input (.instantiate [5, 1, 0, 0] [0, 0, 0, 4]) := by
  decide +kernel

theorem xdrbg128_claim_false : ¬ Xdrbg128Claim := by
  intro h
  have h1 := h [0, 0, 0] [0, 0, 0, 0] (by decide) (by decide)
  unfold Spec.instantiate at h1
  rw [xof128_oneshot _ _ (by decide)] at h1
  revert h1
  decide +kernel

/-- `generate` with 7 bytes of additional input deviates from the standard for XDRBG128. -/
theorem xdrbg128_generate_deviates :
    (generate par128 { v := List.replicate 32 0, seeded := true } [1, 2, 3, 4, 5, 6, 7] 1).2 ≠
      (Spec.generate AsconHash.Spec.xof128 32 (List.replicate 32 0) 1 [1, 2, 3, 4, 5, 6, 7]).2 := by
  unfold Spec.generate
  dsimp only
  rw [xof128_oneshot _ _ (by decide)]
  decide +kernel

/-- An unseeded generator is not refused; its output is a constant known to everybody. -/
theorem xdrbg256_unseeded_output (a : List Byte) (ha : a.length ≤ 84) (n : Nat) :
    (step par256 (zero par256) (.generate a n)).2 =
      (0, (Spec.generates Spec.shake256 64 a (List.replicate 64 0) (Spec.split 208 n)).2) := by
  have g := genLoop_eq shake256_computes (k := 64) (c := 208) (by omega) (by omega) ha
    (fun _ _ => trivial) n (zero par256) n [] (Nat.le_refl _) List.length_replicate
  refine congrArg (fun y => ((0 : Int), y)) ?_
  exact g.2.1

end LC.Drbg.Xdrbg
