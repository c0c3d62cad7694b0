import Verif.Kernel.KyberModel
/-
C135: ML-KEM of the kernel module.
-/
namespace LC.Kernel.Kyber

/-- The KEM behaves for this secret key and randomness: lengths, and decapsulation inverts
encapsulation; the key derivation writes all bytes for 4 or more. -/
structure Good (k : Kem) (sk rnd : List Byte) : Prop where
  pkLen : (k.pkOf sk).length = k.pkLen
  pos : 0 < k.ctLen
  enc : ∃ ct s, k.enc (k.pkOf sk) rnd = some (ct, s) ∧ ct.length = k.ctLen ∧ s.length = 32 ∧ k.dec sk ct = some s
  kdf : ∀ n ct s, 4 ≤ n → ∃ x, k.kdf n ct s = some x ∧ x.length = n

theorem derive_len (k : Kem) (sk rnd : List Byte) (h : Good k sk rnd) (n : Nat) (hn : 4 ≤ n) (ct s : List Byte)
    (hs : s.length = 32) : (∀ mem mem', derive k n ct s mem = derive k n ct s mem') ∧
      ∀ mem, (derive k n ct s mem).length = n := by
  unfold derive
  by_cases e : n = 32
  · simp [e, hs]
  · obtain ⟨x, hx, hl⟩ := h.kdf n ct s hn
    simp [e, hx, hl]

/-- C135, secrets of at least 4 bytes: initiator and responder following the protocol get the same
secret of the length asked for, whatever their handles did before and whatever the allocated memory
holds.  Missing: shorter secrets, see `c135_negation_short`. -/
theorem c135_agree_partial (k : Kem) (ci cr : Ctx) (rnd : List Byte) (h : Good k ci.sk rnd)
    (hp : k.pkLen ≠ 0) (n : Nat) (hn : 4 ≤ n) (hn2 : n ≤ 160)
    (room0 len0 room1 len1 room2 room3 : Nat) (h0 : k.pkLen ≤ room0) (h1 : k.ctLen ≤ room1)
    (h1' : k.ctLen ≤ len1) (h2 : n ≤ room2) (h3 : n ≤ room3) (rnd0 mem mem' : List Byte) :
    ∃ pk ct secret ci' cr' cr'',
      genCt k ci ⟨[], len0, room0⟩ rnd0 = (ci', 0, pk) ∧
      genCt k cr ⟨pk, len1, room1⟩ rnd = (cr', 0, ct) ∧
      ss k ci' ⟨ct, n, room2⟩ mem = (ci', 0, secret) ∧
      ss k cr' ⟨[], n, room3⟩ mem' = (cr'', 0, secret) ∧ secret.length = n := by
  obtain ⟨ct, s, e1, e2, e3, e4⟩ := h.enc
  have hpos := h.pos
  obtain ⟨d1, d2⟩ := derive_len k ci.sk rnd h n hn ct s e3
  refine ⟨k.pkOf ci.sk, ct, derive k n ct s mem, ci, { cr with ct := ct, ss := s, ssSet := true },
    { cr with ct := List.replicate k.ctLen 0, ss := List.replicate 32 0, ssSet := false }, ?_, ?_, ?_, ?_, d2 mem⟩
  · unfold genCt
    rw [if_pos (by simpa using hp.symm)]
    have : (k.pkOf ci.sk).take room0 = k.pkOf ci.sk := List.take_of_length_le (by rw [h.pkLen]; exact h0)
    simp [this, h.pkLen]
  · unfold genCt
    rw [if_neg (by simpa using h.pkLen)]
    simp only [e1]
    have a1 : ct.take (min k.ctLen len1) = ct := List.take_of_length_le (by omega)
    have a2 : ct.take room1 = ct := List.take_of_length_le (by omega)
    rw [a1, a2]
  · unfold ss
    rw [if_neg (by simp; omega), if_neg (by simp; omega), if_neg (by simp only; omega), if_neg (by simp [e2])]
    simp only [e4]
    have a1 : (derive k n ct s mem).take room2 = derive k n ct s mem := List.take_of_length_le (by rw [d2]; exact h2)
    simp [a1, d2]
  · unfold ss
    rw [if_neg (by simp; omega), if_neg (by simp; omega), if_pos (by simp)]
    unfold ssLocal
    have a1 : (derive k n ct s mem').take room3 = derive k n ct s mem := by
      rw [d1 mem' mem]
      exact List.take_of_length_le (by rw [d2]; exact h3)
    simp only [Bool.not_true, Bool.false_eq_true, if_false]
    rw [a1, d2]
    simp

/-- Whether a call produced a new secret on the responder side. -/
def encapsulates (k : Kem) (c : Ctx) (o : Op) : Bool :=
  match o with
  | .genCt r rnd => r.src.length = k.pkLen ∧ (k.enc r.src rnd).isSome
  | _ => false

/-- Whether a call handed out the responder's secret. -/
def handsOut (k : Kem) (c : Ctx) (o : Op) : Bool :=
  match o with
  | .ss r mem => r.src.length = 0 ∧ (ss k c r mem).2.2 ≠ []
  | _ => false

def count (f : Ctx → Op → Bool) (k : Kem) (c : Ctx) : List Op → Nat
  | [] => 0
  | o :: os => (if f c o then 1 else 0) + count f k (step k c o).1 os

theorem step_once (k : Kem) (c : Ctx) (o : Op) :
    (handsOut k c o = true → c.ssSet = true ∧ (step k c o).1.ssSet = false) ∧
    ((step k c o).1.ssSet = true → c.ssSet = true ∨ encapsulates k c o = true) := by
  cases o with
  | setSecret b rnd =>
    refine ⟨(fun h => by cases h), ?_⟩
    simp only [step, setSecret]
    by_cases h1 : b.length = 0
    · rw [if_pos h1]
      cases k.keypair rnd <;> exact Or.inl
    · rw [if_neg h1]
      by_cases h2 : b.length ≠ k.skLen
      · rw [if_pos h2]; exact Or.inl
      · rw [if_neg h2]; exact Or.inl
  | genCt r rnd =>
    refine ⟨(fun h => by cases h), ?_⟩
    simp only [step, genCt, encapsulates]
    by_cases h1 : r.src.length = k.pkLen
    · rw [if_neg (by simpa using h1)]
      cases he : k.enc r.src rnd with
      | none => exact Or.inl
      | some p => intro _; right; simp [h1]
    · rw [if_pos h1]; exact Or.inl
  | ss r mem =>
    simp only [step, ss, handsOut, encapsulates]
    by_cases h1 : r.dstLen > 2 * 32 + 2 * 16 + 2 * 32
    · simp [h1]
    · by_cases h2 : r.dstLen = 0
      · simp [h2]
      · by_cases h3 : r.src.length = 0
        · simp only [if_neg h1, if_neg h2, if_pos h3, ssLocal]
          cases hs : c.ssSet <;> simp [hs]
        · simp only [if_neg h1, if_neg h2, if_neg h3]
          refine ⟨(fun h => by simp [h3] at h), ?_⟩
          by_cases h4 : r.src.length ≠ k.ctLen
          · rw [if_pos h4]; exact Or.inl
          · rw [if_neg h4]
            cases k.dec c.sk r.src <;> exact Or.inl

/-- C135: in every sequence of calls on a new handle, the secret of an encapsulation is handed out at
most once: there are at most as many secrets as encapsulations. -/
theorem c135_once (k : Kem) (ops : List Op) :
    count (handsOut k) k (start k) ops ≤ count (encapsulates k) k (start k) ops := by
  have key : ∀ (ops : List Op) (c : Ctx),
      count (handsOut k) k c ops ≤ count (encapsulates k) k c ops + (if c.ssSet then 1 else 0) := by
    intro ops
    induction ops with
    | nil => intro c; simp [count]
    | cons o os ih =>
      intro c
      obtain ⟨g1, g2⟩ := step_once k c o
      have := ih (step k c o).1
      simp only [count]
      cases hh : handsOut k c o <;> cases he : encapsulates k c o <;> cases hc : c.ssSet <;>
        cases hn : (step k c o).1.ssSet <;> simp [hh, he, hc, hn] at g1 g2 this ⊢ <;> omega
  have := key ops (start k)
  simpa [start] using this

/-- C135: after any sequence of calls, a handle without a secret pending holds neither secret nor
ciphertext. -/
theorem c135_wiped (k : Kem) (ops : List Op) (h : (ops.foldl (fun c o => (step k c o).1) (start k)).ssSet = false) :
    (ops.foldl (fun c o => (step k c o).1) (start k)).ss = List.replicate 32 0 ∧
    (ops.foldl (fun c o => (step k c o).1) (start k)).ct = List.replicate k.ctLen 0 := by
  have key : ∀ (ops : List Op) (c : Ctx),
      (c.ssSet = false → c.ss = List.replicate 32 0 ∧ c.ct = List.replicate k.ctLen 0) →
      ((ops.foldl (fun c o => (step k c o).1) c).ssSet = false →
        (ops.foldl (fun c o => (step k c o).1) c).ss = List.replicate 32 0 ∧
        (ops.foldl (fun c o => (step k c o).1) c).ct = List.replicate k.ctLen 0) := by
    intro ops
    induction ops with
    | nil => intro c h; exact h
    | cons o os ih =>
      intro c hc
      rw [List.foldl_cons]
      apply ih
      cases o with
      | setSecret b rnd =>
        simp only [step, setSecret]
        by_cases h1 : b.length = 0
        · rw [if_pos h1]; cases k.keypair rnd <;> exact hc
        · rw [if_neg h1]
          by_cases h2 : b.length ≠ k.skLen
          · rw [if_pos h2]; exact hc
          · rw [if_neg h2]; exact hc
      | genCt r rnd =>
        simp only [step, genCt]
        by_cases h1 : r.src.length ≠ k.pkLen
        · rw [if_pos h1]; exact hc
        · rw [if_neg h1]
          cases k.enc r.src rnd with
          | none => exact hc
          | some p => intro h; cases h
      | ss r mem =>
        simp only [step, ss]
        by_cases h1 : r.dstLen > 2 * 32 + 2 * 16 + 2 * 32
        · rw [if_pos h1]; exact hc
        · rw [if_neg h1]
          by_cases h2 : r.dstLen = 0
          · rw [if_pos h2]; exact hc
          · rw [if_neg h2]
            by_cases h3 : r.src.length = 0
            · rw [if_pos h3]
              unfold ssLocal
              cases hs : c.ssSet with
              | true => intro _; exact ⟨rfl, rfl⟩
              | false => intro _; exact hc hs
            · rw [if_neg h3]
              by_cases h4 : r.src.length ≠ k.ctLen
              · rw [if_pos h4]; exact hc
              · rw [if_neg h4]; cases k.dec c.sk r.src <;> exact hc
  exact key ops (start k) (fun _ => ⟨rfl, rfl⟩) h

theorem n1 : (-1 : Int) < 0 := by decide
theorem n22 : (-22 : Int) < 0 := by decide
theorem n75 : (-75 : Int) < 0 := by decide
theorem n95 : (-95 : Int) < 0 := by decide

/-- The error codes are negative. -/
local macro "neg" : tactic => `(tactic| first | exact n22 | exact n75 | exact n95 | exact n1)

/-- C135: ciphertexts of a wrong length, secrets longer than 160 bytes or of no length are refused
without a change of the handle and without output; a secret or an own public key which does not fit is reported,
and so is a request for the secret without an encapsulation. -/
theorem c135_refuses (k : Kem) (c : Ctx) (r : Req) (rnd mem : List Byte) :
    (160 < r.dstLen ∨ r.dstLen = 0 ∨ (r.src ≠ [] ∧ r.src.length ≠ k.ctLen) ∨ (r.src = [] ∧ c.ssSet = false) →
      (ss k c r mem).1 = c ∧ (ss k c r mem).2.1 < 0 ∧ (ss k c r mem).2.2 = []) ∧
    (r.room < r.dstLen → (ss k c r mem).2.1 < 0) ∧
    (r.src.length ≠ k.pkLen → r.room < k.pkLen → (genCt k c r rnd).1 = c ∧ (genCt k c r rnd).2.1 < 0) := by
  refine ⟨?_, ?_, ?_⟩
  · intro h
    unfold ss
    by_cases h1 : r.dstLen > 2 * 32 + 2 * 16 + 2 * 32
    · rw [if_pos h1]
      exact ⟨rfl, by neg, rfl⟩
    · rw [if_neg h1]
      by_cases h2 : r.dstLen = 0
      · rw [if_pos h2]
        exact ⟨rfl, by neg, rfl⟩
      · rw [if_neg h2]
        rcases h with h | h | ⟨h, h'⟩ | ⟨h, h'⟩
        · omega
        · exact absurd h h2
        · rw [if_neg (by simpa using h), if_pos h']
          exact ⟨rfl, by neg, rfl⟩
        · rw [if_pos (by simp [h])]
          unfold ssLocal
          rw [h']
          exact ⟨rfl, by neg, rfl⟩
  · intro h
    unfold ss
    by_cases h1 : r.dstLen > 2 * 32 + 2 * 16 + 2 * 32
    · rw [if_pos h1]; neg
    · rw [if_neg h1]
      by_cases h2 : r.dstLen = 0
      · rw [if_pos h2]; neg
      · rw [if_neg h2]
        by_cases h3 : r.src.length = 0
        · rw [if_pos h3]
          unfold ssLocal
          cases c.ssSet with
          | false => neg
          | true =>
            have : ((derive k r.dstLen c.ct c.ss mem).take r.room).length ≠ r.dstLen := by
              rw [List.length_take]; omega
            simp only [Bool.not_true, Bool.false_eq_true, if_false]
            rw [if_pos this]
            neg
        · rw [if_neg h3]
          by_cases h4 : r.src.length ≠ k.ctLen
          · rw [if_pos h4]; neg
          · rw [if_neg h4]
            cases k.dec c.sk r.src with
            | none => neg
            | some s =>
              have : ((derive k r.dstLen r.src s mem).take r.room).length ≠ r.dstLen := by
                rw [List.length_take]; omega
              simp only
              rw [if_pos this]
              neg
  · intro h1 h2
    unfold genCt
    rw [if_pos h1]
    have : ((k.pkOf c.sk).take r.room).length ≠ k.pkLen := by rw [List.length_take]; omega
    simp only
    rw [if_pos this]
    exact ⟨trivial, by neg⟩

/-- C135 is violated: for secrets of 1 to 3 bytes the key derivation writes nothing and the call
returns, with code 0, whatever the allocated memory held. -/
theorem c135_negation_short (k : Kem) (c : Ctx) (hk : ∀ n ct s, n < 4 → k.kdf n ct s = none) (n : Nat) (h0 : 0 < n)
    (hn : n < 4) (hs : c.ssSet = true) (mem : List Byte) (hm : n ≤ mem.length) :
    (ss k c ⟨[], n, n⟩ mem).2 = (0, mem.take n) := by
  have hd : derive k n c.ct c.ss mem = mem.take n := by
    unfold derive
    rw [if_neg (by omega), hk _ _ _ hn]
    rfl
  unfold ss
  rw [if_neg (by simp; omega), if_neg (by simp; omega), if_pos (by simp)]
  unfold ssLocal
  simp only [hs, Bool.not_true, Bool.false_eq_true, if_false, hd, List.take_take, Nat.min_self, List.length_take,
    Nat.min_eq_left hm, ne_eq, not_true_eq_false]

/-- C135 is violated: a remote public key of a wrong length is not refused; the own public key is
returned in place of a ciphertext. -/
theorem c135_negation_wrong_pk (k : Kem) (c : Ctx) (hp : (k.pkOf c.sk).length = k.pkLen) (r : Req)
    (h : r.src.length ≠ k.pkLen) (hr : k.pkLen ≤ r.room) (rnd : List Byte) :
    genCt k c r rnd = (c, 0, k.pkOf c.sk) := by
  unfold genCt
  rw [if_pos h]
  have : (k.pkOf c.sk).take r.room = k.pkOf c.sk := List.take_of_length_le (by omega)
  simp [this, hp]

/-- C135 is violated: a ciphertext which does not fit is cut without an error. -/
theorem c135_negation_truncated (k : Kem) (c : Ctx) (r : Req) (rnd ct s : List Byte) (h : r.src.length = k.pkLen)
    (he : k.enc r.src rnd = some (ct, s)) (hr : r.room < ct.length) :
    (genCt k c r rnd).2.1 = 0 ∧ (genCt k c r rnd).2.2.length < ct.length := by
  unfold genCt
  rw [if_neg (by simpa using h)]
  simp only [he, true_and, List.length_take]
  omega

/-- C135 is violated: for ML-KEM-512 and ML-KEM-768 the maximum output size reported is smaller than
the public key, which `generate_public_key` returns; a destination of this size makes it fail. -/
theorem c135_negation_maxsize (k : Kem) (c : Ctx) (hk : (k.pkLen, k.ctLen) ∈ [(800, 768), (1184, 1088)])
    (hp : (k.pkOf c.sk).length = k.pkLen) (rnd : List Byte) :
    (genCt k c ⟨[], maxSize k, maxSize k⟩ rnd).2.1 = -22 := by
  simp only [List.mem_cons, Prod.mk.injEq, List.not_mem_nil, or_false] at hk
  unfold genCt
  rw [if_pos (by simp; omega)]
  simp only [maxSize, List.length_take, hp]
  rw [if_pos (by omega)]

/-! ### Cases -/

/-- A toy KEM with the sizes of ML-KEM-512. -/
def toy : Kem where
  pkLen := 800
  ctLen := 768
  skLen := 1632
  pkOf sk := (sk ++ List.replicate 800 0).take 800
  keypair r := some (r.take 1632)
  enc pk r := some (r ++ pk.take (768 - r.length), (r ++ List.replicate 32 1).take 32)
  dec _ ct := some ((ct.take 2 ++ List.replicate 32 1).take 32)
  kdf n ct s := if n < 4 then none else some ((s ++ ct ++ List.replicate n 0).take n)

/-- Non-vacuity: the hypothesis of `c135_agree_partial` can be met, and those of the negations. -/
example : Good toy (List.replicate 1632 5) [7, 8] where
  pkLen := by decide +kernel
  pos := by decide
  enc := ⟨_, _, rfl, by decide +kernel, by decide +kernel, by decide +kernel⟩
  kdf n ct s h := ⟨_, if_neg (by omega), by simp; omega⟩

example : ∀ n ct s, n < 4 → toy.kdf n ct s = none := fun _ _ _ h => if_pos h

/-- The counters of `c135_once` count: one encapsulation, two requests for the secret, one secret. -/
example : count (handsOut toy) toy (start toy)
      [.genCt ⟨List.replicate 800 3, 768, 768⟩ [7, 8], .ss ⟨[], 32, 32⟩ [], .ss ⟨[], 32, 32⟩ []] = 1 ∧
    count (encapsulates toy) toy (start toy)
      [.genCt ⟨List.replicate 800 3, 768, 768⟩ [7, 8], .ss ⟨[], 32, 32⟩ [], .ss ⟨[], 32, 32⟩ []] = 1 := by
  decide +kernel

end LC.Kernel.Kyber
