import Verif.Kernel.BikeModel
/-
C139: BIKE of the kernel module.
-/
namespace LC.Kernel.Bike

/-- The KEM behaves for this secret key and randomness: lengths, and decapsulation inverts
encapsulation. -/
structure Good (k : Kem) (sk rnd ct s : List Byte) : Prop where
  pkLen : (k.pkOf sk).length = k.pkLen
  pkPos : 0 < k.pkLen
  ctPos : 0 < k.ctLen
  enc : k.enc (k.pkOf sk) rnd = some (ct, s)
  ctLen : ct.length = k.ctLen
  sLen : s.length = 32
  dec : k.dec sk ct = some s

/-- **C139 (part: agreement).** Initiator and responder following the protocol, whatever their handles
did before, get the same secret of 32 bytes. -/
theorem c139_agree (k : Kem) (ci cr : Ctx) (rnd ct s rnd0 : List Byte) (h : Good k ci.sk rnd ct s)
    (len0 room0 len1 room1 room2 room3 : Nat) (h0 : k.pkLen ≤ room0) (h1 : k.ctLen ≤ len1)
    (h1' : k.ctLen ≤ room1) (h2 : 32 ≤ room2) (h3 : 32 ≤ room3) :
    ∃ cr' cr'',
      genCt k ci ⟨[], len0, room0⟩ rnd0 = (ci, 0, k.pkOf ci.sk) ∧
      genCt k cr ⟨k.pkOf ci.sk, len1, room1⟩ rnd = (cr', 0, ct) ∧
      ss k ci ⟨ct, 32, room2⟩ = (ci, 0, s) ∧
      ss k cr' ⟨[], 32, room3⟩ = (cr'', 0, s) := by
  have e1 := h.pkLen
  have e2 := h.ctLen
  have e3 := h.sLen
  have p1 := h.pkPos
  have p2 := h.ctPos
  refine ⟨{ cr with ct := ct, ss := s, ssSet := true },
    { cr with ct := List.replicate k.ctLen 0, ss := List.replicate 32 0, ssSet := false }, ?_, ?_, ?_, ?_⟩
  · unfold genCt
    rw [if_pos (by simp; omega)]
    have : (k.pkOf ci.sk).take room0 = k.pkOf ci.sk := List.take_of_length_le (by omega)
    simp [this, e1]
  · unfold genCt
    rw [if_neg (by simpa using e1)]
    have a1 : min k.ctLen len1 = k.ctLen := by omega
    have a2 : ct.take k.ctLen = ct := List.take_of_length_le (by omega)
    have a3 : ct.take room1 = ct := List.take_of_length_le (by omega)
    simp [h.enc, a1, a2, a3, e2]
  · unfold ss
    rw [if_neg (by simp), if_neg (by simp), if_neg (by simp only; omega), if_neg (by simp [e2]),
      if_neg (by simp)]
    have a2 : s.take 32 = s := List.take_of_length_le (by omega)
    have a3 : s.take room2 = s := List.take_of_length_le (by omega)
    simp [h.dec, a2, a3, e3]
  · unfold ss
    rw [if_neg (by simp), if_neg (by simp), if_pos (by simp)]
    unfold ssLocal
    have a2 : s.take 32 = s := List.take_of_length_le (by omega)
    have a3 : s.take room3 = s := List.take_of_length_le (by omega)
    simp [a2, a3, e3]

/-- What `ss` changes: nothing, or the secret of the responder is used up. -/
theorem ss_ctx (k : Kem) (c : Ctx) (r : Req) :
    ((ss k c r).1 = c ∧ (r.src.length = 0 → (ss k c r).2.2 = [])) ∨
    (c.ssSet = true ∧ r.src.length = 0 ∧ r.dstLen = 32 ∧
      (ss k c r).1 = { c with ss := List.replicate 32 0, ct := List.replicate k.ctLen 0, ssSet := false }) := by
  unfold ss
  by_cases h1 : r.dstLen > 2 * 32 + 2 * 16 + 2 * 32
  · left; simp [h1]
  · by_cases h2 : r.dstLen = 0
    · left; simp [h2]
    · rw [if_neg h1, if_neg h2]
      by_cases h3 : r.src.length = 0
      · rw [if_pos h3]
        unfold ssLocal
        cases hs : c.ssSet with
        | false => left; simp
        | true =>
          by_cases h5 : r.dstLen ≠ 32
          · left; simp [h5]
          · right
            have h5 : r.dstLen = 32 := by simpa using h5
            exact ⟨rfl, h3, h5, by simp [h5]⟩
      · left
        rw [if_neg h3]
        refine ⟨?_, fun h => absurd h h3⟩
        by_cases h4 : r.src.length ≠ k.ctLen
        · rw [if_pos h4]
        · rw [if_neg h4]
          by_cases h5 : r.dstLen ≠ 32
          · rw [if_pos h5]
          · rw [if_neg h5]
            cases k.dec c.sk r.src <;> rfl

/-- What `genCt` changes: nothing, or a new secret is there. -/
theorem genCt_ctx (k : Kem) (c : Ctx) (r : Req) (rnd : List Byte) :
    (genCt k c r rnd).1 = c ∨
    (r.src.length = k.pkLen ∧ ∃ ct s, k.enc r.src rnd = some (ct, s) ∧
      (genCt k c r rnd).1 = { c with ct := ct, ss := s, ssSet := true }) := by
  unfold genCt
  by_cases h1 : r.src.length ≠ k.pkLen
  · left
    rw [if_pos h1]
  · rw [if_neg h1]
    cases h3 : k.enc r.src rnd with
    | none => left; rfl
    | some p =>
      right
      exact ⟨by simpa using h1, p.1, p.2, rfl, rfl⟩

/-- What `setSecret` changes: the secret key. -/
theorem setSecret_ctx (k : Kem) (c : Ctx) (b rnd : List Byte) :
    ∃ sk, (setSecret k c b rnd).1 = { c with sk := sk } := by
  unfold setSecret
  by_cases h1 : b.length = 0
  · rw [if_pos h1]
    cases k.keypair rnd with
    | none => exact ⟨c.sk, rfl⟩
    | some sk => exact ⟨sk, rfl⟩
  · rw [if_neg h1]
    by_cases h2 : b.length ≠ k.skLen
    · rw [if_pos h2]; exact ⟨c.sk, rfl⟩
    · rw [if_neg h2]; exact ⟨b, rfl⟩

/-- Whether a call produced a new secret on the responder side. -/
def encapsulates (k : Kem) (_ : Ctx) (o : Op) : Bool :=
  match o with
  | .genCt r rnd => r.src.length = k.pkLen ∧ (k.enc r.src rnd).isSome
  | _ => false

/-- Whether a call handed out bytes of the responder's secret. -/
def handsOut (k : Kem) (c : Ctx) (o : Op) : Bool :=
  match o with
  | .ss r => r.src.length = 0 ∧ (ss k c r).2.2 ≠ []
  | _ => false

/-- Number of calls for which `f` holds. -/
def count (f : Ctx → Op → Bool) (k : Kem) (c : Ctx) : List Op → Nat
  | [] => 0
  | o :: os => (if f c o then 1 else 0) + count f k (step k c o).1 os

theorem step_once (k : Kem) (c : Ctx) (o : Op) :
    (handsOut k c o = true → c.ssSet = true ∧ (step k c o).1.ssSet = false) ∧
    ((step k c o).1.ssSet = true → c.ssSet = true ∨ encapsulates k c o = true) := by
  cases o with
  | setSecret b rnd =>
    refine ⟨(fun h => by cases h), ?_⟩
    obtain ⟨sk, e⟩ := setSecret_ctx k c b rnd
    simp only [step, e]
    exact Or.inl
  | genCt r rnd =>
    refine ⟨(fun h => by cases h), ?_⟩
    simp only [step]
    rcases genCt_ctx k c r rnd with e | ⟨h1, ct, s, h2, e⟩
    · rw [e]; exact Or.inl
    · intro _; right; simp [encapsulates, h1, h2]
  | ss r =>
    simp only [step]
    rcases ss_ctx k c r with ⟨e, h⟩ | ⟨h1, h2, _, e⟩
    · rw [e]
      refine ⟨?_, Or.inl⟩
      intro hh
      simp only [handsOut, decide_eq_true_eq] at hh
      exact absurd (h hh.1) hh.2
    · rw [e]
      exact ⟨fun _ => ⟨h1, rfl⟩, fun h => by cases h⟩

/-- **C139 (part: single use).** In every sequence of calls on a new handle there are at most as many
secrets handed out on the responder side as encapsulations. -/
theorem c139_once (k : Kem) (ops : List Op) :
    count (handsOut k) k (start k) ops ≤ count (encapsulates k) k (start k) ops := by
  have key : ∀ (ops : List Op) (c : Ctx),
      count (handsOut k) k c ops ≤ count (encapsulates k) k c ops + (if c.ssSet then 1 else 0) := by
    intro ops
    induction ops with
    | nil => intro c; simp [count]
    | cons o os ih =>
      intro c
      obtain ⟨g1, g2⟩ := step_once k c o
      have := ih (step k c o).1
      simp only [count]
      cases hh : handsOut k c o <;> cases he : encapsulates k c o <;> cases hc : c.ssSet <;>
        cases hn : (step k c o).1.ssSet <;> simp [hh, he, hc, hn] at g1 g2 this ⊢ <;> omega
  have := key ops (start k)
  simpa [start] using this

/-- **C139 (part: wiping).** After any sequence of calls, a handle without a secret pending holds
neither secret nor ciphertext. -/
theorem c139_wiped (k : Kem) (ops : List Op) (h : (after k ops).ssSet = false) :
    (after k ops).ss = List.replicate 32 0 ∧ (after k ops).ct = List.replicate k.ctLen 0 := by
  have key : ∀ (ops : List Op) (c : Ctx),
      (c.ssSet = false → c.ss = List.replicate 32 0 ∧ c.ct = List.replicate k.ctLen 0) →
      ((ops.foldl (fun c o => (step k c o).1) c).ssSet = false →
        (ops.foldl (fun c o => (step k c o).1) c).ss = List.replicate 32 0 ∧
        (ops.foldl (fun c o => (step k c o).1) c).ct = List.replicate k.ctLen 0) := by
    intro ops
    induction ops with
    | nil => intro c h; exact h
    | cons o os ih =>
      intro c hc
      rw [List.foldl_cons]
      apply ih
      cases o with
      | setSecret b rnd =>
        obtain ⟨sk, e⟩ := setSecret_ctx k c b rnd
        simp only [step, e]
        exact hc
      | genCt r rnd =>
        simp only [step]
        rcases genCt_ctx k c r rnd with e | ⟨_, ct, s, _, e⟩
        · rw [e]; exact hc
        · rw [e]; intro h; cases h
      | ss r =>
        simp only [step]
        rcases ss_ctx k c r with ⟨e, _⟩ | ⟨_, _, _, e⟩
        · rw [e]; exact hc
        · rw [e]; intro _; exact ⟨rfl, rfl⟩
  exact key ops (start k) (fun _ => ⟨rfl, rfl⟩) h

theorem n1 : (-1 : Int) < 0 := by decide
theorem n22 : (-22 : Int) < 0 := by decide
theorem n75 : (-75 : Int) < 0 := by decide
theorem n95 : (-95 : Int) < 0 := by decide

/-- The error codes are negative. -/
local macro "neg" : tactic => `(tactic| first | exact n22 | exact n75 | exact n95 | exact n1)

/-- **C139 (part: refusals).** Secrets of another length than 32 bytes, ciphertexts of a wrong length and
requests for the secret without an encapsulation are refused without output and without a change of
the handle; a secret, an own public key or a ciphertext which does not fit into the destination is
reported. -/
theorem c139_refuses (k : Kem) (c : Ctx) (r : Req) (rnd : List Byte) :
    (r.dstLen ≠ 32 ∨ (r.src ≠ [] ∧ r.src.length ≠ k.ctLen) ∨ (r.src = [] ∧ c.ssSet = false) →
      (ss k c r).1 = c ∧ (ss k c r).2.1 < 0 ∧ (ss k c r).2.2 = []) ∧
    (r.room < 32 → (ss k c r).2.1 < 0) ∧
    (r.src.length ≠ k.pkLen → r.room < k.pkLen → (genCt k c r rnd).1 = c ∧ (genCt k c r rnd).2.1 < 0) ∧
    (r.src.length = k.pkLen → r.room < min k.ctLen r.dstLen → (genCt k c r rnd).2.1 < 0) := by
  refine ⟨?_, ?_, ?_, ?_⟩
  · intro h
    unfold ss
    by_cases h1 : r.dstLen > 2 * 32 + 2 * 16 + 2 * 32
    · rw [if_pos h1]
      exact ⟨rfl, by neg, rfl⟩
    · rw [if_neg h1]
      by_cases h2 : r.dstLen = 0
      · rw [if_pos h2]
        exact ⟨rfl, by neg, rfl⟩
      · rw [if_neg h2]
        by_cases h3 : r.src.length = 0
        · rw [if_pos h3]
          unfold ssLocal
          cases hs : c.ssSet with
          | false => exact ⟨rfl, by neg, rfl⟩
          | true =>
            have h5 : r.dstLen ≠ 32 := by
              rcases h with h | ⟨h, _⟩ | ⟨_, h⟩
              · exact h
              · exact absurd (List.length_eq_zero_iff.1 h3) h
              · rw [hs] at h; cases h
            simp only [Bool.not_true, Bool.false_eq_true, if_false]
            rw [if_pos h5]
            exact ⟨rfl, by neg, rfl⟩
        · rw [if_neg h3]
          by_cases h4 : r.src.length ≠ k.ctLen
          · rw [if_pos h4]
            exact ⟨rfl, by neg, rfl⟩
          · rw [if_neg h4]
            have h5 : r.dstLen ≠ 32 := by
              rcases h with h | ⟨_, h⟩ | ⟨h, _⟩
              · exact h
              · exact absurd h h4
              · rw [h] at h3; exact absurd rfl h3
            rw [if_pos h5]
            exact ⟨rfl, by neg, rfl⟩
  · intro h
    unfold ss
    by_cases h1 : r.dstLen > 2 * 32 + 2 * 16 + 2 * 32
    · rw [if_pos h1]; neg
    · rw [if_neg h1]
      by_cases h2 : r.dstLen = 0
      · rw [if_pos h2]; neg
      · rw [if_neg h2]
        by_cases h3 : r.src.length = 0
        · rw [if_pos h3]
          unfold ssLocal
          cases c.ssSet with
          | false => neg
          | true =>
            simp only [Bool.not_true, Bool.false_eq_true, if_false]
            by_cases h5 : r.dstLen ≠ 32
            · rw [if_pos h5]; neg
            · rw [if_neg h5]
              have : ((c.ss.take r.dstLen).take r.room).length ≠ r.dstLen := by
                rw [List.length_take]; omega
              simp only
              rw [if_pos this]
              neg
        · rw [if_neg h3]
          by_cases h4 : r.src.length ≠ k.ctLen
          · rw [if_pos h4]; neg
          · rw [if_neg h4]
            by_cases h5 : r.dstLen ≠ 32
            · rw [if_pos h5]; neg
            · rw [if_neg h5]
              cases k.dec c.sk r.src with
              | none => neg
              | some s =>
                have : ((s.take r.dstLen).take r.room).length ≠ r.dstLen := by
                  rw [List.length_take]; omega
                simp only
                rw [if_pos this]
                neg
  · intro h1 h2
    unfold genCt
    rw [if_pos h1]
    have : ((k.pkOf c.sk).take r.room).length ≠ k.pkLen := by rw [List.length_take]; omega
    simp only
    rw [if_pos this]
    exact ⟨trivial, by neg⟩
  · intro h1 h2
    unfold genCt
    rw [if_neg (by simpa using h1)]
    cases k.enc r.src rnd with
    | none => neg
    | some p =>
      have : ((p.1.take (min k.ctLen r.dstLen)).take r.room).length ≠ min k.ctLen r.dstLen := by
        rw [List.length_take]; omega
      simp only
      rw [if_pos this]
      neg

/-- **C139 (negation: ciphertext cut).** With `dst_len` smaller than the ciphertext the ciphertext is cut
and the call succeeds. -/
theorem c139_negation_truncated (k : Kem) (c : Ctx) (r : Req) (rnd ct s : List Byte)
    (h : r.src.length = k.pkLen) (he : k.enc r.src rnd = some (ct, s)) (hl : ct.length = k.ctLen)
    (hd : r.dstLen < k.ctLen) (hr : r.dstLen ≤ r.room) :
    (genCt k c r rnd).2 = (0, ct.take r.dstLen) ∧ (ct.take r.dstLen).length < ct.length := by
  unfold genCt
  rw [if_neg (by simpa using h)]
  have a1 : min k.ctLen r.dstLen = r.dstLen := by omega
  have a2 : (ct.take r.dstLen).take r.room = ct.take r.dstLen :=
    List.take_of_length_le (by rw [List.length_take]; omega)
  have a3 : (ct.take r.dstLen).length = r.dstLen := by rw [List.length_take]; omega
  simp only [he, a1, a2, a3, ne_eq, not_true_eq_false, if_false, true_and]
  omega

/-- **C139 (negation: wrong key length).** A remote public key of a wrong length is not refused; the own
public key is returned in place of a ciphertext. -/
theorem c139_negation_wrong_pk (k : Kem) (c : Ctx) (hp : (k.pkOf c.sk).length = k.pkLen) (r : Req)
    (h : r.src.length ≠ k.pkLen) (hr : k.pkLen ≤ r.room) (rnd : List Byte) :
    genCt k c r rnd = (c, 0, k.pkOf c.sk) := by
  unfold genCt
  rw [if_pos h]
  have : (k.pkOf c.sk).take r.room = k.pkOf c.sk := List.take_of_length_le (by omega)
  simp [this, hp]

/-! ### Cases -/

/-- A toy KEM with the sizes of BIKE-1. -/
def toy : Kem where
  pkLen := 1541
  ctLen := 1573
  skLen := 5223
  pkOf sk := List.replicate 1541 (sk.headD 0)
  keypair r := some (List.replicate 5223 (r.headD 0))
  enc _ r := some (List.replicate 1573 (r.headD 0), List.replicate 32 (r.headD 0))
  dec _ ct := some (List.replicate 32 (ct.headD 0))

/-- Non-vacuity of `c139_agree` and of the negations. -/
example : Good toy (List.replicate 5223 5) [7] (List.replicate 1573 7) (List.replicate 32 7) where
  pkLen := List.length_replicate
  pkPos := by decide
  ctPos := by decide
  enc := rfl
  ctLen := List.length_replicate
  sLen := List.length_replicate
  dec := rfl

/-- One encapsulation, three requests for the secret (one of a wrong length), one secret; nothing
left. -/
example : count (handsOut toy) toy (start toy)
      [.genCt ⟨List.replicate 1541 3, 1573, 1573⟩ [7], .ss ⟨[], 16, 16⟩, .ss ⟨[], 32, 32⟩, .ss ⟨[], 32, 32⟩] = 1 ∧
    count (encapsulates toy) toy (start toy)
      [.genCt ⟨List.replicate 1541 3, 1573, 1573⟩ [7], .ss ⟨[], 16, 16⟩, .ss ⟨[], 32, 32⟩] = 1 ∧
    (after toy [.genCt ⟨List.replicate 1541 3, 1573, 1573⟩ [7], .ss ⟨[], 32, 32⟩]).ssSet = false := by
  decide +kernel

end LC.Kernel.Bike
