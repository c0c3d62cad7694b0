import Verif.Kernel.HybridModel
/-
C137: ML-KEM/X25519 hybrid of the kernel module.
-/
namespace LC.Kernel.Hybrid

/-- The KEM behaves for the randomness given: lengths, and decapsulation inverts encapsulation. -/
structure Good (k : Kem) (rndI rnd pk sk ct s : List Byte) : Prop where
  kp : k.keypair rndI = some (pk, sk)
  pkLen : pk.length = k.pkLen
  pkPos : 0 < k.pkLen
  ctPos : 0 < k.ctLen
  enc : k.encKdf 160 pk rnd = some (ct, s)
  ctLen : ct.length = k.ctLen
  sLen : s.length = 160
  dec : k.decKdf 160 sk ct = some s

/-- **C137 (part: agreement).** Initiator and responder following the protocol, whatever their handles
did before, get the secrets asked for, of 1 to 160 bytes: both are the beginning of the same 160
bytes, so they are equal if the lengths are. -/
theorem c137_agree (k : Kem) (ci cr : Ctx) (rndI rnd pk sk ct s rnd0 : List Byte)
    (h : Good k rndI rnd pk sk ct s) (n m : Nat) (hn : 1 ≤ n) (hn2 : n ≤ 160) (hm : 1 ≤ m)
    (hm2 : m ≤ 160) (len0 len1 : Nat) (h0 : k.pkLen ≤ len0) (h1 : k.ctLen ≤ len1) :
    ∃ ci' cr' cr'',
      setSecret k ci [] rndI = (ci', 0) ∧
      genCt k ci' ⟨[], len0⟩ rnd0 = (ci', 0, pk) ∧
      genCt k cr ⟨pk, len1⟩ rnd = (cr', 0, ct) ∧
      ss k ci' ⟨ct, n⟩ = (ci', 0, s.take n) ∧
      ss k cr' ⟨[], m⟩ = (cr'', 0, s.take m) ∧
      (s.take n).length = n ∧ (s.take m).length = m := by
  have e1 := h.pkLen
  have e2 := h.ctLen
  have e3 := h.sLen
  have p1 := h.pkPos
  have p2 := h.ctPos
  have hl : ∀ i, i ≤ 160 → (s.take i).length = i := fun i hi => by
    rw [List.length_take]; omega
  refine ⟨{ ci with pk := pk, sk := sk, pubPresent := true },
    { cr with ct := ct, ss := s, ssSet := true },
    { cr with ct := List.replicate k.ctLen 0, ss := List.replicate m 0 ++ s.drop m, ssSet := false },
    ?_, ?_, ?_, ?_, ?_, hl n hn2, hl m hm2⟩
  · simp [setSecret, h.kp]
  · unfold genCt
    rw [if_pos (by simp; omega)]
    have : pk.take len0 = pk := List.take_of_length_le (by omega)
    simp [this, e1]
  · unfold genCt
    rw [if_neg (by simpa using e1), if_neg (by simp; omega)]
    have : ct.take len1 = ct := List.take_of_length_le (by omega)
    simp only [maxSs, h.enc, this]
  · unfold ss
    rw [if_neg (by simp [maxSs]; omega), if_neg (by simp; omega), if_neg (by simp only; omega),
      if_neg (by simp [e2])]
    simp only [maxSs, h.dec, hl n hn2]
    simp
  · unfold ss
    rw [if_neg (by simp [maxSs]; omega), if_neg (by simp; omega), if_pos (by simp)]
    unfold ssLocal
    simp only [hl m hm2]
    simp

/-- Invariant over all calls. -/
theorem after_induct (k : Kem) (P : Ctx → Prop) (h0 : P (start k))
    (hs : ∀ c o, P c → P (step k c o).1) (ops : List Op) : P (after k ops) := by
  have key : ∀ (ops : List Op) (c : Ctx), P c → P (ops.foldl (fun c o => (step k c o).1) c) := by
    intro ops
    induction ops with
    | nil => intro c h; exact h
    | cons o os ih => intro c h; exact ih _ (hs c o h)
  exact key ops _ h0

/-- What `ss` changes: nothing, or the secret of the responder is used up. -/
theorem ss_ctx (k : Kem) (c : Ctx) (r : Req) :
    ((ss k c r).1 = c ∧ (r.src.length = 0 → (ss k c r).2.2 = [])) ∨
    (c.ssSet = true ∧ r.src.length = 0 ∧ r.dstLen ≤ 160 ∧
      (ss k c r).1 = { c with ss := List.replicate r.dstLen 0 ++ c.ss.drop r.dstLen,
                              ct := List.replicate k.ctLen 0, ssSet := false }) := by
  unfold ss
  by_cases h1 : r.dstLen > maxSs
  · left; simp [h1]
  · by_cases h2 : r.dstLen = 0
    · left; simp [h2]
    · rw [if_neg h1, if_neg h2]
      by_cases h3 : r.src.length = 0
      · rw [if_pos h3]
        unfold ssLocal
        cases hs : c.ssSet with
        | false => left; simp
        | true => right; exact ⟨rfl, h3, by simp [maxSs] at h1; omega, rfl⟩
      · left
        rw [if_neg h3]
        refine ⟨?_, fun h => absurd h h3⟩
        by_cases h4 : r.src.length ≠ k.ctLen
        · rw [if_pos h4]
        · rw [if_neg h4]
          cases k.decKdf maxSs c.sk r.src <;> rfl

/-- What `genCt` changes: nothing, or a new secret is there. -/
theorem genCt_ctx (k : Kem) (c : Ctx) (r : Req) (rnd : List Byte) :
    (genCt k c r rnd).1 = c ∨
    (r.src.length = k.pkLen ∧ ∃ ct s, k.encKdf 160 r.src rnd = some (ct, s) ∧
      (genCt k c r rnd).1 = { c with ct := ct, ss := s, ssSet := true }) := by
  unfold genCt
  by_cases h1 : r.src.length ≠ k.pkLen
  · left
    rw [if_pos h1]
    cases c.pubPresent <;> rfl
  · rw [if_neg h1]
    by_cases h2 : r.dstLen < k.ctLen
    · left; rw [if_pos h2]
    · rw [if_neg h2]
      cases h3 : k.encKdf maxSs r.src rnd with
      | none => left; rfl
      | some p =>
        right
        exact ⟨by simpa using h1, p.1, p.2, h3, rfl⟩

/-- **C137 (part: public key).** After any sequence of calls on a new handle, a public key handed out
is the one generated together with the secret key the handle uses. -/
theorem c137_pubkey (k : Kem) (ops : List Op) (r : Req) (rnd out : List Byte)
    (h : r.src.length ≠ k.pkLen) (ho : (genCt k (after k ops) r rnd).2 = (0, out))
    (hl : ∀ rnd pk sk, k.keypair rnd = some (pk, sk) → pk.length = k.pkLen) :
    ∃ rndI, k.keypair rndI = some (out, (after k ops).sk) := by
  have inv := after_induct k
    (fun c => c.pubPresent = true → ∃ rndI, k.keypair rndI = some (c.pk, c.sk))
    (fun h => by cases h)
    (fun c o hc => by
      cases o with
      | setSecret b rnd =>
        simp only [step, setSecret]
        by_cases h1 : b.length = 0
        · rw [if_pos h1]
          cases hk : k.keypair rnd with
          | none => intro h; cases h
          | some p => intro _; exact ⟨rnd, hk⟩
        · rw [if_neg h1]
          by_cases h2 : b.length ≠ k.skLen
          · rw [if_pos h2]; intro h; cases h
          · rw [if_neg h2]; intro h; cases h
      | genCt r rnd =>
        simp only [step]
        rcases genCt_ctx k c r rnd with e | ⟨_, ct, s, _, e⟩ <;> rw [e] <;> exact hc
      | ss r =>
        simp only [step]
        rcases ss_ctx k c r with ⟨e, _⟩ | ⟨_, _, _, e⟩ <;> rw [e] <;> exact hc) ops
  unfold genCt at ho
  rw [if_pos h] at ho
  cases hp : (after k ops).pubPresent with
  | false => simp [hp] at ho
  | true =>
    obtain ⟨rndI, hk⟩ := inv hp
    have hlen := hl _ _ _ hk
    simp only [hp, Bool.not_true, Bool.false_eq_true, if_false, Prod.mk.injEq] at ho
    obtain ⟨h1, h2⟩ := ho
    have h3 : ((after k ops).pk.take r.dstLen).length = k.pkLen := by
      by_cases e : ((after k ops).pk.take r.dstLen).length = k.pkLen
      · exact e
      · rw [if_pos e] at h1; cases h1
    rw [List.length_take] at h3
    rw [List.take_of_length_le (by omega)] at h2
    exact ⟨rndI, by rw [← h2]; exact hk⟩

/-- Whether a call produced a new secret on the responder side. -/
def encapsulates (k : Kem) (_ : Ctx) (o : Op) : Bool :=
  match o with
  | .genCt r rnd => r.src.length = k.pkLen ∧ (k.encKdf 160 r.src rnd).isSome
  | _ => false

/-- Whether a call handed out bytes of the responder's secret. -/
def handsOut (k : Kem) (c : Ctx) (o : Op) : Bool :=
  match o with
  | .ss r => r.src.length = 0 ∧ (ss k c r).2.2 ≠ []
  | _ => false

/-- Number of calls for which `f` holds. -/
def count (f : Ctx → Op → Bool) (k : Kem) (c : Ctx) : List Op → Nat
  | [] => 0
  | o :: os => (if f c o then 1 else 0) + count f k (step k c o).1 os

theorem step_once (k : Kem) (c : Ctx) (o : Op) :
    (handsOut k c o = true → c.ssSet = true ∧ (step k c o).1.ssSet = false) ∧
    ((step k c o).1.ssSet = true → c.ssSet = true ∨ encapsulates k c o = true) := by
  cases o with
  | setSecret b rnd =>
    refine ⟨(fun h => by cases h), ?_⟩
    simp only [step, setSecret]
    by_cases h1 : b.length = 0
    · rw [if_pos h1]
      cases k.keypair rnd <;> exact Or.inl
    · rw [if_neg h1]
      by_cases h2 : b.length ≠ k.skLen
      · rw [if_pos h2]; exact Or.inl
      · rw [if_neg h2]; exact Or.inl
  | genCt r rnd =>
    refine ⟨(fun h => by cases h), ?_⟩
    simp only [step]
    rcases genCt_ctx k c r rnd with e | ⟨h1, ct, s, h2, e⟩
    · rw [e]; exact Or.inl
    · intro _; right; simp [encapsulates, h1, h2]
  | ss r =>
    simp only [step]
    rcases ss_ctx k c r with ⟨e, h⟩ | ⟨h1, h2, _, e⟩
    · rw [e]
      refine ⟨?_, Or.inl⟩
      intro hh
      simp only [handsOut, decide_eq_true_eq] at hh
      exact absurd (h hh.1) hh.2
    · rw [e]
      exact ⟨fun _ => ⟨h1, rfl⟩, fun h => by cases h⟩

/-- **C137 (part: single use).** In every sequence of calls on a new handle there are at most as many
secrets handed out on the responder side as encapsulations. -/
theorem c137_once (k : Kem) (ops : List Op) :
    count (handsOut k) k (start k) ops ≤ count (encapsulates k) k (start k) ops := by
  have key : ∀ (ops : List Op) (c : Ctx),
      count (handsOut k) k c ops ≤ count (encapsulates k) k c ops + (if c.ssSet then 1 else 0) := by
    intro ops
    induction ops with
    | nil => intro c; simp [count]
    | cons o os ih =>
      intro c
      obtain ⟨g1, g2⟩ := step_once k c o
      have := ih (step k c o).1
      simp only [count]
      cases hh : handsOut k c o <;> cases he : encapsulates k c o <;> cases hc : c.ssSet <;>
        cases hn : (step k c o).1.ssSet <;> simp [hh, he, hc, hn] at g1 g2 this ⊢ <;> omega
  have := key ops (start k)
  simpa [start] using this

/-- **C137 (part: wiping).** After a secret is handed out, the handle holds zeros in place of the bytes
handed out and of the ciphertext.  Missing: the other bytes of the secret, see
`c137_negation_wiped`. -/
theorem c137_wiped_partial (k : Kem) (c : Ctx) (n : Nat) (hn : 1 ≤ n) (hn2 : n ≤ 160)
    (hs : c.ssSet = true) :
    (ss k c ⟨[], n⟩).1.ss.take n = List.replicate n 0 ∧
    (ss k c ⟨[], n⟩).1.ct = List.replicate k.ctLen 0 ∧ (ss k c ⟨[], n⟩).1.ssSet = false := by
  unfold ss
  rw [if_neg (by simp [maxSs]; omega), if_neg (by simp; omega), if_pos (by simp)]
  unfold ssLocal
  simp [hs]

theorem n1 : (-1 : Int) < 0 := by decide
theorem n22 : (-22 : Int) < 0 := by decide
theorem n75 : (-75 : Int) < 0 := by decide
theorem n95 : (-95 : Int) < 0 := by decide

/-- The error codes are negative. -/
local macro "neg" : tactic => `(tactic| first | exact n22 | exact n75 | exact n95 | exact n1)

/-- **C137 (part: refusals).** Ciphertexts of a wrong length, secrets longer than 160 bytes or of no
length, destinations too small for ciphertext or public key are refused: nothing of a secret is
written and the handle does not change; so is a request for a public key if the handle has none. -/
theorem c137_refuses (k : Kem) (c : Ctx) (r : Req) (rnd : List Byte) :
    (160 < r.dstLen ∨ r.dstLen = 0 ∨ (r.src ≠ [] ∧ r.src.length ≠ k.ctLen) →
      (ss k c r).1 = c ∧ (ss k c r).2.1 < 0 ∧
        (ss k c r).2.2 = []) ∧
    (r.src.length = k.pkLen → r.dstLen < k.ctLen →
      (genCt k c r rnd).1 = c ∧ (genCt k c r rnd).2.1 < 0 ∧ (genCt k c r rnd).2.2 = []) ∧
    (r.src.length ≠ k.pkLen → c.pubPresent = false →
      (genCt k c r rnd).1 = c ∧ (genCt k c r rnd).2.1 < 0 ∧ (genCt k c r rnd).2.2 = []) ∧
    (r.src.length ≠ k.pkLen → r.dstLen < k.pkLen →
      (genCt k c r rnd).1 = c ∧ (genCt k c r rnd).2.1 < 0) := by
  refine ⟨?_, ?_, ?_, ?_⟩
  · intro h
    unfold ss
    by_cases h1 : r.dstLen > maxSs
    · rw [if_pos h1]
      exact ⟨rfl, by neg, rfl⟩
    · rw [if_neg h1]
      by_cases h2 : r.dstLen = 0
      · rw [if_pos h2]
        exact ⟨rfl, by neg, rfl⟩
      · rw [if_neg h2]
        rcases h with h | h | ⟨h, h'⟩
        · exact absurd h h1
        · exact absurd h h2
        · rw [if_neg (by simpa using h), if_pos h']
          exact ⟨rfl, by neg, rfl⟩
  · intro h1 h2
    unfold genCt
    rw [if_neg (by simpa using h1), if_pos h2]
    exact ⟨rfl, by neg, rfl⟩
  · intro h1 h2
    unfold genCt
    rw [if_pos h1, h2]
    exact ⟨rfl, by neg, rfl⟩
  · intro h1 h2
    unfold genCt
    rw [if_pos h1]
    cases c.pubPresent with
    | false => exact ⟨rfl, by neg⟩
    | true =>
      have : (c.pk.take r.dstLen).length ≠ k.pkLen := by rw [List.length_take]; omega
      simp only [Bool.not_true, Bool.false_eq_true, if_false]
      rw [if_pos this]
      exact ⟨trivial, by neg⟩

/-- **C137 (negation: wiping).** If less than 160 bytes are asked for, the rest of the secret stays in
the handle. -/
theorem c137_negation_wiped (k : Kem) (c : Ctx) (n : Nat) (hn : 1 ≤ n) (hn2 : n ≤ 160)
    (hs : c.ssSet = true) :
    (ss k c ⟨[], n⟩).1.ss.drop n = c.ss.drop n := by
  unfold ss
  rw [if_neg (by simp [maxSs]; omega), if_neg (by simp; omega), if_pos (by simp)]
  unfold ssLocal
  simp [hs]

/-- **C137 (negation: wrong key length).** A remote public key of a wrong length is not refused; the own
public key is returned in place of a ciphertext. -/
theorem c137_negation_wrong_pk (k : Kem) (c : Ctx) (hp : c.pk.length = k.pkLen)
    (hpp : c.pubPresent = true) (r : Req) (h : r.src.length ≠ k.pkLen) (hr : k.pkLen ≤ r.dstLen)
    (rnd : List Byte) : genCt k c r rnd = (c, 0, c.pk) := by
  unfold genCt
  rw [if_pos h]
  have : c.pk.take r.dstLen = c.pk := List.take_of_length_le (by omega)
  simp [this, hp, hpp]

/-- **C137 (negation: maximum size).** With ML-KEM-512 and ML-KEM-768 the maximum output size reported
is smaller than the public key; a destination of this size makes `generate_public_key` fail. -/
theorem c137_negation_maxsize (k : Kem) (c : Ctx)
    (hk : (k.pkLen, k.ctLen) ∈ [(800 + 32, 768 + 32), (1184 + 32, 1088 + 32)])
    (hp : c.pk.length = k.pkLen) (hpp : c.pubPresent = true) (rnd : List Byte) :
    (genCt k c ⟨[], maxSize k⟩ rnd).2.1 = -22 := by
  simp only [List.mem_cons, Prod.mk.injEq, List.not_mem_nil, or_false] at hk
  unfold genCt
  rw [if_pos (by simp; omega)]
  simp only [hpp, Bool.not_true, Bool.false_eq_true, if_false, maxSize, List.length_take, hp]
  rw [if_pos (by omega)]

/-! ### Cases -/

/-- A toy KEM with the sizes of ML-KEM-512 and X25519. -/
def toy : Kem where
  pkLen := 832
  ctLen := 800
  skLen := 1664
  keypair r := some (List.replicate 832 (r.headD 0), List.replicate 1664 (r.headD 0))
  encKdf n _ r := some (List.replicate 800 (r.headD 0), List.replicate n (r.headD 0))
  decKdf n _ ct := some (List.replicate n (ct.headD 0))

/-- Non-vacuity of `c137_agree`; with the same values of the others. -/
example : Good toy [5] [7] (List.replicate 832 5) (List.replicate 1664 5) (List.replicate 800 7)
    (List.replicate 160 7) where
  kp := rfl
  pkLen := List.length_replicate
  pkPos := by decide
  ctPos := by decide
  enc := rfl
  ctLen := List.length_replicate
  sLen := List.length_replicate
  dec := rfl

example : ∀ rnd pk sk, toy.keypair rnd = some (pk, sk) → pk.length = toy.pkLen := by
  intro rnd pk sk h
  simp only [toy, Option.some.injEq, Prod.mk.injEq] at h
  rw [← h.1]
  exact List.length_replicate

/-- Bytes of the secret left in the handle: a responder asking for 32 bytes. -/
example : (after toy [.genCt ⟨List.replicate 832 3, 800⟩ [7], .ss ⟨[], 32⟩]).ss
      = List.replicate 32 0 ++ List.replicate 128 7 ∧
    (after toy [.setSecret [] [5], .genCt ⟨List.replicate 832 3, 800⟩ [7]]).ssSet = true ∧
    (after toy [.setSecret [] [5]]).pubPresent = true := by
  decide +kernel

/-- One encapsulation, two requests for the secret, one secret. -/
example : count (handsOut toy) toy (start toy)
      [.genCt ⟨List.replicate 832 3, 800⟩ [7], .ss ⟨[], 32⟩, .ss ⟨[], 32⟩] = 1 ∧
    count (encapsulates toy) toy (start toy)
      [.genCt ⟨List.replicate 832 3, 800⟩ [7], .ss ⟨[], 32⟩, .ss ⟨[], 32⟩] = 1 := by
  decide +kernel

end LC.Kernel.Hybrid
