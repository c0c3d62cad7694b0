import Verif.Aead.Props
import Verif.Drbg.HashProps
/-
C19, C20 for the hash based AEAD (`/repo/aead/src/hash_crypt.c`): the key stream generator is the
Hash DRBG with SHA-512.
-/
namespace LC.Aead
open StreamHash (sha512)
open Drbg (HashState hashSeed hashGenerate hashZero Same)

/-! ### Specification -/

/-- `n`-th block of 64 bytes requested from a Hash_DRBG of SP 800-90A in state `w`. -/
def Spec.drbgBlock (H : List Byte → List Byte) : Drbg.Spec.State → Nat → List Byte
  | w, 0 => (Drbg.Spec.generate H 111 w [] 64).2
  | w, n + 1 => Spec.drbgBlock H (Drbg.Spec.generate H 111 w [] 64).1 n

/-- Hash AEAD from a DRBG state: block 0 is the HMAC key, the following blocks are the key
stream. -/
def Spec.hashEnc (H : List Byte → List Byte) (w : Drbg.Spec.State) (pt : List Byte) : List Byte :=
  pt.mapIdx fun i b => b ^^^ (Spec.drbgBlock H w (1 + i / 64)).getD (i % 64) 0

/-! ### Model: `hash_crypt.c` with the Hash DRBG -/

/-- `lc_rng_generate(drbg, NULL, 0, keystream, 64)`, `hash_crypt.c:105,114,135`. -/
def hcNext (g : HashState sha512) : Option (HashState sha512 × List Byte) :=
  if (hashGenerate g none 0 64).2.1 = 0 then
    some ((hashGenerate g none 0 64).1, (hashGenerate g none 0 64).2.2) else none

/-- `lc_rng_seed(drbg, key, keylen, iv, ivlen)`, `hash_crypt.c:98`, on the generator state `g0`
found in the context. -/
def hcSeed (g0 : HashState sha512) (key iv : List Byte) : Option (HashState sha512) :=
  if (hashSeed g0 (some key) (some iv)).2 = 0 then some (hashSeed g0 (some key) (some iv)).1 else none

/-! ### Proofs -/

abbrev H5 := Sha2.Spec.sha512
abbrev Ok5 : sha512.Ctx → Prop := fun c => c.part.length = 128

theorem generate_len (w : Drbg.Spec.State) (n : Nat) : (Drbg.Spec.generate H5 111 w [] n).2.length = n := by
  have := Drbg.blocks_length (f := fun i => H5 (Drbg.Spec.ofInt 111 (Drbg.Spec.toInt w.V + i))) (B := 64) (by decide)
    (fun i => StreamHash.sha512_implements.digest_len _) 0 n
  unfold Drbg.blocks at this
  simp only [Nat.zero_add] at this
  exact this

theorem drbgBlock_length : ∀ (n : Nat) (w : Drbg.Spec.State), (Spec.drbgBlock H5 w n).length = 64
  | 0, w => generate_len w 64
  | n + 1, w => drbgBlock_length n _

theorem hcNext_eq (g : HashState sha512) (w : Drbg.Spec.State) (hs : Same Ok5 g (some w)) (hc : g.ctr + 1 < 2 ^ 64) :
    ∃ g', hcNext g = some (g', (Drbg.Spec.generate H5 111 w [] 64).2) ∧
      Same Ok5 g' (some (Drbg.Spec.generate H5 111 w [] 64).1) ∧ g'.ctr = g.ctr + 1 := by
  have h := Drbg.gen_same StreamHash.sha512_implements (by rfl) (by decide) g w hs hc none 0 64
    (by intro x hx; cases hx)
  have e : Drbg.Spec.api H5 (some w) (.generate none 0 64) =
      (some (Drbg.Spec.generate H5 111 w [] 64).1, 0, (Drbg.Spec.generate H5 111 w [] 64).2) := by
    unfold Drbg.Spec.api
    dsimp only
    rw [if_neg (by decide)]
    rfl
  rw [e] at h
  have h2 : (hashGenerate g none 0 64).2 = (0, (Drbg.Spec.generate H5 111 w [] 64).2) := h.2
  refine ⟨(hashGenerate g none 0 64).1, ?_, h.1, ?_⟩
  · unfold hcNext; rw [h2, if_pos rfl]
  · have h3 : (hashGenerate g none 0 64).1.ctr + 1 = w.ctr + 1 := h.1.2.2.2.2.1
    have h4 := hs.2.2.2.2.1
    omega

theorem emits_hash : ∀ (n : Nat) (g : HashState sha512) (w : Drbg.Spec.State), Same Ok5 g (some w) →
    g.ctr + n < 2 ^ 64 →
    Emits 64 hcNext n g (fun i => (Spec.drbgBlock H5 w (i / 64)).getD (i % 64) 0)
  | 0, _, _, _, _ => trivial
  | n + 1, g, w, hs, hc => by
    obtain ⟨g', h1, h2, h3⟩ := hcNext_eq g w hs (by omega)
    refine ⟨g', ?_, ?_⟩
    · rw [h1]
      congr 2
      apply List.ext_getElem
      · rw [generate_len]; simp
      · intro i h4 h5
        have hi : i < 64 := by simpa using h5
        simp only [List.getElem_map, List.getElem_range, Nat.div_eq_of_lt hi, Nat.mod_eq_of_lt hi]
        rw [Aes.getD_lt _ _ _ (by rw [drbgBlock_length]; exact hi)]
        rfl
    · have : (fun i => (Spec.drbgBlock H5 w ((64 + i) / 64)).getD ((64 + i) % 64) 0) =
          fun i => (Spec.drbgBlock H5 (Drbg.Spec.generate H5 111 w [] 64).1 (i / 64)).getD (i % 64) 0 := by
        funext i
        have e1 : (64 + i) / 64 = i / 64 + 1 := by omega
        have e2 : (64 + i) % 64 = i % 64 := by omega
        rw [e1, e2]
        rfl
      rw [this]
      exact emits_hash n g' _ h2 (by omega)

theorem hcSeed_eq (g0 : HashState sha512) (st : Option Drbg.Spec.State) (hs : Same Ok5 g0 st) (key iv : List Byte)
    (hk : key ≠ []) (hk2 : key.length < 2 ^ 59) (hv : iv.length ≤ 2 ^ 31) :
    ∃ g, hcSeed g0 key iv = some g ∧ Same Ok5 g (some (Drbg.Spec.seedTo H5 111 key iv st)) ∧ g.ctr = 0 := by
  have h := Drbg.seed_same StreamHash.sha512_implements (by rfl) (by decide) g0 st hs (some key) (some iv)
    ⟨hk2, by simp only [Option.getD_some]; omega⟩
  have e : Drbg.Spec.api H5 st (.seed (some key) (some iv)) = (some (Drbg.Spec.seedTo H5 111 key iv st), 0, []) := by
    unfold Drbg.Spec.api
    dsimp only [Option.getD_some]
    rw [if_neg (by
      rintro (h | h)
      · omega
      · exact hk h)]
  rw [e] at h
  have h2 : (hashSeed g0 (some key) (some iv)).2 = 0 := congrArg Prod.fst h.2
  refine ⟨(hashSeed g0 (some key) (some iv)).1, ?_, h.1, ?_⟩
  · unfold hcSeed; rw [h2, if_pos rfl]
  · have h3 : (hashSeed g0 (some key) (some iv)).1.ctr + 1 = (Drbg.Spec.seedTo H5 111 key iv st).ctr := h.1.2.2.2.2.1
    have h4 : (Drbg.Spec.seedTo H5 111 key iv st).ctr = 1 := by cases st <;> rfl
    omega

section
variable {S : StreamHash} {H : List Byte → List Byte} {maxLen : Nat} {Ok : S.Ctx → Prop}

/-- The state set up by `lc_hc_setkey`. -/
theorem hcSetkey_eq (g0 : HashState sha512) (st : Option Drbg.Spec.State) (hs : Same Ok5 g0 st)
    (key iv : List Byte) (hk : key ≠ []) (hk2 : key.length < 2 ^ 59) (hv : iv.length ≤ 2 ^ 31) (h0 : S.Ctx) :
    ∃ g w2, hcSetkey (hcSeed g0) hcNext S h0 key iv =
      some { c := { gen := g, ks := Spec.drbgBlock H5 (Drbg.Spec.seedTo H5 111 key iv st) 1, ptr := 0 },
             m := Hmac.init h0 (Spec.drbgBlock H5 (Drbg.Spec.seedTo H5 111 key iv st) 0) } ∧
      Same Ok5 g (some w2) ∧ g.ctr = 2 ∧
      ∀ n, Spec.drbgBlock H5 (Drbg.Spec.seedTo H5 111 key iv st) (n + 2) = Spec.drbgBlock H5 w2 n := by
  obtain ⟨g1, a1, a2, a3⟩ := hcSeed_eq g0 st hs key iv hk hk2 hv
  obtain ⟨g2, b1, b2, b3⟩ := hcNext_eq g1 _ a2 (by omega)
  obtain ⟨g3, c1, c2, c3⟩ := hcNext_eq g2 _ b2 (by omega)
  refine ⟨g3, _, ?_, c2, by omega, fun n => rfl⟩
  unfold hcSetkey
  rw [if_neg (fun h => hk (List.eq_nil_of_length_eq_zero h)), a1, Option.bind_some, b1, Option.bind_some, c1,
    Option.map_some]
  dsimp only
  rw [List.take_of_length_le (by rw [generate_len]; decide)]
  rfl

/-- C19, C20: hash AEAD (`lc_hash_aead`) for every HMAC hash, tags up to the digest size, at most
`2^62` blocks.  `st` is the state of the DRBG when the key is set: `none` for a new or
zeroed context. -/
theorem hash_aead_partial (E : Kdf.Env S H maxLen Ok) (g0 : HashState sha512) (st : Option Drbg.Spec.State)
    (hs : Same Ok5 g0 st) (h0 : S.Ctx) (hok : Ok h0) (key iv : List Byte) (hk : key ≠ [])
    (hk2 : key.length < 2 ^ 59) (hv : iv.length ≤ 2 ^ 31) (lim : Nat) (hlim : lim < 2 ^ 62)
    (hmaxl : 64 < maxLen) :
    ∃ s, hcSetkey (hcSeed g0) hcNext S h0 key iv = some s ∧
      Conforms s (Spec.hashEnc H5 (Drbg.Spec.seedTo H5 111 key iv st))
        (Spec.hashEnc H5 (Drbg.Spec.seedTo H5 111 key iv st))
        (fun msg n => (Hmac.Spec.hmac H S.block (Spec.drbgBlock H5 (Drbg.Spec.seedTo H5 111 key iv st) 0) msg).take n)
        (KsGood lim) 0 S.dsize (maxLen - S.block) := by
  obtain ⟨g, w2, e1, e2, e3, e4⟩ := hcSetkey_eq (S := S) g0 st hs key iv hk hk2 hv h0
  refine ⟨_, e1, ?_⟩
  generalize hw : Drbg.Spec.seedTo H5 111 key iv st = w at e1 e4 ⊢
  have hx : ∀ x, xorStream (fun i => (Spec.drbgBlock H5 w (1 + i / 64)).getD (i % 64) 0) x = Spec.hashEnc H5 w x :=
    fun x => rfl
  have hrep : KsRep 64 hcNext { gen := g, ks := Spec.drbgBlock H5 w 1, ptr := 0 }
      (fun i => (Spec.drbgBlock H5 w (1 + i / 64)).getD (i % 64) 0) lim := by
    refine ⟨Nat.zero_le _, ?_, ?_⟩
    · apply List.ext_getElem
      · simp [drbgBlock_length]
      · intro i a b
        have hi : i < 64 := by simpa using b
        simp only [List.getElem_drop, List.getElem_map, List.getElem_range, Nat.div_eq_of_lt hi, Nat.mod_eq_of_lt hi,
          Nat.zero_add, Nat.add_zero]
        exact (Aes.getD_lt (Spec.drbgBlock H5 w 1) 0 i (by rw [drbgBlock_length]; exact hi)).symm
    · have hm := emits_hash lim g w2 e2 (by omega)
      have : (fun i => (Spec.drbgBlock H5 w (1 + (64 - 0 + i) / 64)).getD ((64 - 0 + i) % 64) 0) =
          fun i => (Spec.drbgBlock H5 w2 (i / 64)).getD (i % 64) 0 := by
        funext i
        have q1 : 1 + (64 - 0 + i) / 64 = i / 64 + 2 := by omega
        have q2 : (64 - 0 + i) % 64 = i % 64 := by omega
        rw [q1, q2, e4]
      dsimp only
      rw [this]
      exact hm
  have hl : ∀ n : Nat, n ≤ 64 - 0 + n * 64 := by intro n; omega
  have hmax := E.fits
  have hk64 : (Spec.drbgBlock H5 w 0).length < maxLen := by rw [drbgBlock_length]; exact hmaxl
  have hmac := hc_mac hcNext E h0 hok (Spec.drbgBlock H5 w 0) hk64
  generalize Spec.drbgBlock H5 w 0 = ak at hmac ⊢
  generalize Spec.drbgBlock H5 w 1 = k1 at hrep ⊢
  refine conforms hmac (mac' := fun msg n => (Hmac.Spec.hmac H S.block ak msg).take n)
    (Good := KsGood lim) ⟨?_, ?_, ?_⟩ ?_ ?_ ?_
  · intro cs hg
    rw [cryptCalls_eq (by decide) (A := hashAlg hcNext S) id (hashAlg hcNext S).enc (encOuts (hashAlg hcNext S))
      (fun _ => rfl) (fun _ _ _ _ => rfl) (fun _ _ _ => ⟨rfl, rfl⟩) cs _ _ lim hrep ⟨hg.1, Nat.le_trans hg.2 (hl lim)⟩, hx]
  · intro cs hg
    rw [cryptCalls_eq (by decide) (A := hashAlg hcNext S) id (hashAlg hcNext S).dec (decOuts (hashAlg hcNext S))
      (fun _ => rfl) (fun _ _ _ _ => rfl) (fun _ _ _ => ⟨rfl, rfl⟩) cs _ _ lim hrep ⟨hg.1, Nat.le_trans hg.2 (hl lim)⟩, hx]
  · intro cs _
    rw [← hx, ← hx, xorStream_xorStream]
  · intro cs _
    rw [← hx, xorStream_length]
  · intro msg n _ hn
    have hml : (Hmac.Spec.hmac H S.block ak msg).length = S.dsize := E.mac_len _ _
    refine ⟨?_, ?_⟩
    · by_cases c : n < S.dsize
      · rw [if_pos c]
      · rw [if_neg c, List.take_of_length_le (by omega)]
    · rw [List.length_take, hml]; omega
  · intro n _ hn
    show (if 64 < n then none else some n) = some n
    rw [if_neg (by have := E.dsize_max; omega)]

/-- Setting the key again on a context that already has one does not give the key stream of the
new key and IV: the DRBG is reseeded, so the result also depends on its old state `w`. -/
theorem hash_aead_rekey (g0 : HashState sha512) (w : Drbg.Spec.State) (hs : Same Ok5 g0 (some w))
    (key iv : List Byte) (hk : key ≠ []) (hk2 : key.length < 2 ^ 59) (hv : iv.length ≤ 2 ^ 31) (h0 : S.Ctx) :
    ∃ s, hcSetkey (hcSeed g0) hcNext S h0 key iv = some s ∧
      s.c.ks = Spec.drbgBlock H5 (Drbg.Spec.reseed H5 111 w key iv) 1 := by
  obtain ⟨g, w2, e1, _⟩ := hcSetkey_eq (S := S) g0 (some w) hs key iv hk hk2 hv h0
  exact ⟨_, e1, rfl⟩

end

/-- Non-vacuity: a zeroed context with SHA-512, a key and an IV satisfy the hypotheses. -/
example : ∃ s, hcSetkey (hcSeed (hashZero { h := zero512, V := [], C := [], ctr := 0, seeded := true })) hcNext
    sha512 zero512 [1, 2, 3] [4] = some s := by
  obtain ⟨s, h, _⟩ := hash_aead_partial Kdf.env_sha512
    (hashZero { h := zero512, V := [], C := [], ctr := 0, seeded := true }) none ⟨zero512_ok, rfl⟩ zero512 zero512_ok
    [1, 2, 3] [4] (by decide) (by decide) (by decide) 1000 (by decide) (by decide)
  exact ⟨s, h⟩

end LC.Aead
