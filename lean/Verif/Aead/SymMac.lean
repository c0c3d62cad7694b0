import Verif.Aead.Xof
import Verif.Hmac.Props
import Verif.Kdf.Props
/-
`symhmac.c`, `symkmac.c`: AES-CBC or AES-CTR with HMAC or KMAC; and the HMAC part of `hash_crypt.c`.
-/
namespace LC.Aead
open LC.Sym (Aligned cbcEncCalls cbcDecCalls)
open StreamHash (sha512)

theorem zeroTail_aligned (bs : Nat) (b : List Byte) (h : b.length % bs = 0) : zeroTail bs b = b := by
  simp [zeroTail, h]

theorem cbc_enc_outs (outs : Sym.Cipher × List Byte → List (List Byte × List Byte) → List (List Byte))
    (hnil : ∀ c, outs c [] = [])
    (hcons : ∀ c x o cs, outs c ((x, o) :: cs) = zeroTail 16 (Sym.cbcEncrypt c.1.E c.2 x o).2 ::
      outs (c.1, (Sym.cbcEncrypt c.1.E c.2 x o).1) cs) :
    ∀ (cs : List (List Byte × List Byte)) (c : Sym.Cipher × List Byte), c.2.length = 16 → Aligned cs →
      (outs c cs).flatten = (cbcEncCalls c.1.E c.2 cs).2
  | [], c, _, _ => by rw [hnil]; rfl
  | (x, o) :: cs, c, hv, ha => by
    obtain ⟨h1, h2, h3⟩ := ha (x, o) (by simp)
    dsimp only at h1 h2 h3
    have e := Sym.cbcEncrypt_aligned c.1.E c.2 x o h1 h2 h3
    have hl := Sym.cbcEncLoop_length c.1 (x.length / 16) c.2 x hv (by omega)
    rw [hcons, List.flatten_cons, cbc_enc_outs outs hnil hcons cs _ (by simp only; rw [e]; exact hl.2)
      (fun d hd => ha d (by simp [hd]))]
    rw [zeroTail_aligned _ _ (by rw [e]; simp only; rw [hl.1]; omega)]
    rfl

theorem cbc_dec_outs (outs : Sym.Cipher × List Byte → List (List Byte × List Byte) → List (List Byte))
    (hnil : ∀ c, outs c [] = [])
    (hcons : ∀ c x o cs, outs c ((x, o) :: cs) = zeroTail 16 (Sym.cbcDecrypt c.1.D c.2 x o).2 ::
      outs (c.1, (Sym.cbcDecrypt c.1.D c.2 x o).1) cs) :
    ∀ (cs : List (List Byte × List Byte)) (c : Sym.Cipher × List Byte), c.2.length = 16 → Aligned cs →
      (outs c cs).flatten = (cbcDecCalls c.1.D c.2 cs).2
  | [], c, _, _ => by rw [hnil]; rfl
  | (x, o) :: cs, c, hv, ha => by
    obtain ⟨h1, h2, h3⟩ := ha (x, o) (by simp)
    dsimp only at h1 h2 h3
    have e := Sym.cbcDecrypt_aligned c.1.D c.2 x o h1 h2 h3
    have hlen : ∀ n iv d, iv.length = 16 → 16 * n ≤ d.length →
        (Sym.cbcDecLoop c.1.D n iv d).1.length = 16 * n ∧ (Sym.cbcDecLoop c.1.D n iv d).2.length = 16 := by
      intro n
      induction n with
      | zero => intro iv d hiv _; exact ⟨rfl, hiv⟩
      | succ n ih =>
        intro iv d hiv hd
        have hb : (d.take 16).length = 16 := by rw [List.length_take]; omega
        have i := ih (d.take 16) (d.drop 16) hb (by rw [List.length_drop]; omega)
        simp only [Sym.cbcDecLoop, List.length_append, Sym.xorb_length, c.1.D_len _ hb, i, hiv]
        exact ⟨by omega, trivial⟩
    have hl := hlen (x.length / 16) c.2 x hv (by omega)
    rw [hcons, List.flatten_cons, cbc_dec_outs outs hnil hcons cs _ (by simp only; rw [e]; exact hl.2)
      (fun d hd => ha d (by simp [hd]))]
    rw [zeroTail_aligned _ _ (by rw [e]; simp only; rw [hl.1]; omega)]
    rfl

/-- CBC encryption and decryption of block aligned strings, as functions. -/
def cbcE (B : Sym.Cipher) (iv x : List Byte) : List Byte := (Sym.cbcEncLoop B.E (x.length / 16) iv x).1
def cbcD (B : Sym.Cipher) (iv x : List Byte) : List Byte := (Sym.cbcDecLoop B.D (x.length / 16) iv x).1

theorem cbcE_length (B : Sym.Cipher) (iv x : List Byte) (hiv : iv.length = 16) (hx : x.length % 16 = 0) :
    (cbcE B iv x).length = x.length := by
  rw [cbcE, (Sym.cbcEncLoop_length B _ iv x hiv (by omega)).1]; omega

theorem cbcD_cbcE (B : Sym.Cipher) (iv x : List Byte) (hiv : iv.length = 16) (hx : x.length % 16 = 0) :
    cbcD B iv (cbcE B iv x) = x := by
  have hl := cbcE_length B iv x hiv hx
  rw [cbcD, hl, cbcE, (Sym.cbcDec_Enc B _ iv x hiv (by omega)).1, List.take_of_length_le (by omega)]

theorem cbcE_spec (B : Sym.Cipher) (iv x : List Byte) (hiv : iv.length = 16) :
    Sym.Spec.IsCbc B.E iv (x.length / 16) x (cbcE B iv x) :=
  (Sym.cbcEncLoop_spec B _ iv x hiv (by omega)).1

theorem sh_cipher (S : StreamHash) (B : Sym.Cipher) (iv : List Byte) (hiv : iv.length = 16) :
    CipherOk (symHmacAlg cbcSym S) (B, iv) (cbcE B iv) (cbcD B iv) Aligned where
  enc cs h := by
    rw [cbc_enc_outs (encOuts (symHmacAlg cbcSym S)) (fun _ => rfl) (fun _ _ _ _ => rfl) cs _ hiv h,
      Sym.cbcEncCalls_eq _ cs iv h]; rfl
  dec cs h := by
    rw [cbc_dec_outs (decOuts (symHmacAlg cbcSym S)) (fun _ => rfl) (fun _ _ _ _ => rfl) cs _ hiv h,
      Sym.cbcDecCalls_eq _ cs iv h]; rfl
  inv cs h := cbcD_cbcE B iv _ hiv (Sym.aligned_total cs h)

theorem kh_cipher (perm : List Byte → List Byte) (B : Sym.Cipher) (iv : List Byte) (hiv : iv.length = 16) :
    CipherOk (symKmacAlg cbcSym perm) (B, iv) (cbcE B iv) (cbcD B iv) Aligned where
  enc cs h := by
    rw [cbc_enc_outs (encOuts (symKmacAlg cbcSym perm)) (fun _ => rfl) (fun _ _ _ _ => rfl) cs _ hiv h,
      Sym.cbcEncCalls_eq _ cs iv h]; rfl
  dec cs h := by
    rw [cbc_dec_outs (decOuts (symKmacAlg cbcSym perm)) (fun _ => rfl) (fun _ _ _ _ => rfl) cs _ hiv h,
      Sym.cbcDecCalls_eq _ cs iv h]; rfl
  inv cs h := cbcD_cbcE B iv _ hiv (Sym.aligned_total cs h)

/-- Block aligned calls except for the last one. -/
def CtrGood (cs : List (List Byte × List Byte)) : Prop :=
  ∃ ds last, cs = ds ++ [last] ∧ ∀ d ∈ ds, d.1.length % 16 = 0

theorem ctr_outs (outs : Sym.Cipher × Sym.Ctr → List (List Byte × List Byte) → List (List Byte))
    (hnil : ∀ c, outs c [] = [])
    (hcons : ∀ c x o cs, outs c ((x, o) :: cs) = zeroTail 1 (Sym.ctrCrypt c.1.E c.2 x).1 ::
      outs (c.1, (Sym.ctrCrypt c.1.E c.2 x).2) cs) :
    ∀ (cs : List (List Byte × List Byte)) (c : Sym.Cipher × Sym.Ctr),
      (outs c cs).flatten = Sym.ctrCalls c.1.E c.2 (cs.map Prod.fst)
  | [], c => by rw [hnil]; rfl
  | (x, o) :: cs, c => by
    rw [hcons, List.flatten_cons, ctr_outs outs hnil hcons cs, zeroTail_aligned _ _ (Nat.mod_one _)]
    rfl

theorem ctr_good_eq (B : Sym.Cipher) (iv : List Byte) (hiv : iv.length = 16) (cs) (h : CtrGood cs) :
    Sym.ctrCalls B.E (Sym.Ctr.ofBytes iv) (cs.map Prod.fst) = Sym.Spec.ctr B.E (Sym.Spec.number iv) (inputs cs) := by
  obtain ⟨ds, last, rfl, hd⟩ := h
  obtain ⟨c, h1, h2⟩ := Sym.ctr_chunks_partial B iv (ds.map Prod.fst) last.1 hiv
    (by intro d hm; obtain ⟨e, he, rfl⟩ := List.mem_map.1 hm; exact hd e he)
  rw [Sym.ctrSetiv, if_neg (by omega)] at h1
  cases h1
  simp only [inputs, List.map_append, List.map_cons, List.map_nil, List.flatten_append, List.flatten_cons,
    List.flatten_nil, List.append_nil]
  exact h2

theorem sh_ctr_cipher (S : StreamHash) (B : Sym.Cipher) (iv : List Byte) (hiv : iv.length = 16) :
    CipherOk (symHmacAlg ctrSym S) (B, Sym.Ctr.ofBytes iv) (Sym.Spec.ctr B.E (Sym.Spec.number iv))
      (Sym.Spec.ctr B.E (Sym.Spec.number iv)) CtrGood where
  enc cs h := by
    rw [ctr_outs (encOuts (symHmacAlg ctrSym S)) (fun _ => rfl) (fun _ _ _ _ => rfl) cs]
    exact ctr_good_eq B iv hiv cs h
  dec cs h := by
    rw [ctr_outs (decOuts (symHmacAlg ctrSym S)) (fun _ => rfl) (fun _ _ _ _ => rfl) cs]
    exact ctr_good_eq B iv hiv cs h
  inv cs _ := Sym.Spec.ctr_ctr _ _ _

theorem kh_ctr_cipher (perm : List Byte → List Byte) (B : Sym.Cipher) (iv : List Byte) (hiv : iv.length = 16) :
    CipherOk (symKmacAlg ctrSym perm) (B, Sym.Ctr.ofBytes iv) (Sym.Spec.ctr B.E (Sym.Spec.number iv))
      (Sym.Spec.ctr B.E (Sym.Spec.number iv)) CtrGood where
  enc cs h := by
    rw [ctr_outs (encOuts (symKmacAlg ctrSym perm)) (fun _ => rfl) (fun _ _ _ _ => rfl) cs]
    exact ctr_good_eq B iv hiv cs h
  dec cs h := by
    rw [ctr_outs (decOuts (symKmacAlg ctrSym perm)) (fun _ => rfl) (fun _ _ _ _ => rfl) cs]
    exact ctr_good_eq B iv hiv cs h
  inv cs _ := Sym.Spec.ctr_ctr _ _ _

/-! ### MACs -/

section hmac
variable {S : StreamHash} {H : List Byte → List Byte} {maxLen : Nat} {Ok : S.Ctx → Prop}

theorem sh_mac (Y : SymAlg) (E : Kdf.Env S H maxLen Ok) (h0 : S.Ctx) (hok : Ok h0) (ak : List Byte)
    (hk : ak.length < maxLen) :
    MacOk (symHmacAlg Y S) (Hmac.init h0 ak) (fun msg n => (Hmac.Spec.hmac H S.block ak msg).take n)
      (maxLen - S.block) := by
  intro chunks old hb
  have hmax := E.fits
  have := Hmac.hmac_streaming E.impl E.dsize_le (by omega) h0 hok ak hk chunks (by omega)
  simp only [symHmacAlg, shTag]
  exact congrArg (fun t => put (t.take old.length) old) this

theorem hc_mac {G : Type} (next : G → Option (G × List Byte)) (E : Kdf.Env S H maxLen Ok) (h0 : S.Ctx)
    (hok : Ok h0) (ak : List Byte) (hk : ak.length < maxLen) :
    MacOk (hashAlg next S) (Hmac.init h0 ak)
      (fun msg n => if n < S.dsize then (Hmac.Spec.hmac H S.block ak msg).take n
        else Hmac.Spec.hmac H S.block ak msg)
      (maxLen - S.block) := by
  intro chunks old hb
  have hmax := E.fits
  have := Hmac.hmac_streaming E.impl E.dsize_le (by omega) h0 hok ak hk chunks (by omega)
  have h64 := E.dsize_max
  simp only [hashAlg, hcTag]
  rw [if_neg (by omega)]
  exact congrArg (fun t => put (if old.length < S.dsize then t.take old.length else t) old) this

end hmac

theorem kh_mac (Y : SymAlg) (perm : List Byte → List Byte) (hp : ∀ s, s.length = 200 → (perm s).length = 200)
    (r : Nat) (hr : 0 < r) (hr2 : r ≤ 200) (ak : List Byte) (hk : ak.length < 2 ^ 61) :
    MacOk (symKmacAlg Y perm) (Kmac.init perm r false ak [])
      (fun msg n => if 4 ≤ n then Kmac.Spec.kmacXof perm r ak msg n [] else []) (2 ^ 63) := by
  intro chunks old hb
  exact kmacTag_eq hp r hr2 hr false ak hk chunks old hb

/-! ### Key setup -/

theorem hkdf64_length (key : List Byte) :
    (Kdf.Spec.hkdf (Hmac.Spec.hmac Sha2.Spec.sha512 128) (List.replicate 64 0) key [] 64).length = 64 := by
  have := Kdf.hkdf_seg Kdf.env_sha512 (List.replicate 64 0) key [] 64
  exact (congrArg List.length this).trans (Kdf.seg_length ..)

theorem sh_setkey {Y : SymAlg} {S : StreamHash} (mk : List Byte → List Byte → Option Y.State)
    (h512 : Hmac.Ctx sha512) (hok : h512.h.part.length = 128) (h0 : S.Ctx) (key iv : List Byte)
    (hk : key ≠ []) (hkl : key.length < 2 ^ 60) :
    shSetkey Y S mk h512 h0 key iv =
      (mk (Spec.shKeys Sha2.Spec.sha512 key).1 iv).map fun c =>
        { c := c, m := Hmac.init h0 (Spec.shKeys Sha2.Spec.sha512 key).2 } := by
  have h := Kdf.hkdf_rfc5869 Kdf.env_sha512 h512 hok key none none 64 hk
    (by simp only [sha512]; omega) (by decide) (by decide) (by decide)
  have hlen := hkdf64_length key
  have hs : Spec.shKeys Sha2.Spec.sha512 key = (_, _) := rfl
  rw [hs]
  unfold shSetkey
  rw [h]
  dsimp only [Option.getD_none]
  rw [if_neg (by decide)]
  rw [show sha512.block = 128 from rfl, show sha512.dsize = 64 from rfl,
    List.take_of_length_le (l := List.drop 32 _) (by rw [List.length_drop, hlen]; decide)]

theorem kh_setkey {Y : SymAlg} (perm : List Byte → List Byte) (hp : ∀ s, s.length = 200 → (perm s).length = 200)
    (r : Nat) (hr : 0 < r) (hr2 : r ≤ 200) (mk : List Byte → List Byte → Option Y.State) (key iv : List Byte)
    (hk : key.length < 2 ^ 61) :
    khSetkey Y perm r mk key iv =
      (mk (Spec.khKeys perm r key).1 iv).map fun c =>
        { c := c, m := Kmac.init perm r false (Spec.khKeys perm r key).2 [] } := by
  obtain ⟨outs, h0, h1, h2⟩ := Kmac.kmac_xof_streaming perm hp r hr hr2 false key [] [] [64] hk (by decide)
    (by decide) (by decide)
  cases outs with
  | nil => simp at h1
  | cons x xs =>
    cases xs with
    | cons _ _ => simp at h1
    | nil =>
      simp only [Kmac.finalXofs, List.map_cons, List.map_nil, List.cons.injEq, List.flatten_cons,
        List.flatten_nil, List.append_nil, List.sum_cons, List.sum_nil, List.foldl_nil, and_true] at h0 h1 h2
      simp only [khSetkey]
      rw [h0, Option.getD_some]
      have e : (x.drop 32).take 32 = x.drop 32 := List.take_of_length_le (by rw [List.length_drop, h1]; decide)
      rw [e, h2]
      rfl

theorem shKeys_length (key : List Byte) :
    (Spec.shKeys Sha2.Spec.sha512 key).1.length = 32 ∧ (Spec.shKeys Sha2.Spec.sha512 key).2.length = 32 := by
  have hlen := hkdf64_length key
  unfold Spec.shKeys
  dsimp only
  rw [List.length_take, List.length_drop, hlen]
  decide

theorem khKeys_length (perm : List Byte → List Byte) (r : Nat) (key : List Byte) :
    (Spec.khKeys perm r key).1.length = 32 ∧ (Spec.khKeys perm r key).2.length = 32 := by
  simp only [Spec.khKeys, kmacXof_kcByte]
  simp

end LC.Aead
