import Verif.Kdf.Lemmas
import Verif.Hash.Inst
/-
Property theorems: C08 (HKDF), C09 (PBKDF2), C10 (SP 800-108).
-/
namespace LC.Kdf
open StreamHash

variable {S : StreamHash} {H : List Byte → List Byte} {maxLen : Nat} {Ok : S.Ctx → Prop}

theorem env_sha256 : Env sha256 Sha2.Spec.sha256 (2 ^ 61) (fun c => c.part.length = 64) :=
  ⟨sha256_implements, by decide, by decide, by decide, by decide⟩
theorem env_sha384 : Env sha384 Sha2.Spec.sha384 (2 ^ 61) (fun c => c.part.length = 128) :=
  ⟨sha384_implements, by decide, by decide, by decide, by decide⟩
theorem env_sha512 : Env sha512 Sha2.Spec.sha512 (2 ^ 61) (fun c => c.part.length = 128) :=
  ⟨sha512_implements, by decide, by decide, by decide, by decide⟩
theorem env_sha3 (r d : Nat) (hr : r ≤ 200) (hd : 0 < d) (hd2 : d ≤ 64) (hdr : d ≤ r) :
    Env (sha3 r d) (fun m => Sponge.Spec.sponge Sponge.Spec.keccakBytes r 0x06 m d) (2 ^ 64)
      (fun _ => True) :=
  ⟨sha3_implements r d (by omega) hr, hdr, hd, hd2, by simp only [sha3]; omega⟩

/-! ### C08 -/

theorem hkdf_seg (E : Env S H maxLen Ok) (salt ikm info : List Byte) (L : Nat) :
    Spec.hkdf (Hmac.Spec.hmac H S.block) salt ikm info L =
      seg (hkdfB H S.block (Hmac.Spec.hmac H S.block salt ikm) info) S.dsize 0 L := by
  unfold Spec.hkdf Spec.hkdfExpand
  exact firstBytes_eq _ S.dsize E.dsize_pos (fun i => E.T_len (Hmac.Spec.hmac H S.block salt ikm) info i) L

/-- C08: `lc_hkdf` is RFC 5869 HKDF for every output length up to `254 * HashLen`.  A NULL
salt means `HashLen` zero bytes. -/
theorem hkdf_rfc5869 (E : Env S H maxLen Ok) (c : Hmac.Ctx S) (hok : Ok c.h) (ikm : List Byte)
    (salt info : Option (List Byte)) (L : Nat) (hi : ikm ≠ []) (hil : S.block + ikm.length < maxLen)
    (hsl : (salt.getD []).length < maxLen)
    (hinfo : S.block + S.dsize + (info.getD []).length + 1 < maxLen) (hL : L ≤ 254 * S.dsize) :
    hkdf c ikm salt info L =
      (0, Spec.hkdf (Hmac.Spec.hmac H S.block) (salt.getD (List.replicate S.dsize 0)) ikm
        (info.getD []) L) := by
  obtain ⟨h1, h2, h3, h4, h5⟩ := E.extract (hkdfZero c) hok ikm salt hi hil hsl
  unfold hkdf
  dsimp only
  rw [h1, if_neg (by decide)]
  generalize (hkdfExtract (hkdfZero c) ikm salt).1 = c1 at *
  have hc : c1.ctr = 1 := h3
  unfold hkdfExpand
  dsimp only
  rw [if_neg (by omega : ¬ c1.ctr > 1)]
  unfold hkdfExpandInternal
  have hlim : S.dsize * (255 - c1.ctr) = 254 * S.dsize := by rw [hc, Nat.mul_comm]
  rw [if_neg (by omega)]
  have hp : S.dsize ≤ c1.partPtr := by rw [h4]; exact E.dsize_max
  obtain ⟨i1, _, _⟩ := E.hkdfLoop _ info hinfo L c1 L 0 (Nat.le_refl _) hp hc (by omega) h2
  dsimp only
  rw [i1, Nat.zero_mul, hkdf_seg E]

/-- C08: longer requests are refused without output (RFC 5869 would allow `255 * HashLen`),
and so is empty keying material. -/
theorem hkdf_refused (E : Env S H maxLen Ok) (c : Hmac.Ctx S) (hok : Ok c.h) (ikm : List Byte)
    (salt info : Option (List Byte)) (L : Nat) (hil : S.block + ikm.length < maxLen)
    (hsl : (salt.getD []).length < maxLen) (h : ikm = [] ∨ 254 * S.dsize < L) :
    hkdf c ikm salt info L = (eInval, []) := by
  by_cases hi : ikm = []
  · subst hi
    simp [hkdf, hkdfExtract, eInval]
  · have hL : 254 * S.dsize < L := h.resolve_left hi
    obtain ⟨h1, h2, h3, _, _⟩ := E.extract (hkdfZero c) hok ikm salt hi hil hsl
    unfold hkdf
    dsimp only
    rw [h1, if_neg (by decide)]
    generalize (hkdfExtract (hkdfZero c) ikm salt).1 = c1 at *
    have hc : c1.ctr = 1 := h3
    unfold hkdfExpand
    dsimp only
    rw [if_neg (by omega : ¬ c1.ctr > 1)]
    unfold hkdfExpandInternal
    rw [if_pos (by rw [hc, Nat.mul_comm]; omega)]

/-- The output of HKDF is prefix consistent. -/
theorem hkdf_prefix (E : Env S H maxLen Ok) (salt ikm info : List Byte) (L M : Nat) (h : L ≤ M) :
    Spec.hkdf (Hmac.Spec.hmac H S.block) salt ikm info L =
      (Spec.hkdf (Hmac.Spec.hmac H S.block) salt ikm info M).take L := by
  rw [hkdf_seg E, hkdf_seg E]
  obtain ⟨e, rfl⟩ := Nat.exists_eq_add_of_le h
  rw [seg_add, List.take_left' (seg_length ..)]

theorem generates_spec (E : Env S H maxLen Ok) (prk : List Byte) (info : Option (List Byte))
    (hinfo : S.block + S.dsize + (info.getD []).length + 1 < maxLen) :
    ∀ (ds : List Nat) (c : HkdfCtx S) (n : Nat), Gen H Ok prk (info.getD []) c n →
      c.rngInit = true → n + ds.sum ≤ 254 * S.dsize →
      (∀ r ∈ hkdfRngGenerates info c ds, r.1 = 0) ∧
      (hkdfRngGenerates info c ds).map (fun r => r.2.length) = ds ∧
      ((hkdfRngGenerates info c ds).map (·.2)).flatten =
        seg (hkdfB H S.block prk (info.getD [])) S.dsize n ds.sum
  | [], c, n, _, _, _ => by simp [hkdfRngGenerates, seg]
  | d :: ds, c, n, hg, hr, hl => by
    rw [List.sum_cons] at hl
    obtain ⟨h1, h2, h3⟩ := E.generate prk info hinfo c n d hg hr (by omega)
    obtain ⟨i1, i2, i3⟩ := generates_spec E prk info hinfo ds _ (n + d) h2 h3 (by omega)
    simp only [hkdfRngGenerates, List.mem_cons, List.map_cons, List.flatten_cons, List.sum_cons]
    refine ⟨?_, ?_, ?_⟩
    · rintro r (rfl | hm)
      · rw [h1]
      · exact i1 r hm
    · rw [i2, h1, seg_length]
    · rw [i3, h1, seg_add]

/-- C08, random generator interface: after one seed call, any schedule of generate calls
with the same additional input returns consecutive pieces of the RFC 5869 output, as long as
`254 * HashLen` bytes are not exceeded. -/
theorem hkdf_rng_stream (E : Env S H maxLen Ok) (c : Hmac.Ctx S) (hok : Ok c.h) (seed : List Byte)
    (pers info : Option (List Byte)) (ds : List Nat) (hi : seed ≠ [])
    (hil : S.block + seed.length < maxLen) (hsl : (pers.getD []).length < maxLen)
    (hinfo : S.block + S.dsize + (info.getD []).length + 1 < maxLen)
    (hL : ds.sum ≤ 254 * S.dsize) :
    (hkdfRngSeed (hkdfZero c) seed pers).2 = 0 ∧
    (∀ r ∈ hkdfRngGenerates info (hkdfRngSeed (hkdfZero c) seed pers).1 ds, r.1 = 0) ∧
    (hkdfRngGenerates info (hkdfRngSeed (hkdfZero c) seed pers).1 ds).map (fun r => r.2.length) = ds ∧
    ((hkdfRngGenerates info (hkdfRngSeed (hkdfZero c) seed pers).1 ds).map (·.2)).flatten =
      Spec.hkdf (Hmac.Spec.hmac H S.block) (pers.getD (List.replicate S.dsize 0)) seed
        (info.getD []) ds.sum := by
  have hs : hkdfRngSeed (hkdfZero c) seed pers =
      hkdfExtract { hkdfZero c with rngInit := true } seed pers := by
    unfold hkdfRngSeed
    rw [if_neg (by simp [hkdfZero])]
  rw [hs]
  obtain ⟨h1, h2, h3, h4, h5⟩ :=
    E.extract { hkdfZero c with rngInit := true } hok seed pers hi hil hsl
  have hg : Gen H Ok (Hmac.Spec.hmac H S.block (pers.getD (List.replicate S.dsize 0)) seed)
      (info.getD []) (hkdfExtract { hkdfZero c with rngInit := true } seed pers).1 0 :=
    .inl ⟨0, by simp, h3, by rw [h4]; exact E.dsize_max, h2⟩
  obtain ⟨i1, i2, i3⟩ := generates_spec E _ info hinfo ds _ 0 hg h5 (by omega)
  refine ⟨h1, i1, i2, ?_⟩
  rw [i3, hkdf_seg E]

/-- Non-vacuity: RFC 5869 test case 1 (SHA-256) runs through the model. -/
example : hkdf (S := sha256) ⟨⟨[], 0, List.replicate 64 0⟩, [], []⟩ (List.replicate 22 0x0b)
    (some [0, 1, 2, 3, 4, 5, 6, 7, 8, 9, 10, 11, 12])
    (some [0xf0, 0xf1, 0xf2, 0xf3, 0xf4, 0xf5, 0xf6, 0xf7, 0xf8, 0xf9]) 42 =
    (0, [0x3c, 0xb2, 0x5f, 0x25, 0xfa, 0xac, 0xd5, 0x7a, 0x90, 0x43, 0x4f, 0x64, 0xd0, 0x36,
      0x2f, 0x2a, 0x2d, 0x2d, 0x0a, 0x90, 0xcf, 0x1a, 0x5a, 0x4c, 0x5d, 0xb0, 0x2d, 0x56,
      0xec, 0xc4, 0xc5, 0xbf, 0x34, 0x00, 0x72, 0x08, 0xd5, 0xb8, 0x87, 0x18, 0x58, 0x65]) := by
  decide +kernel

/-! ### C09 -/

/-- C09: `lc_pbkdf2` is RFC 8018 PBKDF2 for every password, salt, iteration count and every
accepted key length. -/
theorem pbkdf2_rfc8018 (E : Env S H maxLen Ok) (h0 : S.Ctx) (hok : Ok h0) (u0 pw salt : List Byte)
    (count keylen : Nat) (hpw : pw.length < maxLen) (hsalt : S.block + (salt.length + 4) < maxLen)
    (hc : 0 < count) (hk : keylen < 2 ^ 31) :
    pbkdf2 h0 u0 pw salt count keylen =
      .ok (Spec.pbkdf2 (Hmac.Spec.hmac H S.block pw) salt count keylen) := by
  unfold pbkdf2 intMax
  rw [if_neg (by omega), if_neg (by omega),
    E.pbkdf2Loop pw salt count hc hsalt keylen _ u0 0 keylen (Nat.le_refl _) (by omega)
      (E.init hok hpw), Spec.pbkdf2,
    firstBytes_eq _ S.dsize E.dsize_pos (fun i => E.F_len pw salt (i + 1) (count - 1)), Nat.zero_mul]

theorem pbkdf2_refused (h0 : S.Ctx) (u0 pw salt : List Byte) (count keylen : Nat)
    (h : count = 0 ∨ 2 ^ 31 ≤ keylen) : ∃ e, pbkdf2 h0 u0 pw salt count keylen = .error e := by
  unfold pbkdf2 intMax
  split
  · exact ⟨_, rfl⟩
  · split
    · exact ⟨_, rfl⟩
    · omega

/-- Non-vacuity: PBKDF2-HMAC-SHA-256 ("password", "salt", 2 iterations, 40 bytes). -/
example : (pbkdf2 (S := sha256) { H := [], msgLen := 0, part := List.replicate 64 0 } []
    [0x70, 0x61, 0x73, 0x73, 0x77, 0x6f, 0x72, 0x64] [0x73, 0x61, 0x6c, 0x74] 2 40 |>.toOption) =
    some [0xae, 0x4d, 0x0c, 0x95, 0xaf, 0x6b, 0x46, 0xd3, 0x2d, 0x0a, 0xdf, 0xf9, 0x28, 0xf0,
      0x6d, 0xd0, 0x2a, 0x30, 0x3f, 0x8e, 0xf3, 0xc2, 0x51, 0xdf, 0xd6, 0xe2, 0xd8, 0x5a,
      0x95, 0x47, 0x4c, 0x43, 0x83, 0x06, 0x51, 0xaf, 0xcb, 0x5c, 0x86, 0x2f] := by
  decide +kernel

/-! ### C10 -/

/-- C10, counter mode. -/
theorem kdf_ctr_sp800_108 (E : Env S H maxLen Ok) (h0 : S.Ctx) (hok : Ok h0) (key : List Byte)
    (label : Option (List Byte)) (L : Nat) (hk : key.length < maxLen)
    (hl : S.block + (4 + (label.getD []).length) < maxLen) (hL : L < 2 ^ 31) :
    kdfCtr h0 key label L =
      (0, Spec.ctr (Hmac.Spec.hmac H S.block key) (label.getD []) L) := by
  unfold kdfCtr ctrGenerate ctrGenerateInternal intMax
  rw [if_neg (by omega)]
  dsimp only
  rw [E.ctrLoop key label hl L _ 0 L (Nat.le_refl _) (by omega) (E.init hok hk), Spec.ctr,
    firstBytes_eq _ S.dsize E.dsize_pos (fun i => E.mac_len key _), Nat.zero_mul]

/-- C10, feedback mode (an IV of `HashLen` bytes is required). -/
theorem kdf_fb_sp800_108 (E : Env S H maxLen Ok) (h0 : S.Ctx) (hok : Ok h0)
    (key iv label : List Byte) (L : Nat) (hk : key.length < maxLen) (hiv : iv.length = S.dsize)
    (hl : S.block + (S.dsize + 4 + label.length) < maxLen) (hL : L < 2 ^ 31) :
    kdfFb h0 key iv label L = (0, Spec.fb (Hmac.Spec.hmac H S.block key) iv label L) := by
  unfold kdfFb fbGenerate intMax
  rw [if_neg (by omega), if_neg (by simp [hiv]), Spec.fb]
  have h := E.fbLoop key iv label hiv hl L _ 0 L (Nat.le_refl _) (by omega) (E.init hok hk)
  rw [Spec.fbK, Nat.zero_mul] at h
  rw [h, firstBytes_eq _ S.dsize E.dsize_pos (fun i => E.fbK_len key iv label i)]

/-- C10, double pipeline mode with `A(0)` as the code chooses it: the label if it is not
empty, `HashLen` zero bytes otherwise. -/
theorem kdf_dpi_general (E : Env S H maxLen Ok) (h0 : S.Ctx) (hok : Ok h0) (key : List Byte)
    (label : Option (List Byte)) (L : Nat) (hk : key.length < maxLen)
    (hl : S.block + (S.dsize + 4 + (label.getD []).length) < maxLen) (hL : L < 2 ^ 31) :
    kdfDpi h0 key label L =
      (0, Spec.dpi (Hmac.Spec.hmac H S.block key)
        (if label.getD [] = [] then List.replicate S.dsize 0 else label.getD []) (label.getD []) L) := by
  unfold kdfDpi dpiGenerate intMax
  rw [if_neg (by omega), Spec.dpi,
    E.dpiLoop key label hl L _ _ 0 L (Nat.le_refl _) (by omega) (E.init hok hk) (by rw [if_pos rfl]),
    Nat.zero_mul, firstBytes_eq _ S.dsize E.dsize_pos (fun i => E.mac_len key _)]
  rfl

/-- C10, double pipeline mode for a non-empty label: `A(0)` is the fixed input data as in
SP 800-108.  Missing from the full claim: the empty label, where the code deviates
(`kdf_dpi_empty_label_deviates`). -/
theorem kdf_dpi_sp800_108_partial (E : Env S H maxLen Ok) (h0 : S.Ctx) (hok : Ok h0)
    (key label : List Byte) (L : Nat) (hne : label ≠ []) (hk : key.length < maxLen)
    (hl : S.block + (S.dsize + 4 + label.length) < maxLen) (hL : L < 2 ^ 31) :
    kdfDpi h0 key (some label) L =
      (0, Spec.dpi (Hmac.Spec.hmac H S.block key) label label L) := by
  rw [kdf_dpi_general E h0 hok key (some label) L hk hl hL]
  simp [hne]

/-- Requests above `INT_MAX` and feedback IVs of the wrong length are refused without output. -/
theorem kdf108_refused (h0 : S.Ctx) (key iv label : List Byte) (lo : Option (List Byte)) (L : Nat)
    (h : 2 ^ 31 ≤ L) :
    kdfCtr h0 key lo L = (eMsgSize, []) ∧ kdfFb h0 key iv label L = (eMsgSize, []) ∧
      kdfDpi h0 key lo L = (eMsgSize, []) := by
  have : L > intMax := by unfold intMax; omega
  simp [kdfCtr, ctrGenerate, ctrGenerateInternal, kdfFb, fbGenerate, kdfDpi, dpiGenerate, this]

theorem kdf_fb_iv_length (h0 : S.Ctx) (key iv label : List Byte) (L : Nat)
    (h : iv.length ≠ S.dsize) : (kdfFb h0 key iv label L).2 = [] := by
  unfold kdfFb fbGenerate
  split
  · rfl
  · rfl

theorem dpi_deviates_of (h0 : sha256.Ctx) (hok : h0.part.length = 64) (key : List Byte)
    (hk : key.length < 2 ^ 61) (a b : Byte) (h1 : (kdfDpi (S := sha256) h0 key none 1).2 = [a])
    (h2 : (Hmac.hmac (S := sha256) h0 key (Hmac.hmac (S := sha256) h0 key [] ++ be32 1)).take 1 = [b])
    (hne : a ≠ b) :
    kdfDpi (S := sha256) h0 key none 1 ≠
      (0, Spec.dpi (Hmac.Spec.hmac Sha2.Spec.sha256 64 key) [] [] 1) := by
  have hmac_eq : ∀ m : List Byte, m.length < 100 →
      Hmac.hmac (S := sha256) h0 key m = Hmac.Spec.hmac Sha2.Spec.sha256 64 key m := by
    intro m hm
    have h := (env_sha256.upd (env_sha256.init (h0 := h0) hok hk) m).final sha256_implements
      (by decide) (by simp only [sha256, List.nil_append]; omega)
    rw [List.nil_append] at h
    exact h
  have hl := Hmac.hmac_length sha256_implements key []
  have hl' : (Hmac.Spec.hmac Sha2.Spec.sha256 64 key []).length = 32 := hl
  rw [hmac_eq [] (by decide), hmac_eq _ (by rw [List.length_append, hl']; decide)] at h2
  intro h
  rw [h] at h1
  have e : Spec.dpi (Hmac.Spec.hmac Sha2.Spec.sha256 64 key) [] [] 1 =
      (Hmac.Spec.hmac Sha2.Spec.sha256 64 key
        (Hmac.Spec.hmac Sha2.Spec.sha256 64 key [] ++ be32 1)).take 1 := by
    rw [int32_eq]
    simp [Spec.dpi, Spec.firstBytes, Spec.dpiA, List.range, List.range.loop]
  rw [e, h2] at h1
  exact hne (List.cons.inj h1).1.symm

/-- With an empty label the double pipeline starts from `HashLen` zero bytes instead of the
(empty) fixed input data, and the output differs from SP 800-108. -/
theorem kdf_dpi_empty_label_deviates :
    ∃ (h0 : sha256.Ctx) (key : List Byte), h0.part.length = 64 ∧
      kdfDpi (S := sha256) h0 key none 1 ≠
        (0, Spec.dpi (Hmac.Spec.hmac Sha2.Spec.sha256 64 key) [] [] 1) :=
  ⟨{ H := [], msgLen := 0, part := List.replicate 64 0 }, [0x6b], by simp,
    dpi_deviates_of _ (by simp) _ (by decide) 241 126 (by decide +kernel) (by decide +kernel)
      (by decide)⟩

/-- The counter KDF used as random generator: the first call is the counter KDF keyed with
the seed. -/
theorem kdf_ctr_rng_first (E : Env S H maxLen Ok) (c : CtrRng S) (hok : Ok c.hmac.h)
    (seed : List Byte) (addtl : Option (List Byte)) (L : Nat) (hc : c.init = false)
    (hk : seed.length < maxLen) (hl : S.block + (4 + (addtl.getD []).length) < maxLen)
    (hL0 : 0 < L) (hL : L < 2 ^ 31) :
    (ctrRngSeed c seed []).2 = 0 ∧
    (ctrRngGenerate (ctrRngSeed c seed []).1 addtl L).2 =
      (0, Spec.ctr (Hmac.Spec.hmac H S.block seed) (addtl.getD []) L) := by
  have hs : ctrRngSeed c seed [] =
      ({ hmac := Hmac.init c.hmac.h seed, counter := 1, init := true }, 0) := by
    simp [ctrRngSeed, hc]
  rw [hs]
  refine ⟨rfl, ?_⟩
  have h := kdf_ctr_sp800_108 E c.hmac.h hok seed addtl L hk hl hL
  unfold kdfCtr ctrGenerate at h
  unfold ctrRngGenerate
  rw [if_neg (by simp), if_neg (by omega)]
  exact h

end LC.Kdf
