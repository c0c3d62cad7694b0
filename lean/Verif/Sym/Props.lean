import Verif.Sym.Chacha
/-
C15-C18 for the ciphers of the library: AES as instance of the modes, and concrete cases meeting the
hypotheses of the theorems of `Cbc`, `Ctr`, `Kw` and `Chacha`.
-/
namespace LC.Sym

/-- AES with a valid key, as used by `aes_cbc.c`, `aes_ctr.c` and `aes_kw.c` (C back end). -/
def aes (key : List Byte) (hk : key.length = 16 ∨ key.length = 24 ∨ key.length = 32) : Cipher where
  E b := Aes.cipher (Aes.setkey { roundKey := [], nk := 0, nr := 0 } key).2 b
  D b := Aes.invCipher (Aes.setkey { roundKey := [], nk := 0, nr := 0 } key).2 b
  E_len b hb := by
    obtain ⟨⟨ct, h, hl, -⟩, -⟩ := Aes.aes_inverse { roundKey := [], nk := 0, nr := 0 } key b hk hb
    rw [Aes.encrypt, if_neg (by omega)] at h
    rw [Option.some.inj h, hl]
  D_len b hb := by
    obtain ⟨-, pt, h, hl, -⟩ := Aes.aes_inverse { roundKey := [], nk := 0, nr := 0 } key b hk hb
    rw [Aes.decrypt, if_neg (by omega)] at h
    rw [Option.some.inj h, hl]
  DE b hb := by
    obtain ⟨⟨ct, h, hl, h2⟩, -⟩ := Aes.aes_inverse { roundKey := [], nk := 0, nr := 0 } key b hk hb
    rw [Aes.encrypt, if_neg (by omega)] at h
    rw [Aes.decrypt, if_neg (by omega)] at h2
    rw [Option.some.inj h, Option.some.inj h2]
  ED b hb := by
    obtain ⟨-, pt, h, hl, h2⟩ := Aes.aes_inverse { roundKey := [], nk := 0, nr := 0 } key b hk hb
    rw [Aes.decrypt, if_neg (by omega)] at h
    rw [Aes.encrypt, if_neg (by omega)] at h2
    rw [Option.some.inj h, Option.some.inj h2]

/-- The instance is the FIPS 197 cipher. -/
theorem aes_E (key : List Byte) (hk) (b : List Byte) (hb : b.length = 16) :
    (aes key hk).E b = Aes.Spec.aes key b := by
  have := (Aes.aes_encrypt_is_fips197 { roundKey := [], nk := 0, nr := 0 } key b hk hb).2
  rw [Aes.encrypt, if_neg (by omega)] at this
  exact Option.some.inj this

/-- **C15** for AES (calls below 4 GiB): CBC of SP 800-38A and its inverse, any block aligned
chunking on both sides. -/
theorem aes_cbc_partial (key iv : List Byte) (hk) (hiv : iv.length = 16) (cs ds : List (List Byte × List Byte))
    (hc : Aligned cs) (hd : Aligned ds)
    (h : (ds.map Prod.fst).flatten = (cbcEncCalls (aes key hk).E iv cs).2) :
    Spec.IsCbc (aes key hk).E iv ((cs.map Prod.fst).flatten.length / 16) (cs.map Prod.fst).flatten
        (cbcEncCalls (aes key hk).E iv cs).2 ∧
      (cbcDecCalls (aes key hk).D iv ds).2 = (cs.map Prod.fst).flatten :=
  ⟨cbc_encrypt_partial _ iv cs hiv hc, cbc_roundtrip_partial _ iv cs ds hiv hc hd h⟩

/-- **C16** for AES: one call. -/
theorem aes_ctr_oneshot (key iv inp : List Byte) (hk) (hiv : iv.length = 16) :
    ∃ c, ctrSetiv iv = some c ∧
      (ctrCrypt (aes key hk).E c inp).1 = Spec.ctr (Aes.Spec.aes key) (Spec.number iv) inp := by
  obtain ⟨c, h1, h2, -⟩ := ctr_oneshot (aes key hk) iv inp hiv
  refine ⟨c, h1, h2.trans ?_⟩
  unfold Spec.ctr
  apply List.map_congr_left
  intro i _
  rw [aes_E key hk _ (by simp [Spec.block128])]

/-- **C16 is false for arbitrary chunks**: with the all zero AES-128 key and IV, encrypting two zero
bytes in two calls differs from one call. -/
theorem ctr_unaligned_chunks_differ :
    ctrCalls (aes (List.replicate 16 0) (Or.inl rfl)).E (Ctr.ofBytes (List.replicate 16 0)) [[0], [0]] ≠
      (ctrCrypt (aes (List.replicate 16 0) (Or.inl rfl)).E (Ctr.ofBytes (List.replicate 16 0)) [0, 0]).1 := by
  decide +kernel

/-- **C18 is false for arbitrary chunks**: ChaCha20 with zero key and nonce. -/
theorem chacha20_unaligned_chunks_differ :
    ∀ st, Cc20.setup (List.replicate 16 0) (List.replicate 32 0) (List.replicate 12 0) = some st →
      Cc20.calls st [[0], [0]] ≠ (Cc20.crypt st [0, 0]).1 := by
  intro st h
  rw [Cc20.setup_spec _ _ _ rfl rfl rfl] at h
  cases h
  decide +kernel

/-! ### Concrete cases -/

/-- Two calls of 16 and 32 bytes; the second one in place. -/
example : Aligned [(List.replicate 16 1, List.replicate 16 0), (List.replicate 32 2, List.replicate 32 2)] := by
  intro c hc
  simp only [List.mem_cons, List.not_mem_nil, or_false] at hc
  rcases hc with rfl | rfl <;> decide

/-- SP 800-38A F.2.1 (CBC-AES128), first two blocks, in two calls. -/
example : (cbcEncCalls (aes [0x2b,0x7e,0x15,0x16,0x28,0xae,0xd2,0xa6,0xab,0xf7,0x15,0x88,0x09,0xcf,0x4f,0x3c]
      (Or.inl rfl)).E [0,1,2,3,4,5,6,7,8,9,10,11,12,13,14,15]
      [([0x6b,0xc1,0xbe,0xe2,0x2e,0x40,0x9f,0x96,0xe9,0x3d,0x7e,0x11,0x73,0x93,0x17,0x2a], List.replicate 16 0),
       ([0xae,0x2d,0x8a,0x57,0x1e,0x03,0xac,0x9c,0x9e,0xb7,0x6f,0xac,0x45,0xaf,0x8e,0x51], List.replicate 16 0)]).2 =
    [0x76,0x49,0xab,0xac,0x81,0x19,0xb2,0x46,0xce,0xe9,0x8e,0x9b,0x12,0xe9,0x19,0x7d,
     0x50,0x86,0xcb,0x9b,0x50,0x72,0x19,0xee,0x95,0xdb,0x11,0x3a,0x91,0x76,0x78,0xb2] := by
  decide +kernel

/-- SP 800-38A F.5.1 (CTR-AES128), 17 bytes. -/
example : (ctrCrypt (aes [0x2b,0x7e,0x15,0x16,0x28,0xae,0xd2,0xa6,0xab,0xf7,0x15,0x88,0x09,0xcf,0x4f,0x3c]
      (Or.inl rfl)).E
      (Ctr.ofBytes [0xf0,0xf1,0xf2,0xf3,0xf4,0xf5,0xf6,0xf7,0xf8,0xf9,0xfa,0xfb,0xfc,0xfd,0xfe,0xff])
      [0x6b,0xc1,0xbe,0xe2,0x2e,0x40,0x9f,0x96,0xe9,0x3d,0x7e,0x11,0x73,0x93,0x17,0x2a,0xae]).1 =
    [0x87,0x4d,0x61,0x91,0xb6,0x20,0xe3,0x26,0x1b,0xef,0x68,0x64,0x99,0x0d,0xb6,0xce,0x98] := by
  decide +kernel

/-- The counter wraps at `2^128`. -/
example : (Ctr.ofBytes (List.replicate 16 0xff)).inc = { w0 := 0, w1 := 0 } := by decide

/-- RFC 3394 4.1: wrap 128 bits with a 128 bit key. -/
example : kwWrap (aes [0,1,2,3,4,5,6,7,8,9,10,11,12,13,14,15] (Or.inl rfl)).E []
      [0x00,0x11,0x22,0x33,0x44,0x55,0x66,0x77,0x88,0x99,0xaa,0xbb,0xcc,0xdd,0xee,0xff] (List.replicate 16 0) =
    some [0x1f,0xa6,0x8b,0x0a,0x81,0x12,0xb4,0x47,0xae,0xf3,0x4b,0xd8,0xfb,0x5a,0x7b,0x82,
          0x9d,0x3e,0x86,0x23,0x71,0xd2,0xcf,0xe5] := by
  decide +kernel

/-- A forged 8 byte "wrapped key" is accepted whatever the key is. -/
example : kwUnwrap (aes (List.replicate 32 7) (Or.inr (Or.inr rfl))).D (List.replicate 8 0xa6) [] = some (0, []) :=
  kw_unwrap_short_accepted _ [] [] (by decide)

/-- Buffers of `2^32` bytes exist. -/
example : ∃ inp : List Byte, inp.length = 2 ^ 32 := ⟨List.replicate (2 ^ 32) 0, List.length_replicate⟩

/-- RFC 7539 2.3.2: the block function. -/
example : (Spec.cc20Block [0,1,2,3,4,5,6,7,8,9,10,11,12,13,14,15,16,17,18,19,20,21,22,23,24,25,26,27,28,29,30,31] 1
      [0,0,0,9,0,0,0,0x4a,0,0,0,0]).take 8 = [0x10,0xf1,0xe7,0xe4,0xd1,0x3b,0x59,0x15] := by
  decide +kernel

/-- The self test vector of the code (RFC 7539 2.4.2), first bytes. -/
example : (Spec.chacha20 [0,1,2,3,4,5,6,7,8,9,10,11,12,13,14,15,16,17,18,19,20,21,22,23,24,25,26,27,28,29,30,31] 1
      [0,0,0,0,0,0,0,0x4a,0,0,0,0] [0x4c,0x61,0x64,0x69,0x65,0x73]) = [0x6e,0x2e,0x35,0x9a,0x25,0x68] := by
  decide +kernel

end LC.Sym
