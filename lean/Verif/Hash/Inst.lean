import Verif.Hash.Stream
import Verif.Sha2.Props
import Verif.Sponge.Props
/-
SHA-2 and SHA-3 as instances of the hash interface.
-/
namespace LC.StreamHash

/-- `_sha256` (`sha256.c:248-262`).  `init` leaves the partial block buffer as it is
(`sha256.c:60-80`); after `final` the buffer and the chaining value are zero and the length
field holds the bit length (`sha256.c:223-237`). -/
def sha256 : StreamHash where
  Ctx := Sha2.Ctx (List (BitVec 32))
  init c := Sha2.initCtx Sha2.iv256 c.part
  update := Sha2.update (Sha2.transform Sha2.p256) 64
  final c :=
    ({ H := List.replicate 8 0, msgLen := c.msgLen * 8 % 2 ^ 64, part := List.replicate 64 0 },
      Sha2.output (Sha2.finalH (Sha2.transform Sha2.p256) 64 8 c) 8)
  block := 64
  dsize := 32

/-- `_sha384` (`sha512.c:320-332`); `final` leaves the chaining value in place. -/
def sha384 : StreamHash where
  Ctx := Sha2.Ctx (List (BitVec 64))
  init c := Sha2.initCtx Sha2.iv384 c.part
  update := Sha2.update (Sha2.transform Sha2.p512) 128
  final c :=
    let H := Sha2.finalH (Sha2.transform Sha2.p512) 128 16 c
    ({ H := H, msgLen := c.msgLen * 8 % 2 ^ 64, part := List.replicate 128 0 }, Sha2.output H 6)
  block := 128
  dsize := 48

/-- `_sha512` (`sha512.c:336-348`). -/
def sha512 : StreamHash where
  Ctx := Sha2.Ctx (List (BitVec 64))
  init c := Sha2.initCtx Sha2.iv512 c.part
  update := Sha2.update (Sha2.transform Sha2.p512) 128
  final c :=
    let H := Sha2.finalH (Sha2.transform Sha2.p512) 128 16 c
    ({ H := H, msgLen := c.msgLen * 8 % 2 ^ 64, part := List.replicate 128 0 }, Sha2.output H 8)
  block := 128
  dsize := 64

/-- SHA3-`8*d` with rate `r` (`sha3_c.c`: `_sha3_224_c`, `_sha3_256_c`, `_sha3_384_c`,
`_sha3_512_c`). -/
def sha3 (r d : Nat) : StreamHash where
  Ctx := Sponge.Ctx
  init _ := Sponge.init r d 0x06
  update := Sponge.absorb Sponge.Keccak.keccakpBytes
  final := Sponge.squeeze Sponge.Keccak.keccakpBytes
  block := r
  dsize := d

theorem overwrite_length (buf data : List Byte) (off : Nat) (h : off + data.length ≤ buf.length) :
    (Sha2.overwrite buf off data).length = buf.length := by
  simp [Sha2.overwrite]; omega

theorem sha2_update_part {σ : Type} (f : σ → List Byte → σ) (B : Nat) (hB : 0 < B) (c : Sha2.Ctx σ)
    (x : List Byte) (h : c.part.length = B) : (Sha2.update f B c x).part.length = B := by
  have hlt := Nat.mod_lt c.msgLen hB
  have hx := fun l : List Byte => Nat.mod_lt l.length hB
  unfold Sha2.update
  dsimp only
  split
  · split
    · dsimp only; rw [overwrite_length]; exact h; omega
    · dsimp only
      rw [Sha2.fullBlocks_eq f B hB _ _ _ (Nat.le_refl _)]
      have hl : (Sha2.overwrite c.part (c.msgLen % B) (x.take (B - c.msgLen % B))).length = B := by
        rw [overwrite_length]; exact h; simp; omega
      rw [overwrite_length]; exact hl
      rw [Sha2.mod_len, hl]
      have := hx (x.drop (B - c.msgLen % B)); omega
  · dsimp only
    rw [Sha2.fullBlocks_eq f B hB _ _ _ (Nat.le_refl _), overwrite_length]; exact h
    rw [Sha2.mod_len]
    have := hx x; omega

theorem sha256_implements :
    Implements sha256 Sha2.Spec.sha256 (2 ^ 61) (fun c => c.part.length = 64) where
  digest c hc chunks hl := Sha2.sha256_streaming c.part hc chunks (by omega)
  init_ok c h := h
  update_ok c x h := sha2_update_part _ 64 (by decide) c x h
  final_ok c _ := by simp [sha256]
  digest_len m := by
    unfold Sha2.Spec.sha256
    have h := Sha2.output_length (Sha2.Spec.md (Sha2.Spec.compress Sha2.Spec.fns256 64
      (fun t => Sha2.K256.getD t 0)) Sha2.iv256 64 8 m) 8
      (by rw [Sha2.md_compress_length _ _ _ _ _ _ _ rfl]; decide)
    unfold Sha2.output at h
    rw [List.take_of_length_le (by rw [Sha2.md_compress_length _ _ _ _ _ _ _ rfl]; decide)] at h
    exact h

theorem sha384_implements :
    Implements sha384 Sha2.Spec.sha384 (2 ^ 61) (fun c => c.part.length = 128) where
  digest c hc chunks hl := Sha2.sha384_streaming c.part hc chunks (by omega)
  init_ok c h := h
  update_ok c x h := sha2_update_part _ 128 (by decide) c x h
  final_ok c _ := by simp [sha384]
  digest_len m := by
    unfold Sha2.Spec.sha384
    exact Sha2.output_length (Sha2.Spec.md (Sha2.Spec.compress Sha2.Spec.fns512 80
      (fun t => Sha2.K512.getD t 0)) Sha2.iv384 128 16 m) 6
      (by rw [Sha2.md_compress_length _ _ _ _ _ _ _ rfl]; decide)

theorem sha512_implements :
    Implements sha512 Sha2.Spec.sha512 (2 ^ 61) (fun c => c.part.length = 128) where
  digest c hc chunks hl := Sha2.sha512_streaming c.part hc chunks (by omega)
  init_ok c h := h
  update_ok c x h := sha2_update_part _ 128 (by decide) c x h
  final_ok c _ := by simp [sha512]
  digest_len m := by
    unfold Sha2.Spec.sha512
    have h := Sha2.output_length (Sha2.Spec.md (Sha2.Spec.compress Sha2.Spec.fns512 80
      (fun t => Sha2.K512.getD t 0)) Sha2.iv512 128 16 m) 8
      (by rw [Sha2.md_compress_length _ _ _ _ _ _ _ rfl]; decide)
    unfold Sha2.output at h
    rw [List.take_of_length_le (by rw [Sha2.md_compress_length _ _ _ _ _ _ _ rfl]; decide)] at h
    exact h

theorem sha3_implements (r d : Nat) (hr : 0 < r) (hr2 : r ≤ 200) :
    Implements (sha3 r d) (fun m => Sponge.Spec.sponge Sponge.Spec.keccakBytes r 0x06 m d) (2 ^ 64)
      (fun _ => True) where
  digest _ _ chunks hl := Sponge.sha3_digest r d hr hr2 0x06 (by decide) chunks hl
  init_ok _ _ := trivial
  update_ok _ _ _ := trivial
  final_ok _ _ := trivial
  digest_len m := by simp [Sponge.Spec.sponge, sha3]

end LC.StreamHash
