import Verif.Sha2.Lemmas
/-
C01: streaming SHA-256 / SHA-384 / SHA-512 equals FIPS 180-4.
-/
namespace LC.Sha2

/-- The compression functions of the C code are those of FIPS 180-4 (the in-place
schedule with zeroised slots never reads a zeroised word). -/
theorem sha256_transform_fips :
    transform p256 = Spec.compress Spec.fns256 64 (fun t => K256.getD t 0) :=
  transform_eq p256 Spec.fns256 agree256

theorem sha512_transform_fips :
    transform p512 = Spec.compress Spec.fns512 80 (fun t => K512.getD t 0) :=
  transform_eq p512 Spec.fns512 agree512

/-- The tables are the numbers FIPS 180-4 prescribes: fractional parts of the cube
roots of the first 64 / 80 primes and of the square roots of the first 8 / 9th-16th
primes. -/
theorem sha2_constants :
    (∀ i < 64, Spec.IsCbrtFrac 32 (Spec.primes.getD i 0) (K256.getD i 0).toNat) ∧
    (∀ i < 80, Spec.IsCbrtFrac 64 (Spec.primes.getD i 0) (K512.getD i 0).toNat) ∧
    (∀ i < 8, Spec.IsSqrtFrac 32 (Spec.primes.getD i 0) (iv256.getD i 0).toNat) ∧
    (∀ i < 8, Spec.IsSqrtFrac 64 (Spec.primes.getD i 0) (iv512.getD i 0).toNat) ∧
    (∀ i < 8, Spec.IsSqrtFrac 64 (Spec.primes.getD (8 + i) 0) (iv384.getD i 0).toNat) ∧
    K256.length = 64 ∧ K512.length = 80 := by
  decide +kernel

/-- Any Merkle-Damgard instance of the streaming code: for every stale buffer, every
split of the message into updates (including empty ones) the final chaining value is
the one of the padded message.  The length bound is the one of the `size_t` bit
counter. -/
theorem md_streaming {σ : Type} (f : σ → List Byte → σ) (iv : σ) (B res : Nat)
    (hd : B ∣ 2 ^ 64) (hres : 8 ≤ res) (hrB : res + 1 ≤ B) (buf : List Byte)
    (hbuf : buf.length = B) (chunks : List (List Byte))
    (hlen : 8 * chunks.flatten.length < 2 ^ 64) :
    finalH f B res (chunks.foldl (update f B) (initCtx iv buf)) =
      Spec.md f iv B res chunks.flatten := by
  have h := updates_inv f iv B (by omega) hd chunks [] _ (init_inv f iv B buf hbuf)
  exact finalH_eq f iv B res hd hres hrB _ hlen _ (by simpa using h)

/-- FIPS 180-4 SHA-256. -/
def Spec.sha256 (m : List Byte) : List Byte :=
  (Spec.md (Spec.compress Spec.fns256 64 (fun t => K256.getD t 0)) iv256 64 8 m).flatMap
    fun x => beBytes 4 x.toNat

/-- FIPS 180-4 SHA-384: six words. -/
def Spec.sha384 (m : List Byte) : List Byte :=
  ((Spec.md (Spec.compress Spec.fns512 80 (fun t => K512.getD t 0)) iv384 128 16 m).take 6).flatMap
    fun x => beBytes 8 x.toNat

/-- FIPS 180-4 SHA-512. -/
def Spec.sha512 (m : List Byte) : List Byte :=
  (Spec.md (Spec.compress Spec.fns512 80 (fun t => K512.getD t 0)) iv512 128 16 m).flatMap
    fun x => beBytes 8 x.toNat

theorem md_compress_length {w : Nat} (F : Spec.Fns w) (n : Nat) (K : Nat → BitVec w)
    (iv : List (BitVec w)) (B L : Nat) (m : List Byte) (h : iv.length = 8) :
    (Spec.md (Spec.compress F n K) iv B L m).length = 8 := by
  unfold Spec.md
  cases (Spec.pad B L m).length / B with
  | zero => exact h
  | succ k => rfl

/-- SHA-256 over any sequence of updates is FIPS 180-4 SHA-256 of the concatenation. -/
theorem sha256_streaming (buf : List Byte) (hbuf : buf.length = 64) (chunks : List (List Byte))
    (hlen : 8 * chunks.flatten.length < 2 ^ 64) :
    sha256 buf chunks = Spec.sha256 chunks.flatten := by
  unfold sha256 Spec.sha256
  rw [md_streaming _ _ 64 8 (by decide) (by decide) (by decide) buf hbuf chunks hlen,
    sha256_transform_fips]
  unfold output
  rw [List.take_of_length_le (by rw [md_compress_length _ _ _ _ _ _ _ rfl]; decide)]

/-- SHA-384 over any sequence of updates is FIPS 180-4 SHA-384 of the concatenation. -/
theorem sha384_streaming (buf : List Byte) (hbuf : buf.length = 128) (chunks : List (List Byte))
    (hlen : 8 * chunks.flatten.length < 2 ^ 64) :
    sha384 buf chunks = Spec.sha384 chunks.flatten := by
  unfold sha384 Spec.sha384
  rw [md_streaming _ _ 128 16 (by decide) (by decide) (by decide) buf hbuf chunks hlen,
    sha512_transform_fips]
  rfl

/-- SHA-512 over any sequence of updates is FIPS 180-4 SHA-512 of the concatenation. -/
theorem sha512_streaming (buf : List Byte) (hbuf : buf.length = 128) (chunks : List (List Byte))
    (hlen : 8 * chunks.flatten.length < 2 ^ 64) :
    sha512 buf chunks = Spec.sha512 chunks.flatten := by
  unfold sha512 Spec.sha512
  rw [md_streaming _ _ 128 16 (by decide) (by decide) (by decide) buf hbuf chunks hlen,
    sha512_transform_fips]
  unfold output
  rw [List.take_of_length_le (by rw [md_compress_length _ _ _ _ _ _ _ rfl]; decide)]

theorem output_length {w : Nat} (H : List (BitVec w)) (n : Nat) (h : n ≤ H.length) :
    (output H n).length = n * (w / 8) := by
  unfold output
  induction H generalizing n with
  | nil => simp at h; subst h; simp
  | cons x xs ih =>
    cases n with
    | zero => simp
    | succ n =>
      simp only [List.take_succ_cons, List.flatMap_cons, List.length_append, beBytes_length]
      rw [ih n (by simpa using h), Nat.succ_mul]; omega

/-- Digest sizes. -/
theorem sha2_digest_size (b64 b128 : List Byte) (h64 : b64.length = 64) (h128 : b128.length = 128)
    (chunks : List (List Byte)) (hlen : 8 * chunks.flatten.length < 2 ^ 64) :
    (sha256 b64 chunks).length = 32 ∧ (sha384 b128 chunks).length = 48 ∧
      (sha512 b128 chunks).length = 64 := by
  unfold sha256 sha384 sha512
  rw [md_streaming _ _ 64 8 (by decide) (by decide) (by decide) b64 h64 chunks hlen,
    md_streaming _ _ 128 16 (by decide) (by decide) (by decide) b128 h128 chunks hlen,
    md_streaming _ _ 128 16 (by decide) (by decide) (by decide) b128 h128 chunks hlen,
    sha256_transform_fips, sha512_transform_fips]
  refine ⟨?_, ?_, ?_⟩ <;> rw [output_length _ _ (by rw [md_compress_length _ _ _ _ _ _ _ rfl]; decide)]

/-- Chunking independence, stated without the specification: two update sequences
with the same concatenation give the same digest, whatever the buffers contained. -/
theorem sha2_chunking (b1 b2 c1 c2 : List Byte) (h1 : b1.length = 64) (h2 : b2.length = 64)
    (h3 : c1.length = 128) (h4 : c2.length = 128) (xs ys : List (List Byte))
    (he : xs.flatten = ys.flatten) (hlen : 8 * xs.flatten.length < 2 ^ 64) :
    sha256 b1 xs = sha256 b2 ys ∧ sha384 c1 xs = sha384 c2 ys ∧ sha512 c1 xs = sha512 c2 ys := by
  rw [sha256_streaming b1 h1 xs hlen, sha384_streaming c1 h3 xs hlen,
    sha512_streaming c1 h3 xs hlen, he]
  rw [he] at hlen
  rw [sha256_streaming b2 h2 ys hlen, sha384_streaming c2 h4 ys hlen,
    sha512_streaming c2 h4 ys hlen]
  exact ⟨rfl, rfl, rfl⟩

/-- Non-vacuity and known answer: SHA-256("abc") fed in two pieces with a dirty
buffer. -/
example : sha256 (List.replicate 64 7) [[0x61], [], [0x62, 0x63]] =
    [186, 120, 22, 191, 143, 1, 207, 234, 65, 65, 64, 222, 93, 174, 34, 35, 176, 3, 97, 163, 150,
     23, 122, 156, 180, 16, 255, 97, 242, 0, 21, 173] := by decide +kernel

example : Spec.sha256 [0x61, 0x62, 0x63] =
    [186, 120, 22, 191, 143, 1, 207, 234, 65, 65, 64, 222, 93, 174, 34, 35, 176, 3, 97, 163, 150,
     23, 122, 156, 180, 16, 255, 97, 242, 0, 21, 173] := by
  rw [show [0x61, 0x62, 0x63] = ([[0x61], [], [0x62, 0x63]] : List (List Byte)).flatten from rfl,
    ← sha256_streaming (List.replicate 64 7) (by decide) _ (by decide)]
  decide +kernel

/-- The two-block padding case: 112 bytes force a second block in SHA-512. -/
example : 8 * ([List.replicate 60 1, List.replicate 52 2] : List (List Byte)).flatten.length < 2 ^ 64 ∧
    (sha512 (List.replicate 128 9) [List.replicate 60 1, List.replicate 52 2]).take 4 =
    (sha512 (List.replicate 128 0) [List.replicate 60 1 ++ List.replicate 52 2]).take 4 := by
  decide +kernel

end LC.Sha2
