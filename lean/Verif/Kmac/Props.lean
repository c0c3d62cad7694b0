import Verif.Kmac.Lemmas
/-
Property theorems: C05 (encodings are injective) and C06 (KMAC streaming).
-/
namespace LC.Kmac
open LC.Sponge (Byte absorb squeeze setDigestsize updates)

/-! ### C05 -/

/-- C05: `left_encode` / `right_encode` of the code are the SP 800-185 ones, for every
value of a `size_t`. -/
theorem encode_eq_sp800_185 (x : Nat) (h : x < 2 ^ 64) :
    leftEncode x = Spec.leftEncode x ∧ rightEncode x = Spec.rightEncode x :=
  ⟨leftEncode_eq x h, rightEncode_eq x h⟩

/-- C05: whatever follows, the encoded length can be read off unambiguously. -/
theorem left_encode_prefix_free (x y : Nat) (hx : x < 2 ^ 64) (hy : y < 2 ^ 64) (a b : List Byte)
    (h : leftEncode x ++ a = leftEncode y ++ b) : x = y ∧ a = b := by
  rw [leftEncode_eq x hx, leftEncode_eq y hy] at h
  exact leftEncode_prefix_free x y hx hy a b h

theorem right_encode_suffix_free (x y : Nat) (hx : x < 2 ^ 64) (hy : y < 2 ^ 64) (a b : List Byte)
    (h : a ++ rightEncode x = b ++ rightEncode y) : x = y ∧ a = b := by
  rw [rightEncode_eq x hx, rightEncode_eq y hy] at h
  exact rightEncode_suffix_free x y hx hy a b h

example : leftEncode 0x1234 ++ [7] = [2, 0x12, 0x34, 7] := by decide
example : [7] ++ rightEncode 0x1234 = [7, 0x12, 0x34, 2] := by decide

/-- C05: the string absorbed by `lc_cshake_init` is `bytepad(encode_string(N) ||
encode_string(S), rate)`. -/
theorem cshake_init_absorbs (perm : List Byte → List Byte) (r : Nat) (hr : 0 < r) (hr2 : r < 256)
    (n s : List Byte) (hne : ¬ (n = [] ∧ s = [])) (hn : n.length < 2 ^ 61) (hs : s.length < 2 ^ 61) :
    ∃ chunks, cshakeInit perm r n s = updates perm (Sponge.init r 0 0x04) chunks ∧
      chunks.flatten = Spec.bytepad (Spec.encodeString n ++ Spec.encodeString s) r :=
  cshakeInit_rep r hr hr2 n s hne hn hs

/-- C05: the string absorbed by `lc_kmac_init`. -/
theorem kmac_init_absorbs (perm : List Byte → List Byte) (r : Nat) (hr : 0 < r) (hr2 : r < 256)
    (sup : Bool) (key s : List Byte) (hk : key.length < 2 ^ 61) (hs : s.length < 2 ^ 61) :
    ∃ chunks, (init perm r sup key s).hash = updates perm (Sponge.init r 0 0x04) chunks ∧
      chunks.flatten = Spec.bytepad (Spec.encodeString Spec.name ++ Spec.encodeString s) r ++
        Spec.bytepad (Spec.encodeString key) r :=
  init_rep r hr hr2 sup key s hk hs

/-- C05: the cSHAKE prefix followed by any message determines name, customization
string and message. -/
theorem cshake_prefix_injective (r : Nat) (hr : 0 < r) (hr2 : r < 256) (n s n' s' x x' : List Byte)
    (hn : n.length < 2 ^ 61) (hs : s.length < 2 ^ 61) (hn' : n'.length < 2 ^ 61)
    (hs' : s'.length < 2 ^ 61)
    (h : Spec.bytepad (Spec.encodeString n ++ Spec.encodeString s) r ++ x =
      Spec.bytepad (Spec.encodeString n' ++ Spec.encodeString s') r ++ x') :
    n = n' ∧ s = s' ∧ x = x' := by
  rw [bytepad_eq r hr hr2, bytepad_eq r hr hr2] at h
  simp only [List.append_assoc] at h
  have h0 := List.append_cancel_left h
  obtain ⟨e1, h1⟩ := encodeString_prefix_free _ _ hn hn' _ _ h0
  obtain ⟨e2, h2⟩ := encodeString_prefix_free _ _ hs hs' _ _ h1
  subst e1 e2
  exact ⟨rfl, rfl, List.append_cancel_left h2⟩

/-- C05: the whole KMAC input string determines customization string, key, message and
requested length (`L = 0` being the XOF mode). -/
theorem kmac_input_injective (r : Nat) (hr : 0 < r) (hr2 : r < 256) (s k x s' k' x' : List Byte)
    (L L' : Nat) (hs : s.length < 2 ^ 61) (hk : k.length < 2 ^ 61) (hs' : s'.length < 2 ^ 61)
    (hk' : k'.length < 2 ^ 61) (hL : L < 2 ^ 61) (hL' : L' < 2 ^ 61)
    (h : Spec.bytepad (Spec.encodeString Spec.name ++ Spec.encodeString s) r ++
          (Spec.bytepad (Spec.encodeString k) r ++ x ++ Spec.rightEncode (8 * L)) =
        Spec.bytepad (Spec.encodeString Spec.name ++ Spec.encodeString s') r ++
          (Spec.bytepad (Spec.encodeString k') r ++ x' ++ Spec.rightEncode (8 * L'))) :
    s = s' ∧ k = k' ∧ x = x' ∧ L = L' := by
  obtain ⟨_, e1, h1⟩ := cshake_prefix_injective r hr hr2 _ _ _ _ _ _ (by decide) hs (by decide) hs' h
  obtain ⟨e2, h2⟩ := rightEncode_suffix_free _ _ (bits_lt _ hL) (bits_lt _ hL') _ _ h1
  rw [bytepad_eq r hr hr2, bytepad_eq r hr hr2] at h2
  simp only [List.append_assoc] at h2
  obtain ⟨e3, h3⟩ := encodeString_prefix_free _ _ hk hk' _ _ (List.append_cancel_left h2)
  subst e3
  exact ⟨e1, rfl, List.append_cancel_left h3, by omega⟩

/-- Beyond `2^61` bytes the shift wraps: the code would encode the length `2^61` like the
length 0, so the bound in the statements is needed. -/
example : leftEncode (shl3 (2 ^ 61)) = leftEncode (shl3 0) := by decide

/-! ### C06 -/

/-- C06, cSHAKE: after `lc_cshake_init`, any updates and any squeeze schedule, the output
is a prefix of `cSHAKE(X, ·, N, S)`. -/
theorem cshake_streaming (perm : List Byte → List Byte)
    (hp : ∀ s, s.length = 200 → (perm s).length = 200) (r : Nat) (hr : 0 < r) (hr2 : r ≤ 200)
    (n s : List Byte) (chunks : List (List Byte)) (hn : n.length < 2 ^ 61) (hs : s.length < 2 ^ 61)
    (hx : chunks.flatten.length < 2 ^ 63) (ds : List Nat) :
    (Sponge.finals perm (updates perm (cshakeInit perm r n s) chunks) ds).2.flatten =
      Spec.cshake perm r chunks.flatten ds.sum n s ∧
    (Sponge.finals perm (updates perm (cshakeInit perm r n s) chunks) ds).2.map List.length = ds := by
  unfold Spec.cshake
  by_cases hne : n = [] ∧ s = []
  · have : cshakeInit perm r n s = Sponge.init r 0 0x1f := by
      unfold cshakeInit; rw [if_pos (by simpa using hne)]
    rw [this, if_pos hne]
    exact Sponge.sponge_streaming perm hp r hr hr2 0x1f (by decide) 0 chunks (by omega) ds
  · rw [if_neg hne]
    obtain ⟨pre, h1, h2⟩ := cshake_init_absorbs perm r hr (by omega) n s hne hn hs
    have h3 := Sponge.sponge_streaming perm hp r hr hr2 0x04 (by decide) 0 (pre ++ chunks) (by
      rw [List.flatten_append, h2, List.length_append]
      have hb := bytepad_length_le r hr (by omega) (Spec.encodeString n ++ Spec.encodeString s)
      simp only [Spec.encodeString, List.length_append, leftEncode_length] at hb
      have := (byteLen_le _ (bits_lt _ hn)).2
      have := (byteLen_le _ (bits_lt _ hs)).2
      simp only [Spec.encodeString]
      omega) ds
    have h4 : updates perm (Sponge.init r 0 0x04) (pre ++ chunks) =
        updates perm (cshakeInit perm r n s) chunks := by
      rw [h1]; simp [updates, List.foldl_append]
    rw [h4, List.flatten_append, h2] at h3
    exact h3

/-- The length bound used for the sponge. -/
theorem kmac_total_lt (r : Nat) (hr : 0 < r) (hr2 : r ≤ 200) (key s x t : List Byte)
    (hk : key.length < 2 ^ 61) (hs : s.length < 2 ^ 61) (hx : x.length < 2 ^ 63) (ht : t.length ≤ 9) :
    (Spec.bytepad (Spec.encodeString Spec.name ++ Spec.encodeString s) r ++
        Spec.bytepad (Spec.encodeString key) r ++ x ++ t).length < 2 ^ 64 := by
  have hb := bytepad_length_le r hr (by omega) (Spec.encodeString Spec.name ++ Spec.encodeString s)
  have hb2 := bytepad_length_le r hr (by omega) (Spec.encodeString key)
  simp only [Spec.encodeString, List.length_append, leftEncode_length] at hb hb2
  have := (byteLen_le _ (bits_lt _ hk)).2
  have := (byteLen_le _ (bits_lt _ hs)).2
  have hnm : Spec.name.length = 4 := rfl
  rw [hnm] at hb
  have := (byteLen_le (8 * 4) (by decide)).2
  simp only [Spec.encodeString, List.length_append, hnm] at *
  omega

/-- C06: `init; update*; final` returns `KMAC(K, X, L, S)` for every key, customization
string, chunking and every accepted output length (at least 4 bytes). -/
theorem kmac_streaming (perm : List Byte → List Byte)
    (hp : ∀ s, s.length = 200 → (perm s).length = 200) (r : Nat) (hr : 0 < r) (hr2 : r ≤ 200)
    (sup : Bool) (key s : List Byte) (chunks : List (List Byte)) (L : Nat)
    (hk : key.length < 2 ^ 61) (hs : s.length < 2 ^ 61) (hx : chunks.flatten.length < 2 ^ 63)
    (hL : 4 ≤ L) (hL2 : L < 2 ^ 61) :
    (final perm (chunks.foldl (update perm) (init perm r sup key s)) L).2 =
      some (Spec.kmac perm r key chunks.flatten L s) := by
  have hrep := (updates_hash chunks _
    (init_rep (perm := perm) r hr (by omega) sup key s hk hs)).absorb (Spec.rightEncode (8 * L))
  have eL : shl3 L = 8 * L := by unfold shl3; omega
  unfold final
  rw [if_pos hL, eL, rightEncode_eq _ (bits_lt _ hL2)]
  dsimp only
  obtain ⟨pre, h1, h2⟩ := hrep
  rw [h1]
  have h3 := Sponge.sponge_streaming perm hp r hr hr2 0x04 (by decide) 0 pre (by
    rw [h2]
    exact kmac_total_lt r hr hr2 key s _ _ hk hs hx (by
      rw [rightEncode_length]; have := (byteLen_le _ (bits_lt _ hL2)).2; omega)) [L]
  have h4 := h3.1
  simp only [Sponge.finals, List.flatten_cons, List.flatten_nil, List.append_nil, List.sum_cons,
    List.sum_nil, Nat.add_zero] at h4
  rw [h4, h2]
  unfold Spec.kmac Spec.cshake
  rw [if_neg (fun h => by simp [Spec.name] at h)]
  simp only [List.append_assoc]

/-- C06, XOF mode: any schedule of `lc_kmac_final_xof` calls returns consecutive pieces of
`KMACXOF(K, X, ·, S)`. -/
theorem kmac_xof_streaming (perm : List Byte → List Byte)
    (hp : ∀ s, s.length = 200 → (perm s).length = 200) (r : Nat) (hr : 0 < r) (hr2 : r ≤ 200)
    (sup : Bool) (key s : List Byte) (chunks : List (List Byte)) (ds : List Nat)
    (hk : key.length < 2 ^ 61) (hs : s.length < 2 ^ 61) (hx : chunks.flatten.length < 2 ^ 63)
    (hd : ∀ d ∈ ds, 4 ≤ d) :
    ∃ outs : List (List Byte),
      (finalXofs perm (chunks.foldl (update perm) (init perm r sup key s)) ds).2 = outs.map some ∧
      outs.map List.length = ds ∧
      outs.flatten = Spec.kmacXof perm r key chunks.flatten ds.sum s := by
  have hrep := (updates_hash chunks _
    (init_rep (perm := perm) r hr (by omega) sup key s hk hs)).absorb [0x00, 0x01]
  obtain ⟨pre, h1, h2⟩ := hrep
  have h3 := Sponge.sponge_streaming perm hp r hr hr2 0x04 (by decide) 0 pre (by
    rw [h2]; exact kmac_total_lt r hr hr2 key s _ _ hk hs hx (by simp)) ds
  rw [← h1] at h3
  refine ⟨(Sponge.finals perm (absorb perm
    (chunks.foldl (update perm) (init perm r sup key s)).hash [0x00, 0x01]) ds).2, ?_, h3.2, ?_⟩
  · have hflag : (chunks.foldl (update perm) (init perm r sup key s)).finalCalled = false := by
      rw [updates_flag]; rfl
    cases ds with
    | nil => rfl
    | cons d ds =>
      rw [finalXofs_first d ds _ hflag, if_pos (hd d (by simp)), finalXofs_true _ _ rfl hd]
  · rw [h3.1, h2]
    unfold Spec.kmacXof Spec.cshake
    rw [if_neg (fun h => by simp [Spec.name] at h)]
    have : Spec.rightEncode 0 = [0x00, 0x01] := by decide
    rw [this]
    simp only [List.append_assoc]

/-- Shorter outputs than 4 bytes are refused: nothing is written, the context is unchanged. -/
theorem kmac_short_refused (perm : List Byte → List Byte) (c : Ctx) (L : Nat) (h : L < 4) :
    final perm c L = (c, none) ∧ finalXof perm c L = (c, none) := by
  have : ¬ 4 ≤ L := by omega
  simp [final, finalXof, this]

/-- C06: with re-initialisation support, `lc_kmac_reinit` after any sequence of API calls
gives back exactly the freshly keyed context. -/
theorem kmac_reinit (perm : List Byte → List Byte) (r : Nat) (key s : List Byte) (ops : List Op) :
    reinit (ops.foldl (Op.run perm) (init perm r true key s)) = init perm r true key s := by
  have hsh : ∀ (ops : List Op) (c : Ctx), (ops.foldl (Op.run perm) c).shadow = c.shadow := by
    intro ops
    induction ops with
    | nil => intro c; rfl
    | cons o os ih =>
      intro c
      rw [List.foldl_cons, ih]
      cases o with
      | update x => rfl
      | final d => simp only [Op.run, final]; split <;> rfl
      | finalXof d =>
        simp only [Op.run, finalXof, finalXofInternal]; split
        · dsimp only; split <;> rfl
        · rfl
      | reinit => simp only [Op.run, reinit]; split <;> rfl
  have h := hsh ops (init perm r true key s)
  unfold reinit
  rw [h]
  rfl

/-- C06: hence a MAC computed after any history and a re-initialisation is the KMAC of the
new message alone. -/
theorem kmac_after_reinit (perm : List Byte → List Byte)
    (hp : ∀ s, s.length = 200 → (perm s).length = 200) (r : Nat) (hr : 0 < r) (hr2 : r ≤ 200)
    (key s : List Byte) (ops : List Op) (chunks : List (List Byte)) (L : Nat)
    (hk : key.length < 2 ^ 61) (hs : s.length < 2 ^ 61) (hx : chunks.flatten.length < 2 ^ 63)
    (hL : 4 ≤ L) (hL2 : L < 2 ^ 61) :
    (final perm (chunks.foldl (update perm)
      (reinit (ops.foldl (Op.run perm) (init perm r true key s)))) L).2 =
      some (Spec.kmac perm r key chunks.flatten L s) := by
  rw [kmac_reinit]
  exact kmac_streaming perm hp r hr hr2 true key s chunks L hk hs hx hL hL2

/-- Instance: KMAC256 over the library's Keccak permutation (rate 136). -/
theorem kmac256_streaming (sup : Bool) (key s : List Byte) (chunks : List (List Byte)) (L : Nat)
    (hk : key.length < 2 ^ 61) (hs : s.length < 2 ^ 61) (hx : chunks.flatten.length < 2 ^ 63)
    (hL : 4 ≤ L) (hL2 : L < 2 ^ 61) :
    (final Sponge.Keccak.keccakpBytes
      (chunks.foldl (update Sponge.Keccak.keccakpBytes)
        (init Sponge.Keccak.keccakpBytes 136 sup key s)) L).2 =
      some (Spec.kmac Sponge.Spec.keccakBytes 136 key chunks.flatten L s) := by
  rw [← Sponge.keccakpBytes_eq_fips]
  exact kmac_streaming _ (fun s _ => Sponge.keccakpBytes_length s) 136 (by decide) (by decide) sup key
    s chunks L hk hs hx hL hL2

/-- The hypotheses are met by the inputs of the library's self test (`kmac.c:37-63`), and
the model reproduces the expected MAC. -/
example :
    (final Sponge.Keccak.keccakpBytes
      ([[0x0E, 0x8B, 0x97], [], [0x33, 0x23, 0x85, 0x6E, 0x39, 0x03, 0xFF, 0xD5]].foldl
        (update Sponge.Keccak.keccakpBytes)
        (init Sponge.Keccak.keccakpBytes 136 true
          [0x88, 0x4C, 0xFB, 0x2D, 0xBD, 0xBB, 0xD7, 0x22, 0xBA, 0x3E, 0x0A, 0x63, 0xF1, 0xC9,
            0xED, 0x02]
          [0x28, 0x60, 0x7A, 0xF1, 0xD2, 0x68, 0x0E, 0x36, 0x1F, 0xB8, 0x81])) 51).2 =
    some [0x41, 0x27, 0x58, 0x53, 0x5c, 0x45, 0x39, 0x79, 0x66, 0x20, 0xc6, 0xb2, 0xac, 0xac,
      0x53, 0x48, 0x9e, 0x08, 0x34, 0x69, 0x0a, 0x2f, 0xdb, 0x21, 0xa4, 0xe5, 0x0c, 0x7c,
      0x31, 0x09, 0x78, 0xec, 0xff, 0x65, 0x34, 0xb6, 0x18, 0xe2, 0x69, 0x2f, 0x53, 0x9c,
      0xed, 0xd5, 0x61, 0x25, 0xac, 0x18, 0x96, 0x8f, 0xc3] := by
  decide +kernel

end LC.Kmac
