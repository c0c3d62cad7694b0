/-
The `struct lc_hash` interface (`/repo/hash/api/lc_hash.h.in`, `/repo/hash/src/hash.c`):
every hash is used through init / update / final callbacks on a caller provided state
buffer.
-/
namespace LC

abbrev Byte := UInt8

/-- `struct lc_hash`.  `init` overwrites an arbitrary earlier state (as `lc_hash_init` does
on the caller's memory), `final` returns the state left behind and the digest.
`block` is `lc_hash_blocksize` (the `sponge_rate` member, `hash.c:73-83`), `dsize` is
`lc_hash_digestsize`.  Only hashes with a fixed digest size are modelled here. -/
structure StreamHash where
  Ctx : Type
  init : Ctx → Ctx
  update : Ctx → List Byte → Ctx
  final : Ctx → Ctx × List Byte
  block : Nat
  dsize : Nat

namespace StreamHash

/-- `S` implements the hash function `H` on messages shorter than `maxLen` bytes, from any
state memory satisfying `Ok`. -/
structure Implements (S : StreamHash) (H : List Byte → List Byte) (maxLen : Nat)
    (Ok : S.Ctx → Prop) : Prop where
  digest : ∀ c, Ok c → ∀ chunks : List (List Byte), chunks.flatten.length < maxLen →
    (S.final (chunks.foldl S.update (S.init c))).2 = H chunks.flatten
  init_ok : ∀ c, Ok c → Ok (S.init c)
  update_ok : ∀ c x, Ok c → Ok (S.update c x)
  final_ok : ∀ c, Ok c → Ok (S.final c).1
  digest_len : ∀ m, (H m).length = S.dsize

/-- The state `c` is reached by init and updates whose concatenation is `m`. -/
def Absorbed (S : StreamHash) (Ok : S.Ctx → Prop) (c : S.Ctx) (m : List Byte) : Prop :=
  ∃ c0 chunks, Ok c0 ∧ c = List.foldl S.update (S.init c0) chunks ∧ chunks.flatten = m

variable {S : StreamHash} {H : List Byte → List Byte} {maxLen : Nat} {Ok : S.Ctx → Prop}

theorem absorbed_init {c : S.Ctx} (h : Ok c) : Absorbed S Ok (S.init c) [] := ⟨c, [], h, rfl, rfl⟩

theorem Absorbed.update {c : S.Ctx} {m : List Byte} (h : Absorbed S Ok c m) (x : List Byte) :
    Absorbed S Ok (S.update c x) (m ++ x) := by
  obtain ⟨c0, chunks, h0, h1, h2⟩ := h
  refine ⟨c0, chunks ++ [x], h0, ?_, ?_⟩
  · rw [h1, List.foldl_append]; rfl
  · rw [List.flatten_append, h2]; simp

theorem Absorbed.digest (hI : Implements S H maxLen Ok) {c : S.Ctx} {m : List Byte}
    (h : Absorbed S Ok c m) (hm : m.length < maxLen) : (S.final c).2 = H m := by
  obtain ⟨c0, chunks, h0, h1, h2⟩ := h
  rw [h1, ← h2]
  exact hI.digest c0 h0 chunks (h2 ▸ hm)

theorem Absorbed.ok (hI : Implements S H maxLen Ok) {c : S.Ctx} {m : List Byte}
    (h : Absorbed S Ok c m) : Ok c := by
  obtain ⟨c0, chunks, h0, h1, _⟩ := h
  subst h1
  have : ∀ (xs : List (List Byte)) (c : S.Ctx), Ok c → Ok (xs.foldl S.update c) := by
    intro xs
    induction xs with
    | nil => intro c h; exact h
    | cons x xs ih => intro c h; exact ih _ (hI.update_ok c x h)
  exact this chunks _ (hI.init_ok _ h0)

end StreamHash
end LC
