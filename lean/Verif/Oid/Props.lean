import Verif.Oid.Data
/-
Model of `look_up_OID`, `parse_OID` and `OID_to_data` (`/repo/asn1/src/oid_registry.c`) and the
theorems for C32.
-/
namespace LC.Oid

/-- The bytes registered for an OID, `OID_to_data`, `oid_registry.c:207-215`. -/
def oidData (oid : Nat) : List UInt8 :=
  (data.drop (index.getD oid 0)).take (index.getD (oid + 1) 0 - index.getD oid 0)

/-- The hash of lines 44-50; `size_t` arithmetic is modulo `2^64`. -/
def hash (d : List UInt8) : Nat :=
  let h := d.foldl (fun h b => (h + b.toNat * 33) % 2 ^ 64) ((d.length + 2 ^ 64 - 1) % 2 ^ 64)
  ((h >>> 24) ^^^ (h >>> 16) ^^^ (h >>> 8) ^^^ h) &&& 0xff

/-- Comparison of two byte strings of the same length from the end, lines 85-96: `len` bytes
remain to be compared. -/
def cmpRev (a b : List UInt8) : Nat → Ordering
  | 0 => .eq
  | len + 1 =>
    if a.getD len 0 > b.getD len 0 then .gt
    else if a.getD len 0 < b.getD len 0 then .lt
    else cmpRev a b len

/-- Order of the registered entry `e` (hash, OID) relative to the data searched for, lines 61-97. -/
def cmpEntry (h : Nat) (d : List UInt8) (e : Nat × Nat) : Ordering :=
  if e.1 > h then .gt
  else if e.1 < h then .lt
  else
    let len := index.getD (e.2 + 1) 0 - index.getD e.2 0
    if len > d.length then .gt
    else if len < d.length then .lt
    else cmpRev (oidData e.2) d len

/-- The binary search, lines 56-99; `none` if `fuel` iterations were not enough. -/
def search (h : Nat) (d : List UInt8) : Nat → Nat → Nat → Option Nat
  | 0, _, _ => none
  | fuel + 1, i, k =>
    if i < k then
      let j := (i + k) / 2
      match cmpEntry h d (searchTable.getD j (0, 0)) with
      | .gt => search h d fuel i j
      | .lt => search h d fuel (j + 1) k
      | .eq => some (searchTable.getD j (0, 0)).2
    else some NR

/-- `look_up_OID`, lines 37-102. -/
def lookUp (d : List UInt8) : Nat := (search (hash d) d (NR + 1) 0 NR).getD NR

/-- `parse_OID`, lines 114-122; `none` is `-EBADMSG`. -/
def parse (d : List UInt8) : Option Nat :=
  if d.length < 3 ∨ d.getD 0 0 ≠ 6 ∨ (d.getD 1 0).toNat ≠ d.length - 2 then none
  else some (lookUp (d.drop 2))

/-! ### Specification: DER contents octets of an object identifier (X.690, 8.19) -/

/-- Base 128 digits, most significant first, continuation bit in all but the last; at most `fuel`
digits (all numbers of the registry are below `2^21`). -/
def Spec.base128 : Nat → Nat → List UInt8 → List UInt8
  | 0, _, acc => acc
  | fuel + 1, v, acc =>
    let acc := UInt8.ofNat (v % 128 + (if acc = [] then 0 else 128)) :: acc
    if v / 128 = 0 then acc else Spec.base128 fuel (v / 128) acc

/-- The contents octets of an object identifier with at least two components. -/
def Spec.der : List Nat → List UInt8
  | a :: b :: rest => Spec.base128 5 (40 * a + b) [] ++ rest.flatMap (fun v => Spec.base128 5 v [])
  | _ => []

/-! ### Proofs -/

theorem cmpRev_eq (a b : List UInt8) : ∀ n, cmpRev a b n = .eq → ∀ i, i < n → a.getD i 0 = b.getD i 0
  | 0, _, i, hi => by omega
  | n + 1, h, i, hi => by
    unfold cmpRev at h
    split at h
    · cases h
    · split at h
      · cases h
      · rename_i h1 h2
        by_cases e : i = n
        · subst e
          have h1' := UInt8.not_lt.mp h1
          have h2' := UInt8.not_lt.mp h2
          exact UInt8.le_antisymm h1' h2'
        · exact cmpRev_eq a b n h i (by omega)

theorem oidData_length : ∀ o, o < NR → (oidData o).length = index.getD (o + 1) 0 - index.getD o 0 := by
  decide +kernel

theorem table_oid : ∀ j, j < NR → (searchTable.getD j (0, 0)).2 < NR := by decide +kernel

theorem cmpEntry_eq (h : Nat) (d : List UInt8) (e : Nat × Nat) (he : e.2 < NR)
    (hc : cmpEntry h d e = .eq) : d = oidData e.2 := by
  unfold cmpEntry at hc
  dsimp only at hc
  split at hc
  · cases hc
  · split at hc
    · cases hc
    · split at hc
      · cases hc
      · split at hc
        · cases hc
        · have hl := oidData_length e.2 he
          apply List.ext_getElem
          · omega
          · intro i h1 h2
            have := cmpRev_eq _ _ _ hc i (by omega)
            rw [List.getD_eq_getElem?_getD, List.getD_eq_getElem?_getD, List.getElem?_eq_getElem h1,
              List.getElem?_eq_getElem h2] at this
            exact this.symm

theorem search_sound (h : Nat) (d : List UInt8) : ∀ fuel i k r, k ≤ NR → search h d fuel i k = some r →
    r = NR ∨ (r < NR ∧ d = oidData r)
  | 0, _, _, _, _, hs => by simp [search] at hs
  | fuel + 1, i, k, r, hk, hs => by
    unfold search at hs
    split at hs
    · dsimp only at hs
      have hj : (i + k) / 2 < NR := by omega
      split at hs
      · exact search_sound h d fuel _ _ r (by omega) hs
      · exact search_sound h d fuel _ _ r hk hs
      · rename_i hc
        have := table_oid _ hj
        cases hs
        exact Or.inr ⟨this, cmpEntry_eq h d _ this hc⟩
    · cases hs
      exact Or.inl rfl

/-- The loop ends: the interval shrinks in every iteration. -/
theorem search_total (h : Nat) (d : List UInt8) : ∀ fuel i k, k - i < fuel → ∃ r, search h d fuel i k = some r
  | 0, _, _, hf => by omega
  | fuel + 1, i, k, hf => by
    unfold search
    split
    · dsimp only
      split
      · exact search_total h d fuel _ _ (by omega)
      · exact search_total h d fuel _ _ (by omega)
      · exact ⟨_, rfl⟩
    · exact ⟨_, rfl⟩

/-- Every registered OID is found: the whole (finite) table is evaluated. -/
theorem lookUp_registered : ∀ o, o < NR → lookUp (oidData o) = o := by decide +kernel

/-- C32: the lookup returns an OID exactly if the data are the bytes registered for it, for every
byte string. -/
theorem lookUp_iff (d : List UInt8) (o : Nat) (ho : o < NR) : lookUp d = o ↔ d = oidData o := by
  constructor
  · intro h
    obtain ⟨r, hr⟩ := search_total (hash d) d (NR + 1) 0 NR (by omega)
    unfold lookUp at h
    rw [hr] at h
    simp only [Option.getD_some] at h
    subst h
    rcases search_sound _ _ _ _ _ _ (Nat.le_refl _) hr with e | ⟨_, e⟩
    · omega
    · exact e
  · rintro rfl
    exact lookUp_registered o ho

/-- C32: otherwise the result is `OID__NR`. -/
theorem lookUp_unknown (d : List UInt8) : lookUp d = NR ↔ ∀ o, o < NR → d ≠ oidData o := by
  constructor
  · rintro h o ho rfl
    rw [lookUp_registered o ho] at h
    omega
  · intro h
    obtain ⟨r, hr⟩ := search_total (hash d) d (NR + 1) 0 NR (by omega)
    unfold lookUp
    rw [hr]
    rcases search_sound _ _ _ _ _ _ (Nat.le_refl _) hr with e | ⟨e1, e2⟩
    · exact e
    · exact absurd e2 (h r e1)

/-- C32: the registered bytes are the DER encoding of the documented object identifier, for the
whole registry. -/
theorem registry_der : ∀ o, o < NR → oidData o = Spec.der (dotted.getD o []) := by decide +kernel

/-- C32, in one statement: an OID is recognised exactly by its DER encoding. -/
theorem lookUp_der (d : List UInt8) (o : Nat) (ho : o < NR) :
    lookUp d = o ↔ d = Spec.der (dotted.getD o []) := by
  rw [lookUp_iff d o ho, registry_der o ho]

/-- No two OIDs of the registry have the same encoding. -/
theorem registry_injective (a b : Nat) (ha : a < NR) (hb : b < NR) (h : oidData a = oidData b) : a = b := by
  rw [← lookUp_registered a ha, h, lookUp_registered b hb]

/-- The search never reads outside its tables. -/
theorem search_in_bounds (i k : Nat) (hik : i < k) (hk : k ≤ NR) :
    (i + k) / 2 < searchTable.length ∧ (searchTable.getD ((i + k) / 2) (0, 0)).2 + 1 < index.length := by
  have hj : (i + k) / 2 < NR := by omega
  refine ⟨hj, ?_⟩
  have := table_oid _ hj
  have e : index.length = NR + 1 := by decide +kernel
  omega

/-- `parse_OID` accepts exactly the DER encoding (tag 6, one byte length) and returns the lookup. -/
theorem parse_iff (d : List UInt8) (o : Nat) :
    parse d = some o ↔ ∃ c : List UInt8, d = 6 :: UInt8.ofNat c.length :: c ∧ 0 < c.length ∧
      c.length < 256 ∧ lookUp c = o := by
  unfold parse
  constructor
  · intro h
    split at h
    · cases h
    · rename_i hn
      cases h
      match d, hn with
      | [], hn => simp at hn
      | [a], hn => simp at hn
      | a :: b :: c, hn =>
        simp only [List.length_cons, List.getD_cons_zero, List.getD_cons_succ, not_or,
          Decidable.not_not, Nat.not_lt] at hn
        have hb := b.toNat_lt
        obtain ⟨h1, rfl, h3⟩ := hn
        refine ⟨c, ?_, by omega, by omega, rfl⟩
        have : b = UInt8.ofNat c.length := by
          apply UInt8.toNat_inj.mp
          rw [h3]
          simp
          omega
        rw [this]
  · rintro ⟨c, rfl, h0, h1, rfl⟩
    rw [if_neg]
    · rfl
    · simp only [List.length_cons, List.getD_cons_zero, List.getD_cons_succ]
      have : (UInt8.ofNat c.length).toNat = c.length := by simp; omega
      rw [this]
      simp
      omega

/-! ### Non-vacuity -/
example : lookUp [0x60, 0x86, 0x48, 0x01, 0x65, 0x03, 0x04, 0x03, 0x12] = 113 := by decide +kernel
example : lookUp [0x60, 0x86, 0x48, 0x01, 0x65, 0x03, 0x04, 0x03] = NR := by decide +kernel
example : parse [6, 3, 0x55, 0x04, 0x03] = some 47 := by decide +kernel
example : lookUp [] = NR := by decide +kernel

end LC.Oid
