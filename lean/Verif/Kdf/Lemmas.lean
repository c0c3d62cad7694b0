import Verif.Kdf.Model
import Verif.Kdf.Spec
import Verif.Hmac.Lemmas
/- Helper lemmas for the key derivation functions. -/
namespace LC.Kdf
open StreamHash

/-! ### Byte streams made of blocks -/

/-- Byte `i` of `B 0 || B 1 || ...`, blocks of `h` bytes. -/
def byteAt (B : Nat → List Byte) (h i : Nat) : Byte := (B (i / h)).getD (i % h) 0

/-- `d` bytes of the stream starting at position `n`. -/
def seg (B : Nat → List Byte) (h n d : Nat) : List Byte :=
  (List.range d).map fun i => byteAt B h (n + i)

theorem seg_length (B : Nat → List Byte) (h n d : Nat) : (seg B h n d).length = d := by simp [seg]

theorem seg_zero (B : Nat → List Byte) (h n : Nat) : seg B h n 0 = [] := rfl

theorem seg_add (B : Nat → List Byte) (h n d e : Nat) :
    seg B h n (d + e) = seg B h n d ++ seg B h (n + d) e := by
  simp only [seg, List.range_add, List.map_append, List.map_map]
  congr 1
  apply List.map_congr_left
  intro i _
  simp [Nat.add_assoc]

theorem seg_in_block (B : Nat → List Byte) (h : Nat) (hB : ∀ i, (B i).length = h) (k j d : Nat)
    (hd : j + d ≤ h) : seg B h (k * h + j) d = ((B k).drop j).take d := by
  apply List.ext_getElem
  · simp [seg, hB]; omega
  · intro i h1 h2
    have h1 : i < d := by simpa [seg] using h1
    have hlt : j + i < h := by omega
    have e1 : (k * h + j + i) / h = k := by
      rw [Nat.add_assoc, Nat.mul_comm, Nat.mul_add_div (by omega), Nat.div_eq_of_lt hlt]; rfl
    have e2 : (k * h + j + i) % h = j + i := by
      rw [Nat.add_assoc, Nat.mul_comm, Nat.mul_add_mod, Nat.mod_eq_of_lt hlt]
    simp only [seg, List.getElem_map, List.getElem_range, byteAt, e1, e2, List.getElem_take,
      List.getElem_drop]
    rw [List.getD_eq_getElem?_getD, List.getElem?_eq_getElem (by rw [hB]; exact hlt)]
    rfl

theorem seg_block (B : Nat → List Byte) (h : Nat) (hB : ∀ i, (B i).length = h) (k : Nat) :
    seg B h (k * h) h = B k := by
  have := seg_in_block B h hB k 0 h (by omega)
  rw [Nat.add_zero, List.drop_zero, List.take_of_length_le (by rw [hB]; exact Nat.le_refl _)] at this
  exact this

theorem flatMap_eq_seg (B : Nat → List Byte) (h : Nat) (hB : ∀ i, (B i).length = h) (n : Nat) :
    (List.range n).flatMap B = seg B h 0 (n * h) := by
  induction n with
  | zero => simp [seg]
  | succ n ih =>
    rw [List.range_succ, List.flatMap_append, ih, Nat.succ_mul, seg_add, Nat.zero_add,
      seg_block B h hB]
    simp

theorem firstBytes_eq (B : Nat → List Byte) (h : Nat) (hh : 0 < h) (hB : ∀ i, (B i).length = h)
    (L : Nat) : Spec.firstBytes B L = seg B h 0 L := by
  unfold Spec.firstBytes
  have hle : L ≤ L * h := Nat.le_mul_of_pos_right L hh
  obtain ⟨e, he⟩ := Nat.exists_eq_add_of_le hle
  rw [flatMap_eq_seg B h hB, he, seg_add, List.take_left' (seg_length ..)]

theorem int32_eq (i : Nat) : be32 i = Spec.int32 i := by
  have hm : ∀ x : Nat, UInt8.ofNat (x % 256) = UInt8.ofNat x := fun x => UInt8.ofNat_mod_size
  simp only [be32, Spec.int32, Nat.shiftRight_eq_div_pow, hm]
  simp [List.range, List.range.loop]

theorem be32_length (i : Nat) : (be32 i).length = 4 := rfl

/-! ### The HMAC context as a PRF -/

variable {S : StreamHash} {H : List Byte → List Byte} {maxLen : Nat} {Ok : S.Ctx → Prop}

/-- Side conditions on the hash. -/
structure Env (S : StreamHash) (H : List Byte → List Byte) (maxLen : Nat) (Ok : S.Ctx → Prop) :
    Prop where
  impl : Implements S H maxLen Ok
  dsize_le : S.dsize ≤ S.block
  dsize_pos : 0 < S.dsize
  dsize_max : S.dsize ≤ 64
  fits : S.block + S.dsize < maxLen

theorem Env.mac_len (E : Env S H maxLen Ok) (key m : List Byte) :
    (Hmac.Spec.hmac H S.block key m).length = S.dsize := Hmac.hmac_length E.impl key m

theorem Env.init (E : Env S H maxLen Ok) {h0 : S.Ctx} (hok : Ok h0) {key : List Byte}
    (hk : key.length < maxLen) : Hmac.Rep H Ok (Hmac.init h0 key) key [] :=
  Hmac.init_rep E.impl E.dsize_le h0 hok key hk

theorem Env.upd (E : Env S H maxLen Ok) {c : Hmac.Ctx S} {key m : List Byte}
    (h : Hmac.Rep H Ok c key m) (x : List Byte) : Hmac.Rep H Ok (Hmac.update c x) key (m ++ x) :=
  h.update E.impl x

theorem Env.fin (E : Env S H maxLen Ok) {c : Hmac.Ctx S} {key m : List Byte}
    (h : Hmac.Rep H Ok c key m) (hm : S.block + m.length < maxLen) :
    (Hmac.final c).2 = Hmac.Spec.hmac H S.block key m ∧ Hmac.Keyed H Ok (Hmac.final c).1 key :=
  ⟨h.final E.impl E.fits hm, Hmac.final_keyed E.impl h.toKeyed⟩

theorem Env.reinit (E : Env S H maxLen Ok) {c : Hmac.Ctx S} {key : List Byte}
    (h : Hmac.Keyed H Ok c key) : Hmac.Rep H Ok (Hmac.reinit c) key [] :=
  Hmac.reinit_rep E.impl h

theorem Env.label (E : Env S H maxLen Ok) {c : Hmac.Ctx S} {key m : List Byte}
    (h : Hmac.Rep H Ok c key m) (label : Option (List Byte)) :
    Hmac.Rep H Ok (updLabel c label) key (m ++ label.getD []) := by
  unfold updLabel
  cases label with
  | none => simpa using h
  | some l =>
    dsimp only
    split
    · exact E.upd h l
    · rename_i hl
      have : l = [] := List.length_eq_zero_iff.mp (by omega)
      subst this
      simpa using h

/-! ### HKDF -/

/-- The HKDF key stream blocks. -/
def hkdfB (H : List Byte → List Byte) (B : Nat) (prk info : List Byte) (i : Nat) : List Byte :=
  Spec.T (Hmac.Spec.hmac H B prk) info (i + 1)

theorem Env.T_len (E : Env S H maxLen Ok) (prk info : List Byte) (i : Nat) :
    (hkdfB H S.block prk info i).length = S.dsize := by
  unfold hkdfB Spec.T
  exact E.mac_len _ _

/-- HKDF state after `n` output bytes. -/
def Gen (H : List Byte → List Byte) (Ok : S.Ctx → Prop) (prk info : List Byte) (c : HkdfCtx S)
    (n : Nat) : Prop :=
  (∃ k, n = k * S.dsize ∧ c.ctr = k + 1 ∧ S.dsize ≤ c.partPtr ∧
    Hmac.Rep H Ok c.hmac prk (Spec.T (Hmac.Spec.hmac H S.block prk) info k)) ∨
  (∃ k, n = k * S.dsize + c.partPtr ∧ 0 < c.partPtr ∧ c.partPtr < S.dsize ∧ c.ctr = k + 2 ∧
    c.part = hkdfB H S.block prk info k ∧
    Hmac.Rep H Ok c.hmac prk ((hkdfB H S.block prk info k).take c.partPtr))

theorem Env.hkdfLoop (E : Env S H maxLen Ok) (prk : List Byte) (info : Option (List Byte))
    (hinfo : S.block + S.dsize + (info.getD []).length + 1 < maxLen) :
    ∀ (fuel : Nat) (c : HkdfCtx S) (dlen k : Nat), dlen ≤ fuel → S.dsize ≤ c.partPtr →
      c.ctr = k + 1 → dlen ≤ S.dsize * (255 - c.ctr) →
      Hmac.Rep H Ok c.hmac prk (Spec.T (Hmac.Spec.hmac H S.block prk) (info.getD []) k) →
      (hkdfLoop info fuel c dlen).2 = seg (hkdfB H S.block prk (info.getD [])) S.dsize (k * S.dsize) dlen ∧
      Gen H Ok prk (info.getD []) (hkdfLoop info fuel c dlen).1 (k * S.dsize + dlen) ∧
      (hkdfLoop info fuel c dlen).1.rngInit = c.rngInit
  | 0, c, dlen, k, hf, hp, hc, hd, hr => by
    have : dlen = 0 := by omega
    subst this
    exact ⟨by simp [Kdf.hkdfLoop, seg], .inl ⟨k, rfl, hc, hp, hr⟩, rfl⟩
  | fuel + 1, c, dlen, k, hf, hp, hc, hd, hr => by
    unfold Kdf.hkdfLoop
    by_cases h0 : dlen = 0
    · subst h0
      rw [if_pos rfl]
      exact ⟨by simp [seg], .inl ⟨k, rfl, hc, hp, hr⟩, rfl⟩
    · rw [if_neg h0]
      have hinfo' : Hmac.Rep H Ok (updInfo c.hmac info) prk
          (Spec.T (Hmac.Spec.hmac H S.block prk) (info.getD []) k ++ info.getD []) := by
        cases info with
        | none => simpa [updInfo] using hr
        | some i => exact E.upd hr i
      have h1 := E.upd hinfo' [UInt8.ofNat c.ctr]
      have hTl : (Spec.T (Hmac.Spec.hmac H S.block prk) (info.getD []) k).length ≤ S.dsize := by
        cases k with
        | zero => simp [Spec.T]
        | succ k => exact Nat.le_of_eq (E.T_len prk _ k)
      have h2 := E.fin h1 (by
        rw [List.length_append, List.length_append, List.length_singleton]; omega)
      dsimp only
      generalize hhm : Hmac.update (updInfo c.hmac info) [UInt8.ofNat c.ctr] = hm at h2 ⊢
      obtain ⟨h2a, h2b⟩ := h2
      have hTk : (Hmac.final hm).2 = hkdfB H S.block prk (info.getD []) k := by
        rw [h2a, hc]; rfl
      have hctr : (c.ctr + 1) % 256 = c.ctr + 1 := by
        apply Nat.mod_eq_of_lt
        have : 0 < 255 - c.ctr := by
          apply Nat.pos_of_ne_zero
          intro h; rw [h] at hd; omega
        omega
      have hB := fun i => E.T_len prk (info.getD []) i
      rw [hctr, hTk]
      split
      · rename_i hlt
        refine ⟨?_, .inr ⟨k, rfl, by dsimp only; omega, hlt, ?_, rfl, ?_⟩, rfl⟩
        · have := seg_in_block _ S.dsize hB k 0 dlen (by omega)
          rw [Nat.add_zero, List.drop_zero] at this
          exact this.symm
        · dsimp only; omega
        · exact E.upd (E.reinit h2b) _
      · rename_i hge
        have hctr1 : dlen - S.dsize ≤ S.dsize * (255 - (c.ctr + 1)) := by
          have : S.dsize * (255 - c.ctr) ≤ S.dsize * (255 - (c.ctr + 1)) + S.dsize := by
            rw [← Nat.mul_succ]
            exact Nat.mul_le_mul_left _ (by omega)
          omega
        have hpos := E.dsize_pos
        have ih := E.hkdfLoop prk info hinfo fuel
          { c with
            hmac := Hmac.update (Hmac.reinit (Hmac.final hm).1) (hkdfB H S.block prk (info.getD []) k),
            ctr := c.ctr + 1 } (dlen - S.dsize) (k + 1) (by omega) hp (by dsimp only; omega) hctr1
          (by simpa [hkdfB] using E.upd (E.reinit h2b) (hkdfB H S.block prk (info.getD []) k))
        obtain ⟨i1, i2, i3⟩ := ih
        refine ⟨?_, ?_, i3⟩
        · rw [i1]
          have e : dlen = S.dsize + (dlen - S.dsize) := by omega
          conv => rhs; rw [e]
          rw [seg_add, seg_block _ _ hB, Nat.succ_mul]
        · have e : k * S.dsize + dlen = (k + 1) * S.dsize + (dlen - S.dsize) := by
            rw [Nat.succ_mul]; omega
          rw [e]
          exact i2

theorem Env.extract (E : Env S H maxLen Ok) (c : HkdfCtx S) (hok : Ok c.hmac.h) (ikm : List Byte)
    (salt : Option (List Byte)) (hi : ikm ≠ []) (hil : S.block + ikm.length < maxLen)
    (hsl : (salt.getD []).length < maxLen) :
    (hkdfExtract c ikm salt).2 = 0 ∧
    Hmac.Rep H Ok (hkdfExtract c ikm salt).1.hmac
      (Hmac.Spec.hmac H S.block (salt.getD (List.replicate S.dsize 0)) ikm) [] ∧
    (hkdfExtract c ikm salt).1.ctr = c.ctr ∧ (hkdfExtract c ikm salt).1.partPtr = c.partPtr ∧
    (hkdfExtract c ikm salt).1.rngInit = c.rngInit := by
  unfold hkdfExtract
  rw [if_neg (by rw [List.length_eq_zero_iff]; exact hi)]
  have h1 : Hmac.Rep H Ok (Hmac.init c.hmac.h (salt.getD (List.replicate S.dsize 0)))
      (salt.getD (List.replicate S.dsize 0)) [] := by
    cases salt with
    | none => exact E.init hok (by have := E.fits; simp; omega)
    | some s => exact E.init hok hsl
  have h2 := E.fin (E.upd h1 ikm) (by simpa using hil)
  dsimp only
  generalize Hmac.update _ ikm = hm at h2 ⊢
  refine ⟨rfl, ?_, rfl, rfl, rfl⟩
  rw [h2.1, List.nil_append, List.take_of_length_le (by rw [E.mac_len]; exact Nat.le_refl _)]
  exact E.init h2.2.ok (by rw [E.mac_len]; have := E.fits; omega)

/-- One RNG generate call. -/
theorem Env.generate (E : Env S H maxLen Ok) (prk : List Byte) (info : Option (List Byte))
    (hinfo : S.block + S.dsize + (info.getD []).length + 1 < maxLen) (c : HkdfCtx S) (n d : Nat)
    (hg : Gen H Ok prk (info.getD []) c n) (hrng : c.rngInit = true)
    (hlim : n + d ≤ 254 * S.dsize) :
    (hkdfRngGenerate c info d).2 =
      (0, seg (hkdfB H S.block prk (info.getD [])) S.dsize n d) ∧
    Gen H Ok prk (info.getD []) (hkdfRngGenerate c info d).1 (n + d) ∧
    (hkdfRngGenerate c info d).1.rngInit = true := by
  have hpos := E.dsize_pos
  have hB := fun i => E.T_len prk (info.getD []) i
  -- the expansion starting at a block boundary
  have hexp : ∀ (c : HkdfCtx S) (k d : Nat), S.dsize ≤ c.partPtr → c.ctr = k + 1 →
      k * S.dsize + d ≤ 254 * S.dsize → c.rngInit = true →
      Hmac.Rep H Ok c.hmac prk (Spec.T (Hmac.Spec.hmac H S.block prk) (info.getD []) k) →
      (hkdfExpandInternal c info d).2 =
        (0, seg (hkdfB H S.block prk (info.getD [])) S.dsize (k * S.dsize) d) ∧
      Gen H Ok prk (info.getD []) (hkdfExpandInternal c info d).1 (k * S.dsize + d) ∧
      (hkdfExpandInternal c info d).1.rngInit = true := by
    intro c k d hp hc hl hri hr
    have hk : k ≤ 254 := by
      apply Nat.le_of_mul_le_mul_right (c := S.dsize) _ hpos; omega
    have hd : d ≤ S.dsize * (255 - c.ctr) := by
      have : S.dsize * (255 - c.ctr) = 254 * S.dsize - k * S.dsize := by
        rw [hc, ← Nat.sub_mul, Nat.mul_comm]; congr 1; omega
      omega
    unfold hkdfExpandInternal
    rw [if_neg (by omega)]
    obtain ⟨i1, i2, i3⟩ := E.hkdfLoop prk info hinfo d c d k (Nat.le_refl _) hp hc hd hr
    dsimp only
    exact ⟨by rw [i1], i2, by rw [i3]; exact hri⟩
  unfold hkdfRngGenerate
  rw [if_neg (by simp [hrng])]
  rcases hg with ⟨k, hn, hc, hp, hr⟩ | ⟨k, hn, hp0, hp1, hc, hpart, hr⟩
  · rw [if_neg (by omega : ¬ c.partPtr < S.dsize)]
    dsimp only
    simp only [List.length_nil, Nat.sub_zero]
    split
    · rename_i h0
      subst h0
      exact ⟨rfl, .inl ⟨k, by omega, hc, hp, hr⟩, hrng⟩
    · obtain ⟨i1, i2, i3⟩ := hexp c k d hp hc (by omega) hrng hr
      subst hn
      refine ⟨?_, i2, i3⟩
      rw [i1]; rfl
  · rw [if_pos hp1]
    dsimp only
    have hmin : min d (S.dsize - c.partPtr) ≤ S.dsize - c.partPtr := Nat.min_le_right ..
    have hseg : (c.part.drop c.partPtr).take (min d (S.dsize - c.partPtr)) =
        seg (hkdfB H S.block prk (info.getD [])) S.dsize n (min d (S.dsize - c.partPtr)) := by
      rw [hn, seg_in_block _ _ hB k _ _ (by omega), hpart]
    rw [hseg, seg_length]
    have hr2 := E.upd hr ((c.part.drop c.partPtr).take (min d (S.dsize - c.partPtr)))
    have htake : (hkdfB H S.block prk (info.getD []) k).take c.partPtr ++
        (c.part.drop c.partPtr).take (min d (S.dsize - c.partPtr)) =
        (hkdfB H S.block prk (info.getD []) k).take (c.partPtr + min d (S.dsize - c.partPtr)) := by
      rw [hpart, List.take_add]
    rw [htake, hseg] at hr2
    split
    · rename_i h0
      have hmd : min d (S.dsize - c.partPtr) = d := by omega
      rw [hmd] at hr2 ⊢
      refine ⟨rfl, ?_, hrng⟩
      by_cases hfull : c.partPtr + d = S.dsize
      · refine .inl ⟨k + 1, by rw [Nat.succ_mul]; omega, hc, by dsimp only; omega, ?_⟩
        rw [hfull, List.take_of_length_le (by rw [hB]; exact Nat.le_refl _)] at hr2
        exact hr2
      · refine .inr ⟨k, by dsimp only; omega, by dsimp only; omega, by dsimp only; omega, hc, hpart, ?_⟩
        exact hr2
    · rename_i h0
      have hmd : min d (S.dsize - c.partPtr) = S.dsize - c.partPtr := by omega
      rw [hmd] at hr2 ⊢
      have hfull : c.partPtr + (S.dsize - c.partPtr) = S.dsize := by omega
      rw [hfull] at hr2 ⊢
      rw [List.take_of_length_le (by rw [hB]; exact Nat.le_refl _)] at hr2
      have e : n + (S.dsize - c.partPtr) = (k + 1) * S.dsize := by rw [Nat.succ_mul]; omega
      obtain ⟨i1, i2, i3⟩ := hexp { c with
        hmac := Hmac.update c.hmac
          (seg (hkdfB H S.block prk (info.getD [])) S.dsize n (S.dsize - c.partPtr)),
        partPtr := S.dsize } (k + 1) (d - (S.dsize - c.partPtr)) (Nat.le_refl _) hc
        (by omega) hrng hr2
      refine ⟨?_, ?_, i3⟩
      · rw [i1]
        dsimp only
        congr 1
        have e2 : d = (S.dsize - c.partPtr) + (d - (S.dsize - c.partPtr)) := by omega
        conv => rhs; rw [e2]
        rw [seg_add, e]
      · have e3 : n + d = (k + 1) * S.dsize + (d - (S.dsize - c.partPtr)) := by omega
        rw [e3]
        exact i2

/-! ### PBKDF2 -/

theorem zipWith_xor_take (a b : List Byte) (n : Nat) :
    (a.take n).zipWith (· ^^^ ·) b = (a.zipWith (· ^^^ ·) b).take n := by
  rw [List.take_zipWith]
  apply List.ext_getElem
  · simp; omega
  · intro i h1 h2
    simp

theorem zipWith_zero (n : Nat) (b : List Byte) :
    (List.replicate n (0 : Byte)).zipWith (· ^^^ ·) b = b.take n := by
  apply List.ext_getElem
  · simp; 
  · intro i h1 h2
    simp

theorem Env.U_len (E : Env S H maxLen Ok) (pw salt : List Byte) (i j : Nat) :
    (Spec.U (Hmac.Spec.hmac H S.block pw) salt i j).length = S.dsize := by
  cases j <;> exact E.mac_len _ _

theorem Env.F_len (E : Env S H maxLen Ok) (pw salt : List Byte) (i : Nat) :
    ∀ c, (Spec.F (Hmac.Spec.hmac H S.block pw) salt i c).length = S.dsize
  | 0 => E.U_len ..
  | c + 1 => by
    rw [Spec.F, List.length_zipWith, E.F_len pw salt i c, E.U_len, Nat.min_self]

/-- Iterations `j+1 ..` of the inner loop. -/
theorem Env.inner (E : Env S H maxLen Ok) (pw salt : List Byte) (i n : Nat) :
    ∀ (m j : Nat) (c : Hmac.Ctx S), Hmac.Rep H Ok c pw [] →
      let r := pbkdf2Inner m (j + 1) c (Spec.U (Hmac.Spec.hmac H S.block pw) salt i j)
        ((Spec.F (Hmac.Spec.hmac H S.block pw) salt i j).take n)
      r.2.2 = (Spec.F (Hmac.Spec.hmac H S.block pw) salt i (j + m)).take n ∧
        Hmac.Rep H Ok r.1 pw []
  | 0, j, c, h => ⟨rfl, h⟩
  | m + 1, j, c, h => by
    have h1 := E.upd h (Spec.U (Hmac.Spec.hmac H S.block pw) salt i j)
    have h2 := E.fin h1 (by rw [List.nil_append, E.U_len]; exact E.fits)
    have ih := E.inner pw salt i n m (j + 1) _ (E.reinit h2.2)
    unfold pbkdf2Inner
    rw [if_pos (by omega), List.take_of_length_le (by rw [E.U_len]; exact Nat.le_refl _)]
    dsimp only at ih ⊢
    rw [h2.1, List.nil_append, zipWith_xor_take]
    rw [show j + 1 + m = j + (m + 1) from by omega] at ih
    exact ih

theorem Env.pbkdf2Loop (E : Env S H maxLen Ok) (pw salt : List Byte) (count : Nat) (hcount : 0 < count)
    (hsalt : S.block + (salt.length + 4) < maxLen) :
    ∀ (fuel : Nat) (c : Hmac.Ctx S) (u : List Byte) (k keylen : Nat), keylen ≤ fuel →
      k + keylen < 2 ^ 32 - 1 → Hmac.Rep H Ok c pw [] →
      pbkdf2Loop salt count fuel c u (k + 1) keylen =
        seg (fun i => Spec.F (Hmac.Spec.hmac H S.block pw) salt (i + 1) (count - 1)) S.dsize
          (k * S.dsize) keylen
  | 0, c, u, k, keylen, hf, hk, hr => by
    have : keylen = 0 := by omega
    subst this; rfl
  | fuel + 1, c, u, k, keylen, hf, hk, hr => by
    unfold Kdf.pbkdf2Loop
    by_cases h0 : keylen = 0
    · subst h0; rfl
    · rw [if_neg h0]
      have hpos := E.dsize_pos
      have h1 := E.upd (E.upd hr salt) (be32 (k + 1))
      have h2 := E.fin h1 (by simp only [List.nil_append, List.length_append, be32_length]; exact hsalt)
      obtain ⟨cnt, rfl⟩ : ∃ m, count = m + 1 := ⟨count - 1, by omega⟩
      have hB := fun i => E.F_len pw salt (i + 1) cnt
      have hU : (Hmac.final (Hmac.update (Hmac.update c salt) (be32 (k + 1)))).2 =
          Spec.U (Hmac.Spec.hmac H S.block pw) salt (k + 1) 0 := by
        rw [h2.1, int32_eq]; rfl
      have hstep : ∀ n, pbkdf2Inner (cnt + 1) 0 (Hmac.update (Hmac.update c salt) (be32 (k + 1))) u
          (List.replicate n 0) =
          pbkdf2Inner cnt 1 (Hmac.reinit (Hmac.final (Hmac.update (Hmac.update c salt) (be32 (k + 1)))).1)
            (Spec.U (Hmac.Spec.hmac H S.block pw) salt (k + 1) 0)
            ((Spec.F (Hmac.Spec.hmac H S.block pw) salt (k + 1) 0).take n) := by
        intro n
        rw [pbkdf2Inner, if_neg (by simp)]
        rw [hU, zipWith_zero]; rfl
      have hin := fun n => E.inner pw salt (k + 1) n cnt 0 _ (E.reinit h2.2)
      simp only [Nat.zero_add, ← hstep] at hin
      dsimp only
      rw [Nat.add_sub_cancel]
      by_cases hlt : keylen < S.dsize
      · simp only [if_pos hlt]
        rw [(hin keylen).1]
        have := seg_in_block _ S.dsize hB k 0 keylen (by omega)
        rw [Nat.add_zero, List.drop_zero] at this
        exact this.symm
      · simp only [if_neg hlt]
        have hk1 : (k + 1 + 1) % 2 ^ 32 = k + 1 + 1 := Nat.mod_eq_of_lt (by omega)
        rw [hk1, E.pbkdf2Loop pw salt (cnt + 1) hcount hsalt fuel _ _ (k + 1) (keylen - S.dsize)
          (by omega) (by omega) (hin S.dsize).2, (hin S.dsize).1,
          List.take_of_length_le (by rw [E.F_len]; exact Nat.le_refl _), Nat.add_sub_cancel]
        have e : keylen = S.dsize + (keylen - S.dsize) := by omega
        conv => rhs; rw [e]
        rw [seg_add, seg_block _ _ hB, Nat.succ_mul]

/-! ### SP 800-108 -/

theorem Env.ctrLoop (E : Env S H maxLen Ok) (key : List Byte) (label : Option (List Byte))
    (hl : S.block + (4 + (label.getD []).length) < maxLen) :
    ∀ (fuel : Nat) (c : Hmac.Ctx S) (k dlen : Nat), dlen ≤ fuel → k + dlen < 2 ^ 32 - 1 →
      Hmac.Rep H Ok c key [] →
      (ctrLoop label fuel c (k + 1) dlen).2.2 =
        seg (fun i => Hmac.Spec.hmac H S.block key (Spec.int32 (i + 1) ++ label.getD [])) S.dsize
          (k * S.dsize) dlen
  | 0, c, k, dlen, hf, hk, hr => by
    have : dlen = 0 := by omega
    subst this; rfl
  | fuel + 1, c, k, dlen, hf, hk, hr => by
    unfold Kdf.ctrLoop
    by_cases h0 : dlen = 0
    · subst h0; rfl
    · rw [if_neg h0]
      have hpos := E.dsize_pos
      have h1 := E.label (E.upd hr (be32 (k + 1))) label
      have h2 := E.fin h1 (by
        simp only [List.nil_append, List.length_append, be32_length]; exact hl)
      rw [List.nil_append, int32_eq] at h2
      have hB := fun i => E.mac_len key (Spec.int32 (i + 1) ++ label.getD [])
      dsimp only
      rw [int32_eq, h2.1]
      split
      · rename_i hlt
        dsimp only
        have := seg_in_block _ S.dsize hB k 0 dlen (by omega)
        rw [Nat.add_zero, List.drop_zero] at this
        exact this.symm
      · dsimp only
        have hk1 : (k + 1 + 1) % 2 ^ 32 = k + 1 + 1 := Nat.mod_eq_of_lt (by omega)
        rw [hk1, E.ctrLoop key label hl fuel _ (k + 1) (dlen - S.dsize) (by omega) (by omega)
          (E.reinit h2.2)]
        have e : dlen = S.dsize + (dlen - S.dsize) := by omega
        conv => rhs; rw [e]
        rw [seg_add, seg_block _ _ hB, Nat.succ_mul]

theorem Env.fbK_len (E : Env S H maxLen Ok) (key iv label : List Byte) (i : Nat) :
    (Spec.fbK (Hmac.Spec.hmac H S.block key) iv label (i + 1)).length = S.dsize := E.mac_len _ _

theorem Env.fbLoop (E : Env S H maxLen Ok) (key iv label : List Byte) (hiv : iv.length = S.dsize)
    (hl : S.block + (S.dsize + 4 + label.length) < maxLen) :
    ∀ (fuel : Nat) (c : Hmac.Ctx S) (k dlen : Nat), dlen ≤ fuel → k + dlen < 2 ^ 32 - 1 →
      Hmac.Rep H Ok c key [] →
      fbLoop label fuel c (Spec.fbK (Hmac.Spec.hmac H S.block key) iv label k) (k + 1) dlen =
        seg (fun i => Spec.fbK (Hmac.Spec.hmac H S.block key) iv label (i + 1)) S.dsize
          (k * S.dsize) dlen
  | 0, c, k, dlen, hf, hk, hr => by
    have : dlen = 0 := by omega
    subst this; rfl
  | fuel + 1, c, k, dlen, hf, hk, hr => by
    unfold Kdf.fbLoop
    by_cases h0 : dlen = 0
    · subst h0; rfl
    · rw [if_neg h0]
      have hpos := E.dsize_pos
      have hlab := E.label (E.upd (E.upd hr (Spec.fbK (Hmac.Spec.hmac H S.block key) iv label k))
        (be32 (k + 1))) (some label)
      simp only [updLabel, Option.getD_some, List.nil_append] at hlab
      have hkl : (Spec.fbK (Hmac.Spec.hmac H S.block key) iv label k).length = S.dsize := by
        cases k with
        | zero => exact hiv
        | succ k => exact E.fbK_len ..
      have h2 := E.fin hlab (by
        simp only [List.length_append, be32_length, hkl]; exact hl)
      rw [int32_eq] at h2
      have hB := fun i => E.fbK_len key iv label i
      dsimp only
      rw [int32_eq, h2.1]
      have eK : Hmac.Spec.hmac H S.block key
          (Spec.fbK (Hmac.Spec.hmac H S.block key) iv label k ++ Spec.int32 (k + 1) ++ label) =
          Spec.fbK (Hmac.Spec.hmac H S.block key) iv label (k + 1) := rfl
      rw [eK]
      split
      · rename_i hlt
        have := seg_in_block _ S.dsize hB k 0 dlen (by omega)
        rw [Nat.add_zero, List.drop_zero] at this
        exact this.symm
      · have hk1 : (k + 1 + 1) % 2 ^ 32 = k + 1 + 1 := Nat.mod_eq_of_lt (by omega)
        rw [hk1, E.fbLoop key iv label hiv hl fuel _ (k + 1) (dlen - S.dsize) (by omega) (by omega)
          (E.reinit h2.2)]
        have e : dlen = S.dsize + (dlen - S.dsize) := by omega
        conv => rhs; rw [e]
        rw [seg_add, seg_block _ _ hB, Nat.succ_mul]

/-- The first input of the double pipeline in the code. -/
def dpiA0 (h : Nat) (label : Option (List Byte)) : List Byte :=
  if label.getD [] = [] then List.replicate h 0 else label.getD []

theorem Env.dpiLoop (E : Env S H maxLen Ok) (key : List Byte) (label : Option (List Byte))
    (hl : S.block + (S.dsize + 4 + (label.getD []).length) < maxLen) :
    ∀ (fuel : Nat) (c : Hmac.Ctx S) (ai : List Byte) (k dlen : Nat), dlen ≤ fuel →
      k + dlen < 2 ^ 32 - 1 → Hmac.Rep H Ok c key [] →
      ai = (if k = 0 then List.replicate S.dsize 0
        else Spec.dpiA (Hmac.Spec.hmac H S.block key) (dpiA0 S.dsize label) k) →
      dpiLoop label fuel c ai (k + 1) dlen =
        seg (fun i => Hmac.Spec.hmac H S.block key
            (Spec.dpiA (Hmac.Spec.hmac H S.block key) (dpiA0 S.dsize label) (i + 1) ++
              Spec.int32 (i + 1) ++ label.getD [])) S.dsize (k * S.dsize) dlen
  | 0, c, ai, k, dlen, hf, hk, hr, ha => by
    have : dlen = 0 := by omega
    subst this; rfl
  | fuel + 1, c, ai, k, dlen, hf, hk, hr, ha => by
    unfold Kdf.dpiLoop
    by_cases h0 : dlen = 0
    · subst h0; rfl
    · rw [if_neg h0]
      have hpos := E.dsize_pos
      have hA0l : (dpiA0 S.dsize label).length ≤ S.dsize + 4 + (label.getD []).length := by
        unfold dpiA0; split
        · rw [List.length_replicate]; omega
        · omega
      have hA : Hmac.Rep H Ok (updA c label ai (k + 1)) key
          (Spec.dpiA (Hmac.Spec.hmac H S.block key) (dpiA0 S.dsize label) k) := by
        have hgen := fun x => E.upd hr x
        simp only [List.nil_append] at hgen
        cases k with
        | zero =>
          rw [if_pos rfl] at ha
          subst ha
          unfold updA
          cases label with
          | none => exact hgen _
          | some l =>
            dsimp only
            by_cases hl0 : l = []
            · subst hl0
              rw [if_neg (by simp)]
              exact hgen _
            · rw [if_pos ⟨rfl, by rw [ne_eq, List.length_eq_zero_iff]; exact hl0⟩]
              have : dpiA0 S.dsize (some l) = l := by simp [dpiA0, hl0]
              simp only [Spec.dpiA, this]
              exact hgen _
        | succ k =>
          rw [if_neg (by omega)] at ha
          subst ha
          unfold updA
          cases label with
          | none => exact hgen _
          | some l =>
            dsimp only
            rw [if_neg (by omega)]
            exact hgen _
      have hAl : (Spec.dpiA (Hmac.Spec.hmac H S.block key) (dpiA0 S.dsize label) k).length ≤
          S.dsize + 4 + (label.getD []).length := by
        cases k with
        | zero => exact hA0l
        | succ k => rw [Spec.dpiA, E.mac_len]; omega
      have h1 := E.fin hA (by omega)
      have eA : Hmac.Spec.hmac H S.block key
          (Spec.dpiA (Hmac.Spec.hmac H S.block key) (dpiA0 S.dsize label) k) =
          Spec.dpiA (Hmac.Spec.hmac H S.block key) (dpiA0 S.dsize label) (k + 1) := rfl
      rw [eA] at h1
      have hlab := E.label (E.upd (E.upd (E.reinit h1.2)
        (Spec.dpiA (Hmac.Spec.hmac H S.block key) (dpiA0 S.dsize label) (k + 1)))
        (be32 (k + 1))) label
      have hAl1 : (Spec.dpiA (Hmac.Spec.hmac H S.block key) (dpiA0 S.dsize label) (k + 1)).length =
          S.dsize := E.mac_len _ _
      have h2 := E.fin hlab (by
        simp only [List.nil_append, List.length_append, be32_length, hAl1]; exact hl)
      rw [List.nil_append, int32_eq] at h2
      have hB := fun i => E.mac_len key
            (Spec.dpiA (Hmac.Spec.hmac H S.block key) (dpiA0 S.dsize label) (i + 1) ++
              Spec.int32 (i + 1) ++ label.getD [])
      dsimp only
      rw [h1.1, int32_eq, h2.1]
      split
      · rename_i hlt
        have := seg_in_block _ S.dsize hB k 0 dlen (by omega)
        rw [Nat.add_zero, List.drop_zero] at this
        exact this.symm
      · have hk1 : (k + 1 + 1) % 2 ^ 32 = k + 1 + 1 := Nat.mod_eq_of_lt (by omega)
        rw [hk1, E.dpiLoop key label hl fuel _ _ (k + 1) (dlen - S.dsize) (by omega) (by omega)
          (E.reinit h2.2) (by rw [if_neg (by omega)])]
        have e : dlen = S.dsize + (dlen - S.dsize) := by omega
        conv => rhs; rw [e]
        rw [seg_add, seg_block _ _ hB, Nat.succ_mul]

end LC.Kdf
