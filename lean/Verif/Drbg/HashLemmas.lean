import Verif.Drbg.HashModel
import Verif.Drbg.HashSpec
namespace LC.Drbg
open StreamHash

/-! ### Numbers -/

/-- Little endian value. -/
def leNat : List Byte → Nat
  | [] => 0
  | d :: ds => d.toNat + 256 * leNat ds

theorem toInt_append (a : List Byte) (x : Byte) : Spec.toInt (a ++ [x]) = Spec.toInt a * 256 + x.toNat := by
  simp [Spec.toInt, List.foldl_append]

theorem toInt_eq_le (a : List Byte) : Spec.toInt a = leNat a.reverse := by
  rw [← List.reverse_reverse a]
  generalize a.reverse = l
  rw [List.reverse_reverse]
  induction l with
  | nil => rfl
  | cons x l ih => rw [List.reverse_cons, toInt_append, ih, leNat]; omega

theorem leNat_lt (a : List Byte) : leNat a < 256 ^ a.length := by
  induction a with
  | nil => simp [leNat]
  | cons x l ih =>
    have := x.toNat_lt
    rw [leNat, List.length_cons, Nat.pow_succ]
    omega

/-- Little endian bytes. -/
def leBytes : Nat → Nat → List Byte
  | 0, _ => []
  | k + 1, n => UInt8.ofNat (n % 256) :: leBytes k (n / 256)

theorem ofInt_succ (k n : Nat) : Spec.ofInt (k + 1) n = Spec.ofInt k (n / 256) ++ [UInt8.ofNat (n % 256)] := by
  unfold Spec.ofInt
  rw [List.range_succ, List.map_append]
  congr 1
  · apply List.map_congr_left
    intro j hj
    have := List.mem_range.1 hj
    have e : k + 1 - 1 - j = (k - 1 - j) + 1 := by omega
    rw [e, Nat.pow_succ, Nat.mul_comm, ← Nat.div_div_eq_div_mul]
  · simp

theorem ofInt_eq_le (k : Nat) : ∀ n, Spec.ofInt k n = (leBytes k n).reverse := by
  induction k with
  | zero => intro n; rfl
  | succ k ih => intro n; rw [ofInt_succ, ih, leBytes, List.reverse_cons]

theorem bePtr_eq (k : Nat) : ∀ n, bePtr k n = Spec.ofInt k n := by
  induction k with
  | zero => intro n; rfl
  | succ k ih => intro n; rw [ofInt_succ, bePtr, ih]

theorem leBytes_length (k : Nat) : ∀ n, (leBytes k n).length = k := by
  induction k with
  | zero => intro n; rfl
  | succ k ih => intro n; simp [leBytes, ih]

theorem ofInt_length (k n : Nat) : (Spec.ofInt k n).length = k := by simp [Spec.ofInt]

theorem leBytes_leNat (k : Nat) : ∀ n, leNat (leBytes k n) = n % 256 ^ k := by
  induction k with
  | zero => intro n; simp [leBytes, leNat, Nat.mod_one]
  | succ k ih =>
    intro n
    have h : (UInt8.ofNat (n % 256)).toNat = n % 256 := by simp [UInt8.toNat_ofNat']
    rw [leBytes, leNat, ih, h, Nat.pow_succ, Nat.mul_comm (256 ^ k), Nat.mod_mul]

theorem toInt_ofInt (k n : Nat) : Spec.toInt (Spec.ofInt k n) = n % 256 ^ k := by
  rw [toInt_eq_le, ofInt_eq_le, List.reverse_reverse, leBytes_leNat]

theorem leBytes_mod (k : Nat) : ∀ n, leBytes k (n % 256 ^ k) = leBytes k n := by
  induction k with
  | zero => intro n; rfl
  | succ k ih =>
    intro n
    rw [leBytes, leBytes, Nat.pow_succ, Nat.mul_comm (256 ^ k), Nat.mod_mul_right_mod, Nat.mod_mul_right_div_self, ih]

theorem ofInt_mod (k n : Nat) : Spec.ofInt k (n % 256 ^ k) = Spec.ofInt k n := by
  rw [ofInt_eq_le, ofInt_eq_le, leBytes_mod]

theorem ofInt_add_mod (k a b : Nat) : Spec.ofInt k (a % 256 ^ k + b) = Spec.ofInt k (a + b) := by
  rw [← ofInt_mod, Nat.mod_add_mod, ofInt_mod]

theorem carryRev_eq : ∀ (ds : List Byte) (r : Nat), r ≤ 1 → carryRev ds r = leBytes ds.length (leNat ds + r) := by
  intro ds
  induction ds with
  | nil => intro r _; rfl
  | cons d ds ih =>
    intro r hr
    have hd := d.toNat_lt
    rw [carryRev, List.length_cons, leBytes, leNat]
    by_cases h : r > 0
    · have h1 : r = 1 := by omega
      subst h1
      rw [if_pos h, ih _ (by omega)]
      congr 2
      · omega
      · omega
    · have h0 : r = 0 := by omega
      subst h0
      rw [if_neg h]
      have e1 : (d.toNat + 256 * leNat ds + 0) % 256 = d.toNat := by omega
      have e2 : (d.toNat + 256 * leNat ds + 0) / 256 = leNat ds + 0 := by omega
      rw [e1, e2, ← ih 0 (by omega), UInt8.ofNat_toNat]
      congr 1
      cases ds with
      | nil => rfl
      | cons x xs => rw [carryRev, if_neg (by omega)]

theorem addRev_eq : ∀ (ds as : List Byte) (r : Nat), r ≤ 1 → as.length ≤ ds.length →
    addRev ds as r = leBytes ds.length (leNat ds + leNat as + r) := by
  intro ds
  induction ds with
  | nil =>
    intro as r _ h
    cases as with
    | nil => rfl
    | cons a as => simp at h
  | cons d ds ih =>
    intro as r hr h
    cases as with
    | nil => rw [addRev, carryRev_eq _ _ hr]; simp [leNat]
    | cons a as =>
      have hd := d.toNat_lt
      have ha := a.toNat_lt
      rw [addRev, ih as _ (by omega) (by simpa using h), List.length_cons, leBytes, leNat, leNat]
      congr 2
      · omega
      · omega

/-- `drbg_add_buf` is addition modulo `2^(8 * dstlen)`. -/
theorem addBuf_eq (d a : List Byte) (h : a.length ≤ d.length) :
    addBuf d a = Spec.ofInt d.length (Spec.toInt d + Spec.toInt a) := by
  unfold addBuf
  rw [addRev_eq _ _ _ (by omega) (by simpa using h), ofInt_eq_le, toInt_eq_le, toInt_eq_le, List.length_reverse]
  rfl

theorem addBuf_length (d a : List Byte) (h : a.length ≤ d.length) : (addBuf d a).length = d.length := by
  rw [addBuf_eq d a h, ofInt_length]

/-! ### The hash -/

variable {S : StreamHash} {H : List Byte → List Byte} {maxLen : Nat} {Ok : S.Ctx → Prop}

theorem foldl_update_ok (hI : Implements S H maxLen Ok) : ∀ (xs : List (List Byte)) (c : S.Ctx), Ok c →
    Ok (xs.foldl S.update c) := by
  intro xs
  induction xs with
  | nil => intro c h; exact h
  | cons x xs ih => intro c h; exact ih _ (hI.update_ok c x h)

theorem drbgHash_eq (hI : Implements S H maxLen Ok) {h : S.Ctx} (hok : Ok h) (inp : List (List Byte))
    (hl : inp.flatten.length < maxLen) : (drbgHash h inp).2 = H inp.flatten :=
  hI.digest h hok inp hl

theorem drbgHash_ok (hI : Implements S H maxLen Ok) {h : S.Ctx} (hok : Ok h) (inp : List (List Byte)) :
    Ok (drbgHash h inp).1 :=
  hI.final_ok _ (foldl_update_ok hI _ _ (hI.init_ok _ hok))

/-- Blocks `f i, f (i+1), ...`: the leftmost `n` bytes. -/
def blocks (f : Nat → List Byte) (i n : Nat) : List Byte := ((List.range n).flatMap fun k => f (i + k)).take n

theorem flatMap_range_length {f : Nat → List Byte} {B : Nat} (hf : ∀ i, (f i).length = B) (i : Nat) :
    ∀ n, ((List.range n).flatMap fun k => f (i + k)).length = n * B := by
  intro n
  induction n with
  | zero => simp
  | succ n ih => rw [List.range_succ, List.flatMap_append, List.length_append, ih]; simp [hf, Nat.succ_mul]

theorem blocks_zero (f : Nat → List Byte) (i : Nat) : blocks f i 0 = [] := rfl

theorem blocks_succ {f : Nat → List Byte} {B : Nat} (hB : 0 < B) (hf : ∀ i, (f i).length = B) (i n : Nat) (hn : 0 < n) :
    blocks f i n = (f i).take (min B n) ++ blocks f (i + 1) (n - min B n) := by
  have hb1 : blocks f i n = ((List.range (n + 1)).flatMap fun k => f (i + k)).take n := by
    unfold blocks
    rw [List.range_succ, List.flatMap_append, List.take_append_of_le_length]
    rw [flatMap_range_length hf]
    exact Nat.le_mul_of_pos_right _ hB
  have hb2 : blocks f (i + 1) (n - min B n) = ((List.range n).flatMap fun k => f (i + 1 + k)).take (n - min B n) := by
    have e : n = (n - min B n) + min B n := by omega
    unfold blocks
    conv => rhs; rw [e]
    rw [List.range_add, List.flatMap_append, List.take_append_of_le_length]
    · congr 2; omega
    · rw [flatMap_range_length hf]
      have : n - min B n ≤ (n - min B n) * B := Nat.le_mul_of_pos_right _ hB
      omega
  rw [hb1, hb2, List.range_succ_eq_map, List.flatMap_cons, List.take_append, List.flatMap_map, Nat.add_zero, hf]
  congr 1
  · by_cases h : n ≤ B
    · rw [Nat.min_eq_right h]
    · rw [Nat.min_eq_left (by omega), List.take_of_length_le (by rw [hf]; omega), List.take_of_length_le (by rw [hf]; omega)]
  · have e : n - B = n - min B n := by omega
    rw [e]
    congr 2
    funext k
    rw [Nat.add_assoc, Nat.add_comm 1 k]

theorem blocks_length {f : Nat → List Byte} {B : Nat} (hB : 0 < B) (hf : ∀ i, (f i).length = B) (i n : Nat) :
    (blocks f i n).length = n := by
  unfold blocks
  rw [List.length_take, flatMap_range_length hf]
  have : n ≤ n * B := Nat.le_mul_of_pos_right _ hB
  omega

theorem dfLoop_eq (hI : Implements S H maxLen Ok) (hd : S.dsize = 64) (pre : List Byte) (ent : List (List Byte))
    (hl : 1 + pre.length + ent.flatten.length < maxLen) :
    ∀ (fuel : Nat) (h : S.Ctx) (i todo : Nat) (out : List Byte), Ok h → todo ≤ fuel → i + todo / 64 ≤ 255 →
      (dfLoop pre ent fuel h i todo out).2 =
        out ++ blocks (fun i => H (Spec.ofInt 1 i ++ pre ++ ent.flatten)) i todo ∧
      Ok (dfLoop pre ent fuel h i todo out).1 := by
  have hf : ∀ i, (H (Spec.ofInt 1 i ++ pre ++ ent.flatten)).length = 64 := fun i => by rw [hI.digest_len, hd]
  intro fuel
  induction fuel with
  | zero =>
    intro h i todo out hok hf _
    have : todo = 0 := by omega
    subst this
    simp [dfLoop, blocks_zero, hok]
  | succ fuel ih =>
    intro h i todo out hok hfu hi
    by_cases h0 : todo = 0
    · subst h0; simp [dfLoop, blocks_zero, hok]
    · rw [dfLoop, if_neg h0]
      dsimp only
      have hi' : i < 256 := by omega
      have hx : ((UInt8.ofNat i :: pre) :: ent).flatten = Spec.ofInt 1 i ++ pre ++ ent.flatten := by
        have : Spec.ofInt 1 i = [UInt8.ofNat i] := by
          simp [Spec.ofInt, Nat.mod_eq_of_lt hi', Nat.div_one]
        rw [this]; simp
      have hq := drbgHash_eq hI hok ((UInt8.ofNat i :: pre) :: ent) (by
        rw [List.flatten_cons, List.length_append, List.length_cons]; omega)
      rw [hx] at hq
      have hm : min blockLen todo = min 64 todo := rfl
      by_cases hlast : todo ≤ 64
      · have hz : todo - min 64 todo = 0 := by omega
        have := ih (drbgHash h ((UInt8.ofNat i :: pre) :: ent)).1 ((i + 1) % 256) 0
          (out ++ (drbgHash h ((UInt8.ofNat i :: pre) :: ent)).2.take (min 64 todo))
          (drbgHash_ok hI hok _) (by omega) (by have := Nat.mod_lt (i+1) (show 0 < 256 by omega); omega)
        rw [hm, hz]
        refine ⟨?_, this.2⟩
        rw [this.1, hq, blocks_succ (by omega) hf i todo (by omega), hz, blocks_zero, blocks_zero]
        simp
      · have := ih (drbgHash h ((UInt8.ofNat i :: pre) :: ent)).1 ((i + 1) % 256) (todo - min 64 todo)
          (out ++ (drbgHash h ((UInt8.ofNat i :: pre) :: ent)).2.take (min 64 todo))
          (drbgHash_ok hI hok _) (by omega) (by
            rw [Nat.mod_eq_of_lt (by omega)]
            omega)
        rw [hm]
        refine ⟨?_, this.2⟩
        rw [this.1, hq, blocks_succ (by omega) hf i todo (by omega), List.append_assoc, Nat.mod_eq_of_lt (by omega)]

theorem hashDf_eq (hI : Implements S H maxLen Ok) (hd : S.dsize = 64) {h : S.Ctx} (hok : Ok h) (ent : List (List Byte))
    (hl : 5 + ent.flatten.length < maxLen) :
    (hashDf h stateLen ent).2 = Spec.hashDf H 111 ent.flatten ∧ Ok (hashDf h stateLen ent).1 := by
  have := dfLoop_eq hI hd (bePtr 4 (stateLen * 8)) ent (by rw [bePtr_eq, ofInt_length]; omega) stateLen h 1 stateLen [] hok
    (Nat.le_refl _) (by decide)
  refine ⟨?_, this.2⟩
  unfold hashDf
  rw [this.1, List.nil_append, bePtr_eq]
  unfold blocks Spec.hashDf
  congr 2
  funext k
  rw [Nat.add_comm 1 k]
  rfl

theorem Spec.hashDf_length (hH : ∀ m, (H m).length = 64) (n : Nat) (x : List Byte) : (Spec.hashDf H n x).length = n := by
  unfold Spec.hashDf
  rw [List.length_take, ]
  have e := flatMap_range_length (f := fun i => H (Spec.ofInt 1 (i + 1) ++ Spec.ofInt 4 (8 * n) ++ x)) (B := 64)
    (fun i => hH _) 0 n
  simp only [Nat.zero_add] at e
  rw [e]
  omega

theorem genLoop_eq (hI : Implements S H maxLen Ok) (hd : S.dsize = 64) (hl : 111 < maxLen) :
    ∀ (fuel : Nat) (h : S.Ctx) (src : List Byte) (todo v : Nat) (out : List Byte), Ok h → todo ≤ fuel →
      src = Spec.ofInt 111 v →
      (genLoop fuel h src todo out).2 = out ++ blocks (fun i => H (Spec.ofInt 111 i)) v todo ∧
      Ok (genLoop fuel h src todo out).1 := by
  have hf : ∀ i, (H (Spec.ofInt 111 i)).length = 64 := fun i => by rw [hI.digest_len, hd]
  intro fuel
  induction fuel with
  | zero =>
    intro h src todo v out hok hf _
    have : todo = 0 := by omega
    subst this
    simp [genLoop, blocks_zero, hok]
  | succ fuel ih =>
    intro h src todo v out hok hfu hs
    by_cases h0 : todo = 0
    · subst h0; simp [genLoop, blocks_zero, hok]
    · rw [genLoop, if_neg h0]
      dsimp only
      have hm : (if blockLen < todo then blockLen else todo) = min 64 todo := by
        by_cases h : blockLen < todo
        · rw [if_pos h]; have : 64 < todo := h; show 64 = _; omega
        · rw [if_neg h]; have : ¬ 64 < todo := h; omega
      have hq := drbgHash_eq hI hok [src] (by rw [hs]; simp [ofInt_length]; omega)
      have hq' : (drbgHash h [src]).2 = H (Spec.ofInt 111 v) := by rw [hq, hs]; simp
      rw [hm, hq', blocks_succ (by omega) hf v todo (by omega), ← List.append_assoc]
      by_cases hlast : 0 < todo - min 64 todo
      · rw [if_pos hlast]
        exact ih _ _ _ (v + 1) _ (drbgHash_ok hI hok _) (by omega) (by
          rw [addBuf_eq _ _ (by rw [hs, ofInt_length]; decide), hs, ofInt_length, toInt_ofInt]
          rw [← ofInt_mod, Nat.add_mod, Nat.mod_mod, ← Nat.add_mod, ofInt_mod]
          rfl)
      · rw [if_neg hlast]
        have hz : todo - min 64 todo = 0 := by omega
        have := ih (drbgHash h [src]).1 src 0 v (out ++ (H (Spec.ofInt 111 v)).take (min 64 todo)) (drbgHash_ok hI hok _)
          (by omega) hs
        rw [hz]
        refine ⟨?_, this.2⟩
        rw [this.1, blocks_zero, blocks_zero]

theorem ofInt_toInt (x : List Byte) : Spec.ofInt x.length (Spec.toInt x) = x := by
  rw [ofInt_eq_le, toInt_eq_le]
  have : ∀ l : List Byte, leBytes l.length (leNat l) = l := by
    intro l
    induction l with
    | nil => rfl
    | cons d ds ih =>
      have hd := d.toNat_lt
      rw [List.length_cons, leBytes, leNat]
      have e1 : (d.toNat + 256 * leNat ds) % 256 = d.toNat := by omega
      have e2 : (d.toNat + 256 * leNat ds) / 256 = leNat ds := by omega
      rw [e1, e2, ih, UInt8.ofNat_toNat]
  have h := this x.reverse
  rw [List.length_reverse] at h
  rw [h, List.reverse_reverse]

end LC.Drbg
