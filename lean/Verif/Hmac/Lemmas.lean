import Verif.Hmac.Model
import Verif.Hmac.Spec
/- The HMAC context as an abstract keyed MAC. -/
namespace LC.Hmac
open StreamHash

variable {S : StreamHash} {H : List Byte → List Byte} {maxLen : Nat} {Ok : S.Ctx → Prop}

/-- The context holds the key `key`. -/
structure Keyed (H : List Byte → List Byte) (Ok : S.Ctx → Prop) (c : Ctx S) (key : List Byte) :
    Prop where
  ok : Ok c.h
  opad : c.kOpad = Spec.pad 0x5c (Spec.blockKey H S.block key)
  ipad : c.kIpad = Spec.pad 0x36 (Spec.blockKey H S.block key)
  len : (Spec.blockKey H S.block key).length = S.block

/-- The context holds the key `key` and has absorbed the message `m`. -/
structure Rep (H : List Byte → List Byte) (Ok : S.Ctx → Prop) (c : Ctx S) (key m : List Byte) :
    Prop extends Keyed H Ok c key where
  abs : Absorbed S Ok c.h (Spec.pad 0x36 (Spec.blockKey H S.block key) ++ m)

theorem pad_length (b : UInt8) (k : List Byte) : (Spec.pad b k).length = k.length := by
  simp [Spec.pad]

theorem reinit_rep (hI : Implements S H maxLen Ok) {c : Ctx S} {key : List Byte}
    (h : Keyed H Ok c key) : Rep H Ok (reinit c) key [] := by
  have habs := (absorbed_init (S := S) h.ok).update (c.kIpad.take S.block)
  have e : c.kIpad.take S.block = c.kIpad :=
    List.take_of_length_le (by rw [h.ipad, pad_length, h.len]; exact Nat.le_refl _)
  refine ⟨⟨?_, h.opad, h.ipad, h.len⟩, ?_⟩
  · exact habs.ok hI
  · rw [List.append_nil, ← h.ipad]
    unfold reinit
    dsimp only
    rw [e] at habs ⊢
    simpa using habs

theorem init_rep (hI : Implements S H maxLen Ok) (hds : S.dsize ≤ S.block) (h0 : S.Ctx) (hok : Ok h0)
    (key : List Byte) (hk : key.length < maxLen) : Rep H Ok (init h0 key) key [] := by
  unfold init
  by_cases hlen : key.length > S.block
  · rw [if_pos hlen]
    have ha := (absorbed_init (S := S) hok).update key
    have hd := ha.digest hI (by simpa using hk)
    rw [List.nil_append] at hd
    have hb : Spec.blockKey H S.block key = H key ++ List.replicate (S.block - S.dsize) 0 := by
      unfold Spec.blockKey
      dsimp only
      rw [if_pos hlen, hI.digest_len]
    apply reinit_rep hI
    refine ⟨hI.final_ok _ (ha.ok hI), ?_, ?_, ?_⟩
    · simp only [hd, hb, Spec.pad]
    · simp only [hd, hb, Spec.pad]
    · rw [hb, List.length_append, hI.digest_len, List.length_replicate]; omega
  · rw [if_neg hlen]
    have hb : Spec.blockKey H S.block key = key ++ List.replicate (S.block - key.length) 0 := by
      unfold Spec.blockKey
      dsimp only
      rw [if_neg hlen]
    apply reinit_rep hI
    refine ⟨hok, ?_, ?_, ?_⟩
    · simp only [hb, Spec.pad]
    · simp only [hb, Spec.pad]
    · rw [hb, List.length_append, List.length_replicate]; omega

theorem Rep.update (hI : Implements S H maxLen Ok) {c : Ctx S} {key m : List Byte}
    (h : Rep H Ok c key m) (x : List Byte) : Rep H Ok (update c x) key (m ++ x) := by
  have ha := h.abs.update x
  refine ⟨⟨ha.ok hI, h.opad, h.ipad, h.len⟩, ?_⟩
  rw [← List.append_assoc]
  exact ha

theorem Rep.updates (hI : Implements S H maxLen Ok) {key : List Byte} (xs : List (List Byte)) :
    ∀ {c : Ctx S} {m : List Byte}, Rep H Ok c key m →
      Rep H Ok (xs.foldl Hmac.update c) key (m ++ xs.flatten) := by
  induction xs with
  | nil => intro c m h; simpa using h
  | cons x xs ih =>
    intro c m h
    rw [List.foldl_cons, List.flatten_cons, ← List.append_assoc]
    exact ih (h.update hI x)

theorem final_keyed (hI : Implements S H maxLen Ok) {c : Ctx S} {key : List Byte}
    (h : Keyed H Ok c key) : Keyed H Ok (final c).1 key := by
  refine ⟨?_, h.opad, h.ipad, h.len⟩
  exact hI.final_ok _ (hI.update_ok _ _ (hI.update_ok _ _ (hI.init_ok _ (hI.final_ok _ h.ok))))

theorem Rep.final (hI : Implements S H maxLen Ok) (hmax : S.block + S.dsize < maxLen) {c : Ctx S}
    {key m : List Byte} (h : Rep H Ok c key m) (hm : S.block + m.length < maxLen) :
    (final c).2 = Spec.hmac H S.block key m := by
  have hd := h.abs.digest hI (by rw [List.length_append, pad_length, h.len]; exact hm)
  unfold Hmac.final
  dsimp only
  rw [hd]
  have e1 : c.kOpad.take S.block = c.kOpad :=
    List.take_of_length_le (by rw [h.opad, pad_length, h.len]; exact Nat.le_refl _)
  have hHl : ∀ x, (H x).take S.dsize = H x := fun x =>
    List.take_of_length_le (by rw [hI.digest_len]; exact Nat.le_refl _)
  rw [e1, hHl]
  have ha := ((absorbed_init (S := S) (hI.final_ok _ h.ok)).update c.kOpad).update
    (H (Spec.pad 54 (Spec.blockKey H S.block key) ++ m))
  rw [ha.digest hI (by
    rw [List.nil_append, List.length_append, hI.digest_len, h.opad, pad_length, h.len]; exact hmax)]
  rw [List.nil_append, h.opad]
  rfl

theorem Op.run_keyed (hI : Implements S H maxLen Ok) {key : List Byte} (ops : List Op) :
    ∀ {c : Ctx S}, Keyed H Ok c key → Keyed H Ok (ops.foldl Op.run c) key := by
  induction ops with
  | nil => intro c h; exact h
  | cons o os ih =>
    intro c h
    rw [List.foldl_cons]
    apply ih
    cases o with
    | update x => exact ⟨hI.update_ok _ _ h.ok, h.opad, h.ipad, h.len⟩
    | final => exact final_keyed hI h
    | reinit => exact (reinit_rep hI h).toKeyed

theorem hmac_length (hI : Implements S H maxLen Ok) (key m : List Byte) :
    (Spec.hmac H S.block key m).length = S.dsize := hI.digest_len _

end LC.Hmac
