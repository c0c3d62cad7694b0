import Verif.X509.CertTree
/-
The parts of the certificate that the generator writes for a given input.
-/
namespace LC.Crt
open LC.Asn1 LC.Asn1.Enc LC.Asn1.Gen LC.Asn1.Tr
open LC.Oid (oidData)

/-! ### Names -/

/-- The components of a name with their OIDs, in the order in which they are written. -/
def nameTab (nm : Name) : List (Nat × Bytes × UInt8) :=
  [(OID_CN, nm.cn, 1), (OID_O, nm.o, 2), (OID_email, nm.email, 4), (OID_C, nm.c, 8), (OID_ST, nm.st, 16), (OID_OU, nm.ou, 32)]

abbrev fresh (d : UInt8) (e : Nat × Bytes × UInt8) : Bool := e.2.1 != [] && d &&& e.2.2 == 0

def nameAttrs (nm : Name) : List (Bytes × Bytes) := ((nameTab nm).filter fun e => e.2.1 != []).map fun e => (oidData e.1, e.2.1)

theorem nameOid_find (nm : Name) (d : UInt8) :
    nameOid nm d = match (nameTab nm).find? (fresh d) with | some e => oidData e.1 | none => [] := by
  unfold nameOid nameTab
  generalize oidData = f
  simp only [List.find?, fresh]
  cases (nm.cn != [] && d &&& 1 == 0)
  · cases (nm.o != [] && d &&& 2 == 0)
    · cases (nm.email != [] && d &&& 4 == 0)
      · cases (nm.c != [] && d &&& 8 == 0)
        · cases (nm.st != [] && d &&& 16 == 0)
          · cases (nm.ou != [] && d &&& 32 == 0) <;> rfl
          · rfl
        · rfl
      · rfl
    · rfl
  · rfl

theorem nameSeg_find (nm : Name) (d : UInt8) :
    nameSeg nm d = match (nameTab nm).find? (fresh d) with | some e => (e.2.1, d ||| e.2.2) | none => ([], d) := by
  unfold nameSeg nameTab
  simp only [List.find?, fresh]
  cases (nm.cn != [] && d &&& 1 == 0)
  · cases (nm.o != [] && d &&& 2 == 0)
    · cases (nm.email != [] && d &&& 4 == 0)
      · cases (nm.c != [] && d &&& 8 == 0)
        · cases (nm.st != [] && d &&& 16 == 0)
          · cases (nm.ou != [] && d &&& 32 == 0) <;> rfl
          · rfl
        · rfl
      · rfl
    · rfl
  · rfl

theorem nameUn_find (nm : Name) (d : UInt8) : nameUn nm d = ((nameTab nm).find? (fresh d)).isSome := by
  unfold nameUn nameTab
  simp only [List.find?, fresh]
  cases (nm.cn != [] && d &&& 1 == 0)
  · cases (nm.o != [] && d &&& 2 == 0)
    · cases (nm.email != [] && d &&& 4 == 0)
      · cases (nm.c != [] && d &&& 8 == 0)
        · cases (nm.st != [] && d &&& 16 == 0)
          · cases (nm.ou != [] && d &&& 32 == 0) <;> rfl
          · simp
        · simp
      · simp
    · simp
  · simp

theorem find_suffix {α : Type} (p : α → Bool) (pre suf : List α) (h : ∀ e ∈ pre, p e = false) :
    (pre ++ suf).find? p = suf.find? p := by
  rw [List.find?_append, List.find?_eq_none.mpr (by intro e he; rw [h e he]; decide)]
  rfl

/-- The actions for a name, where `emb d` is the context with the flags `d`. -/
structure NameActs (act : GAct GCtx) (nm : Name) (emb : UInt8 → GCtx) : Prop where
  h7 : ∀ d, act 7 (emb d) = out0 (nameOid nm d) (emb d)
  h4 : ∀ d, act 4 (emb d) = out0 (nameSeg nm d).1 (emb (nameSeg nm d).2)
  h0 : ∀ d, act 0 (emb d) = some ⟨if nameUn nm d then 1 else 0, [], none, emb d⟩

theorem NameRun.mk {act : GAct GCtx} {x x1 x' : GCtx} {a : Bytes × Bytes} {as : List (Bytes × Bytes)} (h1 : a.1 ≠ []) (h2 : a.2 ≠ [])
    (h7 : act 7 x = out0 a.1 x) (h4 : act 4 x = out0 a.2 x1)
    (hs : (as = [] ∧ act 0 x1 = out0 [] x1 ∧ x1 = x') ∨ (act 0 x1 = out1 x1 ∧ NameRun act x1 as x')) : NameRun act x (a :: as) x' := by
  rcases hs with ⟨rfl, h0, rfl⟩ | ⟨h0, hs⟩
  · exact ⟨h1, h2, h7, h4, h0⟩
  · match as, hs with
    | b :: bs, hs => exact ⟨h1, h2, h7, x1, h4, h0, hs⟩

theorem nameTab_oid (nm : Name) : ∀ e ∈ nameTab nm, e.1 < 124 := by
  intro e he
  simp only [nameTab, List.mem_cons, List.not_mem_nil, or_false] at he
  rcases he with rfl | rfl | rfl | rfl | rfl | rfl <;> (dsimp only; decide)

theorem name_run_aux {act : GAct GCtx} {nm : Name} {emb : UInt8 → GCtx} (ha : NameActs act nm emb) :
    ∀ (suf pre : List (Nat × Bytes × UInt8)) (d : UInt8), nameTab nm = pre ++ suf → (∀ e ∈ pre, fresh d e = false) →
      (∀ e ∈ suf, d &&& e.2.2 = 0 ∧ e.2.2 ≠ 0) → suf.Pairwise (fun a b => a.2.2 &&& b.2.2 = 0) →
      (suf.filter fun e => e.2.1 != []) ≠ [] →
      ∃ d', NameRun act (emb d) ((suf.filter fun e => e.2.1 != []).map fun e => (oidData e.1, e.2.1)) (emb d')
  | [], _, _, _, _, _, _, h => absurd rfl h
  | e :: suf, pre, d, htab, hpre, hsuf, hpw, hne => by
    by_cases he : e.2.1 = []
    · have hf : (e :: suf).filter (fun e => e.2.1 != []) = suf.filter (fun e => e.2.1 != []) := by
        rw [List.filter_cons_of_neg (by simp [he])]
      rw [hf] at hne ⊢
      refine name_run_aux ha suf (pre ++ [e]) d (by rw [htab]; simp) ?_ (fun a h => hsuf a (List.mem_cons_of_mem _ h))
        (List.pairwise_cons.mp hpw).2 hne
      intro a h
      rcases List.mem_append.mp h with h | h
      · exact hpre a h
      · rw [List.mem_singleton.mp h]
        simp [fresh, he]
    · have hf : (e :: suf).filter (fun e => e.2.1 != []) = e :: suf.filter (fun e => e.2.1 != []) := by
        rw [List.filter_cons_of_pos (by simp [he])]
      have hfr : fresh d e = true := by
        simp [fresh, he, (hsuf e (List.mem_cons_self ..)).1]
      have hfind : (nameTab nm).find? (fresh d) = some e := by
        rw [htab, find_suffix _ _ _ hpre, List.find?_cons_of_pos hfr]
      have hmem : e ∈ nameTab nm := by rw [htab]; simp
      have h7 := ha.h7 d
      have h4 := ha.h4 d
      rw [nameOid_find, hfind] at h7
      rw [nameSeg_find, hfind] at h4
      dsimp only at h7 h4
      have hpre' : ∀ a ∈ pre ++ [e], fresh (d ||| e.2.2) a = false := by
        intro a h
        rcases List.mem_append.mp h with h | h
        · have := hpre a h
          unfold fresh at this ⊢
          by_cases hv : a.2.1 = []
          · simp [hv]
          · have hd : d &&& a.2.2 ≠ 0 := by
              intro h0
              rw [h0] at this
              simp [hv] at this
            have : (d ||| e.2.2) &&& a.2.2 ≠ 0 := by
              rw [u8_split]
              exact fun h0 => hd (u8_or_eq_zero h0)
            simp [this]
        · rw [List.mem_singleton.mp h]
          have : (d ||| e.2.2) &&& e.2.2 ≠ 0 := by
            rw [u8_split, (hsuf e (List.mem_cons_self ..)).1, UInt8.and_self, UInt8.zero_or]
            exact (hsuf e (List.mem_cons_self ..)).2
          simp [fresh, this]
      have hsuf' : ∀ a ∈ suf, (d ||| e.2.2) &&& a.2.2 = 0 ∧ a.2.2 ≠ 0 := by
        intro a h
        have h1 := hsuf a (List.mem_cons_of_mem _ h)
        have h2 := (List.pairwise_cons.mp hpw).1 a h
        rw [u8_split, h1.1, h2]
        exact ⟨by decide, h1.2⟩
      have h0 := ha.h0 (d ||| e.2.2)
      rw [nameUn_find, htab, show pre ++ e :: suf = (pre ++ [e]) ++ suf by simp, find_suffix _ _ _ hpre'] at h0
      rw [hf, List.map_cons]
      by_cases hrest : suf.filter (fun e => e.2.1 != []) = []
      · refine ⟨d ||| e.2.2, NameRun.mk (oid_ne _ (nameTab_oid nm e hmem)) he h7 h4 (.inl ⟨by rw [hrest]; rfl, ?_, rfl⟩)⟩
        have : suf.find? (fresh (d ||| e.2.2)) = none := by
          rw [List.find?_eq_none]
          intro a h
          have := List.filter_eq_nil_iff.mp hrest a h
          simp only [fresh, Bool.and_eq_true, not_and]
          intro h'
          exact absurd h' this
        rw [this] at h0
        exact h0
      · obtain ⟨d', hr⟩ := name_run_aux ha suf (pre ++ [e]) (d ||| e.2.2) (by rw [htab]; simp) hpre' hsuf' (List.pairwise_cons.mp hpw).2 hrest
        refine ⟨d', NameRun.mk (oid_ne _ (nameTab_oid nm e hmem)) he h7 h4 (.inr ⟨?_, hr⟩)⟩
        have : (suf.find? (fresh (d ||| e.2.2))).isSome = true := by
          rw [List.find?_isSome]
          obtain ⟨a, ha'⟩ := List.exists_mem_of_ne_nil _ hrest
          rw [List.mem_filter] at ha'
          refine ⟨a, ha'.1, ?_⟩
          simp only [fresh, ha'.2, (hsuf' a ha'.1).1, Bool.true_and]
          decide
        rw [this] at h0
        exact h0

theorem nameAttrs_ne (nm : Name) (h : nm ≠ {}) : (nameTab nm).filter (fun e => e.2.1 != []) ≠ [] := by
  intro hf
  apply h
  rw [List.filter_eq_nil_iff] at hf
  have hh : ∀ e ∈ nameTab nm, e.2.1 = [] := by
    intro e he
    have := hf e he
    simpa using this
  obtain ⟨cn, o, em, co, st, ou⟩ := nm
  have h1 := hh (OID_CN, cn, 1) (by simp [nameTab])
  have h2 := hh (OID_O, o, 2) (by simp [nameTab])
  have h3 := hh (OID_email, em, 4) (by simp [nameTab])
  have h4 := hh (OID_C, co, 8) (by simp [nameTab])
  have h5 := hh (OID_ST, st, 16) (by simp [nameTab])
  have h6 := hh (OID_OU, ou, 32) (by simp [nameTab])
  dsimp only at h1 h2 h3 h4 h5 h6
  subst h1 h2 h3 h4 h5 h6
  rfl

theorem name_run {act : GAct GCtx} {nm : Name} {emb : UInt8 → GCtx} (ha : NameActs act nm emb) (h : nm ≠ {}) :
    ∃ d', NameRun act (emb 0) (nameAttrs nm) (emb d') := by
  refine name_run_aux ha (nameTab nm) [] 0 rfl (by intro _ h; cases h) ?_ ?_ (nameAttrs_ne nm h)
  · intro e he
    simp only [nameTab, List.mem_cons, List.not_mem_nil, or_false] at he
    rcases he with rfl | rfl | rfl | rfl | rfl | rfl <;> (dsimp only; decide)
  · simp only [nameTab, List.pairwise_cons, List.mem_cons, List.not_mem_nil, or_false, forall_eq_or_imp, forall_eq, List.Pairwise.nil,
      and_true, false_implies, implies_true]
    decide

/-! ### Times -/

def utcBytes (t : Int) : Bytes :=
  d2 (((gmtime t).year - 1900).toNat % 100) ++ d2 (gmtime t).mon ++ d2 (gmtime t).day ++ d2 (gmtime t).hour ++ d2 (gmtime t).min ++
  d2 (gmtime t).sec ++ [90]

def genBytes (t : Int) : Bytes :=
  (d4 (gmtime t).year.toNat ++ d2 (gmtime t).mon ++ d2 (gmtime t).day ++ d2 (gmtime t).hour ++ d2 (gmtime t).min ++
   d2 (gmtime t).sec ++ [90]).take 15

def timeTree (t : Int) : Tree := if t < 2524608000 then .leaf 23 (utcBytes t) else .leaf 24 (genBytes t)

theorem utc_ne (t : Int) : utcBytes t ≠ [] := by
  unfold utcBytes
  intro h
  exact absurd (List.append_eq_nil_iff.mp h).2 (by simp)

theorem gen_ne (t : Int) : genBytes t ≠ [] := by
  unfold genBytes
  intro h
  have := congrArg List.length h
  simp [d2] at this

theorem certG_19 (c : In) (x : GCtx) (v : Nat × Bytes × GCtx) (h : utcEnc c x = .ok v) : certG c 19 x = some (outT v) := by
  have : certG c 19 x = gactS (fun _ => utcEnc c) 0 x := rfl
  rw [this]
  unfold gactS
  dsimp only
  rw [h]

theorem certG_18 (c : In) (x : GCtx) (v : Nat × Bytes × GCtx) (h : genEnc c x = .ok v) : certG c 18 x = some (outT v) := by
  have : certG c 18 x = gactS (fun _ => genEnc c) 0 x := rfl
  rw [this]
  unfold gactS
  dsimp only
  rw [h]

theorem time_run (c : In) (x : GCtx) (hx : x.timeSet = false) (hy : ¬ (gmtime (nextTime c x)).year < 1900) :
    TimeRun (certG c) x (timeTree (nextTime c x)) { x with time := nextTime c x, timeSet := true } := by
  unfold timeTree
  by_cases ht : nextTime c x < 2524608000
  · rw [if_pos ht]
    refine ⟨utcBytes (nextTime c x), [], { x with time := nextTime c x, timeSet := true }, ?_, ?_, .inl ⟨utc_ne _, rfl, rfl⟩⟩
    · refine certG_19 c x (0, utcBytes (nextTime c x), _) ?_
      unfold utcEnc
      rw [hx, if_neg (by decide), if_neg (by omega)]
      dsimp only
      rw [if_neg hy]
      rfl
    · exact certG_18 c _ (0, [], _) rfl
  · rw [if_neg ht]
    refine ⟨[], genBytes (nextTime c x), x, ?_, ?_, .inr ⟨rfl, gen_ne _, rfl⟩⟩
    · refine certG_19 c x (0, [], _) ?_
      unfold utcEnc
      rw [hx, if_neg (by decide), if_pos (by omega)]
    · refine certG_18 c x (0, genBytes (nextTime c x), _) ?_
      unfold genEnc
      rw [hx, if_neg (by decide), if_neg ht]
      rfl

end LC.Crt
