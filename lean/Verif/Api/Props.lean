import Verif.Api.Model

/-!
# Properties of the typed containers (C113–C117)
-/

namespace LC.Api

/-! ### Specification -/

/-- The kinds of typed objects with one part. -/
inductive Kind
  | kemSk | kemPk | kemCt | kemSs
  | dsaSk | dsaPk | dsaSig
  | slhSk | slhPk | slhSig
  | bikeSk | bikePk | bikeCt | bikeSs
deriving DecidableEq, Repr

/-- The parameter sets of a kind. -/
def Kind.T : Kind → Type
  | .kemSk | .kemPk | .kemCt | .kemSs => KemT
  | .dsaSk | .dsaPk | .dsaSig => DsaT
  | .slhSk | .slhPk | .slhSig => SlhT
  | .bikeSk | .bikePk | .bikeCt | .bikeSs => BikeT

/-- The model of a kind. -/
def Kind.fam : (k : Kind) → Fam k.T
  | .kemSk => LC.Api.kemSk
  | .kemPk => LC.Api.kemPk
  | .kemCt => LC.Api.kemCt
  | .kemSs => LC.Api.kemSs
  | .dsaSk => LC.Api.dsaSk
  | .dsaPk => LC.Api.dsaPk
  | .dsaSig => LC.Api.dsaSig
  | .slhSk => LC.Api.slhSk
  | .slhPk => LC.Api.slhPk
  | .slhSig => LC.Api.slhSig
  | .bikeSk => LC.Api.bikeSk
  | .bikePk => LC.Api.bikePk
  | .bikeCt => LC.Api.bikeCt
  | .bikeSs => LC.Api.bikeSs

/-- The sizes of the standards: FIPS 203 table 3, FIPS 204 table 2, FIPS 205 table 2; for BIKE the sizes of
the specification, with the secret key in leancrypto's own format. -/
def stdSize : (k : Kind) → k.T → Nat
  | .kemSk => fun t => match t with | .k512 => 1632 | .k768 => 2400 | .k1024 => 3168
  | .kemPk => fun t => match t with | .k512 => 800 | .k768 => 1184 | .k1024 => 1568
  | .kemCt => fun t => match t with | .k512 => 768 | .k768 => 1088 | .k1024 => 1568
  | .kemSs => fun _ => 32
  | .dsaSk => fun t => match t with | .d44 => 2560 | .d65 => 4032 | .d87 => 4896
  | .dsaPk => fun t => match t with | .d44 => 1312 | .d65 => 1952 | .d87 => 2592
  | .dsaSig => fun t => match t with | .d44 => 2420 | .d65 => 3309 | .d87 => 4627
  | .slhSk => fun t => match t with
    | .s128 => 64 | .f128 => 64 | .s192 => 96 | .f192 => 96 | .s256 => 128 | .f256 => 128
  | .slhPk => fun t => match t with
    | .s128 => 32 | .f128 => 32 | .s192 => 48 | .f192 => 48 | .s256 => 64 | .f256 => 64
  | .slhSig => fun t => match t with
    | .s128 => 7856 | .f128 => 17088 | .s192 => 16224 | .f192 => 35664 | .s256 => 29792 | .f256 => 49856
  | .bikeSk => fun t => match t with | .b1 => 5224 | .b3 => 10108 | .b5 => 16496
  | .bikePk => fun t => match t with | .b1 => 1541 | .b3 => 3083 | .b5 => 5122
  | .bikeCt => fun t => match t with | .b1 => 1573 | .b3 => 3115 | .b5 => 5154
  | .bikeSs => fun _ => 32

/-- The kinds for which the length tells the parameter set. -/
def Kind.telling : Kind → Bool
  | .kemSs | .bikeSs | .slhSk | .slhPk => false
  | _ => true

/-- An object of parameter set `t` whose bytes are `b`: its type field is `t` and its union begins with
`b`. -/
def Holds {T : Type} (o : Obj T) (t : T) (b : Bytes) : Prop := o.type = some t ∧ b <+: o.mem

/-! ### Lemmas -/

theorem size_eq (k : Kind) (t : k.T) : k.fam.size t = stdSize k t := by
  cases k <;> cases t <;> rfl

theorem size_pos (k : Kind) (t : k.T) : 0 < stdSize k t := by
  cases k <;> cases t <;> decide

theorem kem_mem (t : KemT) : t ∈ kemChain := by cases t <;> simp [kemChain]
theorem dsa_mem (t : DsaT) : t ∈ dsaChain := by cases t <;> simp [dsaChain]
theorem slh_mem (t : SlhT) : t ∈ slhChain := by cases t <;> simp [slhChain]
theorem bike_mem (t : BikeT) : t ∈ bikeChain := by cases t <;> simp [bikeChain]

theorem mem_chain (k : Kind) (t : k.T) : t ∈ k.fam.chain := by
  cases k <;> first | exact kem_mem t | exact dsa_mem t | exact slh_mem t | exact bike_mem t

theorem telling_inj (k : Kind) (h : k.telling = true) (t t' : k.T) (e : stdSize k t = stdSize k t') :
    t = t' := by
  cases k <;> first
    | (exact absurd h (by decide))
    | (cases t <;> cases t' <;> first | rfl | exact absurd e (by decide))

theorem pick_some {T : Type} {F : Fam T} {en : T → Bool} {n : Nat} {t : T} (h : pick F en n = some t) :
    en t = true ∧ n = F.size t := by
  have := List.find?_some h
  simpa using this

theorem pick_none {T : Type} {F : Fam T} {en : T → Bool} {n : Nat} (h : pick F en n = none) :
    ∀ t ∈ F.chain, ¬ (en t = true ∧ n = F.size t) := by
  intro t ht hh
  have := List.find?_eq_none.mp h t ht
  simp [hh.1, ← hh.2] at this

theorem rd_full (b : Bytes) : rd (some b) b.length = some b := by
  simp [rd]

theorem wr_zero (m b : Bytes) : wr m 0 b = b ++ m.drop b.length := by
  simp [wr]

theorem wr_after (m b x : Bytes) :
    wr (wr m 0 b) b.length x = b ++ (x ++ (m.drop b.length).drop x.length) := by
  simp [wr_zero, wr, List.drop_append]

theorem load_ok {T : Type} (F : Fam T) (en : T → Bool) (o : Obj T) (b : Bytes) (hb : b.length ≠ 0) {t : T}
    (h : pick F en b.length = some t) :
    load F en (some o) (some b) b.length = .ret 0 (some ⟨some t, b ++ o.mem.drop b.length⟩) := by
  simp only [load, h, rd_full, wr_zero]
  rw [if_neg (by simp only [not_or]; exact ⟨by simp, hb⟩)]

theorem load_bad {T : Type} (F : Fam T) (en : T → Bool) (o : Obj T) (b : Bytes)
    (h : pick F en b.length = none) :
    load F en (some o) (some b) b.length = .ret (-EINVAL) (some o) := by
  simp only [load, h]
  split <;> rfl

/-! ### C113 -/

/-- **C113** A load function accepts exactly the byte strings whose length is that of a parameter set that
is compiled in; the object then holds these bytes under such a parameter set and the `*_ptr` function
returns them.  Everything else is refused and leaves the object unchanged. -/
theorem c113_load (k : Kind) (en : k.T → Bool) (o : Obj k.T) (b : Bytes) :
    ((∃ t, en t = true ∧ b.length = stdSize k t) →
      ∃ t o', en t = true ∧ b.length = stdSize k t ∧
        load k.fam en (some o) (some b) b.length = .ret 0 (some o') ∧ Holds o' t b ∧
        o'.mem.drop b.length = o.mem.drop b.length ∧ ptr k.fam en (some o') = (0, b)) ∧
    ((¬ ∃ t, en t = true ∧ b.length = stdSize k t) →
      load k.fam en (some o) (some b) b.length = .ret (-EINVAL) (some o)) := by
  constructor
  · rintro ⟨t, ht, hl⟩
    cases hp : pick k.fam en b.length with
    | none => exact absurd ⟨ht, by rw [size_eq]; exact hl⟩ (pick_none hp t (mem_chain k t))
    | some t' =>
      obtain ⟨h1, h2⟩ := pick_some hp
      have h0 : b.length ≠ 0 := by
        have := size_pos k t
        omega
      refine ⟨t', _, h1, by rw [← size_eq]; exact h2, load_ok k.fam en o b h0 hp, ⟨rfl, by simp⟩, by simp, ?_⟩
      simp [ptr, h1, ← h2]
  · intro h
    cases hp : pick k.fam en b.length with
    | none => exact load_bad k.fam en o b hp
    | some t =>
      obtain ⟨h1, h2⟩ := pick_some hp
      exact absurd ⟨t, h1, by rw [← size_eq]; exact h2⟩ h

/-- **C113** (what holds of it) An object saved with `*_ptr` and loaded again holds the same bytes, and it
belongs to the same parameter set if the kind of object is one whose length tells the parameter set.
Missing: shared secrets and SLH-DSA keys, see `c113_negation_*`. -/
theorem c113_reload_partial (k : Kind) (en : k.T → Bool) (o o2 : Obj k.T) (t : k.T) (b : Bytes)
    (ht : en t = true) (hl : b.length = stdSize k t) (ho : Holds o t b) :
    ptr k.fam en (some o) = (0, b) ∧
    ∃ t' o3, load k.fam en (some o2) (some b) b.length = .ret 0 (some o3) ∧ Holds o3 t' b ∧
      ptr k.fam en (some o3) = (0, b) ∧ (k.telling = true → t' = t) := by
  refine ⟨?_, ?_⟩
  · obtain ⟨h1, r, h2⟩ := ho
    simp [ptr, h1, ht, size_eq, ← hl, ← h2]
  · obtain ⟨t', o', -, h2, h3, h4, -, h5⟩ := (c113_load k en o2 b).1 ⟨t, ht, hl⟩
    exact ⟨t', o', h3, h4, h5, fun hk => telling_inj k hk _ _ (h2.symm.trans hl)⟩

/-- The small and the fast parameter set of the same security level. -/
def small : SlhT → SlhT
  | .s128 | .f128 => .s128
  | .s192 | .f192 => .s192
  | .s256 | .f256 => .s256

/-- The fast parameter sets of FIPS 205. -/
def isFast : SlhT → Bool
  | .f128 | .f192 | .f256 => true
  | _ => false

theorem slh_pick (en : SlhT → Bool) (t : SlhT) (ht : en t = true) (F : Fam SlhT)
    (hF : F = slhSk ∨ F = slhPk) :
    ∃ t', pick F en (F.size t) = some t' ∧ small t' = small t ∧ (isFast t = false → t' = t) ∧
      en t' = true := by
  rcases hF with rfl | rfl <;> cases t <;> simp only [pick, slhSk, slhPk, slhChain, List.find?, slhSkSize,
    slhPkSize, SlhT.params, ht] <;> simp [small, isFast, ht] <;>
    (split <;> first | rfl | simp_all)

/-- **C113** SLH-DSA keys are restored completely if the key type function of the former parameter set is
called after loading, whatever parameter sets are compiled in. -/
theorem c113_slh_restored (en : SlhT → Bool) (o2 : Obj SlhT) (t : SlhT) (b : Bytes) (ht : en t = true)
    (F : Fam SlhT) (hF : F = slhSk ∨ F = slhPk) (hl : b.length = F.size t) :
    ∃ o3, load F en (some o2) (some b) b.length = .ret 0 (some o3) ∧
      ∃ o4, (if isFast t then setFast en (some o3) else setSmall en (some o3)) = (0, some o4) ∧
        Holds o4 t b := by
  obtain ⟨t', h1, h2, h3, h4⟩ := slh_pick en t ht F hF
  rw [← hl] at h1
  have h0 : b.length ≠ 0 := by
    rw [hl]; rcases hF with rfl | rfl <;> cases t <;> decide
  refine ⟨_, load_ok F en o2 b h0 h1, ?_⟩
  cases t <;> cases t' <;> first
    | (exact absurd h2 (by decide))
    | (exact absurd (h3 rfl) (by decide))
    | (refine ⟨⟨some _, b ++ o2.mem.drop b.length⟩, ?_, rfl, by simp⟩
       simp [isFast, setFast, setSmall, ht])

/-- **C113** (negation) With all parameter sets compiled in, an ML-KEM shared secret that is saved and
loaded again belongs to ML-KEM-1024.  The initiator of a key exchange with ML-KEM-512 or ML-KEM-768 that
keeps its temporary secret `tk` this way cannot complete the exchange: the call that works with the
original is refused with the reloaded one. -/
theorem c113_negation_ss (t : KemT) (ht : t ≠ .k1024) (tk o2 : Obj KemT) (b : Bytes) (hl : b.length = 32)
    (ho : Holds tk t b) :
    ∃ o3, load kemSs (fun _ => true) (some o2) (some b) b.length = .ret 0 (some o3) ∧ Holds o3 .k1024 b ∧
      (∀ ct sk : Obj KemT, ct.type = some t → sk.type = some t →
        (entry kemTable "lc_kex_uake_initiator_ss").run (fun _ => true) [some ct, some tk, some sk] [] =
          .call t [ct, tk, sk] [] ∧
        (entry kemTable "lc_kex_uake_initiator_ss").run (fun _ => true) [some ct, some o3, some sk] [] =
          .err (-EINVAL)) ∧
      (∀ ct1 ct2 sk ski : Obj KemT, ct1.type = some t → ct2.type = some t → sk.type = some t →
        ski.type = some t →
        (entry kemTable "lc_kex_ake_initiator_ss").run (fun _ => true)
            [some ct1, some ct2, some tk, some sk, some ski] [] = .call t [ct1, ct2, tk, sk, ski] [] ∧
        (entry kemTable "lc_kex_ake_initiator_ss").run (fun _ => true)
            [some ct1, some ct2, some o3, some sk, some ski] [] = .err (-EINVAL)) := by
  have hp : pick kemSs (fun _ => true) b.length = some .k1024 := by
    simp [pick, kemSs, kemChain, List.find?, kemSsSize, hl]
  have e1 : entry kemTable "lc_kex_uake_initiator_ss" =
      ⟨"lc_kex_uake_initiator_ss", 780, 822, 3, [(0, 1), (0, 2)], 0, 0, []⟩ := by decide
  have e2 : entry kemTable "lc_kex_ake_initiator_ss" =
      ⟨"lc_kex_ake_initiator_ss", 936, 986, 5, [(0, 1), (0, 2), (0, 3), (0, 4)], 0, 0, []⟩ := by decide
  refine ⟨_, load_ok kemSs _ o2 b (by omega) hp, ⟨rfl, by simp⟩, ?_, ?_⟩
  · intro ct sk h1 h2
    rw [e1]
    simp [Entry.run, notNull, agree, setTypes, h1, h2, ho.1, ht]
  · intro ct1 ct2 sk ski h1 h2 h3 h4
    rw [e2]
    simp [Entry.run, notNull, agree, setTypes, h1, h2, h3, h4, ho.1, ht]

/-- **C113** (negation) With all parameter sets compiled in, an SLH-DSA public key of a fast parameter set
that is saved and loaded again belongs to the small one.  Every signature of the key, which the
verification functions pass to the implementation with the original key, is refused with the reloaded
one. -/
theorem c113_negation_slh (t : SlhT) (ht : isFast t = true) (pk o2 : Obj SlhT) (b : Bytes)
    (hl : b.length = stdSize .slhPk t) (ho : Holds pk t b) :
    ∃ o3, load slhPk (fun _ => true) (some o2) (some b) b.length = .ret 0 (some o3) ∧
      Holds o3 (small t) b ∧
      ∀ sg : Obj SlhT, sg.type = some t → ∀ f ∈ ["lc_sphincs_verify", "lc_sphincs_verify_ctx",
          "lc_sphincs_verify_final"],
        (entry slhTable f).run (fun _ => true) [some sg, some pk] [] = .call t [sg, pk] [] ∧
        (entry slhTable f).run (fun _ => true) [some sg, some o3] [] = .err (-EINVAL) := by
  have hp : pick slhPk (fun _ => true) b.length = some (small t) := by
    cases t <;> first
      | (exact absurd ht (by decide))
      | (rw [hl]; decide)
  have hne : some t ≠ some (small t) := by cases t <;> first | (exact absurd ht (by decide)) | decide
  have h0 : b.length ≠ 0 := by
    have := size_pos .slhPk t
    omega
  refine ⟨_, load_ok slhPk _ o2 b h0 hp, ⟨rfl, by simp⟩, ?_⟩
  intro sg hs f hf
  have e : ∀ f ∈ ["lc_sphincs_verify", "lc_sphincs_verify_ctx", "lc_sphincs_verify_final"],
      (entry slhTable f).checks = [(0, 1)] ∧ (entry slhTable f).sel = 1 ∧ (entry slhTable f).sets = [] := by
    decide
  obtain ⟨e1, e2, e3⟩ := e f hf
  simp [Entry.run, e1, e2, e3, notNull, agree, setTypes, hs, ho.1, hne]

/-! ### C114 -/

/-- All dispatching functions. -/
def allTables : List Entry := kemTable ++ slhTable ++ dsaTable ++ bikeTable

/-- Shape of an entry: every input is compared with the one that selects the implementation, every output
gets the type. -/
def Entry.Good (e : Entry) : Prop :=
  e.sel < e.ins ∧ (∀ j < e.ins, j = e.sel ∨ (e.sel, j) ∈ e.checks ∨ (j, e.sel) ∈ e.checks) ∧
    (∀ c ∈ e.checks, c.1 < e.ins ∧ c.2 < e.ins) ∧ ∀ j < e.outs, e.sets.contains j = true

instance (e : Entry) : Decidable e.Good := by unfold Entry.Good; infer_instance

theorem all_good : ∀ e ∈ allTables, e.Good := by decide

theorem notNull_eq {α : Type} : ∀ {l : List (Option α)} {r : List α}, notNull l = some r → l = r.map some
  | [], r, h => by
    simp only [notNull, Option.some.injEq] at h
    subst h; rfl
  | none :: l, r, h => by simp [notNull] at h
  | some a :: l, r, h => by
    simp only [notNull, Option.map_eq_some_iff] at h
    obtain ⟨r', h1, rfl⟩ := h
    rw [notNull_eq h1]; rfl

theorem notNull_map {α : Type} : ∀ (r : List α), notNull (r.map some) = some r
  | [] => rfl
  | a :: r => by simp [notNull, notNull_map r]

theorem notNull_none {α : Type} : ∀ {l : List (Option α)}, none ∈ l → notNull l = none
  | none :: l, _ => rfl
  | some a :: l, h => by
    have : none ∈ l := by simpa using h
    simp [notNull, notNull_none this]

theorem setTypes_spec {T : Type} (t : T) (s : List Nat) : ∀ (l : List (Obj T)) (i : Nat),
    (∀ j, i ≤ j → j < i + l.length → s.contains j = true) →
    setTypes t s i l = l.map (fun o => { o with type := some t })
  | [], _, _ => rfl
  | o :: l, i, h => by
    simp only [setTypes, List.map_cons]
    rw [h i (Nat.le_refl i) (by simp), setTypes_spec t s l (i + 1)]
    · rfl
    · intro j h1 h2
      exact h j (by omega) (by simp only [List.length_cons]; omega)

/-- **C114** Objects of different parameter sets are never mixed: every API function of ML-KEM, ML-DSA,
SLH-DSA, BIKE and the hybrids that takes typed objects reaches an implementation exactly if no pointer is
NULL and all its inputs belong to one parameter set that is compiled in.  Then it is the implementation of
this parameter set, it gets the objects given, and all outputs are marked with this parameter set; otherwise
an error is returned. -/
theorem c114_dispatch {T : Type} [DecidableEq T] (e : Entry) (he : e ∈ allTables) (en : T → Bool)
    (ins outs : List (Option (Obj T))) (hi : ins.length = e.ins) (ho : outs.length = e.outs) :
    (∀ t is os, e.run en ins outs = .call t is os ↔
      (en t = true ∧ ins = is.map some ∧ (∀ i ∈ is, i.type = some t) ∧
        ∃ os0 : List (Obj T), outs = os0.map some ∧ os = os0.map (fun o => { o with type := some t }))) ∧
    (∀ c, e.run en ins outs = .err c → c = -EINVAL ∨ c = -EOPNOTSUPP) := by
  obtain ⟨g1, g2, g3, g4⟩ := all_good e he
  constructor
  · intro t is os
    constructor
    · intro h
      unfold Entry.run at h
      split at h
      · rename_i is0 os0 hn ho0
        have hins := notNull_eq hn
        have houts := notNull_eq ho0
        have li : is0.length = e.ins := by rw [← hi, hins]; simp
        have lo : os0.length = e.outs := by rw [← ho, houts]; simp
        split at h
        · rename_i hc
          split at h
          · cases h
          · rename_i t0 hs
            split at h
            · rename_i hen
              injection h with h1 h2 h3
              subst h1 h2 h3
              refine ⟨hen, hins, ?_, os0, houts, ?_⟩
              · intro i hmem
                obtain ⟨j, hj, rfl⟩ := List.getElem_of_mem hmem
                have hsel : e.sel < is0.length := by omega
                rw [List.getElem?_eq_getElem hsel, Option.bind_some] at hs
                have hjj : j < e.ins := by omega
                rcases g2 j hjj with rfl | h5 | h5
                · exact hs
                · have := List.all_eq_true.mp hc _ h5
                  simp only [agree, List.getElem?_eq_getElem hsel, List.getElem?_eq_getElem hj,
                    Option.map_some, decide_eq_true_eq, Option.some.injEq] at this
                  rw [← this, hs]
                · have := List.all_eq_true.mp hc _ h5
                  simp only [agree, List.getElem?_eq_getElem hsel, List.getElem?_eq_getElem hj,
                    Option.map_some, decide_eq_true_eq, Option.some.injEq] at this
                  rw [this, hs]
              · exact setTypes_spec _ _ _ _ (fun j _ h6 => g4 j (by omega))
            · cases h
        · cases h
      · cases h
    · rintro ⟨h1, rfl, h3, os0, rfl, rfl⟩
      have li : is.length = e.ins := by rw [← hi]; simp
      have lo : os0.length = e.outs := by rw [← ho]; simp
      have hsel : e.sel < is.length := by omega
      have hall : e.checks.all (agree is) = true := by
        rw [List.all_eq_true]
        intro c hc
        obtain ⟨c1, c2⟩ := g3 c hc
        have d1 : c.1 < is.length := by omega
        have d2 : c.2 < is.length := by omega
        simp only [agree, List.getElem?_eq_getElem d1, List.getElem?_eq_getElem d2, Option.map_some,
          decide_eq_true_eq, h3 _ (List.getElem_mem d1), h3 _ (List.getElem_mem d2)]
      simp only [Entry.run, notNull_map, hall, if_true, List.getElem?_eq_getElem hsel, Option.bind_some,
        h3 _ (List.getElem_mem hsel), h1]
      rw [setTypes_spec _ _ _ _ (fun j _ h6 => g4 j (by omega))]
  · intro c h
    unfold Entry.run at h
    split at h
    · split at h
      · split at h
        · injection h with h; exact Or.inr h.symm
        · split at h
          · cases h
          · injection h with h; exact Or.inr h.symm
      · injection h with h; exact Or.inl h.symm
    · injection h with h; exact Or.inl h.symm

/-- The prototypes in the header files `lc_kyber.h`, `lc_sphincs.h`, `lc_dilithium.h` and `lc_bike.h`: name,
number of typed inputs, number of typed outputs. -/
def prototypes : List (String × Nat × Nat) :=
  [("lc_kyber_enc", 1, 2),
   ("lc_kyber_enc_kdf", 1, 1),
   ("lc_kyber_dec", 2, 1),
   ("lc_kyber_dec_kdf", 2, 0),
   ("lc_kex_uake_initiator_init", 1, 4),
   ("lc_kex_uake_responder_ss", 3, 1),
   ("lc_kex_uake_initiator_ss", 3, 0),
   ("lc_kex_ake_initiator_init", 1, 4),
   ("lc_kex_ake_responder_ss", 4, 2),
   ("lc_kex_ake_initiator_ss", 5, 0),
   ("lc_kyber_ies_enc", 1, 1),
   ("lc_kyber_ies_enc_init", 1, 1),
   ("lc_kyber_ies_dec", 2, 0),
   ("lc_kyber_ies_dec_init", 2, 0),
   ("lc_kyber_x25519_enc_kdf", 1, 1),
   ("lc_kyber_x25519_dec_kdf", 2, 0),
   ("lc_kex_x25519_uake_initiator_init", 1, 4),
   ("lc_kex_x25519_uake_responder_ss", 3, 1),
   ("lc_kex_x25519_uake_initiator_ss", 3, 0),
   ("lc_kex_x25519_ake_initiator_init", 1, 4),
   ("lc_kex_x25519_ake_responder_ss", 4, 2),
   ("lc_kex_x25519_ake_initiator_ss", 5, 0),
   ("lc_kyber_x25519_ies_enc", 1, 1),
   ("lc_kyber_x25519_ies_enc_init", 1, 1),
   ("lc_kyber_x25519_ies_dec", 2, 0),
   ("lc_kyber_x25519_ies_dec_init", 2, 0),
   ("lc_sphincs_sign", 1, 1),
   ("lc_sphincs_sign_ctx", 1, 1),
   ("lc_sphincs_sign_init", 1, 0),
   ("lc_sphincs_sign_final", 1, 1),
   ("lc_sphincs_verify", 2, 0),
   ("lc_sphincs_verify_ctx", 2, 0),
   ("lc_sphincs_verify_init", 1, 0),
   ("lc_sphincs_verify_final", 2, 0),
   ("lc_dilithium_sign", 1, 1),
   ("lc_dilithium_sign_ctx", 1, 1),
   ("lc_dilithium_sign_init", 1, 0),
   ("lc_dilithium_sign_final", 1, 1),
   ("lc_dilithium_verify", 2, 0),
   ("lc_dilithium_verify_ctx", 2, 0),
   ("lc_dilithium_verify_init", 1, 0),
   ("lc_dilithium_verify_final", 2, 0),
   ("lc_dilithium_ed25519_sign", 1, 1),
   ("lc_dilithium_ed25519_sign_ctx", 1, 1),
   ("lc_dilithium_ed25519_sign_init", 1, 0),
   ("lc_dilithium_ed25519_sign_final", 1, 1),
   ("lc_dilithium_ed25519_verify", 2, 0),
   ("lc_dilithium_ed25519_verify_ctx", 2, 0),
   ("lc_dilithium_ed25519_verify_init", 1, 0),
   ("lc_dilithium_ed25519_verify_final", 2, 0),
   ("lc_bike_enc", 1, 2),
   ("lc_bike_enc_kdf", 1, 1),
   ("lc_bike_dec", 2, 1),
   ("lc_bike_dec_kdf", 2, 0)]

/-- **C114** The functions of C114 are all functions of the header files with typed inputs. -/
theorem c114_all_functions : allTables.map (fun e => (e.name, e.ins, e.outs)) = prototypes := by decide

/-! ### C115 -/

/-- A pointer with its length as an API function gets it: NULL, or memory of this length. -/
def Valid (p : Option Bytes) (n : Nat) : Prop := ∀ b, p = some b → b.length = n

theorem rd_valid {p : Option Bytes} {n : Nat} (h : Valid p n) (hp : p ≠ none) : ∃ b, rd p n = some b := by
  cases p with
  | none => exact absurd rfl hp
  | some b => exact ⟨b.take n, by simp [rd, h b rfl]⟩

/-- **C115** (what holds of it) The load functions of ML-KEM, ML-DSA, SLH-DSA, BIKE and of ML-DSA with
Ed25519 (also the one that loads one part) refuse NULL pointers and do not access memory outside their
arguments.  Missing: ML-KEM with X25519, see `c115_negation`. -/
theorem c115_null_partial {T : Type} (F : Fam T) (en : T → Bool) (o : Option (Obj T)) (p q : Option Bytes)
    (n m xl : Nat) (hp : Valid p n) (hq : Valid q m) :
    load F en o p n ≠ .fault ∧ loadC F en xl o p n q m ≠ .fault ∧ loadP F en xl o p n q m ≠ .fault ∧
    load F en o none n = .ret (-EINVAL) o ∧ load F en none p n = .ret (-EINVAL) none ∧
    loadC F en xl o none n q m = .ret (-EINVAL) o ∧ loadC F en xl o p n none m = .ret (-EINVAL) o ∧
    loadC F en xl none p n q m = .ret (-EINVAL) none ∧
    loadP F en xl o none n none m = .ret (-EINVAL) o ∧ loadP F en xl none p n q m = .ret (-EINVAL) none := by
  have hrp : p ≠ none → ∃ b, rd p n = some b := rd_valid hp
  have hrq : q ≠ none → ∃ b, rd q m = some b := rd_valid hq
  refine ⟨?_, ?_, ?_, ?_, rfl, ?_, ?_, rfl, ?_, rfl⟩
  · cases o with
    | none => simp [load]
    | some o =>
      simp only [load]
      split
      · simp
      · rename_i h
        obtain ⟨b, hb⟩ := hrp (fun h' => h (Or.inl h'))
        rw [hb]
        cases pick F en n <;> simp
  · cases o with
    | none => simp [loadC]
    | some o =>
      simp only [loadC]
      split
      · simp
      · rename_i h
        obtain ⟨b, hb⟩ := hrp (fun h' => h (Or.inl h'))
        obtain ⟨x, hx⟩ := hrq (fun h' => h (Or.inr (Or.inl h')))
        rw [hb, hx]
        cases pick F en n <;> simp
  · cases o with
    | none => simp [loadP]
    | some o =>
      simp only [loadP]
      split
      · simp
      · rename_i h
        split
        · simp
        · cases ht : o.type with
          | some t =>
            simp only
            split
            · simp
            · rename_i h2
              obtain ⟨x, hx⟩ := hrq h2
              rw [hx]; simp
          | none =>
            simp only
            obtain ⟨b, hb⟩ := hrp (fun h' => h ⟨h', ht⟩)
            rw [hb]
            cases pick F en n with
            | none => simp
            | some t =>
              simp only
              split
              · simp
              · rename_i h2
                obtain ⟨x, hx⟩ := hrq h2
                rw [hx]; simp
  · cases o <;> simp [load]
  · cases o <;> simp [loadC]
  · cases o <;> simp [loadC]
  · cases o with
    | none => rfl
    | some o => cases ht : o.type <;> simp [loadP, ht]

/-- **C115** (negation) The load functions for ML-KEM with X25519 read through a NULL pointer to the ML-KEM
part or to the X25519 part whenever the lengths given are those of a parameter set. -/
theorem c115_negation (F : Fam KemT) (hF : F ∈ [kemSk, kemPk, kemCt, kemSs]) (en : KemT → Bool) (t : KemT)
    (ht : en t = true) (o : Obj KemT) (p q : Option Bytes) (h : p = none ∨ q = none) :
    loadH F en X25519LEN (some o) p (F.size t) q X25519LEN = .fault := by
  have hc : F.chain = kemChain := by
    simp only [List.mem_cons, List.not_mem_nil, or_false] at hF
    rcases hF with rfl | rfl | rfl | rfl <;> rfl
  have h0 : F.size t ≠ 0 := by
    simp only [List.mem_cons, List.not_mem_nil, or_false] at hF
    rcases hF with rfl | rfl | rfl | rfl <;> cases t <;> decide
  cases hpk : pick F en (F.size t) with
  | none => exact absurd ⟨ht, rfl⟩ (pick_none hpk t (by rw [hc]; exact kem_mem t))
  | some t' =>
    simp only [loadH, hpk]
    rw [if_neg (by simp [h0, X25519LEN])]
    rcases h with rfl | rfl
    · rfl
    · cases rd p (F.size t) <;> rfl

/-! ### C116 -/

theorem pick_len {T : Type} {F : Fam T} {en : T → Bool} (hm : ∀ t, t ∈ F.chain) {t : T} (ht : en t = true)
    {b : Bytes} (hl : b.length = F.size t) : ∃ t', pick F en b.length = some t' := by
  cases hp : pick F en b.length with
  | none => exact absurd ⟨ht, hl⟩ (pick_none hp t (hm t))
  | some t' => exact ⟨t', rfl⟩

theorem dsaPk_inj {t t' : DsaT} (h : dsaPkSize t = dsaPkSize t') : t = t' := by
  cases t <;> cases t' <;> first | rfl | exact absurd h (by decide)

theorem dsaSig_inj {t t' : DsaT} (h : dsaSigSize t = dsaSigSize t') : t = t' := by
  cases t <;> cases t' <;> first | rfl | exact absurd h (by decide)

theorem slhSig_inj {t t' : SlhT} (h : slhSigSize t = slhSigSize t') : t = t' := by
  cases t <;> cases t' <;> first | rfl | exact absurd h (by decide)

theorem dsa_load_pk (en : DsaT → Bool) (o : Obj DsaT) (b : Bytes) (t : DsaT) (ht : en t = true)
    (hl : b.length = dsaPkSize t) :
    load dsaPk en (some o) (some b) b.length = .ret 0 (some ⟨some t, b ++ o.mem.drop b.length⟩) := by
  obtain ⟨t', hp⟩ := pick_len (F := dsaPk) dsa_mem ht hl
  have : t = t' := dsaPk_inj (hl.symm.trans (pick_some hp).2)
  subst this
  exact load_ok dsaPk en o b (by rw [hl]; cases t <;> decide) hp

theorem dsa_load_sig (en : DsaT → Bool) (o : Obj DsaT) (b : Bytes) (t : DsaT) (ht : en t = true)
    (hl : b.length = dsaSigSize t) :
    load dsaSig en (some o) (some b) b.length = .ret 0 (some ⟨some t, b ++ o.mem.drop b.length⟩) := by
  obtain ⟨t', hp⟩ := pick_len (F := dsaSig) dsa_mem ht hl
  have : t = t' := dsaSig_inj (hl.symm.trans (pick_some hp).2)
  subst this
  exact load_ok dsaSig en o b (by rw [hl]; cases t <;> decide) hp

theorem slh_load_sig (en : SlhT → Bool) (o : Obj SlhT) (b : Bytes) (t : SlhT) (ht : en t = true)
    (hl : b.length = slhSigSize t) :
    load slhSig en (some o) (some b) b.length = .ret 0 (some ⟨some t, b ++ o.mem.drop b.length⟩) := by
  obtain ⟨t', hp⟩ := pick_len (F := slhSig) slh_mem ht hl
  have : t = t' := slhSig_inj (hl.symm.trans (pick_some hp).2)
  subst this
  exact load_ok slhSig en o b (by rw [hl]; cases t <;> decide) hp

/-- The dispatch of the verification functions used for certificates. -/
theorem ver_run {T : Type} [DecidableEq T] (e : Entry) (h1 : e.checks = [(0, 1)]) (h2 : e.sel = 1)
    (en : T → Bool) (sg pk : Obj T) (ts tp : T) (hs : sg.type = some ts) (hp : pk.type = some tp) :
    e.run en [some sg, some pk] [] =
      if ts = tp then (if en tp then .call tp [sg, pk] [] else .err (-EOPNOTSUPP)) else .err (-EINVAL) := by
  simp [Entry.run, h1, h2, notNull, agree, setTypes, hs, hp]

theorem ent_dsa : (entry dsaTable "lc_dilithium_verify_ctx").checks = [(0, 1)] ∧
    (entry dsaTable "lc_dilithium_verify_ctx").sel = 1 := by decide
theorem ent_comp : (entry dsaTable "lc_dilithium_ed25519_verify_ctx").checks = [(0, 1)] ∧
    (entry dsaTable "lc_dilithium_ed25519_verify_ctx").sel = 1 := by decide
theorem ent_slh : (entry slhTable "lc_sphincs_verify_ctx").checks = [(0, 1)] ∧
    (entry slhTable "lc_sphincs_verify_ctx").sel = 1 := by decide

theorem load_ret {T : Type} {F : Fam T} {en : T → Bool} {o : Obj T} {p : Option Bytes}
    {r : Int} {x : Option (Obj T)} (h : load F en (some o) p (p.getD []).length = .ret r x) (hr : ¬ r < 0) :
    ∃ b t, p = some b ∧ en t = true ∧ b.length = F.size t ∧ r = 0 ∧
      x = some ⟨some t, b ++ o.mem.drop b.length⟩ := by
  cases p with
  | none =>
    simp only [load, true_or, if_true] at h
    injection h with h1 h2
    exact absurd (by rw [← h1]; decide) hr
  | some b =>
    simp only [Option.getD_some] at h
    cases hp : pick F en b.length with
    | none =>
      rw [load_bad F en o b hp] at h
      injection h with h1 h2
      exact absurd (by rw [← h1]; decide) hr
    | some t =>
      by_cases h0 : b.length = 0
      · simp only [load, h0, or_true, if_true] at h
        injection h with h1 h2
        exact absurd (by rw [← h1]; decide) hr
      · rw [load_ok F en o b h0 hp] at h
        injection h with h1 h2
        exact ⟨b, t, rfl, (pick_some hp).1, (pick_some hp).2, h1.symm, h2.symm⟩

theorem ptr_type {T : Type} (F : Fam T) (en : T → Bool) (t : T) (m b : Bytes) (ht : en t = true)
    (hl : b.length = F.size t) : (ptr F en (some ⟨some t, b ++ m⟩)).2 = b := by
  simp [ptr, ht, ← hl]

theorem verifyDsa_ok {im : Impl} {en : DsaT → Bool} {zp zs : Bytes} {k : PubKey} {g : Sig}
    (h : verifyDsa im en zp zs k g = .ret 0 ()) :
    k.isPrivate = false ∧ ∃ t s m, en t = true ∧ g.s = some s ∧ g.msg = some m ∧
      k.key.length = dsaPkSize t ∧ s.length = dsaSigSize t ∧ im.dsa t k.key s m = 0 := by
  unfold verifyDsa at h
  split at h
  · exact absurd h (by simp [EKEYREJECTED])
  · rename_i hpriv
    refine ⟨by simpa using hpriv, ?_⟩
    split at h
    · cases h
    · rename_i r pk hpk
      split at h
      · rename_i hr; injection h with h; omega
      · rename_i hr
        obtain ⟨b, tp, hb, htp, hlp, -, rfl⟩ := load_ret (p := some k.key) hpk hr
        injection hb with hb; subst hb
        split at h
        · cases h
        · rename_i r2 sg hsg
          split at h
          · rename_i hr2; injection h with h; omega
          · rename_i hr2
            obtain ⟨s, ts, hs, hts, hls, -, rfl⟩ := load_ret hsg hr2
            split at h
            · exact absurd h (by simp [EOPNOTSUPP])
            · rename_i m hm
              rw [ver_run _ ent_dsa.1 ent_dsa.2 en _ _ ts tp rfl rfl] at h
              by_cases hte : ts = tp
              · subst hte
                simp only [if_true, hts] at h
                rw [ptr_type dsaPk en ts _ _ hts hlp, ptr_type dsaSig en ts _ _ hts hls] at h
                injection h with h
                exact ⟨ts, s, m, hts, hs, hm, hlp, hls, h⟩
              · simp only [if_neg hte] at h
                exact absurd h (by simp [EINVAL])

theorem set_spec (en : SlhT → Bool) (fast : Bool) (t : SlhT) (m : Bytes) :
    (∃ t', (if fast then setFast en (some ⟨some t, m⟩) else setSmall en (some ⟨some t, m⟩)) =
        (0, some ⟨some t', m⟩) ∧ small t' = small t ∧ isFast t' = fast ∧ en t' = true) ∨
      (if fast then setFast en (some ⟨some t, m⟩) else setSmall en (some ⟨some t, m⟩)) =
        (-EINVAL, some ⟨some t, m⟩) := by
  cases fast <;> cases t <;> simp only [setFast, setSmall, if_true, if_false, Bool.false_eq_true] <;>
    first
    | (cases h : en .f256 <;> simp [h, small, isFast]; done)
    | (cases h : en .f192 <;> simp [h, small, isFast]; done)
    | (cases h : en .f128 <;> simp [h, small, isFast]; done)
    | (cases h : en .s256 <;> simp [h, small, isFast]; done)
    | (cases h : en .s192 <;> simp [h, small, isFast]; done)
    | (cases h : en .s128 <;> simp [h, small, isFast]; done)

theorem slhPk_small {t t' : SlhT} (h : small t = small t') : slhPkSize t = slhPkSize t' := by
  cases t <;> cases t' <;> first | rfl | exact absurd h (by decide)

theorem verifySlh_ok {im : Impl} {en : SlhT → Bool} {zp zs : Bytes} {fast : Bool} {k : PubKey} {g : Sig}
    (h : verifySlh im en zp zs fast k g = .ret 0 ()) :
    k.isPrivate = false ∧ ∃ t s m, en t = true ∧ isFast t = fast ∧ g.s = some s ∧ g.msg = some m ∧
      k.key.length = slhPkSize t ∧ s.length = slhSigSize t ∧ im.slh t k.key s m = 0 := by
  unfold verifySlh at h
  split at h
  · exact absurd h (by simp [EKEYREJECTED])
  · rename_i hpriv
    refine ⟨by simpa using hpriv, ?_⟩
    split at h
    · cases h
    · rename_i r pk hpk
      split at h
      · rename_i hr; injection h with h; omega
      · rename_i hr
        obtain ⟨b, tp, hb, htp, hlp, -, rfl⟩ := load_ret (p := some k.key) hpk hr
        injection hb with hb; subst hb
        dsimp only at h
        rcases set_spec en fast tp (k.key ++ List.drop k.key.length (fresh (T := SlhT) zp).mem) with
          ⟨t', e1, e2, e3, e4⟩ | e1
        · rw [e1] at h
          rw [if_neg (by simp)] at h
          have hlp' : k.key.length = slhPk.size t' := hlp.trans (slhPk_small e2.symm)
          split at h
          · cases h
          · rename_i r2 sg hsg
            split at h
            · rename_i hr2; injection h with h; omega
            · rename_i hr2
              obtain ⟨s, ts, hs, hts, hls, -, rfl⟩ := load_ret hsg hr2
              split at h
              · exact absurd h (by simp [EOPNOTSUPP])
              · rename_i m hm
                rw [ver_run _ ent_slh.1 ent_slh.2 en _ _ ts t' rfl rfl] at h
                by_cases hte : ts = t'
                · subst hte
                  simp only [if_true, hts] at h
                  rw [ptr_type slhPk en ts _ _ hts hlp', ptr_type slhSig en ts _ _ hts hls] at h
                  injection h with h
                  exact ⟨ts, s, m, hts, e3, hs, hm, hlp', hls, h⟩
                · simp only [if_neg hte] at h
                  exact absurd h (by simp [EINVAL])
        · rw [e1] at h
          simp [EINVAL] at h

theorem loadP_first {T : Type} (F : Fam T) (en : T → Bool) (xl : Nat) (o : Obj T) (d : Bytes)
    (ho : o.type = none) : loadP F en xl (some o) (some d) d.length none 0 =
      match pick F en d.length with
      | none => .ret (-EINVAL) (some o)
      | some t => .ret 0 (some ⟨some t, d ++ o.mem.drop d.length⟩) := by
  cases hp : pick F en d.length <;> simp [loadP, ho, hp, rd_full, wr_zero]

theorem loadP_second {T : Type} (F : Fam T) (en : T → Bool) (xl : Nat) (o : Obj T) (t : T) (e : Bytes)
    (n : Nat) (ho : o.type = some t) (hn : n = xl → n = e.length) :
    loadP F en xl (some o) none 0 (some e) n =
      if n = xl then .ret 0 (some ⟨some t, wr o.mem (F.size t) e⟩) else .ret (-EINVAL) (some o) := by
  by_cases h : n = xl
  · have := hn h
    subst h
    subst this
    simp [loadP, ho, rd_full]
  · simp [loadP, ho, h]

/-- What reading a composite value into an unused object does. -/
theorem readComp_spec {T : Type} (F : Fam T) (en : T → Bool) (xl : Nat) (hx : xl < 2 ^ 64 - 1) (ck : Bool)
    (seq2 : Bytes → Except Int (Bytes × Bytes)) (o : Obj T) (ho : o.type = none) (x a b : Bytes)
    (hd : seq2 x = .ok (a, b)) :
    (∃ t, en t = true ∧ (a.drop 1).length = F.size t ∧ (b.drop 1).length = xl ∧ a ≠ [] ∧ b ≠ [] ∧
      readComp F en xl ck seq2 (some o) x =
        .ret 0 (some ⟨some t, a.drop 1 ++ (b.drop 1 ++ (o.mem.drop (a.drop 1).length).drop (b.drop 1).length)⟩)) ∨
    (∃ r x', r < 0 ∧ readComp F en xl ck seq2 (some o) x = .ret r x' ∧
      (a = [] ∨ b = [] ∨ pick F en (a.drop 1).length = none ∨ (b.drop 1).length ≠ xl)) := by
  cases a with
  | nil => exact Or.inr ⟨-EBADMSG, some o, by decide, by simp [readComp, hd, cbFirst, EBADMSG], Or.inl rfl⟩
  | cons u d =>
    have c1 : cbFirst F en xl (some o) (u :: d) = loadP F en xl (some o) (some d) d.length none 0 := by
      simp [cbFirst]
    simp only [List.drop_succ_cons, List.drop_zero]
    cases hp : pick F en d.length with
    | none =>
      exact Or.inr ⟨-EINVAL, some o, by decide, by
        simp [readComp, hd, c1, loadP_first F en xl o d ho, hp, EINVAL], by simp⟩
    | some t =>
      obtain ⟨p1, p2⟩ := pick_some hp
      have c2 : readComp F en xl ck seq2 (some o) x =
          cbSecond F en xl ck (some ⟨some t, d ++ o.mem.drop d.length⟩) b := by
        simp [readComp, hd, c1, loadP_first F en xl o d ho, hp]
      rw [c2]
      cases b with
      | nil =>
        right
        cases ck with
        | true => exact ⟨-EBADMSG, some ⟨some t, d ++ o.mem.drop d.length⟩, by decide, by simp [cbSecond], by simp⟩
        | false =>
          refine ⟨-EINVAL, some ⟨some t, d ++ o.mem.drop d.length⟩, by decide, ?_, by simp⟩
          have : cbSecond F en xl false (some ⟨some t, d ++ o.mem.drop d.length⟩) [] =
              loadP F en xl (some ⟨some t, d ++ o.mem.drop d.length⟩) none 0 (some []) (2 ^ 64 - 1) := by
            simp [cbSecond]
          rw [this, loadP_second F en xl _ t [] (2 ^ 64 - 1) rfl (fun h => by omega), if_neg (by omega)]
      | cons v e =>
        have c3 : cbSecond F en xl ck (some ⟨some t, d ++ o.mem.drop d.length⟩) (v :: e) =
            loadP F en xl (some ⟨some t, d ++ o.mem.drop d.length⟩) none 0 (some e) e.length := by
          simp [cbSecond]
        rw [c3, loadP_second F en xl _ t e e.length rfl (fun _ => rfl)]
        simp only [List.drop_succ_cons, List.drop_zero]
        by_cases hl : e.length = xl
        · left
          refine ⟨t, p1, p2, hl, by simp, by simp, ?_⟩
          rw [if_pos hl, ← p2, ← wr_zero, wr_after]
        · right
          exact ⟨-EINVAL, some ⟨some t, d ++ o.mem.drop d.length⟩, by decide, by rw [if_neg hl], by simp [hl]⟩

theorem ptr2_type {T : Type} (F : Fam T) (en : T → Bool) (xl : Nat) (t : T) (d e m : Bytes)
    (ht : en t = true) (hl : d.length = F.size t) (he : e.length = xl) :
    ptr2 F en xl (some ⟨some t, d ++ (e ++ m)⟩) = (0, d, e) := by
  subst he
  simp [ptr2, ht, ← hl]

/-- The decoder's errors are negative. -/
def Impl.Neg (im : Impl) : Prop := ∀ x c, im.seq2 x = .error c → c < 0

theorem readComp_ret {T : Type} {F : Fam T} {en : T → Bool} {xl : Nat} (hx : xl < 2 ^ 64 - 1) {ck : Bool}
    {seq2 : Bytes → Except Int (Bytes × Bytes)} (hneg : ∀ x c, seq2 x = .error c → c < 0)
    {o : Obj T} (ho : o.type = none) {x : Bytes} {r : Int} {y : Option (Obj T)}
    (h : readComp F en xl ck seq2 (some o) x = .ret r y) (hr : ¬ r < 0) :
    ∃ u d v e t m, seq2 x = .ok (u :: d, v :: e) ∧ en t = true ∧ d.length = F.size t ∧ e.length = xl ∧
      y = some ⟨some t, d ++ (e ++ m)⟩ := by
  cases hd : seq2 x with
  | error c =>
    simp only [readComp, hd] at h
    injection h with h1 h2
    have := hneg x c hd
    omega
  | ok ab =>
    obtain ⟨a, b⟩ := ab
    rcases readComp_spec F en xl hx ck seq2 o ho x a b hd with ⟨t, h1, h2, h3, h4, h5, h6⟩ | ⟨r', x', h1, h2, -⟩
    · cases a with
      | nil => exact absurd rfl h4
      | cons u d =>
        cases b with
        | nil => exact absurd rfl h5
        | cons v e =>
          rw [h6] at h
          injection h with h7 h8
          exact ⟨u, d, v, e, t, _, rfl, h1, h2, h3, h8.symm⟩
    · rw [h2] at h
      injection h with h3 h4
      omega

theorem verifyComp_ok {im : Impl} (hneg : im.Neg) {en : DsaT → Bool} {zp zs : Bytes} {k : PubKey} {g : Sig}
    (h : verifyComp im en zp zs k g = .ret 0 ()) :
    k.isPrivate = false ∧ ∃ t u d v e u' d' v' e' m, en t = true ∧ g.msg = some m ∧
      im.seq2 k.key = .ok (u :: d, v :: e) ∧ im.seq2 (g.s.getD []) = .ok (u' :: d', v' :: e') ∧
      d.length = dsaPkSize t ∧ e.length = 32 ∧ d'.length = dsaSigSize t ∧ e'.length = 64 ∧
      im.comp t (d, e) (d', e') m = 0 := by
  unfold verifyComp at h
  split at h
  · exact absurd h (by simp [EKEYREJECTED])
  · rename_i hpriv
    refine ⟨by simpa using hpriv, ?_⟩
    split at h
    · exact absurd h (by simp [EINVAL])
    · split at h
      · cases h
      · rename_i r pk hpk
        split at h
        · rename_i hr; injection h with h; omega
        · rename_i hr
          obtain ⟨u, d, v, e, tp, mp, q1, q2, q3, q4, rfl⟩ :=
            readComp_ret (by decide) hneg rfl hpk hr
          split at h
          · cases h
          · rename_i r2 sg hsg
            split at h
            · rename_i hr2; injection h with h; omega
            · rename_i hr2
              obtain ⟨u', d', v', e', ts, ms, s1, s2, s3, s4, rfl⟩ :=
                readComp_ret (by decide) hneg rfl hsg hr2
              split at h
              · exact absurd h (by simp [EOPNOTSUPP])
              · rename_i m hm
                rw [ver_run _ ent_comp.1 ent_comp.2 en _ _ ts tp rfl rfl] at h
                by_cases hte : ts = tp
                · subst hte
                  simp only [if_true, s2] at h
                  rw [ptr2_type dsaPk en _ ts d e mp s2 q3 q4,
                    ptr2_type dsaSig en _ ts d' e' ms s2 s3 s4] at h
                  injection h with h
                  exact ⟨ts, u, d, v, e, u', d', v', e', m, s2, hm, q1, s1, q3, q4, s3, s4, h⟩
                · simp only [if_neg hte] at h
                  exact absurd h (by simp [EINVAL])

/-- The data a signature is for: the digest if there is one, else the raw data. -/
def SignedData (g : Sig) (m : Bytes) : Prop :=
  (g.digest ≠ [] → m = g.digest) ∧ (g.digest = [] → g.raw = some m)

theorem signed_of_msg {g : Sig} {m : Bytes} (h : g.msg = some m) : SignedData g m := by
  unfold Sig.msg at h
  split at h
  · rename_i hl
    injection h with h
    exact ⟨fun _ => h.symm, fun h0 => absurd (by simp [h0]) hl⟩
  · rename_i hl
    exact ⟨fun h0 => absurd (by simpa using h0) hl, fun _ => h⟩

/-- **C116** (what holds of it) If `public_key_verify_signature` accepts, then an implementation of the
scheme named by the key has accepted the key, the signature and the message, under one parameter set for the
key and the signature; for SLH-DSA it is a fast one exactly if the algorithm of the key is.  Missing: that it
is the parameter set named by the algorithm, see `c116_negation`. -/
theorem c116_accepted_partial (im : Impl) (hneg : im.Neg) (enD : DsaT → Bool) (enS : SlhT → Bool)
    (zp zs : Bytes) (k : PubKey) (g : Sig) (h : verify im enD enS zp zs k g = .ret 0 ()) :
    (g.algo = none ∨ g.algo = k.algo) ∧ k.isPrivate = false ∧
    ((∃ t0 t s m, k.algo = some (.dsa t0) ∧ enD t = true ∧ g.s = some s ∧ SignedData g m ∧
        k.key.length = stdSize .dsaPk t ∧ s.length = stdSize .dsaSig t ∧ im.dsa t k.key s m = 0) ∨
     (∃ t0 t s m u d v e u' d' v' e', k.algo = some (.comp t0) ∧ enD t = true ∧ g.s = some s ∧
        SignedData g m ∧ im.seq2 k.key = .ok (u :: d, v :: e) ∧ im.seq2 s = .ok (u' :: d', v' :: e') ∧
        d.length = stdSize .dsaPk t ∧ e.length = 32 ∧ d'.length = stdSize .dsaSig t ∧ e'.length = 64 ∧
        im.comp t (d, e) (d', e') m = 0) ∨
     (∃ t0 t s m, k.algo = some (.slh t0) ∧ enS t = true ∧ isFast t = isFast t0 ∧ g.s = some s ∧
        SignedData g m ∧ k.key.length = stdSize .slhPk t ∧ s.length = stdSize .slhSig t ∧
        im.slh t k.key s m = 0)) := by
  unfold verify at h
  split at h
  · exact absurd h (by simp [EFAULT])
  · rename_i hs
    obtain ⟨s, hs⟩ := Option.ne_none_iff_exists'.mp hs
    split at h
    · exact absurd h (by simp [EKEYREJECTED])
    · rename_i halg
      have halg' : g.algo = none ∨ g.algo = k.algo := by
        by_cases h1 : g.algo = none
        · exact Or.inl h1
        · by_cases h2 : k.algo = g.algo
          · exact Or.inr h2.symm
          · exact absurd ⟨h1, h2⟩ halg
      refine ⟨halg', ?_⟩
      dsimp only at h
      split at h
      · rename_i hlt; injection h with h; omega
      · split at h
        · rename_i t0 hk
          obtain ⟨hp, t, s, m, a1, a2, a3, a4, a5, a6⟩ := verifyDsa_ok h
          exact ⟨hp, Or.inl ⟨t0, t, s, m, hk, a1, a2, signed_of_msg a3, a4.trans (size_eq .dsaPk t),
            a5.trans (size_eq .dsaSig t), a6⟩⟩
        · rename_i t0 hk
          obtain ⟨hp, t, u, d, v, e, u', d', v', e', m, a1, a2, a3, a4, a5, a6, a7, a8, a9⟩ :=
            verifyComp_ok hneg h
          rw [hs] at a4
          exact ⟨hp, Or.inr (Or.inl ⟨t0, t, s, m, u, d, v, e, u', d', v', e', hk, a1, hs, signed_of_msg a2, a3, a4,
            a5.trans (size_eq .dsaPk t), a6, a7.trans (size_eq .dsaSig t), a8, a9⟩)⟩
        · rename_i t0 hk
          obtain ⟨hp, t, s, m, a1, a2, a3, a4, a5, a6, a7⟩ := verifySlh_ok h
          exact ⟨hp, Or.inr (Or.inr ⟨t0, t, s, m, hk, a1,
            a2.trans (by cases t0 <;> rfl), a3, signed_of_msg a4, a5.trans (size_eq .slhPk t),
            a6.trans (size_eq .slhSig t), a7⟩)⟩
        · exact absurd h (by simp [ENOPKG])

/-- **C116** (negation) The ML-DSA parameter set named by the algorithm identifier `t0` has no influence: a
key and a signature of parameter set `t` are verified under `t` whatever `t0` is.  So a certificate that
names ML-DSA-87 and carries an ML-DSA-44 key verifies ML-DSA-44 signatures. -/
theorem c116_negation (im : Impl) (enD : DsaT → Bool) (enS : SlhT → Bool) (zp zs key s m : Bytes)
    (t0 t : DsaT) (ht : enD t = true) (hk : key.length = stdSize .dsaPk t)
    (hs : s.length = stdSize .dsaSig t) :
    verify im enD enS zp zs ⟨some (.dsa t0), false, key⟩ ⟨some (.dsa t0), none, some s, [], some m⟩ =
      .ret (im.dsa t key s m) () := by
  have k1 : key.length = dsaPkSize t := hk.trans (size_eq .dsaPk t).symm
  have s1 : s.length = dsaSigSize t := hs.trans (size_eq .dsaSig t).symm
  have e : verify im enD enS zp zs ⟨some (.dsa t0), false, key⟩ ⟨some (.dsa t0), none, some s, [], some m⟩ =
      verifyDsa im enD zp zs ⟨some (.dsa t0), false, key⟩ ⟨some (.dsa t0), none, some s, [], some m⟩ := by
    simp [verify, hashChk]
  rw [e]
  simp only [verifyDsa, Option.getD_some]
  rw [dsa_load_pk enD _ key t ht k1, dsa_load_sig enD _ s t ht s1]
  simp only [Sig.msg]
  simp only [ptr_type dsaPk enD t _ _ ht k1, ptr_type dsaSig enD t _ _ ht s1]
  rw [ver_run _ ent_dsa.1 ent_dsa.2 enD _ _ t t rfl rfl]
  simp [ht]

/-- **C116** (negation) The same for SLH-DSA: only the choice between small and fast parameter sets is taken
from the algorithm identifier, the security level is that of the key. -/
theorem c116_negation_slh (im : Impl) (enD : DsaT → Bool) (enS : SlhT → Bool) (zp zs key s m : Bytes)
    (t0 t : SlhT) (hf : isFast t = isFast t0) (ht : enS t = true) (hk : key.length = stdSize .slhPk t)
    (hs : s.length = stdSize .slhSig t) :
    verify im enD enS zp zs ⟨some (.slh t0), false, key⟩ ⟨some (.slh t0), none, some s, [], some m⟩ =
      .ret (im.slh t key s m) () := by
  have k1 : key.length = slhPkSize t := hk.trans (size_eq .slhPk t).symm
  have s1 : s.length = slhSigSize t := hs.trans (size_eq .slhSig t).symm
  have e : verify im enD enS zp zs ⟨some (.slh t0), false, key⟩ ⟨some (.slh t0), none, some s, [], some m⟩ =
      verifySlh im enS zp zs (isFast t) ⟨some (.slh t0), false, key⟩
        ⟨some (.slh t0), none, some s, [], some m⟩ := by
    rw [hf]
    cases t0 <;> simp [verify, hashChk, slhFast, isFast]
  rw [e]
  obtain ⟨o3, l1, o4, l2, l3, r, l4⟩ := c113_slh_restored enS (fresh zp) t key ht slhPk (Or.inr rfl) k1
  obtain ⟨ty, me⟩ := o4
  simp only at l3 l4
  subst l3 l4
  simp only [verifySlh, Option.getD_some]
  rw [l1]
  simp only [l2]
  rw [slh_load_sig enS _ s t ht s1]
  simp only [Sig.msg]
  simp only [ptr_type slhPk enS t _ _ ht k1, ptr_type slhSig enS t _ _ ht s1]
  rw [ver_run _ ent_slh.1 ent_slh.2 enS _ _ t t rfl rfl]
  simp [ht]

/-! ### C117 -/

/-- The composite objects: ML-DSA part, length of the Ed25519 part, whether the callback for the second part
checks for an empty value. -/
def compKinds : List (Fam DsaT × Nat × Bool) :=
  [(dsaSk, 64, false), (dsaPk, 32, true), (dsaSig, 64, true)]

/-- **C117** A composite ML-DSA and Ed25519 key or signature that is decoded from its two BIT STRINGs is the
one loaded from the two parts at once: decoding into an unused object succeeds exactly if both parts have the
right length, then both parts are returned by `*_ptr` and the object is the one `*_load` yields.  Nothing is
decoded into an object that is in use: it is left unchanged. -/
theorem c117_composite (c : Fam DsaT × Nat × Bool) (hc : c ∈ compKinds) (en : DsaT → Bool)
    (seq2 : Bytes → Except Int (Bytes × Bytes)) (o : Obj DsaT) (x d e : Bytes) (u v : UInt8)
    (hd : seq2 x = .ok (u :: d, v :: e)) :
    (o.type = none →
      ((∃ t, en t = true ∧ d.length = c.1.size t) ∧ e.length = c.2.1 →
        ∃ o', readComp c.1 en c.2.1 c.2.2 seq2 (some o) x = .ret 0 (some o') ∧
          loadC c.1 en c.2.1 (some o) (some d) d.length (some e) e.length = .ret 0 (some o') ∧
          ptr2 c.1 en c.2.1 (some o') = (0, d, e)) ∧
      (¬ ((∃ t, en t = true ∧ d.length = c.1.size t) ∧ e.length = c.2.1) →
        ∃ r o', r < 0 ∧ readComp c.1 en c.2.1 c.2.2 seq2 (some o) x = .ret r o')) ∧
    (o.type ≠ none → readComp c.1 en c.2.1 c.2.2 seq2 (some o) x = .ret (-EINVAL) (some o)) := by
  obtain ⟨F, xl, ck⟩ := c
  have hx : xl < 2 ^ 64 - 1 := by
    simp only [compKinds, List.mem_cons, Prod.mk.injEq, List.not_mem_nil, or_false] at hc
    omega
  have hm : ∀ t, t ∈ F.chain := by
    simp only [compKinds, List.mem_cons, Prod.mk.injEq, List.not_mem_nil, or_false] at hc
    rcases hc with h | h | h <;> (obtain ⟨rfl, -, -⟩ := h; exact dsa_mem)
  dsimp only
  refine ⟨fun ho => ⟨?_, ?_⟩, ?_⟩
  · rintro ⟨⟨t0, ht0, hl0⟩, he⟩
    obtain ⟨t1, hp⟩ := pick_len hm ht0 hl0
    rcases readComp_spec F en xl hx ck seq2 o ho x _ _ hd with ⟨t, h1, h2, h3, h4, h5, h6⟩ | ⟨r', x', h1, h2, h3⟩
    · simp only [List.drop_succ_cons, List.drop_zero] at h2 h3 h6
      have htt : t = t1 := by
        obtain ⟨p1, p2⟩ := pick_some hp
        have h7 := h2.symm.trans p2
        simp only [compKinds, List.mem_cons, Prod.mk.injEq, List.not_mem_nil, or_false] at hc
        rcases hc with h | h | h <;> obtain ⟨rfl, -, -⟩ := h <;>
          (cases t <;> cases t1 <;> first | rfl | exact absurd h7 (by decide))
      subst htt
      refine ⟨_, h6, ?_, ptr2_type F en xl t d e _ h1 h2 h3⟩
      simp only [loadC, hp, rd_full, he]
      rw [if_neg (by simp), ← he, rd_full]
      simp only
      rw [← h2, wr_after]
    · exfalso
      simp only [List.drop_succ_cons, List.drop_zero, hp, he] at h3
      simp at h3
  · intro hn
    rcases readComp_spec F en xl hx ck seq2 o ho x _ _ hd with ⟨t, h1, h2, h3, -, -, -⟩ | ⟨r', x', h1, h2, -⟩
    · exact absurd ⟨⟨t, h1, h2⟩, h3⟩ hn
    · exact ⟨r', x', h1, h2⟩
  · intro ho
    obtain ⟨t, ht⟩ := Option.ne_none_iff_exists'.mp ho
    simp [readComp, hd, cbFirst, loadP, ht, EINVAL]

/-- **C117** (and a finding) The byte of each BIT STRING that gives the number of unused bits is ignored:
values that differ in these bytes only are the same key or signature, so the encoding of a composite
signature is not unique. -/
theorem c117_unused_bits {T : Type} (F : Fam T) (en : T → Bool) (xl : Nat) (ck : Bool)
    (seq2 : Bytes → Except Int (Bytes × Bytes)) (o : Option (Obj T)) (x x' d e : Bytes) (u v u' v' : UInt8)
    (hd : seq2 x = .ok (u :: d, v :: e)) (hd' : seq2 x' = .ok (u' :: d, v' :: e)) :
    readComp F en xl ck seq2 o x = readComp F en xl ck seq2 o x' := by
  simp [readComp, hd, hd', cbFirst, cbSecond]

/-! ### The hypotheses can be met -/

example : Holds (⟨some .k768, List.replicate 1568 7⟩ : Obj KemT) .k768 (List.replicate 1184 7) :=
  ⟨rfl, ⟨List.replicate 384 7, by rw [List.replicate_append_replicate]⟩⟩

example : (List.replicate 1184 (7 : UInt8)).length = stdSize .kemPk KemT.k768 := List.length_replicate

example : Valid none 1184 ∧ Valid (some (List.replicate 32 1)) 32 := by
  constructor
  · intro b hb; cases hb
  · intro b hb; injection hb with hb; subst hb; simp

example : (entry kemTable "lc_kex_ake_responder_ss") ∈ allTables := by decide

/-- An implementation with a decoder that fails negatively, and an accepted certificate signature under the
wrong name. -/
example : ∃ im : Impl, im.Neg ∧
    verify im (fun _ => true) (fun _ => true) [] [] ⟨some (.dsa .d87), false, List.replicate 1312 1⟩
      ⟨some (.dsa .d87), none, some (List.replicate 2420 2), [], some [3]⟩ = .ret 0 () := by
  refine ⟨⟨fun t _ _ _ => if t = .d44 then 0 else -74, fun _ _ _ _ => 0, fun _ _ _ _ => 0,
    fun _ => .error (-74), fun _ _ => 0⟩, ?_, ?_⟩
  · intro x c h
    injection h with h
    omega
  · exact c116_negation _ (fun _ => true) (fun _ => true) [] [] (List.replicate 1312 1)
      (List.replicate 2420 2) [3] .d87 .d44 rfl List.length_replicate List.length_replicate

end LC.Api
