import Verif.Acc.MapModel

/-!
# Properties of names, object identifiers, flags and of the accessors of certificates
-/

namespace LC.Acc

/-! ### C120: flags by name -/

/-- The key usages of RFC 5280, section 4.2.1.3, with their bit numbers. -/
def rfcKeyUsage : List (String × Nat) :=
  [("digitalSignature", 0), ("contentCommitment", 1), ("keyEncipherment", 2), ("dataEncipherment", 3), ("keyAgreement", 4),
   ("keyCertSign", 5), ("cRLSign", 6), ("encipherOnly", 7), ("decipherOnly", 8)]

/-- The number of a BIT STRING bit in the two octets of the encoding, the first octet being the low one. -/
def bitFlag (i : Nat) : Nat := if i < 8 then 2 ^ (7 - i) else 2 ^ (8 + (15 - i))

/-- What a name of a key usage means: `LC_KEY_USAGE_CRITICAL` or the bit of RFC 5280. -/
def keyUsageOf (name : List Char) : Option Nat :=
  if name = "critical".toList then some 0x4000
  else (rfcKeyUsage.find? (fun p => p.1.toList = name)).map (fun p => bitFlag p.2)

/-- The names of the extended key usages of RFC 5280, section 4.2.1.12, without the prefix `id-kp-`, in the order of the
enumeration `LC_KEY_EKU_*`, which begins with the bit 4. -/
def rfcEku : List (String × Nat) :=
  [("serverAuth", 4), ("clientAuth", 5), ("codeSigning", 6), ("emailProtection", 7), ("timeStamping", 8),
   ("OCSPSigning", 9)]

/-- What a name of an extended key usage means. -/
def ekuOf (name : List Char) : Option Nat :=
  if name = "critical".toList then some 2
  else if name = "any".toList then some 8
  else (rfcEku.find? (fun p => p.1.toList = name)).map (fun p => 2 ^ p.2)

theorem sameName_iff (name : List Char) (r : String) (n : Nat) (h : r.toList.length = n) :
    sameName name r n = decide (r.toList = name) := by
  unfold sameName
  rw [Bool.eq_iff_iff]
  simp only [Bool.and_eq_true, beq_iff_eq, decide_eq_true_eq]
  constructor
  · rintro ⟨h1, h2⟩
    rw [List.take_of_length_le (Nat.le_refl _), List.take_of_length_le (by omega)] at h2
    exact h2.symm
  · rintro rfl
    exact ⟨h, rfl⟩

/-- Every row states the length of its name. -/
def Exact (tbl : List Flag) : Prop := ∀ r ∈ tbl, r.name.toList.length = r.namelen

theorem find_exact {tbl : List Flag} (h : Exact tbl) (name : List Char) :
    tbl.find? (fun r => sameName name r.name r.namelen) = tbl.find? (fun r => decide (r.name.toList = name)) := by
  induction tbl with
  | nil => rfl
  | cons r rs ih =>
    simp only [List.find?_cons]
    rw [sameName_iff name r.name r.namelen (h r (by simp)), ih (fun x hx => h x (List.mem_cons_of_mem _ hx))]

theorem keyusage_exact : Exact keyusageToName := by unfold Exact; decide +kernel
theorem eku_exact : Exact ekuToName := by unfold Exact; decide +kernel
theorem keyusageNames_exact : Exact keyusageNames := by unfold Exact; decide +kernel
theorem ekuNames_exact : Exact ekuNames := by unfold Exact; decide +kernel

theorem keyusage_find (name : List Char) :
    (keyusageToName.find? (fun r => decide (r.name.toList = name))).map (·.val) = keyUsageOf name := by
  by_cases hm : ∃ r ∈ keyusageToName, r.name.toList = name
  · obtain ⟨r, hr, rfl⟩ := hm
    have : ∀ r ∈ keyusageToName, (keyusageToName.find? (fun q => decide (q.name.toList = r.name.toList))).map (·.val) =
      keyUsageOf r.name.toList := by decide +kernel
    exact this r hr
  · have h1 : keyusageToName.find? (fun r => decide (r.name.toList = name)) = none := by
      rw [List.find?_eq_none]
      intro r hr he
      exact hm ⟨r, hr, of_decide_eq_true he⟩
    have h2 : rfcKeyUsage.find? (fun p => decide (p.1.toList = name)) = none := by
      rw [List.find?_eq_none]
      intro p hp he
      have : ∀ p ∈ rfcKeyUsage, ∃ r ∈ keyusageToName, r.name = p.1 := by decide +kernel
      obtain ⟨r, hr, e⟩ := this p hp
      exact hm ⟨r, hr, by rw [e]; exact of_decide_eq_true he⟩
    have h3 : name ≠ "critical".toList := by
      intro e
      have : ∃ r ∈ keyusageToName, r.name = "critical" := by decide +kernel
      obtain ⟨r, hr, e'⟩ := this
      exact hm ⟨r, hr, by rw [e', e]⟩
    rw [keyUsageOf, if_neg h3, h1, h2]
    rfl

theorem eku_find (name : List Char) :
    (ekuToName.find? (fun r => decide (r.name.toList = name))).map (·.val) = ekuOf name := by
  by_cases hm : ∃ r ∈ ekuToName, r.name.toList = name
  · obtain ⟨r, hr, rfl⟩ := hm
    have : ∀ r ∈ ekuToName, (ekuToName.find? (fun q => decide (q.name.toList = r.name.toList))).map (·.val) =
      ekuOf r.name.toList := by decide +kernel
    exact this r hr
  · have h1 : ekuToName.find? (fun r => decide (r.name.toList = name)) = none := by
      rw [List.find?_eq_none]
      intro r hr he
      exact hm ⟨r, hr, of_decide_eq_true he⟩
    have h2 : rfcEku.find? (fun p => decide (p.1.toList = name)) = none := by
      rw [List.find?_eq_none]
      intro p hp he
      have : ∀ p ∈ rfcEku, ∃ r ∈ ekuToName, r.name = p.1 := by decide +kernel
      obtain ⟨r, hr, e⟩ := this p hp
      exact hm ⟨r, hr, by rw [e]; exact of_decide_eq_true he⟩
    have h3 : ∀ n, n = "critical" ∨ n = "any" → name ≠ n.toList := by
      intro n hn e
      have : ∀ n ∈ ["critical", "any"], ∃ r ∈ ekuToName, r.name = n := by decide +kernel
      obtain ⟨r, hr, e'⟩ := this n (by simpa using hn)
      exact hm ⟨r, hr, by rw [e', e]⟩
    rw [ekuOf, if_neg (h3 _ (.inl rfl)), if_neg (h3 _ (.inr rfl)), h1, h2]
    rfl

/-- C120 (key usage): for every text, `lc_x509_cert_set_keyusage` adds exactly the bit RFC 5280 gives to this name (or
marks the extension as critical) and refuses every other text, leaving the flags as they were. -/
theorem c120_set_keyusage (name : List Char) (v : Nat) :
    setFlag keyusageToName name v =
      match keyUsageOf name with
      | some f => (0, v ||| f)
      | none => (-22, v) := by
  rw [setFlag, find_exact keyusage_exact, ← keyusage_find]
  cases keyusageToName.find? (fun r => decide (r.name.toList = name)) <;> rfl

/-- C120 (extended key usage): the same for `lc_x509_cert_set_eku`. -/
theorem c120_set_eku (name : List Char) (v : Nat) :
    setFlag ekuToName name v =
      match ekuOf name with
      | some f => (0, v ||| f)
      | none => (-22, v) := by
  rw [setFlag, find_exact eku_exact, ← eku_find]
  cases ekuToName.find? (fun r => decide (r.name.toList = name)) <;> rfl

example : setFlag keyusageToName "keyAgreement".toList 0x80 = (0, 0x88) ∧
    setFlag keyusageToName "keyAgreements".toList 0x80 = (-22, 0x80) ∧
    setFlag ekuToName "OCSPSigning".toList 2 = (0, 0x202) := by decide +kernel

/-- The flags after a series of calls with these names. -/
def setAll (tbl : List Flag) (names : List (List Char)) (v : Nat) : Nat :=
  names.foldl (fun v n => (setFlag tbl n v).2) v

/-- C120 (repeated calls): after any series of calls, accepted or not, a bit of the key usage is set exactly if it was set
before or belongs to one of the names. -/
theorem c120_repeated (names : List (List Char)) (v i : Nat) :
    (setAll keyusageToName names v).testBit i =
      (v.testBit i || names.any (fun n => ((keyUsageOf n).getD 0).testBit i)) := by
  induction names generalizing v with
  | nil => simp [setAll]
  | cons n ns ih =>
    have : setAll keyusageToName (n :: ns) v = setAll keyusageToName ns (setFlag keyusageToName n v).2 := rfl
    rw [this, ih, c120_set_keyusage, List.any_cons]
    cases h : keyUsageOf n with
    | none => simp
    | some f => simp [Nat.testBit_or, Bool.or_assoc]

/-- C120 (`lc_x509_name_to_keyusage`): it agrees with `lc_x509_cert_set_keyusage` for all texts but `keyAgreement`, up to
the error number. -/
theorem c120_name_to_keyusage_partial (name : List Char) (v : Nat) (h : name ≠ "keyAgreement".toList) :
    nameToFlag keyusageNames name v =
      match keyUsageOf name with
      | some f => (0, v ||| f)
      | none => (-ENOPKG, v) := by
  have key : ∀ r ∈ keyusageNames, sameName name r.name r.namelen = decide (r.name.toList = name) :=
    fun r hr => sameName_iff _ _ _ (keyusageNames_exact r hr)
  have e : keyusageNames.filter (fun r => sameName name r.name r.namelen) =
      keyusageNames.filter (fun r => decide (r.name.toList = name)) := List.filter_congr key
  unfold nameToFlag
  simp only [e, ← keyusage_find]
  by_cases hm : ∃ r ∈ keyusageNames, r.name.toList = name
  · obtain ⟨r, hr, rfl⟩ := hm
    simp only [keyusageNames, List.mem_cons, List.not_mem_nil, or_false] at hr
    rcases hr with rfl | rfl | rfl | rfl | rfl | rfl | rfl | rfl | rfl <;>
      simp [keyusageNames, keyusageToName]
  · have h1 : keyusageNames.filter (fun r => decide (r.name.toList = name)) = [] := by
      rw [List.filter_eq_nil_iff]
      intro r hr he
      exact hm ⟨r, hr, by simpa using he⟩
    have h2 : keyusageToName.find? (fun r => decide (r.name.toList = name)) = none := by
      rw [List.find?_eq_none]
      intro r hr he
      have he : r.name.toList = name := by simpa using he
      have : ∀ r ∈ keyusageToName, r.name = "keyAgreement" ∨ ∃ q ∈ keyusageNames, q.name = r.name := by decide +kernel
      rcases this r hr with h' | ⟨q, hq, h'⟩
      · exact h (by rw [← he, h'])
      · exact hm ⟨q, hq, by rw [h', he]⟩
    rw [h1, h2]
    rfl

/-- C120 (negation, key agreement): `lc_x509_name_to_keyusage` does not know `keyAgreement`. -/
theorem c120_negation_agreement (v : Nat) :
    nameToFlag keyusageNames "keyAgreement".toList v = (-ENOPKG, v) ∧
    setFlag keyusageToName "keyAgreement".toList v = (0, v ||| bitFlag 4) := by
  constructor
  · rfl
  · rw [c120_set_keyusage]; rfl

/-- C120 (negation, extended key usage): except for `critical`, no name of `lc_x509_cert_set_eku` is accepted by
`lc_x509_name_to_eku`; the right spellings of the longer names fail as well. -/
theorem c120_negation_eku (name : List Char) (v : Nat) (hc : name ≠ "critical".toList) (h : (ekuOf name).isSome) :
    nameToFlag ekuNames name v = (-ENOPKG, v) ∧
    nameToFlag ekuNames "TimeStamping".toList v = (-ENOPKG, v) ∧
    nameToFlag ekuNames "OCSPSigning".toList v = (-ENOPKG, v) := by
  refine ⟨?_, rfl, rfl⟩
  rw [← eku_find] at h
  rw [Option.isSome_map] at h
  obtain ⟨r, hr⟩ := Option.isSome_iff_exists.mp h
  have hn : r.name.toList = name := by simpa using List.find?_some hr
  have hm := List.mem_of_find?_eq_some hr
  subst hn
  simp only [ekuToName, List.mem_cons, List.not_mem_nil, or_false] at hm
  rcases hm with rfl | rfl | rfl | rfl | rfl | rfl | rfl | rfl
  · exact absurd rfl hc
  all_goals rfl

example : ("serverAuth".toList ≠ "critical".toList) ∧ (ekuOf "serverAuth".toList).isSome := by decide +kernel

/-! The names of flags -/

/-- The names of the flags that are set, in the order of the table. -/
def namesOf (tbl : List Flag) (v : Nat) : List String := (tbl.filter (fun r => v &&& r.val ≠ 0)).map (·.name)

theorem getLoop_ok (v : Nat) : ∀ (tbl : List Flag) (num : Nat) (outer : List (List (Option String))),
    num + (namesOf tbl v).length ≤ outer.length → (∀ a ∈ outer, a ≠ []) →
    ∃ outer', getLoop tbl v num outer = some (num + (namesOf tbl v).length, outer') ∧
      outer'.length = outer.length ∧
      (∀ j, j < (namesOf tbl v).length → (outer'[num + j]?.bind (·[0]?)) = some ((namesOf tbl v)[j]?)) ∧
      (∀ j, j < num → outer'[j]? = outer[j]?) := by
  intro tbl
  induction tbl with
  | nil => intro num outer _ _; exact ⟨outer, rfl, rfl, by simp [namesOf], by simp⟩
  | cons r rs ih =>
    intro num outer hl hne
    by_cases hv : v &&& r.val ≠ 0
    · have en : namesOf (r :: rs) v = r.name :: namesOf rs v := by simp [namesOf, hv]
      rw [en] at hl ⊢
      simp only [List.length_cons] at hl ⊢
      have hlt : num < outer.length := by omega
      obtain ⟨x, t, hx⟩ : ∃ x t, outer[num] = x :: t := by
        cases h : outer[num] with
        | nil => exact absurd h (hne _ (List.getElem_mem _))
        | cons x t => exact ⟨x, t, rfl⟩
      have e : outer[num]? = some (x :: t) := by rw [List.getElem?_eq_getElem hlt, hx]
      obtain ⟨outer', h1, h2, h3, h4⟩ := ih (num + 1) (outer.set num (some r.name :: t)) (by simp; omega) (by
        intro a ha
        rcases List.mem_or_eq_of_mem_set ha with ha | rfl
        · exact hne a ha
        · simp)
      refine ⟨outer', ?_, by simpa using h2, ?_, ?_⟩
      · simp only [getLoop, if_pos hv, e, h1]
        congr 2
        omega
      · intro j hj
        cases j with
        | zero =>
          rw [Nat.add_zero, h4 num (by omega), List.getElem?_set_self hlt]
          rfl
        | succ j =>
          have := h3 j (by omega)
          rw [show num + (j + 1) = num + 1 + j by omega, this]
          rfl
      · intro j hj
        rw [h4 j (by omega), List.getElem?_set_ne (by omega)]
    · have hv0 : v &&& r.val = 0 := Classical.not_not.mp hv
      have en : namesOf (r :: rs) v = namesOf rs v := by simp [namesOf, hv0]
      rw [en] at hl ⊢
      obtain ⟨outer', h1, h2, h3, h4⟩ := ih num outer hl hne
      exact ⟨outer', by simp only [getLoop, if_neg hv, h1], h2, h3, h4⟩

/-- C120 (getters, what holds): if the argument points to as many pointers to arrays as flags are set, the first element of
the array number `j` becomes the name of the flag number `j`, and the number of flags is returned. -/
theorem c120_get_partial (v : Nat) (outer : List (List (Option String))) (hne : ∀ a ∈ outer, a ≠ []) :
    ((namesOf keyusageToName v).length ≤ outer.length →
      ∃ outer', getKeyusage v outer = some ((namesOf keyusageToName v).length, outer') ∧
        ∀ j, j < (namesOf keyusageToName v).length →
          (outer'[j]?.bind (·[0]?)) = some ((namesOf keyusageToName v)[j]?)) ∧
    ((namesOf ekuToName v).length ≤ outer.length →
      ∃ outer', getEku v outer = some ((namesOf ekuToName v).length, outer') ∧
        ∀ j, j < (namesOf ekuToName v).length →
          (outer'[j]?.bind (·[0]?)) = some ((namesOf ekuToName v)[j]?)) := by
  constructor
  · intro h
    obtain ⟨o, h1, _, h3, _⟩ := getLoop_ok v keyusageToName 0 outer (by simpa using h) hne
    simp only [Nat.zero_add] at h1 h3
    exact ⟨o, h1, h3⟩
  · intro h
    obtain ⟨o, h1, _, h3, _⟩ := getLoop_ok v ekuToName 0 outer (by simpa using h) hne
    simp only [Nat.zero_add] at h1 h3
    exact ⟨o, h1, h3⟩

example : namesOf keyusageToName 0x84 = ["digitalSignature", "keyCertSign"] ∧
    getKeyusage 0x84 [[none], [none, none]] = some (2, [[some "digitalSignature"], [some "keyCertSign", none]]) := by
  decide +kernel

theorem getLoop_one (v : Nat) : ∀ (tbl : List Flag) (a : List (Option String)),
    1 ≤ (namesOf tbl v).length → getLoop tbl v 1 [a] = none := by
  intro tbl
  induction tbl with
  | nil => intro a h; simp [namesOf] at h
  | cons r rs ih =>
    intro a h
    by_cases hv : v &&& r.val ≠ 0
    · simp only [getLoop, if_pos hv]; rfl
    · have hv0 : v &&& r.val = 0 := Classical.not_not.mp hv
      have en : namesOf (r :: rs) v = namesOf rs v := by simp [namesOf, hv0]
      rw [en] at h
      simp only [getLoop, if_neg hv]
      exact ih a h

theorem getLoop_two (v : Nat) : ∀ (tbl : List Flag) (a : List (Option String)),
    2 ≤ (namesOf tbl v).length → getLoop tbl v 0 [a] = none := by
  intro tbl
  induction tbl with
  | nil => intro a h; simp [namesOf] at h
  | cons r rs ih =>
    intro a h
    by_cases hv : v &&& r.val ≠ 0
    · have en : namesOf (r :: rs) v = r.name :: namesOf rs v := by simp [namesOf, hv]
      rw [en] at h
      simp only [getLoop, if_pos hv]
      cases a with
      | nil => rfl
      | cons x t => exact getLoop_one v rs _ (by simpa using h)
    · have hv0 : v &&& r.val = 0 := Classical.not_not.mp hv
      have en : namesOf (r :: rs) v = namesOf rs v := by simp [namesOf, hv0]
      rw [en] at h
      simp only [getLoop, if_neg hv]
      exact ih a h

/-- C120 (negation, getters): with a reference to one array of strings, which the header asks for, the functions write
through a pointer behind this reference as soon as two flags are set, however large the array is. -/
theorem c120_negation_get (v : Nat) (array : List (Option String)) :
    (2 ≤ (namesOf keyusageToName v).length → getKeyusage v [array] = none) ∧
    (2 ≤ (namesOf ekuToName v).length → getEku v [array] = none) :=
  ⟨getLoop_two v keyusageToName array, getLoop_two v ekuToName array⟩

example : 2 ≤ (namesOf keyusageToName 0x84).length ∧ 2 ≤ (namesOf ekuToName 0x30).length := by decide +kernel

/-! ### C121: set and get -/

/-- Is the field a component of a name? -/
def isComp : Fn → Bool
  | .sanIp | .skid | .akid | .serial => false
  | _ => true

/-- C121 (set and get): a setter succeeds exactly if the length of a name component is at most 255, and the pointer of any
other field is not NULL.  Then the getter of this field returns pointer and length as given and every other getter what
it returned before; otherwise the certificate is unchanged. -/
theorem c121_set_get (cert : CertD) (f : Fn) (s : Option (List UInt8)) (len : Nat) :
    ((set cert f s len).1 = 0 ↔ if isComp f then len ≤ 255 else s ≠ none) ∧
    ((set cert f s len).1 = 0 → ∀ g, get (set cert f s len).2 g = if g = f then (s, len) else get cert g) ∧
    ((set cert f s len).1 ≠ 0 → (set cert f s len).2 = cert) := by
  by_cases hl : len > 255
  · cases f <;> simp [set, setSubject, setIssuer, setString, hl, isComp] <;>
      (cases s <;> simp) <;> (intro g; cases g <;> rfl)
  · have e : len % 256 = len := Nat.mod_eq_of_lt (by omega)
    have hl' : len ≤ 255 := by omega
    cases f <;> simp [set, setSubject, setIssuer, setString, hl, hl', e, isComp] <;>
      first
      | (intro g; cases g <;> simp [get, upd])
      | (cases s <;> simp <;> (intro g; cases g <;> simp [get]))

/-- C121 (DNS name): the length stored for the subject alternative name is the one of the C string, and the other fields are
as before. -/
theorem c121_dns (cert : CertD) (text rest : List UInt8) (h : 0 ∉ text) :
    (setSanDns cert (some (text ++ 0 :: rest))).1 = 0 ∧
    (setSanDns cert (some (text ++ 0 :: rest))).2.sanDns = (some (text ++ 0 :: rest), text.length) ∧
    (∀ g, get (setSanDns cert (some (text ++ 0 :: rest))).2 g = get cert g) := by
  refine ⟨rfl, ?_, fun g => by cases g <;> rfl⟩
  simp only [setSanDns]
  rw [List.takeWhile_append_of_pos]
  · simp
  · intro c hc
    simp only [bne_iff_ne, ne_eq]
    rintro rfl
    exact h hc

/-- C121 (negation): a NULL pointer with a length is stored as a name component; the generator copies `len` bytes from it. -/
theorem c121_negation (cert : CertD) :
    (set cert .subjectCn none 5).1 = 0 ∧ get (set cert .subjectCn none 5).2 .subjectCn = (none, 5) := ⟨rfl, rfl⟩

/-! ### C122: algorithms -/

/-- The table of the certificate model (C91 – C106) is the same. -/
theorem algos_cert : algos.map (fun r => (r.oid, r.pkey)) = LC.Crt.algoTable := by decide +kernel

/-- C122 (object identifiers): the OID of a type denotes this type. -/
theorem c122_oid (t o : Nat) (h : typeToOid t = .ok o) : oidToType o = .ok t := by
  unfold typeToOid at h
  split at h
  · rename_i r hr
    have hm := List.mem_of_find?_eq_some hr
    have ht : t = r.pkey := by simpa using List.find?_some hr
    injection h with h
    subst h ht
    have : ∀ r ∈ algos, oidToType r.oid = .ok r.pkey := by decide +kernel
    exact this r hm
  · cases h

/-- C122 (names): the name of a type that has one denotes this type. -/
theorem c122_name (t : Nat) (h : ∃ o, typeToOid t = .ok o) : nameToAlgo (typeToName t).toList = .ok t := by
  obtain ⟨o, h⟩ := h
  unfold typeToOid at h
  unfold typeToName
  split at h
  · rename_i r hr
    have hm := List.mem_of_find?_eq_some hr
    have ht : t = r.pkey := by simpa using List.find?_some hr
    subst ht
    have : ∀ r ∈ algos, nameToAlgo r.name.toList = .ok r.pkey := by decide +kernel
    exact this r hm
  · cases h

/-- C122 (different object identifiers have different names, and a name leads to one type). -/
theorem c122_unique : (algos.map (·.oid)).Nodup ∧ (algos.map (·.name)).Nodup := by decide +kernel

/-- C122 (texts): `lc_x509_pkey_name_to_algorithm` accepts exactly the names of the table. -/
theorem c122_texts (name : List Char) (t : Nat) :
    nameToAlgo name = .ok t ↔ ∃ r ∈ algos, r.name.toList = name ∧ r.pkey = t := by
  have hx : ∀ r ∈ algos, r.name.toList.length = r.namelen := by decide +kernel
  have hu : ∀ r ∈ algos, ∀ q ∈ algos, r.name = q.name → r = q := by decide +kernel
  unfold nameToAlgo
  constructor
  · intro h
    split at h
    · rename_i r hr
      have hm := List.mem_of_find?_eq_some hr
      have hs := List.find?_some hr
      rw [sameName_iff _ _ _ (hx r hm)] at hs
      injection h with h
      exact ⟨r, hm, by simpa using hs, h⟩
    · cases h
  · rintro ⟨r, hm, rfl, rfl⟩
    have : (algos.find? (fun q => sameName r.name.toList q.name q.namelen)).isSome := by
      rw [List.find?_isSome]
      exact ⟨r, hm, by rw [sameName_iff _ _ _ (hx r hm)]; simp⟩
    obtain ⟨q, hq⟩ := Option.isSome_iff_exists.mp this
    have hqm := List.mem_of_find?_eq_some hq
    have hs := List.find?_some hq
    rw [sameName_iff _ _ _ (hx q hqm)] at hs
    have hn : q.name = r.name := String.toList_inj.mp (by simpa using hs)
    rw [hq, hu q hqm r hm hn]

/-- The types for which `public_key_verify_signature` and `public_key_generate_signature` have an implementation
(`/repo/asn1/src/public_key.c`). -/
def implemented : List Nat := [1, 2, 3, 4, 5, 6, 8, 9, 10, 11, 12, 13]

/-- C122 (completeness): every implemented type except ML-DSA-87 with Ed25519 has an object identifier, a name and a
standard hash that the hash check accepts. -/
theorem c122_complete_partial (t : Nat) (h : t ∈ implemented) (h6 : t ≠ 6) :
    (∃ o, typeToOid t = .ok o) ∧ ∃ hash, typeToHash t = .ok hash ∧ sigCheckHash t (some hash) = 0 := by
  simp only [implemented, List.mem_cons, List.not_mem_nil, or_false] at h
  rcases h with rfl | rfl | rfl | rfl | rfl | rfl | rfl | rfl | rfl | rfl | rfl | rfl
  case inr.inr.inr.inr.inr.inl => exact absurd rfl h6
  all_goals exact ⟨⟨_, rfl⟩, _, rfl, rfl⟩

example : 13 ∈ implemented ∧ 13 ≠ 6 := by decide

/-- C122 (negation): ML-DSA-87 with Ed25519 is implemented, and the hash check knows it, but it has no object identifier, no
name and no standard hash: no certificate or message with this algorithm can be generated or read. -/
theorem c122_negation : 6 ∈ implemented ∧ sigCheckHash 6 (some .sha3_512) = 0 ∧
    typeToOid 6 = .error (-ENOPKG) ∧ typeToHash 6 = .error (-ENOPKG) ∧ typeToName 6 = "<not found>" ∧
    (∀ o, oidToType o ≠ .ok 6) ∧ (∀ name, nameToAlgo name ≠ .ok 6) := by
  refine ⟨by decide, rfl, rfl, rfl, rfl, ?_, ?_⟩
  · intro o h
    unfold oidToType at h
    split at h
    · rename_i r hr
      have hm := List.mem_of_find?_eq_some hr
      injection h with h
      have : ∀ r ∈ algos, r.pkey ≠ 6 := by decide +kernel
      exact this r hm h
    · cases h
  · intro name h
    obtain ⟨r, hm, _, h⟩ := (c122_texts name 6).mp h
    have : ∀ r ∈ algos, r.pkey ≠ 6 := by decide +kernel
    exact this r hm h

/-- C122 (negation, names): the name of ML-DSA-87 with Ed448 is `ML-DSA44-ED448`; its proper name is unknown. -/
theorem c122_negation_name : nameToAlgo "ML-DSA44-ED448".toList = .ok 7 ∧
    nameToAlgo "ML-DSA87-ED448".toList = .error (-ENOPKG) ∧ oidToName 117 = "ML-DSA44-ED448" := by decide +kernel

/-- Collision resistance in bits of the hash functions (FIPS 180-4, FIPS 202). -/
def strength : Hash → Nat
  | .sha256 | .sha3_256 | .shake128 => 128
  | .sha384 | .sha3_384 => 192
  | .sha512 | .sha3_512 | .shake256 => 256
  | .other _ => 0

/-- The collision resistance the signature types ask for (FIPS 204 table 1, FIPS 205 table 2; 256 for the composites). -/
def wanted (t : Nat) : Option Nat :=
  if t = 1 ∨ t = 12 ∨ t = 13 then some 128
  else if t = 2 ∨ t = 10 ∨ t = 11 then some 192
  else if t = 3 ∨ t = 8 ∨ t = 9 ∨ t = 4 ∨ t = 5 ∨ t = 6 then some 256
  else none

/-- C122 (strength): a hash is accepted for a signature type exactly if the type is implemented and the hash has at least the
collision resistance the type asks for. -/
theorem c122_strength (t : Nat) (h : Option Hash) :
    sigCheckHash t h = 0 ↔ ∃ x w, h = some x ∧ wanted t = some w ∧ w ≤ strength x := by
  cases h with
  | none => simp [sigCheckHash, ENOPKG]
  | some x =>
    simp only [sigCheckHash, wanted, Option.some.injEq]
    by_cases h1 : t = 13 ∨ t = 12 ∨ t = 1
    · rw [if_pos h1, if_pos (show t = 1 ∨ t = 12 ∨ t = 13 by omega)]
      cases x <;> simp [chk128, chk192, chk256, strength, ENOPKG]
    · rw [if_neg h1, if_neg (show ¬ (t = 1 ∨ t = 12 ∨ t = 13) by omega)]
      by_cases h2 : t = 11 ∨ t = 10 ∨ t = 2
      · rw [if_pos h2, if_pos (show t = 2 ∨ t = 10 ∨ t = 11 by omega)]
        cases x <;> simp [chk192, chk256, strength, ENOPKG]
      · rw [if_neg h2, if_neg (show ¬ (t = 2 ∨ t = 10 ∨ t = 11) by omega)]
        by_cases h3 : t = 9 ∨ t = 8 ∨ t = 3
        · rw [if_pos h3, if_pos (show t = 3 ∨ t = 8 ∨ t = 9 ∨ t = 4 ∨ t = 5 ∨ t = 6 by omega)]
          cases x <;> simp [chk256, strength, ENOPKG]
        · rw [if_neg h3]
          by_cases h4 : t = 4 ∨ t = 5 ∨ t = 6
          · rw [if_pos h4, if_pos (show t = 3 ∨ t = 8 ∨ t = 9 ∨ t = 4 ∨ t = 5 ∨ t = 6 by omega)]
            cases x <;> simp [chk256, strength, ENOPKG]
          · rw [if_neg h4, if_neg (show ¬ (t = 3 ∨ t = 8 ∨ t = 9 ∨ t = 4 ∨ t = 5 ∨ t = 6) by omega)]
            simp [ENOPKG]

/-- C122 (hashes): OID and name of a known hash lead back to it, and every accepted text and OID is the one of its hash. -/
theorem c122_hash (x : Hash) :
    ((∀ n, x ≠ .other n) → oidToHash (hashToOid x) = .ok x ∧ nameToHash (hashToName x).toList = .ok x) ∧
    (∀ o, oidToHash o = .ok x → hashToOid x = o) ∧
    (∀ name, nameToHash name = .ok x → (hashToName x).toList = name) := by
  refine ⟨?_, ?_, ?_⟩
  · intro h
    cases x with
    | other n => exact absurd rfl (h n)
    | _ => exact ⟨rfl, by decide +kernel⟩
  · intro o h
    unfold oidToHash at h
    repeat' split at h
    all_goals first
      | (cases h; done)
      | (injection h with h; subst h; rename_i hh; exact hh.symm)
  · intro name h
    have e : ∀ r : String, r.toList.length = 8 → sameName name r 8 = decide (r.toList = name) :=
      fun r hr => sameName_iff name r 8 hr
    unfold nameToHash at h
    rw [e _ (by decide), e _ (by decide), e _ (by decide), e _ (by decide), e _ (by decide), e _ (by decide),
      e _ (by decide), e _ (by decide)] at h
    repeat' split at h
    all_goals first
      | (cases h; done)
      | (injection h with h; subst h; rename_i hh; exact of_decide_eq_true hh)

/-- C122 (negation, unknown hashes): a hash without OID yields success and `OID__NR`. -/
theorem c122_negation_hash (n : Nat) : hashToOid (.other n) = 124 ∧ hashToName (.other n) = "<unknown>" := ⟨rfl, rfl⟩

end LC.Acc
