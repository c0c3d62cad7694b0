import Verif.Acc.P7Model
import Verif.Acc.MapProps

/-!
# Properties of messages under construction
-/

namespace LC.Acc

/-! ### Specification -/

/-- Starting at the pointer one finds exactly the nodes of the list and then NULL; `nx` is the memory of the `next` pointers. -/
def Chain (nx : Nat → Option (Option Nat)) : Option Nat → List Nat → Prop
  | none, [] => True
  | some a, b :: xs => a = b ∧ ∃ p, nx a = some p ∧ Chain nx p xs
  | _, _ => False

/-- The `next` pointers of certificates. -/
def nextC (m : Nat → Option Node) : Nat → Option (Option Nat) := fun a => (m a).map (·.next)

/-- The `next` pointers of signer infos. -/
def nextS (m : Nat → Option SInfo) : Nat → Option (Option Nat) := fun a => (m a).map (·.next)

/-- A certificate without its link. -/
def bare (nd : Node) : Node := { nd with next := none }

/-- What a signer info says. -/
def says (i : SInfo) : Nat × Nat × Hash := (i.signer, i.aaSet, i.hash)

theorem chain_congr {nx ny : Nat → Option (Option Nat)} : ∀ {p : Option Nat} {xs : List Nat},
    (∀ a ∈ xs, ny a = nx a) → Chain nx p xs → Chain ny p xs := by
  intro p xs
  induction xs generalizing p with
  | nil => intro _ h; cases p <;> exact h
  | cons b xs ih =>
    intro he h
    cases p with
    | none => exact h
    | some a =>
      obtain ⟨rfl, q, hq, hc⟩ := h
      exact ⟨rfl, q, by rw [he a (by simp), hq], ih (fun x hx => he x (List.mem_cons_of_mem _ hx)) hc⟩

/-! ### Appending -/

theorem appendCert_ok : ∀ (xs : List Nat) (n : Nat) (m : Nat → Option Node) (t x : Nat),
    Chain (nextC m) (some t) xs → xs.Nodup → x ∉ xs → nextC m x = some none → xs.length ≤ n →
    ∃ m', appendCert n m t x = .done m' ∧ Chain (nextC m') (some t) (xs ++ [x]) ∧
      (∀ a, a ∉ xs → m' a = m a) ∧ (∀ a, (m' a).map bare = (m a).map bare) := by
  intro xs
  induction xs with
  | nil => intro n m t x h; exact absurd h (by simp [Chain])
  | cons b xs ih =>
    intro n m t x h hnd hx hnx hn
    obtain ⟨rfl, p, hp, hc⟩ := h
    obtain ⟨n, rfl⟩ : ∃ k, n = k + 1 := ⟨n - 1, by simp at hn; omega⟩
    obtain ⟨nd, hm, hnd'⟩ : ∃ nd, m t = some nd ∧ nd.next = p := by
      unfold nextC at hp
      cases h : m t with
      | none => rw [h] at hp; cases hp
      | some nd => rw [h] at hp; exact ⟨nd, rfl, by simpa using hp⟩
    simp only [List.mem_cons, not_or] at hx
    rw [List.nodup_cons] at hnd
    cases p with
    | none =>
      cases xs with
      | cons c cs => exact absurd hc (by simp [Chain])
      | nil =>
        refine ⟨put m t (some { nd with next := some x }), by simp [appendCert, hm, hnd'], ?_, ?_, ?_⟩
        · refine ⟨rfl, some x, by simp [nextC, put], rfl, none, ?_, trivial⟩
          have : nextC (put m t (some { nd with next := some x })) x = nextC m x := by simp [nextC, put, hx.1]
          rw [this, hnx]
        · intro a ha
          simp only [List.mem_cons, List.not_mem_nil, or_false] at ha
          simp [put, ha]
        · intro a
          by_cases e : a = t
          · subst e; simp [put, hm, bare]
          · simp [put, e]
    | some t' =>
      obtain ⟨m', h1, h2, h3, h4⟩ := ih n m t' x hc hnd.2 hx.2 hnx (by simp at hn; omega)
      refine ⟨m', by simp [appendCert, hm, hnd', h1], ⟨rfl, some t', ?_, h2⟩, ?_, h4⟩
      · unfold nextC at hp ⊢
        rw [h3 t hnd.1, hp]
      · intro a ha
        simp only [List.mem_cons, not_or] at ha
        exact h3 a ha.2

theorem appendInfo_ok : ∀ (xs : List Nat) (n : Nat) (m : Nat → Option SInfo) (t x : Nat),
    Chain (nextS m) (some t) xs → xs.Nodup → x ∉ xs → nextS m x = some none → xs.length ≤ n →
    ∃ m', appendInfo n m t x = .done m' ∧ Chain (nextS m') (some t) (xs ++ [x]) ∧
      (∀ a, a ∉ xs → m' a = m a) ∧ (∀ a, (m' a).map says = (m a).map says) := by
  intro xs
  induction xs with
  | nil => intro n m t x h; exact absurd h (by simp [Chain])
  | cons b xs ih =>
    intro n m t x h hnd hx hnx hn
    obtain ⟨rfl, p, hp, hc⟩ := h
    obtain ⟨n, rfl⟩ : ∃ k, n = k + 1 := ⟨n - 1, by simp at hn; omega⟩
    obtain ⟨nd, hm, hnd'⟩ : ∃ nd, m t = some nd ∧ nd.next = p := by
      unfold nextS at hp
      cases h : m t with
      | none => rw [h] at hp; cases hp
      | some nd => rw [h] at hp; exact ⟨nd, rfl, by simpa using hp⟩
    simp only [List.mem_cons, not_or] at hx
    rw [List.nodup_cons] at hnd
    cases p with
    | none =>
      cases xs with
      | cons c cs => exact absurd hc (by simp [Chain])
      | nil =>
        refine ⟨put m t (some { nd with next := some x }), by simp [appendInfo, hm, hnd'], ?_, ?_, ?_⟩
        · refine ⟨rfl, some x, by simp [nextS, put], rfl, none, ?_, trivial⟩
          have : nextS (put m t (some { nd with next := some x })) x = nextS m x := by simp [nextS, put, hx.1]
          rw [this, hnx]
        · intro a ha
          simp only [List.mem_cons, List.not_mem_nil, or_false] at ha
          simp [put, ha]
        · intro a
          by_cases e : a = t
          · subst e; simp [put, hm, says]
          · simp [put, e]
    | some t' =>
      obtain ⟨m', h1, h2, h3, h4⟩ := ih n m t' x hc hnd.2 hx.2 hnx (by simp at hn; omega)
      refine ⟨m', by simp [appendInfo, hm, hnd', h1], ⟨rfl, some t', ?_, h2⟩, ?_, h4⟩
      · unfold nextS at hp ⊢
        rw [h3 t hnd.1, hp]
      · intro a ha
        simp only [List.mem_cons, not_or] at ha
        exact h3 a ha.2

/-- The lists of a message: the certificates `xs`, the signers `ys`. -/
structure Holds (s : Msg) (xs : List Nat) (ys : List (Nat × Nat × Hash)) : Prop where
  certs : Chain (nextC s.certs) s.head xs
  nodup : xs.Nodup
  infos : ∃ as, Chain (nextS s.infos) s.shead as ∧ as.Nodup ∧ (∀ a ∈ as, a < s.fresh) ∧
    as.map (fun a => (s.infos a).map says) = ys.map some

theorem addCert_ok {s : Msg} {xs : List Nat} {ys} (H : Holds s xs ys) {n x : Nat} (hx : x ∉ xs)
    (hnx : nextC s.certs x = some none) (hn : xs.length ≤ n) :
    ∃ s', addCert n s x = .done s' ∧ Holds s' (xs ++ [x]) ys ∧ s'.infos = s.infos ∧ s'.shead = s.shead ∧
      s'.fresh = s.fresh ∧ s'.data = s.data ∧ s'.embed = s.embed ∧
      (∀ a, a ∉ xs → s'.certs a = s.certs a) ∧ (∀ a, (s'.certs a).map bare = (s.certs a).map bare) := by
  have hnd : (xs ++ [x]).Nodup := by
    rw [List.nodup_append]
    exact ⟨H.nodup, by simp, fun a ha b hb e => by simp at hb; subst hb; subst e; exact hx ha⟩
  cases hh : s.head with
  | none =>
    have hxs : xs = [] := by
      have := H.certs
      rw [hh] at this
      cases xs with
      | nil => rfl
      | cons => exact absurd this (by simp [Chain])
    subst hxs
    refine ⟨{ s with head := some x }, by simp [addCert, hh], ⟨⟨rfl, none, hnx, trivial⟩, hnd, H.infos⟩, rfl, rfl, rfl, rfl, rfl,
      fun _ _ => rfl, fun _ => rfl⟩
  | some t =>
    have hc := H.certs
    rw [hh] at hc
    obtain ⟨m', h1, h2, h3, h4⟩ := appendCert_ok xs n s.certs t x hc H.nodup hx hnx hn
    refine ⟨{ s with certs := m' }, by simp [addCert, hh, h1], ⟨?_, hnd, H.infos⟩, rfl, rfl, rfl, rfl, rfl, h3, h4⟩
    show Chain (nextC m') s.head _
    rw [hh]
    exact h2

theorem addSigner_ok {s : Msg} {xs : List Nat} {ys} (H : Holds s xs ys) {n : Nat} (i : SInfo) (hi : i.next = none)
    (hn : ys.length ≤ n) :
    ∃ s', addSigner n { s with infos := put s.infos s.fresh (some i), fresh := s.fresh + 1 } s.fresh = .done s' ∧
      Holds s' xs (ys ++ [says i]) ∧ s'.certs = s.certs ∧ s'.head = s.head ∧ s'.data = s.data ∧ s'.embed = s.embed := by
  obtain ⟨as, hc, hnd, hlt, hs⟩ := H.infos
  have hlen : as.length = ys.length := by simpa using congrArg List.length hs
  have hf : s.fresh ∉ as := fun h => absurd (hlt _ h) (by omega)
  have hput : ∀ a ∈ as, put s.infos s.fresh (some i) a = s.infos a := by
    intro a ha
    have := hlt a ha
    simp [put, show a ≠ s.fresh by omega]
  have hc' : Chain (nextS (put s.infos s.fresh (some i))) s.shead as :=
    chain_congr (fun a ha => by simp only [nextS, hput a ha]) hc
  have hnx : nextS (put s.infos s.fresh (some i)) s.fresh = some none := by simp [nextS, put, hi]
  have hnd' : (as ++ [s.fresh]).Nodup := by
    rw [List.nodup_append]
    exact ⟨hnd, by simp, fun a ha b hb e => by simp at hb; subst hb; subst e; exact hf ha⟩
  have hlt' : ∀ a ∈ as ++ [s.fresh], a < s.fresh + 1 := by
    intro a ha
    rcases List.mem_append.mp ha with h | h
    · have := hlt a h; omega
    · simp at h; omega
  have hsay : ∀ m' : Nat → Option SInfo, (∀ a, (m' a).map says = (put s.infos s.fresh (some i) a).map says) →
      (as ++ [s.fresh]).map (fun a => (m' a).map says) = (ys ++ [says i]).map some := by
    intro m' h
    simp only [List.map_append, List.map_cons, List.map_nil, h]
    congr 1
    · rw [← hs]
      apply List.map_congr_left
      intro a ha
      rw [hput a ha]
    · simp [put]
  cases hh : s.shead with
  | none =>
    have has : as = [] := by
      rw [hh] at hc
      cases as with
      | nil => rfl
      | cons => exact absurd hc (by simp [Chain])
    subst has
    refine ⟨{ s with infos := put s.infos s.fresh (some i), fresh := s.fresh + 1, shead := some s.fresh },
      by simp only [addSigner, hh], ⟨H.certs, H.nodup, [s.fresh], ⟨rfl, none, hnx, trivial⟩, by simp, ?_, ?_⟩, rfl, rfl, rfl,
      rfl⟩
    · simpa using hlt'
    · simpa using hsay _ (fun _ => rfl)
  | some t =>
    rw [hh] at hc'
    obtain ⟨m', h1, h2, h3, h4⟩ := appendInfo_ok as n _ t s.fresh hc' hnd hf hnx (by omega)
    refine ⟨{ s with infos := m', fresh := s.fresh + 1 }, by simp only [addSigner, hh, h1], ⟨H.certs, H.nodup, as ++ [s.fresh], ?_, hnd', hlt', hsay m' h4⟩, rfl, rfl, rfl, rfl⟩
    show Chain (nextS m') s.shead _
    rw [hh]
    exact h2

/-! ### C123 -/

/-- A call of the API. -/
inductive Call
  | certificate (x : Nat)
  | signer (x : Nat) (h : Option Hash) (aa : Nat)
  | data (d : List UInt8) (embed : Bool)

/-- A series of calls; refused calls are followed by the next one. -/
def calls (n : Nat) : Msg → List Call → R Msg
  | s, [] => .done s
  | s, .certificate x :: cs =>
    match setCertificate n s (some x) with
    | .done (_, s') => calls n s' cs
    | .fault => .fault
    | .running => .running
  | s, .signer x h aa :: cs =>
    match setSigner n s (some x) h aa with
    | .done (_, s') => calls n s' cs
    | .fault => .fault
    | .running => .running
  | s, .data d e :: cs => calls n (setData s (some d) e).2 cs

/-- The certificates the calls should add, given the certificates in memory: those of `set_certificate` that are encoded and those
of `set_signer` with a key pair and a hash that is strong enough (or a standard one). -/
def added (m : Nat → Option Node) : List Call → List Nat
  | [] => []
  | .certificate x :: cs => (if (m x).any (·.raw) then [x] else []) ++ added m cs
  | .signer x h _ :: cs =>
    (if (m x).any (fun nd => nd.sigType ≠ 0 && nd.pk && nd.sk && (signHash nd.sigType h).toBool) then [x] else []) ++ added m cs
  | .data _ _ :: cs => added m cs

/-- The signers the calls should add. -/
def signers (m : Nat → Option Node) : List Call → List (Nat × Nat × Hash)
  | [] => []
  | .certificate _ :: cs => signers m cs
  | .signer x h aa :: cs =>
    (match m x with
     | some nd =>
       if nd.sigType ≠ 0 ∧ nd.pk = true ∧ nd.sk = true then
         match signHash nd.sigType h with
         | .ok hash => [(x, aa, hash)]
         | .error _ => []
       else []
     | none => []) ++ signers m cs
  | .data _ _ :: cs => signers m cs

/-- The certificate a call names. -/
def names : Call → Option Nat
  | .certificate x => some x
  | .signer x _ _ => some x
  | .data _ _ => none

theorem added_bare {m m' : Nat → Option Node} (h : ∀ a, (m' a).map bare = (m a).map bare) (cs : List Call) :
    added m' cs = added m cs ∧ signers m' cs = signers m cs := by
  have key : ∀ a, (m' a = none ∧ m a = none) ∨ ∃ u v, m' a = some u ∧ m a = some v ∧ bare u = bare v := by
    intro a
    have := h a
    cases h1 : m' a <;> cases h2 : m a <;> simp [h1, h2] at this ⊢
    exact this
  induction cs with
  | nil => exact ⟨rfl, rfl⟩
  | cons c cs ih =>
    cases c with
    | data d e => exact ih
    | certificate x =>
      refine ⟨?_, ih.2⟩
      simp only [added, ih.1]
      rcases key x with ⟨h1, h2⟩ | ⟨u, v, h1, h2, h3⟩
      · rw [h1, h2]
      · rw [h1, h2]
        have : u.raw = v.raw := by have := congrArg Node.raw h3; simpa [bare] using this
        simp [this]
    | signer x hh aa =>
      simp only [added, signers, ih.1, ih.2]
      rcases key x with ⟨h1, h2⟩ | ⟨u, v, h1, h2, h3⟩
      · rw [h1, h2]; exact ⟨rfl, rfl⟩
      · rw [h1, h2]
        have e1 : u.sigType = v.sigType := by have := congrArg Node.sigType h3; simpa [bare] using this
        have e2 : u.pk = v.pk := by have := congrArg Node.pk h3; simpa [bare] using this
        have e3 : u.sk = v.sk := by have := congrArg Node.sk h3; simpa [bare] using this
        simp [e1, e2, e3]

/-- One step of the induction: a call that adds `x`. -/
theorem c123_aux : ∀ (cs : List Call) (n : Nat) (s : Msg) (xs : List Nat) (ys : List (Nat × Nat × Hash)),
    Holds s xs ys → (xs ++ added s.certs cs).Nodup → ys.length ≤ xs.length →
    (∀ c ∈ cs, ∀ x, names c = some x → (s.certs x).isSome) →
    (∀ x ∈ added s.certs cs, nextC s.certs x = some none) → (xs ++ added s.certs cs).length ≤ n →
    ∃ s', calls n s cs = .done s' ∧ Holds s' (xs ++ added s.certs cs) (ys ++ signers s.certs cs) ∧
      (∀ a, (s'.certs a).map bare = (s.certs a).map bare) := by
  intro cs
  induction cs with
  | nil => intro n s xs ys H _ _ _ _ _; exact ⟨s, rfl, by simpa [added, signers] using H, fun _ => rfl⟩
  | cons c cs ih =>
    intro n s xs ys H hnd hys hv hnx hn
    have hv' : ∀ c ∈ cs, ∀ x, names c = some x → (s.certs x).isSome := fun c hc => hv c (List.mem_cons_of_mem _ hc)
    -- the rest after a state that differs only in the links of `xs`
    have step : ∀ (s1 : Msg) (x : Nat) (zs : List (Nat × Nat × Hash)), added s.certs (c :: cs) = x :: added s.certs cs →
        signers s.certs (c :: cs) = zs ++ signers s.certs cs → zs.length ≤ 1 →
        Holds s1 (xs ++ [x]) (ys ++ zs) → (∀ a, a ∉ xs → s1.certs a = s.certs a) →
        (∀ a, (s1.certs a).map bare = (s.certs a).map bare) →
        ∃ s', calls n s1 cs = .done s' ∧ Holds s' (xs ++ added s.certs (c :: cs)) (ys ++ signers s.certs (c :: cs)) ∧
          (∀ a, (s'.certs a).map bare = (s.certs a).map bare) := by
      intro s1 x zs ha hs hz H1 hsame hbare
      obtain ⟨e1, e2⟩ := added_bare hbare cs
      rw [ha] at hnd hnx hn ⊢
      rw [hs]
      have hnd1 : ((xs ++ [x]) ++ added s.certs cs).Nodup := by simpa using hnd
      obtain ⟨s', h1, h2, h3⟩ := ih n s1 (xs ++ [x]) (ys ++ zs) H1 (by rw [e1]; exact hnd1) (by simp; omega) (by
          intro c' hc' y hy
          have := hv' c' hc' y hy
          have hb := hbare y
          cases h : s1.certs y with
          | none => rw [h] at hb; cases h' : s.certs y <;> simp_all
          | some _ => rfl)
        (by
          rw [e1]
          intro y hy
          have hyx : y ∉ xs := by
            intro h
            rw [List.nodup_append] at hnd
            exact hnd.2.2 y h y (List.mem_cons_of_mem _ hy) rfl
          have := hnx y (List.mem_cons_of_mem _ hy)
          unfold nextC at this ⊢
          rw [hsame y hyx, this])
        (by rw [e1]; simpa using hn)
      rw [e1, e2] at h2
      exact ⟨s', h1, by simpa using h2, fun a => by rw [h3, hbare]⟩
    -- a call that changes nothing
    have skip : added s.certs (c :: cs) = added s.certs cs → signers s.certs (c :: cs) = signers s.certs cs →
        ∃ s', calls n s cs = .done s' ∧ Holds s' (xs ++ added s.certs (c :: cs)) (ys ++ signers s.certs (c :: cs)) ∧
          (∀ a, (s'.certs a).map bare = (s.certs a).map bare) := by
      intro ha hs
      rw [ha] at hnd hnx hn ⊢
      rw [hs]
      exact ih n s xs ys H hnd hys hv' hnx hn
    cases c with
    | data d e =>
      have H' : Holds (setData s (some d) e).2 xs ys := ⟨H.certs, H.nodup, H.infos⟩
      exact ih n (setData s (some d) e).2 xs ys H' hnd hys hv' hnx hn
    | certificate x =>
      have hx := hv _ (List.mem_cons_self ..) x rfl
      obtain ⟨nd, hm⟩ := Option.isSome_iff_exists.mp hx
      cases hr : nd.raw with
      | false =>
        have e : calls n s (.certificate x :: cs) = calls n s cs := by simp [calls, setCertificate, hm, hr]
        rw [e]
        exact skip (by simp [added, hm, hr]) rfl
      | true =>
        have ha : added s.certs (.certificate x :: cs) = x :: added s.certs cs := by simp [added, hm, hr]
        have hxs : x ∉ xs := by
          rw [ha, List.nodup_append] at hnd
          exact fun h => hnd.2.2 x h x (List.mem_cons_self ..) rfl
        obtain ⟨s1, h1, h2, _, _, _, _, _, h3, h4⟩ := addCert_ok H (n := n) hxs (hnx x (by rw [ha]; simp)) (by
          rw [ha] at hn; simp at hn; omega)
        have e : calls n s (.certificate x :: cs) = calls n s1 cs := by simp [calls, setCertificate, hm, hr, h1]
        rw [e]
        exact step s1 x [] ha rfl (by simp) (by simpa using h2) h3 h4
    | signer x h aa =>
      have hx := hv _ (List.mem_cons_self ..) x rfl
      obtain ⟨nd, hm⟩ := Option.isSome_iff_exists.mp hx
      by_cases hk : nd.sigType ≠ 0 ∧ nd.pk = true ∧ nd.sk = true
      · have hk' : ¬ (nd.sigType = 0 ∨ (!nd.pk) = true ∨ (!nd.sk) = true) := by
          rintro (h | h | h) <;> simp_all
        cases hs : signHash nd.sigType h with
        | error er =>
          have e : calls n s (.signer x h aa :: cs) = calls n s cs := by
            simp only [calls, setSigner, hm, if_neg hk', hs]
          rw [e]
          exact skip (by simp [added, hm, hs, Except.toBool]) (by simp [signers, hm, hs])
        | ok hash =>
          have ha : added s.certs (.signer x h aa :: cs) = x :: added s.certs cs := by
            simp [added, hm, hs, hk.1, hk.2.1, hk.2.2, Except.toBool]
          have hsg : signers s.certs (.signer x h aa :: cs) = [(x, aa, hash)] ++ signers s.certs cs := by
            simp [signers, hm, hs, hk.1, hk.2.1, hk.2.2]
          have hxs : x ∉ xs := by
            rw [ha, List.nodup_append] at hnd
            exact fun h => hnd.2.2 x h x (List.mem_cons_self ..) rfl
          have hxl : xs.length ≤ n := by rw [ha] at hn; simp at hn; omega
          obtain ⟨s1, h1, h2, _, _, _, _, _, h3, h4⟩ := addCert_ok H (n := n) hxs (hnx x (by rw [ha]; simp)) hxl
          obtain ⟨s2, g1, g2, g3, _⟩ := addSigner_ok h2 (n := n) ⟨none, x, aa, hash⟩ rfl (by omega)
          have e : calls n s (.signer x h aa :: cs) = calls n s2 cs := by
            simp only [calls, setSigner, hm, if_neg hk', hs, h1, g1]
          rw [e]
          exact step s2 x [(x, aa, hash)] ha hsg (by simp) g2 (by rw [g3]; exact h3) (by rw [g3]; exact h4)
      · have hk' : nd.sigType = 0 ∨ (!nd.pk) = true ∨ (!nd.sk) = true := by
          cases h1 : nd.pk <;> cases h2 : nd.sk <;> simp_all
        have e : calls n s (.signer x h aa :: cs) = calls n s cs := by
          simp only [calls, setSigner, hm, if_pos hk']
        rw [e]
        refine skip ?_ (by simp [signers, hm, hk])
        have : (nd.sigType ≠ 0 && nd.pk && nd.sk && (signHash nd.sigType h).toBool) = false := by
          cases h1 : nd.pk <;> cases h2 : nd.sk <;> simp_all
        simp only [added, hm, Option.any_some, this]
        rfl

/-- C123 (lists): after any series of calls on an empty message, in which every certificate is added at most once and is not
linked yet, the message holds exactly the certificates of the accepted calls and exactly the signers with their attributes and
hashes, both in the order of the calls; the certificates are unchanged apart from their links. -/
theorem c123_lists_partial (cs : List Call) (s : Msg) (h0 : s.head = none) (h1 : s.shead = none)
    (hv : ∀ c ∈ cs, ∀ x, names c = some x → (s.certs x).isSome)
    (hnd : (added s.certs cs).Nodup) (hnx : ∀ x ∈ added s.certs cs, nextC s.certs x = some none) :
    ∃ s', calls (added s.certs cs).length s cs = .done s' ∧
      Holds s' (added s.certs cs) (signers s.certs cs) ∧ (∀ a, (s'.certs a).map bare = (s.certs a).map bare) := by
  have H : Holds s [] [] := by
    refine ⟨by rw [h0]; trivial, by simp, [], by rw [h1]; trivial, by simp, by simp, rfl⟩
  simpa using c123_aux cs _ s [] [] H (by simpa using hnd) (by simp) hv hnx (by simp)

/-- Three certificates: one without, two with keys of ML-DSA-65. -/
def mem3 : Nat → Option Node
  | 0 => some {}
  | 1 => some { sigType := 2, pk := true, sk := true }
  | 2 => some { sigType := 2, pk := true, sk := true }
  | _ => none

example : added mem3 [.certificate 0, .signer 2 (some .sha256) 7, .signer 1 (some .sha384) 7, .signer 2 none 0] = [0, 1, 2] ∧
    signers mem3 [.certificate 0, .signer 2 (some .sha256) 7, .signer 1 (some .sha384) 7, .signer 2 none 0] =
      [(1, 7, .sha384), (2, 0, .shake256)] := by decide +kernel

theorem clearCerts_ok : ∀ (xs : List Nat) (n : Nat) (m : Nat → Option Node) (p : Option Nat),
    Chain (nextC m) p xs → xs.Nodup → (∀ x ∈ xs, ∀ nd, m x = some nd → nd.heap = true) → xs.length ≤ n →
    clearCerts n m p = .done (fun a => if a ∈ xs then none else m a) := by
  intro xs
  induction xs with
  | nil =>
    intro n m p h _ _ _
    cases p with
    | none => cases n <;> simp [clearCerts]
    | some t => exact absurd h (by simp [Chain])
  | cons b xs ih =>
    intro n m p h hnd hh hn
    cases p with
    | none => exact absurd h (by simp [Chain])
    | some t =>
      obtain ⟨rfl, q, hq, hc⟩ := h
      obtain ⟨n, rfl⟩ : ∃ k, n = k + 1 := ⟨n - 1, by simp at hn; omega⟩
      rw [List.nodup_cons] at hnd
      obtain ⟨nd, hm, hnd'⟩ : ∃ nd, m t = some nd ∧ nd.next = q := by
        unfold nextC at hq
        cases h : m t with
        | none => rw [h] at hq; cases hq
        | some nd => rw [h] at hq; exact ⟨nd, rfl, by simpa using hq⟩
      have hp : ∀ a ∈ xs, put m t none a = m a := by
        intro a ha
        have : a ≠ t := fun e => hnd.1 (e ▸ ha)
        simp [put, this]
      have := ih n (put m t none) q (chain_congr (fun a ha => by simp only [nextC, hp a ha]) hc) hnd.2
        (fun x hx nd' h' => hh x (List.mem_cons_of_mem _ hx) nd' (by rw [← hp x hx]; exact h')) (by simp at hn; omega)
      simp only [clearCerts, hm, hh t (List.mem_cons_self ..) nd hm, if_true, hnd', this]
      congr 1
      funext a
      by_cases e : a = t
      · subst e; simp [put]
      · simp [put, e]

theorem clearInfos_ok : ∀ (xs : List Nat) (n : Nat) (m : Nat → Option SInfo) (p : Option Nat),
    Chain (nextS m) p xs → xs.Nodup → xs.length ≤ n →
    clearInfos n m p = .done (fun a => if a ∈ xs then none else m a) := by
  intro xs
  induction xs with
  | nil =>
    intro n m p h _ _
    cases p with
    | none => cases n <;> simp [clearInfos]
    | some t => exact absurd h (by simp [Chain])
  | cons b xs ih =>
    intro n m p h hnd hn
    cases p with
    | none => exact absurd h (by simp [Chain])
    | some t =>
      obtain ⟨rfl, q, hq, hc⟩ := h
      obtain ⟨n, rfl⟩ : ∃ k, n = k + 1 := ⟨n - 1, by simp at hn; omega⟩
      rw [List.nodup_cons] at hnd
      obtain ⟨nd, hm, hnd'⟩ : ∃ nd, m t = some nd ∧ nd.next = q := by
        unfold nextS at hq
        cases h : m t with
        | none => rw [h] at hq; cases hq
        | some nd => rw [h] at hq; exact ⟨nd, rfl, by simpa using hq⟩
      have hp : ∀ a ∈ xs, put m t none a = m a := by
        intro a ha
        have : a ≠ t := fun e => hnd.1 (e ▸ ha)
        simp [put, this]
      have := ih n (put m t none) q (chain_congr (fun a ha => by simp only [nextS, hp a ha]) hc) hnd.2
        (by simp at hn; omega)
      simp only [clearInfos, hm, hnd', this]
      congr 1
      funext a
      by_cases e : a = t
      · subst e; simp [put]
      · simp [put, e]

/-- C123 (release): a message with these lists, all of whose certificates were allocated, is released: every certificate of the
list and every signer info is freed once, everything else is untouched, and the message is empty. -/
theorem c123_clear_partial (s : Msg) (xs : List Nat) (ys : List (Nat × Nat × Hash)) (H : Holds s xs ys)
    (hh : ∀ x ∈ xs, ∀ nd, s.certs x = some nd → nd.heap = true) (n : Nat) (hn : xs.length ≤ n) (hn' : ys.length ≤ n) :
    ∃ s', clear n s = .done s' ∧ s'.head = none ∧ s'.shead = none ∧ s'.data = [] ∧ s'.embed = false ∧
      (∀ a, s'.certs a = if a ∈ xs then none else s.certs a) ∧
      (∃ as, Chain (nextS s.infos) s.shead as ∧ ∀ a, s'.infos a = if a ∈ as then none else s.infos a) := by
  obtain ⟨as, hc, hnd, _, hs⟩ := H.infos
  have hlen : as.length = ys.length := by simpa using congrArg List.length hs
  have h1 := clearCerts_ok xs n s.certs s.head H.certs H.nodup hh hn
  have h2 := clearInfos_ok as n s.infos s.shead hc hnd (by omega)
  exact ⟨_, by simp only [clear, h1, h2]; rfl, rfl, rfl, rfl, rfl, fun _ => rfl, as, hc, fun _ => rfl⟩

/-- C123 (negation, twice the same): if a certificate is the last one of the list already, adding it is reported as success and
closes the list to a circle: the next call to add any certificate does not return, and the release accesses freed memory. -/
theorem c123_negation_twice (m : Nat → Option Node) (x y : Nat) (nd : Node) (hx : m x = some nd) (hr : nd.raw = true)
    (hn : nd.next = none) (hh : nd.heap = true) (hy : (m y).any (·.raw)) (hyx : y ≠ x) :
    ∃ s1 s2, setCertificate 1 { certs := m } (some x) = .done (0, s1) ∧ setCertificate 1 s1 (some x) = .done (0, s2) ∧
      (∀ n, setCertificate n s2 (some y) = .running) ∧ (∀ n, clear (n + 2) s2 = .fault) := by
  refine ⟨{ certs := m, head := some x }, { certs := put m x (some { nd with next := some x }), head := some x }, ?_, ?_, ?_, ?_⟩
  · simp [setCertificate, hx, hr, addCert]
  · simp [setCertificate, hx, hr, addCert, appendCert, hn]
  · intro n
    obtain ⟨ny, h1, h2⟩ : ∃ ny, m y = some ny ∧ ny.raw = true := by
      cases h : m y with
      | none => rw [h] at hy; cases hy
      | some ny => rw [h] at hy; exact ⟨ny, rfl, by simpa using hy⟩
    have loop : ∀ k, appendCert k (put m x (some { nd with next := some x })) x y = .running := by
      intro k
      induction k with
      | zero => rfl
      | succ k ih => simp [appendCert, put] at ih ⊢; exact ih
    simp [setCertificate, put, hyx, h1, h2, addCert] at loop ⊢
    rw [loop n]
  · intro n
    simp [clear, clearCerts, put, hh]

example : mem3 0 = some {} ∧ (mem3 1).any (·.raw) = true := by decide +kernel

/-- C123 (negation, two signatures with one certificate): a signer set twice, for example with two hashes, is accepted twice, and
its certificate is then followed by itself. -/
theorem c123_negation_signer (m : Nat → Option Node) (x : Nat) (nd : Node) (hx : m x = some nd) (hn : nd.next = none)
    (ht : nd.sigType ≠ 0) (hpk : nd.pk = true) (hsk : nd.sk = true) (h h' : Option Hash) (u v : Hash)
    (hu : signHash nd.sigType h = .ok u) (hv : signHash nd.sigType h' = .ok v) (aa aa' : Nat) :
    ∃ s1 s2, setSigner 1 { certs := m } (some x) h aa = .done (0, s1) ∧ setSigner 1 s1 (some x) h' aa' = .done (0, s2) ∧
      s2.head = some x ∧ nextC s2.certs x = some (some x) := by
  refine ⟨{ certs := m, head := some x, infos := put (fun _ => none) 0 (some ⟨none, x, aa, u⟩), fresh := 1, shead := some 0 },
    { certs := put m x (some { nd with next := some x }), head := some x, fresh := 2, shead := some 0,
      infos := put (put (put (fun _ => none) 0 (some ⟨none, x, aa, u⟩)) 1 (some ⟨none, x, aa', v⟩)) 0
        (some ⟨some 1, x, aa, u⟩) }, ?_, ?_, rfl, by simp [nextC, put]⟩
  · simp [setSigner, hx, ht, hpk, hsk, hu, addCert, addSigner]
  · simp [setSigner, hx, ht, hpk, hsk, hv, addCert, appendCert, hn, addSigner, appendInfo, put]

example : signHash 2 (some .sha384) = .ok .sha384 ∧ signHash 2 (some .sha512) = .ok .sha512 := by decide +kernel

/-- C123 (negation, memory of the caller): a certificate that was not allocated with `lc_alloc_aligned`, for example one on the
stack, is accepted, and the release of the message frees it. -/
theorem c123_negation_owner (m : Nat → Option Node) (x : Nat) (nd : Node) (hx : m x = some nd) (hr : nd.raw = true)
    (hh : nd.heap = false) (n : Nat) :
    ∃ s1, setCertificate 1 { certs := m } (some x) = .done (0, s1) ∧ clear (n + 1) s1 = .fault := by
  refine ⟨{ certs := m, head := some x }, ?_, ?_⟩
  · simp [setCertificate, hx, hr, addCert]
  · simp [clear, clearCerts, hx, hh]

theorem signHash_error (t : Nat) (h : Option Hash) (e : Int) (he : signHash t h = .error e) : e ≠ 0 := by
  cases h with
  | some x =>
    simp only [signHash] at he
    split at he
    · rename_i hc
      injection he with he
      subst he
      exact Int.ne_of_lt hc
    · cases he
  | none =>
    simp only [signHash, typeToHash] at he
    cases hf : algos.find? (fun r => t == r.pkey) with
    | none =>
      rw [hf] at he
      injection he with he
      subst he
      decide
    | some r =>
      rw [hf] at he
      have hm := List.mem_of_find?_eq_some hf
      have key : ∀ r ∈ algos, (match (if r.stdHash = 124 then Except.error (-ENOPKG) else oidToHash r.stdHash : Except Int Hash) with
        | .ok _ => true
        | .error e => decide (e ≠ 0)) = true := by decide +kernel
      have := key r hm
      simp only [he] at this
      exact of_decide_eq_true this

/-- C123 (return values): a call returns 0 exactly if the certificate is encoded, respectively has a type, both keys and a usable
hash; otherwise nothing is changed. -/
theorem c123_codes (n : Nat) (s : Msg) (x : Nat) (nd : Node) (hx : s.certs x = some nd) (r : Int) (s' : Msg) :
    (setCertificate n s (some x) = .done (r, s') → (r = 0 ↔ nd.raw = true) ∧ (r ≠ 0 → s' = s)) ∧
    (∀ h aa, setSigner n s (some x) h aa = .done (r, s') →
      (r = 0 ↔ nd.sigType ≠ 0 ∧ nd.pk = true ∧ nd.sk = true ∧ ∃ hash, signHash nd.sigType h = .ok hash) ∧ (r ≠ 0 → s' = s)) := by
  constructor
  · intro h
    simp only [setCertificate, hx] at h
    split at h
    · rename_i hr
      injection h with h
      injection h with h1 h2
      subst h1
      simp at hr
      simp [hr, h2]
    · rename_i hr
      split at h
      · injection h with h
        injection h with h1 h2
        subst h1
        simp at hr
        simp [hr]
      · cases h
      · cases h
  · intro hh aa h
    simp only [setSigner, hx] at h
    split at h
    · rename_i hr
      injection h with h
      injection h with h1 h2
      subst h1
      refine ⟨⟨fun h => absurd h (by decide), fun h => ?_⟩, fun _ => h2.symm⟩
      simp [h.1, h.2.1, h.2.2.1] at hr
    · rename_i hr
      have hk : nd.sigType ≠ 0 ∧ nd.pk = true ∧ nd.sk = true := by
        cases h1 : nd.pk <;> cases h2 : nd.sk <;> simp_all
      cases hs : signHash nd.sigType hh with
      | error e =>
        rw [hs] at h
        injection h with h
        injection h with h1 h2
        subst h1
        have := signHash_error _ _ _ hs
        exact ⟨⟨fun h => absurd h this, fun h => by obtain ⟨_, _, _, _, h⟩ := h; cases h⟩, fun _ => h2.symm⟩
      | ok hash =>
        rw [hs] at h
        dsimp only at h
        split at h
        · cases h
        · cases h
        · split at h
          · injection h with h
            injection h with h1 h2
            subst h1
            exact ⟨⟨fun _ => ⟨hk.1, hk.2.1, hk.2.2, hash, rfl⟩, fun _ => rfl⟩, fun h => absurd rfl h⟩
          · cases h
          · cases h

/-- C123 (NULL pointers are refused). -/
theorem c123_null (n : Nat) (s : Msg) (h : Option Hash) (aa : Nat) (e : Bool) :
    setCertificate n s none = .done (-22, s) ∧ setSigner n s none h aa = .done (-22, s) ∧ setData s none e = (-22, s) :=
  ⟨rfl, rfl, rfl⟩

/-! ### C124 -/

/-- The collision resistance a signature type asks for, also for ML-DSA-87 with Ed448, which is not implemented. -/
def level (t : Nat) : Option Nat := if t = 7 then some 256 else wanted t

/-- C124: whatever hash `lc_pkcs7_set_signer` records for a signer — the given one or the standard one — is as strong as the
signature algorithm; a hash that is given is either used or the call is refused. -/
theorem c124_hash (t : Nat) (h : Option Hash) (hash : Hash) (hs : signHash t h = .ok hash) :
    (∃ w, level t = some w ∧ w ≤ strength hash) ∧ (h = some hash ∨ h = none) := by
  cases h with
  | some x =>
    simp only [signHash] at hs
    split at hs
    · cases hs
    · rename_i hc
      injection hs with hs
      subst hs
      refine ⟨?_, .inl rfl⟩
      have h0 : sigCheckHash t (some x) = 0 := by
        have : sigCheckHash t (some x) = 0 ∨ sigCheckHash t (some x) = -ENOPKG := by
          simp only [sigCheckHash]
          repeat' split
          all_goals simp
        rcases this with h | h
        · exact h
        · rw [h] at hc; exact absurd (by decide : -ENOPKG < 0) hc
      obtain ⟨x', w, h1, h2, h3⟩ := (c122_strength t (some x)).mp h0
      injection h1 with h1
      subst h1
      refine ⟨w, ?_, h3⟩
      unfold level
      rw [if_neg]
      · exact h2
      · rintro rfl; simp [wanted] at h2
  | none =>
    refine ⟨?_, .inr rfl⟩
    simp only [signHash, typeToHash] at hs
    cases hf : algos.find? (fun r => t == r.pkey) with
    | none => rw [hf] at hs; simp at hs
    | some r =>
      rw [hf] at hs
      have ht : t = r.pkey := by simpa using List.find?_some hf
      have hm := List.mem_of_find?_eq_some hf
      subst ht
      have key : ∀ r ∈ algos, (match (if r.stdHash = 124 then Except.error (-ENOPKG) else oidToHash r.stdHash : Except Int Hash),
          level r.pkey with
        | .ok x, some w => decide (w ≤ strength x)
        | .ok _, none => false
        | .error _, _ => true) = true := by decide +kernel
      have := key r hm
      simp only [hs] at this
      cases hl : level r.pkey with
      | none => rw [hl] at this; cases this
      | some w => rw [hl] at this; exact ⟨w, rfl, of_decide_eq_true this⟩

example : signHash 3 none = .ok .shake256 ∧ signHash 3 (some .sha384) = .error (-ENOPKG) ∧
    signHash 2 (some .sha384) = .ok .sha384 := by decide +kernel

/-! ### C125 -/

/-- A series of calls of `lc_pkcs7_set_data`. -/
def setDatas (s : Msg) : List (List UInt8 × Bool) → Msg
  | [] => s
  | (d, e) :: ds => setDatas (setData s (some d) e).2 ds

/-- C125 (what holds): after any series of calls the data are the ones of the last call, and they are embedded exactly if
embedding was asked for in any of the calls (or before). -/
theorem c125_data_partial (s : Msg) (ds : List (List UInt8 × Bool)) :
    (setDatas s ds).data = (ds.getLast?.map (·.1)).getD s.data ∧
    (setDatas s ds).embed = (s.embed || ds.any (·.2)) := by
  induction ds generalizing s with
  | nil => simp [setDatas]
  | cons d ds ih =>
    obtain ⟨d, e⟩ := d
    obtain ⟨h1, h2⟩ := ih (setData s (some d) e).2
    simp only [setDatas]
    rw [h1, h2]
    constructor
    · cases ds with
      | nil => rfl
      | cons u us =>
        rw [List.getLast?_cons_cons]
        cases hl : (u :: us).getLast? with
        | none => simp at hl
        | some v => rfl
    · cases e <;> simp [setData]

/-- C125 (negation): a later call without the flag does not undo the embedding; data meant to be detached are put into the
message. -/
theorem c125_negation (s : Msg) (d secret : List UInt8) :
    (setDatas s [(d, true), (secret, false)]).data = secret ∧ (setDatas s [(d, true), (secret, false)]).embed = true :=
  ⟨rfl, rfl⟩

end LC.Acc
