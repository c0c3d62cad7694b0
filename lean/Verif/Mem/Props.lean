import Verif.Mem.Model

/-!
# C129: the allocator gives back what it has taken

Specification: a program which frees only pointers it has obtained, each once, writes only to memory it has obtained, on a system which hands
out memory and descriptors not in use.  Then no undefined call is made, the memory and descriptors held are exactly those of the pointers the
program has, contents of them are left alone.  The conditions on sizes and on errors of `mlock` and `memfd_secret` in `Allowed` are needed: see
the negations at the end.
-/

namespace LC.Mem

/-! ## Specification -/

/-- The system hands out memory not overlapping with memory in use. -/
def Fresh (s : St) (p n : Nat) : Prop := ∀ x ∈ s.blocks ++ s.maps, p + n ≤ x.1 ∨ x.1 + x.2 ≤ p

/-- The answers of the system: memory and descriptors not in use. -/
def OsOk (s : St) (n : Nat) (os : Os) : Prop :=
  (∀ p, os.memalign = .ok p → Fresh s p n) ∧ (∀ p, os.mmap = .ok p → Fresh s p n) ∧ ∀ fd, os.secret = .ok fd → fd ∉ s.fds

/-- Calls of a correct program on such a system; sizes not close to 2^64; `mlock` fails with EPERM or EAGAIN only; memfd_secret does not vanish while
memory obtained with it is in use. -/
def Allowed (s : St) (live : List (Nat × Nat)) : Op → Prop
  | .alloc size os => OsOk s (32 + size) os ∧ 32 + size < 2 ^ 64
  | .allocSecure size os =>
    OsOk s (32 + size) os ∧ 32 + size < 2 ^ 64 ∧ (∀ e, os.mlock = some e → e = EPERM ∨ e = EAGAIN) ∧
      (os.secret = .error ENOSYS → s.maps = [])
  | .free ptr => ptr = 0 ∨ ∃ n, (ptr, n) ∈ live
  | .write a _ => ∃ x ∈ live, x.1 ≤ a ∧ a < x.1 + x.2

/-- All calls of the sequence are of this kind. -/
def AllAllowed : St → List (Nat × Nat) → List Op → Prop
  | _, _, [] => True
  | s, live, op :: ops => Allowed s live op ∧ AllAllowed (step s op).2.2 (remember live op (step s op).2.1) ops

/-! ## Invariant -/

/-- A pointer in use: start of the block, size asked for, descriptor. -/
structure Live where
  base : Nat
  size : Nat
  fd : Option Nat

def heapOf (l : Live) : Option (Nat × Nat) := match l.fd with
  | none => some (l.base, 32 + l.size)
  | some _ => none

def mapOf (l : Live) : Option (Nat × Nat) := match l.fd with
  | none => none
  | some _ => some (l.base, 32 + l.size)

def hdrOf (l : Live) : Hdr := match l.fd with
  | none => ⟨-1, 32 + l.size⟩
  | some f => ⟨f, 32 + l.size⟩

def Apart (a b : Live) : Prop :=
  (a.base + (32 + a.size) ≤ b.base ∨ b.base + (32 + b.size) ≤ a.base) ∧ ∀ f, a.fd = some f → b.fd ≠ some f

structure Inv (s : St) (L : List Live) : Prop where
  blocks : s.blocks = L.filterMap heapOf
  maps : s.maps = L.filterMap mapOf
  fds : s.fds = L.filterMap Live.fd
  hdr : ∀ l ∈ L, s.hdr l.base = hdrOf l
  apart : L.Pairwise Apart
  memfd : ∀ l ∈ L, ∀ f, l.fd = some f → s.memfd = true
  bad : s.bad = false

def view (L : List Live) : List (Nat × Nat) := L.map (fun l => (l.base + 32, l.size))

theorem Apart.symm {a b : Live} (h : Apart a b) : Apart b a :=
  ⟨h.1.symm, fun f hb ha => h.2 f ha hb⟩

theorem apart_of_mem {L : List Live} (h : L.Pairwise Apart) {a b : Live} (ha : a ∈ L) (hb : b ∈ L) : a = b ∨ Apart a b := by
  induction L with
  | nil => cases ha
  | cons x xs ih =>
    rw [List.pairwise_cons] at h
    rcases List.mem_cons.1 ha with rfl | ha'
    · rcases List.mem_cons.1 hb with rfl | hb'
      · exact Or.inl rfl
      · exact Or.inr (h.1 _ hb')
    · rcases List.mem_cons.1 hb with rfl | hb'
      · exact Or.inr (h.1 _ ha').symm
      · exact ih h.2 ha' hb'

theorem base_inj {L : List Live} (h : L.Pairwise Apart) {a b : Live} (ha : a ∈ L) (hb : b ∈ L) (e : a.base = b.base) : a = b := by
  rcases apart_of_mem h ha hb with h | h
  · exact h
  · rcases h.1 with h | h <;> omega

theorem fd_inj {L : List Live} (h : L.Pairwise Apart) {a b : Live} (ha : a ∈ L) (hb : b ∈ L) {f : Nat} (e1 : a.fd = some f)
    (e2 : b.fd = some f) : a = b := by
  rcases apart_of_mem h ha hb with h | h
  · exact h
  · exact absurd e2 (h.2 f e1)

theorem filterMap_filter {β : Type} (L : List Live) (f : Live → Option β) (p : Live → Bool) (g : β → Bool)
    (h : ∀ l ∈ L, ∀ y, f l = some y → g y = p l) : (L.filter p).filterMap f = (L.filterMap f).filter g := by
  induction L with
  | nil => rfl
  | cons x xs ih =>
    have ih' := ih (fun l hl => h l (List.mem_cons_of_mem _ hl))
    cases hf : f x with
    | none =>
      rw [List.filterMap_cons_none hf]
      cases hp : p x with
      | true => rw [List.filter_cons_of_pos (by simpa using hp), List.filterMap_cons_none hf, ih']
      | false => rw [List.filter_cons_of_neg (by simp [hp]), ih']
    | some y =>
      have hg := h x List.mem_cons_self y hf
      rw [List.filterMap_cons_some hf]
      cases hp : p x with
      | true =>
        rw [List.filter_cons_of_pos (by simpa using hp), List.filterMap_cons_some hf, ih', List.filter_cons_of_pos (by rw [hg, hp])]
      | false => rw [List.filter_cons_of_neg (by simp [hp]), ih', List.filter_cons_of_neg (by rw [hg, hp]; simp)]

theorem mem_res {s : St} {L : List Live} (hI : Inv s L) {l : Live} (hl : l ∈ L) : (l.base, 32 + l.size) ∈ s.blocks ++ s.maps := by
  rw [List.mem_append, hI.blocks, hI.maps, List.mem_filterMap, List.mem_filterMap]
  cases hf : l.fd with
  | none => exact Or.inl ⟨l, hl, by simp [heapOf, hf]⟩
  | some f => exact Or.inr ⟨l, hl, by simp [mapOf, hf]⟩

/-! ## Release -/

theorem free_inv {s : St} {L : List Live} (hI : Inv s L) {ptr : Nat} (h : ptr = 0 ∨ ∃ n, (ptr, n) ∈ view L) :
    Inv (lcFree s ptr) (L.filter (fun l => l.base + 32 != ptr)) ∧ (lcFree s ptr).mem = s.mem := by
  rcases h with rfl | ⟨n, hn⟩
  · have : L.filter (fun l => l.base + 32 != 0) = L := by
      apply List.filter_eq_self.2
      intro l _; simp
    rw [this]
    exact ⟨by simpa [lcFree] using hI, by simp [lcFree]⟩
  · obtain ⟨l, hl, he⟩ := List.mem_map.1 hn
    have hp : ptr = l.base + 32 := by
      have := congrArg Prod.fst he; simpa using this.symm
    subst hp
    have key : ∀ l' ∈ L, (l'.base + 32 != l.base + 32) = (l'.base != l.base) := by
      intro l' _
      by_cases h : l'.base = l.base <;> simp [h]
    have hsub : (L.filter (fun l' => l'.base + 32 != l.base + 32)).Sublist L := List.filter_sublist
    have hblocks : (L.filter (fun l' => l'.base + 32 != l.base + 32)).filterMap heapOf =
        (L.filterMap heapOf).filter (fun x => x.1 != l.base) := by
      apply filterMap_filter
      intro l' hl' y hy
      rw [key l' hl']
      unfold heapOf at hy
      split at hy
      · cases hy; rfl
      · cases hy
    have hmaps : (L.filter (fun l' => l'.base + 32 != l.base + 32)).filterMap mapOf =
        (L.filterMap mapOf).filter (fun x => x.1 != l.base) := by
      apply filterMap_filter
      intro l' hl' y hy
      rw [key l' hl']
      unfold mapOf at hy
      split at hy
      · cases hy
      · cases hy; rfl
    have hhdr : ∀ l' ∈ L.filter (fun l' => l'.base + 32 != l.base + 32), s.hdr l'.base = hdrOf l' :=
      fun l' hl' => hI.hdr l' (hsub.subset hl')
    have hmf : ∀ l' ∈ L.filter (fun l' => l'.base + 32 != l.base + 32), ∀ f, l'.fd = some f → s.memfd = true :=
      fun l' hl' => hI.memfd l' (hsub.subset hl')
    have hh := hI.hdr l hl
    have hsub32 : l.base + 32 - OFFSET = l.base := by unfold OFFSET; omega
    cases hf : l.fd with
    | none =>
      have hfd : ¬ (0 : Int) ≤ (s.hdr l.base).fd := by rw [hh]; simp [hdrOf, hf]
      have hmem : s.blocks.any (fun x => x.1 == l.base) = true := by
        rw [List.any_eq_true]
        refine ⟨(l.base, 32 + l.size), ?_, by simp⟩
        rw [hI.blocks, List.mem_filterMap]
        exact ⟨l, hl, by simp [heapOf, hf]⟩
      have e : lcFree s (l.base + 32) = { s with blocks := s.blocks.filter (fun x => x.1 != l.base) } := by
        unfold lcFree
        rw [if_neg (by omega), hsub32]
        simp only [hfd, decide_false, Bool.and_false, Bool.false_eq_true, if_false]
        unfold sysFree
        rw [if_pos hmem]
      rw [e]
      refine ⟨⟨?_, ?_, ?_, hhdr, hI.apart.sublist hsub, hmf, hI.bad⟩, rfl⟩
      · rw [hblocks, ← hI.blocks]
      · show s.maps = _
        rw [hmaps, ← hI.maps]
        symm
        apply List.filter_eq_self.2
        intro x hx
        rw [hI.maps, List.mem_filterMap] at hx
        obtain ⟨l', hl', hx'⟩ := hx
        have hne : l'.base ≠ l.base := by
          intro h
          have := base_inj hI.apart hl' hl h
          subst this
          simp [mapOf, hf] at hx'
        unfold mapOf at hx'
        split at hx'
        · cases hx'
        · cases hx'; simpa using hne
      · show s.fds = _
        rw [hI.fds]
        have : (L.filter (fun l' => l'.base + 32 != l.base + 32)).filterMap Live.fd = (L.filterMap Live.fd).filter (fun _ => true) := by
          apply filterMap_filter
          intro l' hl' y hy
          have hne : l'.base ≠ l.base := by
            intro h
            have := base_inj hI.apart hl' hl h
            subst this
            rw [hf] at hy; cases hy
          simpa using hne
        rw [this]
        exact (List.filter_eq_self.2 (fun _ _ => rfl)).symm
    | some f =>
      have hm := hI.memfd l hl f hf
      have e0 : s.hdr l.base = ⟨(f : Int), 32 + l.size⟩ := by rw [hh]; simp [hdrOf, hf]
      have hmem : s.maps.any (fun x => x == (l.base, 32 + l.size)) = true := by
        rw [List.any_eq_true]
        refine ⟨(l.base, 32 + l.size), ?_, by simp⟩
        rw [hI.maps, List.mem_filterMap]
        exact ⟨l, hl, by simp [mapOf, hf]⟩
      have hfm : s.fds.any (fun x => x == f) = true := by
        rw [List.any_eq_true]
        refine ⟨f, ?_, by simp⟩
        rw [hI.fds, List.mem_filterMap]
        exact ⟨l, hl, hf⟩
      have e : lcFree s (l.base + 32) =
          { s with maps := s.maps.filter (fun x => x.1 != l.base), fds := s.fds.filter (fun x => x != f) } := by
        unfold lcFree
        rw [if_neg (by omega), hsub32]
        dsimp only
        rw [e0]
        dsimp only
        rw [hm]
        have h0 : (0 : Int) ≤ (f : Int) := Int.natCast_nonneg f
        simp only [h0, decide_true, Bool.and_self, if_true, Int.toNat_natCast]
        unfold munmap
        rw [if_pos hmem]
        unfold closeFd
        rw [if_pos hfm]
        simp only [hm]
      rw [e]
      refine ⟨⟨?_, ?_, ?_, hhdr, hI.apart.sublist hsub, hmf, hI.bad⟩, rfl⟩
      · show s.blocks = _
        rw [hblocks, ← hI.blocks]
        symm
        apply List.filter_eq_self.2
        intro x hx
        rw [hI.blocks, List.mem_filterMap] at hx
        obtain ⟨l', hl', hx'⟩ := hx
        have hne : l'.base ≠ l.base := by
          intro h
          have := base_inj hI.apart hl' hl h
          subst this
          simp [heapOf, hf] at hx'
        unfold heapOf at hx'
        split at hx'
        · cases hx'; simpa using hne
        · cases hx'
      · rw [hmaps, ← hI.maps]
      · show s.fds.filter _ = _
        rw [hI.fds]
        symm
        apply filterMap_filter
        intro l' hl' y hy
        rw [key l' hl']
        by_cases h : l'.base = l.base
        · have := base_inj hI.apart hl' hl h
          subst this
          rw [hf] at hy; cases hy; simp
        · have : y ≠ f := by
            intro hyf
            subst hyf
            exact h (by rw [fd_inj hI.apart hl' hl hy hf])
          show (y != f) = (l'.base != l.base)
          rw [bne_iff_ne.2 this, bne_iff_ne.2 h]

theorem view_filter (L : List Live) (ptr : Nat) :
    view (L.filter (fun l => l.base + 32 != ptr)) = (view L).filter (fun x => x.1 != ptr) := by
  unfold view
  rw [List.filter_map]
  rfl

/-! ## Allocation -/

/-- What an allocation does, seen from outside: it fails and changes nothing but the flag, or there is a new pointer. -/
structure Outcome (s : St) (L : List Live) (size : Nat) (r : Int × Option Nat × St) : Prop where
  fail : r.2.1 = none → Inv r.2.2 L ∧ r.2.2.mem = s.mem
  good : ∀ p, r.2.1 = some p → r.1 = 0 ∧ ∃ l : Live, p = l.base + 32 ∧ l.size = size ∧ Inv r.2.2 (l :: L) ∧
    (∀ a, l.base + 32 ≤ a → a < l.base + 32 + size → r.2.2.mem a = 0) ∧
    ∀ a, a < l.base ∨ l.base + 32 + size ≤ a → r.2.2.mem a = s.mem a

theorem fullSize_eq {size : Nat} (h : 32 + size < 2 ^ 64) : fullSize size = 32 + size := by
  unfold fullSize OFFSET
  exact Nat.mod_eq_of_lt h

theorem fresh_apart {s : St} {L : List Live} (hI : Inv s L) {p size : Nat} (hF : Fresh s p (32 + size)) :
    ∀ l ∈ L, p + (32 + size) ≤ l.base ∨ l.base + (32 + l.size) ≤ p :=
  fun _ hl => hF _ (mem_res hI hl)

theorem setHdr_other {s : St} {L : List Live} (hI : Inv s L) {p size : Nat} (hF : Fresh s p (32 + size)) (h : Hdr) :
    ∀ l ∈ L, setHdr s.hdr p h l.base = hdrOf l := by
  intro l hl
  have := fresh_apart hI hF l hl
  unfold setHdr
  rw [if_neg (by omega), hI.hdr l hl]

theorem internal_ok {s : St} {L : List Live} (hI : Inv s L) {size : Nat} {secure : Bool} {os : Os} (hO : OsOk s (32 + size) os)
    (hs : 32 + size < 2 ^ 64) (hm : secure = true → ∀ e, os.mlock = some e → e = EPERM ∨ e = EAGAIN) :
    Outcome s L size (allocInternal s size secure os) := by
  unfold allocInternal
  cases hp : os.memalign with
  | error e => exact ⟨fun _ => ⟨hI, rfl⟩, fun p h => by cases h⟩
  | ok p =>
    have hF := hO.1 p hp
    have ok : ∀ locked, Outcome s L size (0, some (p + OFFSET),
        { s with
            blocks := (p, fullSize size) :: s.blocks
            hdr := setHdr s.hdr p ⟨-1, fullSize size⟩
            mem := zero s.mem (p + OFFSET) size
            locked := locked
            bad := s.bad || decide (fullSize size < OFFSET + size) }) := by
      intro locked
      refine ⟨fun h => (by cases h), fun q hq => ?_⟩
      cases hq
      refine ⟨rfl, ⟨p, size, none⟩, rfl, rfl, ⟨?_, ?_, ?_, ?_, ?_, ?_, ?_⟩, ?_, ?_⟩
      · simp only [fullSize_eq hs, hI.blocks]; rfl
      · exact hI.maps
      · exact hI.fds
      · intro l hl
        rcases List.mem_cons.1 hl with rfl | hl
        · simp [setHdr, hdrOf, fullSize_eq hs]
        · exact setHdr_other hI hF _ l hl
      · exact List.pairwise_cons.2 ⟨fun l hl => ⟨fresh_apart hI hF l hl, fun f hf => by cases hf⟩, hI.apart⟩
      · intro l hl f hf
        rcases List.mem_cons.1 hl with rfl | hl
        · cases hf
        · exact hI.memfd l hl f hf
      · simp [hI.bad, fullSize_eq hs, OFFSET]
      · intro a h1 h2
        show zero s.mem (p + OFFSET) size a = 0
        unfold zero OFFSET
        exact if_pos ⟨h1, h2⟩
      · intro a h
        show zero s.mem (p + OFFSET) size a = _
        unfold zero OFFSET
        refine if_neg ?_
        dsimp only at h
        omega
    cases secure with
    | false => simpa using ok s.locked
    | true =>
      simp only [if_true]
      cases hl : os.mlock with
      | none => exact ok _
      | some e =>
        rcases hm rfl e hl with h | h
        · simp only [h, ne_eq, not_true, false_and, if_false]; exact ok _
        · simp only [h, ne_eq, not_true, and_false, if_false]; exact ok _

theorem close_fresh (s : St) (fd : Nat) (h : fd ∉ s.fds) : closeFd { s with fds := fd :: s.fds } fd = s := by
  unfold closeFd
  simp only [List.any_cons, beq_self_eq_true, Bool.true_or, if_true]
  rw [List.filter_cons_of_neg (by simp)]
  have : s.fds.filter (fun x => x != fd) = s.fds := by
    apply List.filter_eq_self.2
    intro x hx
    have : x ≠ fd := fun e => h (e ▸ hx)
    simpa using this
  rw [this]

theorem secure_ok {s : St} {L : List Live} (hI : Inv s L) {size : Nat} {os : Os} (hO : OsOk s (32 + size) os)
    (hs : 32 + size < 2 ^ 64) (hm : ∀ e, os.mlock = some e → e = EPERM ∨ e = EAGAIN)
    (hn : os.secret = .error ENOSYS → s.maps = []) : Outcome s L size (allocSecure s size os) := by
  unfold allocSecure
  cases hf : s.memfd with
  | false =>
    simp only [Bool.not_false, if_true]
    exact internal_ok hI hO hs (fun _ => hm)
  | true =>
    simp only [Bool.not_true, Bool.false_eq_true, if_false]
    cases hsec : os.secret with
    | error e =>
      simp only
      by_cases he : e = ENOSYS
      · rw [if_pos he]
        have hmaps := hn (by rw [hsec, he])
        have hnone : ∀ l ∈ L, ∀ f, l.fd = some f → False := by
          intro l hl f hf
          have h1 : (l.base, 32 + l.size) ∈ s.maps := by
            rw [hI.maps, List.mem_filterMap]
            exact ⟨l, hl, by simp [mapOf, hf]⟩
          rw [hmaps] at h1
          cases h1
        have hI' : Inv { s with memfd := false } L :=
          ⟨hI.blocks, hI.maps, hI.fds, hI.hdr, hI.apart, fun l hl f hf => (hnone l hl f hf).elim, hI.bad⟩
        have h := internal_ok (secure := true) hI' (size := size) (os := os) hO hs (fun _ => hm)
        exact ⟨h.fail, h.good⟩
      · rw [if_neg he]
        exact ⟨fun _ => ⟨hI, rfl⟩, fun p h => by cases h⟩
    | ok fd =>
      have hfd := hO.2.2 fd hsec
      simp only
      cases ht : os.trunc with
      | some e =>
        simp only
        have e1 := close_fresh s fd hfd
        rw [hf] at e1
        exact ⟨fun _ => by rw [e1]; exact ⟨hI, rfl⟩, fun p h => by cases h⟩
      | none =>
        simp only
        cases hmm : os.mmap with
        | error e =>
          simp only
          have e1 := close_fresh s fd hfd
          rw [hf] at e1
          exact ⟨fun _ => by rw [e1]; exact ⟨hI, rfl⟩, fun p h => by cases h⟩
        | ok p =>
          have hF := hO.2.1 p hmm
          refine ⟨fun h => (by cases h), fun q hq => ?_⟩
          cases hq
          refine ⟨rfl, ⟨p, size, some fd⟩, rfl, rfl, ⟨?_, ?_, ?_, ?_, ?_, ?_, ?_⟩, ?_, ?_⟩
          · exact hI.blocks
          · simp only [fullSize_eq hs, hI.maps]; rfl
          · simp only [hI.fds]; rfl
          · intro l hl
            rcases List.mem_cons.1 hl with rfl | hl
            · simp [setHdr, hdrOf, fullSize_eq hs]
            · exact setHdr_other hI hF _ l hl
          · refine List.pairwise_cons.2 ⟨fun l hl => ⟨fresh_apart hI hF l hl, fun f hf' hlf => ?_⟩, hI.apart⟩
            cases hf'
            apply hfd
            rw [hI.fds, List.mem_filterMap]
            exact ⟨l, hl, hlf⟩
          · intro l hl f _
            rfl
          · exact hI.bad
          · intro a h1 h2
            show zero s.mem p (fullSize size) a = 0
            unfold zero
            rw [fullSize_eq hs]
            dsimp only at h1 h2
            exact if_pos ⟨by omega, by omega⟩
          · intro a h
            show zero s.mem p (fullSize size) a = _
            unfold zero
            rw [fullSize_eq hs]
            dsimp only at h
            exact if_neg (by omega)

/-! ## Sequences -/

theorem outcome_inv {s : St} {L : List Live} {size : Nat} {r : Int × Option Nat × St} (h : Outcome s L size r) :
    ∃ L', Inv r.2.2 L' ∧ view L' = (match r.2.1 with
      | some p => (p, size) :: view L
      | none => view L) := by
  cases hp : r.2.1 with
  | none => exact ⟨L, (h.fail hp).1, rfl⟩
  | some p =>
    obtain ⟨_, l, h1, h2, h3, _⟩ := h.good p hp
    exact ⟨l :: L, h3, by simp [view, h1, h2]⟩

theorem step_inv {s : St} {L : List Live} (hI : Inv s L) (op : Op) (ha : Allowed s (view L) op) :
    ∃ L', Inv (step s op).2.2 L' ∧ view L' = remember (view L) op (step s op).2.1 := by
  cases op with
  | alloc size os =>
    obtain ⟨L', h1, h2⟩ := outcome_inv (internal_ok (secure := false) hI ha.1 ha.2 (fun h => by cases h))
    refine ⟨L', h1, ?_⟩
    rw [h2]
    show _ = remember (view L) (Op.alloc size os) (allocInternal s size false os).2.1
    cases (allocInternal s size false os).2.1 <;> rfl
  | allocSecure size os =>
    obtain ⟨L', h1, h2⟩ := outcome_inv (secure_ok hI ha.1 ha.2.1 ha.2.2.1 ha.2.2.2)
    refine ⟨L', h1, ?_⟩
    rw [h2]
    show _ = remember (view L) (Op.allocSecure size os) (allocSecure s size os).2.1
    cases (allocSecure s size os).2.1 <;> rfl
  | free ptr =>
    exact ⟨_, (free_inv hI ha).1, view_filter L ptr⟩
  | write a v =>
    exact ⟨L, ⟨hI.blocks, hI.maps, hI.fds, hI.hdr, hI.apart, hI.memfd, hI.bad⟩, rfl⟩

theorem run_inv : ∀ (ops : List Op) (s : St) (L : List Live), Inv s L → AllAllowed s (view L) ops →
    ∃ L', Inv (run s (view L) ops).1 L' ∧ view L' = (run s (view L) ops).2
  | [], _, L, hI, _ => ⟨L, hI, rfl⟩
  | op :: ops, s, L, hI, ha => by
    obtain ⟨L1, h1, h2⟩ := step_inv hI op ha.1
    have := run_inv ops (step s op).2.2 L1 h1 (by rw [h2]; exact ha.2)
    rw [h2] at this
    exact this

theorem start_inv (hdr : Nat → Hdr) (mem : Nat → Nat) : Inv (start hdr mem) [] :=
  ⟨rfl, rfl, rfl, fun l hl => (by cases hl), List.Pairwise.nil, fun l hl => (by cases hl), rfl⟩

/-- States reached by a correct program, with the pointers it has. -/
def Reached (s : St) (live : List (Nat × Nat)) : Prop :=
  ∃ hdr mem ops, AllAllowed (start hdr mem) [] ops ∧ run (start hdr mem) [] ops = (s, live)

theorem reached_inv {s : St} {live : List (Nat × Nat)} (h : Reached s live) : ∃ L, Inv s L ∧ view L = live := by
  obtain ⟨hdr, mem, ops, ha, hr⟩ := h
  obtain ⟨L, h1, h2⟩ := run_inv ops (start hdr mem) [] (start_inv hdr mem) ha
  have e : run (start hdr mem) (view []) ops = (s, live) := hr
  rw [e] at h1 h2
  exact ⟨L, h1, h2⟩

theorem count_res (L : List Live) :
    (L.filterMap heapOf).length + (L.filterMap mapOf).length = L.length ∧ (L.filterMap Live.fd).length = (L.filterMap mapOf).length := by
  induction L with
  | nil => exact ⟨rfl, rfl⟩
  | cons l L ih =>
    cases hf : l.fd with
    | none =>
      rw [List.filterMap_cons_some (b := (l.base, 32 + l.size)) (by simp [heapOf, hf]), List.filterMap_cons_none (by simp [mapOf, hf]),
        List.filterMap_cons_none hf]
      simp only [List.length_cons]
      omega
    | some f =>
      rw [List.filterMap_cons_none (by simp [heapOf, hf]), List.filterMap_cons_some (b := (l.base, 32 + l.size)) (by simp [mapOf, hf]),
        List.filterMap_cons_some hf]
      simp only [List.length_cons]
      omega

/-- C129: a correct program never makes the allocator call the system in an undefined way. -/
theorem c129_defined_partial (s : St) (live : List (Nat × Nat)) (h : Reached s live) : s.bad = false := by
  obtain ⟨L, hI, _⟩ := reached_inv h
  exact hI.bad

/-- C129: for every pointer the program has there is one block or mapping, for every mapping one descriptor, and nothing else: no leak. -/
theorem c129_no_leak_partial (s : St) (live : List (Nat × Nat)) (h : Reached s live) :
    s.blocks.length + s.maps.length = live.length ∧ s.fds.length = s.maps.length ∧
      ∀ x ∈ s.blocks ++ s.maps, (x.1 + 32, x.2 - 32) ∈ live := by
  obtain ⟨L, hI, rfl⟩ := reached_inv h
  have := count_res L
  refine ⟨?_, ?_, ?_⟩
  · rw [hI.blocks, hI.maps, this.1]; simp [view]
  · rw [hI.fds, hI.maps, this.2]
  · intro x hx
    rw [List.mem_append, hI.blocks, hI.maps, List.mem_filterMap, List.mem_filterMap] at hx
    rcases hx with ⟨l, hl, hx⟩ | ⟨l, hl, hx⟩
    · unfold heapOf at hx
      split at hx
      · cases hx
        exact List.mem_map.2 ⟨l, hl, by simp⟩
      · cases hx
    · unfold mapOf at hx
      split at hx
      · cases hx
      · cases hx
        exact List.mem_map.2 ⟨l, hl, by simp⟩

/-- C129: a program which has freed everything holds neither memory nor descriptors. -/
theorem c129_all_freed_partial (s : St) (h : Reached s []) : s.blocks = [] ∧ s.maps = [] ∧ s.fds = [] := by
  obtain ⟨h1, h2, _⟩ := c129_no_leak_partial s [] h
  simp only [List.length_nil] at h1
  refine ⟨List.length_eq_zero_iff.1 (by omega), List.length_eq_zero_iff.1 (by omega), List.length_eq_zero_iff.1 (by omega)⟩

/-- C129: the memory of every pointer lies in one block or mapping, at least `size` bytes long, and does not overlap with that of another one. -/
theorem c129_owned_partial (s : St) (live : List (Nat × Nat)) (h : Reached s live) :
    (∀ x ∈ live, ∃ y ∈ s.blocks ++ s.maps, y.1 ≤ x.1 ∧ x.1 + x.2 = y.1 + y.2) ∧
      live.Pairwise (fun x y => x.1 + x.2 ≤ y.1 ∨ y.1 + y.2 ≤ x.1) := by
  obtain ⟨L, hI, rfl⟩ := reached_inv h
  refine ⟨?_, ?_⟩
  · intro x hx
    obtain ⟨l, hl, rfl⟩ := List.mem_map.1 hx
    exact ⟨_, mem_res hI hl, by dsimp only; omega, by dsimp only; omega⟩
  · unfold view
    rw [List.pairwise_map]
    refine hI.apart.imp ?_
    intro a b hab
    have := hab.1
    dsimp only
    omega

/-- C129: an allocation which fails leaves no memory and no descriptor behind and reports no pointer; one which succeeds returns 0 and memory
full of zeros, and does not touch the memory of other pointers. -/
theorem c129_alloc_partial (s : St) (live : List (Nat × Nat)) (h : Reached s live) (op : Op) (size : Nat) (os : Os)
    (hop : op = .alloc size os ∨ op = .allocSecure size os) (ha : Allowed s live op) :
    ((step s op).2.1 = none → (step s op).2.2.blocks = s.blocks ∧ (step s op).2.2.maps = s.maps ∧ (step s op).2.2.fds = s.fds) ∧
    (∀ p, (step s op).2.1 = some p → (step s op).1 = 0 ∧ ∀ a, p ≤ a → a < p + size → (step s op).2.2.mem a = 0) ∧
    ∀ x ∈ live, ∀ a, x.1 ≤ a → a < x.1 + x.2 → (step s op).2.2.mem a = s.mem a := by
  obtain ⟨L, hI, rfl⟩ := reached_inv h
  have hO : Outcome s L size (step s op) := by
    rcases hop with rfl | rfl
    · exact internal_ok hI ha.1 ha.2 (fun h => by cases h)
    · exact secure_ok hI ha.1 ha.2.1 ha.2.2.1 ha.2.2.2
  refine ⟨?_, ?_, ?_⟩
  · intro hn
    have h1 := (hO.fail hn).1
    exact ⟨by rw [h1.blocks, hI.blocks], by rw [h1.maps, hI.maps], by rw [h1.fds, hI.fds]⟩
  · intro p hp
    obtain ⟨h0, l, rfl, rfl, _, hz, _⟩ := hO.good p hp
    exact ⟨h0, fun a h1 h2 => hz a h1 h2⟩
  · intro x hx a h1 h2
    obtain ⟨l, hl, rfl⟩ := List.mem_map.1 hx
    dsimp only at h1 h2
    cases hp : (step s op).2.1 with
    | none => rw [(hO.fail hp).2]
    | some p =>
      obtain ⟨_, l', _, rfl, hI', _, hu⟩ := hO.good p hp
      have := ((List.pairwise_cons.1 hI'.apart).1 l hl).1
      exact hu a (by omega)

/-- C129: `lc_free` releases the memory of this pointer and the descriptor belonging to it, keeps all others, and changes no memory (in particular it
does not clear the memory, as the header says). -/
theorem c129_free_partial (s : St) (live : List (Nat × Nat)) (h : Reached s live) (ptr : Nat) (n : Nat) (hp : (ptr, n) ∈ live) :
    (lcFree s ptr).mem = s.mem ∧ (lcFree s ptr).bad = false ∧
      (∀ x, x ∈ (lcFree s ptr).blocks ++ (lcFree s ptr).maps ↔ x ∈ s.blocks ++ s.maps ∧ x.1 + 32 ≠ ptr) ∧
      (lcFree s ptr).blocks.length + (lcFree s ptr).maps.length + 1 = s.blocks.length + s.maps.length ∧
      (lcFree s ptr).fds.length = (lcFree s ptr).maps.length := by
  obtain ⟨L, hI, rfl⟩ := reached_inv h
  obtain ⟨h1, h2⟩ := free_inv hI (Or.inr ⟨n, hp⟩)
  obtain ⟨l, hl, he⟩ := List.mem_map.1 hp
  have hptr : ptr = l.base + 32 := by
    have := congrArg Prod.fst he; simpa using this.symm
  have hres : ∀ (s' : St) (L' : List Live), Inv s' L' → ∀ x, x ∈ s'.blocks ++ s'.maps ↔ ∃ l ∈ L', x = (l.base, 32 + l.size) := by
    intro s' L' hI' x
    constructor
    · intro hx
      rw [List.mem_append, hI'.blocks, hI'.maps, List.mem_filterMap, List.mem_filterMap] at hx
      rcases hx with ⟨l, hl, hx⟩ | ⟨l, hl, hx⟩
      · unfold heapOf at hx
        split at hx
        · cases hx; exact ⟨l, hl, rfl⟩
        · cases hx
      · unfold mapOf at hx
        split at hx
        · cases hx
        · cases hx; exact ⟨l, hl, rfl⟩
    · rintro ⟨l, hl, rfl⟩
      exact mem_res hI' hl
  refine ⟨h2, h1.bad, ?_, ?_, ?_⟩
  · intro x
    rw [hres _ _ h1, hres _ _ hI]
    constructor
    · rintro ⟨l', hl', rfl⟩
      have := List.mem_filter.1 hl'
      exact ⟨⟨l', this.1, rfl⟩, by simpa using this.2⟩
    · rintro ⟨⟨l', hl', rfl⟩, hne⟩
      exact ⟨l', List.mem_filter.2 ⟨hl', by simpa using hne⟩, rfl⟩
  · have c1 := (count_res (L.filter (fun l => l.base + 32 != ptr))).1
    have c2 := (count_res L).1
    have c3 : (L.filter (fun l => l.base + 32 != ptr)).length + 1 = L.length := by
      subst hptr
      clear h1 h2 c1 c2 he hp h hres
      have hap := hI.apart
      clear hI
      induction L with
      | nil => cases hl
      | cons x xs ih =>
        rw [List.pairwise_cons] at hap
        rcases List.mem_cons.1 hl with rfl | hl'
        · rw [List.filter_cons_of_neg (by simp)]
          have : xs.filter (fun l' => l'.base + 32 != l.base + 32) = xs := by
            apply List.filter_eq_self.2
            intro y hy
            have := (hap.1 y hy).1
            have hne : y.base ≠ l.base := by omega
            simpa using hne
          rw [this]; rfl
        · have := (hap.1 l hl').1
          have hne : x.base ≠ l.base := by omega
          rw [List.filter_cons_of_pos (by simpa using hne)]
          simp only [List.length_cons]
          have := ih hl' hap.2
          omega
    rw [h1.blocks, h1.maps, hI.blocks, hI.maps]
    omega
  · rw [h1.fds, h1.maps]
    exact (count_res _).2

/-- C129: memory obtained from `lc_alloc_aligned_secure` is a memfd_secret mapping or locked, unless the system has refused the lock. -/
theorem c129_secure (s : St) (size : Nat) (os : Os) (p : Nat) (h : (allocSecure s size os).2.1 = some p) :
    (∃ x ∈ (allocSecure s size os).2.2.maps, x.1 + 32 = p) ∨ (∃ x ∈ (allocSecure s size os).2.2.locked, x.1 + 32 = p ∧ x.2 = fullSize size) ∨
      os.mlock = some 1 ∨ os.mlock = some 11 := by
  have hi : ∀ (s : St) p, (allocInternal s size true os).2.1 = some p →
      (∃ x ∈ (allocInternal s size true os).2.2.locked, x.1 + 32 = p ∧ x.2 = fullSize size) ∨ os.mlock = some 1 ∨ os.mlock = some 11 := by
    intro s p hp
    unfold allocInternal at hp ⊢
    cases hm : os.memalign with
    | error e => rw [hm] at hp; cases hp
    | ok q =>
      rw [hm] at hp
      simp only [if_true] at hp ⊢
      cases hl : os.mlock with
      | none =>
        rw [hl] at hp
        cases hp
        exact Or.inl ⟨(q, fullSize size), List.mem_cons_self, rfl, rfl⟩
      | some e =>
        rw [hl] at hp
        dsimp only at hp
        split at hp
        · cases hp
        · rename_i hne
          right
          by_cases h1 : e = EPERM
          · left; rw [h1]; rfl
          · right
            have : e = EAGAIN := Classical.not_not.1 (fun h2 => hne ⟨h1, h2⟩)
            rw [this]; rfl
  unfold allocSecure at h ⊢
  split at h
  · rename_i hc
    rw [if_pos hc]
    exact Or.inr (hi s p h)
  · rename_i hc
    rw [if_neg hc]
    cases hsec : os.secret with
    | error e =>
      rw [hsec] at h
      dsimp only at h ⊢
      split at h
      · rename_i he
        rw [if_pos he]
        exact Or.inr (hi _ p h)
      · cases h
    | ok fd =>
      rw [hsec] at h
      dsimp only at h ⊢
      cases ht : os.trunc with
      | some e => rw [ht] at h; cases h
      | none =>
        rw [ht] at h
        dsimp only at h ⊢
        cases hmm : os.mmap with
        | error e => rw [hmm] at h; cases h
        | ok q =>
          rw [hmm] at h
          cases h
          exact Or.inl ⟨(q, fullSize size), List.mem_cons_self, rfl⟩

/-- C129: `lc_free(NULL)` does nothing. -/
theorem c129_free_null (s : St) : lcFree s 0 = s := by simp [lcFree]

/-- C129: alignments up to 32 are met if the system meets them. -/
theorem c129_align_partial (s : St) (op : Op) (size : Nat) (os : Os) (hop : op = .alloc size os ∨ op = .allocSecure size os) (al : Nat)
    (h32 : al ∣ 32) (h1 : ∀ p, os.memalign = .ok p → al ∣ p) (h2 : ∀ p, os.mmap = .ok p → al ∣ p) :
    ∀ p, (step s op).2.1 = some p → al ∣ p := by
  have hi : ∀ (s : St) (b : Bool) p, (allocInternal s size b os).2.1 = some p → al ∣ p := by
    intro s b p hp
    unfold allocInternal at hp
    cases hm : os.memalign with
    | error e => rw [hm] at hp; cases hp
    | ok q =>
      have hq := h1 q hm
      have hd : al ∣ q + OFFSET := Nat.dvd_add hq h32
      rw [hm] at hp
      dsimp only at hp
      split at hp
      · split at hp
        · split at hp
          · cases hp
          · cases hp; exact hd
        · cases hp; exact hd
      · cases hp; exact hd
  intro p hp
  rcases hop with rfl | rfl
  · exact hi s false p hp
  · unfold step allocSecure at hp
    dsimp only at hp
    split at hp
    · exact hi s true p hp
    · split at hp
      · split at hp
        · exact hi _ true p hp
        · cases hp
      · split at hp
        · cases hp
        · split at hp
          · cases hp
          · rename_i q hq
            cases hp
            exact Nat.dvd_add (h2 _ hq) h32

/-! ## What does not hold -/

/-- `mlock` refuses with ENOMEM, as it does beyond RLIMIT_MEMLOCK. -/
def osLimit : Os := ⟨.ok 4096, some ENOMEM, .error ENOSYS, none, .error ENOMEM⟩

/-- C129, negation: the limit on locked memory makes `lc_alloc_aligned_secure` pass the start of the block to `lc_free`, which takes the 32 bytes
before the block for the header and frees an address not obtained from the system, whatever the bytes in front of the block are; the
block itself stays allocated. -/
theorem c129_negation_mlock (hdr : Nat → Hdr) (mem : Nat → Nat) :
    (allocSecure (start hdr mem) 16 osLimit).1 = -12 ∧ (allocSecure (start hdr mem) 16 osLimit).2.2.bad = true ∧
      (allocSecure (start hdr mem) 16 osLimit).2.2.blocks = [(4096, 48)] := by
  refine ⟨rfl, ?_, ?_⟩ <;>
  simp [allocSecure, start, osLimit, allocInternal, ENOSYS, ENOMEM, EPERM, EAGAIN, lcFree, OFFSET, sysFree, fullSize]

/-- C129, negation: memory obtained with memfd_secret is passed to `free` when a later allocation was told ENOSYS (for example after a seccomp filter
was installed): the flag is global, not per block. -/
theorem c129_negation_enosys (hdr : Nat → Hdr) (mem : Nat → Nat) :
    ∃ ops, (run (start hdr mem) [] ops).1.bad = true ∧ (run (start hdr mem) [] ops).1.fds = [3] ∧
      ops = [.allocSecure 16 ⟨.ok 4096, none, .ok 3, none, .ok 8192⟩, .allocSecure 16 ⟨.ok 4096, none, .error ENOSYS, none, .ok 0⟩,
        .free 8224] := by
  refine ⟨_, ?_, ?_, rfl⟩ <;>
  simp [run, step, remember, start, allocSecure, allocInternal, lcFree, setHdr, sysFree, OFFSET]

/-- C129, negation: the sum of size and header is not checked; for a size close to 2^64 a small block is obtained and memory behind it is cleared. -/
theorem c129_negation_overflow (hdr : Nat → Hdr) (mem : Nat → Nat) :
    ∃ size os, (alloc (start hdr mem) size os).2.1 = some 4128 ∧ (alloc (start hdr mem) size os).2.2.bad = true ∧
      (alloc (start hdr mem) size os).2.2.blocks = [(4096, 16)] ∧ size = 2 ^ 64 - 16 :=
  ⟨2 ^ 64 - 16, ⟨.ok 4096, none, .error ENOSYS, none, .ok 0⟩, rfl, rfl, rfl, rfl⟩

/-- C129, negation: `lc_alloc_high_aligned`, documented for arbitrary alignment, returns a pointer which is not aligned to 64 although the system meets
the alignment. -/
theorem c129_negation_align (hdr : Nat → Hdr) (mem : Nat → Nat) :
    ∃ os p, os.memalign = .ok 4096 ∧ 64 ∣ 4096 ∧ (alloc (start hdr mem) 16 os).2.1 = some p ∧ ¬ 64 ∣ p :=
  ⟨⟨.ok 4096, none, .error ENOSYS, none, .ok 0⟩, 4128, rfl, by decide, rfl, by decide⟩

/-! ## Examples -/

/-- Memory is locked if memfd_secret is not there. -/
example (hdr : Nat → Hdr) (mem : Nat → Nat) :
    (allocSecure (start hdr mem) 16 ⟨.ok 4096, none, .error ENOSYS, none, .ok 0⟩).2.1 = some 4128 ∧
      (allocSecure (start hdr mem) 16 ⟨.ok 4096, none, .error ENOSYS, none, .ok 0⟩).2.2.locked = [(4096, 48)] := ⟨rfl, rfl⟩

/-- The hypotheses are met: two allocations, one with memfd_secret, a store and a release. -/
example (hdr : Nat → Hdr) (mem : Nat → Nat) :
    AllAllowed (start hdr mem) [] [.allocSecure 16 ⟨.ok 4096, none, .ok 3, none, .ok 8192⟩,
      .alloc 100 ⟨.ok 4096, none, .error ENOSYS, none, .ok 0⟩, .write 8224 7, .free 4128] ∧
    (run (start hdr mem) [] [.allocSecure 16 ⟨.ok 4096, none, .ok 3, none, .ok 8192⟩,
      .alloc 100 ⟨.ok 4096, none, .error ENOSYS, none, .ok 0⟩, .write 8224 7, .free 4128]).2 = [(8224, 16)] := by
  simp [AllAllowed, Allowed, OsOk, Fresh, run, step, remember, start, allocSecure, alloc, allocInternal, fullSize, OFFSET]

end LC.Mem
