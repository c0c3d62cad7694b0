import Verif.X509.CertReadWalk
import Verif.X509.CertExts
/-
The nested decoders for the extensions, on values of the shape that the generator writes.
-/
namespace LC.Crt
open LC.Asn1 LC.Asn1.Enc LC.Asn1.Gen LC.Asn1.Tr
open LC.X509 (ExtState Kid generateId extCritical basicConstraintsCa basicConstraintsPathlen keyUsageAct)
open LC.Oid (oidData lookUp)

set_option maxRecDepth 8000

local macro "mt" pc:term:max tg:term:max : term =>
  `(tstep_match _ _ _ $pc $tg rfl rfl rfl (by decide) (by decide) rfl rfl rfl (by decide) rfl rfl rfl)
local macro "ms" pc:term:max tg:term:max : term =>
  `(tstep_skip _ _ _ $pc $tg rfl rfl rfl (by decide) (by decide) rfl rfl rfl (by decide) rfl rfl rfl rfl)

/-- From a walk to the result of a nested decoder. -/
theorem sub_gives {F : Prop} (d : Decoder) (act : PAct P) (p : P) (f : List Tree) (hwf : WFL f) (hmax : (serL f).length ≤ 2 ^ 18)
    (a : TS P) (h : TTo (fun _ => F) d (fun _ => act) { cur := f, p := p } a) (hh : tstep d act a = .halt 0 a.p) :
    ∃ N, ∀ n, Gives (F ∨ n ≤ N) (subParse d act n (serL f) p) a.p := by
  obtain ⟨k, hk⟩ := parse_tot d (fun _ => act) p f hwf hmax a h (fun _ => hh)
  refine ⟨k, fun n => ?_⟩
  unfold subParse
  rcases hk n n with ⟨h1, h2⟩ | ⟨h1, r, x, h2, h3⟩ | h2
  · rw [h2]
    exact .inl ⟨.inr h1, _, rfl, by decide⟩
  · rw [h2]
    refine .inl ⟨.inl h1, r, ?_, h3⟩
    cases x <;> (dsimp only; rw [if_pos h3])
  · rw [h2]
    exact .inr rfl

/-- A nested value that is not too long is well formed. -/
theorem leaf_wf (t : UInt8) (c : Bytes) (h : (serL [.leaf t c]).length ≤ 2 ^ 18) : WFL [.leaf t c] := by
  refine ⟨?_, trivial⟩
  simp only [serL, ser, tlv, List.append_nil, List.length_cons, List.length_append] at h
  show c.length < 2 ^ 24
  omega

theorem ku_read {F : Prop} (v : Bytes) (p q : P) (h : (serL [.leaf 3 v]).length ≤ 2 ^ 18) (hq : Gives F (liftExt p (keyUsageAct p.ext v)) q) :
    ∃ N, ∀ n, Gives (F ∨ n ≤ N) (subParse x509_keyusage kuPActs n (serL [.leaf 3 v]) p) q := by
  refine sub_gives _ _ _ _ (leaf_wf _ _ h) h (rst 3 [] [] [] true false 3 (some (hdrOf (.leaf 3 v), v)) q) ?_ rfl
  exact TTo.call (m := 0) (i := 2) (l := 3) (tag := 3) (el := (hdrOf (.leaf 3 v), v))
    (a' := rst 0 [] [] [] true false 3 (some (hdrOf (.leaf 3 v), v)) p) (fun n => (mt 0 3).trans rfl) rfl (by decide) (fun _ => hq) rfl

theorem skid_read {F : Prop} (v : Bytes) (p q : P) (h : (serL [.leaf 4 v]).length ≤ 2 ^ 18) (hq : Gives F (skidP v p) q) :
    ∃ N, ∀ n, Gives (F ∨ n ≤ N) (subParse x509_skid skidPActs n (serL [.leaf 4 v]) p) q := by
  refine sub_gives _ _ _ _ (leaf_wf _ _ h) h (rst 3 [] [] [] true false 4 (some (hdrOf (.leaf 4 v), v)) q) ?_ rfl
  exact TTo.call (m := 0) (i := 2) (l := 3) (tag := 4) (el := (hdrOf (.leaf 4 v), v))
    (a' := rst 0 [] [] [] true false 4 (some (hdrOf (.leaf 4 v), v)) p) (fun n => (mt 0 4).trans rfl) rfl (by decide) (fun _ => hq) rfl

theorem leaves_wf : ∀ (ks : List Tree) (_ : ∀ t ∈ ks, ∃ a c, t = .leaf a c) (_ : (serL ks).length ≤ 2 ^ 18), WFL ks
  | [], _, _ => trivial
  | k :: ks, hk, h => by
    obtain ⟨a, c, rfl⟩ := hk k (List.mem_cons_self ..)
    simp only [serL, ser, tlv, List.length_cons, List.length_append] at h
    refine ⟨?_, leaves_wf ks (fun t ht => hk t (List.mem_cons_of_mem _ ht)) (by omega)⟩
    show c.length < 2 ^ 24
    omega

theorem seq_wf (ks : List Tree) (hk : ∀ t ∈ ks, ∃ a c, t = .leaf a c) (h : (serL [.node 0x30 ks]).length ≤ 2 ^ 18) : WFL [.node 0x30 ks] := by
  simp only [serL, ser, tlv, List.append_nil, List.length_cons, List.length_append] at h
  refine ⟨⟨by decide, by omega, leaves_wf ks hk (by omega)⟩, trivial⟩

theorem eku_read {F : Prop} (v : Bytes) (p q : P) (h : (serL [.node 0x30 [.leaf 6 v]]).length ≤ 2 ^ 18) (hq : Gives F (ekuActP v p) q) :
    ∃ N, ∀ n, Gives (F ∨ n ≤ N) (subParse x509_eku ekuPActs n (serL [.node 0x30 [.leaf 6 v]]) p) q := by
  refine sub_gives _ _ _ _ (seq_wf _ (by intro t ht; rw [List.mem_singleton] at ht; exact ⟨6, v, ht⟩) h) h
    (rst 7 [] [] [] true false 6 (some (hdrOf (.node 0x30 [.leaf 6 v]), contentOf (.node 0x30 [.leaf 6 v]))) q) ?_ rfl
  generalize hf : (⟨[], hdrOf (.node 0x30 [.leaf 6 v]), contentOf (.node 0x30 [.leaf 6 v])⟩ : Fr) = f
  refine (TTo.one (b := rst 2 [.leaf 6 v] [f] [] true false 48 (some (hdrOf (.node 0x30 [.leaf 6 v]), contentOf (.node 0x30 [.leaf 6 v]))) p)
    (fun n => by subst hf; exact (mt 0 48).trans rfl)).trans ?_
  refine (TTo.call (m := 0) (i := 2) (l := 3) (tag := 6) (el := (hdrOf (.leaf 6 v), v))
    (a' := rst 2 [] [f] [] true false 6 (some (hdrOf (.leaf 6 v), v)) p)
    (b := rst 5 [] [f] [] true false 6 (some (hdrOf (.leaf 6 v), v)) q) (fun n => (mt 2 6).trans rfl) rfl (by decide) (fun _ => hq) rfl).trans ?_
  subst hf
  exact TTo.one (fun n => rfl)

def plTree : Option UInt8 → List Tree
  | none => []
  | some v => [.leaf 2 [v]]

theorem bc_read {F : Prop} (b : UInt8) (l : Option UInt8) (p q : P) (e1 : ExtState)
    (h : (serL [.node 0x30 (.leaf 1 [b] :: plTree l)]).length ≤ 2 ^ 18)
    (h1 : basicConstraintsCa p.ext (some [b]) = some e1)
    (h2 : (match l with | none => Except.ok { p with ext := e1 } | some v => liftExt { p with ext := e1 } (basicConstraintsPathlen e1 (some [v]))) = .ok q) :
    ∃ N, ∀ n, Gives (F ∨ n ≤ N)
      (subParse x509_basic_constraints bcPActs n (serL [.node 0x30 (.leaf 1 [b] :: plTree l)]) p) q := by
  have hw := seq_wf (.leaf 1 [b] :: plTree l) (by
    clear h h2
    intro t ht
    rw [List.mem_cons] at ht
    rcases ht with rfl | ht
    · exact ⟨_, _, rfl⟩
    · cases l with
      | none => cases ht
      | some v => exact ⟨_, _, List.mem_singleton.mp ht⟩) h
  generalize hks : (Tree.leaf 1 [b] :: plTree l) = ks at h hw ⊢
  generalize hf : (⟨[], hdrOf (.node 0x30 ks), contentOf (.node 0x30 ks)⟩ : Fr) = f
  have hstart : TTo (fun _ => F) x509_basic_constraints (fun _ => bcPActs) { cur := [.node 0x30 ks], p := p }
      (rst 2 ks [f] [] true false 48 (some (hdrOf (.node 0x30 ks), contentOf (.node 0x30 ks))) p) :=
    TTo.one (fun n => by subst hf; exact (mt 0 48).trans rfl)
  have hs2 : ∀ rest, ks = .leaf 1 [b] :: rest → TTo (fun _ => F) x509_basic_constraints (fun _ => bcPActs)
      (rst 2 ks [f] [] true false 48 (some (hdrOf (.node 0x30 ks), contentOf (.node 0x30 ks))) p)
      (rst 5 rest [f] [] true false 1 (some (hdrOf (.leaf 1 [b]), [b])) { p with ext := e1 }) := by
    intro rest hr
    generalize (some (hdrOf (.node 0x30 ks), contentOf (.node 0x30 ks))) = el
    rw [hr]
    refine TTo.call (m := 0) (i := 2) (l := 3) (tag := 1) (el := (hdrOf (.leaf 1 [b]), [b]))
      (a' := rst 2 rest [f] [] true false 1 (some (hdrOf (.leaf 1 [b]), [b])) p)
      (fun n => (mt 2 1).trans rfl) rfl (by decide) (fun _ => .ok ?_) rfl
    show liftExt p (basicConstraintsCa p.ext (some [b])) = _
    rw [h1]
    rfl
  cases l with
  | none =>
    cases h2
    have h5 : TTo (fun _ => F) x509_basic_constraints (fun _ => bcPActs)
        (rst 5 [] [f] [] true false 1 (some (hdrOf (.leaf 1 [b]), [b])) { p with ext := e1 })
        (rst 8 [] [f] [] true false 1 (some (hdrOf (.leaf 1 [b]), [b])) { p with ext := e1 }) := TTo.one (fun n => rfl)
    refine sub_gives _ _ _ _ hw h (rst 9 [] [] [] true false 1 (some (f.hdr, f.content)) { p with ext := e1 }) ?_ rfl
    refine hstart.trans ((hs2 _ hks.symm).trans (h5.trans ?_))
    subst hf
    exact TTo.one (fun n => rfl)
  | some v =>
    refine sub_gives _ _ _ _ hw h (rst 9 [] [] [] true false 2 (some (f.hdr, f.content)) q) ?_ rfl
    refine hstart.trans ((hs2 _ hks.symm).trans ?_)
    refine (TTo.call (m := 1) (i := 2) (l := 3) (tag := 2) (el := (hdrOf (.leaf 2 [v]), [v]))
      (a' := rst 5 [] [f] [] true false 2 (some (hdrOf (.leaf 2 [v]), [v])) { p with ext := e1 })
      (b := rst 8 [] [f] [] true false 2 (some (hdrOf (.leaf 2 [v]), [v])) q)
      (fun n => (mt 5 2).trans rfl) rfl (by decide) (fun _ => .ok h2) rfl).trans ?_
    subst hf
    exact TTo.one (fun n => rfl)

theorem akid_read {F : Prop} (v : Bytes) (p q : P) (h : (serL [.node 0x30 [.leaf 0x80 v]]).length ≤ 2 ^ 18) (hq : Gives F (akidKidP v p) q) :
    ∃ N, ∀ n, Gives (F ∨ n ≤ N) (subParse x509_akid akidPActs n (serL [.node 0x30 [.leaf 0x80 v]]) p) q := by
  refine sub_gives _ _ _ _ (seq_wf _ (by intro t ht; rw [List.mem_singleton] at ht; exact ⟨0x80, v, ht⟩) h) h
    (rst 12 [] [] [] true false 0x80 (some (hdrOf (.node 0x30 [.leaf 0x80 v]), contentOf (.node 0x30 [.leaf 0x80 v]))) q) ?_ rfl
  generalize hf : (⟨[], hdrOf (.node 0x30 [.leaf 0x80 v]), contentOf (.node 0x30 [.leaf 0x80 v])⟩ : Fr) = f
  refine (TTo.one (b := rst 2 [.leaf 0x80 v] [f] [] true false 48 (some (hdrOf (.node 0x30 [.leaf 0x80 v]), contentOf (.node 0x30 [.leaf 0x80 v]))) p)
    (fun n => by subst hf; exact (mt 0 48).trans rfl)).trans ?_
  refine (TTo.call (m := 1) (i := 2) (l := 3) (tag := 0x80) (el := (hdrOf (.leaf 0x80 v), v))
    (a' := rst 2 [] [f] [] true false 0x80 (some (hdrOf (.leaf 0x80 v), v)) p)
    (b := rst 5 [] [f] [] true false 0x80 (some (hdrOf (.leaf 0x80 v), v)) q) (fun n => (mt 2 0x80).trans rfl) rfl (by decide) (fun _ => hq) rfl).trans ?_
  subst hf
  exact TTo.run 3 (fun n => rfl)

/-- One DNS name. -/
theorem dns_step {F : Prop} (v : Bytes) (p q : P) (rest : List Tree) (f : Fr) (tag : Nat) (el : Option (List UInt8 × List UInt8))
    (hq : Gives F (sanDnsP v p) q) :
    ∃ el', TTo (fun _ => F) x509_san (fun _ => sanPActs) (rst 2 (.leaf 0x82 v :: rest) [f] [] true false tag el p)
      (rst 27 rest [f] [] true false 0x82 el' q) := by
  refine ⟨some (hdrOf (.leaf 0x82 v), v), ?_⟩
  refine (TTo.one (b := rst 5 (.leaf 0x82 v :: rest) [f] [] false false 0x82 none p) (fun n => (ms 2 0x82).trans rfl)).trans ?_
  refine (TTo.one (b := rst 7 (.leaf 0x82 v :: rest) [f] [] false false 0x82 none p) (fun n => (ms 5 0x82).trans rfl)).trans ?_
  refine (TTo.call (m := 2) (i := 2) (l := 3) (tag := 0x82) (el := (hdrOf (.leaf 0x82 v), v))
    (a' := rst 7 rest [f] [] true false 0x82 (some (hdrOf (.leaf 0x82 v), v)) p)
    (b := rst 10 rest [f] [] true false 0x82 (some (hdrOf (.leaf 0x82 v), v)) q) (fun n => (mt 7 0x82).trans rfl) rfl (by decide) (fun _ => hq) rfl).trans ?_
  exact TTo.run 7 (fun n => rfl)

/-- One address. -/
theorem ip_step {F : Prop} (v : Bytes) (p : P) (rest : List Tree) (f : Fr) (tag : Nat) (el : Option (List UInt8 × List UInt8)) :
    ∃ el', TTo (fun _ => F) x509_san (fun _ => sanPActs) (rst 2 (.leaf 0x87 v :: rest) [f] [] true false tag el p)
      (rst 27 rest [f] [] true false 0x87 el' { p with sanIp := v }) := by
  refine ⟨some (hdrOf (.leaf 0x87 v), v), ?_⟩
  refine (TTo.one (b := rst 5 (.leaf 0x87 v :: rest) [f] [] false false 0x87 none p) (fun n => (ms 2 0x87).trans rfl)).trans ?_
  refine (TTo.one (b := rst 7 (.leaf 0x87 v :: rest) [f] [] false false 0x87 none p) (fun n => (ms 5 0x87).trans rfl)).trans ?_
  refine (TTo.one (b := rst 10 (.leaf 0x87 v :: rest) [f] [] false false 0x87 none p) (fun n => (ms 7 0x87).trans rfl)).trans ?_
  refine (TTo.one (b := rst 13 (.leaf 0x87 v :: rest) [f] [] false false 0x87 none p) (fun n => (ms 10 0x87).trans rfl)).trans ?_
  refine (TTo.one (b := rst 16 (.leaf 0x87 v :: rest) [f] [] false false 0x87 none p) (fun n => (ms 13 0x87).trans rfl)).trans ?_
  refine (TTo.one (b := rst 19 (.leaf 0x87 v :: rest) [f] [] false false 0x87 none p) (fun n => (ms 16 0x87).trans rfl)).trans ?_
  refine (TTo.one (b := rst 21 (.leaf 0x87 v :: rest) [f] [] false false 0x87 none p) (fun n => (ms 19 0x87).trans rfl)).trans ?_
  refine (TTo.call (m := 3) (i := 2) (l := 3) (tag := 0x87) (el := (hdrOf (.leaf 0x87 v), v))
    (a' := rst 21 rest [f] [] true false 0x87 (some (hdrOf (.leaf 0x87 v), v)) p)
    (b := rst 24 rest [f] [] true false 0x87 (some (hdrOf (.leaf 0x87 v), v)) { p with sanIp := v })
    (fun n => (mt 21 0x87).trans rfl) rfl (by decide) (fun _ => .ok rfl) rfl).trans ?_
  exact TTo.run 2 (fun n => rfl)

theorem san_more {F : Prop} (t : Tree) (rest : List Tree) (p : P) (f : Fr) (tag : Nat) (el : Option (List UInt8 × List UInt8)) :
    TTo (fun _ => F) x509_san (fun _ => sanPActs) (rst 27 (t :: rest) [f] [] true false tag el p)
      (rst 2 (t :: rest) [f] [] true false tag none p) := TTo.run 1 (fun n => rfl)

theorem san_end {F : Prop} (p : P) (f : Fr) (hf : f.rest = []) (tag : Nat) (el : Option (List UInt8 × List UInt8)) :
    TTo (fun _ => F) x509_san (fun _ => sanPActs) (rst 27 [] [f] [] true false tag el p)
      (rst 29 [] [] [] true false tag (some (f.hdr, f.content)) p) := by
  obtain ⟨r, h, c⟩ := f
  cases hf
  exact TTo.run 1 (fun n => rfl)

theorem san_read {F : Prop} (dns ip : Bytes) (hne : dns ≠ [] ∨ ip ≠ []) (p q : P)
    (h : (serL [.node 0x30 (optLeaf 0x82 dns ++ optLeaf 0x87 ip)]).length ≤ 2 ^ 18)
    (hq : (if dns = [] then Except.ok p else sanDnsP dns p) = .ok q) :
    ∃ N, ∀ n, Gives (F ∨ n ≤ N) (subParse x509_san sanPActs n (serL [.node 0x30 (optLeaf 0x82 dns ++ optLeaf 0x87 ip)]) p)
      (if ip = [] then q else { q with sanIp := ip }) := by
  have hw := seq_wf (optLeaf 0x82 dns ++ optLeaf 0x87 ip) (by
    intro t ht
    rw [List.mem_append] at ht
    unfold optLeaf at ht
    rcases ht with ht | ht <;> split at ht
    · cases ht
    · rw [List.mem_singleton] at ht; exact ⟨_, _, ht⟩
    · cases ht
    · rw [List.mem_singleton] at ht; exact ⟨_, _, ht⟩) h
  generalize hks : optLeaf 0x82 dns ++ optLeaf 0x87 ip = ks at *
  have hstart : TTo (fun _ => F) x509_san (fun _ => sanPActs) { cur := [.node 0x30 ks], p := p }
      (rst 2 ks [⟨[], hdrOf (.node 0x30 ks), contentOf (.node 0x30 ks)⟩] [] true false 48
        (some (hdrOf (.node 0x30 ks), contentOf (.node 0x30 ks))) p) :=
    TTo.one (fun n => (mt 0 48).trans rfl)
  have hf : (⟨[], hdrOf (.node 0x30 ks), contentOf (.node 0x30 ks)⟩ : Fr).rest = [] := rfl
  generalize (⟨[], hdrOf (.node 0x30 ks), contentOf (.node 0x30 ks)⟩ : Fr) = f at *
  generalize (some (hdrOf (.node 0x30 ks), contentOf (.node 0x30 ks))) = el at *
  by_cases hd : dns = []
  · have hi : ip ≠ [] := by
      rcases hne with h | h
      · exact absurd hd h
      · exact h
    rw [if_pos hd] at hq
    cases hq
    rw [if_neg hi]
    have hk : ks = [.leaf 0x87 ip] := by rw [← hks, hd]; unfold optLeaf; rw [if_neg hi]; rfl
    obtain ⟨el', h1⟩ := ip_step (F := F) ip p [] f 48 el
    refine sub_gives _ _ _ _ hw h (rst 29 [] [] [] true false 0x87 (some (f.hdr, f.content)) _) (hstart.trans ?_) rfl
    rw [hk]
    exact h1.trans (san_end _ f hf _ _)
  · rw [if_neg hd] at hq
    by_cases hi : ip = []
    · rw [if_pos hi]
      have hk : ks = [.leaf 0x82 dns] := by rw [← hks, hi]; unfold optLeaf; rw [if_neg hd]; rfl
      obtain ⟨el', h1⟩ := dns_step (F := F) dns p q [] f 48 el (.ok hq)
      refine sub_gives _ _ _ _ hw h (rst 29 [] [] [] true false 0x82 (some (f.hdr, f.content)) _) (hstart.trans ?_) rfl
      rw [hk]
      exact h1.trans (san_end _ f hf _ _)
    · rw [if_neg hi]
      have hk : ks = [.leaf 0x82 dns, .leaf 0x87 ip] := by rw [← hks]; unfold optLeaf; rw [if_neg hd, if_neg hi]; rfl
      obtain ⟨el', h1⟩ := dns_step (F := F) dns p q [.leaf 0x87 ip] f 48 el (.ok hq)
      obtain ⟨el2, h2⟩ := ip_step (F := F) ip q [] f 0x82 none
      refine sub_gives _ _ _ _ hw h (rst 29 [] [] [] true false 0x87 (some (f.hdr, f.content)) _) (hstart.trans ?_) rfl
      rw [hk]
      exact h1.trans ((san_more _ _ _ f _ _).trans (h2.trans (san_end _ f hf _ _)))

end LC.Crt
