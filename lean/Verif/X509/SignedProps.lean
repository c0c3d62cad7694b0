import Verif.X509.SignedRun
import Verif.X509.CertProps
import Verif.X509.CertRead
import Mathlib.Data.List.Infix
/-
Property theorems of the parser of X.509 certificates, `/repo/asn1/src/x509_cert_parser.c`, about what is reported and what is signed:
C105, C106.
-/
namespace LC.Crt
open LC.Asn1 LC.Asn1.Nest LC.Asn1.Tr LC.Asn1.Win
open LC.X509 (Kid generateId)

set_option maxRecDepth 8000

variable {π : Type}

/-! ### Folding the actions -/

theorem foldTr_append (act : PAct π) (data : Bytes) (p0 : π) (T : List Call) : ∀ post : List Call,
    foldTr act data p0 (post ++ T) = match foldTr act data p0 T with | .error e => .error e | .ok q => foldTr act data q post
  | [] => by
    rw [List.nil_append]
    cases foldTr act data p0 T <;> rfl
  | c :: post => by
    show (match foldTr act data p0 (post ++ T) with | .error e => Except.error e | .ok p => act c.act (elOf data c) p) = _
    rw [foldTr_append act data p0 T post]
    cases foldTr act data p0 T <;> rfl

/-- The element is a part of the data. -/
def Part (W : Bytes) (e : El) : Prop := e.content <:+: W ∧ e.hdr <:+: W

theorem part_el (W : Bytes) (c : Call) : Part W (elOf W c) :=
  ⟨(List.take_prefix _ _).isInfix.trans (List.drop_suffix _ _).isInfix, (List.take_prefix _ _).isInfix.trans (List.drop_suffix _ _).isInfix⟩

theorem foldTr_keeps (act : PAct π) (data : Bytes) (p0 : π) (I : π → Prop) (h0 : I p0)
    (hs : ∀ i e p p', Part data e → I p → act i e p = .ok p' → I p') : ∀ (tr : List Call) (p : π), foldTr act data p0 tr = .ok p → I p
  | [], p, h => by
    injection h with h
    exact h ▸ h0
  | c :: tr, p, h => by
    unfold foldTr at h
    cases hf : foldTr act data p0 tr with
    | error e => rw [hf] at h; cases h
    | ok q =>
      rw [hf] at h
      exact hs _ _ _ _ (part_el data c) (foldTr_keeps act data p0 I h0 hs tr q hf) h

theorem subParse_ok {d : Decoder} {act : PAct P} {n : Nat} {data : Bytes} {p p' : P} (h : subParse d act n data p = .ok p') :
    ∃ sf, decode d (cbOf act data p) data n = .halt 0 sf ∧ foldTr act data p sf.trace = .ok p' := by
  unfold subParse parse at h
  cases hd : decode d (cbOf act data p) data n with
  | halt r sf =>
    rw [hd] at h
    unfold presOf at h
    dsimp only at h
    cases hf : foldTr act data p sf.trace with
    | error e =>
      rw [hf] at h
      dsimp only at h
      split at h <;> cases h
    | ok q =>
      rw [hf] at h
      dsimp only at h
      split at h
      · cases h
      · rename_i hr
        injection h with h
        subst h
        have := decode_le hd
        have h0 : r = 0 := by omega
        subst h0
        exact ⟨sf, rfl, hf⟩
  | next s => rw [hd] at h; cases h
  | dataFault => rw [hd] at h; cases h
  | machFault => rw [hd] at h; cases h

/-! ### A change of the parse state that the actions do not notice -/

theorem foldTr_map (act : PAct π) (F : π → π) (hF : ∀ i e p, act i e (F p) = (act i e p).map F) (data : Bytes) (p0 : π) :
    ∀ tr : List Call, foldTr act data (F p0) tr = (foldTr act data p0 tr).map F
  | [] => rfl
  | c :: tr => by
    unfold foldTr
    rw [foldTr_map act F hF data p0 tr]
    cases foldTr act data p0 tr with
    | error e => rfl
    | ok q => exact hF _ _ _

theorem cbOf_map (act : PAct π) (F : π → π) (hF : ∀ i e p, act i e (F p) = (act i e p).map F) (data : Bytes) (p0 : π) :
    cbOf act data (F p0) = cbOf act data p0 := by
  funext tr
  unfold cbOf
  rw [foldTr_map act F hF data p0 tr]
  cases foldTr act data p0 tr <;> rfl

theorem subParse_map (d : Decoder) (act : PAct P) (F : P → P) (hF : ∀ i e p, act i e (F p) = (act i e p).map F) (n : Nat) (data : Bytes) (p : P) :
    subParse d act n data (F p) = (subParse d act n data p).map F := by
  unfold subParse parse
  rw [cbOf_map act F hF]
  cases decode d (cbOf act data p) data n with
  | halt r sf =>
    unfold presOf
    dsimp only
    rw [foldTr_map act F hF]
    cases foldTr act data p sf.trace with
    | error e =>
      dsimp only [Except.map]
      split <;> rfl
    | ok q =>
      dsimp only [Except.map]
      split <;> rfl
  | next s => rfl
  | dataFault => rfl
  | machFault => rfl

/-- Another signature. -/
def withRaw (s : Bytes) (p : P) : P := { p with rawSig := s }

theorem akid_raw (s : Bytes) (i : Nat) (e : El) (p : P) : akidPActs i e (withRaw s p) = (akidPActs i e p).map (withRaw s) := by
  unfold akidPActs
  split
  · rfl
  · split
    · unfold akidKidP
      show (if p.authId1.len ≠ 0 then _ else _) = _
      split
      · rfl
      · cases generateId e.content [] <;> rfl
    · split
      · rfl
      · split
        · cases p
          rename_i ai _ _ _ _ _
          unfold akidSerialP withRaw
          dsimp only
          cases ai with
          | none => rfl
          | some iss =>
            dsimp only
            split
            · rfl
            · cases generateId e.content iss <;> rfl
        · unfold nameSegment withRaw
          dsimp only [Except.map]
          split
          · split <;> rfl
          · split
            · split <;> rfl
            · split
              · split <;> rfl
              · split <;> rfl

/-! ### Where the reported values are -/

/-- The reported values are parts of `W`; `k`: the public key is set. -/
structure Within (W : Bytes) (k : Bool) (p : P) : Prop where
  serial : p.serial <:+: W
  issuer : ∀ b, p.rawIssuer = some b → b <:+: W
  subject : ∀ b, p.rawSubject = some b → b <:+: W
  key : ∀ b, p.key = some b → b <:+: W
  skid : p.rawSkid <:+: W
  akidExt : ∀ b, p.akidExt = some b → b <:+: W
  akid : p.rawAkid <:+: W
  akidIssuer : ∀ b, p.akidIssuer = some b → b <:+: W
  dns : p.sanDns <:+: W
  ip : p.sanIp <:+: W
  set : k = true → p.key.isSome = true

def Keeps (W : Bytes) (k : Bool) (p : P) : Except Int P → Prop
  | .ok p' => Within W k p → Within W k p'
  | .error _ => True

theorem Keeps.ok {W : Bytes} {k : Bool} {p p' : P} {r : Except Int P} (h : Keeps W k p r) (hr : r = .ok p') (hp : Within W k p) : Within W k p' := by
  rw [hr] at h
  exact h hp

/-- Fields that `Within` does not speak about may change. -/
theorem Within.congr {W : Bytes} {k : Bool} {p p' : P} (h : Within W k p) (e1 : p'.serial = p.serial) (e2 : p'.rawIssuer = p.rawIssuer) (e3 : p'.rawSubject = p.rawSubject)
    (e4 : p'.key = p.key) (e5 : p'.rawSkid = p.rawSkid) (e6 : p'.akidExt = p.akidExt) (e7 : p'.rawAkid = p.rawAkid) (e8 : p'.akidIssuer = p.akidIssuer)
    (e9 : p'.sanDns = p.sanDns) (e10 : p'.sanIp = p.sanIp) : Within W k p' :=
  ⟨e1 ▸ h.serial, e2 ▸ h.issuer, e3 ▸ h.subject, e4 ▸ h.key, e5 ▸ h.skid, e6 ▸ h.akidExt, e7 ▸ h.akid, e8 ▸ h.akidIssuer, e9 ▸ h.dns, e10 ▸ h.ip, e4 ▸ h.set⟩

/-- What `fabricate` changes. -/
theorem fabricate_eq {p p' : P} {b : Bool} {nm : Option Bytes} (h : fabricate p b = .ok (nm, p')) : p' = p ∨ p' = { p with cn := [], o := [], email := [] } := by
  unfold fabricate at h
  dsimp only at h
  have hs : ∀ v : Bytes, (if v.length > 128 then Except.error (-EOVERFLOW) else .ok (some v, { p with cn := [], o := [], email := [] })) = Except.ok (nm, p') →
      p' = { p with cn := [], o := [], email := [] } := by
    intro v h
    split at h
    · cases h
    · injection h with h
      injection h with _ h
      exact h.symm
  split at h
  · injection h with h
    injection h with _ h
    exact .inl h.symm
  · split at h
    · injection h with h
      injection h with _ h
      exact .inl h.symm
    · split at h
      · injection h with h
        injection h with _ h
        exact .inr h.symm
      · split at h
        · split at h
          · exact .inr (hs _ h)
          · split at h
            · exact .inr (hs _ h)
            · split at h
              · cases h
              · injection h with h
                injection h with _ h
                exact .inr h.symm
        · split at h
          · exact .inr (hs _ h)
          · split at h
            · exact .inr (hs _ h)
            · exact .inr (hs _ h)

theorem fab_keeps {W : Bytes} {k : Bool} {p p' : P} {b : Bool} {nm : Option Bytes} (h : fabricate p b = .ok (nm, p')) (hp : Within W k p) : Within W k p' := by
  rcases fabricate_eq h with rfl | rfl
  · exact hp
  · exact hp.congr rfl rfl rfl rfl rfl rfl rfl rfl rfl rfl

theorem name_keeps {W : Bytes} {k : Bool} {p : P} (v : Bytes) (hp : Within W k p) : Within W k (nameSegment v p) := by
  unfold nameSegment
  dsimp only
  split
  · split <;> exact hp.congr rfl rfl rfl rfl rfl rfl rfl rfl rfl rfl
  · split
    · split <;> exact hp.congr rfl rfl rfl rfl rfl rfl rfl rfl rfl rfl
    · split
      · split <;> exact hp.congr rfl rfl rfl rfl rfl rfl rfl rfl rfl rfl
      · split <;> exact hp.congr rfl rfl rfl rfl rfl rfl rfl rfl rfl rfl

theorem ext_keeps {W : Bytes} {k : Bool} {p : P} (o : Option LC.X509.ExtState) : Keeps W k p (liftExt p o) := by
  unfold liftExt
  cases o with
  | none => trivial
  | some e => exact fun hp => hp.congr rfl rfl rfl rfl rfl rfl rfl rfl rfl rfl

theorem dns_keeps {W : Bytes} {k : Bool} {p : P} (v : Bytes) (hv : v <:+: W) : Keeps W k p (sanDnsP v p) := by
  unfold sanDnsP
  cases hf : fabricate { p with sanDns := v } true with
  | error e => trivial
  | ok r =>
    intro hp
    have := fab_keeps (nm := r.1) (p' := r.2) hf { hp with dns := hv }
    exact this.congr rfl rfl rfl rfl rfl rfl rfl rfl rfl rfl

/-- The actions of a nested decoder. -/
def ActKeeps (W : Bytes) (act : PAct P) : Prop := ∀ i e p k, Part W e → Keeps W k p (act i e p)

theorem san_keeps (W : Bytes) : ActKeeps W sanPActs := by
  intro i e p k he
  unfold sanPActs
  split
  · exact name_keeps _
  · split
    · exact fun hp => hp.congr rfl rfl rfl rfl rfl rfl rfl rfl rfl rfl
    · split
      · exact dns_keeps _ he.1
      · exact fun hp => { hp with ip := he.1 }

theorem skid_keeps (W : Bytes) : ActKeeps W skidPActs := by
  intro i e p k he
  unfold skidPActs skidP
  split
  · trivial
  · cases generateId e.content [] with
    | error e => trivial
    | ok r => exact fun hp => { hp with skid := he.1 }

theorem ku_keeps (W : Bytes) : ActKeeps W kuPActs := fun _ _ _ _ _ => ext_keeps _
theorem bc_keeps (W : Bytes) : ActKeeps W bcPActs := fun _ _ _ _ _ => ext_keeps _

theorem eku_keeps (W : Bytes) : ActKeeps W ekuPActs := by
  intro i e p k he
  unfold ekuPActs ekuActP
  split
  · trivial
  · exact fun hp => hp.congr rfl rfl rfl rfl rfl rfl rfl rfl rfl rfl

theorem akid_keeps (W : Bytes) : ActKeeps W akidPActs := by
  intro i e p k he
  unfold akidPActs
  split
  · exact fun hp => hp.congr rfl rfl rfl rfl rfl rfl rfl rfl rfl rfl
  · split
    · unfold akidKidP
      split
      · exact fun hp => hp
      · cases generateId e.content [] with
        | error e => trivial
        | ok r => exact fun hp => { hp with akid := he.1 }
    · split
      · exact fun hp => { hp with akidIssuer := fun b hb => by injection hb with hb; exact hb ▸ he.1 }
      · split
        · unfold akidSerialP
          cases hi : p.akidIssuer with
          | none => exact fun hp => hp
          | some iss =>
            dsimp only
            split
            · exact fun hp => hp
            · cases generateId e.content iss with
              | error e => trivial
              | ok r => exact fun hp => hp.congr rfl rfl rfl rfl rfl rfl rfl hi.symm rfl rfl
        · exact name_keeps _

theorem sub_keeps {W : Bytes} {act : PAct P} (ha : ActKeeps W act) (d : Decoder) (n : Nat) (v : Bytes) (hv : v <:+: W) (p : P) (k : Bool) :
    Keeps W k p (subParse d act n v p) := by
  cases h : subParse d act n v p with
  | error e => trivial
  | ok p' =>
    intro hp
    obtain ⟨sf, _, hf⟩ := subParse_ok h
    exact foldTr_keeps act v p (Within W k) hp (fun i e q q' he hq hr => (ha i e q k ⟨he.1.trans hv, he.2.trans hv⟩).ok hr hq) _ _ hf

theorem Keeps.bind {W : Bytes} {k : Bool} {p : P} {r : Except Int P} {f : P → Except Int P} (h : Keeps W k p r) (hf : ∀ q, Keeps W k q (f q)) : Keeps W k p (r >>= f) := by
  cases r with
  | error e => trivial
  | ok q =>
    show Keeps W k p (f q)
    have := hf q
    cases hq : f q with
    | error e => trivial
    | ok q' =>
      rw [hq] at this
      exact fun hp => this (h hp)

theorem ite_keeps {W : Bytes} {k : Bool} {p : P} {c : Prop} [Decidable c] {r : Except Int P} (h : Keeps W k p r) : Keeps W k p (if c then r else .ok p) := by
  split
  · exact h
  · exact fun hp => hp

theorem jp_keeps {W : Bytes} {k : Bool} {p : P} {c : Prop} [Decidable c] {r : Except Int P} {f : P → Except Int P} (h : Keeps W k p r)
    (hf : ∀ q, Keeps W k q (f q)) : Keeps W k p (if c then r >>= f else Except.ok p >>= f) := by
  split
  · exact h.bind hf
  · exact hf p

theorem procExt_keeps {W : Bytes} (n : Nat) (v : Bytes) (hv : v <:+: W) (p : P) (k : Bool) : Keeps W k p (procExtP n v p) := by
  unfold procExtP
  apply jp_keeps (sub_keeps (skid_keeps W) _ _ _ hv _ _)
  intro p
  apply jp_keeps (sub_keeps (ku_keeps W) _ _ _ hv _ _)
  intro p
  dsimp only
  split
  · exact fun hp => { hp with akidExt := fun b hb => by injection hb with hb; exact hb ▸ hv }
  · apply jp_keeps (sub_keeps (bc_keeps W) _ _ _ hv _ _)
    intro p
    apply jp_keeps (sub_keeps (eku_keeps W) _ _ _ hv _ _)
    intro p
    exact ite_keeps (sub_keeps (san_keeps W) _ _ _ hv _ _)

theorem key_sub {W v : Bytes} (h : v <:+: W) : (match v with | 0 :: v => v | v => v) <:+: W := by
  split
  · exact (List.suffix_cons _ _).isInfix.trans h
  · exact h

theorem cert_keeps (n : Nat) (W : Bytes) : ActKeeps W (certPActs n) := by
  intro i e p k he
  unfold certPActs
  split
  · exact fun hp => hp.congr rfl rfl rfl rfl rfl rfl rfl rfl rfl rfl
  · exact ext_keeps _
  · exact name_keeps _
  · unfold keyData
    split
    · trivial
    · exact fun hp => { hp with
        key := fun b hb => (by injection hb with hb; exact hb ▸ key_sub he.1)
        set := fun _ => rfl }
  · exact fun hp => hp.congr rfl rfl rfl rfl rfl rfl rfl rfl rfl rfl
  · exact fun hp => hp.congr rfl rfl rfl rfl rfl rfl rfl rfl rfl rfl
  · unfold noteIssuer
    dsimp only
    have key : ∀ q : P, (Within W k p → Within W k q) → Keeps W k p
        (match fabricate q false with | .error e => .error e | .ok (nm, p) => .ok { p with issuerName := nm }) := by
      intro q hq
      cases hf : fabricate q false with
      | error e => trivial
      | ok r => exact fun hp => (fab_keeps (nm := r.1) (p' := r.2) hf (hq hp)).congr rfl rfl rfl rfl rfl rfl rfl rfl rfl rfl
    have hi : Within W k p → Within W k { p with rawIssuer := some e.content } :=
      fun hp => { hp with issuer := fun b hb => (by injection hb with hb; exact hb ▸ he.1) }
    split
    · trivial
    · rename_i q hq
      refine key q fun hp => ?_
      split at hq
      · cases hg : generateId e.content [] with
        | error e => rw [hg] at hq; cases hq
        | ok r =>
          rw [hg] at hq
          injection hq with hq
          subst hq
          exact (hi hp).congr rfl rfl rfl rfl rfl rfl rfl rfl rfl rfl
      · injection hq with hq
        subst hq
        exact hi hp
  · unfold timeP
    split
    · trivial
    · exact fun hp => hp.congr rfl rfl rfl rfl rfl rfl rfl rfl rfl rfl
  · unfold timeP
    split
    · trivial
    · exact fun hp => hp.congr rfl rfl rfl rfl rfl rfl rfl rfl rfl rfl
  · intro hp
    unfold noteParams
    split
    · exact hp
    · exact hp.congr rfl rfl rfl rfl rfl rfl rfl rfl rfl rfl
  · exact fun hp => { hp with serial := he.1 }
  · unfold noteSigAlgo
    split
    · trivial
    · exact fun hp => hp.congr rfl rfl rfl rfl rfl rfl rfl rfl rfl rfl
  · unfold noteSignature
    split
    · trivial
    · split
      · exact fun hp => hp.congr rfl rfl rfl rfl rfl rfl rfl rfl rfl rfl
      · split
        · exact fun hp => hp.congr rfl rfl rfl rfl rfl rfl rfl rfl rfl rfl
        · trivial
  · unfold noteSubject
    cases hf : fabricate { p with rawSubject := some e.content } true with
    | error e => trivial
    | ok r =>
      exact fun hp => (fab_keeps (nm := r.1) (p' := r.2) hf { hp with subject := fun b hb => (by injection hb with hb; exact hb ▸ he.1) }).congr
        rfl rfl rfl rfl rfl rfl rfl rfl rfl rfl
  · exact fun hp => hp.congr rfl rfl rfl rfl rfl rfl rfl rfl rfl rfl
  · exact procExt_keeps n _ he.1 p k
  · unfold versionP
    split
    · exact fun hp => hp.congr rfl rfl rfl rfl rfl rfl rfl rfl rfl rfl
    · trivial
  · exact fun hp => hp

/-! ### The order of the actions -/

theorem foldTr_cons {α : Type} (act : PAct α) (data : Bytes) (p0 : α) (c : Call) (tr : List Call) : foldTr act data p0 (c :: tr) =
    match foldTr act data p0 tr with
    | .error e => .error e
    | .ok p => act c.act (elOf data c) p := rfl

/-- `x509_extract_key_data` is called. -/
def PK : Nest.Prog := ⟨fun _ => false, (· == 5), fun _ => false, fun _ => false, fun f => !f⟩

theorem closedK : closed x509 PK (certOf x509 PK) = true := by decide +kernel

theorem scope_mem (Q : Nest.Prog) (hr : ∀ i, Q.reset i = false) {x : Call} (hx : Q.sel x.act = true) : ∀ {tr : List Call}, x ∈ tr → x ∈ scope Q tr
  | c :: tr, h => by
    unfold scope
    rw [hr, if_neg (by decide)]
    rcases List.mem_cons.mp h with rfl | h
    · rw [if_pos hx]
      exact List.mem_cons_self
    · have := scope_mem Q hr hx h
      split
      · exact List.mem_cons_of_mem _ this
      · exact this

theorem scope_sel (Q : Nest.Prog) : ∀ {tr : List Call} {x : Call}, x ∈ scope Q tr → x ∈ tr ∧ Q.sel x.act = true
  | c :: tr, x, h => by
    unfold scope at h
    split at h
    · cases h
    · split at h
      · rename_i hs
        rcases List.mem_cons.mp h with rfl | h
        · exact ⟨List.mem_cons_self, hs⟩
        · have := scope_sel Q h
          exact ⟨List.mem_cons_of_mem _ this.1, this.2⟩
      · have := scope_sel Q h
        exact ⟨List.mem_cons_of_mem _ this.1, this.2⟩

theorem rec_ok {Q : Nest.Prog} {C : Cert} (hC : closed x509 Q C = true) {cb : List Call → Int} {data : Bytes} {n : Nat} {sf : St}
    (h : decode x509 cb data n = .halt 0 sf) : TrOK Q sf.trace ∧ Q.fin (scope Q sf.trace).isEmpty = true := by
  have := decode_nest Q x509 C hC cb data n
  rw [h] at this
  exact ⟨this.1, this.2 rfl⟩

/-- The signature is noted last. -/
theorem head14 {tr : List Call} (h : TrOK PS tr) (hf : PS.fin (scope PS tr).isEmpty = true) : ∃ c pre, tr = c :: pre ∧ c.act = 14 := by
  cases tr with
  | nil => cases hf
  | cons c pre =>
    refine ⟨c, pre, rfl, ?_⟩
    have h1 : scope PS pre = [] := (h [] c pre rfl).2 rfl
    unfold scope at hf
    rw [if_neg (show ¬ (PS.reset c.act = true) from fun h => by cases h), h1] at hf
    split at hf
    · rename_i hs
      exact beq_iff_eq.mp hs
    · cases hf

/-- After the signed part only the outer algorithm identifier and the signature are noted. -/
theorem post_acts {post pre : List Call} {x : Call} (hx : x.act = 16) (h : TrOK PT (post ++ x :: pre)) :
    ∀ y ∈ post, y.act = 6 ∨ y.act = 11 ∨ y.act = 20 ∨ y.act = 14 := by
  intro y hy
  obtain ⟨a, b, rfl⟩ := List.append_of_mem hy
  have h1 := (h a y (b ++ x :: pre) (by rw [List.append_assoc, List.cons_append])).2
  have h2 : x ∈ scope PT (b ++ x :: pre) :=
    scope_mem PT (fun _ => rfl) (by rw [hx]; rfl) (List.mem_append_right _ List.mem_cons_self)
  have h3 : PT.needF y.act = false := by
    cases hn : PT.needF y.act with
    | false => rfl
    | true =>
      rw [h1 hn] at h2
      cases h2
  have h4 : (!(y.act == 6 || y.act == 11 || y.act == 20 || y.act == 14)) = false := h3
  simp only [Bool.not_eq_false', Bool.or_eq_true, beq_iff_eq] at h4
  omega

/-- What the actions after the signed part change. -/
theorem post_fold (n : Nat) (data : Bytes) (q : P) : ∀ (post : List Call) (p : P), (∀ y ∈ post, y.act = 6 ∨ y.act = 11 ∨ y.act = 20 ∨ y.act = 14) →
    foldTr (certPActs n) data q post = .ok p →
    p = { q with lastOid := p.lastOid, rawSig := p.rawSig, params := p.params } ∧ (q.key.isSome = true → p.params = q.params)
  | [], p, _, h => by
    injection h with h
    subst h
    exact ⟨rfl, fun _ => rfl⟩
  | c :: post, p, ha, h => by
    unfold foldTr at h
    cases hf : foldTr (certPActs n) data q post with
    | error e => rw [hf] at h; cases h
    | ok r =>
      rw [hf] at h
      dsimp only at h
      obtain ⟨h1, h2⟩ := post_fold n data q post r (fun y hy => ha y (List.mem_cons_of_mem _ hy)) hf
      have hk : r.key = q.key := by rw [h1]
      rcases ha c List.mem_cons_self with hc | hc | hc | hc
      · rw [hc] at h
        injection h with h
        rw [← h]
        unfold noteOid
        dsimp only
        exact ⟨by rw [h1], h2⟩
      · rw [hc] at h
        injection h with h
        rw [← h]
        unfold noteParams
        split
        · exact ⟨h1, h2⟩
        · rename_i hn
          refine ⟨by rw [h1], fun hq => ?_⟩
          rw [hk, hq, Bool.or_true] at hn
          exact absurd rfl hn
      · rw [hc] at h
        injection h with h
        rw [← h]
        exact ⟨h1, h2⟩
      · rw [hc] at h
        have h' : noteSignature (elOf data c).content r = .ok p := h
        unfold noteSignature at h'
        split at h'
        · cases h'
        · split at h'
          · injection h' with h'
            rw [← h']
            dsimp only
            exact ⟨by rw [h1], h2⟩
          · split at h'
            · injection h' with h'
              rw [← h']
              dsimp only
              exact ⟨by rw [h1], h2⟩
            · cases h'

theorem last14 {n : Nat} {data : Bytes} {c : Call} {pre : List Call} {p : P} (hc : c.act = 14) (h : foldTr (certPActs n) data {} (c :: pre) = .ok p) :
    p.lastOid = p.sigOid := by
  unfold foldTr at h
  cases hf : foldTr (certPActs n) data {} pre with
  | error e => rw [hf] at h; cases h
  | ok r =>
    rw [hf, hc] at h
    have h' : noteSignature (elOf data c).content r = .ok p := h
    unfold noteSignature at h'
    split at h'
    · cases h'
    · rename_i hn
      have he : r.lastOid = r.sigOid := Decidable.byContradiction hn
      split at h'
      · injection h' with h'
        rw [← h']
        exact he
      · split at h'
        · injection h' with h'
          rw [← h']
          exact he
        · cases h'

theorem within0 (W : Bytes) : Within W false ({} : P) :=
  ⟨List.nil_infix, (fun _ h => by cases h), (fun _ h => by cases h), (fun _ h => by cases h), List.nil_infix, (fun _ h => by cases h), List.nil_infix, (fun _ h => by cases h),
    List.nil_infix, List.nil_infix, fun h => by cases h⟩

/-- The actions keep the public key, and `x509_extract_key_data` sets it. -/
theorem within_fold (n : Nat) (W : Bytes) : ∀ (tr : List Call) (p : P), foldTr (certPActs n) W {} tr = .ok p → Within W (tr.any fun c => c.act == 5) p
  | [], p, h => by
    injection h with h
    exact h ▸ within0 W
  | c :: tr, p, h => by
    unfold foldTr at h
    cases hf : foldTr (certPActs n) W {} tr with
    | error e => rw [hf] at h; cases h
    | ok q =>
      rw [hf] at h
      have hq := within_fold n W tr q hf
      have hk := (cert_keeps n W c.act (elOf W c) q _ (part_el W c)).ok h hq
      rw [List.any_cons]
      by_cases h5 : c.act = 5
      · refine { hk with set := fun _ => ?_ }
        rw [h5] at h
        have h' : keyData (elOf W c).content q = .ok p := h
        unfold keyData at h'
        split at h'
        · cases h'
        · injection h' with h'
          rw [← h']
          rfl
      · have : (c.act == 5) = false := by simpa using h5
        rw [this, Bool.false_or]
        exact hk

/-! ### The report as a function of the signed part -/

/-- The report before the authority key identifier is looked at is that of the run inside of `W`, except for the signature. -/
def Signed (n : Nat) (W : Bytes) (p : P) : Prop :=
  ∃ lb c q, W[1]? = some lb ∧ lb.toNat ≠ 0x80 ∧ ToEnd x509 (cbOf (certPActs n) W {}) W (cOf W) c ∧ foldTr (certPActs n) W {} c.trace = .ok q ∧ Within W true q ∧
    p = { q with tbs := W, lastOid := q.sigOid, rawSig := p.rawSig }

theorem sub_signed (n : Nat) (data : Bytes) (p : P) (h : subParse x509 (certPActs n) n data {} = .ok p) : Signed n p.tbs p ∨ p.tbs[1]? = some 0x80 := by
  obtain ⟨sf, hd, hf⟩ := subParse_ok h
  have hT := rec_ok closedT hd
  have hS := rec_ok closedS hd
  have hK := rec_ok closedK hd
  obtain ⟨c14, pre14, e14, a14⟩ := head14 hS.1 hS.2
  have hlast : p.lastOid = p.sigOid := by
    rw [e14] at hf
    exact last14 a14 hf
  rcases x509_run (certPActs n) {} data n sf hd with ⟨b, W, c, x, post, lb, hW, h1, h2, he, ht, hok, hx, hel⟩ | ⟨x, post, pre, ht, hx, hel⟩
  · rw [ht] at hf hT hK
    have hpa := post_acts hx hT.1
    rw [foldTr_append, foldTr_cons] at hf
    rw [foldTr_sh hW _ _ _ hok] at hf
    cases hq : foldTr (certPActs n) W {} c.trace with
    | error e => rw [hq] at hf; cases hf
    | ok q =>
      rw [hq, hx] at hf
      have hf' : foldTr (certPActs n) data { q with tbs := (elOf data x).hdr ++ (elOf data x).content } post = .ok p := hf
      rw [hel] at hf'
      obtain ⟨k1, k2⟩ := post_fold n data _ post p hpa hf'
      have h5 : (c.trace.any fun c => c.act == 5) = true := by
        have hne : scope PK (post ++ x :: c.trace.map (shc b)) ≠ [] := by
          intro h0
          have := hK.2
          rw [h0] at this
          cases this
        obtain ⟨y, hy⟩ := List.exists_mem_of_ne_nil _ hne
        obtain ⟨m1, m2⟩ := scope_sel PK hy
        have hy5 : y.act = 5 := beq_iff_eq.mp m2
        rcases List.mem_append.mp m1 with m | m
        · have := hpa y m
          omega
        · rcases List.mem_cons.mp m with rfl | m
          · omega
          · obtain ⟨z, hz, rfl⟩ := List.mem_map.mp m
            exact List.any_eq_true.mpr ⟨z, hz, beq_iff_eq.mpr hy5⟩
      have hw := within_fold n W c.trace q hq
      rw [h5] at hw
      have k3 := k2 (hw.set rfl)
      have htb : p.tbs = W := by rw [k1]
      have hso : p.sigOid = q.sigOid := by rw [k1]
      left
      rw [htb]
      refine ⟨lb, c, q, h1, h2, he, hq, hw, ?_⟩
      rw [k3, hlast, hso] at k1
      exact k1
  · right
    rw [ht] at hf hT
    have hpa := post_acts hx hT.1
    rw [foldTr_append, foldTr_cons] at hf
    cases hq : foldTr (certPActs n) data {} pre with
    | error e => rw [hq] at hf; cases hf
    | ok q =>
      rw [hq, hx] at hf
      have hf' : foldTr (certPActs n) data { q with tbs := (elOf data x).hdr ++ (elOf data x).content } post = .ok p := hf
      obtain ⟨k1, _⟩ := post_fold n data _ post p hpa hf'
      have htb : p.tbs = (elOf data x).hdr ++ (elOf data x).content := by rw [k1]
      rw [htb, List.getElem?_append_left, hel]
      exact (List.getElem?_eq_some_iff.mp hel).1

theorem Signed.unique {n : Nat} {W : Bytes} {p1 p2 : P} (h1 : Signed n W p1) (h2 : Signed n W p2) : p1 = withRaw p1.rawSig p2 := by
  obtain ⟨_, c1, q1, _, _, e1, f1, _, g1⟩ := h1
  obtain ⟨_, c2, q2, _, _, e2, f2, _, g2⟩ := h2
  have := e1.det e2
  subst this
  rw [f1] at f2
  injection f2 with f2
  subst f2
  rw [g2]
  exact g1

/-- The authority key identifier does not change the signed part or the signature. -/
theorem akid_tbs {n : Nat} {o : Option Bytes} {p p' : P} (h : akidPart n o p = .ok p') : p'.tbs = p.tbs ∧ p'.rawSig = p.rawSig := by
  unfold akidPart at h
  cases o with
  | none =>
    injection h with h
    rw [← h]
    exact ⟨rfl, rfl⟩
  | some v =>
    obtain ⟨sf, _, hf⟩ := subParse_ok h
    refine foldTr_keeps akidPActs v p (fun q => q.tbs = p.tbs ∧ q.rawSig = p.rawSig) ⟨rfl, rfl⟩ ?_ _ _ hf
    intro i e q q' _ hq hr
    unfold akidPActs at hr
    have hn : (nameSegment e.content q).tbs = q.tbs ∧ (nameSegment e.content q).rawSig = q.rawSig := by
      unfold nameSegment
      dsimp only
      split
      · split <;> exact ⟨rfl, rfl⟩
      · split
        · split <;> exact ⟨rfl, rfl⟩
        · split
          · split <;> exact ⟨rfl, rfl⟩
          · split <;> exact ⟨rfl, rfl⟩
    split at hr
    · injection hr with hr
      rw [← hr]
      exact hq
    · split at hr
      · unfold akidKidP at hr
        split at hr
        · injection hr with hr
          rw [← hr]
          exact hq
        · cases hg : generateId e.content [] with
          | error e => rw [hg] at hr; cases hr
          | ok k =>
            rw [hg] at hr
            injection hr with hr
            rw [← hr]
            exact hq
      · split at hr
        · injection hr with hr
          rw [← hr]
          exact hq
        · split at hr
          · unfold akidSerialP at hr
            split at hr
            · injection hr with hr
              rw [← hr]
              exact hq
            · split at hr
              · injection hr with hr
                rw [← hr]
                exact hq
              · rename_i iss _ _
                cases hg : generateId e.content iss with
                | error e => rw [hg] at hr; cases hr
                | ok k =>
                  rw [hg] at hr
                  injection hr with hr
                  rw [← hr]
                  exact hq
          · injection hr with hr
            rw [← hr, hn.1, hn.2]
            exact hq

theorem akidPart_raw (n : Nat) (o : Option Bytes) (s : Bytes) (p : P) : akidPart n o (withRaw s p) = (akidPart n o p).map (withRaw s) := by
  unfold akidPart
  cases o with
  | none => rfl
  | some v => exact subParse_map x509_akid akidPActs (withRaw s) (akid_raw s) n v p

/-- The parts of a successful parser run. -/
theorem certParse_ok {n : Nat} {data : Bytes} {p : P} (h : certParse n data = .ok p) : ∃ q r k, subParse x509 (certPActs n) n data {} = .ok q ∧
    akidPart n q.akidExt q = .ok r ∧ generateId r.serial (r.rawIssuer.getD []) = .ok k ∧ p = { r with id := k } := by
  rw [certParse_eq] at h
  cases h1 : subParse x509 (certPActs n) n data {} with
  | error e => rw [h1] at h; cases h
  | ok q =>
    rw [h1] at h
    dsimp only at h
    cases h2 : akidPart n q.akidExt q with
    | error e => rw [h2] at h; cases h
    | ok r =>
      rw [h2] at h
      dsimp only at h
      cases h3 : generateId r.serial (r.rawIssuer.getD []) with
      | error e => rw [h3] at h; cases h
      | ok k =>
        rw [h3] at h
        injection h with h
        exact ⟨q, r, k, rfl, h2, h3, h.symm⟩

/-! ### C105 -/

/-- C105: what is reported about a certificate is determined by its signed part.  Two certificates that are accepted and whose signed parts
(`tbs`, the octets that `lc_x509_cert_verify` hashes) are the same are reported to be the same in every field except for the signature itself:
names, serial number, key, validity, extensions, identifiers, algorithms.  Nothing outside of the signed part, in particular not the outer
algorithm identifier, can change the report.  The signed part has a definite length, as DER demands. -/
theorem c105_signed_content (n : Nat) (d1 d2 : Bytes) (p1 p2 : P) (h1 : certParse n d1 = .ok p1) (h2 : certParse n d2 = .ok p2)
    (ht : p1.tbs = p2.tbs) (hd : p1.tbs[1]? ≠ some 0x80) : p1 = { p2 with rawSig := p1.rawSig } := by
  obtain ⟨q1, r1, k1, a1, b1, c1, rfl⟩ := certParse_ok h1
  obtain ⟨q2, r2, k2, a2, b2, c2, rfl⟩ := certParse_ok h2
  have t1 := akid_tbs b1
  have t2 := akid_tbs b2
  have e1 : r1.tbs = r2.tbs := ht
  have e2 : r1.tbs[1]? ≠ some 0x80 := hd
  have s1 : Signed n q1.tbs q1 := (sub_signed n d1 q1 a1).resolve_right (by rw [← t1.1]; exact e2)
  have s2 : Signed n q2.tbs q2 := (sub_signed n d2 q2 a2).resolve_right (by rw [← t2.1, ← e1]; exact e2)
  have e3 : q1.tbs = q2.tbs := by rw [← t1.1, ← t2.1]; exact e1
  rw [← e3] at s2
  have hq := s1.unique s2
  rw [hq, show (withRaw q1.rawSig q2).akidExt = q2.akidExt from rfl, akidPart_raw, b2] at b1
  have hr : withRaw q1.rawSig r2 = r1 := by
    injection b1
  have hs : r1.serial = r2.serial ∧ r1.rawIssuer = r2.rawIssuer := by rw [← hr]; exact ⟨rfl, rfl⟩
  rw [hs.1, hs.2, c2] at c1
  injection c1 with c1
  rw [← c1]
  show { r1 with id := k2 } = { r2 with id := k2, rawSig := r1.rawSig }
  rw [← hr]
  rfl

/-- Parse a generated certificate. -/
def tripOf (g : Except Int Bytes) (f : Bytes → Except Int P) : Except Int (Bytes × P) :=
  match g with
  | .error e => .error e
  | .ok D =>
    match f D with
    | .error e => .error e
    | .ok p => .ok (D, p)

theorem tripOf_ok {g : Except Int Bytes} {f : Bytes → Except Int P} {x : Bytes × P} (h : tripOf g f = .ok x) : f x.1 = .ok x.2 := by
  unfold tripOf at h
  cases g with
  | error e => cases h
  | ok D =>
    dsimp only at h
    cases hp : f D with
    | error e => rw [hp] at h; cases h
    | ok p =>
      rw [hp] at h
      injection h with h
      rw [← h]
      exact hp

/-- Generate a certificate with the signature function `sign` and parse it. -/
def trip (sign : Bytes → Nat → Except Int Bytes) : Except Int (Bytes × P) := tripOf (certGen sign demo 100000 300) (certParse 300)

theorem trip_ok {sign : Bytes → Nat → Except Int Bytes} {x : Bytes × P} (h : trip sign = .ok x) : certParse 300 x.1 = .ok x.2 := tripOf_ok h

/-- The result of a run that meets a condition. -/
def okAnd {α : Type} (r : Except Int α) (q : α → Bool) : Bool := match r with | .ok a => q a | .error _ => false

theorem okAnd_iff {α : Type} {r : Except Int α} {q : α → Bool} (h : okAnd r q = true) : ∃ a, r = .ok a ∧ q a = true := by
  cases r with
  | ok a => exact ⟨a, rfl, h⟩
  | error e => cases h

/-- The hypotheses of C105 hold for two certificates that differ in the signature; the signed part is not empty, and the report is not trivial. -/
example : ∃ n d1 d2 p1 p2, certParse n d1 = .ok p1 ∧ certParse n d2 = .ok p2 ∧ p1.tbs = p2.tbs ∧ p1.tbs[1]? ≠ some 0x80 ∧ d1 ≠ d2 ∧ p1.rawSig ≠ p2.rawSig ∧
    p1.sanDns = [100, 46, 101] := by
  have h : okAnd (trip demoSign) (fun x => okAnd (trip fun m _ => .ok (m.take 4)) fun y =>
      decide (x.2.tbs = y.2.tbs ∧ x.2.tbs[1]? ≠ some 0x80 ∧ x.1 ≠ y.1 ∧ x.2.rawSig ≠ y.2.rawSig ∧ x.2.sanDns = [100, 46, 101])) = true := by decide +kernel
  obtain ⟨x, hx, h⟩ := okAnd_iff h
  obtain ⟨y, hy, h⟩ := okAnd_iff h
  exact ⟨300, x.1, y.1, x.2, y.2, trip_ok hx, trip_ok hy, of_decide_eq_true h⟩

/-! ### C106 -/

/-- C106: the values that are reported as they stand in the certificate are parts of its signed part. -/
theorem c106_inside (n : Nat) (d : Bytes) (p : P) (h : certParse n d = .ok p) (hd : p.tbs[1]? ≠ some 0x80) :
    p.serial <:+: p.tbs ∧ p.rawSkid <:+: p.tbs ∧ p.rawAkid <:+: p.tbs ∧ p.sanDns <:+: p.tbs ∧ p.sanIp <:+: p.tbs ∧
    (∀ b, p.rawIssuer = some b → b <:+: p.tbs) ∧ (∀ b, p.rawSubject = some b → b <:+: p.tbs) ∧ (∃ b, p.key = some b ∧ b <:+: p.tbs) := by
  obtain ⟨q, r, k, a, b, c, rfl⟩ := certParse_ok h
  have t := akid_tbs b
  have s : Signed n q.tbs q := (sub_signed n d q a).resolve_right (by rw [← t.1]; exact hd)
  obtain ⟨_, _, q0, _, _, _, _, hw, hq⟩ := s
  have hwq : Within q.tbs true q := by
    generalize q.tbs = W at hw hq
    rw [hq]
    exact hw.congr rfl rfl rfl rfl rfl rfl rfl rfl rfl rfl
  have hr : Within q.tbs true r := by
    unfold akidPart at b
    cases ho : q.akidExt with
    | none =>
      rw [ho] at b
      injection b with b
      exact b ▸ hwq
    | some v =>
      rw [ho] at b
      exact (sub_keeps (akid_keeps q.tbs) x509_akid n v (hwq.akidExt v ho) q true).ok b hwq
  show r.serial <:+: r.tbs ∧ r.rawSkid <:+: r.tbs ∧ r.rawAkid <:+: r.tbs ∧ r.sanDns <:+: r.tbs ∧ r.sanIp <:+: r.tbs ∧
    (∀ b, r.rawIssuer = some b → b <:+: r.tbs) ∧ (∀ b, r.rawSubject = some b → b <:+: r.tbs) ∧ (∃ b, r.key = some b ∧ b <:+: r.tbs)
  rw [t.1]
  refine ⟨hr.serial, hr.skid, hr.akid, hr.dns, hr.ip, hr.issuer, hr.subject, ?_⟩
  obtain ⟨b, hb⟩ := Option.isSome_iff_exists.mp (hr.set rfl)
  exact ⟨b, hb, hr.key b hb⟩

/-- The hypotheses of C106 hold for a certificate with all of these values. -/
example : ∃ n d p, certParse n d = .ok p ∧ p.tbs[1]? ≠ some 0x80 ∧ p.serial = [1, 2, 3] ∧ p.rawAkid = [9, 8, 7] ∧ p.sanIp = [127, 0, 0, 1] ∧ p.rawIssuer.isSome ∧
    p.rawSubject.isSome := by
  have h : okAnd (trip demoSign) (fun x => decide (x.2.tbs[1]? ≠ some 0x80 ∧ x.2.serial = [1, 2, 3] ∧ x.2.rawAkid = [9, 8, 7] ∧ x.2.sanIp = [127, 0, 0, 1] ∧
      x.2.rawIssuer.isSome ∧ x.2.rawSubject.isSome)) = true := by decide +kernel
  obtain ⟨x, hx, h⟩ := okAnd_iff h
  exact ⟨300, x.1, x.2, trip_ok hx, of_decide_eq_true h⟩

end LC.Crt
