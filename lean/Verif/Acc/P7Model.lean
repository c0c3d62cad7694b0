import Verif.Acc.MapModel

/-!
# Setting up a PKCS#7 message

`lc_pkcs7_set_certificate`, `lc_pkcs7_set_signer`, `lc_pkcs7_set_data` and `lc_pkcs7_message_clear`.  Certificates and signer
infos are nodes of singly linked lists in a heap.

Simplifications: only the members these functions use are modelled; a step count bounds the walks along the lists, so that a
walk that does not end is one for which no step count is enough; allocations do not fail; `lc_x509_cert_clear` and
`public_key_signature_clear`, which release nothing of generated objects, are left out, and so are the lists of revoked
certificates, which the generator does not use.
-/

namespace LC.Acc

/-- The members of `struct lc_x509_certificate` that are used: `next`, is there an encoded certificate, the type of the signer key
(0 is `LC_SIG_UNKNOWN`), are its public and its secret key set; was the structure allocated with `lc_alloc_aligned`. -/
structure Node where
  next : Option Nat := none
  raw : Bool := true
  sigType : Nat := 0
  pk : Bool := false
  sk : Bool := false
  heap : Bool := true
deriving DecidableEq, Repr

/-- `struct lc_pkcs7_signed_info` -/
structure SInfo where
  next : Option Nat := none
  signer : Nat
  aaSet : Nat
  hash : Hash
deriving DecidableEq, Repr

/-- Memory and `struct lc_pkcs7_message`.  An address that is not valid (any more) is mapped to `none`; `fresh` is the address
the next signer info gets. -/
structure Msg where
  certs : Nat → Option Node
  infos : Nat → Option SInfo := fun _ => none
  fresh : Nat := 0
  head : Option Nat := none
  shead : Option Nat := none
  data : List UInt8 := []
  embed : Bool := false

/-- Outcome of a walk: the result, an access to memory that is not valid, or steps used up. -/
inductive R (α : Type) where
  | done (a : α)
  | fault
  | running

/-- Replace the value at an address. -/
def put {α : Type} (m : Nat → Option α) (a : Nat) (v : Option α) : Nat → Option α := fun x => if x = a then v else m x

/-- The loop of `pkcs7_add_cert`, `/repo/asn1/src/pkcs7_generator_set_data.c:38-43`, from the node `t`: the memory
afterwards. -/
def appendCert : Nat → (Nat → Option Node) → Nat → Nat → R (Nat → Option Node)
  | 0, _, _, _ => .running
  | n + 1, m, t, x =>
    match m t with
    | none => .fault
    | some nd =>
      match nd.next with
      | none => .done (put m t (some { nd with next := some x }))
      | some t' => appendCert n m t' x

/-- `pkcs7_add_cert`, lines 30-47. -/
def addCert (n : Nat) (s : Msg) (x : Nat) : R Msg :=
  match s.head with
  | none => .done { s with head := some x }
  | some t =>
    match appendCert n s.certs t x with
    | .done m => .done { s with certs := m }
    | .fault => .fault
    | .running => .running

/-- The loop of `pkcs7_add_signer`, lines 57-63. -/
def appendInfo : Nat → (Nat → Option SInfo) → Nat → Nat → R (Nat → Option SInfo)
  | 0, _, _, _ => .running
  | n + 1, m, t, x =>
    match m t with
    | none => .fault
    | some nd =>
      match nd.next with
      | none => .done (put m t (some { nd with next := some x }))
      | some t' => appendInfo n m t' x

/-- `pkcs7_add_signer`, lines 49-67. -/
def addSigner (n : Nat) (s : Msg) (x : Nat) : R Msg :=
  match s.shead with
  | none => .done { s with shead := some x }
  | some t =>
    match appendInfo n s.infos t x with
    | .done m => .done { s with infos := m }
    | .fault => .fault
    | .running => .running

/-- `lc_pkcs7_set_certificate`, lines 69-86; `none` is NULL. -/
def setCertificate (n : Nat) (s : Msg) (x : Option Nat) : R (Int × Msg) :=
  match x with
  | none => .done (-22, s)
  | some x =>
    match s.certs x with
    | none => .fault
    | some nd =>
      if !nd.raw then .done (-22, s)
      else match addCert n s x with
        | .done s' => .done (0, s')
        | .fault => .fault
        | .running => .running

/-- The choice of the hash in `lc_pkcs7_set_signer`, lines 113-121. -/
def signHash (t : Nat) (h : Option Hash) : Except Int Hash :=
  match h with
  | none => typeToHash t
  | some h => if sigCheckHash t (some h) < 0 then .error (sigCheckHash t (some h)) else .ok h

/-- `lc_pkcs7_set_signer`, lines 88-137. -/
def setSigner (n : Nat) (s : Msg) (x : Option Nat) (h : Option Hash) (aa : Nat) : R (Int × Msg) :=
  match x with
  | none => .done (-22, s)
  | some x =>
    match s.certs x with
    | none => .fault
    | some nd =>
      if nd.sigType = 0 ∨ !nd.pk ∨ !nd.sk then .done (-22, s)
      else match signHash nd.sigType h with
        | .error e => .done (e, s)
        | .ok hash =>
          match addCert n s x with
          | .fault => .fault
          | .running => .running
          | .done s1 =>
            let a := s1.fresh
            match addSigner n { s1 with infos := put s1.infos a (some ⟨none, x, aa, hash⟩), fresh := a + 1 } a with
            | .done s2 => .done (0, s2)
            | .fault => .fault
            | .running => .running

/-- `lc_pkcs7_set_data`, lines 139-164; `none` is NULL, the flag is `lc_pkcs7_set_data_embed`. -/
def setData (s : Msg) (d : Option (List UInt8)) (embed : Bool) : Int × Msg :=
  match d with
  | none => (-22, s)
  | some d => (0, { s with data := d, embed := if embed then true else s.embed })

/-- The first loop of `lc_pkcs7_message_clear`, `/repo/asn1/src/pkcs7_parser.c:759-764`: `lc_free` of a structure that was not
allocated is an invalid access. -/
def clearCerts : Nat → (Nat → Option Node) → Option Nat → R (Nat → Option Node)
  | _, m, none => .done m
  | 0, _, some _ => .running
  | n + 1, m, some t =>
    match m t with
    | none => .fault
    | some nd => if nd.heap then clearCerts n (put m t none) nd.next else .fault

/-- The third loop, lines 770-774. -/
def clearInfos : Nat → (Nat → Option SInfo) → Option Nat → R (Nat → Option SInfo)
  | _, m, none => .done m
  | 0, _, some _ => .running
  | n + 1, m, some t =>
    match m t with
    | none => .fault
    | some nd => clearInfos n (put m t none) nd.next

/-- `lc_pkcs7_message_clear`, lines 752-778. -/
def clear (n : Nat) (s : Msg) : R Msg :=
  match clearCerts n s.certs s.head with
  | .fault => .fault
  | .running => .running
  | .done m =>
    match clearInfos n s.infos s.shead with
    | .fault => .fault
    | .running => .running
    | .done i => .done { certs := m, infos := i, fresh := s.fresh }

end LC.Acc
