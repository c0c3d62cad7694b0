/-!
# Typed containers and dispatch of the post-quantum API

The public structures (`struct lc_kyber_sk`, `struct lc_sphincs_pk`, …) consist of an enum naming the
parameter set and a union of the structures of the parameter sets.  This file models

* the `*_load` functions, which choose the parameter set from the length of the given bytes,
* the `*_ptr` functions, which hand out the bytes of the active union member,
* the `*_set_keytype_*` functions of SLH-DSA,
* the switches of the API functions that call the implementation of a parameter set,
* the users of these functions in `/repo/asn1/src/public_key*.c`.

Simplifications: the union is a list of bytes in which every member starts at offset 0 (members of the
hybrid structures follow each other without padding: all of them are byte arrays); enumerators outside the
enum are treated as `*_UNKNOWN` (both end in the `default` branch); `*_ptr` is modelled for output
pointers that are not NULL; different arguments are different objects.
-/

namespace LC.Api

abbrev Bytes := List UInt8

/-- `EINVAL` -/
def EINVAL : Int := 22
/-- `EOPNOTSUPP` -/
def EOPNOTSUPP : Int := 95
/-- `EKEYREJECTED` -/
def EKEYREJECTED : Int := 129
/-- `EFAULT` -/
def EFAULT : Int := 14
/-- `ENOPKG` -/
def ENOPKG : Int := 65
/-- `EBADMSG` -/
def EBADMSG : Int := 74

/-! ### Parameter sets -/

/-- `enum lc_kyber_type` without `LC_KYBER_UNKNOWN`, `/repo/ml-kem/api/lc_kyber.h:46-51`. -/
inductive KemT | k1024 | k768 | k512
deriving DecidableEq, Repr

/-- `enum lc_dilithium_type`, `/repo/ml-dsa/api/lc_dilithium.h`. -/
inductive DsaT | d87 | d65 | d44
deriving DecidableEq, Repr

/-- `enum lc_sphincs_type`, `/repo/slh-dsa/api/lc_sphincs.h:66-81`. -/
inductive SlhT | s256 | f256 | s192 | f192 | s128 | f128
deriving DecidableEq, Repr

/-- `enum lc_bike_type`, `/repo/bike/api/lc_bike.h`. -/
inductive BikeT | b5 | b3 | b1
deriving DecidableEq, Repr

/-- A kind of object: the order in which `*_load` compares the length with the parameter sets, and the
sizes returned by `*_size`. -/
structure Fam (T : Type) where
  chain : List T
  size : T → Nat

/-! ### Sizes -/

/-- `LC_KYBER_K`. -/
def KemT.k : KemT → Nat
  | .k1024 => 4
  | .k768 => 3
  | .k512 => 2

/-- `LC_KYBER_PUBLICKEYBYTES`, `/repo/ml-kem/api/lc_kyber_size.h.in:57,76,90`. -/
def kemPkSize (t : KemT) : Nat := t.k * 384 + 32
/-- `LC_KYBER_SECRETKEYBYTES`, `/repo/ml-kem/api/lc_kyber_size.h.in:78,92-94`. -/
def kemSkSize (t : KemT) : Nat := t.k * 384 + kemPkSize t + 2 * 32
/-- `LC_KYBER_CIPHERTEXTBYTES`, `/repo/ml-kem/api/lc_kyber_size.h.in:59-71,79,95`. -/
def kemCtSize : KemT → Nat
  | .k1024 => 4 * 352 + 160
  | .k768 => 3 * 320 + 128
  | .k512 => 2 * 320 + 128
/-- `LC_KYBER_SSBYTES`, `/repo/ml-kem/api/lc_kyber_size.h.in:54`. -/
def kemSsSize (_ : KemT) : Nat := 32

/-- The `else if` order of `lc_kyber_*_load`, `/repo/ml-kem/src/kyber_api.c:172-306`. -/
def kemChain : List KemT := [.k1024, .k768, .k512]
/-- `lc_kyber_sk_size` and `lc_kyber_sk_load`, `/repo/ml-kem/src/kyber_api.c:57-84,172-204`. -/
def kemSk : Fam KemT := ⟨kemChain, kemSkSize⟩
/-- `lc_kyber_pk_size` and `lc_kyber_pk_load`, `/repo/ml-kem/src/kyber_api.c:86-113,206-238`. -/
def kemPk : Fam KemT := ⟨kemChain, kemPkSize⟩
/-- `lc_kyber_ct_size` and `lc_kyber_ct_load`, `/repo/ml-kem/src/kyber_api.c:115-142,240-272`. -/
def kemCt : Fam KemT := ⟨kemChain, kemCtSize⟩
/-- `lc_kyber_ss_size` and `lc_kyber_ss_load`, `/repo/ml-kem/src/kyber_api.c:144-166,274-306`. -/
def kemSs : Fam KemT := ⟨kemChain, kemSsSize⟩

/-- `LC_DILITHIUM_K`, `_L`, bytes of a packed `eta` polynomial, of a packed `z` polynomial,
`LC_DILITHIUM_OMEGA` and `LC_DILITHIUM_LAMBDA`, `/repo/ml-dsa/api/lc_dilithium_size.h.in:62-122`. -/
def DsaT.params : DsaT → Nat × Nat × Nat × Nat × Nat × Nat
  | .d87 => (8, 7, 96, 640, 75, 256)
  | .d65 => (6, 5, 128, 640, 55, 192)
  | .d44 => (4, 4, 96, 576, 80, 128)

/-- `LC_DILITHIUM_PUBLICKEYBYTES`, `/repo/ml-dsa/api/lc_dilithium_size.h.in:131-133`. -/
def dsaPkSize (t : DsaT) : Nat :=
  match t.params with
  | (k, _, _, _, _, _) => 32 + k * 320
/-- `LC_DILITHIUM_SECRETKEYBYTES`, `/repo/ml-dsa/api/lc_dilithium_size.h.in:134-138`. -/
def dsaSkSize (t : DsaT) : Nat :=
  match t.params with
  | (k, l, eta, _, _, _) => 2 * 32 + 64 + l * eta + k * eta + k * 416
/-- `LC_DILITHIUM_CRYPTO_BYTES`, `/repo/ml-dsa/api/lc_dilithium_size.h.in:140-143`. -/
def dsaSigSize (t : DsaT) : Nat :=
  match t.params with
  | (k, l, _, z, om, la) => la * 2 / 8 + l * z + (om + k)

/-- The `else if` order of `lc_dilithium_*_load`, `/repo/ml-dsa/src/dilithium_api.c:235-335`. -/
def dsaChain : List DsaT := [.d87, .d65, .d44]
/-- `lc_dilithium_sk_size`, `lc_dilithium_sk_load`, `/repo/ml-dsa/src/dilithium_api.c:151-177,235-267`. -/
def dsaSk : Fam DsaT := ⟨dsaChain, dsaSkSize⟩
/-- `lc_dilithium_pk_size`, `lc_dilithium_pk_load`, `/repo/ml-dsa/src/dilithium_api.c:179-205,269-301`. -/
def dsaPk : Fam DsaT := ⟨dsaChain, dsaPkSize⟩
/-- `lc_dilithium_sig_size`, `lc_dilithium_sig_load`, `/repo/ml-dsa/src/dilithium_api.c:207-233,303-335`. -/
def dsaSig : Fam DsaT := ⟨dsaChain, dsaSigSize⟩

/-- `LC_SPX_N`, `LC_SPX_FULL_HEIGHT`, `LC_SPX_D`, `LC_SPX_FORS_HEIGHT`, `LC_SPX_FORS_TREES`,
`/repo/slh-dsa/api/lc_sphincs_size.h.in:55-520`. -/
def SlhT.params : SlhT → Nat × Nat × Nat × Nat × Nat
  | .s256 => (32, 64, 8, 14, 22)
  | .f256 => (32, 68, 17, 9, 35)
  | .s192 => (24, 63, 7, 14, 17)
  | .f192 => (24, 66, 22, 8, 33)
  | .s128 => (16, 63, 7, 12, 14)
  | .f128 => (16, 66, 22, 6, 33)

/-- `struct …_pk`, `/repo/slh-dsa/api/lc_sphincs_size.h.in:533-535`. -/
def slhPkSize (t : SlhT) : Nat :=
  match t.params with
  | (n, _, _, _, _) => 2 * n
/-- `struct …_sk`, `/repo/slh-dsa/api/lc_sphincs_size.h.in:524-528`. -/
def slhSkSize (t : SlhT) : Nat :=
  match t.params with
  | (n, _, _, _, _) => n + n + 2 * n
/-- `struct …_sig`, `/repo/slh-dsa/api/lc_sphincs_size.h.in:540-545` with `LC_SPX_FORS_BYTES` and
`LC_SPX_WOTS_BYTES` (lines 86-127; `LC_SPX_WOTS_LEN` is `2 * N + 3` for the sizes in use). -/
def slhSigSize (t : SlhT) : Nat :=
  match t.params with
  | (n, h, d, a, k) => n + (a + 1) * k * n + (d * ((2 * n + 3) * n) + h * n)

/-- The `else if` order of `lc_sphincs_*_load`, `/repo/slh-dsa/src/sphincs_api.c:276-575`. -/
def slhChain : List SlhT := [.s256, .f256, .s192, .f192, .s128, .f128]
/-- `lc_sphincs_sk_size`, `lc_sphincs_sk_load`, `/repo/slh-dsa/src/sphincs_api.c:132-176,276-332`. -/
def slhSk : Fam SlhT := ⟨slhChain, slhSkSize⟩
/-- `lc_sphincs_pk_size`, `lc_sphincs_pk_load`, `/repo/slh-dsa/src/sphincs_api.c:178-222,396-452`. -/
def slhPk : Fam SlhT := ⟨slhChain, slhPkSize⟩
/-- `lc_sphincs_sig_size`, `lc_sphincs_sig_load`, `/repo/slh-dsa/src/sphincs_api.c:224-274,516-575`. -/
def slhSig : Fam SlhT := ⟨slhChain, slhSigSize⟩

/-- `LC_BIKE_R_BYTES` and `LC_BIKE_D`, `/repo/bike/api/lc_bike_size.h.in:47-109`. -/
def BikeT.params : BikeT → Nat × Nat
  | .b5 => ((40973 + 7) / 8, 137)
  | .b3 => ((24659 + 7) / 8, 103)
  | .b1 => ((12323 + 7) / 8, 71)

/-- `struct …_pk`, `/repo/bike/api/lc_bike_size.h.in:139-141`. -/
def bikePkSize (t : BikeT) : Nat := t.params.1
/-- `struct …_sk`, `/repo/bike/api/lc_bike_size.h.in:146-151`; the structure has the alignment of its
`uint32_t` indices. -/
def bikeSkSize (t : BikeT) : Nat := (2 * (4 * t.params.2) + 3 * t.params.1 + 32 + 3) / 4 * 4
/-- `struct …_ct`, `/repo/bike/api/lc_bike_size.h.in:156-159`. -/
def bikeCtSize (t : BikeT) : Nat := t.params.1 + 32
/-- `struct …_ss`, `/repo/bike/api/lc_bike_size.h.in:164-166`. -/
def bikeSsSize (_ : BikeT) : Nat := 32

/-- The `else if` order of `lc_bike_*_load`, `/repo/bike/src/bike_api.c:172-306`. -/
def bikeChain : List BikeT := [.b5, .b3, .b1]
/-- `lc_bike_sk_size`, `lc_bike_sk_load`, `/repo/bike/src/bike_api.c:57-84,172-204`. -/
def bikeSk : Fam BikeT := ⟨bikeChain, bikeSkSize⟩
/-- `lc_bike_pk_size`, `lc_bike_pk_load`, `/repo/bike/src/bike_api.c:86-113,206-238`. -/
def bikePk : Fam BikeT := ⟨bikeChain, bikePkSize⟩
/-- `lc_bike_ct_size`, `lc_bike_ct_load`, `/repo/bike/src/bike_api.c:115-142,240-272`. -/
def bikeCt : Fam BikeT := ⟨bikeChain, bikeCtSize⟩
/-- `lc_bike_ss_size`, `lc_bike_ss_load`, `/repo/bike/src/bike_api.c:144-166,274-306`. -/
def bikeSs : Fam BikeT := ⟨bikeChain, bikeSsSize⟩

/-! ### Objects -/

/-- A public structure: the enum (`none` is `*_UNKNOWN`) and the memory of the union. -/
structure Obj (T : Type) where
  type : Option T
  mem : Bytes
deriving DecidableEq, Repr

/-- Result of a call: a return code and the objects afterwards, or an access outside the memory of an
argument. -/
inductive Out (α : Type) where
  | ret (code : Int) (a : α)
  | fault
deriving DecidableEq, Repr

/-- The bytes `memcpy` reads from `p`: none for a NULL pointer or if the memory at `p` is too short. -/
def rd (p : Option Bytes) (n : Nat) : Option Bytes :=
  match p with
  | none => none
  | some b => if n ≤ b.length then some (b.take n) else none

/-- `memcpy` to offset `off` of the union. -/
def wr (m : Bytes) (off : Nat) (b : Bytes) : Bytes := m.take off ++ b ++ m.drop (off + b.length)

section Generic
variable {T : Type} (F : Fam T) (en : T → Bool)

/-- The parameter set chosen by the `else if` chain of a `*_load` function.  Parameter sets that are not
compiled in (`#ifdef`) are skipped. -/
def pick (n : Nat) : Option T := F.chain.find? (fun t => en t && n == F.size t)

/-- `lc_kyber_{sk,pk,ct,ss}_load` (`/repo/ml-kem/src/kyber_api.c:172-306`),
`lc_dilithium_{sk,pk,sig}_load` (`/repo/ml-dsa/src/dilithium_api.c:235-335`),
`lc_sphincs_{sk,pk,sig}_load` (`/repo/slh-dsa/src/sphincs_api.c:276-332,396-452,516-575`),
`lc_bike_{sk,pk,ct,ss}_load` (`/repo/bike/src/bike_api.c:172-306`). -/
def load (o : Option (Obj T)) (p : Option Bytes) (n : Nat) : Out (Option (Obj T)) :=
  match o with
  | none => .ret (-EINVAL) none
  | some o =>
    if p = none ∨ n = 0 then .ret (-EINVAL) (some o)
    else
      match pick F en n with
      | none => .ret (-EINVAL) (some o)
      | some t =>
        match rd p n with
        | none => .fault
        | some b => .ret 0 (some ⟨some t, wr o.mem 0 b⟩)

/-- `lc_kyber_{sk,pk,ct,ss}_ptr` (`/repo/ml-kem/src/kyber_api.c:308-442`),
`lc_dilithium_{sk,pk,sig}_ptr` (`/repo/ml-dsa/src/dilithium_api.c:337-437`),
`lc_sphincs_{sk,pk,sig}_ptr` (`/repo/slh-dsa/src/sphincs_api.c:577-758`),
`lc_bike_{sk,pk,ct,ss}_ptr` (`/repo/bike/src/bike_api.c:308-442`): the bytes at the returned pointer. -/
def ptr (o : Option (Obj T)) : Int × Bytes :=
  match o with
  | none => (-EINVAL, [])
  | some o =>
    match o.type with
    | none => (-EINVAL, [])
    | some t => if en t then (0, o.mem.take (F.size t)) else (-EINVAL, [])

/-- `lc_kyber_x25519_{sk,pk,ct,ss}_load`, `/repo/ml-kem/src/kyber_api.c:1325-1490`.  `xl` is the length of
the X25519 part (32 in all four).  The functions look at the two lengths, not at the two pointers. -/
def loadH (xl : Nat) (o : Option (Obj T)) (p : Option Bytes) (n : Nat) (q : Option Bytes) (m : Nat) :
    Out (Option (Obj T)) :=
  match o with
  | none => .ret (-EINVAL) none
  | some o =>
    if n = 0 ∨ m = 0 ∨ m ≠ xl then .ret (-EINVAL) (some o)
    else
      match pick F en n with
      | none => .ret (-EINVAL) (some o)
      | some t =>
        match rd p n with
        | none => .fault
        | some b =>
          match rd q m with
          | none => .fault
          | some x => .ret 0 (some ⟨some t, wr (wr o.mem 0 b) (F.size t) x⟩)

/-- `lc_dilithium_ed25519_{sk,pk,sig}_load`, `/repo/ml-dsa/src/dilithium_api.c:1127-1173,1269-1315,1413-1459`.
`xl` is the length of the Ed25519 part (64, 32, 64). -/
def loadC (xl : Nat) (o : Option (Obj T)) (p : Option Bytes) (n : Nat) (q : Option Bytes) (m : Nat) :
    Out (Option (Obj T)) :=
  match o with
  | none => .ret (-EINVAL) none
  | some o =>
    if p = none ∨ q = none ∨ m ≠ xl then .ret (-EINVAL) (some o)
    else
      match pick F en n with
      | none => .ret (-EINVAL) (some o)
      | some t =>
        match rd p n with
        | none => .fault
        | some b =>
          match rd q m with
          | none => .fault
          | some x => .ret 0 (some ⟨some t, wr (wr o.mem 0 b) (F.size t) x⟩)

/-- `lc_dilithium_ed25519_{sk,pk,sig}_load_partial`,
`/repo/ml-dsa/src/dilithium_api.c:1033-1125,1175-1267,1317-1411`: an object whose parameter set is known
only takes the Ed25519 part. -/
def loadP (xl : Nat) (o : Option (Obj T)) (p : Option Bytes) (n : Nat) (q : Option Bytes) (m : Nat) :
    Out (Option (Obj T)) :=
  match o with
  | none => .ret (-EINVAL) none
  | some o =>
    if p = none ∧ o.type = none then .ret (-EINVAL) (some o)
    else if q ≠ none ∧ m ≠ xl then .ret (-EINVAL) (some o)
    else
      match o.type with
      | some t =>
        if q = none then .ret (-EINVAL) (some o)
        else
          match rd q m with
          | none => .fault
          | some x => .ret 0 (some ⟨some t, wr o.mem (F.size t) x⟩)
      | none =>
        match pick F en n with
        | none => .ret (-EINVAL) (some o)
        | some t =>
          match rd p n with
          | none => .fault
          | some b =>
            if q = none then .ret 0 (some ⟨some t, wr o.mem 0 b⟩)
            else
              match rd q m with
              | none => .fault
              | some x => .ret 0 (some ⟨some t, wr (wr o.mem 0 b) (F.size t) x⟩)

/-- `lc_kyber_x25519_{sk,pk,ct,ss}_ptr` (`/repo/ml-kem/src/kyber_api.c:1492-1657`) and
`lc_dilithium_ed25519_{sk,pk,sig}_ptr` (`/repo/ml-dsa/src/dilithium_api.c:1461-1588`). -/
def ptr2 (xl : Nat) (o : Option (Obj T)) : Int × Bytes × Bytes :=
  match o with
  | none => (-EINVAL, [], [])
  | some o =>
    match o.type with
    | none => (-EINVAL, [], [])
    | some t =>
      if en t then (0, o.mem.take (F.size t), (o.mem.drop (F.size t)).take xl)
      else (-EINVAL, [], [])

end Generic

/-- `LC_X25519_SECRETKEYBYTES`, `_PUBLICKEYBYTES`, `_SSBYTES`, `/repo/curve25519/api/lc_x25519.h:29-31`. -/
def X25519LEN : Nat := 32
/-- `LC_ED25519_SECRETKEYBYTES`, `LC_ED25519_SIGBYTES`, `/repo/curve25519/api/lc_ed25519.h:29,31`. -/
def ED25519LEN : Nat := 64
/-- `LC_ED25519_PUBLICKEYBYTES`, `/repo/curve25519/api/lc_ed25519.h:30`. -/
def ED25519PKLEN : Nat := 32

/-- `lc_sphincs_{sk,pk}_set_keytype_fast`, `/repo/slh-dsa/src/sphincs_api.c:334-363,454-483`. -/
def setFast (en : SlhT → Bool) (o : Option (Obj SlhT)) : Int × Option (Obj SlhT) :=
  match o with
  | none => (-EINVAL, none)
  | some o =>
    if en .f256 ∧ o.type = some .s256 then (0, some { o with type := some .f256 })
    else if en .f256 ∧ o.type = some .f256 then (0, some o)
    else if en .f192 ∧ o.type = some .s192 then (0, some { o with type := some .f192 })
    else if en .f192 ∧ o.type = some .f192 then (0, some o)
    else if en .f128 ∧ o.type = some .s128 then (0, some { o with type := some .f128 })
    else if en .f128 ∧ o.type = some .f128 then (0, some o)
    else (-EINVAL, some o)

/-- `lc_sphincs_{sk,pk}_set_keytype_small`, `/repo/slh-dsa/src/sphincs_api.c:365-394,485-514`. -/
def setSmall (en : SlhT → Bool) (o : Option (Obj SlhT)) : Int × Option (Obj SlhT) :=
  match o with
  | none => (-EINVAL, none)
  | some o =>
    if en .s256 ∧ o.type = some .s256 then (0, some o)
    else if en .s256 ∧ o.type = some .f256 then (0, some { o with type := some .s256 })
    else if en .s192 ∧ o.type = some .s192 then (0, some o)
    else if en .s192 ∧ o.type = some .f192 then (0, some { o with type := some .s192 })
    else if en .s128 ∧ o.type = some .s128 then (0, some o)
    else if en .s128 ∧ o.type = some .f128 then (0, some { o with type := some .s128 })
    else (-EINVAL, some o)

/-! ### Dispatch -/

/-- What a dispatching function does before it calls the implementation of a parameter set. -/
structure Entry where
  name : String
  /-- first and last line of the function -/
  first : Nat
  last : Nat
  /-- number of typed inputs (`const` structures), all compared with NULL -/
  ins : Nat
  /-- the pairs of inputs whose types are compared with `!=` -/
  checks : List (Nat × Nat)
  /-- the input over whose type the function switches -/
  sel : Nat
  /-- number of typed outputs, all compared with NULL -/
  outs : Nat
  /-- the outputs whose type is set in every case of the switch -/
  sets : List Nat
deriving DecidableEq

/-- Effect of a dispatching function: an error code, or the call of the implementation of parameter set
`t` with these inputs and outputs. -/
inductive Disp (T : Type) where
  | err (code : Int)
  | call (t : T) (ins outs : List (Obj T))
deriving DecidableEq

/-- The type fields of the inputs are equal, as compared by the functions. -/
def agree {T : Type} [DecidableEq T] (l : List (Obj T)) (c : Nat × Nat) : Bool :=
  decide ((l[c.1]?).map Obj.type = (l[c.2]?).map Obj.type)

/-- Setting the type of the outputs with an index in `s`; `i` is the index of the head. -/
def setTypes {T : Type} (t : T) (s : List Nat) : Nat → List (Obj T) → List (Obj T)
  | _, [] => []
  | i, o :: l => (if s.contains i then { o with type := some t } else o) :: setTypes t s (i + 1) l

/-- The pointers of a list, if none of them is NULL. -/
def notNull {α : Type} : List (Option α) → Option (List α)
  | [] => some []
  | none :: _ => none
  | some a :: l => (notNull l).map (a :: ·)

/-- A dispatching function: NULL pointers and unequal types are refused with `-EINVAL`, a parameter set
that is unknown or not compiled in with `-EOPNOTSUPP`; else the outputs get the type and the implementation
of the parameter set is called with the members of this parameter set. -/
def Entry.run {T : Type} [DecidableEq T] (e : Entry) (en : T → Bool)
    (ins outs : List (Option (Obj T))) : Disp T :=
  match notNull ins, notNull outs with
  | some is, some os =>
    if e.checks.all (agree is) then
      match (is[e.sel]?).bind Obj.type with
      | none => .err (-EOPNOTSUPP)
      | some t => if en t then .call t is (setTypes t e.sets 0 os) else .err (-EOPNOTSUPP)
    else .err (-EINVAL)
  | _, _ => .err (-EINVAL)

/-- The dispatching functions of `/repo/ml-kem/src/kyber_api.c` (ML-KEM and ML-KEM with X25519); lines are given in each row. -/
def kemTable : List Entry := [
  ⟨"lc_kyber_enc", 526, 564, 1, [], 0, 2, [0, 1]⟩,
  ⟨"lc_kyber_enc_kdf", 566, 601, 1, [], 0, 1, [0]⟩,
  ⟨"lc_kyber_dec", 603, 639, 2, [(0, 1)], 1, 1, [0]⟩,
  ⟨"lc_kyber_dec_kdf", 641, 674, 2, [(0, 1)], 1, 0, []⟩,
  ⟨"lc_kex_uake_initiator_init", 678, 729, 1, [], 0, 4, [0, 1, 2, 3]⟩,
  ⟨"lc_kex_uake_responder_ss", 731, 778, 3, [(0, 1), (0, 2)], 0, 1, [0]⟩,
  ⟨"lc_kex_uake_initiator_ss", 780, 822, 3, [(0, 1), (0, 2)], 0, 0, []⟩,
  ⟨"lc_kex_ake_initiator_init", 824, 875, 1, [], 0, 4, [0, 1, 2, 3]⟩,
  ⟨"lc_kex_ake_responder_ss", 877, 934, 4, [(0, 1), (0, 2), (0, 3)], 0, 2, [0, 1]⟩,
  ⟨"lc_kex_ake_initiator_ss", 936, 986, 5, [(0, 1), (0, 2), (0, 3), (0, 4)], 0, 0, []⟩,
  ⟨"lc_kyber_ies_enc", 990, 1031, 1, [], 0, 1, [0]⟩,
  ⟨"lc_kyber_ies_enc_init", 1033, 1069, 1, [], 0, 1, [0]⟩,
  ⟨"lc_kyber_ies_dec", 1084, 1122, 2, [(0, 1)], 0, 0, []⟩,
  ⟨"lc_kyber_ies_dec_init", 1124, 1158, 2, [(0, 1)], 0, 0, []⟩,
  ⟨"lc_kyber_x25519_enc_kdf", 1701, 1737, 1, [], 0, 1, [0]⟩,
  ⟨"lc_kyber_x25519_dec_kdf", 1739, 1772, 2, [(0, 1)], 1, 0, []⟩,
  ⟨"lc_kex_x25519_uake_initiator_init", 1776, 1828, 1, [], 0, 4, [0, 1, 2, 3]⟩,
  ⟨"lc_kex_x25519_uake_responder_ss", 1830, 1878, 3, [(0, 1), (0, 2)], 0, 1, [0]⟩,
  ⟨"lc_kex_x25519_uake_initiator_ss", 1880, 1923, 3, [(0, 1), (0, 2)], 0, 0, []⟩,
  ⟨"lc_kex_x25519_ake_initiator_init", 1925, 1977, 1, [], 0, 4, [0, 1, 2, 3]⟩,
  ⟨"lc_kex_x25519_ake_responder_ss", 1979, 2037, 4, [(0, 1), (0, 2), (0, 3)], 0, 2, [0, 1]⟩,
  ⟨"lc_kex_x25519_ake_initiator_ss", 2039, 2090, 5, [(0, 1), (0, 2), (0, 3), (0, 4)], 0, 0, []⟩,
  ⟨"lc_kyber_x25519_ies_enc", 2094, 2139, 1, [], 0, 1, [0]⟩,
  ⟨"lc_kyber_x25519_ies_enc_init", 2141, 2179, 1, [], 0, 1, [0]⟩,
  ⟨"lc_kyber_x25519_ies_dec", 2194, 2236, 2, [(0, 1)], 0, 0, []⟩,
  ⟨"lc_kyber_x25519_ies_dec_init", 2238, 2273, 2, [(0, 1)], 0, 0, []⟩]

/-- The dispatching functions of `/repo/slh-dsa/src/sphincs_api.c` (SLH-DSA); lines are given in each row. -/
def slhTable : List Entry := [
  ⟨"lc_sphincs_sign", 909, 976, 1, [], 0, 1, [0]⟩,
  ⟨"lc_sphincs_sign_ctx", 978, 1051, 1, [], 0, 1, [0]⟩,
  ⟨"lc_sphincs_sign_init", 1053, 1106, 1, [], 0, 0, []⟩,
  ⟨"lc_sphincs_sign_final", 1128, 1195, 1, [], 0, 1, [0]⟩,
  ⟨"lc_sphincs_verify", 1197, 1257, 2, [(0, 1)], 1, 0, []⟩,
  ⟨"lc_sphincs_verify_ctx", 1259, 1320, 2, [(0, 1)], 1, 0, []⟩,
  ⟨"lc_sphincs_verify_init", 1322, 1375, 1, [], 0, 0, []⟩,
  ⟨"lc_sphincs_verify_final", 1397, 1452, 2, [(0, 1)], 1, 0, []⟩]

/-- The dispatching functions of `/repo/ml-dsa/src/dilithium_api.c` (ML-DSA and ML-DSA with Ed25519); lines are given in each row. -/
def dsaTable : List Entry := [
  ⟨"lc_dilithium_sign", 522, 559, 1, [], 0, 1, [0]⟩,
  ⟨"lc_dilithium_sign_ctx", 561, 598, 1, [], 0, 1, [0]⟩,
  ⟨"lc_dilithium_sign_init", 600, 629, 1, [], 0, 0, []⟩,
  ⟨"lc_dilithium_sign_final", 646, 684, 1, [], 0, 1, [0]⟩,
  ⟨"lc_dilithium_verify", 686, 719, 2, [(0, 1)], 1, 0, []⟩,
  ⟨"lc_dilithium_verify_ctx", 721, 755, 2, [(0, 1)], 1, 0, []⟩,
  ⟨"lc_dilithium_verify_init", 757, 787, 1, [], 0, 0, []⟩,
  ⟨"lc_dilithium_verify_final", 804, 838, 2, [(0, 1)], 1, 0, []⟩,
  ⟨"lc_dilithium_ed25519_sign", 1633, 1670, 1, [], 0, 1, [0]⟩,
  ⟨"lc_dilithium_ed25519_sign_ctx", 1672, 1713, 1, [], 0, 1, [0]⟩,
  ⟨"lc_dilithium_ed25519_sign_init", 1715, 1745, 1, [], 0, 0, []⟩,
  ⟨"lc_dilithium_ed25519_sign_final", 1765, 1803, 1, [], 0, 1, [0]⟩,
  ⟨"lc_dilithium_ed25519_verify", 1805, 1839, 2, [(0, 1)], 1, 0, []⟩,
  ⟨"lc_dilithium_ed25519_verify_ctx", 1841, 1875, 2, [(0, 1)], 1, 0, []⟩,
  ⟨"lc_dilithium_ed25519_verify_init", 1877, 1907, 1, [], 0, 0, []⟩,
  ⟨"lc_dilithium_ed25519_verify_final", 1927, 1961, 2, [(0, 1)], 1, 0, []⟩]

/-- The dispatching functions of `/repo/bike/src/bike_api.c` (BIKE); lines are given in each row. -/
def bikeTable : List Entry := [
  ⟨"lc_bike_enc", 523, 561, 1, [], 0, 2, [0, 1]⟩,
  ⟨"lc_bike_enc_kdf", 563, 598, 1, [], 0, 1, [0]⟩,
  ⟨"lc_bike_dec", 600, 635, 2, [(0, 1)], 1, 1, [0]⟩,
  ⟨"lc_bike_dec_kdf", 637, 669, 2, [(0, 1)], 1, 0, []⟩]

/-! ### Certificates -/

/-- `enum lc_sig_types`, `/repo/asn1/api/lc_x509_common.h:70-115`: the types with an implementation; all
others but `LC_SIG_UNKNOWN` are `other`. -/
inductive Algo where
  | dsa (t : DsaT)
  | comp (t : DsaT)
  | slh (t : SlhT)
  | other (n : Nat)
deriving DecidableEq, Repr

/-- The members of `struct lc_public_key` that are read. `none` is `LC_SIG_UNKNOWN`. -/
structure PubKey where
  algo : Option Algo
  isPrivate : Bool
  key : Bytes

/-- The members of `struct lc_public_key_signature` that are read; `hash` is the hash algorithm, if set. -/
structure Sig where
  algo : Option Algo
  hash : Option Nat
  s : Option Bytes
  digest : Bytes
  raw : Option Bytes

/-- The parts that are not modelled here: the signature implementations of the parameter sets (key,
signature, message), the DER decoder for a composite value, which delivers the contents of its two BIT
STRINGs, and `lc_x509_sig_check_hash`. -/
structure Impl where
  dsa : DsaT → Bytes → Bytes → Bytes → Int
  comp : DsaT → Bytes × Bytes → Bytes × Bytes → Bytes → Int
  slh : SlhT → Bytes → Bytes → Bytes → Int
  seq2 : Bytes → Except Int (Bytes × Bytes)
  checkHash : Option Algo → Nat → Int

/-- The data to be verified, `/repo/asn1/src/public_key_dilithium.c:51-84` (the same in the other two
files). -/
def Sig.msg (g : Sig) : Option Bytes := if g.digest.length ≠ 0 then some g.digest else g.raw

/-- Entry of a table by its name. -/
def entry (tab : List Entry) (name : String) : Entry :=
  (tab.find? (fun e => e.name == name)).getD ⟨"", 0, 0, 0, [], 0, 0, []⟩

/-- An object on the stack; `z` is its former content. -/
def fresh {T : Type} (z : Bytes) : Obj T := ⟨none, z⟩

/-- `public_key_verify_signature_dilithium`, `/repo/asn1/src/public_key_dilithium.c:32-92`. -/
def verifyDsa (im : Impl) (en : DsaT → Bool) (zp zs : Bytes) (k : PubKey) (g : Sig) : Out Unit :=
  if k.isPrivate then .ret (-EKEYREJECTED) ()
  else
    match load dsaPk en (some (fresh zp)) (some k.key) k.key.length with
    | .fault => .fault
    | .ret r pk =>
      if r < 0 then .ret r ()
      else
        match load dsaSig en (some (fresh zs)) g.s (g.s.getD []).length with
        | .fault => .fault
        | .ret r sg =>
          if r < 0 then .ret r ()
          else
            match g.msg with
            | none => .ret (-EOPNOTSUPP) ()
            | some m =>
              match (entry dsaTable "lc_dilithium_verify_ctx").run en [sg, pk] [] with
              | .err c => .ret c ()
              | .call t _ _ => .ret (im.dsa t (ptr dsaPk en pk).2 (ptr dsaSig en sg).2 m) ()

/-- `public_key_verify_signature_sphincs`, `/repo/asn1/src/public_key_sphincs.c:32-94`. -/
def verifySlh (im : Impl) (en : SlhT → Bool) (zp zs : Bytes) (fast : Bool) (k : PubKey) (g : Sig) :
    Out Unit :=
  if k.isPrivate then .ret (-EKEYREJECTED) ()
  else
    match load slhPk en (some (fresh zp)) (some k.key) k.key.length with
    | .fault => .fault
    | .ret r pk =>
      if r < 0 then .ret r ()
      else
        let st := if fast then setFast en pk else setSmall en pk
        if st.1 < 0 then .ret st.1 ()
        else
          match load slhSig en (some (fresh zs)) g.s (g.s.getD []).length with
          | .fault => .fault
          | .ret r sg =>
            if r < 0 then .ret r ()
            else
              match g.msg with
              | none => .ret (-EOPNOTSUPP) ()
              | some m =>
                match (entry slhTable "lc_sphincs_verify_ctx").run en [sg, st.2] [] with
                | .err c => .ret c ()
                | .call t _ _ => .ret (im.slh t (ptr slhPk en st.2).2 (ptr slhSig en sg).2 m) ()

/-- The callbacks for the first BIT STRING of a composite key or signature (`x509_mldsa_signature`,
`x509_mldsa_public_key`, `x509_mldsa_composite_private_key`,
`/repo/asn1/src/public_key_dilithium_ed25519.c:57-78,149-170,294-318`): the byte with the number of unused
bits is skipped. -/
def cbFirst {T : Type} (F : Fam T) (en : T → Bool) (xl : Nat) (o : Option (Obj T)) (v : Bytes) :
    Out (Option (Obj T)) :=
  if v.length < 1 then .ret (-EBADMSG) o
  else loadP F en xl o (some (v.drop 1)) (v.length - 1) none 0

/-- The callbacks for the second BIT STRING (`x509_ed25519_signature`, `x509_ed25519_public_key`,
`x509_ed25519_private_key`, `/repo/asn1/src/public_key_dilithium_ed25519.c:34-55,126-147,320-337`).  In the
last one the check of the length is missing; there `vlen - 1` wraps around and the length is refused by
`load_partial`. -/
def cbSecond {T : Type} (F : Fam T) (en : T → Bool) (xl : Nat) (checked : Bool) (o : Option (Obj T))
    (v : Bytes) : Out (Option (Obj T)) :=
  if checked ∧ v.length < 1 then .ret (-EBADMSG) o
  else loadP F en xl o none 0 (some (v.drop 1)) (if v.length < 1 then 2 ^ 64 - 1 else v.length - 1)

/-- The decoder for a composite value with its two callbacks: an error of a callback ends it. -/
def readComp {T : Type} (F : Fam T) (en : T → Bool) (xl : Nat) (checked : Bool)
    (seq2 : Bytes → Except Int (Bytes × Bytes)) (o : Option (Obj T)) (d : Bytes) : Out (Option (Obj T)) :=
  match seq2 d with
  | .error c => .ret c o
  | .ok (a, b) =>
    match cbFirst F en xl o a with
    | .fault => .fault
    | .ret r o1 => if r < 0 then .ret r o1 else cbSecond F en xl checked o1 b

/-- `public_key_verify_signature_dilithium_ed25519`,
`/repo/asn1/src/public_key_dilithium_ed25519.c:352-430`; the two objects are zero. -/
def verifyComp (im : Impl) (en : DsaT → Bool) (zp zs : Bytes) (k : PubKey) (g : Sig) : Out Unit :=
  if k.isPrivate then .ret (-EKEYREJECTED) ()
  else if (g.s.getD []).length < 32 then .ret (-EINVAL) ()
  else
    match readComp dsaPk en ED25519PKLEN true im.seq2 (some (fresh zp)) k.key with
    | .fault => .fault
    | .ret r pk =>
      if r < 0 then .ret r ()
      else
        match readComp dsaSig en ED25519LEN true im.seq2 (some (fresh zs)) (g.s.getD []) with
        | .fault => .fault
        | .ret r sg =>
          if r < 0 then .ret r ()
          else
            match g.msg with
            | none => .ret (-EOPNOTSUPP) ()
            | some m =>
              match (entry dsaTable "lc_dilithium_ed25519_verify_ctx").run en [sg, pk] [] with
              | .err c => .ret c ()
              | .call t _ _ =>
                .ret (im.comp t (ptr2 dsaPk en ED25519PKLEN pk).2 (ptr2 dsaSig en ED25519LEN sg).2 m) ()

/-- The fast parameter sets in the switch of `public_key_verify_signature`,
`/repo/asn1/src/public_key.c:95-104`. -/
def slhFast : SlhT → Bool
  | .f128 => true
  | .f192 => true
  | .f256 => true
  | .s128 => false
  | .s192 => false
  | .s256 => false

/-- The check of the hash algorithm, `/repo/asn1/src/public_key.c:81-82`. -/
def hashChk (im : Impl) (a : Option Algo) : Option Nat → Int
  | none => 0
  | some h => im.checkHash a h

/-- `public_key_verify_signature`, `/repo/asn1/src/public_key.c:57-123`. -/
def verify (im : Impl) (enD : DsaT → Bool) (enS : SlhT → Bool) (zp zs : Bytes) (k : PubKey) (g : Sig) :
    Out Unit :=
  if g.s = none then .ret (-EFAULT) ()
  else if g.algo ≠ none ∧ k.algo ≠ g.algo then .ret (-EKEYREJECTED) ()
  else
    let hc := hashChk im k.algo g.hash
    if hc < 0 then .ret hc ()
    else
      match k.algo with
      | some (.dsa _) => verifyDsa im enD zp zs k g
      | some (.comp _) => verifyComp im enD zp zs k g
      | some (.slh t) => verifySlh im enS zp zs (slhFast t) k g
      | _ => .ret (-ENOPKG) ()

end LC.Api
