import Verif.DomSep.Model
import Verif.Kyber.Kem

/-!
SLH-DSA (SPHINCS+): the portable C implementation of /repo/slh-dsa/src.

Conventions.  A node is a list of bytes (`LC_SPX_N` of them).  Arrays of nodes that the code fills piece by piece
(the stack of treehash, the authentication path, the WOTS+ signature) are functions from the position to the node;
they start with arbitrary content.  The numbers of the code stay below 2^32 (64 bits for the tree number) for the
parameter sets of the library, they are natural numbers here; the functions that store them keep the low bytes as
the C code does.  The workspaces (`LC_DECLARE_MEM`) are zero at the start, as on the stack
(internal/api/small_stack_support.h:35-38); the heap variant of that macro does not clear them on systems other than
Linux (internal/src/memory_support.c:54-63), which is not modelled.
-/
namespace LC.Slh

abbrev Byte := UInt8
abbrev Node := List Byte

/-- /repo/slh-dsa/api/lc_sphincs_size.h.in: the constants of a parameter set: LC_SPX_N, LC_SPX_TREE_HEIGHT,
LC_SPX_D, LC_SPX_FORS_HEIGHT, LC_SPX_FORS_TREES and LC_SPHINCS_NIST_CATEGORY.  The Winternitz parameter is 16. -/
structure Params where
  n : Nat
  hp : Nat
  d : Nat
  a : Nat
  k : Nat
  cat : Nat
  deriving DecidableEq, Repr

/-- lc_sphincs_size.h.in:57-69 -/
def shake128s : Params := ⟨16, 9, 7, 12, 14, 1⟩
/-- lc_sphincs_size.h.in:133-145 -/
def shake128f : Params := ⟨16, 3, 22, 6, 33, 1⟩
/-- lc_sphincs_size.h.in:209-221 -/
def shake192s : Params := ⟨24, 9, 7, 14, 17, 3⟩
/-- lc_sphincs_size.h.in:285-297 -/
def shake192f : Params := ⟨24, 3, 22, 8, 33, 3⟩
/-- lc_sphincs_size.h.in:361-374 -/
def shake256s : Params := ⟨32, 8, 8, 14, 22, 5⟩
/-- lc_sphincs_size.h.in:439-451 -/
def shake256f : Params := ⟨32, 4, 17, 9, 35, 5⟩

/-- The parameter sets the library is compiled for. -/
def Params.Ok (p : Params) : Prop :=
  p = shake128s ∨ p = shake128f ∨ p = shake192s ∨ p = shake192f ∨ p = shake256s ∨ p = shake256f

/-- LC_SPX_WOTS_LEN1, LC_SPX_WOTS_LEN2, LC_SPX_WOTS_LEN (lc_sphincs_size.h.in:86-109). -/
def len1 (p : Params) : Nat := 2 * p.n
def wotsLen (p : Params) : Nat := 2 * p.n + 3

/-- The hash functions.  `T pub addr in` is thash, `prf pub addr sk` is prf_addr, `rnd sk_prf optrand m` the message
randomizer and `hmsg r pk m` the stream of the message digest; `lp64`, `avx2` select the variant of the constant
time comparison. -/
structure Env where
  T : List Byte → List Byte → List Byte → Node
  prf : List Byte → List Byte → List Byte → Node
  rnd : List Byte → List Byte → List Byte → Node
  hmsg : List Byte → List Byte → List Byte → Nat → Byte
  lp64 : Bool
  avx2 : Bool

/-! ### Addresses (sphincs_address.h, sphincs_shake_offsets.h) -/

/-- 32 bytes of an address. -/
abbrev Addr := Nat → Byte

/-- An address in a workspace before it is written. -/
def zeroAddr : Addr := fun _ => 0

/-- The bytes given to the hash. -/
def abytes (a : Addr) : List Byte := (List.range 32).map a

def setAt (a : Addr) (o : Nat) (v : Byte) : Addr := fun i => if i = o then v else a i

def b8 (x : Nat) : Byte := UInt8.ofNat x

/-- be32_to_ptr -/
def setBe32 (a : Addr) (o x : Nat) : Addr := fun i =>
  if i = o then b8 (x / 2 ^ 24) else if i = o + 1 then b8 (x / 2 ^ 16) else if i = o + 2 then b8 (x / 2 ^ 8)
  else if i = o + 3 then b8 x else a i

/-- sphincs_address.h:51-54 -/
def setLayer (a : Addr) (l : Nat) : Addr := setAt a 3 (b8 l)

/-- sphincs_utils.c:35-44, `ull_to_bytes` for `outlen` bytes at an offset, from the last byte to the first. -/
def setUll (a : Addr) (o : Nat) : Nat → Nat → Addr
  | 0, _ => a
  | len + 1, x => setUll (setAt a (o + len) (b8 x)) o len (x / 256)

/-- sphincs_address.h:59-65 -/
def setTree (a : Addr) (t : Nat) : Addr := setUll a 8 8 t
/-- sphincs_address.h:73-76 -/
def setType (a : Addr) (t : Byte) : Addr := setAt a 19 t
/-- sphincs_address.h:82-85 -/
def copySubtree (out inp : Addr) : Addr := fun i => if i < 16 then inp i else out i
/-- sphincs_address.h:93-96 -/
def setKeypair (a : Addr) (x : Nat) : Addr := setBe32 a 20 x
/-- sphincs_address.h:102-106 -/
def setChain (a : Addr) (x : Nat) : Addr := setAt a 27 (b8 x)
/-- sphincs_address.h:112-115 -/
def setHash (a : Addr) (x : Nat) : Addr := setAt a 31 (b8 x)
/-- sphincs_address.h:121-126 -/
def copyKeypair (out inp : Addr) : Addr := fun i => if i < 16 ∨ (20 ≤ i ∧ i < 24) then inp i else out i
/-- sphincs_address.h:134-138 -/
def setHeight (a : Addr) (x : Nat) : Addr := setAt a 27 (b8 x)
/-- sphincs_address.h:144-148 -/
def setIndex (a : Addr) (x : Nat) : Addr := setBe32 a 28 x

/-! ### Constant time move (sidechannel_resistantce.h:47-54) -/

/-- `cmov(r, x, len, b)` on two strings of the same length: `r[i] ^= b & (r[i] ^ x[i])` with `b` negated. -/
def cmov (r x : List Byte) (b : Bool) : List Byte :=
  let m : Byte := 0 - (if b then 1 else 0)
  List.zipWith (fun ri xi => ri ^^^ (m &&& (ri ^^^ xi))) r x

/-! ### treehash (sphincs_utilsx1.c:48-127) -/

/-- Update of one cell. -/
def upd {α : Type} (f : Nat → α) (i : Nat) (v : α) : Nat → α := fun j => if j = i then v else f j

/-- What the loops change: `stack_sp`, `auth_path`, `tree_addr` and the state of the leaf generator. -/
structure TH (I : Type) where
  stack : Nat → Node
  auth : Nat → Node
  addr : Addr
  info : I

/-- sphincs_utilsx1.c:82-125: the climb from a leaf; `r` is `tree_height - h`.  The first component is the root when
the function returns. -/
def climb {I : Type} (T : List Byte → List Byte → List Byte → Node) (pub : List Byte) (idx maxIdx : Nat) :
    (r h ii il io : Nat) → Node → TH I → Option Node × TH I
  | 0, _, _, _, _, cur, st => (some cur, st)
  | r + 1, h, ii, il, io, cur, st =>
    let st := { st with auth := upd st.auth h (cmov (st.auth h) cur ((ii ^^^ il) = 1)) }
    if ii % 2 = 0 ∧ idx < maxIdx then (none, { st with stack := upd st.stack h cur })
    else
      let io := io / 2
      let addr := setIndex (setHeight st.addr (h + 1)) (ii / 2 + io)
      climb T pub idx maxIdx r (h + 1) (ii / 2) (il / 2) io (T pub (abytes addr) (st.stack h ++ cur))
        { st with addr := addr }

/-- sphincs_utilsx1.c:67-126: the loop over the leaves; `cnt` bounds the number of turns (2^tree_height suffice). -/
def thLoop {I : Type} (T : List Byte → List Byte → List Byte → Node) (pub : List Byte) (leafIdx off H : Nat)
    (gen : Nat → I → Node × I) : (cnt idx : Nat) → TH I → Option Node × TH I
  | 0, _, st => (none, st)
  | cnt + 1, idx, st =>
    let g := gen (idx + off) st.info
    let c := climb T pub idx (2 ^ H - 1) H 0 idx leafIdx off g.1 { st with info := g.2 }
    match c.1 with
    | some root => (some root, c.2)
    | none => thLoop T pub leafIdx off H gen cnt (idx + 1) c.2

/-- sphincs_utilsx1.c:48-127, `treehashx1`. -/
def treehash {I : Type} (T : List Byte → List Byte → List Byte → Node) (pub : List Byte) (leafIdx off H : Nat)
    (gen : Nat → I → Node × I) (st : TH I) : Option Node × TH I :=
  thLoop T pub leafIdx off H gen (2 ^ H) 0 st

/-! ### compute_root (sphincs_utils.c:64-107) -/

/-- sphincs_utils.c:83-99: the loop for the inner levels; the buffer is the pair of its halves. -/
def crLoop (T : List Byte → List Byte → List Byte → Node) (pub : List Byte) (auth : Nat → Node) :
    (cnt i li io : Nat) → Node × Node → Addr → (Node × Node) × Addr × Nat × Nat
  | 0, _, li, io, buf, addr => (buf, addr, li, io)
  | cnt + 1, i, li, io, buf, addr =>
    let li := li / 2
    let io := io / 2
    let addr := setIndex (setHeight addr (i + 1)) (li + io)
    let t := T pub (abytes addr) (buf.1 ++ buf.2)
    let buf := if li % 2 = 1 then (auth (i + 1), t) else (t, auth (i + 1))
    crLoop T pub auth cnt (i + 1) li io buf addr

/-- sphincs_utils.c:64-107, `compute_root`: root and address. -/
def computeRoot (T : List Byte → List Byte → List Byte → Node) (pub : List Byte) (leaf : Node) (leafIdx off : Nat)
    (auth : Nat → Node) (H : Nat) (addr : Addr) : Node × Addr :=
  let buf := if leafIdx % 2 = 1 then (auth 0, leaf) else (leaf, auth 0)
  let r := crLoop T pub auth (H - 1) 0 leafIdx off buf addr
  let addr := setIndex (setHeight r.2.1 H) (r.2.2.1 / 2 + r.2.2.2 / 2)
  (T pub (abytes addr) (r.1.1 ++ r.1.2), addr)

/-! ### WOTS+ (sphincs_wots.c, sphincs_wotsx1.c) -/

/-- sphincs_wots.c:68-87, `base_w` for w = 16: `inp` is the rest of the input, `total` and `bits` as in the code. -/
def baseW : (cnt : Nat) → (inp : List Byte) → (total : Byte) → (bits : Nat) → List Nat
  | 0, _, _, _ => []
  | cnt + 1, inp, total, bits =>
    let total' := if bits = 0 then inp.headD 0 else total
    let inp' := if bits = 0 then inp.tail else inp
    let bits' := (if bits = 0 then bits + 8 else bits) - 4
    ((total'.toNat >>> bits') &&& 15) :: baseW cnt inp' total' bits'

/-- sphincs_wots.c:90-107, `wots_checksum`: the sum, shifted to the left by (8 - 12 % 8) % 8 = 4 bits, as two bytes,
in base w. -/
def wotsChecksum (msg : List Nat) : List Nat :=
  let csum := (msg.map fun x => 15 - x).sum
  let csum := csum <<< 4
  baseW 3 [b8 (csum / 256), b8 csum] 0 0

/-- sphincs_wots.c:110-114, `chain_lengths_c`. -/
def chainLengths (p : Params) (msg : List Byte) : List Nat :=
  let l := baseW (len1 p) msg 0 0
  l ++ wotsChecksum l

/-- sphincs_wots.c:48-61, `gen_chain`: from position `i`, at most `steps` steps, stopping at w = 16. -/
def genChain (T : List Byte → List Byte → List Byte → Node) (pub : List Byte) :
    (steps i : Nat) → Node → Addr → Node × Addr
  | 0, _, x, a => (x, a)
  | steps + 1, i, x, a =>
    if i < 16 then
      let a := setHash a i
      genChain T pub steps (i + 1) (T pub (abytes a) x) a
    else (x, a)

/-- sphincs_wots.c:132-136: the loop over the chains from chain `i` on; `sig` gives the nodes of the signature. -/
def pkLoop (T : List Byte → List Byte → List Byte → Node) (pub : List Byte) (lengths : List Nat) (sig : Nat → Node) :
    (cnt i : Nat) → Addr → List Node × Addr
  | 0, _, a => ([], a)
  | cnt + 1, i, a =>
    let len := lengths.getD i 0
    let c := genChain T pub (15 - len) len (sig i) (setChain a i)
    let r := pkLoop T pub lengths sig cnt (i + 1) c.2
    (c.1 :: r.1, r.2)

/-- sphincs_wots.c:121-140, `wots_pk_from_sig_c`: the public key (concatenated) and the address. -/
def wotsPkFromSig (p : Params) (e : Env) (pub : List Byte) (sig : Nat → Node) (msg : List Byte) (a : Addr) : List Byte × Addr :=
  let r := pkLoop e.T pub (chainLengths p msg) sig (wotsLen p) 0 a
  (r.1.flatten, r.2)

/-- `struct leaf_info_x1` (sphincs_wotsx1.h:42-48), the parts that change. -/
structure LeafInfo where
  sig : Nat → Node
  leafAddr : Addr
  pkAddr : Addr

/-- sphincs_wotsx1.c:87-101: the chain of one secret; `r` is 15 - k.  `cell` is the cell of the signature. -/
def leafChain (T : List Byte → List Byte → List Byte → Node) (pub : List Byte) (wotsK : Nat) :
    (r k : Nat) → (buf cell : Node) → Addr → Node × Node × Addr
  | 0, k, buf, cell, a => (buf, cmov cell buf (k = wotsK), a)
  | r + 1, k, buf, cell, a =>
    let cell := cmov cell buf (k = wotsK)
    let a := setHash a k
    leafChain T pub wotsK r (k + 1) (T pub (abytes a) buf) cell a

/-- sphincs_wotsx1.c:71-102: the loop over the chains. -/
def leafLoop (e : Env) (pub skSeed : List Byte) (steps : Nat → Nat) :
    (cnt i : Nat) → LeafInfo → List Node × LeafInfo
  | 0, _, s => ([], s)
  | cnt + 1, i, s =>
    let a := setType (setHash (setChain s.leafAddr i) 0) 5
    let buf := e.prf pub (abytes a) skSeed
    let c := leafChain e.T pub (steps i) 15 0 buf (s.sig i) (setType a 0)
    let r := leafLoop e pub skSeed steps cnt (i + 1) { s with sig := upd s.sig i c.2.1, leafAddr := c.2.2 }
    (c.1 :: r.1, r.2)

/-- sphincs_wotsx1.c:48-106, `wots_gen_leafx1`: `wots_k_mask` makes the step of a leaf that does not sign
unreachable. -/
def wotsGenLeaf (p : Params) (e : Env) (pub skSeed : List Byte) (signLeaf : Nat) (steps : List Nat) (idx : Nat) (s : LeafInfo) : Node × LeafInfo :=
  let mask := if idx = signLeaf then 0 else 4294967295
  let s := { s with leafAddr := setKeypair s.leafAddr idx, pkAddr := setKeypair s.pkAddr idx }
  let r := leafLoop e pub skSeed (fun i => steps.getD i 0 ||| mask) (wotsLen p) 0 s
  (e.T pub (abytes r.2.pkAddr) r.1.flatten, r.2)

/-! ### Merkle trees of the hypertree (sphincs_merkle.c) -/

/-- sphincs_merkle.c:42-71, `sphincs_merkle_sign_c`: root, WOTS+ signature, authentication path and tree address.
`sig0`, `auth0` are the content of the signature buffer before. -/
def merkleSign (p : Params) (e : Env) (pub skSeed root : List Byte) (wotsAddr treeAddr : Addr) (idxLeaf : Nat) (sig0 auth0 : Nat → Node) :
    Option Node × (Nat → Node) × (Nat → Node) × Addr :=
  let steps := chainLengths p root
  let info : LeafInfo := ⟨sig0, copySubtree zeroAddr wotsAddr, copySubtree (setType zeroAddr 1) wotsAddr⟩
  let r := treehash e.T pub idxLeaf 0 p.hp (wotsGenLeaf p e pub skSeed idxLeaf steps) ⟨fun _ => [], auth0, setType treeAddr 2, info⟩
  (r.1, r.2.info.sig, r.2.auth, r.2.addr)

/-- sphincs_merkle.c:74-98, `sphincs_merkle_gen_root_c`: `junk` is the uninitialised root, `sig0`, `auth0` the
scratch signature. -/
def merkleGenRoot (p : Params) (e : Env) (pub skSeed junk : List Byte) (sig0 auth0 : Nat → Node) : Option Node :=
  (merkleSign p e pub skSeed junk (setLayer zeroAddr (p.d - 1)) (setLayer zeroAddr (p.d - 1)) 4294967295 sig0 auth0).1

/-! ### FORS (sphincs_fors.c) -/

/-- sphincs_fors.c:51-64, `fors_gen_leafx1`: the state is the address. -/
def forsGenLeaf (e : Env) (pub skSeed : List Byte) (idx : Nat) (a : Addr) : Node × Addr :=
  let a := setType (setIndex a idx) 6
  let sk := e.prf pub (abytes a) skSeed
  let a := setType a 3
  (e.T pub (abytes a) sk, a)

/-- sphincs_fors.c:79-83: the bits of one index, `j` counts up to `a`; `m` is the message. -/
def indexBits (m : List Byte) (a : Nat) : (cnt j offset acc : Nat) → Nat
  | 0, _, _, acc => acc
  | cnt + 1, j, offset, acc =>
    let bit := ((m.getD (offset / 8) 0).toNat >>> (7 - offset % 8)) &&& 1
    indexBits m a cnt (j + 1) (offset + 1) (acc ^^^ (bit <<< (a - 1 - j)))

/-- sphincs_fors.c:71-85, `message_to_indices`: index of tree `i` (the offset runs over the trees). -/
def forsIndex (p : Params) (m : List Byte) (i : Nat) : Nat := indexBits m p.a p.a 0 (i * p.a) 0

/-- What the signature of one FORS tree consists of. -/
structure ForsPart where
  sk : Node
  auth : Nat → Node

/-- sphincs_fors.c:118-137: the loop over the trees; roots and signature parts. `auth0 i` is the content of the
signature buffer before. -/
def forsSignLoop (p : Params) (e : Env) (pub skSeed m : List Byte) (auth0 : Nat → Nat → Node) :
    (cnt i : Nat) → (treeAddr leafAddr : Addr) → (stack : Nat → Node) → Option (List Node × List ForsPart)
  | 0, _, _, _, _ => some ([], [])
  | cnt + 1, i, treeAddr, leafAddr, stack =>
    let off := i * 2 ^ p.a
    let ind := forsIndex p m i
    let ta := setType (setIndex (setHeight treeAddr 0) (ind + off)) 6
    let sk := e.prf pub (abytes ta) skSeed
    let r := treehash e.T pub ind off p.a (forsGenLeaf e pub skSeed) ⟨stack, auth0 i, setType ta 3, leafAddr⟩
    r.1.bind fun root =>
      (forsSignLoop p e pub skSeed m auth0 cnt (i + 1) r.2.addr r.2.info r.2.stack).map fun s =>
        (root :: s.1, ⟨sk, r.2.auth⟩ :: s.2)

/-- sphincs_fors.c:91-145, `fors_sign_c`: public key and signature. -/
def forsSign (p : Params) (e : Env) (pub skSeed m : List Byte) (forsAddr : Addr) (auth0 : Nat → Nat → Node) : Option (Node × List ForsPart) :=
  (forsSignLoop p e pub skSeed m auth0 p.k 0 (copyKeypair zeroAddr forsAddr) (copyKeypair zeroAddr forsAddr) fun _ => []).map fun r =>
    (e.T pub (abytes (setType (copyKeypair zeroAddr forsAddr) 4)) r.1.flatten, r.2)

/-- The bytes of a part of the signature buffer. -/
def slice (b : List Byte) (off n : Nat) : List Byte := (b.drop off).take n

/-- sphincs_fors.c:178-193: the loop of the verifier; the signature of tree `i` starts at i (a + 1) n. -/
def forsPkLoop (p : Params) (e : Env) (pub sig m : List Byte) : (cnt i : Nat) → Addr → List Node
  | 0, _, _ => []
  | cnt + 1, i, treeAddr =>
    let off := i * 2 ^ p.a
    let ind := forsIndex p m i
    let ta := setIndex (setHeight treeAddr 0) (ind + off)
    let base := i * ((p.a + 1) * p.n)
    let leaf := e.T pub (abytes ta) (slice sig base p.n)
    let r := computeRoot e.T pub leaf ind off (fun h => slice sig (base + p.n + h * p.n) p.n) p.a ta
    r.1 :: forsPkLoop p e pub sig m cnt (i + 1) r.2

/-- sphincs_fors.c:154-201, `fors_pk_from_sig_c`. -/
def forsPkFromSig (p : Params) (e : Env) (pub sig m : List Byte) (forsAddr : Addr) : Node :=
  e.T pub (abytes (setType (copyKeypair zeroAddr forsAddr) 4))
    (forsPkLoop p e pub sig m p.k 0 (setType (copyKeypair zeroAddr forsAddr) 3)).flatten

/-! ### Message digest (sphincs_hash_shake.c) -/

/-- sphincs_utils.c:49-58, `bytes_to_ull`. -/
def bytesToUll (b : List Byte) : Nat := b.foldl (fun r x => r * 256 + x.toNat) 0

/-- LC_SPX_FORS_MSG_BYTES, LC_SPX_TREE_BITS, LC_SPX_TREE_BYTES, LC_SPX_LEAF_BYTES. -/
def forsMsgBytes (p : Params) : Nat := (p.a * p.k + 7) / 8
def treeBits (p : Params) : Nat := p.hp * (p.d - 1)
def treeBytes (p : Params) : Nat := (treeBits p + 7) / 8
def leafBytes (p : Params) : Nat := (p.hp + 7) / 8

/-- sphincs_hash_shake.c:67-115, `hash_message` after the message encoding `mm`: digest, tree and leaf number. -/
def hashMessage (p : Params) (e : Env) (r pk mm : List Byte) : List Byte × Nat × Nat :=
  let buf := (List.range (forsMsgBytes p + treeBytes p + leafBytes p)).map (e.hmsg r pk mm)
  (slice buf 0 (forsMsgBytes p),
   (if p.d = 1 then 0 else bytesToUll (slice buf (forsMsgBytes p) (treeBytes p)) % 2 ^ treeBits p),
   bytesToUll (slice buf (forsMsgBytes p + treeBytes p) (leafBytes p)) % 2 ^ p.hp)

/-! ### Keys, signing, verification (sphincs_sign.c) -/

/-- sphincs_sign.c:109-143, `lc_sphincs_keypair_from_seed_internal`, for a secret key with the given seeds: the
root.  The public key is `pubSeed ++ root`, the secret key `skSeed, skPrf, pubSeed, root`. -/
def keyRoot (p : Params) (e : Env) (skSeed pubSeed junk : List Byte) (sig0 auth0 : Nat → Node) : Option Node :=
  merkleGenRoot p e pubSeed skSeed junk sig0 auth0

/-- One layer of the signature: WOTS+ signature followed by the authentication path. -/
def layerBytes (p : Params) (sig auth : Nat → Node) : List Byte :=
  ((List.range (wotsLen p)).map sig).flatten ++ ((List.range p.hp).map auth).flatten

/-- sphincs_sign.c:276-291: the loop over the layers. -/
def signLayers (p : Params) (e : Env) (pub skSeed : List Byte) (sig0 auth0 : Nat → Nat → Node) :
    (cnt i : Nat) → (root : Node) → (tree idxLeaf : Nat) → (wotsAddr treeAddr : Addr) → Option (List Byte)
  | 0, _, _, _, _, _, _ => some []
  | cnt + 1, i, root, tree, idxLeaf, wotsAddr, treeAddr =>
    let ta := setTree (setLayer treeAddr i) tree
    let wa := setKeypair (copySubtree wotsAddr ta) idxLeaf
    let r := merkleSign p e pub skSeed root wa ta idxLeaf (sig0 i) (auth0 i)
    r.1.bind fun root' =>
      (signLayers p e pub skSeed sig0 auth0 cnt (i + 1) root' (tree / 2 ^ p.hp) (tree % 2 ^ p.hp) wa r.2.2.2).map fun s =>
        layerBytes p r.2.1 r.2.2.1 ++ s

/-- The bytes of a FORS signature. -/
def forsBytes (p : Params) (s : List ForsPart) : List Byte :=
  (s.map fun f => f.sk ++ ((List.range p.a).map f.auth).flatten).flatten

/-- The settings of `struct lc_sphincs_ctx` used by the message encoding. -/
structure Setting where
  internal : Bool
  prehash : Option LC.DomSep.Hash
  userctx : List Byte

/-- The message encoding as `gen_message_random` and `hash_message` use it (sphincs_hash_shake.c:49-52, 86-89). -/
def encode (p : Params) (s : Setting) (m : List Byte) : Int × List Byte :=
  LC.DomSep.domSep p.cat ⟨s.internal, s.prehash, s.userctx, false, m⟩

/-- Result of signing: an error or the signature `r, sigfors, sight`. -/
inductive SignRes
  | err (r : Int)
  | sig (s : List Byte)
  deriving DecidableEq

/-- sphincs_sign.c:210-301, `lc_sphincs_sign_ctx`: `optrand` comes from the random number generator or is the public
seed (lines 250-255); none never happens (proved). -/
def signCtx (p : Params) (e : Env) (c : Setting) (m skSeed skPrf pubSeed root optrand : List Byte)
    (sig0 auth0 : Nat → Nat → Node) (fors0 : Nat → Nat → Node) : Option SignRes :=
  let mm := encode p c m
  if mm.1 ≠ 0 then some (.err mm.1)
  else
    let r := e.rnd skPrf optrand mm.2
    let h := hashMessage p e r (pubSeed ++ root) mm.2
    let wa := setKeypair (setTree (setType zeroAddr 0) h.2.1) h.2.2
    (forsSign p e pubSeed skSeed h.1 wa fors0).bind fun f =>
      (signLayers p e pubSeed skSeed sig0 auth0 p.d 0 f.1 h.2.1 h.2.2 wa (setType zeroAddr 2)).map fun s =>
        .sig (r ++ forsBytes p f.2 ++ s)

/-- sphincs_sign.c:463-494: the loop over the layers; `pos` is the position of `wots_sig` in the signature. -/
def verifyLayers (p : Params) (e : Env) (pub sig : List Byte) :
    (cnt i pos : Nat) → (root : Node) → (tree idxLeaf : Nat) → (wotsAddr treeAddr wotsPkAddr : Addr) → Node
  | 0, _, _, root, _, _, _, _, _ => root
  | cnt + 1, i, pos, root, tree, idxLeaf, wotsAddr, treeAddr, wotsPkAddr =>
    let ta := setTree (setLayer treeAddr i) tree
    let wa := setKeypair (copySubtree wotsAddr ta) idxLeaf
    let pa := copyKeypair wotsPkAddr wa
    let w := wotsPkFromSig p e pub (fun j => slice sig (pos + j * p.n) p.n) root wa
    let leaf := e.T pub (abytes pa) w.1
    let pos' := pos + wotsLen p * p.n
    let r := computeRoot e.T pub leaf idxLeaf 0 (fun h => slice sig (pos' + h * p.n) p.n) p.hp ta
    verifyLayers p e pub sig cnt (i + 1) (pos' + p.hp * p.n) r.1 (tree / 2 ^ p.hp) (tree % 2 ^ p.hp) w.2 r.2 pa

/-- sphincs_sign.c:414-503, `lc_sphincs_verify_ctx`: the return value; -EBADMSG is -74. -/
def verifyCtx (p : Params) (e : Env) (c : Setting) (m pk sig : List Byte) : Int :=
  let mm := encode p c m
  if mm.1 ≠ 0 then mm.1
  else
    let pub := slice pk 0 p.n
    let h := hashMessage p e (slice sig 0 p.n) pk mm.2
    let wa := setKeypair (setTree (setType zeroAddr 0) h.2.1) h.2.2
    let root := forsPkFromSig p e pub (slice sig p.n ((p.a + 1) * p.k * p.n)) h.1 wa
    let pos := p.n + (p.a + 1) * p.k * p.n
    let root := verifyLayers p e pub sig p.d 0 pos root h.2.1 h.2.2 wa (setType zeroAddr 2) (setType zeroAddr 1)
    if LC.Kyber.memcmpB e.lp64 e.avx2 root (slice pk p.n p.n) ≠ 0 then -74 else 0

end LC.Slh
