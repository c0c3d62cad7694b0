/-
Model of the BER decoder, `/repo/asn1/src/asn1_decoder.c`: a virtual machine that runs the bytecode
of a grammar (`*.asn1.c`) over the input.

Every access to the input, the bytecode, the opcode length table and the action table is checked
in the model and yields a distinct outcome (`dataFault`, `machFault`) when it is out of range,
so that memory safety is a statement about the outcomes.  `size_t` subtractions wrap.
Debug output is not modelled.
-/
namespace LC.Asn1

/-- `size_t` subtraction. -/
def wsub (a b : Nat) : Nat := (a + 2 ^ 64 - b) % 2 ^ 64

/-- `struct asn1_decoder`: bytecode and number of entries of the action table. -/
structure Decoder where
  machine : List Nat
  nact : Nat

/-- `asn1_op_lengths`, `asn1_common.c:24-55`; `none` is an access behind the table
(`ASN1_OP__NR` = 0x29 entries), unused opcodes have length 0. -/
def opLen (op : Nat) : Option Nat :=
  [2, 2, 3, 3, 3, 3, 0, 0, 1, 1, 2, 2, 0, 0, 0, 0, 0, 2, 0, 3, 0, 3, 0, 0, 1, 1, 2, 2, 1, 1, 2, 2,
   1, 1, 2, 2, 2, 2, 3, 3, 1][op]?

/-- The flags of the tag matching opcodes, `asn1_ber_bytecode.h:66-70`. -/
def isSkip (op : Nat) : Bool := op.testBit 0
def isAct (op : Nat) : Bool := op.testBit 1
def isJump (op : Nat) : Bool := op.testBit 2
def isAny (op : Nat) : Bool := op.testBit 3
def isCond (op : Nat) : Bool := op.testBit 4
/-- `ASN1_OP_END__OF`, `ASN1_OP_END__ACT`. -/
def isOf (op : Nat) : Bool := op.testBit 1
def isEndAct (op : Nat) : Bool := op.testBit 2
/-- `ASN1_CONS_BIT` of a tag byte. -/
def consBit (t : Nat) : Bool := t.testBit 5

/-- Opcodes of the first case of the `switch`, lines 299-312. -/
def leafOps : List Nat := [0x00, 0x01, 0x02, 0x03, 0x08, 0x09, 0x0a, 0x0b, 0x11, 0x13, 0x18, 0x19, 0x1a, 0x1b]
/-- Lines 343-345. -/
def jumpOps : List Nat := [0x04, 0x05, 0x15]
/-- Lines 368-379. -/
def endOps : List Nat := [0x20, 0x21, 0x22, 0x23, 0x24, 0x25, 0x26, 0x27]

/-- A call of an action: index, header length, tag, and the slice of the input it is given. -/
structure Call where
  act : Nat
  hdr : Nat
  tag : Nat
  off : Nat
  len : Nat
deriving DecidableEq, Repr

/-- The local variables.  `indef`, `matched`, `last`, `cons` are the bits of `flags`; `cstk` is
the stack of constructed types (`cons_dp_stack`, `cons_datalen_stack`, `cons_hdrlen_stack`) with
its top first, `jstk` the jump stack.  `trace` records the action calls, latest first. -/
structure St where
  pc : Nat := 0
  dp : Nat := 0
  tdp : Nat := 0
  len : Nat := 0
  datalen : Nat
  hdr : Nat := 0
  tag : Nat := 0
  indef : Bool := false
  matched : Bool := false
  last : Bool := false
  cons : Bool := false
  cstk : List (Nat × Nat × Nat) := []
  jstk : List Nat := []
  trace : List Call := []
deriving DecidableEq, Repr

/-- Result of a step. -/
inductive Res where
  | next (s : St)
  | halt (ret : Int) (s : St)
  | dataFault
  | machFault

def EBADMSG : Int := 74
def EMSGSIZE : Int := 90

/-! ### `asn1_find_indefinite_length`, lines 40-124 -/

/-- Result: position behind the end-of-contents octets, error, or access out of range. -/
inductive IRes where
  | ok (dp : Nat)
  | err
  | fault
  | fuel
deriving DecidableEq

/-- The long tag loop, lines 70-74. -/
def longTag (data : List UInt8) (datalen : Nat) : Nat → Nat → IRes
  | 0, _ => .fuel
  | fuel + 1, dp =>
    if wsub datalen dp < 2 then .err
    else match data[dp]? with
      | none => .fault
      | some t => if t.toNat ≥ 0x80 then longTag data datalen fuel (dp + 1) else .ok (dp + 1)

/-- Reading `n` length bytes, lines 96-100 and 262-265: value and position. -/
def readLen (data : List UInt8) : Nat → Nat → Nat → Option (Nat × Nat)
  | 0, dp, len => some (len, dp)
  | n + 1, dp, len =>
    match data[dp]? with
    | none => none
    | some b => readLen data n (dp + 1) (len * 256 + b.toNat)

/-- What the length octets at `dp` say (lines 78-104). -/
inductive LRes where
  | skip (dp : Nat)
  | indef (dp : Nat)
  | err
  | fault

/-- Lines 77-104: the length octets and the jump over the contents. -/
def indefLen (data : List UInt8) (datalen tag dp : Nat) : LRes :=
  match data[dp]? with
  | none => .fault
  | some b =>
    let len := b.toNat
    let dp := dp + 1
    if len ≤ 0x7f then
      (if len > wsub datalen dp then .err else .skip (dp + len))
    else if len = 0x80 then (if consBit tag then .indef dp else .err)
    else
      let n := len - 0x80
      if n > 7 then .err
      else if n > wsub datalen dp then .err
      else match readLen data n dp 0 with
        | none => .fault
        | some (l, dp) => if l > wsub datalen dp then .err else .skip (dp + l)

/-- Continuation with the length: `next_tag` or error. -/
def indefCont (go : Nat → Nat → IRes) (level : Nat) : LRes → IRes
  | .skip dp => go dp level
  | .indef dp => go dp (level + 1)
  | .err => .err
  | .fault => .fault

/-- Lines 69-105 after the tag byte. -/
def indefTag (data : List UInt8) (datalen : Nat) (go : Nat → Nat → IRes) (tag dp level : Nat) : IRes :=
  if tag % 32 = 31 then
    match longTag data datalen (datalen + 1) dp with
    | .ok dp => indefCont go level (indefLen data datalen tag dp)
    | r => r
  else indefCont go level (indefLen data datalen tag dp)

/-- The loop from `next_tag`, lines 48-105; `level` is `indef_level`. -/
def findIndef (data : List UInt8) (datalen : Nat) : Nat → Nat → Nat → IRes
  | 0, _, _ => .fuel
  | fuel + 1, dp, level =>
    if wsub datalen dp < 2 then .err
    else match data[dp]? with
      | none => .fault
      | some t =>
        if t.toNat = 0 then
          match data[dp + 1]? with
          | none => .fault
          | some z =>
            if z.toNat ≠ 0 then .err
            else if level ≤ 1 then .ok (dp + 2)
            else findIndef data datalen fuel (dp + 2) (level - 1)
        else indefTag data datalen (findIndef data datalen fuel) t.toNat (dp + 1) level

/-! ### `asn1_ber_decoder`, lines 151-508 -/

/-- Result of evaluating the tag of a matching opcode, lines 196-295. -/
inductive MRes where
  /-- `goto next_op` -/
  | skip (s : St)
  /-- the tag has been matched -/
  | go (s : St)
  | err
  | dataFault
  | machFault

/-- `tmp = optag ^ tag; tmp &= ~(optag & ASN1_CONS_BIT)`, lines 229-230. -/
def tagMatches (optag tag : Nat) : Bool := (optag ^^^ tag) &&& (255 - (optag &&& 0x20)) == 0

/-- Lines 275-294: push the constructed type. -/
def pushCons (s : St) : MRes :=
  if s.cons then
    if s.cstk.length ≥ 10 then .err
    else if s.indef then
      .go { s with cstk := (s.dp, 0, s.hdr) :: s.cstk, tdp := s.dp }
    else
      .go { s with cstk := (s.dp, s.datalen, s.hdr) :: s.cstk, datalen := s.dp + s.len, tdp := s.dp }
  else .go { s with tdp := s.dp }

/-- Lines 245-273 and on: the length octets; `s.dp` points to them. -/
def matchLen (data : List UInt8) (s : St) : MRes :=
  match data[s.dp]? with
  | none => .dataFault
  | some b =>
    let len := b.toNat
    let dp := s.dp + 1
    if len > 0x7f then
      if len = 0x80 then
        if ! consBit s.tag then .err
        else if 2 > wsub s.datalen dp then .err
        else pushCons { s with dp := dp, len := len, indef := true }
      else
        let n := len - 0x80
        if n > 3 then .err
        else if n > wsub s.datalen dp then .err
        else match readLen data n dp 0 with
          | none => .dataFault
          | some (l, dp) =>
            if l > wsub s.datalen dp then .err
            else pushCons { s with dp := dp, len := l, hdr := s.hdr + n }
    else if len > wsub s.datalen dp then .err
    else pushCons { s with dp := dp, len := len }

/-- Lines 217-243: compare the tag; `s.dp` still points to it. -/
def matchTag (d : Decoder) (data : List UInt8) (op l tag : Nat) (s : St) : MRes :=
  let s := { s with indef := false, matched := false, last := false, cons := false, hdr := 2, tag := tag }
  if isAny op then matchLen data { s with matched := true, dp := s.dp + 1 }
  else match d.machine[s.pc + 1]? with
    | none => .machFault
    | some optag =>
      let s := { s with cons := consBit optag }
      if ! tagMatches optag tag then
        (if isSkip op then .skip { s with pc := s.pc + l } else .err)
      else matchLen data { s with matched := true, dp := s.dp + 1 }

/-- Lines 196-295; `l` is the length of the instruction. -/
def matchOp (d : Decoder) (data : List UInt8) (op l : Nat) (s : St) : MRes :=
  if (isCond op && s.matched) || (isSkip op && s.dp == s.datalen) then
    .skip { s with last := false, pc := s.pc + l }
  else if wsub s.datalen s.dp < 2 then .err
  else match data[s.dp]? with
    | none => .dataFault
    | some t =>
      if t.toNat % 32 = 31 then .err
      else matchTag d data op l t.toNat s

/-- A call of the action whose index is stored at `pc + i`; `k` continues.  The result of the
action may depend on everything it was called with so far. -/
def callAct (d : Decoder) (cb : List Call → Int) (s : St) (i tag off len : Nat) (k : St → St) : Res :=
  match d.machine[s.pc + i]? with
  | none => .machFault
  | some act =>
    if act ≥ d.nact then .machFault
    else
      let tr := ⟨act, s.hdr, tag, off, len⟩ :: s.trace
      let s := { s with trace := tr }
      if cb tr < 0 then .halt (cb tr) s else .next (k s)

/-- Lines 326-341. -/
def leafAct (d : Decoder) (cb : List Call → Int) (op l : Nat) (s : St) : Res :=
  let k (s : St) : St := { s with dp := if s.cons then s.dp else s.dp + s.len, pc := s.pc + l }
  if isAct op then callAct d cb s (if isAny op then 1 else 2) s.tag s.dp s.len k
  else .next (k s)

/-- Lines 299-341. -/
def leafOp (d : Decoder) (cb : List Call → Int) (data : List UInt8) (op l : Nat) (s : St) : Res :=
  if !s.cons && s.indef then
    match findIndef data s.datalen (s.datalen + 1) s.dp 1 with
    | .ok dp => leafAct d cb op l { s with len := dp - s.dp }
    | .err => .halt (-EBADMSG) s
    | .fault => .dataFault
    | .fuel => .machFault
  else leafAct d cb op l s

/-- Lines 343-351: the return address is stored in an `unsigned char`. -/
def jumpOp (d : Decoder) (l : Nat) (s : St) : Res :=
  if s.jstk.length = 10 then .halt (-EBADMSG) s
  else match d.machine[s.pc + 2]? with
    | none => .machFault
    | some t => .next { s with jstk := (s.pc + l) % 256 :: s.jstk, pc := t }

/-- Lines 421-432. -/
def endAct (d : Decoder) (cb : List Call → Int) (op l : Nat) (s : St) : Res :=
  let k (s : St) : St := { s with pc := s.pc + l }
  if isEndAct op then callAct d cb s (if isOf op then 2 else 1) 0 s.tdp s.len k else .next (k s)

/-- `pc = machine[pc + 1]; goto next_op`, lines 396-400, 409-413; the constructed type stays on the
stack. -/
def endContinue (d : Decoder) (s : St) : Res :=
  match d.machine[s.pc + 1]? with
  | none => .machFault
  | some t => .next { s with pc := t }

/-- Lines 389-406: end of an indefinite length type; `old` is the state with the type still on the
stack and `s` the one with it removed. -/
def endIndef (d : Decoder) (cb : List Call → Int) (data : List UInt8) (op l : Nat) (old s : St) : Res :=
  if wsub s.datalen s.dp < 2 then .halt (-EBADMSG) s
  else match data[s.dp]? with
    | none => .dataFault
    | some b =>
      if b.toNat ≠ 0 then (if isOf op then endContinue d old else .halt (-EBADMSG) s)
      else match data[s.dp + 1]? with
        | none => .dataFault
        | some z =>
          if z.toNat ≠ 0 then .halt (-EBADMSG) s
          else endAct d cb op l { s with dp := s.dp + 2, len := wsub (s.dp + 2) (s.tdp + 2) }

/-- Lines 407-419: end of a definite length type. -/
def endDef (d : Decoder) (cb : List Call → Int) (op l : Nat) (old s : St) (len : Nat) : Res :=
  if s.dp < len ∧ isOf op then endContinue d old
  else if s.dp ≠ len then .halt (-EBADMSG) s
  else endAct d cb op l { s with len := wsub len s.tdp }

/-- Lines 368-432. -/
def endOp (d : Decoder) (cb : List Call → Int) (data : List UInt8) (op l : Nat) (s : St) : Res :=
  if (op = 0x21 ∨ op = 0x25) ∧ ! s.matched then .halt (-EBADMSG) s
  else match s.cstk with
    | [] => .halt (-EBADMSG) s
    | (tdp, dl, hdr) :: rest =>
      -- the assignments of lines 383-385 are kept when the loop continues
      let old := { s with tdp := tdp, hdr := hdr, len := s.datalen }
      let s' := { old with cstk := rest }
      if dl = 0 then endIndef d cb data op l old s'
      else endDef d cb op l old { s' with datalen := dl } s.datalen

/-- The remaining opcodes, lines 353-366 and 434-459. -/
def ctlOp (d : Decoder) (cb : List Call → Int) (op l : Nat) (s : St) : Res :=
  let k (s : St) : St := { s with pc := s.pc + l }
  if op = 0x1c then (if s.matched then .next (k s) else .halt (-EBADMSG) s)
  else if op = 0x1d then
    (if s.jstk.length ≠ 0 ∨ s.cstk.length ≠ 0 then .halt (-EBADMSG) s else .halt 0 s)
  else if op = 0x1f ∧ ! s.last then .next (k s)
  else if op = 0x1e ∨ op = 0x1f then callAct d cb s 1 s.tag s.tdp s.len k
  else if op = 0x28 then
    match s.jstk with
    | [] => .halt (-EBADMSG) s
    | r :: rest => .next { s with pc := r, jstk := rest, matched := true, last := true }
  else .halt (-EBADMSG) s

/-- The `switch`, lines 298-464. -/
def afterMatch (d : Decoder) (cb : List Call → Int) (data : List UInt8) (op l : Nat) (s : St) : Res :=
  if op ∈ leafOps then leafOp d cb data op l s
  else if op ∈ jumpOps then jumpOp d l s
  else .halt (-EBADMSG) s

/-- Continuation after the tag match. -/
def matchCont (d : Decoder) (cb : List Call → Int) (data : List UInt8) (op l : Nat) (s0 : St) : MRes → Res
  | .skip s => .next s
  | .go s => afterMatch d cb data op l s
  | .err => .halt (-EBADMSG) s0
  | .dataFault => .dataFault
  | .machFault => .machFault

/-- One instruction with its opcode and length known. -/
def exec (d : Decoder) (cb : List Call → Int) (data : List UInt8) (op l : Nat) (s : St) : Res :=
  if op ≤ 0x1b then matchCont d cb data op l s (matchOp d data op l s)
  else if op ∈ endOps then endOp d cb data op l s
  else ctlOp d cb op l s

/-- One round from `next_op`, lines 183-464. -/
def step (d : Decoder) (cb : List Call → Int) (data : List UInt8) (s : St) : Res :=
  match d.machine[s.pc]? with
  | none => .halt (-EBADMSG) s
  | some op =>
    match opLen op with
    | none => .machFault
    | some l => if s.pc + l > d.machine.length then .halt (-EBADMSG) s else exec d cb data op l s

/-- `n` rounds. -/
def run (d : Decoder) (cb : List Call → Int) (data : List UInt8) : Nat → St → Res
  | 0, s => .next s
  | n + 1, s =>
    match step d cb data s with
    | .next s => run d cb data n s
    | r => r

/-- The state at the beginning. -/
def start (data : List UInt8) : St := { datalen := data.length }

/-- `asn1_ber_decoder` with at most `n` rounds; `.next` if they did not suffice. -/
def decode (d : Decoder) (cb : List Call → Int) (data : List UInt8) (n : Nat) : Res :=
  if data.length > 2 ^ 18 then .halt (-EMSGSIZE) (start data) else run d cb data n (start data)

end LC.Asn1
