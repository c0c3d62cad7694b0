import Verif.Asn1.Machines
import Verif.Asn1.Encode
/-
Model of the ASN.1 encoder, `/repo/asn1/src/asn1_encoder_impl.h` (`asn1_ber_encoder_ws`), with its
two instances `asn1_encoder.c` and `asn1_encoder_small.c`: a virtual machine that runs the same
bytecode as the decoder and asks the actions for the values.

`data_p[i]` and `data_len[i]` of a level are represented by the bytes in `data[i]` before
`data_p[i]`: `data_len[i]` is `maxlen` minus their number.  An action is a function of its context
and of the space offered; it returns its result, the bytes it appended and the tag it stored, if any.
Distinct outcome `fault`: an access outside the bytecode, the action table or the jump stack, the
use of a level whose `data_p` and `data_len` have not been set, a tag that has not been set since
the level was entered, or an action that wrote more than it was offered.  Debug output is not
modelled.
-/
namespace LC.Asn1.Gen
open LC.Asn1 LC.Asn1.Enc

def EOVERFLOW : Int := 75

/-- `MAX_LEVEL_STACK_HIERARCHY` and `MAX_STACK_MEM_PER_HIERARCHY`. -/
structure Cfg where
  maxLevel : Nat
  maxStack : Nat
deriving DecidableEq

/-- `asn1_encoder.c:24-25`; `ASN1_MAX_DATASIZE` is 2^18. -/
def large : Cfg := ⟨10, 2 ^ 18⟩
/-- `asn1_encoder_small.c:24-25`. -/
def small : Cfg := ⟨4, 256⟩

/-- What an action that does not fail does: return value, bytes, `*tag` if it was stored, context. -/
structure AOut (σ : Type) where
  ret : Nat := 0
  bytes : List UInt8 := []
  tag : Option UInt8 := none
  ctx : σ

/-- `asn1_action_enc_t`: context and space to result; an error is a negative number. -/
abbrev Act (σ : Type) := σ → Nat → Except Int (AOut σ)

/-- `struct asn1_encoder`: the bytecode (with the number of actions) and the actions. -/
structure Encoder (σ : Type) where
  d : Decoder
  act : Nat → Act σ

/-- A level of the data stack.  `set` tells whether `data_p` and `data_len` have been assigned. -/
structure Lvl where
  buf : List UInt8 := []
  set : Bool := true
  tag : Option UInt8 := none
deriving DecidableEq, Repr

/-- A value supplied by an action: the action, the tag in force, the bytes, and whether the place
is one whose bytes are written out (`leaf`) or the end of a constructed type. -/
structure Val where
  act : Nat
  tag : UInt8
  bytes : List UInt8
  leaf : Bool
deriving DecidableEq, Repr

/-- The local variables; `stk` is the data stack with the level `dsp` first, so `dsp` is its length
minus one, `jstk` the jump stack, the four flags are the bits of `flags`.  `out` is what has been
written to `data`.  `log` records the values supplied by the actions, latest first. -/
structure St (σ : Type) where
  pc : Nat := 0
  stk : List Lvl := [⟨[], false, none⟩]
  jstk : List Nat := []
  matched : Bool := false
  last : Bool := false
  cont : Bool := false
  zero : Bool := false
  out : List UInt8 := []
  ctx : σ
  log : List Val := []

inductive Res (σ : Type) where
  | next (s : St σ)
  | halt (ret : Int) (s : St σ)
  | fault

variable {σ : Type}

/-- Lines 122-160: tag, length and content appended to a buffer with `used` of `maxlen` bytes. -/
def writeTlv (maxlen used : Nat) (tag : UInt8) (content : List UInt8) : Except Int (List UInt8) :=
  if maxlen - used < 1 then .error (-EOVERFLOW)
  else match encodeLength (maxlen - used - 1) content.length with
    | none => .error (-EINVAL)
    | some (l, avail) =>
      if avail < content.length then .error (-EOVERFLOW) else .ok (tag :: (l ++ content))

/-- `write_data_out`, lines 386-427: the content of the current level goes to the level below, or to the
output from level 0. -/
def writeOut (maxlen l : Nat) (s : St σ) : Res σ :=
  match s.stk with
  | [] => .fault
  | top :: rest =>
    if !top.set then .fault
    else if top.buf.length = 0 ∧ s.zero = false then .next { s with pc := s.pc + l }
    else match top.tag with
      | none => .fault
      | some t =>
        match rest with
        | [] =>
          (match writeTlv maxlen s.out.length t top.buf with
           | .error e => .halt e s
           | .ok b => .next { s with pc := s.pc + l, zero := false, out := s.out ++ b,
                                     stk := [{ top with buf := [] }] })
        | below :: rest =>
          if !below.set then .fault
          else match writeTlv maxlen below.buf.length t top.buf with
           | .error e => .halt e s
           | .ok b => .next { s with pc := s.pc + l, zero := false,
                                     stk := { top with buf := [] } :: { below with buf := below.buf ++ b } :: rest }

/-- A call of the action whose index is at `pc + i`, with the flags of its result (lines 252-264,
367-379, 436-448). -/
def callAct (e : Encoder σ) (maxlen : Nat) (leaf : Bool) (s : St σ) (i : Nat) (k : St σ → Res σ) : Res σ :=
  match e.d.machine[s.pc + i]? with
  | none => .fault
  | some a =>
    if a ≥ e.d.nact then .fault
    else match s.stk with
      | [] => .fault
      | top :: rest =>
        if !top.set then .fault
        else match e.act a s.ctx (maxlen - top.buf.length) with
          | .error r => .halt r s
          | .ok o =>
            if o.bytes.length > maxlen - top.buf.length then .fault
            else
              let top := { top with buf := top.buf ++ o.bytes, tag := o.tag.or top.tag }
              k { s with stk := top :: rest, ctx := o.ctx, cont := s.cont || o.ret == 1, zero := s.zero || o.ret == 2,
                         log := ⟨a, top.tag.getD 0, o.bytes, leaf⟩ :: s.log }

/-- `ASN1_BER_ENCODE_CHECK_FOR_SEQUENCE`, lines 107-116. -/
def push (c : Cfg) (s : St σ) (k : St σ → Res σ) : Res σ :=
  if s.stk.length = c.maxLevel then .halt (-EBADMSG) s else k { s with stk := {} :: s.stk }

/-- `tag[dsp] = t`, for a leaf after `data_p[dsp]` and `data_len[dsp]` have been reset. -/
def setTag (reset : Bool) (t : Nat) (s : St σ) : St σ :=
  match s.stk with
  | [] => s
  | top :: rest =>
    { s with stk := (if reset then ⟨[], true, some (byte t)⟩ else { top with tag := some (byte t) }) :: rest }

/-- Lines 247-290, after the new level has been entered. -/
def leafBody (e : Encoder σ) (maxlen op l t : Nat) (s : St σ) : Res σ :=
  if isAct op then
    callAct e maxlen (!consBit t) s (if isAny op then 1 else 2) fun s =>
      if !consBit t then writeOut maxlen l s else .next { s with pc := s.pc + l }
  else if !consBit t && op != 0 then writeOut maxlen l s
  else .next { s with pc := s.pc + l }

/-- Lines 214-293; for the opcodes with `ANY` the tag is the byte behind the opcode as well. -/
def leafOp (e : Encoder σ) (c : Cfg) (maxlen op l : Nat) (s : St σ) : Res σ :=
  match e.d.machine[s.pc + 1]? with
  | none => .fault
  | some t =>
    let s := setTag true t s
    if !isAny op && consBit t then push c s (leafBody e maxlen op l t) else leafBody e maxlen op l t s

/-- Lines 295-322; the check is against `max_stack`, the array has `max_level` entries. -/
def jumpOp (e : Encoder σ) (c : Cfg) (op l : Nat) (s : St σ) : Res σ :=
  if op = 0x15 ∧ s.last then .next { s with last := false, pc := s.pc + l }
  else if s.jstk.length = c.maxStack then .halt (-EBADMSG) s
  else if s.jstk.length ≥ c.maxLevel then .fault
  else match e.d.machine[s.pc + 1]?, e.d.machine[s.pc + 2]? with
    | some t, some target =>
      let s := setTag false t { s with jstk := (s.pc + l) % 256 :: s.jstk }
      if consBit t then push c s fun s => .next { s with pc := target } else .next { s with pc := target }
    | _, _ => .fault

/-- Lines 381-388. -/
def popWrite (maxlen l : Nat) (s : St σ) : Res σ :=
  match s.stk with
  | _ :: below :: rest => writeOut maxlen l { s with stk := below :: rest }
  | _ => .halt (-EBADMSG) s

/-- Lines 340-427. -/
def endOp (e : Encoder σ) (maxlen op l : Nat) (s : St σ) : Res σ :=
  if isOf op && s.cont then
    (match e.d.machine[s.pc + 1]? with
     | none => .fault
     | some t => .next { s with cont := false, pc := t })
  else if isEndAct op then
    callAct e maxlen false s (if isOf op then 2 else 1) (popWrite maxlen l)
  else popWrite maxlen l s

/-- Lines 464-475. -/
def returnFin (s : St σ) (len : Nat) : Res σ :=
  match s.jstk with
  | [] => .halt (-EBADMSG) s
  | r :: rest => .next { s with pc := r, jstk := rest, matched := true, last := s.last || len != 0 }

/-- Lines 452-475: the size of what is below decides. -/
def returnOp (s : St σ) : Res σ :=
  match s.stk with
  | _ :: below :: _ => if !below.set then .fault else returnFin s below.buf.length
  | _ => returnFin s s.out.length

/-- The remaining opcodes, lines 324-338 and 429-475. -/
def ctlOp (e : Encoder σ) (maxlen op l : Nat) (s : St σ) : Res σ :=
  if op = 0x1c then (if s.matched then .next { s with pc := s.pc + l } else .halt (-EBADMSG) s)
  else if op = 0x1d then
    (if s.jstk.length ≠ 0 ∨ s.stk.length ≠ 1 then .halt (-EBADMSG) s else .halt 0 s)
  else if op = 0x1f ∧ ! s.last then .next { s with pc := s.pc + l }
  else if op = 0x1e ∨ op = 0x1f then callAct e maxlen true s 1 (writeOut maxlen l)
  else if op = 0x28 then returnOp s
  else .halt (-EBADMSG) s

/-- One round from `next_op`, lines 199-480. -/
def step (e : Encoder σ) (c : Cfg) (maxlen : Nat) (s : St σ) : Res σ :=
  match e.d.machine[s.pc]? with
  | none => .halt (-EBADMSG) s
  | some op =>
    match opLen op with
    | none => .fault
    | some l =>
      if s.pc + l > e.d.machine.length then .halt (-EBADMSG) s
      else if op ∈ leafOps then leafOp e c maxlen op l s
      else if op ∈ jumpOps then jumpOp e c op l s
      else if op ∈ endOps then endOp e maxlen op l s
      else ctlOp e maxlen op l s

/-- `n` rounds. -/
def run (e : Encoder σ) (c : Cfg) (maxlen : Nat) : Nat → St σ → Res σ
  | 0, s => .next s
  | n + 1, s =>
    match step e c maxlen s with
    | .next s => run e c maxlen n s
    | r => r

/-- `asn1_ber_encoder_ws` with at most `n` rounds on a buffer of `avail` bytes; `.next` if they did not
suffice. -/
def encode (e : Encoder σ) (c : Cfg) (ctx : σ) (avail n : Nat) : Res σ :=
  run e c (min c.maxStack avail) n { ctx := ctx }

/-- `*in_out_avail_datalen` on success, line 335: `avail_datalen + in_out_unused_len`. -/
def availAfter (c : Cfg) (avail : Nat) (out : List UInt8) : Nat :=
  (min c.maxStack avail - out.length) + (avail - min c.maxStack avail)

end LC.Asn1.Gen
