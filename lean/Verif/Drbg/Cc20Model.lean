import Verif.Sym.Model
/-
Model of the ChaCha20 DRNG (`/repo/drng/src/chacha20_drng.c`).

The state is the 16 word ChaCha20 state (`sym/src/lc_chacha20_private.h`): constants 0-3, key 4-11,
counter 12, nonce 13-15.  Little endian host (`key.b` overlays `key.u`).  The case of a misaligned output buffer
only copies through `aligned_buf` and is not distinguished.  NULL context, self test and zeroisation
of the stack buffers are not modelled.
-/
namespace LC.Drbg.Cc20
open LC.Sym.Cc20

abbrev Byte := UInt8

/-- `chacha20_state->key.u[i] ^= w[i]` for `i < 8`. -/
def xorKey (st : List UInt32) (w : Nat → UInt32) : List UInt32 :=
  st.take 4 ++ ((List.range 8).map fun i => st.getD (4 + i) 0 ^^^ w i) ++ st.drop 12

/-- The increment of the nonce, `chacha20_drng.c:97-103`. -/
def incNonce (st : List UInt32) : List UInt32 :=
  let st := st.set 13 (st.getD 13 0 + 1)
  if st.getD 13 0 = 0 then
    let st := st.set 14 (st.getD 14 0 + 1)
    if st.getD 14 0 = 0 then st.set 15 (st.getD 15 0 + 1) else st
  else st

/-- `lc_cc20_drng_update`, `chacha20_drng.c:73-106`.  `buf` is the 64 byte buffer, read as words. -/
def update (st : List UInt32) (buf : List Byte) (used : Nat) : List UInt32 :=
  if used > 8 then
    let b := block st
    incNonce (xorKey b.2 fun i => unle32 (b.1.drop (4 * i)))
  else incNonce (xorKey st fun i => unle32 (buf.drop (4 * (i + used))))

/-- `lc_cc20_drng_seed`, `chacha20_drng.c:120-146`.  The first argument bounds the iterations. -/
def seedLoop : Nat → List UInt32 → List Byte → List UInt32
  | 0, st, _ => st
  | n + 1, st, inp =>
    if inp.length = 0 then st
    else
      let todo := if inp.length < 32 then inp.length else 32
      let st := xorKey st fun i => unle32 ((inp.take todo).drop (4 * i))
      seedLoop n (update st [] 16) (inp.drop todo)

def seed (st : List UInt32) (inp : List Byte) : List UInt32 := seedLoop inp.length st inp

/-- The loop over full blocks, `chacha20_drng.c:175-190`: (state, output, rest). -/
def genBlocks : Nat → List UInt32 → Nat → List Byte → List UInt32 × List Byte × Nat
  | 0, st, n, out => (st, out, n)
  | fuel + 1, st, n, out =>
    if n ≥ 64 then genBlocks fuel (block st).2 (n - 64) (out ++ (block st).1) else (st, out, n)

/-- `lc_cc20_drng_generate`, `chacha20_drng.c:161-204`: (state, output). -/
def generate (st : List UInt32) (n : Nat) : List UInt32 × List Byte :=
  let r := genBlocks n st n []
  if r.2.2 ≠ 0 then
    let b := block r.1
    (update b.2 b.1 ((r.2.2 + 4 - 1) / 4), r.2.1 ++ b.1.take r.2.2)
  else (update r.1 [] 16, r.2.1)

/-- `lc_cc20_drng_zero`, `lc_chacha20_drng.h:52-60`: zeroise, then `cc20_init`. -/
def zero : List UInt32 := init (List.replicate 16 0)

inductive Req where
  | seed (inp : List Byte)
  | generate (n : Nat)
  | zero

def step (st : List UInt32) : Req → List UInt32 × List Byte
  | .seed x => (seed st x, [])
  | .generate n => generate st n
  | .zero => (zero, [])

def run (st : List UInt32) : List Req → List UInt32 × List (List Byte)
  | [] => (st, [])
  | r :: rs => ((run (step st r).1 rs).1, (step st r).2 :: (run (step st r).1 rs).2)

end LC.Drbg.Cc20
