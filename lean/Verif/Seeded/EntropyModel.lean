/-!
# Where the seed comes from

`get_full_entropy` for Linux, for BSD and Darwin, with ESDM, and inside the Linux kernel.  The operating system is a list of
outcomes, one for each call; `none` as a result means that all outcomes are used up and the function still runs.  A result is
the value that is returned and the bytes written, from the beginning of the buffer.
-/

namespace LC.Entropy

/-- `EINTR` -/
def EINTR : Nat := 4
/-- `EINVAL` -/
def EINVAL : Int := 22
/-- `EFAULT` -/
def EFAULT : Int := 14

/-- The outcome of `getrandom(2)`: bytes (those that fit into the buffer are written and counted) or an error number. -/
inductive Out
  | got (d : List UInt8)
  | err (e : Nat)
deriving DecidableEq, Repr

/-- The loop of `__getrandom`, `/repo/drng/src/seeded_rng_linux.h:48-61`: outcomes, `errno` — which only errors change —, the bytes
written so far, the length that is left. -/
def getrandomLoop : List Out → Nat → List UInt8 → Nat → Option (Int × List UInt8)
  | [], _, _, _ => none
  | .got d :: os, errno, w, len =>
    let d := d.take len
    if 0 < d.length then
      if len - d.length ≠ 0 then getrandomLoop os errno (w ++ d) (len - d.length)
      else some (((w ++ d).length : Int), w ++ d)
    else if errno = EINTR ∧ len ≠ 0 then getrandomLoop os errno w len
    else some ((w.length : Int), w)
  | .err e :: os, _, w, len =>
    if e = EINTR ∧ len ≠ 0 then getrandomLoop os e w len else some (-(e : Int), w)

/-- `__getrandom`, lines 40-62; `errno` is the value at the call. -/
def getrandom (os : List Out) (errno len : Nat) : Option (Int × List UInt8) :=
  if 2 ^ 31 - 1 < len then some (-EINVAL, []) else getrandomLoop os errno [] len

/-- The loop of `__getentropy`, `/repo/drng/src/seeded_rng_bsd.c:31-40` and `seeded_rng_darwin.c:33-42`; `getentropy` fills the
requested bytes or returns -1. -/
def getentropyLoop : List (Option (Nat → UInt8)) → List UInt8 → Nat → Option (Int × List UInt8)
  | _, w, 0 => some ((w.length : Int), w)
  | [], _, _ + 1 => none
  | none :: _, w, _ + 1 => some (-1, w)
  | some f :: os, w, len + 1 =>
    let todo := min (len + 1) 256
    getentropyLoop os (w ++ (List.range todo).map f) (len + 1 - todo)

/-- `__getentropy`, lines 24-43. -/
def getentropy (os : List (Option (Nat → UInt8))) (len : Nat) : Option (Int × List UInt8) :=
  if 2 ^ 31 - 1 < len then some (-EINVAL, []) else getentropyLoop os [] len

/-- `esdm_invoke`, `/repo/drng/src/seeded_rng_esdm.c:39-46`, with `ctr` further attempts. -/
def esdmInvoke : List Out → Nat → Nat → Option (Int × List UInt8)
  | [], _, _ => none
  | .got d :: _, len, _ => some (((d.take len).length : Int), d.take len)
  | .err e :: os, len, ctr => if e = EINTR ∧ 0 < ctr then esdmInvoke os len (ctr - 1) else some (-(e : Int), [])

/-- `get_full_entropy` with ESDM, lines 126-144: `esdm` says whether the client library is loaded; outcomes of ESDM and of
`getrandom`. -/
def fullEsdm (esdm : Bool) (es os : List Out) (errno len : Nat) : Option (Int × List UInt8) :=
  match (if esdm then esdmInvoke es len 5 else some (0, [])) with
  | none => none
  | some (ret, w) =>
    if ret ≠ (len : Int) then getrandom os errno len
    else some (if ret ≠ 0 then ret else (len : Int), w)

/-- `get_full_entropy` in the Linux kernel, `/repo/drng/src/seeded_rng_linux_kernel.c:31-54`: bytes of `get_random_bytes`, the
Jitter RNG (`none`: not there, an error, or bytes), FIPS mode. -/
def fullKernel (f : Nat → UInt8) (jent : Option (Except Int (Nat → UInt8))) (fips : Bool) (len : Nat) : Int × List UInt8 :=
  match jent with
  | none => ((len : Int), (List.range len).map f)
  | some (.ok g) => ((len * 2 : Nat), (List.range len).map f ++ (List.range len).map g)
  | some (.error e) => if fips then (e, (List.range len).map f) else ((len * 2 : Nat), (List.range len).map f)

/-- The check of `lc_seed_seeded_rng`, `/repo/drng/src/seeded_rng.c:163-166` and `174-177`: are the bytes used as seed? -/
def accepted (ret : Int) (want : Nat) : Bool := !(ret < (want : Int) ∨ (64 : Int) < ret)

end LC.Entropy
