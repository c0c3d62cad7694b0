/-
Model of the seeded RNG (`/repo/drng/src/seeded_rng.c`): the decision when to initialise, seed and
reseed the global DRNG, and the book keeping, under threads, forks, clock readings and failures.

The DRNG itself is represented by what it was last seeded with (`Seeding`): nothing after its
memory was zeroised, or (process, clock reading, bytes generated since).  Code between
`mutex_w_lock` and `mutex_w_unlock` is one atomic event.  `rng->bytes` is a 64 bit `size_t`,
`last_seeded` a 64 bit `unsigned long`.  The destructor `lc_seeded_rng_zero_state` and the
`_state != NULL` check are not modelled.
-/
namespace LC.Seeded

/-- Ghost description of the last seeding of the DRNG. -/
structure Seeding where
  proc : Nat
  time : Nat
  out : Nat
deriving DecidableEq, Repr

/-- `struct lc_seeded_rng_ctx` (`seeded_rng.c:96-104`) and the environment: `proc` identifies the
process (never reused), `curpid` is what `getpid` returns, `pending` are the threads between
`lc_get_seeded_rng` and the second critical section, with the clock reading of the former. -/
structure State where
  bytes : Nat
  last : Nat
  pid : Nat
  drng : Option Seeding
  proc : Nat
  curpid : Nat
  pending : List (Nat × Nat)
deriving DecidableEq, Repr

def maxBytes : Nat := 1048576
def maxTime : Nat := 60
def word : Nat := 18446744073709551616

/-- `static struct lc_seeded_rng_ctx seeded_rng`, `seeded_rng.c:109-117`. -/
def initial (pid : Nat) : State :=
  { bytes := maxBytes + 1, last := 0, pid := 0, drng := none, proc := 0, curpid := pid, pending := [] }

/-- `time_after`, `seeded_rng.c:131-138`. -/
def timeAfter (curr base : Nat) : Bool :=
  if curr = word - 1 then false
  else if base = word - 1 then true
  else decide (curr > base)

/-- `time_after_now`, `seeded_rng.c:218-223`, as a condition (`curr - base ≠ 0`). -/
def timeAfterNow (curr base : Nat) : Bool := timeAfter curr base && decide ((curr + word - base) % word ≠ 0)

/-- `lc_seeded_rng_must_reseed`, `seeded_rng.c:225-251`: (reseed, newpid); `c` is the clock. -/
def mustReseed (s : State) (c : Nat) : Bool × Nat :=
  if s.bytes > maxBytes then (true, 0)
  else if timeAfterNow c ((s.last + maxTime) % word) then (true, 0)
  else if s.pid ≠ s.curpid then (true, s.curpid)
  else (false, 0)

/-- `lc_seed_seeded_rng`, `seeded_rng.c:151-193`: (state, success).  `e1`, `e2` say whether entropy
and `lc_rng_seed` of the first and (only with `init`) second seeding succeed, `c` is the clock
reading of line 183. -/
def seedRng (s : State) (init : Bool) (newpid c : Nat) (e1 e2 : Bool) : State × Bool :=
  if !e1 then (s, false)
  else
    let s := { s with drng := some { proc := s.proc, time := c, out := 0 } }
    if init && !e2 then (s, false)
    else ({ s with bytes := 0, last := c, pid := if newpid ≠ 0 then newpid else s.pid }, true)

/-- `lc_get_seeded_rng`, `seeded_rng.c:253-276`: (state, success).  `noise` is the result of
`seeded_rng_noise_init`; `LC_SEEDED_RNG_CTX` (line 197) zeroises the DRNG. -/
def getRng (s : State) (c1 c2 : Nat) (noise e1 e2 : Bool) : State × Bool :=
  let init := decide (s.last = 0)
  let s := if init then { s with drng := none } else s
  if init && !noise then (s, false)
  else
    let s := if init then { s with pid := s.curpid } else s
    let r := mustReseed s c1
    if r.1 then seedRng s init r.2 c2 e1 e2 else (s, true)

/-- What happens to the process. -/
inductive Event where
  /-- `lc_get_seeded_rng` called by `lc_seeded_rng_generate` (line 291) or `lc_seeded_rng_seed` of a thread. -/
  | get (t c1 c2 : Nat) (noise e1 e2 : Bool)
  /-- The critical section of `lc_seeded_rng_generate`, `seeded_rng.c:293-308`; `ok`: success of `lc_rng_generate`. -/
  | gen (t n : Nat) (ok : Bool)
  /-- The critical section of `lc_seeded_rng_seed`, `seeded_rng.c:323-330`. -/
  | seed (t c : Nat) (e : Bool)
  /-- The process forks; we follow the child, which has only the forking thread. -/
  | fork (pid : Nat)

/-- An output: state of the DRNG it came from, the process that got it, the clock reading of the
same call. -/
structure Output where
  drng : Option Seeding
  proc : Nat
  time : Nat
  len : Nat
deriving DecidableEq, Repr

/-- Threads in `pending` other than `t`. -/
def dropThread (p : List (Nat × Nat)) (t : Nat) : List (Nat × Nat) := p.filter fun x => x.1 ≠ t

/-- Clock reading of the pending call of a thread. -/
def reading (p : List (Nat × Nat)) (t : Nat) : Option Nat := (p.find? fun x => x.1 = t).map (·.2)

/-- Generation and the update of `rng->bytes`, `seeded_rng.c:296-304`. -/
def genUpdate (s : State) (n : Nat) : State :=
  let updated := (s.bytes + n) % word
  { s with bytes := if updated < s.bytes then word - 1 else updated,
           drng := s.drng.map fun g => { g with out := g.out + n } }

/-- One event; events that cannot happen (a thread with a pending call starting another one, more
than `T` threads, a section without pending call) change nothing. -/
def step (T : Nat) (s : State) : Event → State × Option Output
  | .get t c1 c2 noise e1 e2 =>
    if (reading s.pending t).isSome || decide (T ≤ s.pending.length) then (s, none)
    else
      let r := getRng s c1 c2 noise e1 e2
      if r.2 then ({ r.1 with pending := (t, c1) :: r.1.pending }, none) else (r.1, none)
  | .gen t n ok =>
    match reading s.pending t with
    | none => (s, none)
    | some c =>
      let s1 := { s with pending := dropThread s.pending t }
      if ok then (genUpdate s1 n, some { drng := s.drng, proc := s.proc, time := c, len := n }) else (s1, none)
  | .seed t c e =>
    match reading s.pending t with
    | none => (s, none)
    | some _ => ((seedRng { s with pending := dropThread s.pending t } false 0 c e true).1, none)
  | .fork pid => ({ s with proc := s.proc + 1, curpid := pid, pending := [] }, none)

/-- All outputs of an execution. -/
def run (T : Nat) (s : State) : List Event → State × List Output
  | [] => (s, [])
  | e :: es =>
    ((run T (step T s e).1 es).1, (step T s e).2.toList ++ (run T (step T s e).1 es).2)

end LC.Seeded
