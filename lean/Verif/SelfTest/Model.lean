/-!
# Self tests on first use

The macro `LC_SELFTEST_RUN`, `/repo/internal/api/compare.h:32-35`, and the level of `/repo/internal/src/compare.c`.  Every
algorithm with a self test (built with `LC_SELFTEST_ENABLED`) calls the function with the macro at the beginning, with the address of its own static variable
`tested` (for example `sha256_init`, `/repo/hash/src/sha256.c:60-68`); the function marks the algorithm, computes a known
result and compares it.

Simplifications: an algorithm is a number, its self test is the list of the algorithms it uses — which contains the algorithm
itself, as the test calls the ordinary API; the calculations and `assert` are left out.  The depth of the calls is bounded by a
step count.  The log, which the code does not have, records the tests that begin and the calls of `lc_rerun_selftests`.
-/

namespace LC.SelfTest

/-- Entries of the log. -/
inductive Ev
  | test (i : Nat)
  | again
deriving DecidableEq, Repr

/-- `lc_selftest_level` and the variables `tested` of all algorithms. -/
structure St where
  level : Nat := 1
  tested : Nat → Nat := fun _ => 0
  log : List Ev := []

/-- Mark an algorithm, line 35 of `compare.h`. -/
def mark (s : St) (i : Nat) : St :=
  { s with tested := fun j => if j = i then s.level else s.tested j, log := .test i :: s.log }

/-- Use of an algorithm: the macro and, if it does not return, the self test with the uses it contains. -/
def use (deps : Nat → List Nat) : Nat → St → Nat → Option St
  | 0, _, _ => none
  | n + 1, s, i =>
    if s.tested i = s.level then some s
    else (deps i).foldlM (fun s j => use deps n s j) (mark s i)

/-- `lc_rerun_selftests`, `/repo/internal/src/compare.c:43-47` (`INT_MAX` is `2^31 - 1`). -/
def rerun (s : St) : St := { s with level := if s.level < 2 ^ 31 - 1 then s.level + 1 else s.level, log := .again :: s.log }

/-- `lc_disable_selftest`, lines 79-82. -/
def disable (s : St) : St := { s with level := 0 }

/-! ### Threads -/

/-- Where a thread stands: before the comparison of the macro, before the assignment, in the self test, behind it. -/
inductive Pc
  | start
  | assign
  | testing
  | ready
deriving DecidableEq, Repr

/-- Two threads that use one algorithm: the level, its variable `tested`, is some test finished, the two threads. -/
structure Th where
  level : Nat := 1
  tested : Nat := 0
  passed : Bool := false
  a : Pc := .start
  b : Pc := .start
deriving DecidableEq, Repr

/-- One step of a thread: its new place, `tested` and `passed`. -/
def stepPc (level tested : Nat) (passed : Bool) : Pc → Pc × Nat × Bool
  | .start => (if tested = level then .ready else .assign, tested, passed)
  | .assign => (.testing, level, passed)
  | .testing => (.ready, tested, true)
  | .ready => (.ready, tested, passed)

/-- One step of the first (`true`) or the second thread. -/
def step (t : Th) (first : Bool) : Th :=
  if first then
    let r := stepPc t.level t.tested t.passed t.a
    { t with a := r.1, tested := r.2.1, passed := r.2.2 }
  else
    let r := stepPc t.level t.tested t.passed t.b
    { t with b := r.1, tested := r.2.1, passed := r.2.2 }

end LC.SelfTest
